import Verif.Sm2.Asm.MulInternal
/-!
What `p256GmSqrInternal` and `sm2p256Sqr` compute: the same as the multiplication of the point routines.
-/
namespace Verif.Sm2.Asm

/-- the square of a word -/
def sq (src : Src) : List Instr := [.movq src (.reg .AX), .mulq (.reg .AX)]

theorem sq_spec (src : Src) (s : St) : (exec (sq src) s).r .AX = src.get s * src.get s % B ∧ (exec (sq src) s).r .DX = src.get s * src.get s / B ∧
    Same [.AX, .DX] s (exec (sq src) s) := by
  simp only [sq, exec_cons, exec_nil, step, St.put, St.setR, get_reg, upd_apply, reduceCtorEq, if_true, if_false]
  refine ⟨trivial, trivial, ?_⟩
  frame

theorem sq_split (x : Nat) (hx : x < B) : x * x % B + B * (x * x / B) = x * x ∧ x * x % B < B ∧ x * x / B + 1 < B := by
  have := mul_bound hx hx
  refine ⟨Nat.mod_add_div _ _, mod_lt_B _, ?_⟩
  have : x * x / B < B - 1 := by
    rw [Nat.div_lt_iff_lt_mul (by decide)]
    simp only [B] at *
    omega
  omega

theorem sqAdd_arith {a b t a' b' d' c x : Nat} (ha : a < B) (hb : b < B) (ht : t < B) (hx : x < B)
    (h : a' + B * (b' + B * (d' + B * 0)) + c * B ^ 3 = a + B * (b + B * (x * x / B + B * 0)) + (t + B * (x * x % B + B * (0 + B * 0)))) :
    a' + B * (b' + B * (d' + B * 0)) = a + B * (b + B * 0) + t + B * (x * x) ∧ c = 0 := by
  obtain ⟨h1, h2, h3⟩ := sq_split x hx
  have hc : c = 0 := by
    clear h1
    generalize x * x % B = l at *
    generalize x * x / B = m at *
    simp only [B] at *
    omega
  subst hc
  refine ⟨?_, rfl⟩
  rw [← h1]
  generalize x * x % B = l at *
  generalize x * x / B = m at *
  linear_combination h

/-- a square added to two limbs, with `t` the word carried in and out -/
def sqAdd (src : Src) (t a b : Reg) : List Instr :=
  sq src ++ (adds [(.reg t, a), (.reg .AX, b), (.imm 0, .DX)] ++ [.movq (.reg .DX) (.reg t)])

theorem sqAdd_spec (src : Src) (t a b : Reg) (s : St) (hx : src.get s < B) (w : Wd s [a, b, t]) (hd : [.AX, .DX, t, a, b].Nodup) :
    val (exec (sqAdd src t a b) s) [a, b, t] = val s [a, b] + s.r t + B * (src.get s * src.get s) ∧
    Wd (exec (sqAdd src t a b) s) [a, b, t] ∧ Same [.AX, .DX, t, a, b] s (exec (sqAdd src t a b) s) := by
  regs hd hk
  have wa := w.head
  have wb := w.tail.head
  have wt := w.tail.tail.head
  obtain ⟨h1, h2, h3⟩ := sq_spec src s
  simp only [sqAdd, exec_append]
  generalize exec (sq src) s = s1 at *
  have ea : s1.r a = s.r a := h3.r (by far hd hk)
  have eb : s1.r b = s.r b := h3.r (by far hd hk)
  have et : s1.r t = s.r t := h3.r (by far hd hk)
  obtain ⟨q1, q2, q3⟩ := sq_split _ hx
  obtain ⟨k1, k2, k3⟩ := adds_spec (.reg t, a) [(.reg .AX, b), (.imm 0, .DX)] s1 (by
    bnd
    rw [ea, eb, et, h1, h2]
    exact ⟨⟨wt, wa⟩, ⟨q2, wb⟩, by decide, by omega⟩) (by cln hd hk)
  generalize exec (adds [(.reg t, a), (.reg .AX, b), (.imm 0, .DX)]) s1 = s2 at *
  simp only [List.map_cons, List.map_nil, val, sval, get_reg, get_imm, List.length_cons, List.length_nil, h1, h2, ea, eb, et] at k1 k2 k3
  obtain ⟨m1, -, m3⟩ := mov_spec .DX t s2
  generalize exec [.movq (.reg .DX) (.reg t)] s2 = s3 at *
  have fa : s3.r a = s2.r a := m3.r (by far hd hk)
  have fb : s3.r b = s2.r b := m3.r (by far hd hk)
  refine ⟨?_, ?_, (h3.trans (n := [.AX, .DX, t, a, b]) k3 (by incl) (by incl)).trans m3 (by incl) (by incl)⟩
  · simp only [val, fa, fb, m1]
    exact (sqAdd_arith wa wb wt hx k1).1
  · refine .cons ?_ (.cons ?_ (.cons ?_ .nil))
    · rw [fa]; exact k2.head
    · rw [fb]; exact k2.tail.head
    · rw [m1]; exact k2.tail.tail.head

/-- the last square -/
def sqEnd (src : Src) (t a b c : Reg) : List Instr :=
  sq src ++ adds [(.reg t, a), (.reg .AX, b), (.reg .DX, c)]

theorem sqEnd_arith {a b c t a' b' d' f x : Nat} (hx : x < B)
    (h : a' + B * (b' + B * (d' + B * 0)) + f * B ^ 3 = a + B * (b + B * (c + B * 0)) + (t + B * (x * x % B + B * (x * x / B + B * 0)))) :
    a' + B * (b' + B * (d' + B * 0)) + f * B ^ 3 = a + B * (b + B * (c + B * 0)) + t + B * (x * x) := by
  obtain ⟨h1, h2, h3⟩ := sq_split x hx
  rw [h]
  generalize x * x % B = l at *
  generalize x * x / B = m at *
  rw [← h1]
  ring

theorem sqEnd_spec (src : Src) (t a b c : Reg) (s : St) (hx : src.get s < B) (w : Wd s [a, b, c, t]) (hd : [.AX, .DX, t, a, b, c].Nodup) :
    val (exec (sqEnd src t a b c) s) [a, b, c] + carry (exec (sqEnd src t a b c) s) * B ^ 3 = val s [a, b, c] + s.r t + B * (src.get s * src.get s) ∧
    Wd (exec (sqEnd src t a b c) s) [a, b, c] ∧ Same [.AX, .DX, t, a, b, c] s (exec (sqEnd src t a b c) s) := by
  regs hd hk
  have wa := w.head
  have wb := w.tail.head
  have wc := w.tail.tail.head
  have wt := w.tail.tail.tail.head
  obtain ⟨h1, h2, h3⟩ := sq_spec src s
  simp only [sqEnd, exec_append]
  generalize exec (sq src) s = s1 at *
  have ea : s1.r a = s.r a := h3.r (by far hd hk)
  have eb : s1.r b = s.r b := h3.r (by far hd hk)
  have ec : s1.r c = s.r c := h3.r (by far hd hk)
  have et : s1.r t = s.r t := h3.r (by far hd hk)
  obtain ⟨q1, q2, q3⟩ := sq_split _ hx
  obtain ⟨k1, k2, k3⟩ := adds_spec (.reg t, a) [(.reg .AX, b), (.reg .DX, c)] s1 (by
    bnd
    rw [ea, eb, ec, et, h1, h2]
    exact ⟨⟨wt, wa⟩, ⟨q2, wb⟩, by omega, wc⟩) (by cln hd hk)
  generalize exec (adds [(.reg t, a), (.reg .AX, b), (.reg .DX, c)]) s1 = s2 at *
  simp only [List.map_cons, List.map_nil, val, sval, get_reg, get_imm, List.length_cons, List.length_nil, h1, h2, ea, eb, ec, et] at k1 k2 k3
  exact ⟨sqEnd_arith hx k1, k2, h3.trans k3 (by incl) (by incl)⟩

/-- the first square -/
def sq0 (src : Src) (a t : Reg) : List Instr := sq src ++ ([.movq (.reg .AX) (.reg a)] ++ [.movq (.reg .DX) (.reg t)])

theorem sq0_spec (src : Src) (a t : Reg) (s : St) (hx : src.get s < B) (hd : [.AX, .DX, t, a].Nodup) :
    val (exec (sq0 src a t) s) [a, t] = src.get s * src.get s ∧
    Wd (exec (sq0 src a t) s) [a, t] ∧ Same [.AX, .DX, t, a] s (exec (sq0 src a t) s) := by
  regs hd hk
  obtain ⟨h1, h2, h3⟩ := sq_spec src s
  simp only [sq0, exec_append]
  generalize exec (sq src) s = s1 at *
  obtain ⟨q1, q2, q3⟩ := sq_split _ hx
  obtain ⟨k1, -, k3⟩ := mov_spec .AX a s1
  generalize exec [.movq (.reg .AX) (.reg a)] s1 = s2 at *
  have ed : s2.r .DX = s1.r .DX := k3.r (by far hd hk)
  obtain ⟨m1, -, m3⟩ := mov_spec .DX t s2
  generalize exec [.movq (.reg .DX) (.reg t)] s2 = s3 at *
  have fa : s3.r a = s2.r a := m3.r (by far hd hk)
  refine ⟨?_, ?_, (h3.trans (n := [.AX, .DX, t, a]) k3 (by incl) (by incl)).trans m3 (by incl) (by incl)⟩
  · simp only [val, fa, m1, k1, ed, h1, h2, Nat.mul_zero, Nat.add_zero]
    exact q1
  · refine .cons ?_ (.cons ?_ .nil)
    · rw [fa, k1, h1]; exact q2
    · rw [m1, ed, h2]; omega

/-- doubling of six limbs into seven -/
def dbl6 (a0 a1 a2 a3 a4 a5 a6 : Reg) : List Instr :=
  [.xorq (.reg a6) a6] ++ adds [(.reg a0, a0), (.reg a1, a1), (.reg a2, a2), (.reg a3, a3), (.reg a4, a4), (.reg a5, a5), (.imm 0, a6)]

theorem dbl6_arith {a0 a1 a2 a3 a4 a5 b0 b1 b2 b3 b4 b5 b6 c : Nat} (h0 : a0 < B) (h1 : a1 < B) (h2 : a2 < B) (h3 : a3 < B) (h4 : a4 < B) (h5 : a5 < B)
    (h : b0 + B * (b1 + B * (b2 + B * (b3 + B * (b4 + B * (b5 + B * (b6 + B * 0)))))) + c * B ^ 7 =
      a0 + B * (a1 + B * (a2 + B * (a3 + B * (a4 + B * (a5 + B * (0 + B * 0)))))) + (a0 + B * (a1 + B * (a2 + B * (a3 + B * (a4 + B * (a5 + B * (0 + B * 0)))))))) :
    b0 + B * (b1 + B * (b2 + B * (b3 + B * (b4 + B * (b5 + B * (b6 + B * 0)))))) = 2 * (a0 + B * (a1 + B * (a2 + B * (a3 + B * (a4 + B * (a5 + B * 0)))))) := by
  have : c = 0 := by simp only [B] at *; omega
  subst this
  linarith

theorem dbl6_spec (a0 a1 a2 a3 a4 a5 a6 : Reg) (s : St) (w : Wd s [a0, a1, a2, a3, a4, a5]) (hd : [a0, a1, a2, a3, a4, a5, a6].Nodup) :
    val (exec (dbl6 a0 a1 a2 a3 a4 a5 a6) s) [a0, a1, a2, a3, a4, a5, a6] = 2 * val s [a0, a1, a2, a3, a4, a5] ∧
    Wd (exec (dbl6 a0 a1 a2 a3 a4 a5 a6) s) [a0, a1, a2, a3, a4, a5, a6] ∧
    Same [a0, a1, a2, a3, a4, a5, a6] s (exec (dbl6 a0 a1 a2 a3 a4 a5 a6) s) := by
  regs hd hk
  obtain ⟨h1, h2⟩ := xorq_spec a6 s
  simp only [dbl6, exec_append]
  generalize exec [.xorq (.reg a6) a6] s = s1 at *
  have e0 : s1.r a0 = s.r a0 := h2.r (by far hd hk)
  have e1 : s1.r a1 = s.r a1 := h2.r (by far hd hk)
  have e2 : s1.r a2 = s.r a2 := h2.r (by far hd hk)
  have e3 : s1.r a3 = s.r a3 := h2.r (by far hd hk)
  have e4 : s1.r a4 = s.r a4 := h2.r (by far hd hk)
  have e5 : s1.r a5 = s.r a5 := h2.r (by far hd hk)
  have w0 := w.head
  have w1 := w.tail.head
  have w2 := w.tail.tail.head
  have w3 := w.tail.tail.tail.head
  have w4 := w.tail.tail.tail.tail.head
  have w5 := w.tail.tail.tail.tail.tail.head
  obtain ⟨k1, k2, k3⟩ := adds_spec (.reg a0, a0) [(.reg a1, a1), (.reg a2, a2), (.reg a3, a3), (.reg a4, a4), (.reg a5, a5), (.imm 0, a6)] s1 (by
    bnd
    rw [e0, e1, e2, e3, e4, e5, h1]
    exact ⟨⟨w0, w0⟩, ⟨w1, w1⟩, ⟨w2, w2⟩, ⟨w3, w3⟩, ⟨w4, w4⟩, ⟨w5, w5⟩, by decide, by decide⟩) (by cln hd hk)
  generalize exec (adds [(.reg a0, a0), (.reg a1, a1), (.reg a2, a2), (.reg a3, a3), (.reg a4, a4), (.reg a5, a5), (.imm 0, a6)]) s1 = s2 at *
  simp only [List.map_cons, List.map_nil, val, sval, get_reg, get_imm, List.length_cons, List.length_nil, h1, e0, e1, e2, e3, e4, e5] at k1 k2 k3
  refine ⟨?_, k2, h2.trans k3 (by incl) (by incl)⟩
  simp only [val]
  exact dbl6_arith w0 w1 w2 w3 w4 w5 k1

/-- the conditional subtraction that leaves its result in the copies -/
def condSubK (o0 o1 o2 o3 c0 c1 c2 c3 e : Reg) : List Instr :=
  movs [(.reg o0, c0), (.reg o1, c1), (.reg o2, c2), (.reg o3, c3)] ++ (subs (primeSubs c0 c1 c2 c3 [(.imm 0, e)]) ++
    cmovs [(.reg o0, c0), (.reg o1, c1), (.reg o2, c2), (.reg o3, c3)])

theorem condSubK_spec (o0 o1 o2 o3 c0 c1 c2 c3 e : Reg) (s : St) (w : Wd s [o0, o1, o2, o3, e])
    (hd : [o0, o1, o2, o3, c0, c1, c2, c3, e].Nodup) :
    val (exec (condSubK o0 o1 o2 o3 c0 c1 c2 c3 e) s) [c0, c1, c2, c3] = condSub (val s [o0, o1, o2, o3, e]) ∧
    Wd (exec (condSubK o0 o1 o2 o3 c0 c1 c2 c3 e) s) [c0, c1, c2, c3] ∧
    Same [c0, c1, c2, c3, e] s (exec (condSubK o0 o1 o2 o3 c0 c1 c2 c3 e) s) := by
  regs hd hk
  have w0 := w.head
  have w1 := w.tail.head
  have w2 := w.tail.tail.head
  have w3 := w.tail.tail.tail.head
  have w4 := w.tail.tail.tail.tail.head
  obtain ⟨-, -, -, h3⟩ := movs_spec [(.reg o0, c0), (.reg o1, c1), (.reg o2, c2), (.reg o3, c3)] s (by cln hd hk)
  have q : ∀ p ∈ [(o0, c0), (o1, c1), (o2, c2), (o3, c3)], (exec (movs [(.reg o0, c0), (.reg o1, c1), (.reg o2, c2), (.reg o3, c3)]) s).r p.2 = s.r p.1 := by
    simp only [movs, List.mem_cons, List.not_mem_nil, or_false, forall_eq_or_imp, forall_eq, exec_cons, exec_nil, step, St.put, St.setR, get_reg]
    simp only [upd_apply, if_true, if_false, hd, hk, and_self]
  simp only [List.mem_cons, List.not_mem_nil, or_false, forall_eq_or_imp, forall_eq] at q
  obtain ⟨q0, q1, q2, q3⟩ := q
  simp only [condSubK, exec_append]
  generalize exec (movs [(.reg o0, c0), (.reg o1, c1), (.reg o2, c2), (.reg o3, c3)]) s = s1 at *
  have f0 : s1.r o0 = s.r o0 := h3.r (by far hd hk)
  have f1 : s1.r o1 = s.r o1 := h3.r (by far hd hk)
  have f2 : s1.r o2 = s.r o2 := h3.r (by far hd hk)
  have f3 : s1.r o3 = s.r o3 := h3.r (by far hd hk)
  have f4 : s1.r e = s.r e := h3.r (by far hd hk)
  obtain ⟨k1, k2, k3⟩ := subs_spec (.imm 0xffffffffffffffff, c0) [(.imm 0xffffffff00000000, c1), (.imm 0xffffffffffffffff, c2), (.imm 0xfffffffeffffffff, c3), (.imm 0, e)] s1 (by
    bnd
    rw [q0, q1, q2, q3, f4]
    exact ⟨⟨by decide, w0⟩, ⟨by decide, w1⟩, ⟨by decide, w2⟩, ⟨by decide, w3⟩, by decide, w4⟩) (by cln hd hk)
  simp only [primeSubs]
  generalize exec (subs [(.imm 0xffffffffffffffff, c0), (.imm 0xffffffff00000000, c1), (.imm 0xffffffffffffffff, c2), (.imm 0xfffffffeffffffff, c3), (.imm 0, e)]) s1 = s2 at *
  obtain ⟨l1, l2, l3⟩ := cmovs_spec [(.reg o0, c0), (.reg o1, c1), (.reg o2, c2), (.reg o3, c3)] s2 (by
    intro p hp
    simp only [List.mem_cons, List.not_mem_nil, or_false] at hp
    rcases hp with rfl | rfl | rfl | rfl <;> exact ⟨_, rfl⟩) (by cln hd hk)
  have g0 : s2.r o0 = s.r o0 := (k3.r (by far hd hk)).trans f0
  have g1 : s2.r o1 = s.r o1 := (k3.r (by far hd hk)).trans f1
  have g2 : s2.r o2 = s.r o2 := (k3.r (by far hd hk)).trans f2
  have g3 : s2.r o3 = s.r o3 := (k3.r (by far hd hk)).trans f3
  generalize exec (cmovs [(.reg o0, c0), (.reg o1, c1), (.reg o2, c2), (.reg o3, c3)]) s2 = s3 at *
  simp only [List.map_cons, List.map_nil, sval, val, get_reg, get_imm, List.length_cons, List.length_nil] at k1 k2 l1 l2
  rw [q0, q1, q2, q3, f4] at k1
  have A := condSub_arith5 k2.head k2.tail.head k2.tail.tail.head k2.tail.tail.tail.head k2.tail.tail.tail.tail.head (carry_le s2) k1 w0 w1 w2 w3 w4
  refine ⟨?_, ?_, (h3.trans (n := [c0, c1, c2, c3, e]) k3 (by incl) (by incl)).trans l3 (by incl) (by incl)⟩
  · simp only [val]
    rw [l1, g0, g1, g2, g3]
    cases h : s2.cf
    · exact A.2 ((carry_cf s2).2 h)
    · exact A.1 ((carry_cf s2).1 h)
  · refine l2 ?_
    bnd
    rw [g0, g1, g2, g3]
    exact ⟨⟨w0, k2.head⟩, ⟨w1, k2.tail.head⟩, ⟨w2, k2.tail.tail.head⟩, w3, k2.tail.tail.tail.head⟩

/-- the products of different limbs -/
theorem off_arith {x0 x1 x2 x3 a0 a1 a2 a3 a4 a5 b1 b2 c2 t b3 b4 : Nat}
    (h0 : a0 = x0 * x1 % B) (h1 : b1 = x0 * x1 / B) (h2 : a1 = (b1 + x0 * x2) % B) (h3 : b2 = (b1 + x0 * x2) / B)
    (h4 : c2 = (b2 + x0 * x3) % B) (h5 : b3 = (b2 + x0 * x3) / B) (h6 : a2 = (c2 + x1 * x2) % B) (h7 : t = (c2 + x1 * x2) / B)
    (h8 : a3 = (b3 + t + x1 * x3) % B) (h9 : b4 = (b3 + t + x1 * x3) / B) (h10 : a4 = (b4 + x2 * x3) % B) (h11 : a5 = (b4 + x2 * x3) / B) :
    a0 + B * (a1 + B * (a2 + B * (a3 + B * (a4 + B * (a5 + B * 0))))) = x0 * x1 + B * (x0 * x2 + B * (x0 * x3 + x1 * x2 + B * (x1 * x3 + B * (x2 * x3)))) := by
  have e0 := Nat.mod_add_div (x0 * x1) B
  have e1 := Nat.mod_add_div (b1 + x0 * x2) B
  have e2 := Nat.mod_add_div (b2 + x0 * x3) B
  have e3 := Nat.mod_add_div (c2 + x1 * x2) B
  have e4 := Nat.mod_add_div (b3 + t + x1 * x3) B
  have e5 := Nat.mod_add_div (b4 + x2 * x3) B
  rw [← h0, ← h1] at e0
  rw [← h2, ← h3] at e1
  rw [← h4, ← h5] at e2
  rw [← h6, ← h7] at e3
  rw [← h8, ← h9] at e4
  rw [← h10, ← h11] at e5
  clear h0 h1 h2 h3 h4 h5 h6 h7 h8 h9 h10 h11
  linear_combination e0 + B * e1 + B ^ 2 * e2 + B ^ 2 * e3 + B ^ 3 * e4 + B ^ 4 * e5

/-- the whole square -/
theorem sqr_arith {x0 x1 x2 x3 m d1 d2 d3 d4 d5 d6 d7 a0 t0 a1 a2 t1 a3 a4 t2 a5 a6 a7 c : Nat} (hx0 : x0 < B) (hx1 : x1 < B) (hx2 : x2 < B) (hx3 : x3 < B)
    (hm : m = x0 * x1 + B * (x0 * x2 + B * (x0 * x3 + x1 * x2 + B * (x1 * x3 + B * (x2 * x3)))))
    (hd : d1 + B * (d2 + B * (d3 + B * (d4 + B * (d5 + B * (d6 + B * (d7 + B * 0)))))) = 2 * m)
    (h0 : a0 + B * (t0 + B * 0) = x0 * x0)
    (h1 : a1 + B * (a2 + B * (t1 + B * 0)) = d1 + B * (d2 + B * 0) + t0 + B * (x1 * x1))
    (h2 : a3 + B * (a4 + B * (t2 + B * 0)) = d3 + B * (d4 + B * 0) + t1 + B * (x2 * x2))
    (h3 : a5 + B * (a6 + B * (a7 + B * 0)) + c * B ^ 3 = d5 + B * (d6 + B * (d7 + B * 0)) + t2 + B * (x3 * x3)) :
    a0 + B * (a1 + B * (a2 + B * (a3 + B * (a4 + B * (a5 + B * (a6 + B * a7)))))) =
      (x0 + B * (x1 + B * (x2 + B * (x3 + B * 0)))) * (x0 + B * (x1 + B * (x2 + B * (x3 + B * 0)))) := by
  have e : a0 + B * (a1 + B * (a2 + B * (a3 + B * (a4 + B * (a5 + B * (a6 + B * a7)))))) + c * B ^ 8 =
      (x0 + B * (x1 + B * (x2 + B * (x3 + B * 0)))) * (x0 + B * (x1 + B * (x2 + B * (x3 + B * 0)))) := by
    rw [hm] at hd
    linear_combination h0 + B * h1 + B ^ 3 * h2 + B ^ 5 * h3 + B * hd
  have hX : x0 + B * (x1 + B * (x2 + B * (x3 + B * 0))) ≤ B ^ 4 - 1 := by
    clear e h0 h1 h2 h3 hm hd
    simp only [B] at *; omega
  generalize x0 + B * (x1 + B * (x2 + B * (x3 + B * 0))) = X at *
  have hXX : X * X ≤ (B ^ 4 - 1) * (B ^ 4 - 1) := Nat.mul_le_mul hX hX
  have : c = 0 := by
    clear h0 h1 h2 h3 hm hd
    generalize X * X = Y at *
    simp only [B] at *
    omega
  subst this
  linarith

theorem sqrInternal_split : p256GmSqrInternal =
    mul0 (.reg .R10) (.reg .R11) .CX .R8 ++ (mac0 (.reg .R10) (.reg .R12) .R8 .R9 ++ (mac0 (.reg .R10) (.reg .R13) .R9 .R14 ++
    (mac0 (.reg .R11) (.reg .R12) .R9 .BP ++ (mac (.reg .R11) (.reg .R13) .R14 .BP .R15 ++ (mac0 (.reg .R12) (.reg .R13) .R15 .DI ++
    (dbl6 .CX .R8 .R9 .R14 .R15 .DI .SI ++ (sq0 (.reg .R10) .BX .R10 ++ (sqAdd (.reg .R11) .R10 .CX .R8 ++ (sqAdd (.reg .R12) .R10 .R9 .R14 ++
    (sqEnd (.reg .R13) .R10 .R15 .DI .SI ++ (red4 .BX .CX .R8 .R9 .BP ++ ([.movq (.imm 0) (.reg .BP)] ++ (foldIn .R14 .R15 .DI .SI .BX .CX .R8 .R9 .BP ++
    condSubK .R14 .R15 .DI .SI .R10 .R11 .R12 .R13 .BP))))))))))))) := by decide +kernel

end Verif.Sm2.Asm
