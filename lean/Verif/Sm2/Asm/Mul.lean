import Verif.Sm2.Asm.CondSub
import Verif.Sm2.Asm.Code
/-!
What `sm2p256Mul`, `sm2p256Sqr` and `sm2p256FromMont` compute, for every input.
-/
namespace Verif.Sm2.Asm

/-- the 256-bit number at address `a` -/
def ld4 (h : Nat → Nat) (a : Nat) : Nat := h a + B * (h (a + 8) + B * (h (a + 16) + B * h (a + 24)))

/-- the four words at `a` -/
def Words (h : Nat → Nat) (a : Nat) : Prop := h a < B ∧ h (a + 8) < B ∧ h (a + 16) < B ∧ h (a + 24) < B

/-- limb `i` -/
def limb (x i : Nat) : Nat := x / B ^ i % B

/-- what `sm2p256Mul` computes -/
def mulT (x y : Nat) : Nat :=
  condSub (redT (redT (redT (redT (x * limb y 0) + x * limb y 1) + x * limb y 2) + x * limb y 3))

theorem limb_ld4 {h : Nat → Nat} {a : Nat} (w : Words h a) : limb (ld4 h a) 0 = h a ∧ limb (ld4 h a) 1 = h (a + 8) ∧
    limb (ld4 h a) 2 = h (a + 16) ∧ limb (ld4 h a) 3 = h (a + 24) := by
  obtain ⟨w0, w1, w2, w3⟩ := w
  simp only [limb, ld4, B] at *
  refine ⟨?_, ?_, ?_, ?_⟩ <;> omega

theorem xorq_spec (d : Reg) (s : St) : (exec [.xorq (.reg d) d] s).r d = 0 ∧ Same [d] s (exec [.xorq (.reg d) d] s) := by
  simp only [exec_cons, exec_nil, step, St.logic, get_reg, Nat.xor_self, upd_apply, if_true]
  refine ⟨trivial, ?_⟩
  frame

/-- a round of `sm2p256Mul` after the first -/
def roundM (off : Nat) (b0 b1 b2 b3 b4 b5 : Reg) : List Instr :=
  [.xorq (.reg b5) b5] ++ ([.movq (.mem .CX off) (.reg .R14)] ++
    (rowE (.mem .SI 0) (.mem .SI 8) (.mem .SI 16) (.mem .SI 24) (.reg .R14) (.reg .R14) (.reg .R14) (.reg .R14) b0 b1 b2 b3 .R15 b4 b5 ++
      redM b0 b1 b2 b3 .R15 b4 b5))

theorem roundM_spec (off : Nat) (b0 b1 b2 b3 b4 b5 : Reg) (s : St) (w : Wd s [b0, b1, b2, b3, b4]) (hx : Words s.heap (s.r .SI))
    (hy : s.heap (s.r .CX + off) < B) (hd : [.SI, .CX, .R14, .AX, .DX, b0, b1, b2, b3, .R15, b4, b5].Nodup) :
    val (exec (roundM off b0 b1 b2 b3 b4 b5) s) [b1, b2, b3, b4, b5] =
      redT (val s [b0, b1, b2, b3, b4] + ld4 s.heap (s.r .SI) * s.heap (s.r .CX + off)) ∧
    Wd (exec (roundM off b0 b1 b2 b3 b4 b5) s) [b1, b2, b3, b4, b5] ∧
    Same [.R14, .AX, .DX, b0, b1, b2, b3, .R15, b4, b5] s (exec (roundM off b0 b1 b2 b3 b4 b5) s) := by
  obtain ⟨x0, x1, x2, x3⟩ := hx
  have hd' := hd
  regs hd' hk
  obtain ⟨h1, h2⟩ := xorq_spec b5 s
  simp only [roundM, exec_append]
  generalize exec [.xorq (.reg b5) b5] s = s1 at *
  have hcx : s1.r .CX = s.r .CX := h2.r (by far hd' hk)
  have hsi : s1.r .SI = s.r .SI := h2.r (by far hd' hk)
  obtain ⟨k1, -, k2⟩ := movq_spec (.mem .CX off) .R14 s1
  rw [← exec_nil (step s1 _), ← exec_cons] at k1 k2
  rw [get_mem, hcx, h2.2.1] at k1
  generalize exec [.movq (.mem .CX off) (.reg .R14)] s1 = s2 at *
  have hb : s2.heap = s.heap := k2.2.1.trans h2.2.1
  have hsi2 : s2.r .SI = s.r .SI := (k2.r (by far hd' hk)).trans hsi
  have z5 : s2.r b5 = 0 := (k2.r (by far hd' hk)).trans h1
  have z0 : s2.r b0 = s.r b0 := (k2.r (by far hd' hk)).trans (h2.r (by far hd' hk))
  have z1 : s2.r b1 = s.r b1 := (k2.r (by far hd' hk)).trans (h2.r (by far hd' hk))
  have z2 : s2.r b2 = s.r b2 := (k2.r (by far hd' hk)).trans (h2.r (by far hd' hk))
  have z3 : s2.r b3 = s.r b3 := (k2.r (by far hd' hk)).trans (h2.r (by far hd' hk))
  have z4 : s2.r b4 = s.r b4 := (k2.r (by far hd' hk)).trans (h2.r (by far hd' hk))
  obtain ⟨l1, l2, l3, l4⟩ := rowE_spec (.mem .SI 0) (.mem .SI 8) (.mem .SI 16) (.mem .SI 24) (.reg .R14) (.reg .R14) (.reg .R14) (.reg .R14)
    b0 b1 b2 b3 .R15 b4 b5 s2 (by
      bnd
      simp only [get_mem, hb, hsi2, k1]
      exact ⟨x0, x1, x2, x3, hy, hy, hy, hy⟩)
    (.cons (z0 ▸ w.head) (.cons (z1 ▸ w.tail.head) (.cons (z2 ▸ w.tail.tail.head) (.cons (z3 ▸ w.tail.tail.tail.head) (.cons (z4 ▸ w.tail.tail.tail.tail.head) .nil)))))
    (by rw [z5]; decide)
    (by simp only [List.mem_cons, List.not_mem_nil, or_false, forall_eq_or_imp, forall_eq, Src.avoids, hd', hk, reduceCtorEq, or_self, not_false_eq_true, and_self])
    (hd.sublist (by sub))
  generalize exec (rowE (.mem .SI 0) (.mem .SI 8) (.mem .SI 16) (.mem .SI 24) (.reg .R14) (.reg .R14) (.reg .R14) (.reg .R14) b0 b1 b2 b3 .R15 b4 b5) s2 = s3 at *
  obtain ⟨m1, m2, m3⟩ := redM_spec b0 b1 b2 b3 .R15 b4 b5 s3 l2 (by rw [z5] at l3; exact l3) (hd.sublist (by sub))
  refine ⟨?_, m2, ?_⟩
  · rw [m1, l1]
    simp only [get_mem, get_reg, hb, hsi2, k1, val, z0, z1, z2, z3, z4, z5, ld4, Nat.add_zero, Nat.mul_zero]
    congr 1
    ring
  · exact ((h2.trans (n := [.R14, .AX, .DX, b0, b1, b2, b3, .R15, b4, b5]) k2 (by incl) (by incl)).trans (n := [.R14, .AX, .DX, b0, b1, b2, b3, .R15, b4, b5]) l4 (by incl) (by incl)).trans m3 (by incl) (by incl)

/-- the stores of the result -/
def st4 (p a b c d : Reg) : List Instr :=
  [.movq (.reg a) (.mem p 0), .movq (.reg b) (.mem p 8), .movq (.reg c) (.mem p 16), .movq (.reg d) (.mem p 24)]

/-- only the 32 bytes at `a` differ -/
def Elsewhere (a : Nat) (h h' : Nat → Nat) : Prop := ∀ b, b ≠ a → b ≠ a + 8 → b ≠ a + 16 → b ≠ a + 24 → h' b = h b

theorem st4_spec (p a b c d : Reg) (s : St) : ld4 (exec (st4 p a b c d) s).heap (s.r p) = val s [a, b, c, d] ∧
    Elsewhere (s.r p) s.heap (exec (st4 p a b c d) s).heap ∧
    (exec (st4 p a b c d) s).r = s.r ∧ (exec (st4 p a b c d) s).stk = s.stk ∧ (exec (st4 p a b c d) s).args = s.args := by
  simp only [st4, exec_cons, exec_nil, step, St.put, get_reg, val, ld4, Nat.mul_zero, Nat.add_zero]
  refine ⟨?_, ?_, trivial, trivial, trivial⟩
  · simp only [upd_apply, Nat.left_eq_add, Nat.add_left_cancel_iff, Nat.reduceEqDiff, if_true, if_false, Nat.add_eq_left, OfNat.ofNat_ne_zero]
  · intro x h0 h1 h2 h3
    simp only [upd_apply, h0, h1, h2, h3, if_false]

theorem mul_split : sm2p256Mul =
    movs [(.arg 0, .DI), (.arg 24, .SI), (.arg 48, .CX)] ++ ([.movq (.mem .CX 0) (.reg .R14)] ++
    (row0 (.mem .SI 0) (.mem .SI 8) (.mem .SI 16) (.mem .SI 24) (.reg .R14) (.reg .R14) (.reg .R14) (.reg .R14) .R8 .R9 .R10 .R11 .R12 ++
    ([.xorq (.reg .R13) .R13] ++ (redM .R8 .R9 .R10 .R11 .R15 .R12 .R13 ++
    (roundM 8 .R9 .R10 .R11 .R12 .R13 .R8 ++ (roundM 16 .R10 .R11 .R12 .R13 .R8 .R9 ++ (roundM 24 .R11 .R12 .R13 .R8 .R9 .R10 ++
    (condSubC .R12 .R13 .R8 .R9 .SI .R11 .R14 .R15 [(.imm 0, .R10)] ++ st4 .DI .R12 .R13 .R8 .R9)))))))) := by decide +kernel

/-- `sm2/sm2p256_amd64.s:336-554`: the routine stores `mulT` of its operands at the result and changes no other memory -/
theorem mul_exec (s : St) (hx : Words s.heap (s.args 24)) (hy : Words s.heap (s.args 48)) :
    ld4 (exec sm2p256Mul s).heap (s.args 0) = mulT (ld4 s.heap (s.args 24)) (ld4 s.heap (s.args 48)) ∧
    Elsewhere (s.args 0) s.heap (exec sm2p256Mul s).heap := by
  obtain ⟨y0, y1, y2, y3⟩ := hy
  obtain ⟨e0, e1, e2, e3⟩ := limb_ld4 ⟨y0, y1, y2, y3⟩
  rw [mul_split]
  simp only [exec_append]
  obtain ⟨h1, -, -, h2⟩ := movs_spec [(.arg 0, .DI), (.arg 24, .SI), (.arg 48, .CX)] s (by decide)
  have hdi : (exec (movs [(.arg 0, .DI), (.arg 24, .SI), (.arg 48, .CX)]) s).r .DI = s.args 0 := rfl
  have hsi : (exec (movs [(.arg 0, .DI), (.arg 24, .SI), (.arg 48, .CX)]) s).r .SI = s.args 24 := rfl
  have hcx : (exec (movs [(.arg 0, .DI), (.arg 24, .SI), (.arg 48, .CX)]) s).r .CX = s.args 48 := rfl
  have hh := h2.2.1
  clear h1 h2
  generalize exec (movs [(.arg 0, .DI), (.arg 24, .SI), (.arg 48, .CX)]) s = s1 at *
  obtain ⟨k1, -, k2⟩ := movq_spec (.mem .CX 0) .R14 s1
  rw [← exec_nil (step s1 _), ← exec_cons] at k1 k2
  rw [get_mem, hcx, hh, Nat.add_zero] at k1
  generalize exec [.movq (.mem .CX 0) (.reg .R14)] s1 = s2 at *
  have hh2 : s2.heap = s.heap := k2.2.1.trans hh
  have hsi2 : s2.r .SI = s.args 24 := (k2.r (by decide)).trans hsi
  have hcx2 : s2.r .CX = s.args 48 := (k2.r (by decide)).trans hcx
  have hdi2 : s2.r .DI = s.args 0 := (k2.r (by decide)).trans hdi
  obtain ⟨l1, l2, l3⟩ := row0_spec (.mem .SI 0) (.mem .SI 8) (.mem .SI 16) (.mem .SI 24) (.reg .R14) (.reg .R14) (.reg .R14) (.reg .R14) .R8 .R9 .R10 .R11 .R12 s2
    (by
      bnd
      simp only [get_mem, hh2, hsi2, k1]
      exact ⟨hx.1, hx.2.1, hx.2.2.1, hx.2.2.2, y0, y0, y0, y0⟩) (by decide) (by decide)
  generalize exec (row0 (.mem .SI 0) (.mem .SI 8) (.mem .SI 16) (.mem .SI 24) (.reg .R14) (.reg .R14) (.reg .R14) (.reg .R14) .R8 .R9 .R10 .R11 .R12) s2 = s3 at *
  simp only [get_mem, get_reg, hh2, hsi2, k1, Nat.add_zero] at l1
  have T0 : val s3 [.R8, .R9, .R10, .R11, .R12] = ld4 s.heap (s.args 24) * s.heap (s.args 48) := by rw [l1, ld4]; ring
  clear l1 k1 k2
  obtain ⟨m1, m2⟩ := xorq_spec .R13 s3
  generalize exec [.xorq (.reg .R13) .R13] s3 = s4 at *
  obtain ⟨n1, n2, n3⟩ := redM_spec .R8 .R9 .R10 .R11 .R15 .R12 .R13 s4 (m2.wd (by decide) l2) (by rw [m1]; decide) (by decide)
  have T1 : val s4 [.R8, .R9, .R10, .R11, .R12, .R13] = ld4 s.heap (s.args 24) * s.heap (s.args 48) := by
    rw [← T0, ← m2.val (m := [.R8, .R9, .R10, .R11, .R12]) (by decide)]
    simp only [val, m1, Nat.mul_zero, Nat.add_zero]
  rw [T1] at n1
  generalize exec (redM .R8 .R9 .R10 .R11 .R15 .R12 .R13) s4 = s5 at *
  have hh5 : s5.heap = s.heap := ((n3.2.1.trans m2.2.1).trans l3.2.1).trans hh2
  have hsi5 : s5.r .SI = s.args 24 := (((n3.r (by decide)).trans (m2.r (by decide))).trans (l3.r (by decide))).trans hsi2
  have hcx5 : s5.r .CX = s.args 48 := (((n3.r (by decide)).trans (m2.r (by decide))).trans (l3.r (by decide))).trans hcx2
  have hdi5 : s5.r .DI = s.args 0 := (((n3.r (by decide)).trans (m2.r (by decide))).trans (l3.r (by decide))).trans hdi2
  clear T1 T0 l2 l3 m1 m2 n3
  obtain ⟨p1, p2, p3⟩ := roundM_spec 8 .R9 .R10 .R11 .R12 .R13 .R8 s5 n2 (by rw [hh5, hsi5]; exact hx) (by rw [hh5, hcx5]; exact y1) (by decide)
  rw [n1, hh5, hsi5, hcx5] at p1
  generalize exec (roundM 8 .R9 .R10 .R11 .R12 .R13 .R8) s5 = s6 at *
  have hh6 : s6.heap = s.heap := p3.2.1.trans hh5
  have hsi6 : s6.r .SI = s.args 24 := (p3.r (by decide)).trans hsi5
  have hcx6 : s6.r .CX = s.args 48 := (p3.r (by decide)).trans hcx5
  have hdi6 : s6.r .DI = s.args 0 := (p3.r (by decide)).trans hdi5
  obtain ⟨q1, q2, q3⟩ := roundM_spec 16 .R10 .R11 .R12 .R13 .R8 .R9 s6 p2 (by rw [hh6, hsi6]; exact hx) (by rw [hh6, hcx6]; exact y2) (by decide)
  rw [p1, hh6, hsi6, hcx6] at q1
  generalize exec (roundM 16 .R10 .R11 .R12 .R13 .R8 .R9) s6 = s7 at *
  have hh7 : s7.heap = s.heap := q3.2.1.trans hh6
  have hsi7 : s7.r .SI = s.args 24 := (q3.r (by decide)).trans hsi6
  have hcx7 : s7.r .CX = s.args 48 := (q3.r (by decide)).trans hcx6
  have hdi7 : s7.r .DI = s.args 0 := (q3.r (by decide)).trans hdi6
  obtain ⟨r1, r2, r3⟩ := roundM_spec 24 .R11 .R12 .R13 .R8 .R9 .R10 s7 q2 (by rw [hh7, hsi7]; exact hx) (by rw [hh7, hcx7]; exact y3) (by decide)
  rw [q1, hh7, hsi7, hcx7] at r1
  generalize exec (roundM 24 .R11 .R12 .R13 .R8 .R9 .R10) s7 = s8 at *
  have hh8 : s8.heap = s.heap := r3.2.1.trans hh7
  have hdi8 : s8.r .DI = s.args 0 := (r3.r (by decide)).trans hdi7
  obtain ⟨u1, u2, u3⟩ := condSub5_spec .R12 .R13 .R8 .R9 .SI .R11 .R14 .R15 .R10 s8 r2 (by decide)
  generalize exec (condSubC .R12 .R13 .R8 .R9 .SI .R11 .R14 .R15 [(.imm 0, .R10)]) s8 = s9 at *
  have hh9 : s9.heap = s.heap := u3.2.1.trans hh8
  have hdi9 : s9.r .DI = s.args 0 := (u3.r (by decide)).trans hdi8
  obtain ⟨v1, v2, -⟩ := st4_spec .DI .R12 .R13 .R8 .R9 s9
  rw [hdi9] at v1 v2
  rw [hh9] at v2
  refine ⟨?_, v2⟩
  rw [v1, u1, r1, mulT, e0, e1, e2, e3]

end Verif.Sm2.Asm
