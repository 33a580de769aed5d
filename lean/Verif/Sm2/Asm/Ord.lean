import Verif.Sm2.Asm.SqrMem
import Verif.Sm2.Params
import Mathlib.Data.Nat.ModEq
/-!
Arithmetic modulo the order of the group: `sm2p256OrdMul` executed for every input (sm2/sm2p256_amd64.s:791-1076).
-/
namespace Verif.Sm2.Asm

/-- the order of the group, from the constants of the assembly -/
def Q : Nat := ord0 + B * (ord1 + B * (ord2 + B * ord3))

theorem Q_eq : Q = Verif.Sm2.N := by decide +kernel

/-! ### the conditional subtraction -/

/-- `T` if it is below the order, else `T - n` in four limbs -/
def condSubQ (T : Nat) : Nat := if T < Q then T else (T - Q) % B ^ 4

/-- subtraction of the order, undone by the conditional moves if it borrows -/
def condSubO (d0 d1 d2 d3 c0 c1 c2 c3 e : Reg) : List Instr :=
  movs [(.reg d0, c0), (.reg d1, c1), (.reg d2, c2), (.reg d3, c3)] ++
    (subs [(.imm ord0, d0), (.imm ord1, d1), (.imm ord2, d2), (.imm ord3, d3), (.imm 0, e)] ++
    cmovs [(.reg c0, d0), (.reg c1, d1), (.reg c2, d2), (.reg c3, d3)])

theorem condSubQ_arith {x0 x1 x2 x3 e y0 y1 y2 y3 f c : Nat}
    (j0 : y0 < B) (j1 : y1 < B) (j2 : y2 < B) (j3 : y3 < B) (j4 : f < B) (hc : c ≤ 1)
    (h : y0 + B * (y1 + B * (y2 + B * (y3 + B * (f + B * 0)))) + (ord0 + B * (ord1 + B * (ord2 + B * (ord3 + B * (0 + B * 0))))) =
      x0 + B * (x1 + B * (x2 + B * (x3 + B * (e + B * 0)))) + c * B ^ 5)
    (k0 : x0 < B) (k1 : x1 < B) (k2 : x2 < B) (k3 : x3 < B) (k4 : e < B) :
    (c = 1 → x0 + B * (x1 + B * (x2 + B * (x3 + B * 0))) = condSubQ (x0 + B * (x1 + B * (x2 + B * (x3 + B * (e + B * 0)))))) ∧
    (c = 0 → y0 + B * (y1 + B * (y2 + B * (y3 + B * 0))) = condSubQ (x0 + B * (x1 + B * (x2 + B * (x3 + B * (e + B * 0)))))) := by
  constructor
  · intro e1
    subst e1
    have hT : x0 + B * (x1 + B * (x2 + B * (x3 + B * (e + B * 0)))) < Q := by simp only [B, Q, ord0, ord1, ord2, ord3] at *; omega
    rw [condSubQ, if_pos hT]
    simp only [B, Q, ord0, ord1, ord2, ord3] at *
    omega
  · intro e1
    subst e1
    have hT : ¬ x0 + B * (x1 + B * (x2 + B * (x3 + B * (e + B * 0)))) < Q := by simp only [B, Q, ord0, ord1, ord2, ord3] at *; omega
    rw [condSubQ, if_neg hT]
    have : x0 + B * (x1 + B * (x2 + B * (x3 + B * (e + B * 0)))) - Q = y0 + B * (y1 + B * (y2 + B * (y3 + B * 0))) + f * B ^ 4 := by
      simp only [B, Q, ord0, ord1, ord2, ord3] at *; omega
    rw [this, Nat.add_mul_mod_self_right, Nat.mod_eq_of_lt]
    clear h this hT
    simp only [B] at *
    omega

theorem condSubO_spec (d0 d1 d2 d3 c0 c1 c2 c3 e : Reg) (s : St) (w : Wd s [d0, d1, d2, d3, e])
    (hd : [d0, d1, d2, d3, c0, c1, c2, c3, e].Nodup) :
    val (exec (condSubO d0 d1 d2 d3 c0 c1 c2 c3 e) s) [d0, d1, d2, d3] = condSubQ (val s [d0, d1, d2, d3, e]) ∧
    Wd (exec (condSubO d0 d1 d2 d3 c0 c1 c2 c3 e) s) [d0, d1, d2, d3] ∧
    Same [d0, d1, d2, d3, c0, c1, c2, c3, e] s (exec (condSubO d0 d1 d2 d3 c0 c1 c2 c3 e) s) := by
  regs hd hk
  have w0 := w.head
  have w1 := w.tail.head
  have w2 := w.tail.tail.head
  have w3 := w.tail.tail.tail.head
  have w4 := w.tail.tail.tail.tail.head
  obtain ⟨h1, -, h2, h3⟩ := movs_spec [(.reg d0, c0), (.reg d1, c1), (.reg d2, c2), (.reg d3, c3)] s (by cln hd hk)
  simp only [condSubO, exec_append]
  generalize exec (movs [(.reg d0, c0), (.reg d1, c1), (.reg d2, c2), (.reg d3, c3)]) s = s1 at *
  have f0 : s1.r d0 = s.r d0 := h3.r (by far hd hk)
  have f1 : s1.r d1 = s.r d1 := h3.r (by far hd hk)
  have f2 : s1.r d2 = s.r d2 := h3.r (by far hd hk)
  have f3 : s1.r d3 = s.r d3 := h3.r (by far hd hk)
  have f4 : s1.r e = s.r e := h3.r (by far hd hk)
  obtain ⟨k1, k2, k3⟩ := subs_spec (.imm ord0, d0) [(.imm ord1, d1), (.imm ord2, d2), (.imm ord3, d3), (.imm 0, e)] s1 (by
    bnd
    rw [f0, f1, f2, f3, f4]
    exact ⟨⟨by decide, w0⟩, ⟨by decide, w1⟩, ⟨by decide, w2⟩, ⟨by decide, w3⟩, by decide, w4⟩) (by cln hd hk)
  generalize exec (subs [(.imm ord0, d0), (.imm ord1, d1), (.imm ord2, d2), (.imm ord3, d3), (.imm 0, e)]) s1 = s2 at *
  obtain ⟨l1, l2, l3⟩ := cmovs_spec [(.reg c0, d0), (.reg c1, d1), (.reg c2, d2), (.reg c3, d3)] s2 (by
    intro p hp
    simp only [List.mem_cons, List.not_mem_nil, or_false] at hp
    rcases hp with rfl | rfl | rfl | rfl <;> exact ⟨_, rfl⟩) (by cln hd hk)
  have g0 : s2.r c0 = s1.r c0 := k3.r (by far hd hk)
  have g1 : s2.r c1 = s1.r c1 := k3.r (by far hd hk)
  have g2 : s2.r c2 = s1.r c2 := k3.r (by far hd hk)
  have g3 : s2.r c3 = s1.r c3 := k3.r (by far hd hk)
  replace h2 := h2 (by bnd; exact ⟨w0, w1, w2, w3⟩)
  generalize exec (cmovs [(.reg c0, d0), (.reg c1, d1), (.reg c2, d2), (.reg c3, d3)]) s2 = s3 at *
  simp only [List.map_cons, List.map_nil, sval, val, get_reg, get_imm, List.length_cons, List.length_nil] at h1 k1 k2 l1 l2 h2
  rw [f0, f1, f2, f3, f4] at k1
  have A := condSubQ_arith k2.head k2.tail.head k2.tail.tail.head k2.tail.tail.tail.head k2.tail.tail.tail.tail.head (carry_le s2) k1 w0 w1 w2 w3 w4
  refine ⟨?_, ?_, (h3.trans (n := [d0, d1, d2, d3, c0, c1, c2, c3, e]) k3 (by incl) (by incl)).trans l3 (by incl) (by incl)⟩
  · simp only [val]
    rw [l1, g0, g1, g2, g3, h1]
    cases h : s2.cf
    · exact A.2 ((carry_cf s2).2 h)
    · exact A.1 ((carry_cf s2).1 h)
  · refine l2 ?_
    bnd
    rw [g0, g1, g2, g3]
    exact ⟨⟨h2.head, k2.head⟩, ⟨h2.tail.head, k2.tail.head⟩, ⟨h2.tail.tail.head, k2.tail.tail.head⟩, h2.tail.tail.tail.head, k2.tail.tail.tail.head⟩

/-! ### the reduction step -/

/-- the multiple of `n` that makes the lowest limb zero -/
def ordK (T : Nat) : Nat := T % B * ordK0 % B

/-- one Montgomery step -/
def ordStep (T : Nat) : Nat := (T + ordK T * Q) / B

/-- `k := lowest limb * ordK0` into `R14` -/
def getK (a : Reg) : List Instr := [.movq (.reg a) (.reg .AX), .mulq (.imm ordK0), .movq (.reg .AX) (.reg .R14)]

theorem getK_spec (a : Reg) (s : St) (ha : a ≠ .R14) : (exec (getK a) s).r .R14 = s.r a * ordK0 % B ∧ Same [.AX, .DX, .R14] s (exec (getK a) s) := by
  simp only [getK, exec_cons, exec_nil, step, St.put, St.setR, get_reg, get_imm]
  simp only [upd_apply, reduceCtorEq, if_true, if_false]
  refine ⟨trivial, ?_⟩
  frame

/-- reduction of `sm2p256OrdMul` -/
def redO (a0 a1 a2 a3 a4 a5 : Reg) : List Instr :=
  getK a0 ++ rowE (.imm ord0) (.imm ord1) (.imm ord2) (.imm ord3) (.reg .R14) (.reg .R14) (.reg .R14) (.reg .R14) a0 a1 a2 a3 .R15 a4 a5

theorem mont_exact (M k o r T : Nat) (h : (k * o + 1) % M = 0) : (T + T % M * k % M * (o + M * r)) % M = 0 := by
  have e : T + T % M * k % M * (o + M * r) = T + T % M * k % M * o + M * (T % M * k % M * r) := by ring
  rw [e, Nat.add_mul_mod_self_left]
  have h1 : T + T % M * k % M * o ≡ T + T * k * o [MOD M] :=
    Nat.ModEq.add_left _ (Nat.ModEq.mul_right _ ((Nat.mod_modEq _ _).trans (Nat.ModEq.mul_right _ (Nat.mod_modEq _ _))))
  have h2 : T + T * k * o = T * (k * o + 1) := by ring
  rw [h2] at h1
  have h3 : T * (k * o + 1) ≡ 0 [MOD M] := (Nat.modEq_zero_iff_dvd).2 (Dvd.dvd.mul_left (Nat.dvd_of_mod_eq_zero h) T)
  exact h1.trans h3

theorem ord_exact (T : Nat) : (T + ordK T * Q) % B = 0 :=
  mont_exact B ordK0 ord0 (ord1 + B * (ord2 + B * ord3)) T (by decide +kernel)

theorem ordStep_mul (T : Nat) : ordStep T * B = T + ordK T * Q := by
  unfold ordStep
  exact Nat.div_mul_cancel (Nat.dvd_of_mod_eq_zero (ord_exact T))

theorem redO_spec (a0 a1 a2 a3 a4 a5 : Reg) (s : St) (w : Wd s [a0, a1, a2, a3, a4]) (h5 : s.r a5 ≤ 1)
    (hd : [.R14, .AX, .DX, a0, a1, a2, a3, .R15, a4, a5].Nodup) :
    val (exec (redO a0 a1 a2 a3 a4 a5) s) [a1, a2, a3, a4, a5] = ordStep (val s [a0, a1, a2, a3, a4, a5]) ∧
    (exec (redO a0 a1 a2 a3 a4 a5) s).r a0 = 0 ∧
    Wd (exec (redO a0 a1 a2 a3 a4 a5) s) [a1, a2, a3, a4, a5] ∧
    Same [.R14, .AX, .DX, a0, a1, a2, a3, .R15, a4, a5] s (exec (redO a0 a1 a2 a3 a4 a5) s) := by
  have hd' := hd
  regs hd' hk
  obtain ⟨h1, h2⟩ := getK_spec a0 s (by simp only [ne_eq, hd', hk, not_false_eq_true])
  simp only [redO, exec_append]
  generalize exec (getK a0) s = s1 at *
  have z0 : s1.r a0 = s.r a0 := h2.r (by far hd' hk)
  have z1 : s1.r a1 = s.r a1 := h2.r (by far hd' hk)
  have z2 : s1.r a2 = s.r a2 := h2.r (by far hd' hk)
  have z3 : s1.r a3 = s.r a3 := h2.r (by far hd' hk)
  have z4 : s1.r a4 = s.r a4 := h2.r (by far hd' hk)
  have z5 : s1.r a5 = s.r a5 := h2.r (by far hd' hk)
  have hk14 : s1.r .R14 < B := by rw [h1]; exact mod_lt_B _
  obtain ⟨l1, l2, l3, l4⟩ := rowE_spec (.imm ord0) (.imm ord1) (.imm ord2) (.imm ord3) (.reg .R14) (.reg .R14) (.reg .R14) (.reg .R14)
    a0 a1 a2 a3 .R15 a4 a5 s1 (by
      bnd
      exact ⟨by decide, by decide, by decide, by decide, hk14, hk14, hk14, hk14⟩)
    (.cons (z0 ▸ w.head) (.cons (z1 ▸ w.tail.head) (.cons (z2 ▸ w.tail.tail.head) (.cons (z3 ▸ w.tail.tail.tail.head) (.cons (z4 ▸ w.tail.tail.tail.tail.head) .nil)))))
    (by rw [z5]; simp only [B]; omega)
    (by simp only [List.mem_cons, List.not_mem_nil, or_false, forall_eq_or_imp, forall_eq, Src.avoids, hd', hk, reduceCtorEq, or_self, not_false_eq_true, and_self])
    (hd.sublist (by sub))
  generalize exec (rowE (.imm ord0) (.imm ord1) (.imm ord2) (.imm ord3) (.reg .R14) (.reg .R14) (.reg .R14) (.reg .R14) a0 a1 a2 a3 .R15 a4 a5) s1 = s2 at *
  have eT : val s1 [a0, a1, a2, a3, a4, a5] = val s [a0, a1, a2, a3, a4, a5] := by simp only [val, z0, z1, z2, z3, z4, z5]
  rw [eT] at l1
  simp only [get_imm, get_reg] at l1
  have hK : s1.r .R14 = ordK (val s [a0, a1, a2, a3, a4, a5]) := by
    rw [h1, ordK]
    have : val s [a0, a1, a2, a3, a4, a5] % B = s.r a0 := by
      simp only [val]
      rw [Nat.add_mul_mod_self_left, Nat.mod_eq_of_lt w.head]
    rw [this]
  generalize val s [a0, a1, a2, a3, a4, a5] = T at *
  rw [hK] at l1
  have l1' : val s2 [a0, a1, a2, a3, a4, a5] = T + ordK T * Q := by
    rw [l1, Q]; ring
  have e : val s2 [a0, a1, a2, a3, a4, a5] = s2.r a0 + B * val s2 [a1, a2, a3, a4, a5] := rfl
  have hz : s2.r a0 = 0 := by
    have h := ord_exact T
    rw [← l1', e, Nat.add_mul_mod_self_left, Nat.mod_eq_of_lt l2.head] at h
    exact h
  refine ⟨?_, hz, ?_, h2.trans l4 (by incl) (by incl)⟩
  · rw [ordStep, ← l1', e, hz, Nat.zero_add, Nat.mul_div_cancel_left _ (by decide)]
  · refine .cons l2.tail.head (.cons l2.tail.tail.head (.cons l2.tail.tail.tail.head (.cons l2.tail.tail.tail.tail.head (.cons ?_ .nil))))
    rw [z5] at l3
    simp only [B]
    omega

/-! ### `sm2p256OrdMul` -/

/-- what `sm2p256OrdMul` computes -/
def ordMulT (x y : Nat) : Nat :=
  condSubQ (ordStep (ordStep (ordStep (ordStep (x * limb y 0) + x * limb y 1) + x * limb y 2) + x * limb y 3))

/-- a round of `sm2p256OrdMul` after the first -/
def roundO (off : Nat) (b0 b1 b2 b3 b4 b5 : Reg) : List Instr :=
  [.movq (.mem .CX off) (.reg .R14)] ++
    (rowE (.mem .SI 0) (.mem .SI 8) (.mem .SI 16) (.mem .SI 24) (.reg .R14) (.reg .R14) (.reg .R14) (.reg .R14) b0 b1 b2 b3 .R15 b4 b5 ++
      redO b0 b1 b2 b3 b4 b5)

theorem roundO_spec (off : Nat) (b0 b1 b2 b3 b4 b5 : Reg) (s : St) (w : Wd s [b0, b1, b2, b3, b4]) (z : s.r b5 = 0) (hx : Words s.heap (s.r .SI))
    (hy : s.heap (s.r .CX + off) < B) (hd : [.SI, .CX, .R14, .AX, .DX, b0, b1, b2, b3, .R15, b4, b5].Nodup) :
    val (exec (roundO off b0 b1 b2 b3 b4 b5) s) [b1, b2, b3, b4, b5] =
      ordStep (val s [b0, b1, b2, b3, b4] + ld4 s.heap (s.r .SI) * s.heap (s.r .CX + off)) ∧
    (exec (roundO off b0 b1 b2 b3 b4 b5) s).r b0 = 0 ∧
    Wd (exec (roundO off b0 b1 b2 b3 b4 b5) s) [b1, b2, b3, b4, b5] ∧
    Same [.R14, .AX, .DX, b0, b1, b2, b3, .R15, b4, b5] s (exec (roundO off b0 b1 b2 b3 b4 b5) s) := by
  obtain ⟨x0, x1, x2, x3⟩ := hx
  have hd' := hd
  regs hd' hk
  simp only [roundO, exec_append]
  obtain ⟨k1, k2⟩ := ldq_spec .CX off .R14 s
  generalize exec [.movq (.mem .CX off) (.reg .R14)] s = s2 at *
  have hb : s2.heap = s.heap := k2.2.1
  have hsi2 : s2.r .SI = s.r .SI := k2.r (by far hd' hk)
  have z5 : s2.r b5 = 0 := (k2.r (by far hd' hk)).trans z
  have z0 : s2.r b0 = s.r b0 := k2.r (by far hd' hk)
  have z1 : s2.r b1 = s.r b1 := k2.r (by far hd' hk)
  have z2 : s2.r b2 = s.r b2 := k2.r (by far hd' hk)
  have z3 : s2.r b3 = s.r b3 := k2.r (by far hd' hk)
  have z4 : s2.r b4 = s.r b4 := k2.r (by far hd' hk)
  obtain ⟨l1, l2, l3, l4⟩ := rowE_spec (.mem .SI 0) (.mem .SI 8) (.mem .SI 16) (.mem .SI 24) (.reg .R14) (.reg .R14) (.reg .R14) (.reg .R14)
    b0 b1 b2 b3 .R15 b4 b5 s2 (by
      bnd
      simp only [get_mem, hb, hsi2, k1]
      exact ⟨x0, x1, x2, x3, hy, hy, hy, hy⟩)
    (.cons (z0 ▸ w.head) (.cons (z1 ▸ w.tail.head) (.cons (z2 ▸ w.tail.tail.head) (.cons (z3 ▸ w.tail.tail.tail.head) (.cons (z4 ▸ w.tail.tail.tail.tail.head) .nil)))))
    (by rw [z5]; decide)
    (by simp only [List.mem_cons, List.not_mem_nil, or_false, forall_eq_or_imp, forall_eq, Src.avoids, hd', hk, reduceCtorEq, or_self, not_false_eq_true, and_self])
    (hd.sublist (by sub))
  generalize exec (rowE (.mem .SI 0) (.mem .SI 8) (.mem .SI 16) (.mem .SI 24) (.reg .R14) (.reg .R14) (.reg .R14) (.reg .R14) b0 b1 b2 b3 .R15 b4 b5) s2 = s3 at *
  obtain ⟨m1, m0, m2, m3⟩ := redO_spec b0 b1 b2 b3 b4 b5 s3 l2 (by rw [z5] at l3; exact l3) (hd.sublist (by sub))
  refine ⟨?_, m0, m2, ?_⟩
  · rw [m1, l1]
    simp only [get_mem, get_reg, hb, hsi2, k1, val, z0, z1, z2, z3, z4, z5, ld4, Nat.add_zero, Nat.mul_zero]
    congr 1
    ring
  · exact (k2.trans (n := [.R14, .AX, .DX, b0, b1, b2, b3, .R15, b4, b5]) l4 (by incl) (by incl)).trans m3 (by incl) (by incl)

theorem ordMul_split : sm2p256OrdMul =
    movs [(.arg 0, .DI), (.arg 24, .SI), (.arg 48, .CX)] ++ ([.movq (.mem .CX 0) (.reg .R14)] ++
    (row0 (.mem .SI 0) (.mem .SI 8) (.mem .SI 16) (.mem .SI 24) (.reg .R14) (.reg .R14) (.reg .R14) (.reg .R14) .R8 .R9 .R10 .R11 .R12 ++
    ([.xorq (.reg .R13) .R13] ++ (redO .R8 .R9 .R10 .R11 .R12 .R13 ++
    (roundO 8 .R9 .R10 .R11 .R12 .R13 .R8 ++ (roundO 16 .R10 .R11 .R12 .R13 .R8 .R9 ++ (roundO 24 .R11 .R12 .R13 .R8 .R9 .R10 ++
    (condSubO .R12 .R13 .R8 .R9 .SI .R11 .R14 .R15 .R10 ++ st4 .DI .R12 .R13 .R8 .R9)))))))) := by decide +kernel

/-- `sm2/sm2p256_amd64.s:791-1076`: the routine stores `ordMulT` of its operands at the result and changes no other memory -/
theorem ordMul_exec (s : St) (hx : Words s.heap (s.args 24)) (hy : Words s.heap (s.args 48)) :
    ld4 (exec sm2p256OrdMul s).heap (s.args 0) = ordMulT (ld4 s.heap (s.args 24)) (ld4 s.heap (s.args 48)) ∧
    Elsewhere (s.args 0) s.heap (exec sm2p256OrdMul s).heap := by
  obtain ⟨y0, y1, y2, y3⟩ := hy
  obtain ⟨e0, e1, e2, e3⟩ := limb_ld4 ⟨y0, y1, y2, y3⟩
  rw [ordMul_split]
  simp only [exec_append]
  obtain ⟨h1, -, -, h2⟩ := movs_spec [(.arg 0, .DI), (.arg 24, .SI), (.arg 48, .CX)] s (by decide)
  have hdi : (exec (movs [(.arg 0, .DI), (.arg 24, .SI), (.arg 48, .CX)]) s).r .DI = s.args 0 := rfl
  have hsi : (exec (movs [(.arg 0, .DI), (.arg 24, .SI), (.arg 48, .CX)]) s).r .SI = s.args 24 := rfl
  have hcx : (exec (movs [(.arg 0, .DI), (.arg 24, .SI), (.arg 48, .CX)]) s).r .CX = s.args 48 := rfl
  have hh := h2.2.1
  clear h1 h2
  generalize exec (movs [(.arg 0, .DI), (.arg 24, .SI), (.arg 48, .CX)]) s = s1 at *
  obtain ⟨k1, k2⟩ := ldq_spec .CX 0 .R14 s1
  rw [hcx, hh, Nat.add_zero] at k1
  generalize exec [.movq (.mem .CX 0) (.reg .R14)] s1 = s2 at *
  have hh2 : s2.heap = s.heap := k2.2.1.trans hh
  have hsi2 : s2.r .SI = s.args 24 := (k2.r (by decide)).trans hsi
  have hcx2 : s2.r .CX = s.args 48 := (k2.r (by decide)).trans hcx
  have hdi2 : s2.r .DI = s.args 0 := (k2.r (by decide)).trans hdi
  obtain ⟨l1, l2, l3⟩ := row0_spec (.mem .SI 0) (.mem .SI 8) (.mem .SI 16) (.mem .SI 24) (.reg .R14) (.reg .R14) (.reg .R14) (.reg .R14) .R8 .R9 .R10 .R11 .R12 s2
    (by
      bnd
      simp only [get_mem, hh2, hsi2, k1]
      exact ⟨hx.1, hx.2.1, hx.2.2.1, hx.2.2.2, y0, y0, y0, y0⟩) (by decide) (by decide)
  generalize exec (row0 (.mem .SI 0) (.mem .SI 8) (.mem .SI 16) (.mem .SI 24) (.reg .R14) (.reg .R14) (.reg .R14) (.reg .R14) .R8 .R9 .R10 .R11 .R12) s2 = s3 at *
  simp only [get_mem, get_reg, hh2, hsi2, k1, Nat.add_zero] at l1
  have T0 : val s3 [.R8, .R9, .R10, .R11, .R12] = ld4 s.heap (s.args 24) * s.heap (s.args 48) := by rw [l1, ld4]; ring
  clear l1 k1 k2
  obtain ⟨m1, m2⟩ := xorq_spec .R13 s3
  generalize exec [.xorq (.reg .R13) .R13] s3 = s4 at *
  obtain ⟨n1, n0, n2, n3⟩ := redO_spec .R8 .R9 .R10 .R11 .R12 .R13 s4 (m2.wd (by decide) l2) (by rw [m1]; decide) (by decide)
  have T1 : val s4 [.R8, .R9, .R10, .R11, .R12, .R13] = ld4 s.heap (s.args 24) * s.heap (s.args 48) := by
    rw [← T0, ← m2.val (m := [.R8, .R9, .R10, .R11, .R12]) (by decide)]
    simp only [val, m1, Nat.mul_zero, Nat.add_zero]
  rw [T1] at n1
  generalize exec (redO .R8 .R9 .R10 .R11 .R12 .R13) s4 = s5 at *
  have hh5 : s5.heap = s.heap := ((n3.2.1.trans m2.2.1).trans l3.2.1).trans hh2
  have hsi5 : s5.r .SI = s.args 24 := (((n3.r (by decide)).trans (m2.r (by decide))).trans (l3.r (by decide))).trans hsi2
  have hcx5 : s5.r .CX = s.args 48 := (((n3.r (by decide)).trans (m2.r (by decide))).trans (l3.r (by decide))).trans hcx2
  have hdi5 : s5.r .DI = s.args 0 := (((n3.r (by decide)).trans (m2.r (by decide))).trans (l3.r (by decide))).trans hdi2
  clear T1 T0 l2 l3 m1 m2 n3
  obtain ⟨p1, p0, p2, p3⟩ := roundO_spec 8 .R9 .R10 .R11 .R12 .R13 .R8 s5 n2 n0 (by rw [hh5, hsi5]; exact hx) (by rw [hh5, hcx5]; exact y1) (by decide)
  rw [n1, hh5, hsi5, hcx5] at p1
  generalize exec (roundO 8 .R9 .R10 .R11 .R12 .R13 .R8) s5 = s6 at *
  have hh6 : s6.heap = s.heap := p3.2.1.trans hh5
  have hsi6 : s6.r .SI = s.args 24 := (p3.r (by decide)).trans hsi5
  have hcx6 : s6.r .CX = s.args 48 := (p3.r (by decide)).trans hcx5
  have hdi6 : s6.r .DI = s.args 0 := (p3.r (by decide)).trans hdi5
  obtain ⟨q1, q0, q2, q3⟩ := roundO_spec 16 .R10 .R11 .R12 .R13 .R8 .R9 s6 p2 p0 (by rw [hh6, hsi6]; exact hx) (by rw [hh6, hcx6]; exact y2) (by decide)
  rw [p1, hh6, hsi6, hcx6] at q1
  generalize exec (roundO 16 .R10 .R11 .R12 .R13 .R8 .R9) s6 = s7 at *
  have hh7 : s7.heap = s.heap := q3.2.1.trans hh6
  have hsi7 : s7.r .SI = s.args 24 := (q3.r (by decide)).trans hsi6
  have hcx7 : s7.r .CX = s.args 48 := (q3.r (by decide)).trans hcx6
  have hdi7 : s7.r .DI = s.args 0 := (q3.r (by decide)).trans hdi6
  obtain ⟨r1, r0, r2, r3⟩ := roundO_spec 24 .R11 .R12 .R13 .R8 .R9 .R10 s7 q2 q0 (by rw [hh7, hsi7]; exact hx) (by rw [hh7, hcx7]; exact y3) (by decide)
  rw [q1, hh7, hsi7, hcx7] at r1
  generalize exec (roundO 24 .R11 .R12 .R13 .R8 .R9 .R10) s7 = s8 at *
  have hh8 : s8.heap = s.heap := r3.2.1.trans hh7
  have hdi8 : s8.r .DI = s.args 0 := (r3.r (by decide)).trans hdi7
  obtain ⟨u1, u2, u3⟩ := condSubO_spec .R12 .R13 .R8 .R9 .SI .R11 .R14 .R15 .R10 s8 r2 (by decide)
  generalize exec (condSubO .R12 .R13 .R8 .R9 .SI .R11 .R14 .R15 .R10) s8 = s9 at *
  have hh9 : s9.heap = s.heap := u3.2.1.trans hh8
  have hdi9 : s9.r .DI = s.args 0 := (u3.r (by decide)).trans hdi8
  obtain ⟨v1, v2, -⟩ := st4_spec .DI .R12 .R13 .R8 .R9 s9
  rw [hdi9] at v1 v2
  rw [hh9] at v2
  refine ⟨?_, v2⟩
  rw [v1, u1, r1, ordMulT, e0, e1, e2, e3]

end Verif.Sm2.Asm
