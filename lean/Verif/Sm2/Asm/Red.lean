import Verif.Sm2.Asm.Block
import Mathlib.Tactic.Linarith
/-!
The reduction step of the field routines.
-/
namespace Verif.Sm2.Asm

/-- `p256const2` -/
abbrev c2 : Nat := 0xffffffff00000000

/-- the field prime -/
abbrev P : Nat := 0xfffffffeffffffffffffffffffffffffffffffff00000000ffffffffffffffff

/-- What one reduction step of the code makes of the number `T` in the accumulator: the carry out of the second
limb after adding the lowest limb is not kept, nor the borrow out of the third after subtracting it shifted by 32. -/
def redT (T : Nat) : Nat :=
  ((T / B % B ^ 2 + T % B) % B ^ 2 + T / B ^ 3 % B * B ^ 2 + B ^ 3 - T % B * 4294967296) % B ^ 3 + (T % B * c2 + T / B ^ 4 * B) * B ^ 2

/-- the three middle limbs of the accumulator after a reduction step, before `p256const2` -/
def redD (a0 a1 a2 a3 : Nat) : Nat := ((a1 + a2 * B + a0) % B ^ 2 + a3 * B ^ 2 + B ^ 3 - a0 * 4294967296) % B ^ 3

theorem redT_limbs (a0 a1 a2 a3 t : Nat) (h0 : a0 < B) (h1 : a1 < B) (h2 : a2 < B) (h3 : a3 < B) :
    redT (a0 + B * (a1 + B * (a2 + B * (a3 + B * t)))) = redD a0 a1 a2 a3 + (a0 * c2 + t * B) * B ^ 2 := by
  have e0 : (a0 + B * (a1 + B * (a2 + B * (a3 + B * t)))) % B = a0 := by simp only [B] at *; omega
  have e1 : (a0 + B * (a1 + B * (a2 + B * (a3 + B * t)))) / B % B ^ 2 = a1 + a2 * B := by simp only [B] at *; omega
  have e3 : (a0 + B * (a1 + B * (a2 + B * (a3 + B * t)))) / B ^ 3 % B = a3 := by simp only [B] at *; omega
  have e4 : (a0 + B * (a1 + B * (a2 + B * (a3 + B * t)))) / B ^ 4 = t := by simp only [B] at *; omega
  rw [redT, e0, e1, e3, e4, redD]

theorem redD_lt (a0 a1 a2 a3 : Nat) : redD a0 a1 a2 a3 < B ^ 3 := Nat.mod_lt _ (Nat.pow_pos (by decide))

/-- copies of the lowest limb and its halves -/
def redA (a0 h : Reg) : List Instr := [.movq (.reg a0) (.reg .AX), .movq (.reg a0) (.reg h), .shlq 32 a0, .shrq 32 h]

theorem redA_spec (a0 h : Reg) (s : St) (hd : [.AX, .DX, a0, h].Nodup) :
    (exec (redA a0 h) s).r .AX = s.r a0 ∧ (exec (redA a0 h) s).r a0 = s.r a0 * 4294967296 % B ∧
    (exec (redA a0 h) s).r h = s.r a0 / 4294967296 ∧ Same [.AX, a0, h] s (exec (redA a0 h) s) := by
  regs hd hk
  simp only [redA]
  run [] hd hk
  refine ⟨trivial, trivial, trivial, ?_⟩
  frame

/-- `MULQ p256const2` -/
theorem mulc_spec (s : St) : (exec [.mulq (.imm c2)] s).r .AX = s.r .AX * c2 % B ∧ (exec [.mulq (.imm c2)] s).r .DX = s.r .AX * c2 / B ∧
    Same [.AX, .DX] s (exec [.mulq (.imm c2)] s) := by
  simp only [exec_cons, exec_nil, step, upd_apply, get_imm, reduceCtorEq, if_true, if_false]
  refine ⟨trivial, trivial, ?_⟩
  frame

/-- the reduction step before the addition of `a0 * p256const2` -/
def redHead (a0 a1 a2 a3 h : Reg) : List Instr :=
  redA a0 h ++ (adds [(.reg .AX, a1), (.imm 0, a2)] ++ (subs [(.reg a0, a1), (.reg h, a2), (.imm 0, a3)] ++ [.mulq (.imm c2)]))

theorem red_arith {a0 a1 a2 a3 x1 x2 y1 y2 y3 c d : Nat} (h0 : a0 < B) (h3 : a3 < B) (i1 : x1 < B) (i2 : x2 < B) (j1 : y1 < B) (j2 : y2 < B) (j3 : y3 < B)
    (k : x1 + B * (x2 + B * 0) + c * B ^ 2 = a1 + B * (a2 + B * 0) + (a0 + B * (0 + B * 0)))
    (l : y1 + B * (y2 + B * (y3 + B * 0)) + (a0 * 4294967296 % B + B * (a0 / 4294967296 + B * (0 + B * 0))) = x1 + B * (x2 + B * (a3 + B * 0)) + d * B ^ 3) :
    y1 + B * (y2 + B * (y3 + B * 0)) = redD a0 a1 a2 a3 := by
  have q1 : x1 + x2 * B = (a1 + a2 * B + a0) % B ^ 2 := by
    refine add_wrap (f := c) ?_ ?_
    · linarith
    · simp only [B] at *; omega
  have q2 : a0 * 4294967296 % B + a0 / 4294967296 * B = a0 * 4294967296 := by simp only [B] at *; omega
  rw [redD, ← q1]
  clear k q1
  refine sub_wrap (f := d) ?_ ?_ ?_
  · rw [← q2]
    linarith
  · clear l q2
    simp only [B] at *; omega
  · clear l q2
    simp only [B] at *; omega

theorem redHead_spec (a0 a1 a2 a3 h : Reg) (s : St) (b : Wd s [a0, a1, a2, a3]) (hd : [.AX, .DX, a0, a1, a2, a3, h].Nodup) :
    val (exec (redHead a0 a1 a2 a3 h) s) [a1, a2, a3] = redD (s.r a0) (s.r a1) (s.r a2) (s.r a3) ∧
    Wd (exec (redHead a0 a1 a2 a3 h) s) [a1, a2, a3] ∧
    (exec (redHead a0 a1 a2 a3 h) s).r .AX = s.r a0 * c2 % B ∧ (exec (redHead a0 a1 a2 a3 h) s).r .DX = s.r a0 * c2 / B ∧
    Same [.AX, .DX, a0, a1, a2, a3, h] s (exec (redHead a0 a1 a2 a3 h) s) := by
  have b0 := b.head
  have b1 := b.tail.head
  have b2 := b.tail.tail.head
  have b3 := b.tail.tail.tail.head
  obtain ⟨h1, h2, h3, h4⟩ := redA_spec a0 h s (hd.sublist (by sub))
  simp only [redHead, exec_append]
  regs hd hk
  generalize exec (redA a0 h) s = s1 at *
  have f1 : s1.r a1 = s.r a1 := h4.r (by far hd hk)
  have f2 : s1.r a2 = s.r a2 := h4.r (by far hd hk)
  have f3 : s1.r a3 = s.r a3 := h4.r (by far hd hk)
  obtain ⟨k1, k2, k3⟩ := adds_spec (.reg .AX, a1) [(.imm 0, a2)] s1 (by
    simp only [List.mem_cons, List.not_mem_nil, or_false, forall_eq_or_imp, forall_eq, get_reg, get_imm, f1, f2, h1]
    exact ⟨⟨b0, b1⟩, by decide, b2⟩) (by cln hd hk)
  generalize exec (adds [(.reg .AX, a1), (.imm 0, a2)]) s1 = s2 at *
  have g0 : s2.r a0 = s1.r a0 := k3.r (by far hd hk)
  have g3 : s2.r a3 = s1.r a3 := k3.r (by far hd hk)
  have g4 : s2.r h = s1.r h := k3.r (by far hd hk)
  have g5 : s2.r .AX = s1.r .AX := k3.r (by far hd hk)
  simp only [List.map_cons, List.map_nil, val, sval, get_reg, get_imm, List.length_cons, List.length_nil] at k1 k2 k3
  obtain ⟨l1, l2, l3⟩ := subs_spec (.reg a0, a1) [(.reg h, a2), (.imm 0, a3)] s2 (by
    simp only [List.mem_cons, List.not_mem_nil, or_false, forall_eq_or_imp, forall_eq, get_reg, get_imm, g0, g3, g4, h2, h3, f3]
    refine ⟨⟨Nat.mod_lt _ (by decide), k2.head⟩, ⟨?_, k2.tail.head⟩, by decide, b3⟩
    exact Nat.lt_of_le_of_lt (Nat.div_le_self _ _) b0) (by cln hd hk)
  generalize exec (subs [(.reg a0, a1), (.reg h, a2), (.imm 0, a3)]) s2 = s3 at *
  obtain ⟨m1, m2, m3⟩ := mulc_spec s3
  have g6 : s3.r .AX = s2.r .AX := l3.r (by far hd hk)
  generalize exec [.mulq (.imm c2)] s3 = s4 at *
  simp only [List.map_cons, List.map_nil, val, sval, get_reg, get_imm, List.length_cons, List.length_nil] at l1 l2 l3
  have n1 : s4.r a1 = s3.r a1 := m3.r (by far hd hk)
  have n2 : s4.r a2 = s3.r a2 := m3.r (by far hd hk)
  have n3 : s4.r a3 = s3.r a3 := m3.r (by far hd hk)
  rw [g6, g5, h1] at m1 m2
  refine ⟨?_, ?_, m1, m2, ?_⟩
  · rw [f1, f2, h1] at k1
    rw [g0, g3, g4, h2, h3, f3] at l1
    simp only [val, n1, n2, n3]
    exact red_arith b0 b3 k2.head k2.tail.head l2.head l2.tail.head l2.tail.tail.head k1 l1
  · exact m3.wd (by simp only [List.mem_cons, List.not_mem_nil, or_false, forall_eq_or_imp, forall_eq, hd, hk, or_self, not_false_eq_true, and_self]) l2
  · exact ((h4.trans (n := [.AX, .DX, a0, a1, a2, a3, h]) k3 (by incl) (by incl)).trans (n := [.AX, .DX, a0, a1, a2, a3, h]) l3 (by incl) (by incl)).trans m3 (by incl) (by incl)

/-- bounds of a chain, one register at a time -/
macro "bnd" : tactic =>
  `(tactic| simp only [List.mem_cons, List.not_mem_nil, or_false, forall_eq_or_imp, forall_eq, get_reg, get_imm])

theorem tailM_arith {a0 a4 a5 y1 y2 y3 z3 z4 z5 c D : Nat} (h0 : a0 < B) (h4 : a4 < B) (h5 : a5 ≤ 1) (j3 : y3 < B)
    (hD : y1 + B * (y2 + B * (y3 + B * 0)) = D)
    (k : z3 + B * (z4 + B * (z5 + B * 0)) + c * B ^ 3 =
      y3 + B * (a4 + B * (a5 + B * 0)) + (a0 * c2 % B + B * (a0 * c2 / B + B * (0 + B * 0)))) :
    y1 + B * (y2 + B * (z3 + B * (z4 + B * (z5 + B * 0)))) = D + (a0 * c2 + (a4 + B * (a5 + B * 0)) * B) * B ^ 2 := by
  have e := Nat.mod_add_div (a0 * c2) B
  have hm : a0 * c2 / B < B := by
    rw [Nat.div_lt_iff_lt_mul (by decide)]
    exact Nat.mul_lt_mul_of_lt_of_le h0 (by decide) (by decide)
  have hl := Nat.mod_lt (a0 * c2) (show 0 < B by decide)
  generalize a0 * c2 % B = ml at *
  generalize a0 * c2 / B = mh at *
  have hc : c = 0 := by
    simp only [B] at *
    omega
  subst hc
  have : a0 * c2 = ml + B * mh := e.symm
  rw [this, ← hD]
  linear_combination B ^ 2 * k

/-- a step of `sm2p256Mul` -/
def redM (a0 a1 a2 a3 h a4 a5 : Reg) : List Instr := redHead a0 a1 a2 a3 h ++ adds [(.reg .AX, a3), (.reg .DX, a4), (.imm 0, a5)]

theorem mod_c2 (x : Nat) : x * c2 % B < B := Nat.mod_lt _ (by decide)

theorem div_c2 {x : Nat} (h : x < B) : x * c2 / B < B := by
  rw [Nat.div_lt_iff_lt_mul (by decide)]
  exact Nat.mul_lt_mul_of_lt_of_le h (by decide) (by decide)

theorem redM_spec (a0 a1 a2 a3 h a4 a5 : Reg) (s : St) (b : Wd s [a0, a1, a2, a3, a4]) (b5 : s.r a5 ≤ 1)
    (hd : [.AX, .DX, a0, a1, a2, a3, h, a4, a5].Nodup) :
    val (exec (redM a0 a1 a2 a3 h a4 a5) s) [a1, a2, a3, a4, a5] = redT (val s [a0, a1, a2, a3, a4, a5]) ∧
    Wd (exec (redM a0 a1 a2 a3 h a4 a5) s) [a1, a2, a3, a4, a5] ∧
    Same [.AX, .DX, a0, a1, a2, a3, h, a4, a5] s (exec (redM a0 a1 a2 a3 h a4 a5) s) := by
  have b0 := b.head
  have b1 := b.tail.head
  have b2 := b.tail.tail.head
  have b3 := b.tail.tail.tail.head
  have b4 := b.tail.tail.tail.tail.head
  obtain ⟨h1, h2, h3, h4, h5⟩ := redHead_spec a0 a1 a2 a3 h s (.cons b0 (.cons b1 (.cons b2 (.cons b3 .nil)))) (hd.sublist (by sub))
  rw [redM, exec_append]
  regs hd hk
  generalize exec (redHead a0 a1 a2 a3 h) s = s1 at *
  have f4 : s1.r a4 = s.r a4 := h5.r (by far hd hk)
  have f5 : s1.r a5 = s.r a5 := h5.r (by far hd hk)
  obtain ⟨k1, k2, k3⟩ := adds_spec (.reg .AX, a3) [(.reg .DX, a4), (.imm 0, a5)] s1 (by
    bnd
    rw [h3, h4, f4, f5]
    exact ⟨⟨mod_c2 _, h2.tail.tail.head⟩, ⟨div_c2 b0, b4⟩, by decide, by simp only [B]; omega⟩) (by cln hd hk)
  generalize exec (adds [(.reg .AX, a3), (.reg .DX, a4), (.imm 0, a5)]) s1 = s2 at *
  have g1 : s2.r a1 = s1.r a1 := k3.r (by far hd hk)
  have g2 : s2.r a2 = s1.r a2 := k3.r (by far hd hk)
  simp only [List.map_cons, List.map_nil, val, sval, get_reg, get_imm, List.length_cons, List.length_nil] at k1 k2 h1
  refine ⟨?_, ?_, h5.trans k3 (by incl) (by incl)⟩
  · simp only [val, g1, g2]
    rw [redT_limbs _ _ _ _ _ b0 b1 b2 b3]
    rw [h3, h4, f4, f5] at k1
    exact tailM_arith b0 b4 b5 h2.tail.tail.head h1 k1
  · refine .cons ?_ (.cons ?_ k2)
    · rw [g1]; exact h2.head
    · rw [g2]; exact h2.tail.head

theorem tailF_arith {a0 y1 y2 y3 z3 z4 c D : Nat} (h0 : a0 < B) (j3 : y3 < B)
    (hD : y1 + B * (y2 + B * (y3 + B * 0)) = D)
    (k : z3 + B * (z4 + B * 0) + c * B ^ 2 = y3 + B * (0 + B * 0) + (a0 * c2 % B + B * (a0 * c2 / B + B * 0))) :
    y1 + B * (y2 + B * (z3 + B * (z4 + B * 0))) = D + (a0 * c2 + 0 * B) * B ^ 2 ∧ c = 0 := by
  have e := Nat.mod_add_div (a0 * c2) B
  have hm : a0 * c2 ≤ (B - 1) * c2 := Nat.mul_le_mul_right _ (by omega)
  have hl := Nat.mod_lt (a0 * c2) (show 0 < B by decide)
  have hc : c = 0 := by
    simp only [B, c2] at *
    omega
  subst hc
  refine ⟨?_, rfl⟩
  generalize a0 * c2 % B = ml at *
  generalize a0 * c2 / B = mh at *
  have : a0 * c2 = ml + B * mh := e.symm
  rw [this, ← hD]
  linear_combination B ^ 2 * k

/-- a step of `sm2p256FromMont` -/
def redF (a0 a1 a2 a3 h a4 : Reg) : List Instr := redHead a0 a1 a2 a3 h ++ adds [(.reg .AX, a3), (.reg .DX, a4)]

theorem redF_spec (a0 a1 a2 a3 h a4 : Reg) (s : St) (b : Wd s [a0, a1, a2, a3]) (b4 : s.r a4 = 0)
    (hd : [.AX, .DX, a0, a1, a2, a3, h, a4].Nodup) :
    val (exec (redF a0 a1 a2 a3 h a4) s) [a1, a2, a3, a4] = redT (val s [a0, a1, a2, a3]) ∧
    Wd (exec (redF a0 a1 a2 a3 h a4) s) [a1, a2, a3, a4] ∧
    Same [.AX, .DX, a0, a1, a2, a3, h, a4] s (exec (redF a0 a1 a2 a3 h a4) s) := by
  have b0 := b.head
  have b1 := b.tail.head
  have b2 := b.tail.tail.head
  have b3 := b.tail.tail.tail.head
  obtain ⟨h1, h2, h3, h4, h5⟩ := redHead_spec a0 a1 a2 a3 h s b (hd.sublist (by sub))
  rw [redF, exec_append]
  regs hd hk
  generalize exec (redHead a0 a1 a2 a3 h) s = s1 at *
  have f4 : s1.r a4 = s.r a4 := h5.r (by far hd hk)
  obtain ⟨k1, k2, k3⟩ := adds_spec (.reg .AX, a3) [(.reg .DX, a4)] s1 (by
    bnd
    rw [h3, h4, f4, b4]
    exact ⟨⟨mod_c2 _, h2.tail.tail.head⟩, div_c2 b0, by decide⟩) (by cln hd hk)
  generalize exec (adds [(.reg .AX, a3), (.reg .DX, a4)]) s1 = s2 at *
  have g1 : s2.r a1 = s1.r a1 := k3.r (by far hd hk)
  have g2 : s2.r a2 = s1.r a2 := k3.r (by far hd hk)
  simp only [List.map_cons, List.map_nil, val, sval, get_reg, get_imm, List.length_cons, List.length_nil] at k1 k2 h1
  refine ⟨?_, ?_, h5.trans k3 (by incl) (by incl)⟩
  · simp only [val, g1, g2]
    rw [redT_limbs _ _ _ _ _ b0 b1 b2 b3]
    rw [h3, h4, f4, b4] at k1
    exact (tailF_arith b0 h2.tail.tail.head h1 k1).1
  · refine .cons ?_ (.cons ?_ k2)
    · rw [g1]; exact h2.head
    · rw [g2]; exact h2.tail.head

/-- a step of the squaring and of the internal multiplication -/
def redS (a0 a1 a2 a3 h : Reg) : List Instr := redHead a0 a1 a2 a3 h ++ (adds [(.reg .AX, a3), (.imm 0, .DX)] ++ [.movq (.reg .DX) (.reg a0)])

theorem mov_spec (a d : Reg) (s : St) : (exec [.movq (.reg a) (.reg d)] s).r d = s.r a ∧ (exec [.movq (.reg a) (.reg d)] s).cf = s.cf ∧
    Same [d] s (exec [.movq (.reg a) (.reg d)] s) := by
  simp only [exec_cons, exec_nil, step, St.put, St.setR, get_reg, upd_apply, if_true]
  refine ⟨trivial, trivial, ?_⟩
  frame

theorem cf_of_carry {s : St} (h : carry s = 0) : s.cf = false := by
  simp only [carry] at h
  cases e : s.cf
  · rfl
  · rw [e] at h; simp at h

theorem redS_spec (a0 a1 a2 a3 h : Reg) (s : St) (b : Wd s [a0, a1, a2, a3]) (hd : [.AX, .DX, a0, a1, a2, a3, h].Nodup) :
    val (exec (redS a0 a1 a2 a3 h) s) [a1, a2, a3, a0] = redT (val s [a0, a1, a2, a3]) ∧
    Wd (exec (redS a0 a1 a2 a3 h) s) [a1, a2, a3, a0] ∧
    (exec (redS a0 a1 a2 a3 h) s).cf = false ∧
    Same [.AX, .DX, a0, a1, a2, a3, h] s (exec (redS a0 a1 a2 a3 h) s) := by
  have b0 := b.head
  have b1 := b.tail.head
  have b2 := b.tail.tail.head
  have b3 := b.tail.tail.tail.head
  obtain ⟨h1, h2, h3, h4, h5⟩ := redHead_spec a0 a1 a2 a3 h s b hd
  rw [redS, exec_append, exec_append]
  regs hd hk
  generalize exec (redHead a0 a1 a2 a3 h) s = s1 at *
  obtain ⟨k1, k2, k3⟩ := adds_spec (.reg .AX, a3) [(.imm 0, .DX)] s1 (by
    bnd
    rw [h3, h4]
    exact ⟨⟨mod_c2 _, h2.tail.tail.head⟩, by decide, div_c2 b0⟩) (by cln hd hk)
  generalize exec (adds [(.reg .AX, a3), (.imm 0, .DX)]) s1 = s2 at *
  have g1 : s2.r a1 = s1.r a1 := k3.r (by far hd hk)
  have g2 : s2.r a2 = s1.r a2 := k3.r (by far hd hk)
  simp only [List.map_cons, List.map_nil, val, sval, get_reg, get_imm, List.length_cons, List.length_nil] at k1 k2 h1
  obtain ⟨m1, m2, m3⟩ := mov_spec .DX a0 s2
  generalize exec [.movq (.reg .DX) (.reg a0)] s2 = s3 at *
  have l1 : s3.r a1 = s2.r a1 := m3.r (by far hd hk)
  have l2 : s3.r a2 = s2.r a2 := m3.r (by far hd hk)
  have l3 : s3.r a3 = s2.r a3 := m3.r (by far hd hk)
  rw [h3, h4] at k1
  have T := tailF_arith (c := carry s2) (z3 := s2.r a3) (z4 := s2.r .DX) b0 h2.tail.tail.head h1 (by linear_combination k1)
  refine ⟨?_, ?_, ?_, (h5.trans (n := [.AX, .DX, a0, a1, a2, a3, h]) k3 (by incl) (by incl)).trans m3 (by incl) (by incl)⟩
  · simp only [val, l1, l2, l3, g1, g2, m1]
    rw [redT_limbs _ _ _ _ _ b0 b1 b2 b3]
    exact T.1
  · refine .cons ?_ (.cons ?_ (.cons ?_ (.cons ?_ .nil)))
    · rw [l1, g1]; exact h2.head
    · rw [l2, g2]; exact h2.tail.head
    · rw [l3]; exact k2.head
    · rw [m1]; exact k2.tail.head
  · rw [m2]; exact cf_of_carry T.2

end Verif.Sm2.Asm
