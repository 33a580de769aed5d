import Verif.Sm2.Asm.Ops
/-!
The halving in `sm2p256PointDoubleAsm` and the test for zero in `sm2p256PointAddAsm`.
-/
namespace Verif.Sm2.Asm

/-- what the halving computes -/
def halfI (x : Nat) : Nat := if x % 2 = 0 then x / 2 else (x + P) / 2

/-- the final shifts of the halving -/
def shr1 : List Instr := [.shrd 1 .R10 .R11, .shrd 1 .R11 .R12, .shrd 1 .R12 .R13, .shrd 1 .R13 .AX]

theorem shr1_spec (s : St) : val (exec shr1 s) [.R10, .R11, .R12, .R13] =
    (s.r .R10 + s.r .R11 * B) / 2 % B + B * ((s.r .R11 + s.r .R12 * B) / 2 % B + B * ((s.r .R12 + s.r .R13 * B) / 2 % B + B * ((s.r .R13 + s.r .AX * B) / 2 % B + B * 0))) ∧
    Wd (exec shr1 s) [.R10, .R11, .R12, .R13] ∧ Same [.R10, .R11, .R12, .R13] s (exec shr1 s) := by
  have e : (exec shr1 s).r .R10 = (s.r .R10 + s.r .R11 * B) / 2 % B ∧ (exec shr1 s).r .R11 = (s.r .R11 + s.r .R12 * B) / 2 % B ∧
      (exec shr1 s).r .R12 = (s.r .R12 + s.r .R13 * B) / 2 % B ∧ (exec shr1 s).r .R13 = (s.r .R13 + s.r .AX * B) / 2 % B := by
    simp only [shr1, exec_cons, exec_nil, step, St.setR, p2_1]
    simp only [upd_apply, reduceCtorEq, if_true, if_false, and_self]
  obtain ⟨e0, e1, e2, e3⟩ := e
  refine ⟨by simp only [val, e0, e1, e2, e3], ?_, ?_⟩
  · refine .cons ?_ (.cons ?_ (.cons ?_ (.cons ?_ .nil)))
    · rw [e0]; exact mod_lt_B _
    · rw [e1]; exact mod_lt_B _
    · rw [e2]; exact mod_lt_B _
    · rw [e3]; exact mod_lt_B _
  · clear e0 e1 e2 e3
    simp only [shr1, exec_cons, exec_nil, step, St.setR]
    frame

/-- the halving -/
def halfC : List Instr :=
  [.xorq (.reg .AX) .AX] ++ (movs [(.reg .R10, .R14), (.reg .R11, .R15), (.reg .R12, .DI), (.reg .R13, .SI)] ++
    (adds [(.imm 0xffffffffffffffff, .R10), (.imm 0xffffffff00000000, .R11), (.imm 0xffffffffffffffff, .R12), (.imm 0xfffffffeffffffff, .R13), (.imm 0, .AX)] ++
    ([.testq (.imm 1) .R14] ++ (cmoveqs [(.reg .R14, .R10), (.reg .R15, .R11), (.reg .DI, .R12), (.reg .SI, .R13)] ++ ([.andq (.reg .R14) .AX] ++ shr1)))))

theorem test1_spec (d : Reg) (s : St) : (exec [.testq (.imm 1) d] s).zf = decide (s.r d % 2 = 0) ∧ Same [] s (exec [.testq (.imm 1) d] s) := by
  simp only [exec_cons, exec_nil, step, get_imm, Nat.and_one_is_mod]
  exact ⟨trivial, fun _ _ => rfl, rfl, rfl, rfl, rfl⟩

theorem andq_spec (a d : Reg) (s : St) : (exec [.andq (.reg a) d] s).r d = s.r d &&& s.r a ∧ Same [d] s (exec [.andq (.reg a) d] s) := by
  simp only [exec_cons, exec_nil, step, St.logic, get_reg, upd_apply, if_true]
  refine ⟨trivial, ?_⟩
  frame

theorem half_shift {a0 a1 a2 a3 e : Nat} (h0 : a0 < B) (h1 : a1 < B) (h2 : a2 < B) (h3 : a3 < B) (he : e ≤ 1) :
    (a0 + a1 * B) / 2 % B + B * ((a1 + a2 * B) / 2 % B + B * ((a2 + a3 * B) / 2 % B + B * ((a3 + e * B) / 2 % B + B * 0))) =
      (a0 + B * (a1 + B * (a2 + B * (a3 + B * 0))) + B ^ 4 * e) / 2 := by
  simp only [B] at *
  omega

theorem half_arith {x0 x1 x2 x3 z0 z1 z2 z3 z4 c : Nat} (hx0 : x0 < B) (hx1 : x1 < B) (hx2 : x2 < B) (hx3 : x3 < B)
    (h : z0 + B * (z1 + B * (z2 + B * (z3 + B * (z4 + B * 0)))) + c * B ^ 5 =
      x0 + B * (x1 + B * (x2 + B * (x3 + B * (0 + B * 0)))) + (0xffffffffffffffff + B * (0xffffffff00000000 + B * (0xffffffffffffffff + B * (0xfffffffeffffffff + B * (0 + B * 0)))))) :
    z4 ≤ 1 ∧ z0 + B * (z1 + B * (z2 + B * (z3 + B * 0))) + B ^ 4 * z4 = x0 + B * (x1 + B * (x2 + B * (x3 + B * 0))) + P := by
  simp only [B, P] at *
  omega

theorem and_bit (c t : Nat) (hc : c ≤ 1) : (t % 2 = 0 → c &&& t = 0) ∧ (t % 2 ≠ 0 → c &&& t = c) := by
  have : c = 0 ∨ c = 1 := by omega
  rcases this with rfl | rfl
  · simp
  · rw [Nat.and_comm, Nat.and_one_is_mod]; omega

theorem even_limb (x0 x1 x2 x3 : Nat) : (x0 + B * (x1 + B * (x2 + B * (x3 + B * 0)))) % 2 = x0 % 2 := by simp only [B]; omega

theorem halfC_exec (s : St) (wx : Wd s [.R10, .R11, .R12, .R13]) :
    val (exec halfC s) [.R10, .R11, .R12, .R13] = halfI (val s [.R10, .R11, .R12, .R13]) ∧
    Wd (exec halfC s) [.R10, .R11, .R12, .R13] ∧ Wd (exec halfC s) [.R14, .R15, .DI, .SI] ∧ Same addClob s (exec halfC s) := by
  simp only [halfC, exec_append]
  obtain ⟨a1, a2⟩ := xorq_spec .AX s
  have vx := a2.val (m := [.R10, .R11, .R12, .R13]) (by decide)
  replace wx := a2.wd (m := [.R10, .R11, .R12, .R13]) (by decide) wx
  generalize exec [.xorq (.reg .AX) .AX] s = s1 at *
  obtain ⟨-, -, c2, c3⟩ := movs_spec [(.reg .R10, .R14), (.reg .R11, .R15), (.reg .R12, .DI), (.reg .R13, .SI)] s1 (by decide)
  replace c2 := c2 (by bnd; exact ⟨wx.head, wx.tail.head, wx.tail.tail.head, wx.tail.tail.tail.head⟩)
  have c4 : (exec (movs [(.reg .R10, .R14), (.reg .R11, .R15), (.reg .R12, .DI), (.reg .R13, .SI)]) s1).r .R14 = s1.r .R10 := rfl
  have c5 : (exec (movs [(.reg .R10, .R14), (.reg .R11, .R15), (.reg .R12, .DI), (.reg .R13, .SI)]) s1).r .R15 = s1.r .R11 := rfl
  have c6 : (exec (movs [(.reg .R10, .R14), (.reg .R11, .R15), (.reg .R12, .DI), (.reg .R13, .SI)]) s1).r .DI = s1.r .R12 := rfl
  have c7 : (exec (movs [(.reg .R10, .R14), (.reg .R11, .R15), (.reg .R12, .DI), (.reg .R13, .SI)]) s1).r .SI = s1.r .R13 := rfl
  generalize exec (movs [(.reg .R10, .R14), (.reg .R11, .R15), (.reg .R12, .DI), (.reg .R13, .SI)]) s1 = s2 at *
  have e10 : s2.r .R10 = s1.r .R10 := c3.r (by decide)
  have e11 : s2.r .R11 = s1.r .R11 := c3.r (by decide)
  have e12 : s2.r .R12 = s1.r .R12 := c3.r (by decide)
  have e13 : s2.r .R13 = s1.r .R13 := c3.r (by decide)
  have eax : s2.r .AX = 0 := (c3.r (by decide)).trans a1
  obtain ⟨d1, d2, d3⟩ := adds_spec (.imm 0xffffffffffffffff, .R10) [(.imm 0xffffffff00000000, .R11), (.imm 0xffffffffffffffff, .R12), (.imm 0xfffffffeffffffff, .R13), (.imm 0, .AX)] s2 (by
    bnd
    rw [e10, e11, e12, e13, eax]
    exact ⟨⟨by decide, wx.head⟩, ⟨by decide, wx.tail.head⟩, ⟨by decide, wx.tail.tail.head⟩, ⟨by decide, wx.tail.tail.tail.head⟩, by decide, by decide⟩) (by decide)
  have wt := d3.wd (m := [.R14, .R15, .DI, .SI]) (by decide) c2
  generalize exec (adds [(.imm 0xffffffffffffffff, .R10), (.imm 0xffffffff00000000, .R11), (.imm 0xffffffffffffffff, .R12), (.imm 0xfffffffeffffffff, .R13), (.imm 0, .AX)]) s2 = s3 at *
  simp only [List.map_cons, List.map_nil, val, sval, get_imm, List.length_cons, List.length_nil, e10, e11, e12, e13, eax] at d1 d2
  have f14 : s3.r .R14 = s1.r .R10 := (d3.r (by decide)).trans c4
  have f15 : s3.r .R15 = s1.r .R11 := (d3.r (by decide)).trans c5
  have fdi : s3.r .DI = s1.r .R12 := (d3.r (by decide)).trans c6
  have fsi : s3.r .SI = s1.r .R13 := (d3.r (by decide)).trans c7
  obtain ⟨hz, hv⟩ := half_arith wx.head wx.tail.head wx.tail.tail.head wx.tail.tail.tail.head d1
  obtain ⟨t1, t2⟩ := test1_spec .R14 s3
  have wt4 := t2.wd (m := [.R14, .R15, .DI, .SI]) (by decide) wt
  have wd4 := t2.wd (m := [.R10, .R11, .R12, .R13]) (by decide) (.cons d2.head (.cons d2.tail.head (.cons d2.tail.tail.head (.cons d2.tail.tail.tail.head .nil))))
  have r4 : ∀ r, (exec [.testq (.imm 1) .R14] s3).r r = s3.r r := fun r => t2.r (by simp)
  generalize exec [.testq (.imm 1) .R14] s3 = s4 at *
  rw [f14] at t1
  obtain ⟨l1, l2, l3⟩ := cmoveqs_spec [(.reg .R14, .R10), (.reg .R15, .R11), (.reg .DI, .R12), (.reg .SI, .R13)] s4 (by
    intro p hp
    simp only [List.mem_cons, List.not_mem_nil, or_false] at hp
    rcases hp with rfl | rfl | rfl | rfl <;> exact ⟨_, rfl⟩) (by decide)
  replace l2 := l2 (by bnd; exact ⟨⟨wt4.head, wd4.head⟩, ⟨wt4.tail.head, wd4.tail.head⟩, ⟨wt4.tail.tail.head, wd4.tail.tail.head⟩, wt4.tail.tail.tail.head, wd4.tail.tail.tail.head⟩)
  simp only [List.map_cons, List.map_nil, sval, val, get_reg, r4, f14, f15, fdi, fsi, t1, decide_eq_true_eq] at l1
  generalize exec (cmoveqs [(.reg .R14, .R10), (.reg .R15, .R11), (.reg .DI, .R12), (.reg .SI, .R13)]) s4 = s5 at *
  have g14 : s5.r .R14 = s1.r .R10 := ((l3.r (by decide)).trans (r4 .R14)).trans f14
  have gax : s5.r .AX = s3.r .AX := (l3.r (by decide)).trans (r4 .AX)
  have wt5 := l3.wd (m := [.R14, .R15, .DI, .SI]) (by decide) wt4
  obtain ⟨n1, n2⟩ := andq_spec .R14 .AX s5
  have wt6 := n2.wd (m := [.R14, .R15, .DI, .SI]) (by decide) wt5
  generalize exec [.andq (.reg .R14) .AX] s5 = s6 at *
  rw [g14, gax] at n1
  have o10 : s6.r .R10 = s5.r .R10 := n2.r (by decide)
  have o11 : s6.r .R11 = s5.r .R11 := n2.r (by decide)
  have o12 : s6.r .R12 = s5.r .R12 := n2.r (by decide)
  have o13 : s6.r .R13 = s5.r .R13 := n2.r (by decide)
  obtain ⟨q1, q2, q3⟩ := shr1_spec s6
  have wt7 := q3.wd (m := [.R14, .R15, .DI, .SI]) (by decide) wt6
  generalize exec shr1 s6 = s7 at *
  simp only [List.map_cons, List.map_nil] at l2
  have ab := and_bit (s3.r .AX) (s1.r .R10) hz
  refine ⟨?_, q2, wt7, ?_⟩
  · have hle : s6.r .AX ≤ 1 := by
      rw [n1]
      by_cases hp : s1.r .R10 % 2 = 0
      · rw [ab.1 hp]; decide
      · rw [ab.2 hp]; exact hz
    rw [q1, half_shift (by rw [o10]; exact l2.head) (by rw [o11]; exact l2.tail.head) (by rw [o12]; exact l2.tail.tail.head) (by rw [o13]; exact l2.tail.tail.tail.head) hle,
      ← vx, o10, o11, o12, o13, n1, l1]
    have hpar := even_limb (s1.r .R10) (s1.r .R11) (s1.r .R12) (s1.r .R13)
    by_cases hp : s1.r .R10 % 2 = 0
    · rw [if_pos hp, ab.1 hp, Nat.mul_zero, Nat.add_zero, halfI, if_pos (by simp only [val]; rw [hpar]; exact hp)]
      rfl
    · rw [if_neg hp, ab.2 hp, hv, halfI, if_neg (by simp only [val]; rw [hpar]; exact hp)]
      rfl
  · exact (((((a2.trans (n := addClob) c3 (by decide) (by decide)).trans (n := addClob) d3 (by decide) (by decide)).trans (n := addClob) t2 (by decide) (by decide)).trans
      (n := addClob) l3 (by decide) (by decide)).trans (n := addClob) n2 (by decide) (by decide)).trans q3 (by decide) (by decide)

/-- the number `sm2p256IsZero` takes for the prime: its third limb is missing from the comparison with the prime and must be zero -/
abbrev fakeP : Nat := 0xffffffffffffffff + B * (0xffffffff00000000 + B * (0 + B * (0xfffffffeffffffff + B * 0)))

/-- what `sm2p256IsZero` returns -/
def isZeroI (x : Nat) : Nat := if x = 0 ∨ x = fakeP then 1 else 0

/-- the first comparison -/
def isZ1 : List Instr := [.xorq (.reg .AX) .AX, .movq (.imm 1) (.reg .R15), .movq (.reg .R10) (.reg .R14), .orq (.reg .R11) .R14, .orq (.reg .R12) .R14, .orq (.reg .R13) .R14]

/-- the second comparison -/
def isZ2 : List Instr := [.xorq (.imm 18446744073709551615) .R10, .xorq (.imm const2) .R11, .xorq (.imm const3) .R13, .orq (.reg .R11) .R10, .orq (.reg .R12) .R10, .orq (.reg .R13) .R10]

theorem isZ1_spec (s : St) : (exec isZ1 s).zf = decide (s.r .R10 ||| s.r .R11 ||| s.r .R12 ||| s.r .R13 = 0) ∧ (exec isZ1 s).r .AX = 0 ∧ (exec isZ1 s).r .R15 = 1 ∧
    Same [.AX, .R14, .R15] s (exec isZ1 s) := by
  simp only [isZ1, exec_cons, exec_nil, step, St.put, St.setR, St.logic, get_reg, get_imm]
  simp only [upd_apply, reduceCtorEq, if_true, if_false, Nat.xor_self]
  refine ⟨trivial, trivial, trivial, ?_⟩
  frame

theorem isZ2_spec (s : St) : (exec isZ2 s).zf =
      decide ((s.r .R10 ^^^ 0xffffffffffffffff) ||| (s.r .R11 ^^^ 0xffffffff00000000) ||| s.r .R12 ||| (s.r .R13 ^^^ 0xfffffffeffffffff) = 0) ∧
    Same [.R10, .R11, .R13] s (exec isZ2 s) := by
  simp only [isZ2, exec_cons, exec_nil, step, St.logic, get_reg, get_imm]
  simp only [upd_apply, reduceCtorEq, if_true, if_false]
  refine ⟨trivial, ?_⟩
  frame

theorem isZero_split : sm2p256IsZero = isZ1 ++ ([.cmoveq .R15 .AX] ++ (isZ2 ++ [.cmoveq .R15 .AX])) := by decide +kernel

theorem zero_limbs {x0 x1 x2 x3 : Nat} : (x0 = 0 ∧ x1 = 0 ∧ x2 = 0 ∧ x3 = 0) ↔ x0 + B * (x1 + B * (x2 + B * (x3 + B * 0))) = 0 := by
  simp only [B]; omega

theorem fake_limbs {x0 x1 x2 x3 : Nat} (h0 : x0 < B) (h1 : x1 < B) (h2 : x2 < B) (h3 : x3 < B) :
    (x0 = 0xffffffffffffffff ∧ x1 = 0xffffffff00000000 ∧ x2 = 0 ∧ x3 = 0xfffffffeffffffff) ↔ x0 + B * (x1 + B * (x2 + B * (x3 + B * 0))) = fakeP := by
  simp only [B, fakeP] at *; omega

theorem isZero_exec (s : St) (w : Wd s [.R10, .R11, .R12, .R13]) :
    (exec sm2p256IsZero s).r .AX = isZeroI (val s [.R10, .R11, .R12, .R13]) ∧ Same [.AX, .R10, .R11, .R13, .R14, .R15] s (exec sm2p256IsZero s) := by
  rw [isZero_split]
  simp only [exec_append]
  obtain ⟨a1, a2, a3, a4⟩ := isZ1_spec s
  generalize exec isZ1 s = s1 at *
  obtain ⟨b1, -, b3⟩ := cmoveq_spec .R15 .AX s1
  rw [← exec_nil (step s1 _), ← exec_cons] at b1 b3
  generalize exec [.cmoveq .R15 .AX] s1 = s2 at *
  have e10 : s2.r .R10 = s.r .R10 := (b3.r (by decide)).trans (a4.r (by decide))
  have e11 : s2.r .R11 = s.r .R11 := (b3.r (by decide)).trans (a4.r (by decide))
  have e12 : s2.r .R12 = s.r .R12 := (b3.r (by decide)).trans (a4.r (by decide))
  have e13 : s2.r .R13 = s.r .R13 := (b3.r (by decide)).trans (a4.r (by decide))
  have e15 : s2.r .R15 = 1 := (b3.r (by decide)).trans a3
  obtain ⟨c1, c2⟩ := isZ2_spec s2
  generalize exec isZ2 s2 = s3 at *
  obtain ⟨d1, -, d3⟩ := cmoveq_spec .R15 .AX s3
  rw [← exec_nil (step s3 _), ← exec_cons] at d1 d3
  generalize exec [.cmoveq .R15 .AX] s3 = s4 at *
  have f15 : s3.r .R15 = 1 := (c2.r (by decide)).trans e15
  have fax : s3.r .AX = s2.r .AX := c2.r (by decide)
  refine ⟨?_, ?_⟩
  · rw [d1, f15, fax, b1, a2, a3, a1, c1, e10, e11, e12, e13]
    simp only [decide_eq_true_eq]
    simp only [Nat.or_eq_zero_iff, Nat.xor_eq_zero_iff, and_assoc]
    rw [isZeroI]
    simp only [val]
    simp only [← zero_limbs, ← fake_limbs w.head w.tail.head w.tail.tail.head w.tail.tail.tail.head]
    split
    · next h => rw [if_pos (Or.inr h)]
    · next h =>
      split
      · next h' => rw [if_pos (Or.inl h')]
      · next h' => rw [if_neg (by tauto)]
  · exact (((a4.trans (n := [.AX, .R10, .R11, .R13, .R14, .R15]) b3 (by decide) (by decide)).trans (n := [.AX, .R10, .R11, .R13, .R14, .R15]) c2 (by decide) (by decide)).trans d3 (by decide) (by decide))

end Verif.Sm2.Asm
