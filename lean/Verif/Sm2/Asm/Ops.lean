import Verif.Sm2.Asm.SqrMem
import Mathlib.Data.Nat.Bitwise
/-!
The other field operations inside the point routines: subtraction, addition, doubling, halving, the test for zero.
-/
namespace Verif.Sm2.Asm

/-- a sequence of `CMOVQEQ` -/
def cmoveqs : List (Src × Reg) → List Instr
  | [] => []
  | (.reg a, d) :: l => .cmoveq a d :: cmoveqs l
  | _ :: l => cmoveqs l

theorem cmoveq_spec (a d : Reg) (s : St) : (step s (.cmoveq a d)).r d = (if s.zf then s.r a else s.r d) ∧ (step s (.cmoveq a d)).zf = s.zf ∧
    Same [d] s (step s (.cmoveq a d)) := by
  simp only [step, St.setR]
  cases h : s.zf
  · exact ⟨rfl, h, .refl _ _⟩
  · simp only [if_true]
    refine ⟨by simp only [upd_apply, if_true], trivial, ?_⟩
    frame

theorem cmoveqs_spec (l : List (Src × Reg)) : ∀ (s : St), Regs l → Clean l →
    val (exec (cmoveqs l) s) (l.map (·.2)) = (if s.zf then sval s (l.map (·.1)) else val s (l.map (·.2))) ∧
    ((∀ p ∈ l, p.1.get s < B ∧ s.r p.2 < B) → Wd (exec (cmoveqs l) s) (l.map (·.2))) ∧ Same (l.map (·.2)) s (exec (cmoveqs l) s) := by
  induction l with
  | nil => intro s _ _; exact ⟨by simp [cmoveqs, val, sval], fun _ => .nil, .refl _ _⟩
  | cons p l ih =>
    intro s hr hc
    obtain ⟨a, d⟩ := p
    obtain ⟨a, rfl⟩ : ∃ r, a = .reg r := hr (a, d) List.mem_cons_self
    obtain ⟨h1, h2, h3⟩ := cmoveq_spec a d s
    have hl : ∀ p ∈ l, p.1.avoids [d] ∧ p.2 ≠ d := hc.1
    obtain ⟨k1, k3, k4⟩ := ih (step s (.cmoveq a d)) (fun p hp => hr p (List.mem_cons_of_mem _ hp)) hc.2
    have hd : d ∉ l.map (·.2) := by
      intro h
      obtain ⟨p, hp, e⟩ := List.mem_map.1 h
      exact (hl p hp).2 e
    simp only [cmoveqs, exec_cons, List.map_cons, val, sval]
    rw [h3.sval (m := l.map (·.1)) (by intro r hr; obtain ⟨p, hp, rfl⟩ := List.mem_map.1 hr; exact (hl p hp).1),
      h3.val (m := l.map (·.2)) (by intro r hr; obtain ⟨p, hp, rfl⟩ := List.mem_map.1 hr; simp [(hl p hp).2]), h2] at k1
    refine ⟨?_, ?_, h3.trans k4 (by simp) (by simp)⟩
    · rw [k4.r hd, h1, k1, get_reg]
      cases s.zf <;> rfl
    · intro hb
      refine .cons ?_ (k3 ?_)
      · rw [k4.r hd, h1]
        have := hb (.reg a, d) List.mem_cons_self
        rw [get_reg] at this
        split
        · exact this.1
        · exact this.2
      · intro p hp
        rw [h3.get (hl p hp).1, h3.r (by simp [(hl p hp).2])]
        exact hb p (List.mem_cons_of_mem _ hp)

/-- what `p256GmSubInternal` computes -/
def subI (x y : Nat) : Nat := if y ≤ x then x - y else (x + B ^ 4 - y + P) % B ^ 4

theorem andq1_spec (d : Reg) (s : St) : (exec [.andq (.imm 1) d] s).zf = decide (s.r d % 2 = 0) ∧ Same [d] s (exec [.andq (.imm 1) d] s) := by
  simp only [exec_cons, exec_nil, step, St.logic, get_imm, Nat.and_one_is_mod]
  refine ⟨trivial, ?_⟩
  frame

theorem subInternal_split : p256GmSubInternal =
    [.xorq (.reg .AX) .AX] ++ (subs [(.reg .R14, .R10), (.reg .R15, .R11), (.reg .DI, .R12), (.reg .SI, .R13), (.imm 0, .AX)] ++
    (movs [(.reg .R10, .BX), (.reg .R11, .CX), (.reg .R12, .R8), (.reg .R13, .R9)] ++
    (adds [(.imm 0xffffffffffffffff, .R10), (.imm 0xffffffff00000000, .R11), (.imm 0xffffffffffffffff, .R12), (.imm 0xfffffffeffffffff, .R13)] ++
    ([.andq (.imm 1) .AX] ++ cmoveqs [(.reg .BX, .R10), (.reg .CX, .R11), (.reg .R8, .R12), (.reg .R9, .R13)])))) := by decide +kernel

theorem subI_arith {x0 x1 x2 x3 y0 y1 y2 y3 d0 d1 d2 d3 d4 e0 e1 e2 e3 c f : Nat}
    (hx0 : x0 < B) (hx1 : x1 < B) (hx2 : x2 < B) (hx3 : x3 < B) (hy0 : y0 < B) (hy1 : y1 < B) (hy2 : y2 < B) (hy3 : y3 < B)
    (hd0 : d0 < B) (hd1 : d1 < B) (hd2 : d2 < B) (hd3 : d3 < B) (hd4 : d4 < B) (he0 : e0 < B) (he1 : e1 < B) (he2 : e2 < B) (he3 : e3 < B) (hc : c ≤ 1)
    (h : d0 + B * (d1 + B * (d2 + B * (d3 + B * (d4 + B * 0)))) + (y0 + B * (y1 + B * (y2 + B * (y3 + B * (0 + B * 0))))) =
      x0 + B * (x1 + B * (x2 + B * (x3 + B * (0 + B * 0)))) + c * B ^ 5)
    (k : e0 + B * (e1 + B * (e2 + B * (e3 + B * 0))) + f * B ^ 4 = d0 + B * (d1 + B * (d2 + B * (d3 + B * 0))) +
      (0xffffffffffffffff + B * (0xffffffff00000000 + B * (0xffffffffffffffff + B * (0xfffffffeffffffff + B * 0))))) :
    (d4 % 2 = 0 → d0 + B * (d1 + B * (d2 + B * (d3 + B * 0))) = subI (x0 + B * (x1 + B * (x2 + B * (x3 + B * 0)))) (y0 + B * (y1 + B * (y2 + B * (y3 + B * 0))))) ∧
    (d4 % 2 ≠ 0 → e0 + B * (e1 + B * (e2 + B * (e3 + B * 0))) = subI (x0 + B * (x1 + B * (x2 + B * (x3 + B * 0)))) (y0 + B * (y1 + B * (y2 + B * (y3 + B * 0))))) := by
  have hX : x0 + B * (x1 + B * (x2 + B * (x3 + B * 0))) < B ^ 4 := by clear h k; simp only [B] at *; omega
  have hY : y0 + B * (y1 + B * (y2 + B * (y3 + B * 0))) < B ^ 4 := by clear h k; simp only [B] at *; omega
  have hD : d0 + B * (d1 + B * (d2 + B * (d3 + B * 0))) < B ^ 4 := by clear h k; simp only [B] at *; omega
  have hE : e0 + B * (e1 + B * (e2 + B * (e3 + B * 0))) < B ^ 4 := by clear h k; simp only [B] at *; omega
  have h' : d0 + B * (d1 + B * (d2 + B * (d3 + B * 0))) + B ^ 4 * d4 + (y0 + B * (y1 + B * (y2 + B * (y3 + B * 0)))) =
      x0 + B * (x1 + B * (x2 + B * (x3 + B * 0))) + c * B ^ 5 := by linear_combination h
  have hP : (0xffffffffffffffff + B * (0xffffffff00000000 + B * (0xffffffffffffffff + B * (0xfffffffeffffffff + B * 0)))) = P := by decide
  rw [hP] at k
  clear h hP
  generalize x0 + B * (x1 + B * (x2 + B * (x3 + B * 0))) = X at *
  generalize y0 + B * (y1 + B * (y2 + B * (y3 + B * 0))) = Y at *
  generalize d0 + B * (d1 + B * (d2 + B * (d3 + B * 0))) = D at *
  generalize e0 + B * (e1 + B * (e2 + B * (e3 + B * 0))) = E at *
  clear hx0 hx1 hx2 hx3 hy0 hy1 hy2 hy3 hd0 hd1 hd2 hd3 he0 he1 he2 he3
  have : c = 0 ∨ c = 1 := by omega
  rcases this with rfl | rfl
  · have h4 : d4 = 0 := by simp only [B] at *; omega
    subst h4
    refine ⟨fun _ => ?_, fun hh => absurd rfl hh⟩
    rw [subI, if_pos (by omega)]
    omega
  · have h4 : d4 = B - 1 := by simp only [B] at *; omega
    subst h4
    refine ⟨fun hh => absurd hh (by decide), fun _ => ?_⟩
    have hlt : ¬ Y ≤ X := by simp only [B] at *; omega
    rw [subI, if_neg hlt]
    refine add_wrap (f := f) ?_ hE
    rw [k]
    simp only [B] at *; omega

/-- the registers `p256GmSubInternal` may change -/
abbrev subClob : List Reg := [.AX, .BX, .CX, .R8, .R9, .R10, .R11, .R12, .R13]

theorem subInternal_exec (s : St) (wx : Wd s [.R10, .R11, .R12, .R13]) (wy : Wd s [.R14, .R15, .DI, .SI]) :
    val (exec p256GmSubInternal s) [.R10, .R11, .R12, .R13] = subI (val s [.R10, .R11, .R12, .R13]) (val s [.R14, .R15, .DI, .SI]) ∧
    Wd (exec p256GmSubInternal s) [.R10, .R11, .R12, .R13] ∧ Same subClob s (exec p256GmSubInternal s) := by
  rw [subInternal_split]
  simp only [exec_append]
  obtain ⟨a1, a2⟩ := xorq_spec .AX s
  have vx := a2.val (m := [.R10, .R11, .R12, .R13]) (by decide)
  have vy := a2.val (m := [.R14, .R15, .DI, .SI]) (by decide)
  replace wx := a2.wd (m := [.R10, .R11, .R12, .R13]) (by decide) wx
  replace wy := a2.wd (m := [.R14, .R15, .DI, .SI]) (by decide) wy
  generalize exec [.xorq (.reg .AX) .AX] s = s1 at *
  obtain ⟨b1, b2, b3⟩ := subs_spec (.reg .R14, .R10) [(.reg .R15, .R11), (.reg .DI, .R12), (.reg .SI, .R13), (.imm 0, .AX)] s1 (by
    bnd
    rw [a1]
    exact ⟨⟨wy.head, wx.head⟩, ⟨wy.tail.head, wx.tail.head⟩, ⟨wy.tail.tail.head, wx.tail.tail.head⟩, ⟨wy.tail.tail.tail.head, wx.tail.tail.tail.head⟩, by decide, by decide⟩) (by decide)
  generalize exec (subs [(.reg .R14, .R10), (.reg .R15, .R11), (.reg .DI, .R12), (.reg .SI, .R13), (.imm 0, .AX)]) s1 = s2 at *
  simp only [List.map_cons, List.map_nil, val, sval, get_reg, get_imm, List.length_cons, List.length_nil, a1] at b1 b2
  obtain ⟨c1, -, c2, c3⟩ := movs_spec [(.reg .R10, .BX), (.reg .R11, .CX), (.reg .R12, .R8), (.reg .R13, .R9)] s2 (by decide)
  replace c2 := c2 (by bnd; exact ⟨b2.head, b2.tail.head, b2.tail.tail.head, b2.tail.tail.tail.head⟩)
  generalize exec (movs [(.reg .R10, .BX), (.reg .R11, .CX), (.reg .R12, .R8), (.reg .R13, .R9)]) s2 = s3 at *
  simp only [List.map_cons, List.map_nil, val, sval, get_reg] at c1 c2
  have e10 : s3.r .R10 = s2.r .R10 := c3.r (by decide)
  have e11 : s3.r .R11 = s2.r .R11 := c3.r (by decide)
  have e12 : s3.r .R12 = s2.r .R12 := c3.r (by decide)
  have e13 : s3.r .R13 = s2.r .R13 := c3.r (by decide)
  have eax : s3.r .AX = s2.r .AX := c3.r (by decide)
  obtain ⟨d1, d2, d3⟩ := adds_spec (.imm 0xffffffffffffffff, .R10) [(.imm 0xffffffff00000000, .R11), (.imm 0xffffffffffffffff, .R12), (.imm 0xfffffffeffffffff, .R13)] s3 (by
    bnd
    rw [e10, e11, e12, e13]
    exact ⟨⟨by decide, b2.head⟩, ⟨by decide, b2.tail.head⟩, ⟨by decide, b2.tail.tail.head⟩, by decide, b2.tail.tail.tail.head⟩) (by decide)
  have vd := d3.val (m := [.BX, .CX, .R8, .R9]) (by decide)
  have wd := d3.wd (m := [.BX, .CX, .R8, .R9]) (by decide) c2
  generalize exec (adds [(.imm 0xffffffffffffffff, .R10), (.imm 0xffffffff00000000, .R11), (.imm 0xffffffffffffffff, .R12), (.imm 0xfffffffeffffffff, .R13)]) s3 = s4 at *
  simp only [List.map_cons, List.map_nil, val, sval, get_imm, List.length_cons, List.length_nil, e10, e11, e12, e13] at d1 d2
  have fax : s4.r .AX = s2.r .AX := (d3.r (by decide)).trans eax
  obtain ⟨z1, z2⟩ := andq1_spec .AX s4
  have vz := z2.val (m := [.BX, .CX, .R8, .R9]) (by decide)
  have wz := z2.wd (m := [.BX, .CX, .R8, .R9]) (by decide) wd
  have ve := z2.val (m := [.R10, .R11, .R12, .R13]) (by decide)
  have we := z2.wd (m := [.R10, .R11, .R12, .R13]) (by decide) d2
  generalize exec [.andq (.imm 1) .AX] s4 = s5 at *
  rw [fax] at z1
  obtain ⟨l1, l2, l3⟩ := cmoveqs_spec [(.reg .BX, .R10), (.reg .CX, .R11), (.reg .R8, .R12), (.reg .R9, .R13)] s5 (by
    intro p hp
    simp only [List.mem_cons, List.not_mem_nil, or_false] at hp
    rcases hp with rfl | rfl | rfl | rfl <;> exact ⟨_, rfl⟩) (by decide)
  replace l2 := l2 (by bnd; exact ⟨⟨wz.head, we.head⟩, ⟨wz.tail.head, we.tail.head⟩, ⟨wz.tail.tail.head, we.tail.tail.head⟩, wz.tail.tail.tail.head, we.tail.tail.tail.head⟩)
  generalize exec (cmoveqs [(.reg .BX, .R10), (.reg .CX, .R11), (.reg .R8, .R12), (.reg .R9, .R13)]) s5 = s6 at *
  simp only [List.map_cons, List.map_nil, sval, get_reg] at l1 l2
  have A := subI_arith wx.head wx.tail.head wx.tail.tail.head wx.tail.tail.tail.head wy.head wy.tail.head wy.tail.tail.head wy.tail.tail.tail.head
    b2.head b2.tail.head b2.tail.tail.head b2.tail.tail.tail.head b2.tail.tail.tail.tail.head d2.head d2.tail.head d2.tail.tail.head d2.tail.tail.tail.head
    (carry_le s2) b1 d1
  refine ⟨?_, l2, ?_⟩
  · rw [l1, ← vx, ← vy, z1]
    simp only [decide_eq_true_eq]
    split
    · next hz =>
      have q : s5.r .BX + B * (s5.r .CX + B * (s5.r .R8 + B * (s5.r .R9 + B * 0))) = val s5 [.BX, .CX, .R8, .R9] := rfl
      rw [q, vz, vd]
      simp only [val]
      rw [c1]
      exact A.1 hz
    · next hz =>
      rw [ve]
      exact A.2 hz
  · exact ((((a2.trans (n := subClob) b3 (by decide) (by decide)).trans (n := subClob) c3 (by decide) (by decide)).trans (n := subClob) d3 (by decide) (by decide)).trans
      (n := subClob) z2 (by decide) (by decide)).trans l3 (by decide) (by decide)

/-- `p256GmMulBy2Inline` -/
def dblC : List Instr :=
  [.xorq (.reg .AX) .AX] ++ (adds [(.reg .R10, .R10), (.reg .R11, .R11), (.reg .R12, .R12), (.reg .R13, .R13), (.imm 0, .AX)] ++
    condSubK .R10 .R11 .R12 .R13 .R14 .R15 .DI .SI .AX)

/-- `p256GmAddInline` -/
def addC : List Instr :=
  [.xorq (.reg .AX) .AX] ++ (adds [(.reg .R14, .R10), (.reg .R15, .R11), (.reg .DI, .R12), (.reg .SI, .R13), (.imm 0, .AX)] ++
    condSubK .R10 .R11 .R12 .R13 .R14 .R15 .DI .SI .AX)

theorem add5_arith {x0 x1 x2 x3 y0 y1 y2 y3 z0 z1 z2 z3 z4 c : Nat} (hx0 : x0 < B) (hx1 : x1 < B) (hx2 : x2 < B) (hx3 : x3 < B)
    (hy0 : y0 < B) (hy1 : y1 < B) (hy2 : y2 < B) (hy3 : y3 < B)
    (h : z0 + B * (z1 + B * (z2 + B * (z3 + B * (z4 + B * 0)))) + c * B ^ 5 =
      x0 + B * (x1 + B * (x2 + B * (x3 + B * (0 + B * 0)))) + (y0 + B * (y1 + B * (y2 + B * (y3 + B * (0 + B * 0)))))) :
    z0 + B * (z1 + B * (z2 + B * (z3 + B * (z4 + B * 0)))) = (x0 + B * (x1 + B * (x2 + B * (x3 + B * 0)))) + (y0 + B * (y1 + B * (y2 + B * (y3 + B * 0)))) :=
  fold_arith hx0 hx1 hx2 hx3 hy0 hy1 hy2 hy3 h

/-- the registers the inline addition and doubling may change -/
abbrev addClob : List Reg := [.AX, .R10, .R11, .R12, .R13, .R14, .R15, .DI, .SI]

theorem dblC_exec (s : St) (wx : Wd s [.R10, .R11, .R12, .R13]) :
    val (exec dblC s) [.R14, .R15, .DI, .SI] = condSub (val s [.R10, .R11, .R12, .R13] + val s [.R10, .R11, .R12, .R13]) ∧
    Wd (exec dblC s) [.R14, .R15, .DI, .SI] ∧ Same addClob s (exec dblC s) := by
  simp only [dblC, exec_append]
  obtain ⟨a1, a2⟩ := xorq_spec .AX s
  have vx := a2.val (m := [.R10, .R11, .R12, .R13]) (by decide)
  replace wx := a2.wd (m := [.R10, .R11, .R12, .R13]) (by decide) wx
  generalize exec [.xorq (.reg .AX) .AX] s = s1 at *
  obtain ⟨b1, b2, b3⟩ := adds_spec (.reg .R10, .R10) [(.reg .R11, .R11), (.reg .R12, .R12), (.reg .R13, .R13), (.imm 0, .AX)] s1 (by
    bnd
    rw [a1]
    exact ⟨⟨wx.head, wx.head⟩, ⟨wx.tail.head, wx.tail.head⟩, ⟨wx.tail.tail.head, wx.tail.tail.head⟩, ⟨wx.tail.tail.tail.head, wx.tail.tail.tail.head⟩, by decide, by decide⟩) (by decide)
  generalize exec (adds [(.reg .R10, .R10), (.reg .R11, .R11), (.reg .R12, .R12), (.reg .R13, .R13), (.imm 0, .AX)]) s1 = s2 at *
  simp only [List.map_cons, List.map_nil, val, sval, get_reg, get_imm, List.length_cons, List.length_nil, a1] at b1 b2
  obtain ⟨c1, c2, c3⟩ := condSubK_spec .R10 .R11 .R12 .R13 .R14 .R15 .DI .SI .AX s2 b2 (by decide)
  generalize exec (condSubK .R10 .R11 .R12 .R13 .R14 .R15 .DI .SI .AX) s2 = s3 at *
  refine ⟨?_, c2, (a2.trans (n := addClob) b3 (by decide) (by decide)).trans c3 (by decide) (by decide)⟩
  rw [c1, ← vx]
  simp only [val]
  rw [add5_arith wx.head wx.tail.head wx.tail.tail.head wx.tail.tail.tail.head wx.head wx.tail.head wx.tail.tail.head wx.tail.tail.tail.head b1]

theorem addC_exec (s : St) (wx : Wd s [.R10, .R11, .R12, .R13]) (wy : Wd s [.R14, .R15, .DI, .SI]) :
    val (exec addC s) [.R14, .R15, .DI, .SI] = condSub (val s [.R10, .R11, .R12, .R13] + val s [.R14, .R15, .DI, .SI]) ∧
    Wd (exec addC s) [.R14, .R15, .DI, .SI] ∧ Same addClob s (exec addC s) := by
  simp only [addC, exec_append]
  obtain ⟨a1, a2⟩ := xorq_spec .AX s
  have vx := a2.val (m := [.R10, .R11, .R12, .R13]) (by decide)
  have vy := a2.val (m := [.R14, .R15, .DI, .SI]) (by decide)
  replace wx := a2.wd (m := [.R10, .R11, .R12, .R13]) (by decide) wx
  replace wy := a2.wd (m := [.R14, .R15, .DI, .SI]) (by decide) wy
  generalize exec [.xorq (.reg .AX) .AX] s = s1 at *
  obtain ⟨b1, b2, b3⟩ := adds_spec (.reg .R14, .R10) [(.reg .R15, .R11), (.reg .DI, .R12), (.reg .SI, .R13), (.imm 0, .AX)] s1 (by
    bnd
    rw [a1]
    exact ⟨⟨wy.head, wx.head⟩, ⟨wy.tail.head, wx.tail.head⟩, ⟨wy.tail.tail.head, wx.tail.tail.head⟩, ⟨wy.tail.tail.tail.head, wx.tail.tail.tail.head⟩, by decide, by decide⟩) (by decide)
  generalize exec (adds [(.reg .R14, .R10), (.reg .R15, .R11), (.reg .DI, .R12), (.reg .SI, .R13), (.imm 0, .AX)]) s1 = s2 at *
  simp only [List.map_cons, List.map_nil, val, sval, get_reg, get_imm, List.length_cons, List.length_nil, a1] at b1 b2
  obtain ⟨c1, c2, c3⟩ := condSubK_spec .R10 .R11 .R12 .R13 .R14 .R15 .DI .SI .AX s2 b2 (by decide)
  generalize exec (condSubK .R10 .R11 .R12 .R13 .R14 .R15 .DI .SI .AX) s2 = s3 at *
  refine ⟨?_, c2, (a2.trans (n := addClob) b3 (by decide) (by decide)).trans c3 (by decide) (by decide)⟩
  rw [c1, ← vx, ← vy]
  simp only [val]
  rw [add5_arith wx.head wx.tail.head wx.tail.tail.head wx.tail.tail.tail.head wy.head wy.tail.head wy.tail.tail.head wy.tail.tail.tail.head b1]

end Verif.Sm2.Asm
