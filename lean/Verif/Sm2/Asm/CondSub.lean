import Verif.Sm2.Asm.Row
/-!
Sequences of moves and conditional moves, stores, and the final conditional subtraction of the prime.
-/
namespace Verif.Sm2.Asm

/-- a sequence of `MOVQ` into registers -/
def movs : List (Src × Reg) → List Instr
  | [] => []
  | (a, d) :: l => .movq a (.reg d) :: movs l

/-- a sequence of `CMOVQCS` -/
def cmovs : List (Src × Reg) → List Instr
  | [] => []
  | (.reg a, d) :: l => .cmovcs a d :: cmovs l
  | _ :: l => cmovs l

theorem movq_spec (a : Src) (d : Reg) (s : St) : (step s (.movq a (.reg d))).r d = a.get s ∧ (step s (.movq a (.reg d))).cf = s.cf ∧
    Same [d] s (step s (.movq a (.reg d))) := by
  simp only [step, St.put, St.setR, upd_apply, if_true]
  refine ⟨trivial, trivial, ?_⟩
  frame

theorem movs_spec (l : List (Src × Reg)) : ∀ (s : St), Clean l →
    val (exec (movs l) s) (l.map (·.2)) = sval s (l.map (·.1)) ∧ (exec (movs l) s).cf = s.cf ∧
    ((∀ p ∈ l, p.1.get s < B) → Wd (exec (movs l) s) (l.map (·.2))) ∧ Same (l.map (·.2)) s (exec (movs l) s) := by
  induction l with
  | nil => intro s _; exact ⟨rfl, rfl, fun _ => .nil, .refl _ _⟩
  | cons p l ih =>
    intro s hc
    obtain ⟨a, d⟩ := p
    obtain ⟨h1, h2, h3⟩ := movq_spec a d s
    have hl : ∀ p ∈ l, p.1.avoids [d] ∧ p.2 ≠ d := hc.1
    obtain ⟨k1, k2, k3, k4⟩ := ih (step s (.movq a (.reg d))) hc.2
    have hd : d ∉ l.map (·.2) := by
      intro h
      obtain ⟨p, hp, e⟩ := List.mem_map.1 h
      exact (hl p hp).2 e
    simp only [movs, exec_cons, List.map_cons, val, sval]
    rw [h3.sval (m := l.map (·.1)) (by intro r hr; obtain ⟨p, hp, rfl⟩ := List.mem_map.1 hr; exact (hl p hp).1)] at k1
    refine ⟨?_, k2.trans h2, ?_, h3.trans k4 (by simp) (by simp)⟩
    · rw [k4.r hd, h1, k1]
    · intro hb
      refine .cons ?_ (k3 ?_)
      · rw [k4.r hd, h1]; exact hb (a, d) List.mem_cons_self
      · intro p hp
        rw [h3.get (hl p hp).1]
        exact hb p (List.mem_cons_of_mem _ hp)

theorem cmovcs_spec (a d : Reg) (s : St) : (step s (.cmovcs a d)).r d = (if s.cf then s.r a else s.r d) ∧ (step s (.cmovcs a d)).cf = s.cf ∧
    Same [d] s (step s (.cmovcs a d)) := by
  simp only [step, St.setR]
  cases h : s.cf
  · exact ⟨rfl, h, .refl _ _⟩
  · simp only [if_true]
    refine ⟨by simp only [upd_apply, if_true], trivial, ?_⟩
    frame

/-- register sources only -/
def Regs (l : List (Src × Reg)) : Prop := ∀ p ∈ l, ∃ r, p.1 = .reg r

theorem cmovs_spec (l : List (Src × Reg)) : ∀ (s : St), Regs l → Clean l →
    val (exec (cmovs l) s) (l.map (·.2)) = (if s.cf then sval s (l.map (·.1)) else val s (l.map (·.2))) ∧
    ((∀ p ∈ l, p.1.get s < B ∧ s.r p.2 < B) → Wd (exec (cmovs l) s) (l.map (·.2))) ∧ Same (l.map (·.2)) s (exec (cmovs l) s) := by
  induction l with
  | nil => intro s _ _; exact ⟨by simp [cmovs, val, sval], fun _ => .nil, .refl _ _⟩
  | cons p l ih =>
    intro s hr hc
    obtain ⟨a, d⟩ := p
    obtain ⟨a, rfl⟩ : ∃ r, a = .reg r := hr (a, d) List.mem_cons_self
    obtain ⟨h1, h2, h3⟩ := cmovcs_spec a d s
    have hl : ∀ p ∈ l, p.1.avoids [d] ∧ p.2 ≠ d := hc.1
    obtain ⟨k1, k3, k4⟩ := ih (step s (.cmovcs a d)) (fun p hp => hr p (List.mem_cons_of_mem _ hp)) hc.2
    have hd : d ∉ l.map (·.2) := by
      intro h
      obtain ⟨p, hp, e⟩ := List.mem_map.1 h
      exact (hl p hp).2 e
    simp only [cmovs, exec_cons, List.map_cons, val, sval]
    rw [h3.sval (m := l.map (·.1)) (by intro r hr; obtain ⟨p, hp, rfl⟩ := List.mem_map.1 hr; exact (hl p hp).1),
      h3.val (m := l.map (·.2)) (by intro r hr; obtain ⟨p, hp, rfl⟩ := List.mem_map.1 hr; simp [(hl p hp).2]), h2] at k1
    refine ⟨?_, ?_, h3.trans k4 (by simp) (by simp)⟩
    · rw [k4.r hd, h1, k1, get_reg]
      cases s.cf <;> rfl
    · intro hb
      refine .cons ?_ (k3 ?_)
      · rw [k4.r hd, h1]
        have := hb (.reg a, d) List.mem_cons_self
        rw [get_reg] at this
        split
        · exact this.1
        · exact this.2
      · intro p hp
        rw [h3.get (hl p hp).1, h3.r (by simp [(hl p hp).2])]
        exact hb p (List.mem_cons_of_mem _ hp)

/-- the final conditional subtraction: `T` if it is below the prime, else `T - p` in four limbs -/
def condSub (T : Nat) : Nat := if T < P then T else (T - P) % B ^ 4

/-- the subtrahends, with the fifth register of the accumulator if there is one -/
def primeSubs (d0 d1 d2 d3 : Reg) (e : List (Src × Reg)) : List (Src × Reg) :=
  (.imm 0xffffffffffffffff, d0) :: (.imm 0xffffffff00000000, d1) :: (.imm 0xffffffffffffffff, d2) :: (.imm 0xfffffffeffffffff, d3) :: e

/-- subtraction of the prime, undone by the conditional moves if it borrows -/
def condSubC (d0 d1 d2 d3 c0 c1 c2 c3 : Reg) (e : List (Src × Reg)) : List Instr :=
  movs [(.reg d0, c0), (.reg d1, c1), (.reg d2, c2), (.reg d3, c3)] ++ (subs (primeSubs d0 d1 d2 d3 e) ++
    cmovs [(.reg c0, d0), (.reg c1, d1), (.reg c2, d2), (.reg c3, d3)])

theorem condSub_arith5 {x0 x1 x2 x3 e y0 y1 y2 y3 f c : Nat}
    (j0 : y0 < B) (j1 : y1 < B) (j2 : y2 < B) (j3 : y3 < B) (j4 : f < B) (hc : c ≤ 1)
    (h : y0 + B * (y1 + B * (y2 + B * (y3 + B * (f + B * 0)))) + (0xffffffffffffffff + B * (0xffffffff00000000 + B * (0xffffffffffffffff + B * (0xfffffffeffffffff + B * (0 + B * 0))))) =
      x0 + B * (x1 + B * (x2 + B * (x3 + B * (e + B * 0)))) + c * B ^ 5)
    (k0 : x0 < B) (k1 : x1 < B) (k2 : x2 < B) (k3 : x3 < B) (k4 : e < B) :
    (c = 1 → x0 + B * (x1 + B * (x2 + B * (x3 + B * 0))) = condSub (x0 + B * (x1 + B * (x2 + B * (x3 + B * (e + B * 0)))))) ∧
    (c = 0 → y0 + B * (y1 + B * (y2 + B * (y3 + B * 0))) = condSub (x0 + B * (x1 + B * (x2 + B * (x3 + B * (e + B * 0)))))) := by
  constructor
  · intro e1
    subst e1
    have hT : x0 + B * (x1 + B * (x2 + B * (x3 + B * (e + B * 0)))) < P := by simp only [B, P] at *; omega
    rw [condSub, if_pos hT]
    simp only [B, P] at *
    omega
  · intro e1
    subst e1
    have hT : ¬ x0 + B * (x1 + B * (x2 + B * (x3 + B * (e + B * 0)))) < P := by simp only [B, P] at *; omega
    rw [condSub, if_neg hT]
    have : x0 + B * (x1 + B * (x2 + B * (x3 + B * (e + B * 0)))) - P = y0 + B * (y1 + B * (y2 + B * (y3 + B * 0))) + f * B ^ 4 := by
      simp only [B, P] at *; omega
    rw [this, Nat.add_mul_mod_self_right, Nat.mod_eq_of_lt]
    clear h this hT
    simp only [B] at *
    omega

theorem carry_cf (s : St) : (s.cf = true → carry s = 1) ∧ (s.cf = false → carry s = 0) := by
  simp only [carry]
  constructor <;> intro h <;> simp [h]

theorem condSub5_spec (d0 d1 d2 d3 c0 c1 c2 c3 e : Reg) (s : St) (w : Wd s [d0, d1, d2, d3, e])
    (hd : [d0, d1, d2, d3, c0, c1, c2, c3, e].Nodup) :
    val (exec (condSubC d0 d1 d2 d3 c0 c1 c2 c3 [(.imm 0, e)]) s) [d0, d1, d2, d3] = condSub (val s [d0, d1, d2, d3, e]) ∧
    Wd (exec (condSubC d0 d1 d2 d3 c0 c1 c2 c3 [(.imm 0, e)]) s) [d0, d1, d2, d3] ∧
    Same [d0, d1, d2, d3, c0, c1, c2, c3, e] s (exec (condSubC d0 d1 d2 d3 c0 c1 c2 c3 [(.imm 0, e)]) s) := by
  regs hd hk
  have w0 := w.head
  have w1 := w.tail.head
  have w2 := w.tail.tail.head
  have w3 := w.tail.tail.tail.head
  have w4 := w.tail.tail.tail.tail.head
  obtain ⟨h1, -, h2, h3⟩ := movs_spec [(.reg d0, c0), (.reg d1, c1), (.reg d2, c2), (.reg d3, c3)] s (by cln hd hk)
  simp only [condSubC, exec_append]
  generalize exec (movs [(.reg d0, c0), (.reg d1, c1), (.reg d2, c2), (.reg d3, c3)]) s = s1 at *
  have f0 : s1.r d0 = s.r d0 := h3.r (by far hd hk)
  have f1 : s1.r d1 = s.r d1 := h3.r (by far hd hk)
  have f2 : s1.r d2 = s.r d2 := h3.r (by far hd hk)
  have f3 : s1.r d3 = s.r d3 := h3.r (by far hd hk)
  have f4 : s1.r e = s.r e := h3.r (by far hd hk)
  obtain ⟨k1, k2, k3⟩ := subs_spec (.imm 0xffffffffffffffff, d0) [(.imm 0xffffffff00000000, d1), (.imm 0xffffffffffffffff, d2), (.imm 0xfffffffeffffffff, d3), (.imm 0, e)] s1 (by
    bnd
    rw [f0, f1, f2, f3, f4]
    exact ⟨⟨by decide, w0⟩, ⟨by decide, w1⟩, ⟨by decide, w2⟩, ⟨by decide, w3⟩, by decide, w4⟩) (by cln hd hk)
  simp only [primeSubs]
  generalize exec (subs [(.imm 0xffffffffffffffff, d0), (.imm 0xffffffff00000000, d1), (.imm 0xffffffffffffffff, d2), (.imm 0xfffffffeffffffff, d3), (.imm 0, e)]) s1 = s2 at *
  obtain ⟨l1, l2, l3⟩ := cmovs_spec [(.reg c0, d0), (.reg c1, d1), (.reg c2, d2), (.reg c3, d3)] s2 (by
    intro p hp
    simp only [List.mem_cons, List.not_mem_nil, or_false] at hp
    rcases hp with rfl | rfl | rfl | rfl <;> exact ⟨_, rfl⟩) (by cln hd hk)
  have g0 : s2.r c0 = s1.r c0 := k3.r (by far hd hk)
  have g1 : s2.r c1 = s1.r c1 := k3.r (by far hd hk)
  have g2 : s2.r c2 = s1.r c2 := k3.r (by far hd hk)
  have g3 : s2.r c3 = s1.r c3 := k3.r (by far hd hk)
  replace h2 := h2 (by bnd; exact ⟨w0, w1, w2, w3⟩)
  generalize exec (cmovs [(.reg c0, d0), (.reg c1, d1), (.reg c2, d2), (.reg c3, d3)]) s2 = s3 at *
  simp only [List.map_cons, List.map_nil, sval, val, get_reg, get_imm, List.length_cons, List.length_nil] at h1 k1 k2 l1 l2 h2
  rw [f0, f1, f2, f3, f4] at k1
  have A := condSub_arith5 k2.head k2.tail.head k2.tail.tail.head k2.tail.tail.tail.head k2.tail.tail.tail.tail.head (carry_le s2) k1 w0 w1 w2 w3 w4
  refine ⟨?_, ?_, (h3.trans (n := [d0, d1, d2, d3, c0, c1, c2, c3, e]) k3 (by incl) (by incl)).trans l3 (by incl) (by incl)⟩
  · simp only [val]
    rw [l1, g0, g1, g2, g3, h1]
    cases h : s2.cf
    · exact A.2 ((carry_cf s2).2 h)
    · exact A.1 ((carry_cf s2).1 h)
  · refine l2 ?_
    bnd
    rw [g0, g1, g2, g3]
    exact ⟨⟨h2.head, k2.head⟩, ⟨h2.tail.head, k2.tail.head⟩, ⟨h2.tail.tail.head, k2.tail.tail.head⟩, h2.tail.tail.tail.head, k2.tail.tail.tail.head⟩

theorem condSub_arith4 {x0 x1 x2 x3 y0 y1 y2 y3 c : Nat}
    (j0 : y0 < B) (j1 : y1 < B) (j2 : y2 < B) (j3 : y3 < B) (hc : c ≤ 1)
    (h : y0 + B * (y1 + B * (y2 + B * (y3 + B * 0))) + (0xffffffffffffffff + B * (0xffffffff00000000 + B * (0xffffffffffffffff + B * (0xfffffffeffffffff + B * 0)))) =
      x0 + B * (x1 + B * (x2 + B * (x3 + B * 0))) + c * B ^ 4)
    (k0 : x0 < B) (k1 : x1 < B) (k2 : x2 < B) (k3 : x3 < B) :
    (c = 1 → x0 + B * (x1 + B * (x2 + B * (x3 + B * 0))) = condSub (x0 + B * (x1 + B * (x2 + B * (x3 + B * 0))))) ∧
    (c = 0 → y0 + B * (y1 + B * (y2 + B * (y3 + B * 0))) = condSub (x0 + B * (x1 + B * (x2 + B * (x3 + B * 0))))) := by
  have A := condSub_arith5 (e := 0) (f := if c = 1 then B - 1 else 0) (c := c) j0 j1 j2 j3 (by simp only [B]; split <;> omega) hc (by
    have : c = 0 ∨ c = 1 := by omega
    rcases this with rfl | rfl
    · simp only [zero_ne_one, if_false]; linear_combination h
    · simp only [if_true]
      simp only [B] at *
      omega) k0 k1 k2 k3 (by decide)
  exact A

theorem condSub4_spec (d0 d1 d2 d3 c0 c1 c2 c3 : Reg) (s : St) (w : Wd s [d0, d1, d2, d3])
    (hd : [d0, d1, d2, d3, c0, c1, c2, c3].Nodup) :
    val (exec (condSubC d0 d1 d2 d3 c0 c1 c2 c3 []) s) [d0, d1, d2, d3] = condSub (val s [d0, d1, d2, d3]) ∧
    Wd (exec (condSubC d0 d1 d2 d3 c0 c1 c2 c3 []) s) [d0, d1, d2, d3] ∧
    Same [d0, d1, d2, d3, c0, c1, c2, c3] s (exec (condSubC d0 d1 d2 d3 c0 c1 c2 c3 []) s) := by
  regs hd hk
  have w0 := w.head
  have w1 := w.tail.head
  have w2 := w.tail.tail.head
  have w3 := w.tail.tail.tail.head
  obtain ⟨h1, -, h2, h3⟩ := movs_spec [(.reg d0, c0), (.reg d1, c1), (.reg d2, c2), (.reg d3, c3)] s (by cln hd hk)
  simp only [condSubC, exec_append]
  generalize exec (movs [(.reg d0, c0), (.reg d1, c1), (.reg d2, c2), (.reg d3, c3)]) s = s1 at *
  have f0 : s1.r d0 = s.r d0 := h3.r (by far hd hk)
  have f1 : s1.r d1 = s.r d1 := h3.r (by far hd hk)
  have f2 : s1.r d2 = s.r d2 := h3.r (by far hd hk)
  have f3 : s1.r d3 = s.r d3 := h3.r (by far hd hk)
  obtain ⟨k1, k2, k3⟩ := subs_spec (.imm 0xffffffffffffffff, d0) [(.imm 0xffffffff00000000, d1), (.imm 0xffffffffffffffff, d2), (.imm 0xfffffffeffffffff, d3)] s1 (by
    bnd
    rw [f0, f1, f2, f3]
    exact ⟨⟨by decide, w0⟩, ⟨by decide, w1⟩, ⟨by decide, w2⟩, by decide, w3⟩) (by cln hd hk)
  simp only [primeSubs]
  generalize exec (subs [(.imm 0xffffffffffffffff, d0), (.imm 0xffffffff00000000, d1), (.imm 0xffffffffffffffff, d2), (.imm 0xfffffffeffffffff, d3)]) s1 = s2 at *
  obtain ⟨l1, l2, l3⟩ := cmovs_spec [(.reg c0, d0), (.reg c1, d1), (.reg c2, d2), (.reg c3, d3)] s2 (by
    intro p hp
    simp only [List.mem_cons, List.not_mem_nil, or_false] at hp
    rcases hp with rfl | rfl | rfl | rfl <;> exact ⟨_, rfl⟩) (by cln hd hk)
  have g0 : s2.r c0 = s1.r c0 := k3.r (by far hd hk)
  have g1 : s2.r c1 = s1.r c1 := k3.r (by far hd hk)
  have g2 : s2.r c2 = s1.r c2 := k3.r (by far hd hk)
  have g3 : s2.r c3 = s1.r c3 := k3.r (by far hd hk)
  replace h2 := h2 (by bnd; exact ⟨w0, w1, w2, w3⟩)
  generalize exec (cmovs [(.reg c0, d0), (.reg c1, d1), (.reg c2, d2), (.reg c3, d3)]) s2 = s3 at *
  simp only [List.map_cons, List.map_nil, sval, val, get_reg, get_imm, List.length_cons, List.length_nil] at h1 k1 k2 l1 l2 h2
  rw [f0, f1, f2, f3] at k1
  have A := condSub_arith4 k2.head k2.tail.head k2.tail.tail.head k2.tail.tail.tail.head (carry_le s2) k1 w0 w1 w2 w3
  refine ⟨?_, ?_, (h3.trans (n := [d0, d1, d2, d3, c0, c1, c2, c3]) k3 (by incl) (by incl)).trans l3 (by incl) (by incl)⟩
  · simp only [val]
    rw [l1, g0, g1, g2, g3, h1]
    cases h : s2.cf
    · exact A.2 ((carry_cf s2).2 h)
    · exact A.1 ((carry_cf s2).1 h)
  · refine l2 ?_
    bnd
    rw [g0, g1, g2, g3]
    exact ⟨⟨h2.head, k2.head⟩, ⟨h2.tail.head, k2.tail.head⟩, ⟨h2.tail.tail.head, k2.tail.tail.head⟩, h2.tail.tail.tail.head, k2.tail.tail.tail.head⟩

end Verif.Sm2.Asm
