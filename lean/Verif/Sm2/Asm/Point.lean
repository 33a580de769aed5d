import Verif.Sm2.Asm.Macro
/-!
`sm2p256PointDoubleAsm` and the pieces shared by the point routines.
-/
namespace Verif.Sm2.Asm

/-- a point in memory: three 256-bit numbers -/
structure Jac where
  x : Nat
  y : Nat
  z : Nat
deriving DecidableEq, Repr

/-- the point at address `a` -/
def ldJ (h : Nat → Nat) (a : Nat) : Jac := ⟨ld4 h a, ld4 h (a + 32), ld4 h (a + 64)⟩

def WordsJ (h : Nat → Nat) (a : Nat) : Prop := Words h a ∧ Words h (a + 32) ∧ Words h (a + 64)

/-- only the 96 bytes at `a` may differ -/
def OutsideJ (a : Nat) (h h' : Nat → Nat) : Prop := ∀ b, b < a ∨ a + 96 ≤ b → h' b = h b

/-- what `sm2p256PointDoubleAsm` computes, on whole numbers -/
def ptDbl (p : Jac) : Jac :=
  let zz := mulI p.z p.z
  let u := condSub (zz + p.x)
  let zy := mulI p.z p.y
  let m1 := mulI (subI p.x zz) u
  let m := condSub (m1 + condSub (m1 + m1))
  let y2 := condSub (p.y + p.y)
  let s1 := mulI y2 y2
  let q := halfI (mulI s1 s1)
  let s := mulI p.x s1
  let x' := subI (mulI m m) (condSub (s + s))
  ⟨x', subI (mulI (subI s x') m) q, condSub (zy + zy)⟩

/-- copy of 96 bytes from memory at register `b` to the stack at `o` -/
def copy96 (b : Reg) (o : Nat) : List Instr :=
  [.movou (.mem b 0) (.reg .X0), .movou (.mem b 16) (.reg .X1), .movou (.mem b 32) (.reg .X2), .movou (.mem b 48) (.reg .X3),
   .movou (.mem b 64) (.reg .X4), .movou (.mem b 80) (.reg .X5), .movou (.reg .X0) (.stk o), .movou (.reg .X1) (.stk (o + 16)),
   .movou (.reg .X2) (.stk (o + 32)), .movou (.reg .X3) (.stk (o + 48)), .movou (.reg .X4) (.stk (o + 64)), .movou (.reg .X5) (.stk (o + 80))]

theorem copy96_spec (b : Reg) (o : Nat) (s : St) : (∀ i, i < 12 → (exec (copy96 b o) s).stk (o + 8 * i) = s.heap (s.r b + 8 * i)) ∧
    (∀ x, x < o ∨ o + 96 ≤ x → (exec (copy96 b o) s).stk x = s.stk x) ∧ (exec (copy96 b o) s).r = s.r ∧
    (exec (copy96 b o) s).heap = s.heap ∧ (exec (copy96 b o) s).args = s.args := by
  simp only [copy96, exec_cons, exec_nil, step, St.putX, St.setX, XOp.get]
  simp only [upd_apply, reduceCtorEq, if_true, if_false]
  refine ⟨?_, ?_, trivial, trivial, trivial⟩
  · intro i hi
    have : i = 0 ∨ i = 1 ∨ i = 2 ∨ i = 3 ∨ i = 4 ∨ i = 5 ∨ i = 6 ∨ i = 7 ∨ i = 8 ∨ i = 9 ∨ i = 10 ∨ i = 11 := by omega
    rcases this with rfl | rfl | rfl | rfl | rfl | rfl | rfl | rfl | rfl | rfl | rfl | rfl <;>
      simp only [Nat.reduceMul, Nat.add_assoc, Nat.reduceAdd, Nat.add_zero, Nat.left_eq_add, Nat.add_left_cancel_iff, Nat.reduceEqDiff, if_true, if_false, Nat.add_eq_left, OfNat.ofNat_ne_zero]
  · intro x h
    rw [if_neg (by omega), if_neg (by omega), if_neg (by omega), if_neg (by omega), if_neg (by omega), if_neg (by omega), if_neg (by omega), if_neg (by omega), if_neg (by omega), if_neg (by omega), if_neg (by omega), if_neg (by omega)]

theorem copied {h g : Nat → Nat} {o a : Nat} (e : ∀ i, i < 12 → g (o + 8 * i) = h (a + 8 * i)) :
    ldJ g o = ldJ h a ∧ (WordsJ h a → WordsJ g o) := by
  have e0 := e 0 (by omega)
  have e1 := e 1 (by omega)
  have e2 := e 2 (by omega)
  have e3 := e 3 (by omega)
  have e4 := e 4 (by omega)
  have e5 := e 5 (by omega)
  have e6 := e 6 (by omega)
  have e7 := e 7 (by omega)
  have e8 := e 8 (by omega)
  have e9 := e 9 (by omega)
  have e10 := e 10 (by omega)
  have e11 := e 11 (by omega)
  simp only [Nat.reduceMul, Nat.mul_zero, Nat.add_zero] at *
  simp only [ldJ, WordsJ, ld4, Words, Nat.add_assoc, Nat.reduceAdd, e0, e1, e2, e3, e4, e5, e6, e7, e8, e9, e10, e11, imp_self, and_self]

/-- the pointer at `rp(SP)`, then four registers to memory at `off` from it -/
def stH (rp off : Nat) (a b c d : Reg) : List Instr :=
  [.movq (.stk rp) (.reg .AX), .movq (.reg a) (.mem .AX off), .movq (.reg b) (.mem .AX (off + 8)), .movq (.reg c) (.mem .AX (off + 16)), .movq (.reg d) (.mem .AX (off + 24))]

theorem stH_spec (rp off : Nat) (a b c d : Reg) (s : St) (hd : .AX ∉ [a, b, c, d]) :
    ld4 (exec (stH rp off a b c d) s).heap (s.stk rp + off) = val s [a, b, c, d] ∧
    (Wd s [a, b, c, d] → Words (exec (stH rp off a b c d) s).heap (s.stk rp + off)) ∧
    (∀ x, x < s.stk rp + off ∨ s.stk rp + off + 32 ≤ x → (exec (stH rp off a b c d) s).heap x = s.heap x) ∧
    (∀ r, r ≠ .AX → (exec (stH rp off a b c d) s).r r = s.r r) ∧ (exec (stH rp off a b c d) s).r .AX = s.stk rp ∧
    (exec (stH rp off a b c d) s).stk = s.stk ∧ (exec (stH rp off a b c d) s).args = s.args := by
  simp only [List.mem_cons, List.not_mem_nil, or_false, not_or] at hd
  obtain ⟨h1, h2, h3, h4⟩ := hd
  simp only [stH, exec_cons, exec_nil, step, St.put, St.setR, get_reg, get_stk, val, ld4, Nat.mul_zero, Nat.add_zero]
  simp only [upd_apply, reduceCtorEq, if_true, if_false, if_neg (Ne.symm h1), if_neg (Ne.symm h2), if_neg (Ne.symm h3), if_neg (Ne.symm h4), Words]
  simp only [Nat.add_assoc, Nat.reduceAdd, Nat.left_eq_add, Nat.add_left_cancel_iff, Nat.reduceEqDiff, if_true, if_false, Nat.add_eq_left, OfNat.ofNat_ne_zero]
  refine ⟨trivial, ?_, ?_, ?_, trivial, trivial, trivial⟩
  · intro w
    exact ⟨w.head, w.tail.head, w.tail.tail.head, w.tail.tail.tail.head⟩
  · intro x h
    rw [if_neg (by omega), if_neg (by omega), if_neg (by omega), if_neg (by omega)]
  · intro r h
    rw [if_neg h]

theorem clr_heap (o : Nat) (s : St) : (exec [.movq (.imm 0) (.stk o)] s).heap = s.heap := rfl

/-- forget where the computation started -/
theorem Rel.rebase {K : Nat} {s0 s : St} {A : Abs} (h : Rel K s0 s A) : Rel K s s A := ⟨h.a, h.t, h.sl, rfl, rfl, fun _ _ => rfl⟩

/-- nothing but the heap and `AX` changed -/
theorem Rel.heapChange {K : Nat} {s0 s s' : St} {A : Abs} (h : Rel K s0 s A) (hr : ∀ r, r ≠ .AX → s'.r r = s.r r) (hs : s'.stk = s.stk) : Rel K s' s' A := by
  have hv : ∀ l : List Reg, .AX ∉ l → val s' l = val s l := by
    intro l hl
    induction l with
    | nil => rfl
    | cons r l ih =>
      simp only [List.mem_cons, not_or] at hl
      simp only [val, hr r (Ne.symm hl.1), ih hl.2]
  have hw : ∀ l : List Reg, .AX ∉ l → Wd s l → Wd s' l := by
    intro l hl w r m
    rw [hr r (by rintro rfl; exact hl m)]
    exact w r m
  refine ⟨fun v e => ⟨(hv _ (by decide)).trans (h.a v e).1, hw _ (by decide) (h.a v e).2⟩, fun v e => ⟨(hv _ (by decide)).trans (h.t v e).1, hw _ (by decide) (h.t v e).2⟩,
    ?_, rfl, rfl, fun _ _ => rfl⟩
  rw [hs]; exact h.sl

/-- slots holding points -/
def sl3 (p : Jac) : Nat → Option Nat := fun i => if i = 0 then some p.x else if i = 1 then some p.y else if i = 2 then some p.z else none

/-- the parts of `sm2p256PointDoubleAsm` -/
def dblP1 : List M := [.ldA 2, .sqr, .stA 5, .ldT 0, .add, .stT 4, .ldA 2, .ldT 1, .mul, .dbl]
def dblP2 : List M :=
  [.ldA 0, .ldT 5, .sub, .ldT 4, .mul, .stA 4, .dbl, .ldA 4, .add, .stT 4, .ldA 1, .dbl, .t2a, .sqr, .stA 3, .sqr, .half, .stA 1,
   .ldA 0, .ldT 3, .mul, .stA 3, .dbl, .stT 6, .ldA 4, .sqr, .ldT 6, .sub]
def dblP3 : List M := [.a2t, .ldA 3, .sub, .ldT 4, .mul, .ldT 1, .sub]

theorem dbl_split : sm2p256PointDoubleAsm =
    [.movq (.arg 0) (.reg .AX), .movq (.arg 24) (.reg .BX)] ++ (copy96 .BX 0 ++ ([.movq (.reg .AX) (.stk 224)] ++ (code dblP1 ++
    (stH 224 64 .R14 .R15 .DI .SI ++ (code dblP2 ++ (stH 224 0 .R10 .R11 .R12 .R13 ++ (code dblP3 ++
    (stH 224 32 .R10 .R11 .R12 .R13 ++ [.movq (.imm 0) (.stk 224)])))))))) := by decide +kernel

attribute [local irreducible] mulI subI condSub halfI

theorem aexec_append (K : Nat) (l m : List M) (A : Abs) : aexec K (l ++ m) A = (aexec K l A).bind (aexec K m) := by
  induction l generalizing A with
  | nil => rfl
  | cons x l ih =>
    simp only [List.cons_append, aexec]
    cases astep K x A with
    | none => rfl
    | some A' => exact ih A'

theorem dbl_abs (p : Jac) (o1 o2 : Option Nat) : ∃ A1 A2 A3 : Abs, aexec 7 dblP1 ⟨o1, o2, sl3 p⟩ = some A1 ∧ A1.t = some (ptDbl p).z ∧
    aexec 7 dblP2 A1 = some A2 ∧ A2.a = some (ptDbl p).x ∧ aexec 7 dblP3 A2 = some A3 ∧ A3.a = some (ptDbl p).y :=
  ⟨_, _, _, rfl, rfl, rfl, rfl, rfl, rfl⟩

attribute [local irreducible] code stH copy96 ptDbl aexec

/-- `sm2/sm2p256_amd64.s:2407-2529`: the routine stores `ptDbl` of its operand at the result and changes no other memory -/
theorem dbl_exec (s : St) (hx : WordsJ s.heap (s.args 24)) :
    ldJ (exec sm2p256PointDoubleAsm s).heap (s.args 0) = ptDbl (ldJ s.heap (s.args 24)) ∧
    WordsJ (exec sm2p256PointDoubleAsm s).heap (s.args 0) ∧ OutsideJ (s.args 0) s.heap (exec sm2p256PointDoubleAsm s).heap := by
  rw [dbl_split]
  simp only [exec_append]
  have hax : (exec [.movq (.arg 0) (.reg .AX), .movq (.arg 24) (.reg .BX)] s).r .AX = s.args 0 := rfl
  have hbx : (exec [.movq (.arg 0) (.reg .AX), .movq (.arg 24) (.reg .BX)] s).r .BX = s.args 24 := rfl
  have hh : (exec [.movq (.arg 0) (.reg .AX), .movq (.arg 24) (.reg .BX)] s).heap = s.heap := rfl
  generalize exec [.movq (.arg 0) (.reg .AX), .movq (.arg 24) (.reg .BX)] s = s1 at *
  obtain ⟨c1, -, c3, c4, -⟩ := copy96_spec .BX 0 s1
  generalize exec (copy96 .BX 0) s1 = s2 at *
  have d1 : (exec [.movq (.reg .AX) (.stk 224)] s2).stk = upd s2.stk 224 (s.args 0) := by
    rw [← hax, ← c3]; rfl
  have d2 : (exec [.movq (.reg .AX) (.stk 224)] s2).heap = s.heap := c4.trans hh
  generalize exec [.movq (.reg .AX) (.stk 224)] s2 = s3 at *
  obtain ⟨f1, f2⟩ := copied (h := s.heap) (g := s3.stk) (o := 0) (a := s.args 24) (by
    intro i hi
    rw [d1, upd_apply, if_neg (by omega), c1 i hi, hbx, hh])
  have hrp : s3.stk 224 = s.args 0 := by rw [d1, upd_apply, if_pos rfl]
  generalize hp : ldJ s.heap (s.args 24) = p at *
  replace f2 := f2 hx
  have R0 : Rel 7 s3 s3 ⟨none, none, sl3 p⟩ := by
    refine ⟨fun v e => (by cases e), fun v e => (by cases e), ?_, rfl, rfl, fun _ _ => rfl⟩
    intro i v hi hv
    simp only [sl3] at hv
    subst f1
    split at hv
    · next h => subst h; cases hv; exact ⟨rfl, f2.1⟩
    · split at hv
      · next h => subst h; cases hv; exact ⟨rfl, f2.2.1⟩
      · split at hv
        · next h => subst h; cases hv; exact ⟨rfl, f2.2.2⟩
        · cases hv
  obtain ⟨A1, A2, A3, b1, b2, b3, b4, b5, b6⟩ := dbl_abs p none none
  have R1 := sound _ R0 b1
  generalize exec (code dblP1) s3 = s4 at *
  have r1 : s4.stk 224 = s.args 0 := (R1.stk 224 (by decide)).trans hrp
  have h1 : s4.heap = s.heap := R1.heap.trans d2
  obtain ⟨z1, z2⟩ := R1.t _ b2
  obtain ⟨e1, e2, e3, e4, -, e5, -⟩ := stH_spec 224 64 .R14 .R15 .DI .SI s4 (by decide)
  replace e2 := e2 z2
  replace R1 := R1.heapChange e4 e5
  generalize exec (stH 224 64 .R14 .R15 .DI .SI) s4 = s5 at *
  have R2 := sound _ R1 b3
  generalize exec (code dblP2) s5 = s6 at *
  have r2 : s6.stk 224 = s.args 0 := ((R2.stk 224 (by decide)).trans (by rw [e5])).trans r1
  have h2 : s6.heap = s5.heap := R2.heap
  obtain ⟨x1, x2⟩ := R2.a _ b4
  obtain ⟨g1, g2, g3, g4, -, g5, -⟩ := stH_spec 224 0 .R10 .R11 .R12 .R13 s6 (by decide)
  replace g2 := g2 x2
  replace R2 := R2.heapChange g4 g5
  generalize exec (stH 224 0 .R10 .R11 .R12 .R13) s6 = s7 at *
  have R3 := sound _ R2 b5
  generalize exec (code dblP3) s7 = s8 at *
  have r3 : s8.stk 224 = s.args 0 := ((R3.stk 224 (by decide)).trans (by rw [g5])).trans r2
  have h3 : s8.heap = s7.heap := R3.heap
  obtain ⟨y1, y2⟩ := R3.a _ b6
  obtain ⟨k1, k2, k3, -, -, -, -⟩ := stH_spec 224 32 .R10 .R11 .R12 .R13 s8 (by decide)
  replace k2 := k2 y2
  generalize exec (stH 224 32 .R10 .R11 .R12 .R13) s8 = s9 at *
  rw [clr_heap]
  rw [r1] at e1 e2 e3
  rw [r2] at g1 g2 g3
  rw [r3] at k1 k2 k3
  rw [Nat.add_zero] at g1 g2 g3
  rw [z1] at e1
  rw [x1] at g1
  rw [y1] at k1
  have kz : ∀ o, s.args 0 + 64 ≤ o → o < s.args 0 + 64 + 32 → s9.heap o = s5.heap o := by
    intro o ho ho'
    rw [k3 o (by omega), h3, g3 o (by omega), h2]
  have kx : ∀ o, s.args 0 ≤ o → o < s.args 0 + 32 → s9.heap o = s7.heap o := by
    intro o ho ho'
    rw [k3 o (by omega), h3]
  obtain ⟨lz, wz⟩ := ld4_eq kz
  obtain ⟨lx, wx⟩ := ld4_eq kx
  refine ⟨?_, ⟨wx g2, k2, wz e2⟩, ?_⟩
  · rw [ldJ, lx, g1, k1, lz, e1]
  · intro o ho
    rw [k3 o (by omega), h3, g3 o (by omega), h2, e3 o (by omega), h1]

end Verif.Sm2.Asm
