import Verif.Sm2.Asm.Point
/-!
`sm2p256PointAddAsm`.
-/
namespace Verif.Sm2.Asm

/-- what `sm2p256PointAddAsm` computes on whole numbers: the sum, and the flag that the operands are equal -/
def ptAdd (p q : Jac) : Jac × Nat :=
  let z2s := mulI q.z q.z
  let s1 := mulI (mulI z2s q.z) p.y
  let z1s := mulI p.z p.z
  let s2 := mulI (mulI z1s p.z) q.y
  let r := subI s2 s1
  let u1 := mulI z2s p.x
  let u2 := mulI z1s q.x
  let h := subI u2 u1
  let rr := mulI r r
  let hh := mulI h h
  let hc := mulI hh h
  let s3 := mulI hc s1
  let zo := mulI (mulI p.z q.z) h
  let v := mulI hh u1
  let xo := subI (subI rr (condSub (v + v))) hc
  (⟨xo, subI (mulI (subI v xo) r) s3, zo⟩, isZeroI h &&& isZeroI r)

/-- the slots of two points -/
def sl6 (p q : Jac) : Nat → Option Nat := fun i =>
  if i = 0 then some p.x else if i = 1 then some p.y else if i = 2 then some p.z else
  if i = 3 then some q.x else if i = 4 then some q.y else if i = 5 then some q.z else none

/-- the parts of `sm2p256PointAddAsm` -/
def addP1 : List M := [.ldA 5, .sqr, .stA 14, .ldT 5, .mul, .ldT 1, .mul, .stA 11, .ldA 2, .sqr, .stA 13, .ldT 2, .mul, .ldT 4, .mul, .stA 12, .ldT 11, .sub, .stA 16]
def addP2 : List M := [.ldA 14, .ldT 0, .mul, .stA 9, .ldA 13, .ldT 3, .mul, .stA 10, .ldT 9, .sub, .stA 15]
def addP3 : List M :=
  [.ldA 16, .sqr, .stA 18, .ldA 15, .sqr, .stA 17, .ldT 15, .mul, .stA 19, .ldT 11, .mul, .stA 12, .ldA 2, .ldT 5, .mul, .ldT 15, .mul, .stA 8,
   .ldA 17, .ldT 9, .mul, .stA 10, .dbl, .ldA 18, .sub, .ldT 19, .sub, .stA 6, .a2t, .ldA 10, .sub, .ldT 16, .mul, .ldT 12, .sub, .stA 7]

/-- 96 bytes from the stack at `o` to the memory whose address is at `rp(SP)` -/
def out96 (rp o : Nat) : List Instr :=
  [.movou (.stk o) (.reg .X0), .movou (.stk (o + 16)) (.reg .X1), .movou (.stk (o + 32)) (.reg .X2), .movou (.stk (o + 48)) (.reg .X3),
   .movou (.stk (o + 64)) (.reg .X4), .movou (.stk (o + 80)) (.reg .X5), .movq (.stk rp) (.reg .AX), .movq (.imm 0) (.stk rp),
   .movou (.reg .X0) (.mem .AX 0), .movou (.reg .X1) (.mem .AX 16), .movou (.reg .X2) (.mem .AX 32), .movou (.reg .X3) (.mem .AX 48),
   .movou (.reg .X4) (.mem .AX 64), .movou (.reg .X5) (.mem .AX 80)]

theorem out96_spec (rp o : Nat) (s : St) : (∀ i, i < 12 → (exec (out96 rp o) s).heap (s.stk rp + 8 * i) = s.stk (o + 8 * i)) ∧
    OutsideJ (s.stk rp) s.heap (exec (out96 rp o) s).heap ∧ (exec (out96 rp o) s).stk = upd s.stk rp 0 ∧ (exec (out96 rp o) s).args = s.args := by
  simp only [out96, exec_cons, exec_nil, step, St.putX, St.setX, XOp.get, St.put, St.setR, get_stk, get_imm]
  simp only [upd_apply, reduceCtorEq, if_true, if_false]
  refine ⟨?_, ?_, trivial, trivial⟩
  · intro i hi
    have : i = 0 ∨ i = 1 ∨ i = 2 ∨ i = 3 ∨ i = 4 ∨ i = 5 ∨ i = 6 ∨ i = 7 ∨ i = 8 ∨ i = 9 ∨ i = 10 ∨ i = 11 := by omega
    rcases this with rfl | rfl | rfl | rfl | rfl | rfl | rfl | rfl | rfl | rfl | rfl | rfl <;>
      simp only [Nat.reduceMul, Nat.add_assoc, Nat.reduceAdd, Nat.add_zero, Nat.left_eq_add, Nat.add_left_cancel_iff, Nat.reduceEqDiff, if_true, if_false, Nat.add_eq_left, OfNat.ofNat_ne_zero]
  · intro x h
    simp only [Nat.add_zero, upd_apply]
    rw [if_neg (by omega), if_neg (by omega), if_neg (by omega), if_neg (by omega), if_neg (by omega), if_neg (by omega), if_neg (by omega), if_neg (by omega), if_neg (by omega), if_neg (by omega), if_neg (by omega), if_neg (by omega)]

theorem add_split : sm2p256PointAddAsm =
    [.movq (.arg 0) (.reg .AX), .movq (.arg 24) (.reg .BX), .movq (.arg 48) (.reg .CX)] ++ (copy96 .BX 0 ++ (copy96 .CX 96 ++
    ([.movq (.reg .AX) (.stk 640)] ++ (code addP1 ++ (sm2p256IsZero ++ ([.movq (.reg .AX) (.stk 648)] ++ (code addP2 ++ (sm2p256IsZero ++
    ([.andq (.stk 648) .AX, .movq (.reg .AX) (.stk 648)] ++ (code addP3 ++ (out96 640 192 ++ [.movq (.stk 648) (.reg .AX), .movq (.reg .AX) (.arg 72)]))))))))))) := by decide +kernel

theorem addPre_spec (s : St) : (exec [.movq (.arg 0) (.reg .AX), .movq (.arg 24) (.reg .BX), .movq (.arg 48) (.reg .CX)] s).r .AX = s.args 0 ∧
    (exec [.movq (.arg 0) (.reg .AX), .movq (.arg 24) (.reg .BX), .movq (.arg 48) (.reg .CX)] s).r .BX = s.args 24 ∧
    (exec [.movq (.arg 0) (.reg .AX), .movq (.arg 24) (.reg .BX), .movq (.arg 48) (.reg .CX)] s).r .CX = s.args 48 ∧
    (exec [.movq (.arg 0) (.reg .AX), .movq (.arg 24) (.reg .BX), .movq (.arg 48) (.reg .CX)] s).heap = s.heap := ⟨rfl, rfl, rfl, rfl⟩

theorem push_spec (r : Reg) (o : Nat) (s : St) : (exec [.movq (.reg r) (.stk o)] s).stk = upd s.stk o (s.r r) ∧ (exec [.movq (.reg r) (.stk o)] s).r = s.r ∧
    (exec [.movq (.reg r) (.stk o)] s).heap = s.heap := ⟨rfl, rfl, rfl⟩

theorem andPush_spec (o : Nat) (s : St) : (exec [.andq (.stk o) .AX, .movq (.reg .AX) (.stk o)] s).stk = upd s.stk o (s.r .AX &&& s.stk o) ∧
    (exec [.andq (.stk o) .AX, .movq (.reg .AX) (.stk o)] s).heap = s.heap := ⟨rfl, rfl⟩

theorem popArg_spec (o k : Nat) (s : St) : (exec [.movq (.stk o) (.reg .AX), .movq (.reg .AX) (.arg k)] s).args = upd s.args k (s.stk o) ∧
    (exec [.movq (.stk o) (.reg .AX), .movq (.reg .AX) (.arg k)] s).heap = s.heap := ⟨rfl, rfl⟩

/-- registers forgotten, the stack changed only above the slots -/
theorem Rel.forget {K : Nat} {s0 s s' : St} {A : Abs} (h : Rel K s0 s A) (hs : ∀ o, o < 32 * K → s'.stk o = s.stk o) : Rel K s' s' ⟨none, none, A.sl⟩ := by
  refine ⟨fun v e => (by cases e), fun v e => (by cases e), ?_, rfl, rfl, fun _ _ => rfl⟩
  intro i v hi hv
  obtain ⟨p1, p2⟩ := h.sl i v hi hv
  obtain ⟨q1, q2⟩ := ld4_eq (h := s.stk) (h' := s'.stk) (a := 32 * i) (by
    intro o h1 h2
    exact hs o (by omega))
  exact ⟨q1.trans p1, q2 p2⟩

attribute [local irreducible] mulI subI condSub halfI isZeroI

theorem add_abs (p q : Jac) : ∃ (A1 A2 A3 : Abs) (h r : Nat), aexec 20 addP1 ⟨none, none, sl6 p q⟩ = some A1 ∧ A1.a = some r ∧
    aexec 20 addP2 ⟨none, none, A1.sl⟩ = some A2 ∧ A2.a = some h ∧ aexec 20 addP3 ⟨none, none, A2.sl⟩ = some A3 ∧
    A3.sl 6 = some (ptAdd p q).1.x ∧ A3.sl 7 = some (ptAdd p q).1.y ∧ A3.sl 8 = some (ptAdd p q).1.z ∧ (ptAdd p q).2 = isZeroI h &&& isZeroI r :=
  ⟨_, _, _, _, _, rfl, rfl, rfl, rfl, rfl, rfl, rfl, rfl, rfl⟩

attribute [local irreducible] code copy96 ptAdd aexec out96

/-- `sm2/sm2p256_amd64.s:2229-2374`: the routine stores the point of `ptAdd` at the result, returns its flag, and changes no other memory -/
theorem add_exec (s : St) (hp : WordsJ s.heap (s.args 24)) (hq : WordsJ s.heap (s.args 48)) :
    ldJ (exec sm2p256PointAddAsm s).heap (s.args 0) = (ptAdd (ldJ s.heap (s.args 24)) (ldJ s.heap (s.args 48))).1 ∧
    (exec sm2p256PointAddAsm s).args 72 = (ptAdd (ldJ s.heap (s.args 24)) (ldJ s.heap (s.args 48))).2 ∧
    WordsJ (exec sm2p256PointAddAsm s).heap (s.args 0) ∧ OutsideJ (s.args 0) s.heap (exec sm2p256PointAddAsm s).heap := by
  rw [add_split]
  simp only [exec_append]
  obtain ⟨hax, hbx, hcx, hh⟩ := addPre_spec s
  generalize exec [.movq (.arg 0) (.reg .AX), .movq (.arg 24) (.reg .BX), .movq (.arg 48) (.reg .CX)] s = s1 at *
  obtain ⟨c1, -, c3, c4, -⟩ := copy96_spec .BX 0 s1
  generalize exec (copy96 .BX 0) s1 = s2 at *
  rw [hbx, hh] at c1
  rw [hh] at c4
  obtain ⟨d1, d2, d3, d4, -⟩ := copy96_spec .CX 96 s2
  generalize exec (copy96 .CX 96) s2 = s3 at *
  rw [c3, hcx, c4] at d1
  rw [c3] at d3
  rw [c4] at d4
  obtain ⟨e1, -, e3⟩ := push_spec .AX 640 s3
  generalize exec [.movq (.reg .AX) (.stk 640)] s3 = s4 at *
  rw [d3, hax] at e1
  rw [d4] at e3
  obtain ⟨f1, f2⟩ := copied (h := s.heap) (g := s4.stk) (o := 0) (a := s.args 24) (by
    intro i hi
    rw [e1, upd_apply, if_neg (by omega), d2 _ (by omega), c1 i hi])
  obtain ⟨g1, g2⟩ := copied (h := s.heap) (g := s4.stk) (o := 96) (a := s.args 48) (by
    intro i hi
    rw [e1, upd_apply, if_neg (by omega), d1 i hi])
  have hrp : s4.stk 640 = s.args 0 := by rw [e1, upd_apply, if_pos rfl]
  generalize ldJ s.heap (s.args 24) = p at *
  generalize ldJ s.heap (s.args 48) = q at *
  replace f2 := f2 hp
  replace g2 := g2 hq
  have R0 : Rel 20 s4 s4 ⟨none, none, sl6 p q⟩ := by
    refine ⟨fun v e => (by cases e), fun v e => (by cases e), ?_, rfl, rfl, fun _ _ => rfl⟩
    intro i v hi hv
    simp only [sl6] at hv
    subst f1 g1
    split at hv
    · next h => subst h; cases hv; exact ⟨rfl, f2.1⟩
    · split at hv
      · next h => subst h; cases hv; exact ⟨rfl, f2.2.1⟩
      · split at hv
        · next h => subst h; cases hv; exact ⟨rfl, f2.2.2⟩
        · split at hv
          · next h => subst h; cases hv; exact ⟨rfl, g2.1⟩
          · split at hv
            · next h => subst h; cases hv; exact ⟨rfl, g2.2.1⟩
            · split at hv
              · next h => subst h; cases hv; exact ⟨rfl, g2.2.2⟩
              · cases hv
  obtain ⟨A1, A2, A3, h, r, b1, b2, b3, b4, b5, b6, b7, b8, b9⟩ := add_abs p q
  clear c1 d1 d2 d3 d4 c3 c4 hax hbx hcx hh f1 f2 g1 g2 e1 s1 s2 s3 hp hq
  have R1 := sound _ R0 b1
  generalize exec (code addP1) s4 = s5 at *
  have r1 : s5.stk 640 = s.args 0 := (R1.stk 640 (by decide)).trans hrp
  have h1 : s5.heap = s.heap := R1.heap.trans e3
  obtain ⟨v1, v2⟩ := R1.a _ b2
  obtain ⟨i1, i2⟩ := isZero_exec s5 v2
  rw [v1] at i1
  generalize exec sm2p256IsZero s5 = s6 at *
  obtain ⟨j1, -, j3⟩ := push_spec .AX 648 s6
  rw [i1, i2.2.2.1] at j1
  generalize exec [.movq (.reg .AX) (.stk 648)] s6 = s7 at *
  replace R1 := R1.forget (s' := s7) (by
    intro o ho
    rw [j1, upd_apply, if_neg (by omega)])
  have R2 := sound _ R1 b3
  generalize exec (code addP2) s7 = s8 at *
  have r2 : s8.stk 640 = s.args 0 := by
    rw [R2.stk 640 (by decide), j1, upd_apply, if_neg (by decide)]; exact r1
  have r2' : s8.stk 648 = isZeroI r := by
    rw [R2.stk 648 (by decide), j1, upd_apply, if_pos rfl]
  have h2 : s8.heap = s.heap := ((R2.heap.trans j3).trans i2.2.1).trans h1
  obtain ⟨w1, w2⟩ := R2.a _ b4
  obtain ⟨k1, k2⟩ := isZero_exec s8 w2
  rw [w1] at k1
  generalize exec sm2p256IsZero s8 = s9 at *
  obtain ⟨l1, l3⟩ := andPush_spec 648 s9
  rw [k1, k2.2.2.1, r2'] at l1
  generalize exec [.andq (.stk 648) .AX, .movq (.reg .AX) (.stk 648)] s9 = s10 at *
  replace R2 := R2.forget (s' := s10) (by
    intro o ho
    rw [l1, upd_apply, if_neg (by omega)])
  have R3 := sound _ R2 b5
  generalize exec (code addP3) s10 = s11 at *
  have r3 : s11.stk 640 = s.args 0 := by
    rw [R3.stk 640 (by decide), l1, upd_apply, if_neg (by decide)]; exact r2
  have r3' : s11.stk 648 = isZeroI h &&& isZeroI r := by
    rw [R3.stk 648 (by decide), l1, upd_apply, if_pos rfl]
  have h3 : s11.heap = s.heap := ((R3.heap.trans l3).trans k2.2.1).trans h2
  obtain ⟨x1, x2⟩ := R3.sl 6 _ (by decide) b6
  obtain ⟨y1, y2⟩ := R3.sl 7 _ (by decide) b7
  obtain ⟨z1, z2⟩ := R3.sl 8 _ (by decide) b8
  obtain ⟨m1, m2, m3, -⟩ := out96_spec 640 192 s11
  generalize exec (out96 640 192) s11 = s12 at *
  rw [r3] at m1 m2
  rw [h3] at m2
  obtain ⟨n1, n2⟩ := popArg_spec 648 72 s12
  rw [m3, upd_apply, if_neg (by decide), r3'] at n1
  generalize exec [.movq (.stk 648) (.reg .AX), .movq (.reg .AX) (.arg 72)] s12 = s13 at *
  rw [← n2] at m1 m2
  obtain ⟨o1, o2⟩ := copied (g := s13.heap) m1
  refine ⟨?_, ?_, o2 ⟨x2, y2, z2⟩, m2⟩
  · rw [o1, ldJ]
    rw [x1, y1, z1]
  · rw [n1, upd_apply, if_pos rfl, b9]

end Verif.Sm2.Asm
