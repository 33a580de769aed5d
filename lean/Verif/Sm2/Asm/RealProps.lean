import Verif.Sm2.Asm.Real
/-!
C113 to C117: what the assembly of the amd64 build computes, against what it should compute.
-/
namespace Verif.Sm2.Asm
open Verif Verif.Sm2 Verif.Sm2.Amd64 Verif.Sm2.Amd64.Jac

/-! ### C113: field multiplication -/

theorem ld4_lt {h : Nat → Nat} {a : Nat} (w : Words h a) : ld4 h a < 2 ^ 256 := by
  obtain ⟨h0, h1, h2, h3⟩ := w
  simp only [ld4, B] at *
  omega

theorem pow_B : (2 : Nat) ^ 256 = B ^ 4 := by decide

/-- C113: in every state of the machine, `sm2p256Mul`, `sm2p256Sqr` and `sm2p256FromMont` store the Montgomery product of their operands, if no
reduction step loses a carry. -/
theorem C113_montgomery_partial (s : St) (hx : Words s.heap (s.args 24)) :
    (Words s.heap (s.args 48) → mulTOk (ld4 s.heap (s.args 24)) (ld4 s.heap (s.args 48)) = true →
      IsMont (ld4 s.heap (s.args 24)) (ld4 s.heap (s.args 48)) (ld4 (exec sm2p256Mul s).heap (s.args 0))) ∧
    (mulIOk (ld4 s.heap (s.args 24)) (ld4 s.heap (s.args 24)) = true →
      IsMont (ld4 s.heap (s.args 24)) (ld4 s.heap (s.args 24)) (ld4 (exec sm2p256Sqr s).heap (s.args 0))) ∧
    (fromMontOk (ld4 s.heap (s.args 24)) = true →
      IsMont (ld4 s.heap (s.args 24)) 1 (ld4 (exec sm2p256FromMont s).heap (s.args 0))) := by
  have lx := ld4_lt hx
  rw [pow_B] at lx
  refine ⟨fun hy h => ?_, fun h => ?_, fun h => ?_⟩
  · have ly := ld4_lt hy
    rw [pow_B] at ly
    rw [(mul_exec s hx hy).1]
    exact mulT_mont lx ly h
  · rw [(sqr_exec s hx).1]
    exact mulI_mont lx lx h
  · rw [(fromMont_exec s hx).1]
    exact (fromMont_mont lx h).1

/-- the condition holds of the coordinates of the base point, and of the conversion constant -/
example : mulTOk bpX bpY = true ∧ mulIOk bpX bpX = true ∧ fromMontOk bpX = true := by decide +kernel

/-- C113: one reduction step is exact if and only if it loses nothing; the condition above is not stronger than needed. -/
theorem C113_reduction_exact_iff (T : Nat) : 2 ^ 64 * redT T = T + T % 2 ^ 64 * P ↔ noLoss T = true := redT_exact_iff T

/-- C113 is false: in every state of the machine in which the operands are one, none of the three routines stores the Montgomery product. -/
theorem C113_one_violated (s : St) (hx : Words s.heap (s.args 24)) (hy : Words s.heap (s.args 48)) (h1 : ld4 s.heap (s.args 24) = 1) (h2 : ld4 s.heap (s.args 48) = 1) :
    ¬ IsMont 1 1 (ld4 (exec sm2p256Mul s).heap (s.args 0)) ∧ ¬ IsMont 1 1 (ld4 (exec sm2p256Sqr s).heap (s.args 0)) ∧
    ¬ IsMont 1 1 (ld4 (exec sm2p256FromMont s).heap (s.args 0)) := by
  rw [(mul_exec s hx hy).1, (sqr_exec s hx).1, (fromMont_exec s hx).1, h1, h2]
  exact ⟨fun h => absurd h.eq (by decide +kernel), fun h => absurd h.eq (by decide +kernel), fun h => absurd h.eq (by decide +kernel)⟩

/-- C113 is false of the conversion into Montgomery form of the coordinate one (the constant is the one of the Go source). -/
theorem C113_to_montgomery_violated (s : St) (hx : Words s.heap (s.args 24)) (hy : Words s.heap (s.args 48)) (h1 : ld4 s.heap (s.args 24) = 1) (h2 : ld4 s.heap (s.args 48) = rr) :
    ¬ IsMont 1 rr (ld4 (exec sm2p256Mul s).heap (s.args 0)) := by
  rw [(mul_exec s hx hy).1, h1, h2]
  exact fun h => absurd h.eq (by decide +kernel)

/-- a state as in the two theorems -/
def stOf (a b : Nat) : St :=
  { r := fun _ => 0, x := fun _ => (0, 0), stk := fun _ => 0, cf := false, zf := false, heap := fun i => if i = 32 then limb a 0 else if i = 40 then limb a 1 else if i = 48 then limb a 2 else if i = 56 then limb a 3 else
      if i = 64 then limb b 0 else if i = 72 then limb b 1 else if i = 80 then limb b 2 else if i = 88 then limb b 3 else 0,
    args := fun i => if i = 24 then 32 else if i = 48 then 64 else 0 }

example : Words (stOf 1 rr).heap ((stOf 1 rr).args 24) ∧ Words (stOf 1 rr).heap ((stOf 1 rr).args 48) ∧ ld4 (stOf 1 rr).heap ((stOf 1 rr).args 24) = 1 ∧
    ld4 (stOf 1 rr).heap ((stOf 1 rr).args 48) = rr := by
  refine ⟨⟨?_, ?_, ?_, ?_⟩, ⟨?_, ?_, ?_, ?_⟩, ?_, ?_⟩ <;> decide +kernel

/-! ### C114: the point routines -/

/-- the numbers of a point in memory, none of them marked -/
def ckJ (p : Jac) : Pt Ck := ⟨⟨p.x, true⟩, ⟨p.y, true⟩, ⟨p.z, true⟩⟩
/-- the field elements they stand for -/
def castJ (p : Jac) : Pt F := ⟨(p.x : F), (p.y : F), (p.z : F)⟩
/-- no carry was lost in computing the point -/
def PtOk (p : Pt Ck) : Prop := p.x.ok = true ∧ p.y.ok = true ∧ p.z.ok = true

instance (p : Pt Ck) : Decidable (PtOk p) := by unfold PtOk; infer_instance

/-- the words at `a` are a point in Jacobian Montgomery form that stands for `Q` -/
def Holds (h : Nat → Nat) (a : Nat) (Q : sm2W.Point) : Prop := WordsJ h a ∧ Jac.Rep R (Verif.Sm2.B : F) (castJ (ldJ h a)) Q

theorem ckJ_good {h : Nat → Nat} {a : Nat} (w : WordsJ h a) : Ari.Sim.RP Good (ckJ (ldJ h a)) (castJ (ldJ h a)) := by
  have e := pow_B
  refine ⟨fun _ => ⟨?_, rfl⟩, fun _ => ⟨?_, rfl⟩, fun _ => ⟨?_, rfl⟩⟩
  · rw [← e]; exact ld4_lt w.1
  · rw [← e]; exact ld4_lt w.2.1
  · rw [← e]; exact ld4_lt w.2.2

theorem ckJ_real (p : Jac) : Ari.Sim.RP (fun c n => c.v = n) (ckJ p) (pt p) := ⟨rfl, rfl, rfl⟩

theorem pt_eq {a b : Pt F} (h1 : a.x = b.x) (h2 : a.y = b.y) (h3 : a.z = b.z) : a = b := by
  cases a; cases b; simp only at h1 h2 h3; rw [h1, h2, h3]

/-- a point computed without losing a carry casts to the ideal one -/
theorem cast_of {c : Pt Ck} {j : Jac} {f : Pt F} (h1 : Ari.Sim.RP (fun c n => c.v = n) c (pt j)) (h2 : Ari.Sim.RP Good c f) (ok : PtOk c) : castJ j = f := by
  obtain ⟨a1, a2, a3⟩ := h1
  simp only [pt] at a1 a2 a3
  obtain ⟨b1, b2, b3⟩ := h2
  obtain ⟨o1, o2, o3⟩ := ok
  refine pt_eq ?_ ?_ ?_
  · rw [← (b1 o1).2, a1]; rfl
  · rw [← (b2 o2).2, a2]; rfl
  · rw [← (b3 o3).2, a3]; rfl

theorem ideal_dbl (p : Pt F) : ideal.dblP p = Jac.dbl R p := rfl
theorem ideal_add (p q : Pt F) : ideal.addP p q = Jac.add R p q := rfl
theorem ideal_addA (p : Pt F) (q : Aff F) : ideal.addAffP p q = Jac.addA R p q := rfl

/-- C114: `sm2p256PointDoubleAsm` leaves twice the point it is given, if no carry is lost. -/
theorem C114_double_partial (s : St) (Q : sm2W.Point) (h : Holds s.heap (s.args 24) Q) (ok : PtOk (checked.dblP (ckJ (ldJ s.heap (s.args 24))))) :
    Holds (exec sm2p256PointDoubleAsm s).heap (s.args 0) (Q + Q) := by
  obtain ⟨w, hr⟩ := h
  obtain ⟨e1, e2, _⟩ := dbl_exec s w
  refine ⟨e2, ?_⟩
  rw [e1]
  have k1 := checked_real.dblP (ckJ_real (ldJ s.heap (s.args 24)))
  have k2 := checked_ideal.dblP (ckJ_good w)
  rw [show real.dblP (pt (ldJ s.heap (s.args 24))) = pt (ptDbl (ldJ s.heap (s.args 24))) from real_dbl _] at k1
  rw [cast_of k1 k2 ok, ideal_dbl]
  exact rep_dbl R_ne two_ne _ _ hr

/-- C114: `sm2p256PointAddAsm` leaves the sum of two different points, if no carry is lost. -/
theorem C114_add_partial (s : St) (Q Q' : sm2W.Point) (h : Holds s.heap (s.args 24) Q) (h' : Holds s.heap (s.args 48) Q') (h0 : Q ≠ 0) (h0' : Q' ≠ 0)
    (hne : Q ≠ Q') (ok : PtOk (checked.addP (ckJ (ldJ s.heap (s.args 24))) (ckJ (ldJ s.heap (s.args 48)))).1) :
    Holds (exec sm2p256PointAddAsm s).heap (s.args 0) (Q + Q') := by
  obtain ⟨w, hr⟩ := h
  obtain ⟨w', hr'⟩ := h'
  obtain ⟨e1, _, e2, _⟩ := add_exec s w w'
  refine ⟨e2, ?_⟩
  rw [e1]
  have k1 := checked_real.addP (ckJ_real (ldJ s.heap (s.args 24))) (ckJ_real (ldJ s.heap (s.args 48)))
  have k2 := checked_ideal.addP (ckJ_good w) (ckJ_good w')
  rw [show real.addP (pt (ldJ s.heap (s.args 24))) (pt (ldJ s.heap (s.args 48))) = (pt (ptAdd (ldJ s.heap (s.args 24)) (ldJ s.heap (s.args 48))).1, (ptAdd (ldJ s.heap (s.args 24)) (ldJ s.heap (s.args 48))).2 == 1) from real_add _ _] at k1
  rw [cast_of k1 k2 ok, ideal_add]
  exact (rep_add_ne R_ne _ _ _ _ hr hr' h0 h0' hne).1

/-- C114: what `sm2p256PointAddAffineAsm` leaves for two different points with neither `sel` nor `zero` zero, if no carry is lost: the sum or, if the sign is set, the difference. -/
theorem C114_affine_partial (s : St) (Q Q' : sm2W.Point) (h : Holds s.heap (s.args 24) Q) (hx : Words s.heap (s.args 48)) (hy : Words s.heap (s.args 48 + 32))
    (h' : RepA R (Verif.Sm2.B : F) ⟨(ld4 s.heap (s.args 48) : F), (ld4 s.heap (s.args 48 + 32) : F)⟩ Q') (h0 : Q ≠ 0)
    (hne : Q ≠ if s.args 72 = 0 then Q' else -Q') (hsel : s.args 80 % 2 ^ 32 ≠ 0) (hzero : s.args 88 % 2 ^ 32 ≠ 0)
    (ok : PtOk (checked.addAffP (ckJ (ldJ s.heap (s.args 24)))
      ⟨⟨ld4 s.heap (s.args 48), true⟩, ⟨if s.args 72 = 0 then ld4 s.heap (s.args 48 + 32) else negAff (ld4 s.heap (s.args 48 + 32)), true⟩⟩)) :
    Holds (exec sm2p256PointAddAffineAsm s).heap (s.args 0) (Q + if s.args 72 = 0 then Q' else -Q') := by
  obtain ⟨w, hr⟩ := h
  obtain ⟨e1, e2, _⟩ := aff_exec s w hx hy
  refine ⟨e2, ?_⟩
  rw [e1]
  unfold ptAff
  dsimp only
  rw [if_neg (show ¬ s.args 88 % 4294967296 = 0 from hzero), if_neg (show ¬ s.args 80 % 4294967296 = 0 from hsel)]
  have ex := pow_B ▸ ld4_lt hx
  have ey := pow_B ▸ ld4_lt hy
  generalize hyv : (if s.args 72 = 0 then ld4 s.heap (s.args 48 + 32) else negAff (ld4 s.heap (s.args 48 + 32))) = yv at ok ⊢
  generalize hqv : (if s.args 72 = 0 then Q' else -Q') = Qv at hne ⊢
  have hA : yv < B ^ 4 ∧ RepA R (Verif.Sm2.B : F) ⟨(ld4 s.heap (s.args 48) : F), (yv : F)⟩ Qv := by
    rw [← hyv, ← hqv]
    by_cases hs : s.args 72 = 0
    · rw [if_pos hs, if_pos hs]; exact ⟨ey, h'⟩
    · rw [if_neg hs, if_neg hs]
      refine ⟨(negAff_cast ey).1, ?_⟩
      rw [(negAff_cast ey).2]
      exact repA_neg R_ne _ _ h'
  have hq : Ari.Sim.RQ Good ⟨⟨ld4 s.heap (s.args 48), true⟩, ⟨yv, true⟩⟩ ⟨(ld4 s.heap (s.args 48) : F), (yv : F)⟩ := ⟨fun _ => ⟨ex, rfl⟩, fun _ => ⟨hA.1, rfl⟩⟩
  have hqr : Ari.Sim.RQ (fun (c : Ck) n => c.v = n) ⟨⟨ld4 s.heap (s.args 48), true⟩, ⟨yv, true⟩⟩ ⟨ld4 s.heap (s.args 48), yv⟩ := ⟨rfl, rfl⟩
  have k1 := checked_real.addAffP (ckJ_real (ldJ s.heap (s.args 24))) hqr
  have k2 := checked_ideal.addAffP (ckJ_good w) hq
  rw [show real.addAffP (pt (ldJ s.heap (s.args 24))) ⟨ld4 s.heap (s.args 48), yv⟩ = pt (affSum (ldJ s.heap (s.args 24)) (ld4 s.heap (s.args 48)) yv) from real_addA _ _] at k1
  rw [cast_of k1 k2 ok, ideal_addA]
  exact rep_addA_ne R_ne _ _ _ _ hr hA.2 h0 hne

/-- the doubling of the base point, and its addition to its double, lose no carry -/
example : PtOk (checked.dblP (ckJ ⟨bpX, bpY, bpZ⟩)) ∧ PtOk (checked.addP (checked.dblP (ckJ ⟨bpX, bpY, bpZ⟩)) (ckJ ⟨bpX, bpY, bpZ⟩)).1 ∧
    PtOk (checked.addAffP (checked.dblP (ckJ ⟨bpX, bpY, bpZ⟩)) ⟨⟨bpX, true⟩, ⟨bpY, true⟩⟩) := by decide +kernel

/-- the base point in memory -/
example (h : Nat → Nat) (a : Nat) (w : WordsJ h a) (e : ldJ h a = ⟨bpX, bpY, bpZ⟩) : Holds h a gPt := ⟨w, by rw [e]; exact asmLawful.base⟩

/-! ### C115: multiplication -/

/-- `smLoop` with a counter -/
def smLoopN (a : Amd64.Asm) (pre : List a.J) (s : Limbs) : Nat → a.J → Nat → a.J × Nat
  | 0, p, zero => (p, zero)
  | n + 1, p, zero =>
    let r := smStep a pre (dblN a 5 p) zero (window s (5 * n + 4) 0x3f)
    smLoopN a pre s n r.1 r.2

theorem smLoop_eq (a : Amd64.Asm) (pre : List a.J) (s : Limbs) (n : Nat) : ∀ p zero, smLoop a pre s (5 * n + 4) p zero = smLoopN a pre s n p zero := by
  induction n with
  | zero => intro p zero; rw [smLoop, dif_neg (by omega), smLoopN]
  | succ n ih =>
    intro p zero
    rw [smLoop, dif_pos (by omega), smLoopN]
    dsimp only
    rw [show 5 * (n + 1) + 4 - 5 = 5 * n + 4 by omega]
    exact ih _ _

/-- `scalarMultJ` with that loop, for evaluation -/
def scalarMultN (a : Amd64.Asm) (p : a.J) (s : Limbs) : a.J :=
  let pre := precomp a p
  let sel := (boothW5 ((s.get (254 / 64) >>> (254 % 64)) &&& 0x3f)).1
  let r := smLoopN a pre s 50 (select a pre sel) sel
  (smStep a pre (dblN a 5 r.1) r.2 ((s.get 0 <<< 1) &&& 0x3f)).1

theorem scalarMultJ_eq (a : Amd64.Asm) (p : a.J) (s : Limbs) : scalarMultJ a p s = scalarMultN a p s := by
  unfold scalarMultJ scalarMultN
  have h := smLoop_eq a (precomp a p) s 50
  simp only [Nat.reduceMul, Nat.reduceAdd] at h
  dsimp only
  rw [h]

/-- C115: `ScalarMult` of the amd64 build returns the right multiple of every point other than infinity if no carry is lost and the scalar is not `n - 6`. -/
theorem C115_scalarMult_partial (Q : Grp) (hQ : Q ≠ 0) (k : Bytes) (h : ExactMult (encPt Q.1).1 (encPt Q.1).2 k) (hk : beNat k % N ≠ N - 6) :
    scalarMult real.asm (encPt Q.1).1 (encPt Q.1).2 k = encPt (beNat k • Q.1) :=
  (scalarMult_exact h).trans ((C57_scalarMult_partial Q hQ k).2 hk)

/-- C115: and so do `ScalarBaseMult`, `PreScalarMult` and `CombinedMult`. -/
theorem C115_table_partial (Q : Grp) (hQ : Q ≠ 0) (s t : Bytes) :
    (ExactPre (baseTable checked.asm) s → scalarBaseMult real.asm s = encPt (beNat s • gPt)) ∧
    (ExactPre (initPubKeyTable checked.asm (encPt Q.1).1 (encPt Q.1).2) t →
      preScalarMult real.asm (initPubKeyTable real.asm (encPt Q.1).1 (encPt Q.1).2) t = encPt (beNat t • Q.1)) ∧
    (ExactCombined (initPubKeyTable checked.asm (encPt Q.1).1 (encPt Q.1).2) s t →
      combinedMult real.asm (initPubKeyTable real.asm (encPt Q.1).1 (encPt Q.1).2) s t = encPt (beNat s • gPt + beNat t • Q.1)) := by
  obtain ⟨c1, c2, c3⟩ := C57_table_partial Q hQ s t
  have t1 : ∀ x y, checked_real.toAsm.RT (initPubKeyTable checked.asm x y) (initPubKeyTable real.asm x y) :=
    fun x y i j => checked_real.toAsm.buildTable (checked_real.toAsm.ofCoord x y) i j
  have t2 : ∀ x y, checked_ideal.toAsm.RT (initPubKeyTable checked.asm x y) (initPubKeyTable ideal.asm x y) :=
    fun x y i j => checked_ideal.toAsm.buildTable (checked_ideal.toAsm.ofCoord x y) i j
  have t3 : ∀ x y, idealSim.RT (initPubKeyTable ideal.asm x y) (initPubKeyTable Amd64.asm x y) :=
    fun x y i j => idealSim.buildTable (idealSim.ofCoord x y) i j
  refine ⟨fun h => ?_, fun h => ?_, fun h => ?_⟩
  · exact (preMult_exact (fun i j => checked_real.toAsm.buildTable checked_real.toAsm.base i j)
      (fun i j => checked_ideal.toAsm.buildTable checked_ideal.toAsm.base i j) (fun i j => idealSim.buildTable idealSim.base i j) h).trans c1
  · exact (preMult_exact (t1 _ _) (t2 _ _) (t3 _ _) h).trans c2
  · exact (combined_exact (t1 _ _) (t2 _ _) (t3 _ _) h).trans c3

/-- the ordinate of a point with abscissa one -/
def badY : Nat := 0x9f7a091433a81e3f218f405f792355bf2aa98b5ffa95982f03870800065279a3

theorem windows_one : (List.range 50).all (fun n => window (fromBig 1) (5 * n + 4) 0x3f == 0) = true := by decide +kernel

theorem smLoopN_one (a : Amd64.Asm) (pre : List a.J) (n : Nat) (hn : n ≤ 50) (p : a.J) (hp : n = 0 → p = a.zeroJ) : smLoopN a pre (fromBig 1) n p 0 = (a.zeroJ, 0) := by
  induction n generalizing p with
  | zero => rw [smLoopN, hp rfl]
  | succ n ih =>
    rw [smLoopN]
    have hw : window (fromBig 1) (5 * n + 4) 0x3f = 0 := by
      have := windows_one
      rw [List.all_eq_true] at this
      exact eq_of_beq (this n (by simp; omega))
    rw [hw]
    have hs : smStep a pre (dblN a 5 p) 0 0 = (a.zeroJ, 0) := by
      have hb : boothW5 0 = (0, 0) := by decide
      simp only [smStep, hb, select, if_true, Nat.zero_or]
    rw [hs]
    exact ih (by omega) _ (fun _ => rfl)

/-- multiplication by one converts there and back -/
theorem scalarMult_one (a : Amd64.Asm) (x y : Nat) : scalarMult a x y [1] = a.toCoord (a.ofCoord x y) := by
  have hg : getScalar [1] = fromBig 1 := by rw [getScalar_eq]; congr 1
  rw [scalarMult, hg, scalarMultJ_eq]
  congr 1
  unfold scalarMultN
  have h0 : boothW5 (((fromBig 1).get (254 / 64) >>> (254 % 64)) &&& 0x3f) = (0, 0) := by decide
  have h1 : boothW5 (((fromBig 1).get 0 <<< 1) &&& 0x3f) = (1, 0) := by decide
  simp only [h0]
  rw [smLoopN_one a _ 50 (le_refl _) _ (by omega)]
  simp only [smStep, h1, if_true, select]
  rfl

theorem real_back (x y : Nat) : real.asm.toCoord (real.asm.ofCoord x y) =
    ((real.toAff ⟨mulT (x % P) rr, mulT (y % P) rr, bpZ⟩).x, (real.toAff ⟨mulT (x % P) rr, mulT (y % P) rr, bpZ⟩).y) := real_toCoord _

/-- C115 is false: `(1, y)` is a point of the curve, and multiplied by one it should be itself; `ScalarMult` of the amd64 build returns another `x`. -/
theorem C115_times_one_violated :
    badY ^ 2 % Verif.Sm2.P = (1 ^ 3 + Verif.Sm2.A * 1 + Verif.Sm2.B) % Verif.Sm2.P ∧
    (scalarMult real.asm 1 badY [1]).1 = 0xfffffffb00000005fffffffc00000002fffffffd00000006fffffff900000005 := by
  refine ⟨by decide +kernel, ?_⟩
  rw [scalarMult_one]
  rw [real_back]
  decide +kernel

/-- C115 is false: the base point multiplied by `n - 6` comes out as the point at infinity, with the real arithmetic too (see C57). -/
theorem C115_n_minus_6_violated :
    scalarMult real.asm Gx Gy (natBytes (N - 6)) = (0, 0) ∧ encPt ((N - 6) • gPt) ≠ (0, 0) := by
  constructor
  · have hb : getScalar (natBytes (N - 6)) = fromBig (N - 6) := by
      rw [getScalar_eq, beNat_natBytes]
      congr 1
    rw [scalarMult, hb, scalarMultJ_eq]
    decide +kernel
  · have := (C57_scalarMult_violated asmLawful.g asmLawful.g_ne (natBytes (N - 6)) (by rw [beNat_natBytes]; decide)).2
    rw [beNat_natBytes] at this
    exact this

/-- a long scalar for which the multiplication of the base point loses no carry, and one for the fixed-base table -/
example : ExactMult Gx Gy (natBytes 0x4C62EEFD6ECFC2B95B92FD6C3D9575148AFA17425546D49018E5388D49DD7B4F) := by
  have hb : getScalar (natBytes 0x4C62EEFD6ECFC2B95B92FD6C3D9575148AFA17425546D49018E5388D49DD7B4F) = fromBig 0x4C62EEFD6ECFC2B95B92FD6C3D9575148AFA17425546D49018E5388D49DD7B4F := by
    rw [getScalar_eq, beNat_natBytes]
    congr 1
  rw [ExactMult, hb, scalarMultJ_eq]
  exact ⟨by decide +kernel, by decide +kernel⟩

example : ExactPre (baseTable checked.asm) [0x12, 0x34] := ⟨by decide +kernel, by decide +kernel⟩

/-! ### C116: the test for zero and for equal points -/

/-- C116: on a reduced number the test for zero is right unless it is the prime with its third limb cleared. -/
theorem C116_isZero_partial (s : St) (w : Wd s [.R10, .R11, .R12, .R13]) (hne : val s [.R10, .R11, .R12, .R13] ≠ fakeP) :
    (exec sm2p256IsZero s).r .AX = if val s [.R10, .R11, .R12, .R13] = 0 then 1 else 0 := by
  rw [(isZero_exec s w).1, isZeroI]
  simp only [hne, or_false]

/-- C116 is false of that number, which is reduced and not zero. -/
theorem C116_isZero_violated (s : St) (w : Wd s [.R10, .R11, .R12, .R13]) (h : val s [.R10, .R11, .R12, .R13] = fakeP) :
    (exec sm2p256IsZero s).r .AX = 1 ∧ 0 < fakeP ∧ fakeP < P := by
  rw [(isZero_exec s w).1, isZeroI, h]
  simp only [or_true, if_true, true_and]
  decide

/-- C116 is false of the prime itself, the other representation of zero, for which the routine has a second comparison: it is taken for nonzero. -/
theorem C116_prime_violated (s : St) (w : Wd s [.R10, .R11, .R12, .R13]) (h : val s [.R10, .R11, .R12, .R13] = P) : (exec sm2p256IsZero s).r .AX = 0 := by
  rw [(isZero_exec s w).1, isZeroI, h]
  decide

/-- C116: the flag of `sm2p256PointAddAsm` tells whether the operands are equal, if the differences it tests are exact. -/
theorem C116_flag_partial (s : St) (Q Q' : sm2W.Point) (h : Holds s.heap (s.args 24) Q) (h' : Holds s.heap (s.args 48) Q') (h0 : Q ≠ 0) (h0' : Q' ≠ 0)
    (ok : FlagOk (ckJ (ldJ s.heap (s.args 24))) (ckJ (ldJ s.heap (s.args 48)))) :
    (exec sm2p256PointAddAsm s).args 72 = 1 ↔ Q = Q' := by
  obtain ⟨w, hr⟩ := h
  obtain ⟨w', hr'⟩ := h'
  rw [(add_exec s w w').2.1]
  have e1 := flag_real (ckJ_real (ldJ s.heap (s.args 24))) (ckJ_real (ldJ s.heap (s.args 48)))
  have e2 := flag_ideal (ckJ_good w) (ckJ_good w') ok
  have e3 := real_add (pt (ldJ s.heap (s.args 24))) (pt (ldJ s.heap (s.args 48)))
  have e4 : ((ptAdd (ldJ s.heap (s.args 24)) (ldJ s.heap (s.args 48))).2 == 1) = (Jac.add R (castJ (ldJ s.heap (s.args 24))) (castJ (ldJ s.heap (s.args 48)))).2 := by
    have := congrArg Prod.snd e3
    exact this.symm.trans (e1.symm.trans e2)
  rw [← beq_iff_eq, e4]
  constructor
  · intro hf
    by_contra hne
    rw [(rep_add_ne R_ne _ _ _ _ hr hr' h0 h0' hne).2] at hf
    cases hf
  · intro he
    subst he
    exact (rep_add_eq R_ne _ _ _ hr hr' h0).2

/-- two points of the curve with the same ordinate -/
def eqX1 : Nat := 0x53b04ea9b5a46e320575bfe16ebad9119034e5e7be02470fedbf7ec86086a182
def eqX2 : Nat := 0x53b04ea8b5a46e330575bfe16ebad9129034e5e6be024710edbf7ec76086a182
def eqY : Nat := 0x4e4a9e821b1d8b077e1510dd5c9627679fe5ca9d6bbab06c5ef676f9be10bcbe

/-- C116 is false: for two different points of the curve, in Montgomery form with `z` one, the flag says that they are equal. -/
theorem C116_flag_violated (s : St) (hp : WordsJ s.heap (s.args 24)) (hq : WordsJ s.heap (s.args 48))
    (e1 : ldJ s.heap (s.args 24) = ⟨eqX1 * 2 ^ 256 % Verif.Sm2.P, eqY * 2 ^ 256 % Verif.Sm2.P, 2 ^ 256 % Verif.Sm2.P⟩)
    (e2 : ldJ s.heap (s.args 48) = ⟨eqX2 * 2 ^ 256 % Verif.Sm2.P, eqY * 2 ^ 256 % Verif.Sm2.P, 2 ^ 256 % Verif.Sm2.P⟩) :
    (exec sm2p256PointAddAsm s).args 72 = 1 ∧ eqX1 ≠ eqX2 ∧ eqX1 < Verif.Sm2.P ∧ eqX2 < Verif.Sm2.P ∧
    eqY ^ 2 % Verif.Sm2.P = (eqX1 ^ 3 + Verif.Sm2.A * eqX1 + Verif.Sm2.B) % Verif.Sm2.P ∧
    eqY ^ 2 % Verif.Sm2.P = (eqX2 ^ 3 + Verif.Sm2.A * eqX2 + Verif.Sm2.B) % Verif.Sm2.P := by
  rw [(add_exec s hp hq).2.1, e1, e2]
  decide +kernel

/-! ### C117: negation -/

/-- C117: `sm2p256NegCond` with a condition other than zero leaves `p - y`, for every `y` up to the prime. -/
theorem C117_negCond_partial (s : St) (hx : Words s.heap (s.args 0)) (hc : s.args 24 ≠ 0) (hle : ld4 s.heap (s.args 0) ≤ P) :
    ld4 (exec sm2p256NegCond s).heap (s.args 0) = P - ld4 s.heap (s.args 0) := by
  rw [(negCond_exec s hx).1, if_neg hc, negI]
  generalize ld4 s.heap (s.args 0) = y at hle
  simp only [B, P] at *
  omega

/-- C117 is false of zero: the result is the prime itself, which is not reduced. -/
theorem C117_zero_violated (s : St) (hx : Words s.heap (s.args 0)) (hc : s.args 24 ≠ 0) (h0 : ld4 s.heap (s.args 0) = 0) :
    ld4 (exec sm2p256NegCond s).heap (s.args 0) = P ∧ ¬ P < P := by
  rw [(negCond_exec s hx).1, if_neg hc, h0]
  decide

/-- C117 is false of the negation inside `sm2p256PointAddAffineAsm`: with the sign set and nothing added so far (`zero = 0`), 
the stored ordinate is congruent to `-y` but exceeds the prime for every `y` between `2p - 2^256` and `p`. -/
theorem C117_affine_violated (s : St) (hp : WordsJ s.heap (s.args 24)) (hx : Words s.heap (s.args 48)) (hy : Words s.heap (s.args 48 + 32))
    (hs : s.args 72 ≠ 0) (hz : s.args 88 = 0) (h1 : 2 * P - 2 ^ 256 < ld4 s.heap (s.args 48 + 32)) (h2 : ld4 s.heap (s.args 48 + 32) < P) :
    (ldJ (exec sm2p256PointAddAffineAsm s).heap (s.args 0)).y = 2 * P - ld4 s.heap (s.args 48 + 32) ∧ P < 2 * P - ld4 s.heap (s.args 48 + 32) := by
  rw [(aff_exec s hp hx hy).1, ptAff, hz, if_neg hs, if_pos (by decide)]
  simp only [negAff]
  generalize ld4 s.heap (s.args 48 + 32) = y at h1 h2
  rw [if_neg (by simp only [B, P] at *; omega)]
  exact ⟨rfl, by omega⟩

/-- the hypotheses on `y` are met -/
example : 2 * P - 2 ^ 256 < P - 1 ∧ P - 1 < P := by decide

/-! ### C58: inversion in the field -/

/-- the number of the model that marks lost carries is the one of the real arithmetic -/
theorem inverse_value (x : Nat) : (checked.inverse ⟨x, true⟩).v = real.inverse x := checked_real.inverse rfl

/-- C58: the inversion of the amd64 build returns the inverse in Montgomery form, if no carry is lost on the way. -/
theorem C58_real_partial (x : Nat) (hx : x < 2 ^ 256) (ok : (checked.inverse ⟨x, true⟩).ok = true) :
    Jac.fromMont R ((real.inverse x : Nat) : F) = (Jac.fromMont R (x : F))⁻¹ := by
  have h := checked_ideal.inverse (x := ⟨x, true⟩) (x' := (x : F)) (fun _ => ⟨pow_B ▸ hx, rfl⟩)
  rw [← inverse_value, (h ok).2, inverse_ideal, C58_ideal_partial]

/-- the inversion of an abscissa that loses no carry -/
example : (checked.inverse ⟨bpX, true⟩).ok = true := by decide +kernel

/-- C58 is false: the inverse of one is off; in Montgomery form the product of a number with its inverse should be `2^512`. -/
theorem C58_one_violated : real.inverse 1 * 1 % Verif.Sm2.P ≠ 2 ^ 512 % Verif.Sm2.P := by decide +kernel

end Verif.Sm2.Asm
