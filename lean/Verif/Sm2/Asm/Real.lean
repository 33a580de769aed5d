import Verif.Sm2.Asm.Arith
import Verif.Sm2.Amd64.Props
/-!
Multiplication by the amd64 build with the numbers its instructions really compute.
-/
namespace Verif.Sm2.Asm
open Verif Verif.Sm2 Verif.Sm2.Amd64 Verif.Sm2.Amd64.Jac

/-! ### the operations of `real.asm` are the executed routines -/

attribute [local irreducible] mulI mulT fromMontT subI condSub halfI negI negAff isZeroI

def jac (p : Pt Nat) : Jac := ⟨p.x, p.y, p.z⟩
def pt (p : Jac) : Pt Nat := ⟨p.x, p.y, p.z⟩

theorem real_dbl (p : Pt Nat) : real.asm.dbl p = pt (ptDbl (jac p)) := by
  show real.dblP p = _
  simp only [Ari.dblP, real, ptDbl, pt, jac]

theorem isZeroI_and (h r : Nat) : (isZeroI h == 1 && isZeroI r == 1) = (isZeroI h &&& isZeroI r == 1) := by
  unfold isZeroI
  split <;> split <;> rfl

theorem real_add (p q : Pt Nat) : real.asm.add p q = (pt (ptAdd (jac p) (jac q)).1, (ptAdd (jac p) (jac q)).2 == 1) := by
  show real.addP p q = _
  simp only [Ari.addP, real, ptAdd, pt, jac, isZeroI_and]

theorem bpZ_oneI : bpZ = oneI := by decide +kernel

theorem real_addA (p : Pt Nat) (q : Aff Nat) : real.addAffP p q = pt (affSum (jac p) q.x q.y) := by
  simp only [Ari.addAffP, real, affSum, pt, jac]

/-- the selections at the end of `sm2p256PointAddAffineAsm` -/
def affForm (p : Pt Nat) (q : Aff Nat) (sel zero : Nat) : Pt Nat :=
  if zero = 0 then ⟨q.x, q.y, bpZ⟩ else if sel = 0 then p else real.addAffP p q

/-- the whole of `sm2p256PointAddAffineAsm`, for the arguments Go passes (a sign bit and window values) -/
theorem real_addAffine (p : Pt Nat) (q : Aff Nat) (sign sel zero : Nat) (hs : sel < 2 ^ 32) (hz : zero < 2 ^ 32) :
    addAffine real.asm p q sign sel zero = pt (ptAff (jac p) q.x q.y sign sel zero) := by
  have e1 : addAffine real.asm p q sign sel zero = affForm p (if sign = 0 then q else ⟨q.x, negAff q.y⟩) sel zero := rfl
  have e2 : (if sign = 0 then q else ⟨q.x, negAff q.y⟩ : Aff Nat) = ⟨q.x, if sign = 0 then q.y else negAff q.y⟩ := by split <;> rfl
  rw [e1, e2, ptAff, show sel % 4294967296 = sel from Nat.mod_eq_of_lt hs, show zero % 4294967296 = zero from Nat.mod_eq_of_lt hz, affForm]
  generalize (if sign = 0 then q.y else negAff q.y) = y
  by_cases h1 : zero = 0
  · rw [if_pos h1, if_pos h1, bpZ_oneI]; rfl
  · rw [if_neg h1, if_neg h1]
    by_cases h3 : sel = 0
    · rw [if_pos h3, if_pos h3]; rfl
    · rw [if_neg h3, if_neg h3, real_addA]

/-! ### the ideal routines are those of `Amd64.asm` -/

theorem cast_mod_P (x : Nat) : ((x % Asm.P : Nat) : F) = (x : F) := by
  rw [P_eq]; exact ZMod.natCast_mod x _

attribute [local irreducible] mmul fromMont Amd64.R

theorem ideal_mul (x y : F) : ideal.mul x y = mmul R x y := by simp only [ideal]

theorem sqrN_ideal (n : Nat) : ∀ x : F, ideal.sqrN n x = Jac.sqrN R n x := by
  induction n with
  | zero => intro x; rfl
  | succ n ih => intro x; rw [Ari.sqrN, Jac.sqrN, ih, ideal_mul]

theorem mm {a b c d : F} (h : a = b) (k : c = d) : ideal.mul a c = mmul R b d := by rw [h, k, ideal_mul]
theorem mmE {a b c d : F} (h : a = b) (k : c = d) : ideal.mulE a c = mmul R b d := by rw [h, k]; simp only [ideal]
theorem sqq (n : Nat) {a b : F} (h : a = b) : ideal.sqrN n a = Jac.sqrN R n b := by rw [h, sqrN_ideal]

theorem inverse_ideal (x : F) : ideal.inverse x = Jac.inverse R x := by
  have h : x = x := rfl
  have o := mm h h
  have p2 := mmE o h
  have o := mm p2 p2
  have p3 := mmE o h
  have o := mm o o
  have p4 := mmE o p2
  have o := mm p4 p4
  have o := mm o o
  have o := mm o o
  have p7 := mmE o p3
  have o := mm o o
  have p8 := mmE o p4
  have o := mm p8 p8
  have o := sqq 6 o
  have p15 := mmE o p7
  have o := mm o o
  have p16 := mmE o p8
  have o := mm p16 p16
  have o := sqq 14 o
  have p31 := mmE o p15
  have o := mm o o
  have p32 := mmE o p16
  have o := mm p31 p31
  have o := sqq 32 o
  have o := mmE o p32
  have o := mmE (sqq 32 o) p32
  have o := mmE (sqq 32 o) p32
  have o := mmE (sqq 32 o) p32
  have o := sqq 32 o
  have o := mmE (sqq 32 o) p32
  have o := mmE (sqq 16 o) p16
  have o := mmE (sqq 8 o) p8
  have o := mmE (sqq 4 o) p4
  have o := mmE (sqq 2 o) p2
  have o := mm o o
  have o := mm o o
  exact mmE o h

theorem aff_eq {a b : Aff F} (h1 : a.x = b.x) (h2 : a.y = b.y) : a = b := by cases a; cases b; simp only at h1 h2; rw [h1, h2]

theorem normalize_ideal (p : Pt F) : ideal.normalize p = Amd64.normalize p := by
  have i := inverse_ideal p.z
  have s := mm i i
  have e1 := mmE (rfl : p.x = p.x) s
  have e2 := mmE (rfl : p.y = p.y) (mmE i s)
  exact aff_eq e1 e2

/-- multiplying over the field is what `Amd64.asm` does -/
def idealSim : Amd64.Sim ideal.asm Amd64.asm where
  RJ := fun p q => (show Pt F from p) = (show Pt F from q)
  RA := fun p q => (show Aff F from p) = (show Aff F from q)
  add := by rintro p _ q _ rfl rfl; rfl
  dbl := by rintro p _ rfl; rfl
  neg := by rintro p _ rfl; rfl
  negA := by rintro p _ rfl; rfl
  negB := by rintro p _ rfl; rfl
  addA := by rintro p _ q _ rfl rfl; rfl
  toJ := by rintro p _ rfl; rfl
  zeroJ := by
    show (⟨((0 : Nat) : F), ((0 : Nat) : F), ((0 : Nat) : F)⟩ : Pt F) = ⟨0, 0, 0⟩
    rw [Nat.cast_zero]
  zeroA := by
    show (⟨((0 : Nat) : F), ((0 : Nat) : F)⟩ : Aff F) = ⟨0, 0⟩
    rw [Nat.cast_zero]
  ofCoord := by
    intro x y
    show (⟨mmul R ((x % Asm.P : Nat) : F) (rr : F), mmul R ((y % Asm.P : Nat) : F) (rr : F), (bpZ : F)⟩ : Pt F) = ⟨mmul R (x : F) (rr : F), mmul R (y : F) (rr : F), (bpZ : F)⟩
    rw [cast_mod_P, cast_mod_P]
  normalize := by rintro p _ rfl; exact normalize_ideal p
  base := rfl

/-! ### runs without a lost carry -/

abbrev CkPt := Pt Ck

/-- conversion to affine coordinates loses nothing and neither did what came before -/
def Exact (p : Pt Ck) : Prop := (checked.toAff p).x.ok = true ∧ (checked.toAff p).y.ok = true

instance (p : Pt Ck) : Decidable (Exact p) := by unfold Exact; infer_instance

/-- erase the record of carries -/
def erase (p : Pt Ck) : Pt Nat := ⟨p.x.v, p.y.v, p.z.v⟩

theorem erase_of {p : Pt Ck} {q : Pt Nat} (h : Ari.Sim.RP (fun c n => c.v = n) p q) : q = erase p := by
  obtain ⟨h1, h2, h3⟩ := h
  cases q
  simp only [erase] at *
  rw [h1, h2, h3]

theorem fromM_lt (x : Ck) (f : F) (hx : Good x f) (h : (checked.fromM x).ok = true) : (checked.fromM x).v < P ∧ ((checked.fromM x).v : F) = fromMont R f := by
  refine ⟨?_, (checked_ideal.fromM hx h).2⟩
  simp only [checked, Bool.and_eq_true] at h
  exact (fromMont_mont (hx h.1).1 h.2).2

theorem val_of {v : Nat} {f : F} (h : v < P) (hf : (v : F) = f) : f.val = v := by
  rw [← hf]; exact ZMod.val_natCast_of_lt (P_eq ▸ h)

theorem ideal_toCoord (f : Pt F) : Amd64.asm.toCoord f = ((fromMont R (Amd64.normalize f).x).val, (fromMont R (Amd64.normalize f).y).val) := by
  simp only [Amd64.asm]
theorem real_toCoord (n : Pt Nat) : real.asm.toCoord n = ((real.toAff n).x, (real.toAff n).y) := by
  have e : ∀ k, real.val k = k := fun _ => rfl
  simp only [Ari.asm, e]
theorem toAff_x (p : Pt Ck) : (checked.toAff p).x = checked.fromM (checked.normalize p).x := by simp only [Ari.toAff]
theorem toAff_y (p : Pt Ck) : (checked.toAff p).y = checked.fromM (checked.normalize p).y := by simp only [Ari.toAff]

/-- An exact result is the ideal result. -/
theorem coord_of {p : Pt Ck} {n : Pt Nat} {f : Pt F} (h1 : Ari.Sim.RP (fun c n => c.v = n) p n) (h2 : Ari.Sim.RP Good p f) (hx : Exact p) :
    real.asm.toCoord n = Amd64.asm.toCoord f := by
  have k1 := checked_real.toAff h1
  have k2 := checked_ideal.normalize h2
  rw [normalize_ideal] at k2
  obtain ⟨hx, hy⟩ := hx
  rw [toAff_x] at hx
  rw [toAff_y] at hy
  have ax := fromM_lt _ _ k2.1 hx
  have ay := fromM_lt _ _ k2.2 hy
  have k11 := k1.1
  have k12 := k1.2
  rw [toAff_x] at k11
  rw [toAff_y] at k12
  rw [real_toCoord, ideal_toCoord, val_of ax.1 ax.2, val_of ay.1 ay.2]
  exact Prod.ext k11.symm k12.symm

theorem coord_of' {p : checked.asm.J} {n : real.asm.J} {f : ideal.asm.J} {g : Amd64.asm.J} (h1 : checked_real.toAsm.RJ p n) (h2 : checked_ideal.toAsm.RJ p f)
    (h3 : idealSim.RJ f g) (hx : Exact p) : real.asm.toCoord n = Amd64.asm.toCoord g := by
  have e : (show Pt F from f) = g := h3
  have k := coord_of h1 h2 hx
  rw [e] at k
  exact k

/-- the test for equal points is exact: no carry is lost in the differences it tests, and a difference is reported to be zero if and only if it is -/
def FlagOk (p q : Pt Ck) : Prop :=
  ((checked.addH p q).ok = true ∧ (checked.addR p q).ok = true) ∧ (isZeroI (checked.addH p q).v = 1 ↔ (checked.addH p q).v % P = 0) ∧
    (isZeroI (checked.addR p q).v = 1 ↔ (checked.addR p q).v % P = 0)

instance (p q : Pt Ck) : Decidable (FlagOk p q) := by unfold FlagOk; infer_instance

theorem flag_eq {α : Type} (A : Ari α) (p q : Pt α) : (A.addP p q).2 = (A.isZero (A.addH p q) && A.isZero (A.addR p q)) := by
  simp only [Ari.addP, Ari.addH, Ari.addR]

theorem flag_real {p q : checked.asm.J} {p' q' : real.asm.J} (h : checked_real.toAsm.RJ p p') (k : checked_real.toAsm.RJ q q') :
    (checked.asm.add p q).2 = (real.asm.add p' q').2 := by
  have e1 := flag_eq checked p q
  have e2 := flag_eq real p' q'
  have a := checked_real.addH h k
  have b := checked_real.addR h k
  refine e1.trans (Eq.trans ?_ e2.symm)
  rw [← a, ← b]
  rfl

theorem zero_iff {v : Nat} {f : F} (h : (v : F) = f) : v % P = 0 ↔ f = 0 := by
  rw [← h, ZMod.natCast_eq_zero_iff, P_eq]
  exact (Nat.dvd_iff_mod_eq_zero).symm

theorem flag_ideal {p q : checked.asm.J} {p' q' : ideal.asm.J} (h : checked_ideal.toAsm.RJ p p') (k : checked_ideal.toAsm.RJ q q')
    (hf : FlagOk p q) : (checked.asm.add p q).2 = (ideal.asm.add p' q').2 := by
  have e1 := flag_eq checked p q
  have e2 := flag_eq ideal p' q'
  obtain ⟨⟨k1, k2⟩, k3, k4⟩ := hf
  have a := zero_iff (checked_ideal.addH h k k1).2
  have b := zero_iff (checked_ideal.addR h k k2).2
  refine e1.trans (Eq.trans ?_ e2.symm)
  have c1 : checked.isZero (checked.addH p q) = ideal.isZero (ideal.addH p' q') := by
    rw [Bool.eq_iff_iff]
    exact (beq_iff_eq.trans (k3.trans a)).trans decide_eq_true_iff.symm
  have c2 : checked.isZero (checked.addR p q) = ideal.isZero (ideal.addR p' q') := by
    rw [Bool.eq_iff_iff]
    exact (beq_iff_eq.trans (k4.trans b)).trans decide_eq_true_iff.symm
  rw [c1, c2]

theorem flag_same {p q : ideal.asm.J} {p' q' : Amd64.asm.J} (h : idealSim.RJ p p') (k : idealSim.RJ q q') :
    (ideal.asm.add p q).2 = (Amd64.asm.add p' q').2 := by
  have e : (show Pt F from p) = p' := h
  have e' : (show Pt F from q) = q' := k
  rw [← e, ← e']
  rfl

/-- multiplication of a point, losing no carry -/
def ExactMult (x y : Nat) (k : Bytes) : Prop := Exact (scalarMultJ checked.asm (checked.asm.ofCoord x y) (getScalar k))
/-- multiplication with a table, losing no carry -/
def ExactPre (t : Table checked.asm) (k : Bytes) : Prop := Exact (preMult checked.asm t (getScalar k))
/-- both multiplications and the sum losing no carry, and the test for equal points seeing no number it takes for the prime -/
def ExactCombined (t : Table checked.asm) (s k : Bytes) : Prop :=
  let r1 := preMult checked.asm (baseTable checked.asm) (getScalar s)
  let r2 := preMult checked.asm t (getScalar k)
  Exact (combinedJ checked.asm t s k) ∧ FlagOk r1 r2

theorem scalarMult_exact {x y : Nat} {k : Bytes} (h : ExactMult x y k) : scalarMult real.asm x y k = scalarMult Amd64.asm x y k := by
  exact coord_of' (checked_real.toAsm.scalarMultJ (checked_real.toAsm.ofCoord x y) (getScalar k))
    (checked_ideal.toAsm.scalarMultJ (checked_ideal.toAsm.ofCoord x y) (getScalar k))
    (idealSim.scalarMultJ (idealSim.ofCoord x y) (getScalar k)) h

theorem preMult_exact {t : Table checked.asm} {t1 : Table real.asm} {t2 : Table ideal.asm} {t3 : Table Amd64.asm} (h1 : checked_real.toAsm.RT t t1)
    (h2 : checked_ideal.toAsm.RT t t2) (h3 : idealSim.RT t2 t3) {k : Bytes} (h : ExactPre t k) : preScalarMult real.asm t1 k = preScalarMult Amd64.asm t3 k := by
  unfold preScalarMult
  exact coord_of' (checked_real.toAsm.preMult h1 (getScalar k)) (checked_ideal.toAsm.preMult h2 (getScalar k)) (idealSim.preMult h3 (getScalar k)) h

theorem combined_exact {t : Table checked.asm} {t1 : Table real.asm} {t2 : Table ideal.asm} {t3 : Table Amd64.asm} (h1 : checked_real.toAsm.RT t t1)
    (h2 : checked_ideal.toAsm.RT t t2) (h3 : idealSim.RT t2 t3) {s k : Bytes} (h : ExactCombined t s k) :
    combinedMult real.asm t1 s k = combinedMult Amd64.asm t3 s k := by
  unfold combinedMult
  obtain ⟨h, hf⟩ := h
  have a1 := checked_real.toAsm.preMult (t := baseTable checked.asm) (t' := baseTable real.asm) (fun i j => checked_real.toAsm.buildTable checked_real.toAsm.base i j) (getScalar s)
  have a2 := checked_ideal.toAsm.preMult (t := baseTable checked.asm) (t' := baseTable ideal.asm) (fun i j => checked_ideal.toAsm.buildTable checked_ideal.toAsm.base i j) (getScalar s)
  have a3 := idealSim.preMult (t := baseTable ideal.asm) (t' := baseTable Amd64.asm) (fun i j => idealSim.buildTable idealSim.base i j) (getScalar s)
  have b1 := checked_real.toAsm.preMult h1 (getScalar k)
  have b2 := checked_ideal.toAsm.preMult h2 (getScalar k)
  have b3 := idealSim.preMult h3 (getScalar k)
  exact coord_of' (checked_real.toAsm.combinedJ h1 s k (flag_real a1 b1)) (checked_ideal.toAsm.combinedJ h2 s k (flag_ideal a2 b2 hf))
    (idealSim.combinedJ h3 s k (flag_same a3 b3)) h

end Verif.Sm2.Asm
