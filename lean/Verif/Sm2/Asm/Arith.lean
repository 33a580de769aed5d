import Verif.Sm2.Asm.Field
import Verif.Sm2.Amd64.Sim
import Verif.Sm2.Amd64.Concrete
/-!
The routines of the amd64 build over any implementation `Ari` of the field operations: over the numbers the
instructions compute (`real`), over the same numbers with a bit that records whether a carry was lost (`checked`),
and over the field itself (`ideal`).
-/
namespace Verif.Sm2.Asm
open Verif.Sm2.Amd64 Verif.Sm2.Amd64.Jac

/-- the field operations of `sm2p256_amd64.s` -/
structure Ari (α : Type) where
  /-- `p256GmMulInternal`, `p256GmSqrInternal`, `sm2p256Sqr` -/
  mul : α → α → α
  /-- `sm2p256Mul` -/
  mulE : α → α → α
  /-- `sm2p256FromMont` -/
  fromM : α → α
  sub : α → α → α
  add : α → α → α
  half : α → α
  /-- `sm2p256NegCond` -/
  neg : α → α
  /-- the negation inside `sm2p256PointAddAffineAsm` -/
  negB : α → α
  /-- `sm2p256IsZero` -/
  isZero : α → Bool
  /-- four words of Go -/
  ofNat : Nat → α
  /-- and back -/
  val : α → Nat

namespace Ari
variable {α : Type} (A : Ari α)

/-- `sm2p256PointDoubleAsm`, the formula of `ptDbl` (see `real_dbl`) -/
def dblP (p : Pt α) : Pt α :=
  let zz := A.mul p.z p.z
  let u := A.add zz p.x
  let zy := A.mul p.z p.y
  let m1 := A.mul (A.sub p.x zz) u
  let m := A.add m1 (A.add m1 m1)
  let y2 := A.add p.y p.y
  let s1 := A.mul y2 y2
  let q := A.half (A.mul s1 s1)
  let s := A.mul p.x s1
  let x' := A.sub (A.mul m m) (A.add s s)
  ⟨x', A.sub (A.mul (A.sub s x') m) q, A.add zy zy⟩

/-- the differences whose vanishing the flag of `sm2p256PointAddAsm` reports -/
def addH (p q : Pt α) : α :=
  A.sub (A.mul (A.mul p.z p.z) q.x) (A.mul (A.mul q.z q.z) p.x)
def addR (p q : Pt α) : α :=
  A.sub (A.mul (A.mul (A.mul p.z p.z) p.z) q.y) (A.mul (A.mul (A.mul q.z q.z) q.z) p.y)

/-- `sm2p256PointAddAsm`, the formula of `ptAdd` (see `real_add`) -/
def addP (p q : Pt α) : Pt α × Bool :=
  let z2s := A.mul q.z q.z
  let s1 := A.mul (A.mul z2s q.z) p.y
  let z1s := A.mul p.z p.z
  let s2 := A.mul (A.mul z1s p.z) q.y
  let r := A.sub s2 s1
  let u1 := A.mul z2s p.x
  let u2 := A.mul z1s q.x
  let h := A.sub u2 u1
  let rr := A.mul r r
  let hh := A.mul h h
  let hc := A.mul hh h
  let s3 := A.mul hc s1
  let zo := A.mul (A.mul p.z q.z) h
  let v := A.mul hh u1
  let xo := A.sub (A.sub rr (A.add v v)) hc
  (⟨xo, A.sub (A.mul (A.sub v xo) r) s3, zo⟩, A.isZero h && A.isZero r)

/-- the sum inside `sm2p256PointAddAffineAsm`, the formula of `affSum` (see `real_addA`) -/
def addAffP (p : Pt α) (q : Aff α) : Pt α :=
  let z1s := A.mul p.z p.z
  let h := A.sub (A.mul z1s q.x) p.x
  let zo := A.mul h p.z
  let s2 := A.mul (A.mul z1s p.z) q.y
  let r := A.sub s2 p.y
  let rr := A.mul r r
  let hh := A.mul h h
  let hc := A.mul hh h
  let s3 := A.mul hc p.y
  let v := A.mul p.x hh
  let xo := A.sub (A.sub rr (A.add v v)) hc
  ⟨xo, A.sub (A.mul (A.sub v xo) r) s3, zo⟩

/-- `n` times `sm2p256Sqr` -/
def sqrN : Nat → α → α
  | 0, x => x
  | n+1, x => sqrN n (A.mul x x)

/-- `p256Inverse`, sm2/sm2p256_amd64.go:468-574 -/
def inverse (x : α) : α :=
  let o := A.mul x x
  let p2 := A.mulE o x
  let o := A.mul p2 p2
  let p3 := A.mulE o x
  let o := A.mul o o
  let p4 := A.mulE o p2
  let o := A.mul p4 p4
  let o := A.mul o o
  let o := A.mul o o
  let p7 := A.mulE o p3
  let o := A.mul o o
  let p8 := A.mulE o p4
  let o := A.mul p8 p8
  let o := A.sqrN 6 o
  let p15 := A.mulE o p7
  let o := A.mul o o
  let p16 := A.mulE o p8
  let o := A.mul p16 p16
  let o := A.sqrN 14 o
  let p31 := A.mulE o p15
  let o := A.mul o o
  let p32 := A.mulE o p16
  let o := A.mul p31 p31
  let o := A.sqrN 32 o
  let o := A.mulE o p32
  let o := A.mulE (A.sqrN 32 o) p32
  let o := A.mulE (A.sqrN 32 o) p32
  let o := A.mulE (A.sqrN 32 o) p32
  let o := A.sqrN 32 o
  let o := A.mulE (A.sqrN 32 o) p32
  let o := A.mulE (A.sqrN 16 o) p16
  let o := A.mulE (A.sqrN 8 o) p8
  let o := A.mulE (A.sqrN 4 o) p4
  let o := A.mulE (A.sqrN 2 o) p2
  let o := A.mul o o
  let o := A.mul o o
  A.mulE o x

/-- `zInv`, `zInvSq` and the two products, sm2/sm2p256_amd64.go:362-367, 624-631 -/
def normalize (p : Pt α) : Aff α :=
  let zInv := A.inverse p.z
  let zInvSq := A.mul zInv zInv
  let zInv := A.mulE zInv zInvSq
  ⟨A.mulE p.x zInvSq, A.mulE p.y zInv⟩

/-- the end of `p256PointToAffine`, sm2/sm2p256_amd64.go:369-370 -/
def toAff (p : Pt α) : Aff α := let a := A.normalize p; ⟨A.fromM a.x, A.fromM a.y⟩

/-- the amd64 routines over the operations `A` -/
def asm : Amd64.Asm where
  J := Pt α
  A := Aff α
  add := A.addP
  dbl := A.dblP
  neg := fun p => ⟨p.x, A.neg p.y, p.z⟩
  negA := fun p => ⟨p.x, A.neg p.y⟩
  negB := fun p => ⟨p.x, A.negB p.y⟩
  addA := A.addAffP
  toJ := fun p => ⟨p.x, p.y, A.ofNat bpZ⟩
  zeroJ := ⟨A.ofNat 0, A.ofNat 0, A.ofNat 0⟩
  zeroA := ⟨A.ofNat 0, A.ofNat 0⟩
  ofCoord := fun x y => ⟨A.mulE (A.ofNat (x % P)) (A.ofNat rr), A.mulE (A.ofNat (y % P)) (A.ofNat rr), A.ofNat bpZ⟩
  normalize := A.normalize
  toCoord := fun p => (A.val (A.toAff p).x, A.val (A.toAff p).y)
  basePoint := ⟨A.ofNat bpX, A.ofNat bpY, A.ofNat bpZ⟩

end Ari

/-- the numbers the instructions compute, proved in `mul_exec`, `sqr_exec`, `fromMont_exec`, `mulInternal_exec`, `sqrInternal_exec`,
`subInternal_exec`, `addC_exec`, `dblC_exec`, `halfC_exec`, `negCond_exec`, `negC_exec`, `isZero_exec` -/
def real : Ari Nat where
  mul := mulI
  mulE := mulT
  fromM := fromMontT
  sub := subI
  add := fun x y => condSub (x + y)
  half := halfI
  neg := negI
  negB := negAff
  isZero := fun x => isZeroI x == 1
  ofNat := id
  val := id

/-- a number, and whether everything it was computed from was computed without losing a carry -/
structure Ck where
  v : Nat
  ok : Bool
deriving DecidableEq

/-- `real` with the record of lost carries -/
def checked : Ari Ck where
  mul := fun x y => ⟨mulI x.v y.v, x.ok && y.ok && mulIOk x.v y.v⟩
  mulE := fun x y => ⟨mulT x.v y.v, x.ok && y.ok && mulTOk x.v y.v⟩
  fromM := fun x => ⟨fromMontT x.v, x.ok && fromMontOk x.v⟩
  sub := fun x y => ⟨subI x.v y.v, x.ok && y.ok && decide (y.v ≤ x.v + P)⟩
  add := fun x y => ⟨condSub (x.v + y.v), x.ok && y.ok && decide (x.v + y.v < P + B ^ 4)⟩
  half := fun x => ⟨halfI x.v, x.ok⟩
  neg := fun x => ⟨negI x.v, x.ok && decide (x.v ≤ P)⟩
  negB := fun x => ⟨negAff x.v, x.ok⟩
  isZero := fun x => isZeroI x.v == 1
  ofNat := fun n => ⟨n, true⟩
  val := Ck.v

/-- the field, in Montgomery form -/
noncomputable def ideal : Ari F where
  mul := mmul R
  mulE := mmul R
  fromM := fromMont R
  sub := fun x y => x - y
  add := fun x y => x + y
  half := fun x => x / 2
  neg := fun x => -x
  negB := fun x => -x
  isZero := fun x => decide (x = 0)
  ofNat := fun n => (n : F)
  val := ZMod.val

/-- a relation respected by the field operations -/
structure Ari.Sim {α β : Type} (A : Ari α) (C : Ari β) (r : α → β → Prop) : Prop where
  mul : ∀ {x x' y y'}, r x x' → r y y' → r (A.mul x y) (C.mul x' y')
  mulE : ∀ {x x' y y'}, r x x' → r y y' → r (A.mulE x y) (C.mulE x' y')
  fromM : ∀ {x x'}, r x x' → r (A.fromM x) (C.fromM x')
  sub : ∀ {x x' y y'}, r x x' → r y y' → r (A.sub x y) (C.sub x' y')
  add : ∀ {x x' y y'}, r x x' → r y y' → r (A.add x y) (C.add x' y')
  half : ∀ {x x'}, r x x' → r (A.half x) (C.half x')
  neg : ∀ {x x'}, r x x' → r (A.neg x) (C.neg x')
  negB : ∀ {x x'}, r x x' → r (A.negB x) (C.negB x')
  ofNat : ∀ n, n < B ^ 4 → r (A.ofNat n) (C.ofNat n)

namespace Ari.Sim
variable {α β : Type} {A : Ari α} {C : Ari β} {r : α → β → Prop} (S : Ari.Sim A C r)

def RP (r : α → β → Prop) (p : Pt α) (p' : Pt β) : Prop := r p.x p'.x ∧ r p.y p'.y ∧ r p.z p'.z
def RQ (r : α → β → Prop) (p : Aff α) (p' : Aff β) : Prop := r p.x p'.x ∧ r p.y p'.y

include S
theorem sqrN : ∀ (n : Nat) {x : α} {x' : β}, r x x' → r (A.sqrN n x) (C.sqrN n x')
  | 0, _, _, h => h
  | n + 1, _, _, h => sqrN n (S.mul h h)

theorem inverse {x : α} {x' : β} (h : r x x') : r (A.inverse x) (C.inverse x') := by
  have o := S.mul h h
  have p2 := S.mulE o h
  have o := S.mul p2 p2
  have p3 := S.mulE o h
  have o := S.mul o o
  have p4 := S.mulE o p2
  have o := S.mul p4 p4
  have o := S.mul o o
  have o := S.mul o o
  have p7 := S.mulE o p3
  have o := S.mul o o
  have p8 := S.mulE o p4
  have o := S.mul p8 p8
  have o := S.sqrN 6 o
  have p15 := S.mulE o p7
  have o := S.mul o o
  have p16 := S.mulE o p8
  have o := S.mul p16 p16
  have o := S.sqrN 14 o
  have p31 := S.mulE o p15
  have o := S.mul o o
  have p32 := S.mulE o p16
  have o := S.mul p31 p31
  have o := S.sqrN 32 o
  have o := S.mulE o p32
  have o := S.mulE (S.sqrN 32 o) p32
  have o := S.mulE (S.sqrN 32 o) p32
  have o := S.mulE (S.sqrN 32 o) p32
  have o := S.sqrN 32 o
  have o := S.mulE (S.sqrN 32 o) p32
  have o := S.mulE (S.sqrN 16 o) p16
  have o := S.mulE (S.sqrN 8 o) p8
  have o := S.mulE (S.sqrN 4 o) p4
  have o := S.mulE (S.sqrN 2 o) p2
  have o := S.mul o o
  have o := S.mul o o
  exact S.mulE o h

theorem normalize {p : Pt α} {p' : Pt β} (h : RP r p p') : RQ r (A.normalize p) (C.normalize p') := by
  have i := S.inverse h.2.2
  have s := S.mul i i
  exact ⟨S.mulE h.1 s, S.mulE h.2.1 (S.mulE i s)⟩

theorem toAff {p : Pt α} {p' : Pt β} (h : RP r p p') : RQ r (A.toAff p) (C.toAff p') := by
  have i := S.normalize h
  exact ⟨S.fromM i.1, S.fromM i.2⟩

theorem dblP {p : Pt α} {p' : Pt β} (h : RP r p p') : RP r (A.dblP p) (C.dblP p') := by
  obtain ⟨hx, hy, hz⟩ := h
  have zz := S.mul hz hz
  have u := S.add zz hx
  have zy := S.mul hz hy
  have m1 := S.mul (S.sub hx zz) u
  have m := S.add m1 (S.add m1 m1)
  have y2 := S.add hy hy
  have s1 := S.mul y2 y2
  have q := S.half (S.mul s1 s1)
  have s := S.mul hx s1
  have x' := S.sub (S.mul m m) (S.add s s)
  exact ⟨x', S.sub (S.mul (S.sub s x') m) q, S.add zy zy⟩

theorem addH {p q : Pt α} {p' q' : Pt β} (h : RP r p p') (k : RP r q q') : r (A.addH p q) (C.addH p' q') :=
  S.sub (S.mul (S.mul h.2.2 h.2.2) k.1) (S.mul (S.mul k.2.2 k.2.2) h.1)

theorem addR {p q : Pt α} {p' q' : Pt β} (h : RP r p p') (k : RP r q q') : r (A.addR p q) (C.addR p' q') :=
  S.sub (S.mul (S.mul (S.mul h.2.2 h.2.2) h.2.2) k.2.1) (S.mul (S.mul (S.mul k.2.2 k.2.2) k.2.2) h.2.1)

theorem addP {p q : Pt α} {p' q' : Pt β} (hp : RP r p p') (hq : RP r q q') : RP r (A.addP p q).1 (C.addP p' q').1 := by
  have z2s := S.mul hq.2.2 hq.2.2
  have s1 := S.mul (S.mul z2s hq.2.2) hp.2.1
  have z1s := S.mul hp.2.2 hp.2.2
  have s2 := S.mul (S.mul z1s hp.2.2) hq.2.1
  have r := S.sub s2 s1
  have u1 := S.mul z2s hp.1
  have u2 := S.mul z1s hq.1
  have h := S.sub u2 u1
  have rr := S.mul r r
  have hh := S.mul h h
  have hc := S.mul hh h
  have s3 := S.mul hc s1
  have zo := S.mul (S.mul hp.2.2 hq.2.2) h
  have v := S.mul hh u1
  have xo := S.sub (S.sub rr (S.add v v)) hc
  exact ⟨xo, S.sub (S.mul (S.sub v xo) r) s3, zo⟩

theorem addAffP {p : Pt α} {p' : Pt β} {q : Aff α} {q' : Aff β} (hp : RP r p p') (hq : RQ r q q') : RP r (A.addAffP p q) (C.addAffP p' q') := by
  have z1s := S.mul hp.2.2 hp.2.2
  have h := S.sub (S.mul z1s hq.1) hp.1
  have zo := S.mul h hp.2.2
  have s2 := S.mul (S.mul z1s hp.2.2) hq.2
  have r := S.sub s2 hp.2.1
  have rr := S.mul r r
  have hh := S.mul h h
  have hc := S.mul hh h
  have s3 := S.mul hc hp.2.1
  have v := S.mul hp.1 hh
  have xo := S.sub (S.sub rr (S.add v v)) hc
  exact ⟨xo, S.sub (S.mul (S.sub v xo) r) s3, zo⟩

/-- the routines over two related implementations are related -/
def toAsm : Amd64.Sim A.asm C.asm where
  RJ := RP r
  RA := RQ r
  add := S.addP
  dbl := S.dblP
  neg := fun h => ⟨h.1, S.neg h.2.1, h.2.2⟩
  negA := fun h => ⟨h.1, S.neg h.2⟩
  negB := fun h => ⟨h.1, S.negB h.2⟩
  addA := S.addAffP
  toJ := fun h => ⟨h.1, h.2, S.ofNat _ (by decide +kernel)⟩
  zeroJ := ⟨S.ofNat _ (by decide +kernel), S.ofNat _ (by decide +kernel), S.ofNat _ (by decide +kernel)⟩
  zeroA := ⟨S.ofNat _ (by decide +kernel), S.ofNat _ (by decide +kernel)⟩
  ofCoord := fun x y => ⟨S.mulE (S.ofNat _ (Nat.lt_trans (Nat.mod_lt _ (by decide)) (by decide +kernel))) (S.ofNat _ (by decide +kernel)),
    S.mulE (S.ofNat _ (Nat.lt_trans (Nat.mod_lt _ (by decide)) (by decide +kernel))) (S.ofNat _ (by decide +kernel)), S.ofNat _ (by decide +kernel)⟩
  normalize := S.normalize
  base := ⟨S.ofNat _ (by decide +kernel), S.ofNat _ (by decide +kernel), S.ofNat _ (by decide +kernel)⟩

end Ari.Sim

/-- the checked numbers are the real ones -/
theorem checked_real : Ari.Sim checked real (fun c n => c.v = n) where
  mul := by rintro x _ y _ rfl rfl; rfl
  mulE := by rintro x _ y _ rfl rfl; rfl
  fromM := by rintro x _ rfl; rfl
  sub := by rintro x _ y _ rfl rfl; rfl
  add := by rintro x _ y _ rfl rfl; rfl
  half := by rintro x _ rfl; rfl
  neg := by rintro x _ rfl; rfl
  negB := by rintro x _ rfl; rfl
  ofNat := fun n _ => rfl

/-- a checked number that lost no carry stands for an element of the field -/
def Good (c : Ck) (f : F) : Prop := c.ok = true → c.v < B ^ 4 ∧ (c.v : F) = f

theorem P_eq : (Asm.P : Nat) = Verif.Sm2.P := by decide +kernel

theorem cast_P : ((Asm.P : Nat) : F) = 0 := by rw [P_eq]; exact ZMod.natCast_self _

theorem mont_cast {x y z : Nat} (h : IsMont x y z) : (z : F) = mmul R (x : F) (y : F) := by
  have e := (ZMod.natCast_eq_natCast_iff (z * 2 ^ 256) (x * y) Verif.Sm2.P).2 (P_eq ▸ h.eq)
  rw [Nat.cast_mul, Nat.cast_mul, Nat.cast_pow, Nat.cast_ofNat] at e
  unfold mmul
  rw [eq_mul_inv_iff_mul_eq₀ R_ne]
  exact e

theorem subI_cast {x y : Nat} (hx : x < B ^ 4) (h : y ≤ x + P) : subI x y < B ^ 4 ∧ (subI x y : F) = (x : F) - y := by
  rw [subI]
  split
  · refine ⟨by omega, ?_⟩
    rw [Nat.cast_sub (by assumption)]
  · have e : (x + B ^ 4 - y + P) % B ^ 4 = x + P - y := by
      rw [show x + B ^ 4 - y + P = (x + P - y) + B ^ 4 by simp only [B, P] at *; omega, Nat.add_mod_right, Nat.mod_eq_of_lt (by simp only [B, P] at *; omega)]
    rw [e]
    refine ⟨by simp only [B, P] at *; omega, ?_⟩
    rw [Nat.cast_sub h, Nat.cast_add, cast_P, add_zero]

theorem condSub_cast {T : Nat} (h : T < P + B ^ 4) : condSub T < B ^ 4 ∧ (condSub T : F) = (T : F) := by
  obtain ⟨k, e, _, h2⟩ := condSub_small h
  refine ⟨k, ?_⟩
  conv_rhs => rw [h2]
  rw [Nat.cast_add, Nat.cast_mul, cast_P, mul_zero, add_zero]

theorem halfI_cast {x : Nat} (h : x < B ^ 4) : halfI x < B ^ 4 ∧ (halfI x : F) = (x : F) / 2 := by
  rw [halfI]
  split
  · refine ⟨by omega, ?_⟩
    rw [eq_div_iff two_ne]
    exact_mod_cast congrArg (Nat.cast : Nat → F) (show x / 2 * 2 = x by omega)
  · refine ⟨by simp only [B, P] at *; omega, ?_⟩
    have e : (x + P) / 2 * 2 = x + P := by simp only [P]; omega
    have := congrArg (Nat.cast : Nat → F) e
    rw [eq_div_iff two_ne]
    push_cast at this
    rw [this, show ((115792089210356248756420345214020892766250353991924191454421193933289684991999 : F)) = ((P : Nat) : F) by norm_num, cast_P, add_zero]

theorem negI_cast {y : Nat} (h : y ≤ P) : negI y < B ^ 4 ∧ (negI y : F) = -(y : F) := by
  have e : negI y = P - y := by
    rw [negI, show P + B ^ 4 - y = P - y + B ^ 4 by omega, Nat.add_mod_right, Nat.mod_eq_of_lt (by simp only [B, P] at *; omega)]
  rw [e]
  refine ⟨by simp only [B, P] at *; omega, ?_⟩
  rw [Nat.cast_sub h, cast_P, zero_sub]

theorem negAff_cast {y : Nat} (h : y < B ^ 4) : negAff y < B ^ 4 ∧ (negAff y : F) = -(y : F) := by
  have h2 : y ≤ 2 * P := by simp only [B, P] at *; omega
  rw [negAff]
  split
  · rename_i hc
    refine ⟨by simp only [B, P] at *; omega, ?_⟩
    rw [Nat.cast_sub hc.1, cast_P, zero_sub]
  · rename_i hc
    refine ⟨by simp only [B, P] at *; omega, ?_⟩
    rw [Nat.cast_sub h2, Nat.cast_mul, cast_P, mul_zero, zero_sub]

/-- as long as no carry is lost the routines compute in the field -/
theorem checked_ideal : Ari.Sim checked ideal Good where
  mul := by
    intro x x' y y' hx hy h
    simp only [checked, Bool.and_eq_true] at h
    obtain ⟨a, a2⟩ := hx h.1.1
    obtain ⟨b, b2⟩ := hy h.1.2
    have m := mulI_mont a b h.2
    refine ⟨m.lt, ?_⟩
    have := mont_cast m
    rw [a2, b2] at this
    exact this
  mulE := by
    intro x x' y y' hx hy h
    simp only [checked, Bool.and_eq_true] at h
    obtain ⟨a, a2⟩ := hx h.1.1
    obtain ⟨b, b2⟩ := hy h.1.2
    have m := mulT_mont a b h.2
    refine ⟨m.lt, ?_⟩
    have := mont_cast m
    rw [a2, b2] at this
    exact this
  fromM := by
    intro x x' hx h
    simp only [checked, Bool.and_eq_true] at h
    obtain ⟨a, a2⟩ := hx h.1
    have m := (fromMont_mont a h.2).1
    refine ⟨m.lt, ?_⟩
    have := mont_cast m
    rw [a2] at this
    rw [show (checked.fromM x).v = fromMontT x.v from rfl, this]
    simp only [ideal, mmul, fromMont, Nat.cast_one, mul_one]
  sub := by
    intro x x' y y' hx hy h
    simp only [checked, Bool.and_eq_true, decide_eq_true_iff] at h
    obtain ⟨a, a2⟩ := hx h.1.1
    obtain ⟨b, b2⟩ := hy h.1.2
    have m := subI_cast a h.2
    refine ⟨m.1, ?_⟩
    have := m.2
    rw [a2, b2] at this
    exact this
  add := by
    intro x x' y y' hx hy h
    simp only [checked, Bool.and_eq_true, decide_eq_true_iff] at h
    obtain ⟨a, a2⟩ := hx h.1.1
    obtain ⟨b, b2⟩ := hy h.1.2
    have m := condSub_cast h.2
    refine ⟨m.1, ?_⟩
    have := m.2
    rw [Nat.cast_add, a2, b2] at this
    exact this
  half := by
    intro x x' hx h
    obtain ⟨a, a2⟩ := hx h
    have m := halfI_cast a
    refine ⟨m.1, ?_⟩
    have := m.2
    rw [a2] at this
    exact this
  neg := by
    intro x x' hx h
    simp only [checked, Bool.and_eq_true, decide_eq_true_iff] at h
    obtain ⟨a, a2⟩ := hx h.1
    have m := negI_cast h.2
    refine ⟨m.1, ?_⟩
    have := m.2
    rw [a2] at this
    exact this
  negB := by
    intro x x' hx h
    obtain ⟨a, a2⟩ := hx h
    have m := negAff_cast a
    refine ⟨m.1, ?_⟩
    have := m.2
    rw [a2] at this
    exact this
  ofNat := fun n hn _ => ⟨hn, rfl⟩

end Verif.Sm2.Asm
