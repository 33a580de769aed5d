import Verif.Sm2.Amd64.Jacobian
import Mathlib.FieldTheory.Finite.Basic
/-!
The concrete SM2 curve over `ZMod P`: the base point lies on it and has order `N` (kernel
computation), and the assembly formulas with the constants of the source satisfy `LawfulAsm` on the
group generated by the base point.
-/
namespace Verif.Sm2.Amd64
open Verif Verif.Sm2 WeierstrassCurve.Affine Jac

abbrev F := ZMod P

theorem cast_eq_of_mod {a b : Nat} (h : a % P = b % P) : (a : F) = (b : F) :=
  (ZMod.natCast_eq_natCast_iff a b P).2 h

theorem cast_ne_of_mod {a b : Nat} (h : a % P ≠ b % P) : (a : F) ≠ (b : F) := fun hc =>
  h ((ZMod.natCast_eq_natCast_iff a b P).1 hc)

/-- The SM2 curve (sm2/sm2p256_amd64.go:40-52; `A = P - 3`). -/
def sm2W : WeierstrassCurve.Affine F := W (B : F)

theorem A_eq : (A : F) = -3 := by
  have h : ((A + 3 : Nat) : F) = ((0 : Nat) : F) := cast_eq_of_mod (by decide +kernel)
  push_cast at h
  linear_combination h

theorem two_ne : (2 : F) ≠ 0 := by
  have := cast_ne_of_mod (a := 2) (b := 0) (by decide +kernel)
  exact_mod_cast this

theorem g_on_curve : sm2W.Nonsingular (Gx : F) (Gy : F) := by
  rw [WeierstrassCurve.Affine.nonsingular_iff, WeierstrassCurve.Affine.equation_iff]
  have h1 : ((Gy ^ 2 + 3 * Gx : Nat) : F) = ((Gx ^ 3 + B : Nat) : F) := cast_eq_of_mod (by decide +kernel)
  have h2 : ((2 * Gy : Nat) : F) ≠ ((0 : Nat) : F) := cast_ne_of_mod (by decide +kernel)
  push_cast at h1 h2
  simp only [sm2W, W]
  refine ⟨by linear_combination h1, Or.inr fun h => h2 ?_⟩
  linear_combination h

/-- the base point -/
noncomputable def gPt : sm2W.Point := .some _ _ g_on_curve

/-! ### order of the base point -/

/-- Jacobian coordinates as naturals, no Montgomery factor -/
structure NPt where
  x : Nat
  y : Nat
  z : Nat

def nsub (a b : Nat) : Nat := (a % P + (P - b % P)) % P

def ndbl (p : NPt) : NPt :=
  let zz := p.z * p.z % P
  let m := 3 * (nsub p.x zz * ((zz + p.x) % P)) % P
  let yy := p.y * p.y % P
  let s := 4 * (p.x * yy) % P
  let x := nsub (m * m) (s + s)
  ⟨x, nsub (nsub s x * m) (8 * (yy * yy)), 2 * (p.z * p.y) % P⟩

/-- `none` when the operands are equal or one is infinity -/
def nadd (p q : NPt) : Option NPt :=
  let z2 := q.z * q.z % P
  let s1 := z2 * q.z % P * p.y % P
  let z1 := p.z * p.z % P
  let s2 := z1 * p.z % P * q.y % P
  let r := nsub s2 s1
  let u1 := z2 * p.x % P
  let u2 := z1 * q.x % P
  let h := nsub u2 u1
  if p.z % P = 0 ∨ q.z % P = 0 ∨ (r = 0 ∧ h = 0) then none else
  let hh := h * h % P
  let hhh := hh * h % P
  let u := hh * u1 % P
  let x := nsub (nsub (r * r) (u + u)) hhh
  some ⟨x, nsub (nsub u x * r) (hhh * s1), p.z * q.z % P * h % P⟩

theorem cast_nsub (a b : Nat) : ((nsub a b : Nat) : F) = (a : F) - b := by
  have hb : b % P ≤ P := (Nat.mod_lt _ (by decide)).le
  rw [nsub, ZMod.natCast_mod, Nat.cast_add, Nat.cast_sub hb, ZMod.natCast_mod, ZMod.natCast_mod, ZMod.natCast_self]
  ring

def NPt.cast (p : NPt) : Pt F := ⟨(p.x : F), (p.y : F), (p.z : F)⟩

theorem cast_ndbl (p : NPt) : (ndbl p).cast = dbl 1 p.cast := by
  have h4 : (2 : F) ≠ 0 := two_ne
  simp only [NPt.cast, ndbl, dbl, mmul, Pt.mk.injEq, cast_nsub, Nat.cast_mul, Nat.cast_add, ZMod.natCast_mod,
    inv_one, mul_one, Nat.cast_ofNat]
  refine ⟨by ring, ?_, by ring⟩
  field_simp
  ring

theorem cast_zero_iff (a : Nat) : ((a : Nat) : F) = 0 ↔ a % P = 0 := by
  rw [ZMod.natCast_eq_zero_iff, Nat.dvd_iff_mod_eq_zero]

theorem cast_nadd (p q r : NPt) (h : nadd p q = some r) :
    p.cast.z ≠ 0 ∧ q.cast.z ≠ 0 ∧ (add 1 p.cast q.cast).1 = r.cast ∧ (add 1 p.cast q.cast).2 = false := by
  unfold nadd at h
  simp only at h
  split at h
  · cases h
  · rename_i hc
    rw [Option.some.injEq] at h
    subst h
    simp only [not_or] at hc
    obtain ⟨h1, h2, h3⟩ := hc
    refine ⟨by simpa [NPt.cast, cast_zero_iff] using h1, by simpa [NPt.cast, cast_zero_iff] using h2, ?_, ?_⟩
    · simp only [NPt.cast, add, mmul, Pt.mk.injEq, cast_nsub, Nat.cast_mul, Nat.cast_add, ZMod.natCast_mod,
        inv_one, mul_one]
    · have hm : ∀ a b, nsub a b % P = nsub a b := fun a b => by rw [nsub, Nat.mod_mod]
      rw [← hm (p.z * p.z % P * p.z % P * q.y % P), ← hm (p.z * p.z % P * q.x % P), ← cast_zero_iff, ← cast_zero_iff] at h3
      simp only [cast_nsub, Nat.cast_mul, ZMod.natCast_mod] at h3
      simp only [NPt.cast, add, mmul, inv_one, mul_one, Bool.and_eq_false_iff, decide_eq_false_iff_not]
      tauto

def RepN (p : NPt) (Q : sm2W.Point) : Prop := Rep 1 (B : F) p.cast Q

theorem repN_dbl (p : NPt) (Q) (h : RepN p Q) : RepN (ndbl p) (Q + Q) := by
  unfold RepN; rw [cast_ndbl]; exact rep_dbl one_ne_zero two_ne _ _ h

theorem rep_ne_zero (p : NPt) (Q) (h : RepN p Q) (hz : p.cast.z ≠ 0) : Q ≠ 0 := by
  rintro rfl; exact hz h

theorem repN_add (p q r : NPt) (Q Q') (h : RepN p Q) (h' : RepN q Q') (hr : nadd p q = some r) :
    RepN r (Q + Q') := by
  obtain ⟨h1, h2, h3, h4⟩ := cast_nadd p q r hr
  have hne : Q ≠ Q' := by
    rintro rfl
    have := (rep_add_eq one_ne_zero _ _ _ h h' (rep_ne_zero p _ h h1)).2
    rw [h4] at this; cases this
  have := (rep_add_ne one_ne_zero _ _ _ _ h h' (rep_ne_zero p _ h h1) (rep_ne_zero q _ h' h2) hne).1
  rw [h3] at this
  exact this

def nG : NPt := ⟨Gx, Gy, 1⟩

/-- left-to-right double and add over the top `d+1` bits of `N` -/
def ladder : Nat → Option NPt
  | 0 => some nG
  | d+1 => match ladder d with
    | none => none
    | some p => if N / 2 ^ (254 - d) % 2 = 1 then nadd (ndbl p) nG else some (ndbl p)

theorem nG_rep : RepN nG gPt := by
  refine ⟨?_, ?_, ?_⟩ <;> simp [nG, NPt.cast, fromMont]

theorem ladder_rep (d : Nat) (hd : d ≤ 255) (p : NPt) (h : ladder d = some p) :
    RepN p ((N / 2 ^ (255 - d)) • gPt) := by
  induction d generalizing p with
  | zero =>
    rw [ladder, Option.some.injEq] at h
    subst h
    have : N / 2 ^ (255 - 0) = 1 := by decide +kernel
    rw [this, one_nsmul]
    exact nG_rep
  | succ d ih =>
    rw [ladder] at h
    cases hl : ladder d with
    | none => rw [hl] at h; cases h
    | some q =>
      rw [hl] at h
      have h1 := repN_dbl _ _ (ih (by omega) q hl)
      have hdiv : N / 2 ^ (255 - d) = N / 2 ^ (254 - d) / 2 := by
        rw [Nat.div_div_eq_div_mul, ← pow_succ]; congr 2; omega
      rw [hdiv] at h1
      rw [show 255 - (d + 1) = 254 - d by omega]
      simp only at h
      generalize N / 2 ^ (254 - d) = M at *
      rw [← add_nsmul] at h1
      split at h
      · have h2 := repN_add _ _ _ _ _ h1 nG_rep h
        rw [show M = M / 2 + M / 2 + 1 by omega, add_nsmul, one_nsmul]
        exact h2
      · rw [Option.some.injEq] at h
        subst h
        rw [show M = M / 2 + M / 2 by omega]
        exact h1

def isInf : Option NPt → Bool
  | none => false
  | some p => p.z == 0

theorem ladder_rep_end (d : Nat) (hd : d = 255) (p : NPt) (h : ladder d = some p) (M : Nat) (hM : N = M) :
    RepN p (M • gPt) := by
  have := ladder_rep d (by omega) p h
  have e : 255 - d = 0 := by omega
  rw [e, pow_zero, Nat.div_one] at this
  clear h e hd
  generalize N = N' at *
  subst hM
  exact this

theorem ladder_end : isInf (ladder 255) = true := by decide +kernel

/-- The base point has order dividing `N`. -/
theorem g_order : N • gPt = 0 := by
  have key : ∀ o : Option NPt, isInf o = true →
      ∃ p, o = some p ∧ p.z = 0 := by
    intro o h
    cases o with
    | none => cases h
    | some p => exact ⟨p, rfl, by simpa [isInf] using h⟩
  obtain ⟨d, hd, he⟩ : ∃ d, d = 255 ∧ isInf (ladder d) = true := ⟨255, rfl, ladder_end⟩
  obtain ⟨p, hl, hz⟩ := key (ladder d) he
  obtain ⟨M, hM⟩ : ∃ M, N = M := ⟨N, rfl⟩
  have hr := ladder_rep_end d hd p hl M hM
  rw [hM]
  by_contra hne
  generalize M • gPt = Q at *
  cases Q with
  | zero => exact hne rfl
  | some X Y hn =>
    apply hr.1
    simp [NPt.cast, hz]

/-! ### the assembly instance -/

/-- a 256-bit value from the four little-endian words of a Go literal -/
def words (w0 w1 w2 w3 : Nat) : Nat := w0 + 2 ^ 64 * w1 + 2 ^ 128 * w2 + 2 ^ 192 * w3

/-- `rr`, sm2/sm2p256_amd64.go:219. -/
def rr : Nat := words 0x0000000200000003 0x00000002FFFFFFFF 0x0000000100000001 0x0000000400000002
/-- `basePoint`, sm2/sm2p256_amd64.go:604-608. -/
def bpX : Nat := words 0x61328990F418029E 0x3E7981EDDCA6C050 0xD6A1ED99AC24C3C3 0x91167A5EE1C13B05
def bpY : Nat := words 0xC1354E593C2D0DDD 0xC1F5E5788D3295FA 0x8D4CFB066E2A48F8 0x63CD65D481D735BD
def bpZ : Nat := words 0x0000000000000001 0x00000000FFFFFFFF 0x0000000000000000 0x0000000100000000

/-- the Montgomery radix `2^256` -/
def R : F := 2 ^ 256

theorem R_ne : R ≠ 0 := pow_ne_zero _ two_ne

/-- `zInv`, `zInvSq` and the two products, sm2/sm2p256_amd64.go:624-631 and 362-367. -/
def normalize (p : Pt F) : Aff F :=
  let zInv := inverse R p.z
  let zInvSq := mmul R zInv zInv
  let zInv := mmul R zInv zInvSq
  ⟨mmul R p.x zInvSq, mmul R p.y zInv⟩

/-- The amd64 routines with the formulas of the assembly and the constants of the Go source. -/
noncomputable def asm : Asm where
  J := Pt F
  A := Aff F
  add := Jac.add R
  dbl := Jac.dbl R
  neg := Jac.neg
  negA := Jac.negA
  negB := Jac.negA
  addA := Jac.addA R
  toJ := fun p => ⟨p.x, p.y, (bpZ : F)⟩
  zeroJ := ⟨0, 0, 0⟩
  zeroA := ⟨0, 0⟩
  ofCoord := fun x y => ⟨mmul R (x : F) (rr : F), mmul R (y : F) (rr : F), (bpZ : F)⟩
  normalize := normalize
  toCoord := fun p => ((fromMont R (normalize p).x).val, (fromMont R (normalize p).y).val)
  basePoint := ⟨(bpX : F), (bpY : F), (bpZ : F)⟩

theorem bpZ_eq : (bpZ : F) = R := by
  have : ((bpZ : Nat) : F) = ((2 ^ 256 : Nat) : F) := cast_eq_of_mod (by decide +kernel)
  rw [this]; unfold R; push_cast; ring
theorem rr_eq : (rr : F) = R * R := by
  have : ((rr : Nat) : F) = ((2 ^ 256 * 2 ^ 256 : Nat) : F) := cast_eq_of_mod (by decide +kernel)
  rw [this]; unfold R; push_cast; ring
theorem bpX_eq : (bpX : F) = Gx * R := by
  have : ((bpX : Nat) : F) = ((Gx * 2 ^ 256 : Nat) : F) := cast_eq_of_mod (by decide +kernel)
  rw [this]; unfold R; push_cast; ring
theorem bpY_eq : (bpY : F) = Gy * R := by
  have : ((bpY : Nat) : F) = ((Gy * 2 ^ 256 : Nat) : F) := cast_eq_of_mod (by decide +kernel)
  rw [this]; unfold R; push_cast; ring

theorem pow_inv (a : F) : a ^ (P - 2) = a⁻¹ := by
  by_cases h : a = 0
  · subst h
    rw [inv_zero, zero_pow (by decide)]
  · have h1 := ZMod.pow_card_sub_one_eq_one h
    have : a * a ^ (P - 2) = 1 := by
      rw [← pow_succ', show P - 2 + 1 = P - 1 by decide]; exact h1
    exact eq_inv_of_mul_eq_one_right this

theorem normalize_fm (p : Pt F) :
    fromMont R (normalize p).x = fromMont R p.x * (fromMont R p.z)⁻¹ ^ 2 ∧
    fromMont R (normalize p).y = fromMont R p.y * (fromMont R p.z)⁻¹ ^ 3 := by
  simp only [normalize, fm_mul, fm_inverse, pow_inv]
  constructor <;> ring

/-- affine coordinates of a point, `(0,0)` for infinity -/
noncomputable def encPt : sm2W.Point → Coord
  | .zero => (0, 0)
  | .some x y _ => (x.val, y.val)

theorem encPt_inj : Function.Injective encPt := by
  intro p q h
  have h0 : ∀ x y : F, sm2W.Nonsingular x y → (x.val, y.val) ≠ ((0, 0) : Coord) := by
    intro x y hn hc
    rw [Prod.mk.injEq, ZMod.val_eq_zero, ZMod.val_eq_zero] at hc
    have := curve_eq hn
    rw [hc.1, hc.2] at this
    have hB : ((B : Nat) : F) ≠ ((0 : Nat) : F) := cast_ne_of_mod (by decide +kernel)
    apply hB
    push_cast
    linear_combination -this
  cases p with
  | zero =>
    cases q with
    | zero => rfl
    | some x y hn => exact absurd h.symm (h0 x y hn)
  | some x y hn =>
    cases q with
    | zero => exact absurd h (h0 x y hn)
    | some x' y' hn' =>
      simp only [encPt, Prod.mk.injEq] at h
      have e1 := ZMod.val_injective P h.1
      have e2 := ZMod.val_injective P h.2
      subst e1 e2
      rfl

/-- the group generated by the base point -/
noncomputable abbrev Grp := AddSubgroup.zmultiples gPt

noncomputable def asmLawful : LawfulAsm asm Grp where
  g := ⟨gPt, AddSubgroup.mem_zmultiples gPt⟩
  enc := fun Q => encPt Q.1
  Rep := fun p Q => Rep R (B : F) p Q.1
  RepA := fun p Q => RepA R (B : F) p Q.1
  order := by
    rintro ⟨Q, hQ⟩
    obtain ⟨k, rfl⟩ := AddSubgroup.mem_zmultiples_iff.1 hQ
    apply Subtype.ext
    show N • (k • gPt) = 0
    rw [smul_comm, g_order, zsmul_zero]
  g_ne := by
    intro h
    have := congrArg Subtype.val h
    exact Point.some_ne_zero g_on_curve this
  enc_zero := rfl
  enc_inj := fun p q h => Subtype.ext (encPt_inj h)
  enc_lt := by
    rintro ⟨Q, _⟩
    cases Q with
    | zero => exact ⟨show 0 < P by decide, show 0 < P by decide⟩
    | some x y h => exact ⟨ZMod.val_lt x, ZMod.val_lt y⟩
  add_ne := fun p p' Q Q' h h' h0 h0' hne =>
    rep_add_ne R_ne p p' Q.1 Q'.1 h h' (fun h => h0 (Subtype.ext h)) (fun h => h0' (Subtype.ext h))
      (fun h => hne (Subtype.ext h))
  add_eq := fun p p' Q h h' h0 => rep_add_eq R_ne p p' Q.1 h h' (fun h => h0 (Subtype.ext h))
  dbl := fun p Q h => rep_dbl R_ne two_ne p Q.1 h
  neg := fun p Q h => rep_neg R_ne p Q.1 h
  negA := fun p Q h => repA_neg R_ne p Q.1 h
  negB := fun p Q h => repA_neg R_ne p Q.1 h
  addA_ne := fun p p' Q Q' h h' h0 hne =>
    rep_addA_ne R_ne p p' Q.1 Q'.1 h h' (fun h => h0 (Subtype.ext h)) (fun h => hne (Subtype.ext h))
  toJ := fun p Q h => by
    have := rep_toJ R_ne p Q.1 h
    show Rep R (B : F) ⟨p.x, p.y, (bpZ : F)⟩ Q.1
    rw [bpZ_eq]
    exact this
  zeroJ := rfl
  normalize := by
    rintro p ⟨Q, hQ⟩ h h0
    cases Q with
    | zero => exact absurd rfl h0
    | some X Y hn =>
      obtain ⟨hz, hx, hy⟩ := h
      rw [Ne, ← fm_zero R_ne] at hz
      have := normalize_fm p
      rw [hx, hy] at this
      refine ⟨this.1.trans ?_, this.2.trans ?_⟩ <;> field_simp
  ofCoord := by
    rintro ⟨Q, hQ⟩ h0
    cases Q with
    | zero => exact absurd rfl h0
    | some X Y hn =>
      have hR := R_ne
      refine ⟨?_, ?_, ?_⟩
      · show (bpZ : F) ≠ 0
        rw [bpZ_eq]; exact hR
      · show fromMont R (mmul R ((X.val : Nat) : F) (rr : F)) = X * fromMont R (bpZ : F) ^ 2
        rw [bpZ_eq, fm_R hR, fm_mul, rr_eq, ZMod.natCast_val, ZMod.cast_id]
        unfold fromMont; field_simp
      · show fromMont R (mmul R ((Y.val : Nat) : F) (rr : F)) = Y * fromMont R (bpZ : F) ^ 3
        rw [bpZ_eq, fm_R hR, fm_mul, rr_eq, ZMod.natCast_val, ZMod.cast_id]
        unfold fromMont; field_simp
  coord := by
    rintro p ⟨Q, hQ⟩ h
    have hn := normalize_fm p
    show ((fromMont R (normalize p).x).val, (fromMont R (normalize p).y).val) = encPt Q
    cases Q with
    | zero =>
      have hz : fromMont R p.z = 0 := (fm_zero R_ne _).2 h
      rw [hn.1, hn.2, hz]
      simp [encPt]
    | some X Y hns =>
      obtain ⟨hz, hx, hy⟩ := h
      rw [Ne, ← fm_zero R_ne] at hz
      rw [hx, hy] at hn
      rw [hn.1, hn.2, encPt]
      congr 2 <;> field_simp
  coord_zeroA := by
    have hn := normalize_fm ⟨0, 0, (bpZ : F)⟩
    show ((fromMont R (normalize ⟨0, 0, (bpZ : F)⟩).x).val, (fromMont R (normalize ⟨0, 0, (bpZ : F)⟩).y).val) = (0, 0)
    rw [hn.1, hn.2]
    simp [fromMont]
  base := by
    have hR := R_ne
    refine ⟨?_, ?_, ?_⟩
    · show (bpZ : F) ≠ 0
      rw [bpZ_eq]; exact hR
    · show fromMont R (bpX : F) = (Gx : F) * fromMont R (bpZ : F) ^ 2
      rw [bpZ_eq, bpX_eq, fm_R hR]; unfold fromMont; field_simp
    · show fromMont R (bpY : F) = (Gy : F) * fromMont R (bpZ : F) ^ 3
      rw [bpZ_eq, bpY_eq, fm_R hR]; unfold fromMont; field_simp

end Verif.Sm2.Amd64
