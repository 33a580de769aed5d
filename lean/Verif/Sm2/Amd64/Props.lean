import Verif.Sm2.Amd64.ScalarMult
import Verif.Sm2.Amd64.Concrete
import Verif.Sm2.Spec
import Verif.Sm2.Arm64.Laws
/-!
C57, C58, C60: curve arithmetic of the amd64 build, and the resulting `Lawful` instance for the
real SM2 curve (so that the theorems of `SignProps`/`EncProps` are not vacuous).
-/
namespace Verif.Sm2.Amd64
open Verif Verif.Sm2

namespace LawfulAsm
variable {a : Asm} {G : Type} [AddCommGroup G] (L : LawfulAsm a G)
include L

theorem mod_smul (Q : G) (k : Nat) : (k % N) • Q = k • Q := by
  conv_rhs => rw [← Nat.mod_add_div k N]
  rw [add_nsmul, mul_nsmul, L.order, nsmul_zero, add_zero]

theorem smul_ne_zero {Q : G} (hQ : Q ≠ 0) {k : Nat} (h0 : k ≠ 0) (hk : k < N) : k • Q ≠ 0 := by
  rw [← natCast_zsmul, Ne, L.zsmul_eq_zero hQ]
  apply L.not_dvd_small <;> omega

omit L in
theorem mod_lt_N (k : Nat) : k % N < N := Nat.mod_lt _ N_prime.pos

/-- table multiplication with the conversion to coordinates -/
theorem preMult_coord (tbl : Table a) (Q : G) (hQ : Q ≠ 0) (k : Nat)
    (ht : ∀ i < 37, ∀ j < 64, L.RepA (tbl i j) (((128 ^ i * (j + 1) : Nat) : Int) • Q)) :
    a.toCoord (preMult a tbl (fromBig (k % N))) = L.enc (k • Q) := by
  rcases L.preMult_spec tbl Q hQ (k % N) (mod_lt_N k) ht with ⟨h0, h1⟩ | ⟨_, h1⟩
  · rw [h1, L.coord_zeroA, ← L.mod_smul, h0, zero_nsmul, L.enc_zero]
  · rw [L.coord _ _ h1, L.mod_smul]

theorem baseTable_rep (i j : Nat) (hj : j < 64) :
    L.RepA (baseTable a i j) (((128 ^ i * (j + 1) : Nat) : Int) • L.g) :=
  L.buildTable_rep _ _ L.g_ne L.base i j hj

theorem keyTable_rep (Q : G) (hQ : Q ≠ 0) (i j : Nat) (hj : j < 64) :
    L.RepA (initPubKeyTable a (L.enc Q).1 (L.enc Q).2 i j) (((128 ^ i * (j + 1) : Nat) : Int) • Q) :=
  L.buildTable_rep _ _ hQ (L.ofCoord Q hQ) i j hj

theorem scalarBaseMult_eq (k : Bytes) : scalarBaseMult a k = L.enc (beNat k • L.g) := by
  rw [scalarBaseMult, getScalar_eq, L.preMult_coord _ _ L.g_ne _ (fun i _ j hj => L.baseTable_rep i j hj)]

theorem preScalarMult_eq (Q : G) (hQ : Q ≠ 0) (k : Bytes) :
    preScalarMult a (initPubKeyTable a (L.enc Q).1 (L.enc Q).2) k = L.enc (beNat k • Q) := by
  rw [preScalarMult, getScalar_eq, L.preMult_coord _ _ hQ _ (fun i _ j hj => L.keyTable_rep Q hQ i j hj)]

theorem scalarMult_eq (Q : G) (hQ : Q ≠ 0) (k : Bytes) (hk : beNat k % N ≠ N - 6) :
    scalarMult a (L.enc Q).1 (L.enc Q).2 k = L.enc (beNat k • Q) := by
  rw [scalarMult, getScalar_eq, L.coord _ _ (L.scalarMultJ_spec _ Q hQ (L.ofCoord Q hQ) _ (mod_lt_N _) hk),
    L.mod_smul]

theorem scalarMult_bad (Q : G) (hQ : Q ≠ 0) (k : Bytes) (hk : beNat k % N = N - 6) :
    scalarMult a (L.enc Q).1 (L.enc Q).2 k = (0, 0) := by
  rw [scalarMult, getScalar_eq, hk, L.coord _ _ (L.scalarMultJ_bad _ Q hQ (L.ofCoord Q hQ)), L.enc_zero]

theorem combinedMult_eq (Q : G) (hQ : Q ≠ 0) (s t : Bytes) :
    combinedMult a (initPubKeyTable a (L.enc Q).1 (L.enc Q).2) s t = L.enc (beNat s • L.g + beNat t • Q) := by
  have h256 : ∀ k, k % N < 2 ^ 256 := fun k => lt_trans (mod_lt_N k) (by decide)
  have p1 := L.preMult_spec (baseTable a) L.g L.g_ne (beNat s % N) (mod_lt_N _) (fun i _ j hj => L.baseTable_rep i j hj)
  have p2 := L.preMult_spec (initPubKeyTable a (L.enc Q).1 (L.enc Q).2) Q hQ (beNat t % N) (mod_lt_N _)
    (fun i _ j hj => L.keyTable_rep Q hQ i j hj)
  unfold combinedMult combinedJ
  simp only [getScalar_eq, scalarIsZero_spec _ (h256 _), copyConditional]
  rw [← L.mod_smul L.g, ← L.mod_smul Q]
  have hm2 := mod_lt_N (beNat s)
  have hn2 := mod_lt_N (beNat t)
  generalize beNat s % N = m at *
  generalize beNat t % N = n at *
  generalize preMult a (baseTable a) (fromBig m) = r1 at *
  generalize preMult a (initPubKeyTable a (L.enc Q).1 (L.enc Q).2) (fromBig n) = r2 at *
  rcases p1 with ⟨hm, h1⟩ | ⟨hm, h1⟩
  · -- r1 is infinity
    subst hm
    simp only [if_true, zero_nsmul, zero_add]
    rcases p2 with ⟨hn, h2⟩ | ⟨hn, h2⟩
    · subst hn; rw [h2, L.coord_zeroA, zero_nsmul, L.enc_zero]
    · exact L.coord _ _ h2
  · rcases p2 with ⟨hn, h2⟩ | ⟨hn, h2⟩
    · subst hn
      simp only [if_true, hm, if_false, zero_nsmul, add_zero]
      exact L.coord _ _ h1
    · simp only [hm, hn, if_false]
      have sub1 : ∀ x y : a.J, (if (0 : Nat) = 1 then x else y) = y := fun x y => if_neg (by decide)
      simp only [sub1]
      have z1 := L.smul_ne_zero L.g_ne hm hm2
      have z2 := L.smul_ne_zero hQ hn hn2
      by_cases he : m • L.g = n • Q
      · rw [← he] at h2 ⊢
        rw [(L.add_eq _ _ _ h1 h2 z1).2]
        simp only [if_true]
        exact L.coord _ _ (L.dbl _ _ h1)
      · have := L.add_ne _ _ _ _ h1 h2 z1 z2 he
        rw [this.2]
        simp only [Bool.false_eq_true, if_false, sub1]
        exact L.coord _ _ this.1

/-- the whole curve object -/
def lawful (stdAdd : Coord → Coord → Coord) (hadd : ∀ Q R : G, stdAdd (L.enc Q) (L.enc R) = L.enc (Q + R)) :
    Lawful (curve a stdAdd) G where
  g := L.g
  enc := L.enc
  bad := {N - 6}
  enc_zero := L.enc_zero
  enc_inj := L.enc_inj
  enc_lt := L.enc_lt
  order := L.order
  g_ne := L.g_ne
  base := L.scalarBaseMult_eq
  mult := fun Q k hQ hk => L.scalarMult_eq Q hQ k (by simpa using hk)
  add := hadd
  combined := by
    intro o ho Q hQ s t
    have : o = { combinedMult := combinedMult a, initPubKeyTable := initPubKeyTable a,
                 preScalarMult := preScalarMult a } := (Option.some.inj ho).symm
    subst this
    exact L.combinedMult_eq Q hQ s t
  pre := by
    intro o ho Q hQ k
    have : o = { combinedMult := combinedMult a, initPubKeyTable := initPubKeyTable a,
                 preScalarMult := preScalarMult a } := (Option.some.inj ho).symm
    subst this
    exact L.preScalarMult_eq Q hQ k

end LawfulAsm

/-! ### the real curve -/

/-- The SM2 curve object of the amd64 build, over exact field arithmetic; `Add` is the generic one of the standard library, which the object embeds
(sm2/sm2p256_amd64.go:24-27). -/
noncomputable def sm2Curve : Curve := curve asm Arm64.add

noncomputable def sm2Lawful : Lawful sm2Curve Grp := asmLawful.lawful Arm64.add (fun Q R => Arm64.add_enc Q.1 R.1)

/-- C60: the domain parameters are those of a prime-order group: `P` and `N` are prime, `A = -3`, the
curve is non-singular at every point, the base point is on the curve and its order is exactly `N`. -/
theorem C60_domain_parameters :
    P.Prime ∧ N.Prime ∧ ((A : F) = -3) ∧ (4 * (A : F) ^ 3 + 27 * (B : F) ^ 2 ≠ 0) ∧
    ((Gy : F) ^ 2 = (Gx : F) ^ 3 + (A : F) * Gx + B) ∧ addOrderOf gPt = N := by
  refine ⟨P_prime, N_prime, A_eq, ?_, ?_, ?_⟩
  · have h : ((4 * A ^ 3 + 27 * B ^ 2 : Nat) : F) ≠ ((0 : Nat) : F) := cast_ne_of_mod (by decide +kernel)
    push_cast at h
    exact h
  · have h : ((Gy ^ 2 : Nat) : F) = ((Gx ^ 3 + A * Gx + B : Nat) : F) := cast_eq_of_mod (by decide +kernel)
    push_cast at h
    exact h
  · have h1 := addOrderOf_dvd_of_nsmul_eq_zero g_order
    rcases (Nat.dvd_prime N_prime).1 h1 with h | h
    · rw [AddMonoid.addOrderOf_eq_one_iff] at h
      exact absurd h (WeierstrassCurve.Affine.Point.some_ne_zero g_on_curve)
    · exact h

/-- C58: the addition chain of the inversion computes the inverse (in Montgomery form) of every field element, over exact field arithmetic; for the
arithmetic of the assembly see `C58_real_partial`. -/
theorem C58_ideal_partial (x : F) : Jac.fromMont R (Jac.inverse R x) = (Jac.fromMont R x)⁻¹ := by
  rw [Jac.fm_inverse, pow_inv]

/-- C57: fixed-base, per-key-table and combined multiplication return the right multiple, for every
byte string and every point other than infinity of the group generated by the base point, over exact field arithmetic; for the arithmetic of
the assembly see C115. -/
theorem C57_table_partial (Q : Grp) (hQ : Q ≠ 0) (s t : Bytes) :
    scalarBaseMult asm s = encPt (beNat s • gPt) ∧
    preScalarMult asm (initPubKeyTable asm (encPt Q.1).1 (encPt Q.1).2) t = encPt (beNat t • Q.1) ∧
    combinedMult asm (initPubKeyTable asm (encPt Q.1).1 (encPt Q.1).2) s t =
      encPt (beNat s • gPt + beNat t • Q.1) :=
  ⟨asmLawful.scalarBaseMult_eq s, asmLawful.preScalarMult_eq Q hQ t, asmLawful.combinedMult_eq Q hQ s t⟩

/-- C57 for `ScalarMult`: right exactly when the scalar is not congruent to `N - 6`. -/
theorem C57_scalarMult_partial (Q : Grp) (hQ : Q ≠ 0) (k : Bytes) :
    scalarMult asm (encPt Q.1).1 (encPt Q.1).2 k = encPt (beNat k • Q.1) ↔ beNat k % N ≠ N - 6 := by
  constructor
  · intro h hc
    have h2 : beNat k • Q = 0 := asmLawful.enc_inj (h.symm.trans (asmLawful.scalarMult_bad Q hQ k hc))
    rw [← asmLawful.mod_smul, hc] at h2
    exact asmLawful.smul_ne_zero hQ (by decide) (by decide) h2
  · exact asmLawful.scalarMult_eq Q hQ k

/-- C57 is false of `ScalarMult`: at `n - 6` it returns the point at infinity for *every* point. -/
theorem C57_scalarMult_violated (Q : Grp) (hQ : Q ≠ 0) (k : Bytes) (hk : beNat k % N = N - 6) :
    scalarMult asm (encPt Q.1).1 (encPt Q.1).2 k = (0, 0) ∧ encPt (beNat k • Q.1) ≠ (0, 0) := by
  refine ⟨asmLawful.scalarMult_bad Q hQ k hk, fun h => ?_⟩
  have h2 : beNat k • Q = 0 := asmLawful.enc_inj h
  rw [← asmLawful.mod_smul, hk] at h2
  exact asmLawful.smul_ne_zero hQ (by decide) (by decide) h2

/-- a point and a scalar meeting the hypotheses of the three theorems above -/
example : asmLawful.g ≠ 0 ∧ beNat (natBytes (N - 6)) % N = N - 6 :=
  ⟨asmLawful.g_ne, by rw [beNat_natBytes]; decide⟩

end Verif.Sm2.Amd64
