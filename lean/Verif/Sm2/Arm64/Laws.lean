import Verif.Sm2.Arm64.Model
/-!
The generic curve arithmetic computes in the group of the curve through its arguments, `y² = x³ - 3x + b` for whatever `b` that is.
-/
namespace Verif.Sm2.Arm64
open Verif Verif.Sm2 Verif.Sm2.Amd64 Verif.Sm2.Amd64.Jac

/-- the residues of three integers -/
def Tri.cast (p : Tri) : Pt F := ⟨(p.x : F), (p.y : F), (p.z : F)⟩

/-- what every Jacobian triple in the computation satisfies about `z` -/
def Reduced (p : Tri) : Prop := 0 ≤ p.z ∧ p.z < P

theorem P_pos : (0 : Int) < P := by decide
theorem emod_red (a : Int) : 0 ≤ a % P ∧ a % P < P := ⟨Int.emod_nonneg _ (ne_of_gt P_pos), Int.emod_lt_of_pos _ P_pos⟩

theorem cast_emod (a : Int) : ((a % (P : Int) : Int) : F) = (a : F) := ZMod.intCast_mod a P

theorem cast_fix (a : Int) : ((fix a : Int) : F) = (a : F) := by
  unfold fix
  split
  · rw [Int.cast_add, Int.cast_natCast, ZMod.natCast_self, add_zero]
  · rfl

theorem cast_zero {a : Int} (h : 0 ≤ a) (h' : a < P) : (a : F) = 0 ↔ a = 0 := by
  constructor
  · intro hc
    have := (ZMod.intCast_zmod_eq_zero_iff_dvd a P).1 hc
    exact Int.eq_zero_of_dvd_of_nonneg_of_lt h h' this
  · rintro rfl; exact Int.cast_zero

theorem cast_red_zero (a : Int) : ((a % P : Int) : F) = 0 ↔ a % P = 0 := cast_zero (emod_red a).1 (emod_red a).2

/-- the difference of two residues is zero exactly when its residue is -/
theorem cast_sub_zero (a b : Int) : a % P - b % P = 0 ↔ (a : F) - (b : F) = 0 := by
  rw [sub_eq_zero, sub_eq_zero, ZMod.intCast_eq_intCast_iff]; rfl

theorem fix_zero (a b : Int) : fix (a % P - b % P) = 0 ↔ (a : F) - (b : F) = 0 := by
  rw [← cast_sub_zero]
  have h1 := emod_red a
  have h2 := emod_red b
  unfold fix
  split <;> omega

theorem cast_dbl (p : Tri) : (dblJ p).cast = dbl 1 p.cast := by
  simp only [dblJ, Tri.cast, dbl, mmul, Pt.mk.injEq, cast_emod, cast_fix, Int.cast_sub, Int.cast_mul, Int.cast_add, Int.cast_ofNat, inv_one, mul_one]
  have h2 := two_ne
  refine ⟨by ring, ?_, by ring⟩
  field_simp
  ring

theorem dbl_reduced (p : Tri) : Reduced (dblJ p) := emod_red _

/-- a triple scaled -/
theorem rep_scale {b : F} {l : F} (hl : l ≠ 0) {p : Pt F} {Q : (W b).Point} (h : Rep 1 b p Q) : Rep 1 b ⟨l ^ 2 * p.x, l ^ 3 * p.y, l * p.z⟩ Q := by
  cases Q with
  | zero => have h' : p.z = 0 := h; show l * p.z = 0; rw [h', mul_zero]
  | some X Y hn =>
    obtain ⟨h1, h2, h3⟩ := h
    simp only [fromMont, inv_one, mul_one] at h2 h3
    refine ⟨mul_ne_zero hl h1, ?_, ?_⟩
    · simp only [fromMont, inv_one, mul_one, h2]; ring
    · simp only [fromMont, inv_one, mul_one, h3]; ring

/-- the flag of the formula is the pair of tests of the generic addition -/
theorem flag_eq (p q : Tri) : (Jac.add 1 p.cast q.cast).2 =
    (decide (q.x * (p.z * p.z % P) % P - p.x * (q.z * q.z % P) % P = 0) && decide (fix (q.y * p.z * (p.z * p.z % P) % P - p.y * q.z * (q.z * q.z % P) % P) = 0)) := by
  rw [Bool.eq_iff_iff]
  simp only [Jac.add, Bool.and_eq_true, decide_eq_true_eq, cast_sub_zero, fix_zero, Int.cast_mul, cast_emod, Tri.cast, mmul, inv_one, mul_one]
  constructor
  · rintro ⟨h1, h2⟩
    exact ⟨by linear_combination h1, by linear_combination h2⟩
  · rintro ⟨h1, h2⟩
    exact ⟨by linear_combination h1, by linear_combination h2⟩

theorem add_true (p q : Tri) (hp : p.z ≠ 0) (hq : q.z ≠ 0) (h : (Jac.add 1 p.cast q.cast).2 = true) : addJ p q = dblJ p := by
  rw [flag_eq] at h
  unfold addJ
  rw [if_neg hp, if_neg hq]
  extract_lets z1z1 z2z2 u1 u2 h0 xE
  rw [if_pos h]

theorem add_false (p q : Tri) (hp : p.z ≠ 0) (hq : q.z ≠ 0) (h : (Jac.add 1 p.cast q.cast).2 = false) :
    (addJ p q).cast = ⟨2 ^ 2 * (Jac.add 1 p.cast q.cast).1.x, 2 ^ 3 * (Jac.add 1 p.cast q.cast).1.y, 2 * (Jac.add 1 p.cast q.cast).1.z⟩ ∧ Reduced (addJ p q) := by
  rw [flag_eq] at h
  unfold addJ
  rw [if_neg hp, if_neg hq]
  extract_lets z1z1 z2z2 u1 u2 h0 xE
  rw [if_neg (by rw [show _ = false from h]; exact Bool.false_ne_true)]
  refine ⟨?_, emod_red _⟩
  simp +zetaDelta only [Tri.cast, Jac.add, mmul, Pt.mk.injEq, cast_emod, cast_fix, Int.cast_sub, Int.cast_mul, Int.cast_add, Int.cast_ofNat, inv_one, mul_one]
  refine ⟨by ring, by ring, by ring⟩

/-- `p` is in Jacobian coordinates the point `Q` -/
def IRep (b : F) (p : Tri) (Q : (W b).Point) : Prop := Reduced p ∧ Rep 1 b p.cast Q

theorem irep_zero {b : F} {p : Tri} {Q : (W b).Point} (h : IRep b p Q) : p.z = 0 ↔ Q = 0 := by
  obtain ⟨hr, h⟩ := h
  rw [← cast_zero hr.1 hr.2]
  cases Q with
  | zero => exact ⟨fun _ => rfl, fun _ => h⟩
  | some X Y hn => exact ⟨fun hz => absurd hz h.1, fun hz => absurd hz (WeierstrassCurve.Affine.Point.some_ne_zero hn)⟩

theorem irep_dbl {b : F} {p : Tri} {Q : (W b).Point} (h : IRep b p Q) : IRep b (dblJ p) (Q + Q) :=
  ⟨dbl_reduced p, by rw [cast_dbl]; exact rep_dbl one_ne_zero two_ne _ _ h.2⟩

/-- the generic addition is complete: it is right for all points, equal, opposite, or infinity -/
theorem irep_add {b : F} {p q : Tri} {Q Q' : (W b).Point} (h : IRep b p Q) (h' : IRep b q Q') : IRep b (addJ p q) (Q + Q') := by
  by_cases hp : p.z = 0
  · rw [(irep_zero h).1 hp, zero_add]
    unfold addJ
    rw [if_pos hp]
    exact h'
  · by_cases hq : q.z = 0
    · rw [(irep_zero h').1 hq, add_zero]
      unfold addJ
      rw [if_neg hp, if_pos hq]
      exact h
    · have h0 : Q ≠ 0 := fun e => hp ((irep_zero h).2 e)
      have h0' : Q' ≠ 0 := fun e => hq ((irep_zero h').2 e)
      by_cases he : Q = Q'
      · subst he
        rw [add_true p q hp hq (rep_add_eq one_ne_zero _ _ _ h.2 h'.2 h0).2]
        exact irep_dbl h
      · obtain ⟨r1, r2⟩ := rep_add_ne one_ne_zero _ _ _ _ h.2 h'.2 h0 h0' he
        obtain ⟨c1, c2⟩ := add_false p q hp hq r2
        refine ⟨c2, ?_⟩
        rw [c1]
        exact rep_scale two_ne r1

/-- affine coordinates of a point of any curve `y² = x³ - 3x + b`, `(0, 0)` for infinity -/
def enc {b : F} : (W b).Point → Coord
  | .zero => (0, 0)
  | .some x y _ => (x.val, y.val)

theorem toNat_emod (a : Int) : (a % (P : Int)).toNat = ((a : F)).val := by
  apply Nat.cast_injective (R := Int)
  rw [Int.toNat_of_nonneg (emod_red a).1, ZMod.val_intCast]

theorem irep_affine {b : F} {p : Tri} {Q : (W b).Point} (h : IRep b p Q) : affine p = enc Q := by
  by_cases hp : p.z = 0
  · rw [(irep_zero h).1 hp]
    unfold affine
    rw [if_pos hp]
    rfl
  · unfold affine
    rw [if_neg hp]
    have hz := (cast_zero h.1.1 h.1.2).not.2 hp
    cases Q with
    | zero => exact absurd ((irep_zero h).2 rfl) hp
    | some X Y hn =>
      obtain ⟨_, h2, h3⟩ := h.2
      simp only [Tri.cast, fromMont, inv_one, mul_one] at h2 h3
      simp only [enc, toNat_emod, Int.cast_mul, Int.cast_natCast, ZMod.natCast_zmod_val, h2, h3]
      congr 2 <;> field_simp

theorem top_bit (c : Byte) : (if c &&& 0x80 = 0x80 then 1 else 0) = c.toNat / 128 := by
  have h : (List.range 256).all (fun n => (if BitVec.ofNat 8 n &&& 0x80 = 0x80 then 1 else 0) == n / 128) = true := by decide +kernel
  rw [List.all_eq_true] at h
  have := h c.toNat (List.mem_range.2 c.isLt)
  rw [BitVec.ofNat_toNat, BitVec.setWidth_eq] at this
  exact eq_of_beq this

theorem shl_nat (c : Byte) : (c <<< 1).toNat = c.toNat * 2 % 256 := by
  simp [BitVec.toNat_shiftLeft, Nat.shiftLeft_eq]

theorem top_bits (v n : Nat) : v * 2 ^ (n + 1) / 256 = v / 128 * 2 ^ n + v * 2 % 256 * 2 ^ n / 256 := by
  have h : v * 2 = 256 * (v / 128) + v * 2 % 256 := by omega
  rw [pow_succ, show v * (2 ^ n * 2) = v * 2 * 2 ^ n by ring]
  conv_lhs => rw [h]
  rw [add_mul, mul_assoc, Nat.mul_add_div (by decide)]

/-- the loop over the bits of a byte -/
theorem bits_rep {b : F} {B : Tri} {Q : (W b).Point} (hB : IRep b B Q) : ∀ (n : Nat) (c : Byte) (t : Tri) (m : Nat), IRep b t (m • Q) →
    IRep b (bits B n c t) ((m * 2 ^ n + c.toNat * 2 ^ n / 256) • Q) := by
  intro n
  induction n with
  | zero =>
    intro c t m h
    have h1 := c.isLt
    have : m * 2 ^ 0 + c.toNat * 2 ^ 0 / 256 = m := by omega
    rw [this]
    exact h
  | succ n ih =>
    intro c t m h
    have hd := irep_dbl h
    rw [← add_nsmul] at hd
    rw [bits]
    have hs : IRep b (if c &&& 0x80 = 0x80 then addJ B (dblJ t) else dblJ t) ((m + m + c.toNat / 128) • Q) := by
      rw [← top_bit c]
      by_cases hc : c &&& 0x80 = 0x80
      · rw [if_pos hc, if_pos hc, add_nsmul, one_nsmul, add_comm]
        exact irep_add hB hd
      · rw [if_neg hc, if_neg hc]
        exact hd
    have := ih (c <<< 1) _ _ hs
    rw [shl_nat] at this
    rw [top_bits, pow_succ]
    have e : m * (2 ^ n * 2) + (c.toNat / 128 * 2 ^ n + c.toNat * 2 % 256 * 2 ^ n / 256) = (m + m + c.toNat / 128) * 2 ^ n + c.toNat * 2 % 256 * 2 ^ n / 256 := by ring
    rw [e]
    exact this

theorem bytes_rep {b : F} {B : Tri} {Q : (W b).Point} (hB : IRep b B Q) : ∀ (k : Bytes) (t : Tri) (m : Nat), IRep b t (m • Q) →
    IRep b (bytes B k t) ((m * 256 ^ k.length + beNat k) • Q) := by
  intro k
  induction k with
  | nil => intro t m h; simpa [bytes] using h
  | cons c k ih =>
    intro t m h
    have h1 := bits_rep hB 8 c t m h
    have h2 := ih _ _ h1
    rw [bytes]
    have e : m * 256 ^ (c :: k).length + beNat (c :: k) = (m * 2 ^ 8 + c.toNat * 2 ^ 8 / 256) * 256 ^ k.length + beNat k := by
      have : beNat (c :: k) = c.toNat * 256 ^ k.length + beNat k := by
        have := beNat_append [c] k
        simpa [beNat] using this
      rw [this, List.length_cons, pow_succ, show c.toNat * 2 ^ 8 / 256 = c.toNat by omega]
      ring
    rw [e]
    exact h2

theorem irep_start {b : F} {Q : (W b).Point} : IRep b ⟨0, 0, 0⟩ (0 • Q) := by
  refine ⟨⟨le_refl _, P_pos⟩, ?_⟩
  rw [zero_nsmul]
  exact Int.cast_zero

/-- the coordinates of a point, with `z` one -/
theorem irep_point {b : F} {x y : F} (hn : (W b).Nonsingular x y) : IRep b ⟨(x.val : Nat), (y.val : Nat), 1⟩ (.some x y hn) := by
  refine ⟨⟨show (0 : Int) ≤ 1 by decide, show (1 : Int) < P by decide⟩, ?_, ?_, ?_⟩
  · simp [Tri.cast]
  · simp [Tri.cast, fromMont]
  · simp [Tri.cast, fromMont]

/-- `ScalarMult` on any point of any curve `y² = x³ - 3x + b` -/
theorem scalarMult_point {b : F} {x y : F} (hn : (W b).Nonsingular x y) (k : Bytes) : scalarMult x.val y.val k = enc (beNat k • (.some x y hn : (W b).Point)) := by
  have h := bytes_rep (irep_point hn) k ⟨0, 0, 0⟩ 0 irep_start
  rw [zero_mul, zero_add] at h
  exact irep_affine h

theorem affine_lt (p : Tri) : (affine p).1 < P ∧ (affine p).2 < P := by
  unfold affine
  split
  · exact ⟨by decide, by decide⟩
  · dsimp only
    rw [toNat_emod, toNat_emod]
    exact ⟨ZMod.val_lt _, ZMod.val_lt _⟩

theorem enc_eq (Q : sm2W.Point) : enc Q = encPt Q := by cases Q <;> rfl

/-- the triple that `Add` and `Double` make of the coordinates of a point -/
theorem irep_enc (Q : sm2W.Point) : IRep (Verif.Sm2.B : F) ⟨((encPt Q).1 : Nat), ((encPt Q).2 : Nat), zForAffine (encPt Q).1 (encPt Q).2⟩ Q := by
  by_cases h0 : Q = 0
  · subst h0
    exact ⟨⟨le_refl _, P_pos⟩, Int.cast_zero⟩
  · have hz : zForAffine ((encPt Q).1 : Nat) ((encPt Q).2 : Nat) = 1 := by
      unfold zForAffine
      rw [if_pos]
      by_contra hc
      rw [not_or, not_not, not_not] at hc
      exact h0 (encPt_inj (Prod.ext (by exact_mod_cast hc.1) (by exact_mod_cast hc.2)))
    rw [hz]
    cases Q with
    | zero => exact absurd rfl h0
    | some x y hn => exact irep_point hn

theorem add_enc (Q Q' : sm2W.Point) : add (encPt Q) (encPt Q') = encPt (Q + Q') := by
  rw [← enc_eq (Q + Q')]
  exact irep_affine (irep_add (irep_enc Q) (irep_enc Q'))

theorem double_enc (Q : sm2W.Point) : double (encPt Q) = encPt (Q + Q) := by
  rw [← enc_eq (Q + Q)]
  exact irep_affine (irep_dbl (irep_enc Q))

theorem scalarMult_enc (Q : sm2W.Point) (hQ : Q ≠ 0) (k : Bytes) : scalarMult (encPt Q).1 (encPt Q).2 k = encPt (beNat k • Q) := by
  cases Q with
  | zero => exact absurd rfl hQ
  | some x y hn => exact (scalarMult_point hn k).trans (enc_eq _)

end Verif.Sm2.Arm64
