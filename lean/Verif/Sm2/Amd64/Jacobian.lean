import Verif.Sm2.Amd64.Laws
import Mathlib.AlgebraicGeometry.EllipticCurve.Affine.Point
import Mathlib.Tactic.FieldSimp
import Mathlib.Tactic.LinearCombination
/-!
The point formulas of `sm2/sm2p256_amd64.s`, operation by operation, over a field `K` in Montgomery
form with radix `R` (a residue `a` is stored as `a·R`).  The word-level field multiplication,
addition and subtraction of the assembly are *not* modelled: `mmul`, `+`, `-` below are what they
are documented to compute.
-/
namespace Verif.Sm2.Amd64.Jac
open WeierstrassCurve.Affine

variable {K : Type} [Field K] [DecidableEq K]

/-- A `p256Point` (sm2/sm2p256_amd64.go:25-27): Montgomery-form Jacobian coordinates. -/
structure Pt (K : Type) where
  x : K
  y : K
  z : K

/-- An affine table entry (eight words). -/
structure Aff (K : Type) where
  x : K
  y : K

/-- `p256GmMulInternal`/`sm2p256Mul`: Montgomery product. -/
def mmul (R x y : K) : K := x * y * R⁻¹

/-- `sm2p256FromMont`. -/
def fromMont (R x : K) : K := x * R⁻¹

/-- sm2p256PointAddAsm, sm2/sm2p256_amd64.s:2229-2400; the flag is `points_eq`. -/
def add (R : K) (p q : Pt K) : Pt K × Bool :=
  let z2sqr := mmul R q.z q.z
  let s1 := mmul R (mmul R z2sqr q.z) p.y
  let z1sqr := mmul R p.z p.z
  let s2 := mmul R (mmul R z1sqr p.z) q.y
  let r := s2 - s1
  let rz := decide (r = 0)
  let u1 := mmul R z2sqr p.x
  let u2 := mmul R z1sqr q.x
  let h := u2 - u1
  let eq := decide (h = 0) && rz
  let rsqr := mmul R r r
  let hsqr := mmul R h h
  let hcub := mmul R hsqr h
  let s2 := mmul R hcub s1
  let zout := mmul R (mmul R p.z q.z) h
  let u2 := mmul R hsqr u1
  let xout := rsqr - (u2 + u2) - hcub
  let yout := mmul R (u2 - xout) r - s2
  (⟨xout, yout, zout⟩, eq)

/-- sm2p256PointDoubleAsm, sm2/sm2p256_amd64.s:2418-2530; "divide by 2" is division in the field. -/
def dbl (R : K) (p : Pt K) : Pt K :=
  let zsqr := mmul R p.z p.z
  let m := zsqr + p.x
  let yz := mmul R p.z p.y
  let zout := yz + yz
  let m := mmul R (p.x - zsqr) m
  let m := m + (m + m)
  let y2 := p.y + p.y
  let s := mmul R y2 y2
  let y := mmul R s s / 2
  let s := mmul R p.x s
  let tmp := s + s
  let xout := mmul R m m - tmp
  let yout := mmul R (s - xout) m - y
  ⟨xout, yout, zout⟩

/-- The unconditional part of sm2p256PointAddAffineAsm, sm2/sm2p256_amd64.s:1998-2060. -/
def addA (R : K) (p : Pt K) (q : Aff K) : Pt K :=
  let z1sqr := mmul R p.z p.z
  let h := mmul R z1sqr q.x - p.x
  let zout := mmul R h p.z
  let s2 := mmul R (mmul R z1sqr p.z) q.y
  let r := s2 - p.y
  let rsqr := mmul R r r
  let hsqr := mmul R h h
  let hcub := mmul R hsqr h
  let s2 := mmul R hcub p.y
  let u := mmul R p.x hsqr
  let xout := rsqr - (u + u) - hcub
  let yout := mmul R (u - xout) r - s2
  ⟨xout, yout, zout⟩

/-- sm2p256NegCond with condition 1 on the y words. -/
def neg (p : Pt K) : Pt K := ⟨p.x, -p.y, p.z⟩
def negA (p : Aff K) : Aff K := ⟨p.x, -p.y⟩
/-- Montgomery one as z. -/
def toJ (R : K) (p : Aff K) : Pt K := ⟨p.x, p.y, R⟩

theorem fm_mul (R x y : K) : fromMont R (mmul R x y) = fromMont R x * fromMont R y := by
  unfold fromMont mmul; ring
theorem fm_add (R x y : K) : fromMont R (x + y) = fromMont R x + fromMont R y := by unfold fromMont; ring
theorem fm_sub (R x y : K) : fromMont R (x - y) = fromMont R x - fromMont R y := by unfold fromMont; ring
theorem fm_neg (R x : K) : fromMont R (-x) = -fromMont R x := by unfold fromMont; ring
theorem fm_half (R x : K) : fromMont R (x / 2) = fromMont R x / 2 := by unfold fromMont; ring
theorem fm_zero {R : K} (hR : R ≠ 0) (x : K) : fromMont R x = 0 ↔ x = 0 := by
  unfold fromMont; simp [hR]
theorem fm_R {R : K} (hR : R ≠ 0) : fromMont R R = 1 := by unfold fromMont; exact mul_inv_cancel₀ hR

/-- The curve `y² = x³ - 3x + b`. -/
def W (b : K) : WeierstrassCurve.Affine K := { a₁ := 0, a₂ := 0, a₃ := 0, a₄ := -3, a₆ := b }

/-- `(x, y, z)` stands for the point `Q`. -/
def Rep (R b : K) (p : Pt K) : (W b).Point → Prop
  | .zero => p.z = 0
  | .some X Y _ => p.z ≠ 0 ∧ fromMont R p.x = X * fromMont R p.z ^ 2 ∧ fromMont R p.y = Y * fromMont R p.z ^ 3

def RepA (R b : K) (p : Aff K) : (W b).Point → Prop
  | .zero => False
  | .some X Y _ => fromMont R p.x = X ∧ fromMont R p.y = Y

theorem negY_W (b x y : K) : (W b).negY x y = -y := by simp [W, negY]
theorem addX_W (b x y l : K) : (W b).addX x y l = l ^ 2 - x - y := by simp [W, addX]
theorem addY_W (b x1 x2 y l : K) : (W b).addY x1 x2 y l = -(l * (l ^ 2 - x1 - x2 - x1) + y) := by
  rw [addY, negY_W, negAddY, addX_W]

theorem curve_eq {b x y : K} (h : (W b).Nonsingular x y) : y ^ 2 = x ^ 3 - 3 * x + b := by
  have := h.1
  rw [WeierstrassCurve.Affine.equation_iff] at this
  simp only [W] at this
  linear_combination this

section laws
variable {R b : K} (hR : R ≠ 0)
include hR

theorem rep_zero (p : Pt K) : Rep R b p 0 ↔ p.z = 0 := Iff.rfl

theorem rep_neg (p : Pt K) (Q : (W b).Point) (h : Rep R b p Q) : Rep R b (neg p) (-Q) := by
  cases Q with
  | zero => exact h
  | some X Y hn =>
    rw [Point.neg_some]
    obtain ⟨h1, h2, h3⟩ := h
    refine ⟨h1, h2, ?_⟩
    rw [negY_W]
    simp only [neg, fm_neg, h3]; ring

theorem repA_neg (p : Aff K) (Q : (W b).Point) (h : RepA R b p Q) : RepA R b (negA p) (-Q) := by
  cases Q with
  | zero => exact h
  | some X Y hn =>
    rw [Point.neg_some]
    obtain ⟨h2, h3⟩ := h
    refine ⟨h2, ?_⟩
    rw [negY_W]
    simp only [negA, fm_neg, h3]

theorem rep_toJ (p : Aff K) (Q : (W b).Point) (h : RepA R b p Q) : Rep R b (toJ R p) Q := by
  cases Q with
  | zero => exact h.elim
  | some X Y hn =>
    obtain ⟨h2, h3⟩ := h
    refine ⟨hR, ?_, ?_⟩ <;> simp [toJ, fm_R hR, h2, h3]

theorem rep_dbl (h2 : (2 : K) ≠ 0) (p : Pt K) (Q : (W b).Point) (h : Rep R b p Q) : Rep R b (dbl R p) (Q + Q) := by
  cases Q with
  | zero =>
    have h' : p.z = 0 := h
    show (dbl R p).z = 0
    simp [dbl, mmul, h']
  | some X Y hn =>
    obtain ⟨hz, hx, hy⟩ := h
    have hz' : fromMont R p.z ≠ 0 := by rwa [Ne, fm_zero hR]
    by_cases hY : Y = 0
    · have : Y = (W b).negY X Y := by rw [negY_W, hY]; simp
      rw [Point.add_self_of_Y_eq this]
      rw [rep_zero hR, ← fm_zero hR]
      simp only [dbl, fm_mul, fm_add, hy, hY]; ring
    · have hne : Y ≠ (W b).negY X Y := by
        rw [negY_W]; intro h
        apply hY
        have : 2 * Y = 0 := by linear_combination h
        exact (mul_eq_zero.1 this).resolve_left h2
      rw [Point.add_self_of_Y_ne hne]
      have hs : (W b).slope X X Y Y = (3 * X ^ 2 - 3) / (2 * Y) := by
        rw [slope_of_Y_ne rfl hne, negY_W]
        simp only [W]
        congr 1 <;> ring
      refine ⟨?_, ?_, ?_⟩
      · rw [Ne, ← fm_zero hR]
        simp only [dbl, fm_mul, fm_add, hy]
        intro h0
        have : 2 * Y * fromMont R p.z ^ 4 = 0 := by linear_combination h0
        simp [hY, h2, hz'] at this
      · rw [hs, addX_W]
        simp only [dbl, fm_mul, fm_add, fm_sub, hy, hx]
        generalize fromMont R p.z = z at *
        field_simp
        ring
      · rw [hs, addY_W]
        simp only [dbl, fm_mul, fm_add, fm_sub, fm_half, hy, hx]
        generalize fromMont R p.z = z at *
        field_simp
        ring

/-- Two affine points with the same first coordinate are equal or opposite. -/
theorem same_x {X Y X' Y' : K} (hn : (W b).Nonsingular X Y) (hn' : (W b).Nonsingular X' Y') (hX : X' = X) :
    Y' = Y ∨ Y' = -Y := by
  have h1 := curve_eq hn
  have h2 := curve_eq hn'
  subst hX
  have : (Y' - Y) * (Y' + Y) = 0 := by linear_combination h2 - h1
  rcases mul_eq_zero.1 this with h | h
  · left; linear_combination h
  · right; linear_combination h

theorem add_core (X Y X' Y' z z' : K) (hz : z ≠ 0) (hz' : z' ≠ 0) (hX : X ≠ X') :
    let h := X' * z' ^ 2 * z ^ 2 - X * z ^ 2 * z' ^ 2
    let r := Y' * z' ^ 3 * z ^ 3 - Y * z ^ 3 * z' ^ 3
    let l := (Y - Y') / (X - X')
    h ≠ 0 ∧ r ^ 2 - 2 * (h ^ 2 * (X * z ^ 2 * z' ^ 2)) - h ^ 3 = (l ^ 2 - X - X') * (z * z' * h) ^ 2 ∧
    (h ^ 2 * (X * z ^ 2 * z' ^ 2) - (r ^ 2 - 2 * (h ^ 2 * (X * z ^ 2 * z' ^ 2)) - h ^ 3)) * r - h ^ 3 * (Y * z ^ 3 * z' ^ 3) =
      -(l * (l ^ 2 - X - X' - X) + Y) * (z * z' * h) ^ 3 := by
  intro h r l
  have hd : X - X' ≠ 0 := sub_ne_zero.2 hX
  have hd' : X' - X ≠ 0 := sub_ne_zero.2 (Ne.symm hX)
  have eh : h = -(X - X') * z ^ 2 * z' ^ 2 := by simp only [h]; ring
  have er : r = -(Y - Y') * z ^ 3 * z' ^ 3 := by simp only [r]; ring
  have el : Y - Y' = l * (X - X') := by simp only [l]; field_simp
  refine ⟨?_, ?_, ?_⟩
  · rw [eh]; simp [hd', hz, hz']
  · rw [er, eh, el]; ring
  · rw [er, eh, el]
    ring

theorem rep_add_ne (p q : Pt K) (Q Q' : (W b).Point) (h : Rep R b p Q) (h' : Rep R b q Q')
    (h0 : Q ≠ 0) (h0' : Q' ≠ 0) (hne : Q ≠ Q') :
    Rep R b (add R p q).1 (Q + Q') ∧ (add R p q).2 = false := by
  cases Q with
  | zero => exact absurd rfl h0
  | some X Y hn =>
  cases Q' with
  | zero => exact absurd rfl h0'
  | some X' Y' hn' =>
  obtain ⟨hz, hx, hy⟩ := h
  obtain ⟨hz', hx', hy'⟩ := h'
  rw [Ne, ← fm_zero hR] at hz hz'
  by_cases hX : X = X'
  · -- opposite points
    subst hX
    rcases same_x hR hn' hn rfl with hY | hY
    · subst hY; exact absurd rfl hne
    · have hYY : ¬ Y = Y' := by rintro rfl; exact hne rfl
      rw [Point.add_of_Y_eq rfl (by rw [negY_W]; exact hY)]
      constructor
      · rw [rep_zero hR, ← fm_zero hR]
        simp only [add, fm_mul, fm_sub, hx, hx']; ring
      · simp only [add, Bool.and_eq_false_iff, decide_eq_false_iff_not]
        right
        rw [← fm_zero hR]
        simp only [fm_mul, fm_sub, hy, hy']
        intro h0
        have : (Y' - Y) * (fromMont R p.z ^ 3 * fromMont R q.z ^ 3) = 0 := by linear_combination h0
        simp [hz, hz', sub_eq_zero] at this
        exact hYY this.symm
  · rw [Point.add_of_X_ne hX]
    obtain ⟨c1, c2, c3⟩ := add_core hR X Y X' Y' _ _ hz hz' hX
    refine ⟨⟨?_, ?_, ?_⟩, ?_⟩
    · rw [Ne, ← fm_zero hR]
      simp only [add, fm_mul, fm_sub, hx, hx']
      intro h0
      have : fromMont R p.z * fromMont R q.z * (X' * fromMont R q.z ^ 2 * fromMont R p.z ^ 2 - X * fromMont R p.z ^ 2 * fromMont R q.z ^ 2) = 0 := by
        linear_combination h0
      simp only [mul_eq_zero, hz, hz', false_or] at this
      exact c1 this
    · rw [slope_of_X_ne hX, addX_W]
      simp only [add, fm_mul, fm_add, fm_sub, hx, hx', hy, hy']
      linear_combination c2
    · rw [slope_of_X_ne hX, addY_W]
      simp only [add, fm_mul, fm_add, fm_sub, hx, hx', hy, hy']
      linear_combination c3
    · simp only [add, Bool.and_eq_false_iff, decide_eq_false_iff_not]
      left
      rw [← fm_zero hR]
      simp only [fm_mul, fm_sub, hx, hx']
      intro h0
      apply c1
      linear_combination h0

theorem rep_add_eq (p q : Pt K) (Q : (W b).Point) (h : Rep R b p Q) (h' : Rep R b q Q) (h0 : Q ≠ 0) :
    Rep R b (add R p q).1 0 ∧ (add R p q).2 = true := by
  cases Q with
  | zero => exact absurd rfl h0
  | some X Y hn =>
  obtain ⟨hz, hx, hy⟩ := h
  obtain ⟨hz', hx', hy'⟩ := h'
  constructor
  · rw [rep_zero hR, ← fm_zero hR]
    simp only [add, fm_mul, fm_sub, hx, hx']; ring
  · simp only [add, Bool.and_eq_true, decide_eq_true_eq]
    constructor <;> rw [← fm_zero hR] <;> simp only [fm_mul, fm_sub, hx, hx', hy, hy'] <;> ring

theorem rep_addA_ne (p : Pt K) (q : Aff K) (Q Q' : (W b).Point) (h : Rep R b p Q) (h' : RepA R b q Q')
    (h0 : Q ≠ 0) (hne : Q ≠ Q') : Rep R b (addA R p q) (Q + Q') := by
  cases Q with
  | zero => exact absurd rfl h0
  | some X Y hn =>
  cases Q' with
  | zero => exact h'.elim
  | some X' Y' hn' =>
  obtain ⟨hz, hx, hy⟩ := h
  obtain ⟨hx', hy'⟩ := h'
  rw [Ne, ← fm_zero hR] at hz
  by_cases hX : X = X'
  · subst hX
    rcases same_x hR hn' hn rfl with hY | hY
    · subst hY; exact absurd rfl hne
    · rw [Point.add_of_Y_eq rfl (by rw [negY_W]; exact hY)]
      rw [rep_zero hR, ← fm_zero hR]
      simp only [addA, fm_mul, fm_sub, hx, hx']; ring
  · rw [Point.add_of_X_ne hX]
    obtain ⟨c1, c2, c3⟩ := add_core hR X Y X' Y' _ 1 hz one_ne_zero hX
    refine ⟨?_, ?_, ?_⟩
    · rw [Ne, ← fm_zero hR]
      simp only [addA, fm_mul, fm_sub, hx, hx']
      intro h0
      have : fromMont R p.z * (X' * 1 ^ 2 * fromMont R p.z ^ 2 - X * fromMont R p.z ^ 2 * 1 ^ 2) = 0 := by
        linear_combination h0
      simp only [mul_eq_zero, hz, false_or] at this
      exact c1 this
    · rw [slope_of_X_ne hX, addX_W]
      simp only [addA, fm_mul, fm_add, fm_sub, hx, hx', hy, hy']
      linear_combination c2
    · rw [slope_of_X_ne hX, addY_W]
      simp only [addA, fm_mul, fm_add, fm_sub, hx, hx', hy, hy']
      linear_combination c3

end laws

/-! ### inversion and conversion to affine form -/

/-- `n` successive `sm2p256Sqr(out, out)`. -/
def sqrN (R : K) : Nat → K → K
  | 0, x => x
  | n+1, x => sqrN R n (mmul R x x)

/-- `p256Inverse`, sm2/sm2p256_amd64.go:468-574, statement by statement (`o`, `o'`.. are the successive
values of `out`). -/
def inverse (R x : K) : K :=
  let o := mmul R x x
  let p2 := mmul R o x
  let o := mmul R p2 p2
  let p3 := mmul R o x
  let o := mmul R o o
  let p4 := mmul R o p2
  let o := mmul R p4 p4
  let o := mmul R o o
  let o := mmul R o o
  let p7 := mmul R o p3
  let o := mmul R o o
  let p8 := mmul R o p4
  let o := mmul R p8 p8
  let o := sqrN R 6 o
  let p15 := mmul R o p7
  let o := mmul R o o
  let p16 := mmul R o p8
  let o := mmul R p16 p16
  let o := sqrN R 14 o
  let p31 := mmul R o p15
  let o := mmul R o o
  let p32 := mmul R o p16
  let o := mmul R p31 p31
  let o := sqrN R 32 o
  let o := mmul R o p32
  let o := mmul R (sqrN R 32 o) p32
  let o := mmul R (sqrN R 32 o) p32
  let o := mmul R (sqrN R 32 o) p32
  let o := sqrN R 32 o
  let o := mmul R (sqrN R 32 o) p32
  let o := mmul R (sqrN R 16 o) p16
  let o := mmul R (sqrN R 8 o) p8
  let o := mmul R (sqrN R 4 o) p4
  let o := mmul R (sqrN R 2 o) p2
  let o := mmul R o o
  let o := mmul R o o
  mmul R o x

theorem fm_sqrN (R : K) (n : Nat) (x : K) : fromMont R (sqrN R n x) = fromMont R x ^ 2 ^ n := by
  induction n generalizing x with
  | zero => simp [sqrN]
  | succ n ih => rw [sqrN, ih, fm_mul, ← pow_two, ← pow_mul, pow_succ']

theorem fm_mul_pow (R x y a : K) (m n : Nat) (hx : fromMont R x = a ^ m) (hy : fromMont R y = a ^ n) :
    fromMont R (mmul R x y) = a ^ (m + n) := by rw [fm_mul, hx, hy, pow_add]
theorem fm_sqrN_pow (R x a : K) (m n : Nat) (hx : fromMont R x = a ^ m) :
    fromMont R (sqrN R n x) = a ^ (m * 2 ^ n) := by rw [fm_sqrN, hx, pow_mul]

/-- the addition chain computes the power `P - 2` -/
theorem fm_inverse (R x : K) : fromMont R (inverse R x) = fromMont R x ^ (P - 2) := by
  generalize ha : fromMont R x = a
  have h1 : fromMont R x = a ^ 1 := by rw [ha, pow_one]
  unfold inverse
  extract_lets o1 p2 o2 p3 o3 p4 o4 o5 o6 p7 o7 p8 o8 o9 p15 o10 p16 o11 o12 p31 o13 p32 o14 o15 o16 o17 o18 o19 o20 o21 o22 o23 o24 o25 o26 o27
  have e1 := fm_mul_pow R _ _ a _ _ h1 h1
  have e2 := fm_mul_pow R _ _ a _ _ e1 h1
  have f2 := fm_mul_pow R _ _ a _ _ e2 e2
  have e3 := fm_mul_pow R _ _ a _ _ f2 h1
  have f3 := fm_mul_pow R _ _ a _ _ f2 f2
  have e4 := fm_mul_pow R _ _ a _ _ f3 e2
  have f4 := fm_mul_pow R _ _ a _ _ e4 e4
  have f5 := fm_mul_pow R _ _ a _ _ f4 f4
  have f6 := fm_mul_pow R _ _ a _ _ f5 f5
  have e7 := fm_mul_pow R _ _ a _ _ f6 e3
  have f7 := fm_mul_pow R _ _ a _ _ f6 f6
  have e8 := fm_mul_pow R _ _ a _ _ f7 e4
  have f8 := fm_mul_pow R _ _ a _ _ e8 e8
  have f9 := fm_sqrN_pow R _ a _ 6 f8
  have e15 := fm_mul_pow R _ _ a _ _ f9 e7
  have f10 := fm_mul_pow R _ _ a _ _ f9 f9
  have e16 := fm_mul_pow R _ _ a _ _ f10 e8
  have f11 := fm_mul_pow R _ _ a _ _ e16 e16
  have f12 := fm_sqrN_pow R _ a _ 14 f11
  have e31 := fm_mul_pow R _ _ a _ _ f12 e15
  have f13 := fm_mul_pow R _ _ a _ _ f12 f12
  have e32 := fm_mul_pow R _ _ a _ _ f13 e16
  have f14 := fm_mul_pow R _ _ a _ _ e31 e31
  have f15 := fm_sqrN_pow R _ a _ 32 f14
  have f16 := fm_mul_pow R _ _ a _ _ f15 e32
  have f17 := fm_mul_pow R _ _ a _ _ (fm_sqrN_pow R _ a _ 32 f16) e32
  have f18 := fm_mul_pow R _ _ a _ _ (fm_sqrN_pow R _ a _ 32 f17) e32
  have f19 := fm_mul_pow R _ _ a _ _ (fm_sqrN_pow R _ a _ 32 f18) e32
  have f20 := fm_sqrN_pow R _ a _ 32 f19
  have f21 := fm_mul_pow R _ _ a _ _ (fm_sqrN_pow R _ a _ 32 f20) e32
  have f22 := fm_mul_pow R _ _ a _ _ (fm_sqrN_pow R _ a _ 16 f21) e16
  have f23 := fm_mul_pow R _ _ a _ _ (fm_sqrN_pow R _ a _ 8 f22) e8
  have f24 := fm_mul_pow R _ _ a _ _ (fm_sqrN_pow R _ a _ 4 f23) e4
  have f25 := fm_mul_pow R _ _ a _ _ (fm_sqrN_pow R _ a _ 2 f24) e2
  have f26 := fm_mul_pow R _ _ a _ _ f25 f25
  have f27 := fm_mul_pow R _ _ a _ _ f26 f26
  have f28 := fm_mul_pow R _ _ a _ _ f27 h1
  refine f28.trans ?_
  congr 1

end Verif.Sm2.Amd64.Jac
