import Verif.Sm2.Asm.PointAff
import Mathlib.Tactic.LinearCombination
import Mathlib.Data.Nat.ModEq
/-!
When the field routines of `sm2p256_amd64.s` are right: a reduction step is exact if and only if it loses no carry,
and every routine none of whose steps loses a carry computes the Montgomery product it should.
-/
namespace Verif.Sm2.Asm

/-- the reduction step loses neither the carry out of the second limb nor the borrow out of the third -/
def noLoss (T : Nat) : Bool :=
  decide (T / B % B ^ 2 + T % B < B ^ 2) && decide (T % B * 4294967296 ≤ T / B % B ^ 2 + T % B + T / B ^ 3 % B * B ^ 2)

theorem mod_once {x m : Nat} (h : x < 2 * m) : ∃ k, (k = 0 ∧ x < m ∨ k = 1 ∧ m ≤ x) ∧ x = x % m + k * m := by
  by_cases hx : x < m
  · exact ⟨0, Or.inl ⟨rfl, hx⟩, by rw [Nat.mod_eq_of_lt hx]; omega⟩
  · refine ⟨1, Or.inr ⟨rfl, by omega⟩, ?_⟩
    rw [Nat.mod_eq_sub_mod (by omega), Nat.mod_eq_of_lt (by omega)]; omega

theorem redT_key (a b c t : Nat) : a + B * (b + B ^ 2 * (c + B * t)) + a * P + B * (a * 4294967296) =
    B * (b + a + c * B ^ 2 + (a * c2 + t * B) * B ^ 2) := by
  simp only [B, P, c2]; ring

theorem redT_main (a b c t v : Nat) : B * (v + (a * c2 + t * B) * B ^ 2) = a + B * (b + B ^ 2 * (c + B * t)) + a * P ↔
    v + a * 4294967296 = b + a + c * B ^ 2 := by
  have key := redT_key a b c t
  rw [← Nat.add_left_inj (n := B * (a * 4294967296)), key, ← Nat.mul_add, Nat.mul_right_inj (by decide)]
  constructor <;> intro h <;> omega

theorem redT_arith {a b c t : Nat} (ha : a < B) (hb : b < B ^ 2) (hc : c < B) :
    B * (((b + a) % B ^ 2 + c * B ^ 2 + B ^ 3 - a * 4294967296) % B ^ 3 + (a * c2 + t * B) * B ^ 2) = a + B * (b + B ^ 2 * (c + B * t)) + a * P ↔
    b + a < B ^ 2 ∧ a * 4294967296 ≤ b + a + c * B ^ 2 := by
  obtain ⟨k, hk, e⟩ := mod_once (x := b + a) (m := B ^ 2) (by simp only [B] at *; omega)
  have hlt : (b + a) % B ^ 2 < B ^ 2 := Nat.mod_lt _ (Nat.pow_pos (by decide))
  generalize (b + a) % B ^ 2 = u at e hlt ⊢
  obtain ⟨l, hl, f⟩ := mod_once (x := u + c * B ^ 2 + B ^ 3 - a * 4294967296) (m := B ^ 3) (by simp only [B] at *; omega)
  generalize (u + c * B ^ 2 + B ^ 3 - a * 4294967296) % B ^ 3 = v at f ⊢
  rw [redT_main]
  rcases hk with ⟨rfl, hk⟩ | ⟨rfl, hk⟩ <;> rcases hl with ⟨rfl, hl⟩ | ⟨rfl, hl⟩ <;> simp only [B] at * <;> omega

theorem split4 (T : Nat) : T = T % B + B * (T / B % B ^ 2 + B ^ 2 * (T / B ^ 3 % B + B * (T / B ^ 4))) := by
  simp only [B]; omega

/-- a reduction step is exact - it divides `T + (T mod 2^64)·p` by `2^64` - if and only if it loses nothing -/
theorem redT_exact_iff (T : Nat) : B * redT T = T + T % B * P ↔ noLoss T = true := by
  have h := split4 T
  have ha : T % B < B := Nat.mod_lt _ (by decide)
  have hb : T / B % B ^ 2 < B ^ 2 := Nat.mod_lt _ (Nat.pow_pos (by decide))
  have hc : T / B ^ 3 % B < B := Nat.mod_lt _ (by decide)
  have k := redT_arith (t := T / B ^ 4) ha hb hc
  rw [← h] at k
  rw [noLoss, Bool.and_eq_true, decide_eq_true_iff, decide_eq_true_iff]
  exact k

/-- no step of a reduction of `T` by four limbs loses anything -/
def noLoss4 (T : Nat) : Bool := noLoss T && noLoss (redT T) && noLoss (redT (redT T)) && noLoss (redT (redT (redT T)))

/-- four exact steps -/
theorem red4_exact {T : Nat} (h : noLoss4 T = true) : ∃ m, m < B ^ 4 ∧ B ^ 4 * redT (redT (redT (redT T))) = T + m * P := by
  simp only [noLoss4, Bool.and_eq_true, ← redT_exact_iff] at h
  obtain ⟨⟨⟨h0, h1⟩, h2⟩, h3⟩ := h
  refine ⟨T % B + B * (redT T % B) + B ^ 2 * (redT (redT T) % B) + B ^ 3 * (redT (redT (redT T)) % B), ?_, ?_⟩
  · have k0 : T % B < B := Nat.mod_lt _ (by decide)
    have k1 : redT T % B < B := Nat.mod_lt _ (by decide)
    have k2 : redT (redT T) % B < B := Nat.mod_lt _ (by decide)
    have k3 : redT (redT (redT T)) % B < B := Nat.mod_lt _ (by decide)
    simp only [B] at *
    omega
  · linear_combination B ^ 3 * h3 + B ^ 2 * h2 + B * h1 + h0

theorem condSub_small {T : Nat} (h : T < P + B ^ 4) : condSub T < B ^ 4 ∧ ∃ e, e ≤ 1 ∧ T = condSub T + e * P := by
  rw [condSub]
  split
  · refine ⟨?_, 0, by omega, by omega⟩
    simp only [B, P] at *; omega
  · have : (T - P) % B ^ 4 = T - P := Nat.mod_eq_of_lt (by omega)
    rw [this]
    exact ⟨by omega, 1, by omega, by omega⟩

theorem condSub_red {T : Nat} (h : T < 2 * P) : condSub T < P := by
  rw [condSub]
  split
  · assumption
  · have : (T - P) % B ^ 4 = T - P := Nat.mod_eq_of_lt (by simp only [B, P] at *; omega)
    rw [this]
    omega

/-- the bound on a Montgomery product before the last subtraction -/
theorem mont_bound {T n m : Nat} (h : B ^ 4 * T = n + m * P) (hm : m < B ^ 4) (hn : n < B ^ 4 * B ^ 4) : T < P + B ^ 4 := by
  have : m * P ≤ B ^ 4 * P := Nat.mul_le_mul_right _ (by omega)
  have h2 : B ^ 4 * T < B ^ 4 * (P + B ^ 4) := by rw [h, Nat.mul_add]; omega
  exact Nat.lt_of_mul_lt_mul_left h2

theorem mont_bound2 {T n m : Nat} (h : B ^ 4 * T = n + m * P) (hm : m < B ^ 4) (hn : n ≤ B ^ 4 * P) : T < 2 * P := by
  have : m * P < B ^ 4 * P := Nat.mul_lt_mul_of_pos_right hm (by decide)
  have h2 : B ^ 4 * T < B ^ 4 * (2 * P) := by rw [h, Nat.mul_left_comm, Nat.two_mul]; omega
  exact Nat.lt_of_mul_lt_mul_left h2

/-- `z` is a Montgomery product of `x` and `y`: congruent to `x·y·2^-256` modulo the prime, four limbs long, and fully reduced if one of the factors is -/
structure IsMont (x y z : Nat) : Prop where
  eq : z * 2 ^ 256 ≡ x * y [MOD P]
  lt : z < 2 ^ 256
  red : x < P ∨ y < P → z < P

theorem mul_lt_of {x y : Nat} (hx : x < B ^ 4) (hy : y < B ^ 4) : x * y < B ^ 4 * B ^ 4 := Nat.mul_lt_mul'' hx hy
theorem mul_le_of {x y : Nat} (hx : x < B ^ 4) (hy : y < B ^ 4) (h : x < P ∨ y < P) : x * y ≤ B ^ 4 * P := by
  rcases h with h | h
  · rw [Nat.mul_comm x]; exact Nat.mul_le_mul hy.le h.le
  · exact Nat.mul_le_mul hx.le h.le

theorem isMont_of {x y T m : Nat} (hx : x < B ^ 4) (hy : y < B ^ 4) (hm : m < B ^ 4) (h : B ^ 4 * T = x * y + m * P) : IsMont x y (condSub T) := by
  obtain ⟨k1, e, _, k2⟩ := condSub_small (mont_bound h hm (mul_lt_of hx hy))
  refine ⟨?_, k1, fun hr => condSub_red (mont_bound2 h hm (mul_le_of hx hy hr))⟩
  rw [show (2 : Nat) ^ 256 = B ^ 4 by decide]
  have e1 : condSub T * B ^ 4 + (e * B ^ 4) * P = x * y + m * P := by
    rw [← h]
    conv_rhs => rw [k2]
    ring
  have := congrArg (· % P) e1
  simpa [Nat.ModEq, Nat.add_mul_mod_self_right] using this

/-- no step of `sm2p256Mul` loses a carry -/
def mulTOk (x y : Nat) : Bool :=
  let t0 := x * limb y 0
  let t1 := redT t0 + x * limb y 1
  let t2 := redT t1 + x * limb y 2
  let t3 := redT t2 + x * limb y 3
  noLoss t0 && noLoss t1 && noLoss t2 && noLoss t3

theorem limbs_sum {y : Nat} (hy : y < B ^ 4) : y = limb y 0 + B * limb y 1 + B ^ 2 * limb y 2 + B ^ 3 * limb y 3 := by
  simp only [limb, B] at *; omega

theorem mulT_mont {x y : Nat} (hx : x < B ^ 4) (hy : y < B ^ 4) (h : mulTOk x y = true) : IsMont x y (mulT x y) := by
  simp only [mulTOk, Bool.and_eq_true, ← redT_exact_iff] at h
  have hs := limbs_sum hy
  rw [mulT]
  generalize ht0 : x * limb y 0 = t0 at h ⊢
  generalize ht1 : redT t0 + x * limb y 1 = t1 at h ⊢
  generalize ht2 : redT t1 + x * limb y 2 = t2 at h ⊢
  generalize ht3 : redT t2 + x * limb y 3 = t3 at h ⊢
  obtain ⟨⟨⟨h0, h1⟩, h2⟩, h3⟩ := h
  have k0 : t0 % B < B := Nat.mod_lt _ (by decide)
  have k1 : t1 % B < B := Nat.mod_lt _ (by decide)
  have k2 : t2 % B < B := Nat.mod_lt _ (by decide)
  have k3 : t3 % B < B := Nat.mod_lt _ (by decide)
  refine isMont_of (m := t0 % B + B * (t1 % B) + B ^ 2 * (t2 % B) + B ^ 3 * (t3 % B)) hx hy ?_ ?_
  · simp only [B] at *; omega
  · have : x * y = x * limb y 0 + B * (x * limb y 1) + B ^ 2 * (x * limb y 2) + B ^ 3 * (x * limb y 3) := by
      conv_lhs => rw [hs]
      ring
    rw [this]
    linear_combination B ^ 3 * h3 + B ^ 2 * h2 + B * h1 + h0 + ht0.symm + B * ht1.symm + B ^ 2 * ht2.symm + B ^ 3 * ht3.symm

/-- no step of the reduction in `sm2p256MulInternal` and `sm2p256SqrInternal` loses a carry -/
def mulIOk (x y : Nat) : Bool := noLoss4 (x * y % B ^ 4)

theorem mulI_mont {x y : Nat} (hx : x < B ^ 4) (hy : y < B ^ 4) (h : mulIOk x y = true) : IsMont x y (mulI x y) := by
  obtain ⟨m, hm, e⟩ := red4_exact h
  refine isMont_of (m := m) hx hy hm ?_
  rw [redI, Nat.mul_add, e]
  have := Nat.div_add_mod (x * y) (B ^ 4)
  omega

/-- no step of `sm2p256FromMont` loses a carry -/
def fromMontOk (x : Nat) : Bool := noLoss4 x

theorem fromMont_mont {x : Nat} (hx : x < B ^ 4) (h : fromMontOk x = true) : IsMont x 1 (fromMontT x) ∧ fromMontT x < P := by
  obtain ⟨m, hm, e⟩ := red4_exact h
  have k := isMont_of (x := x) (y := 1) (T := redT (redT (redT (redT x)))) (m := m) hx (by decide) hm (by rw [Nat.mul_one]; exact e)
  exact ⟨k, k.red (Or.inr (by decide))⟩

end Verif.Sm2.Asm
