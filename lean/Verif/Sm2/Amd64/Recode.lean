import Verif.Sm2.Amd64.Model
import Mathlib.Tactic.Ring
import Mathlib.Tactic.LinearCombination
import Mathlib.Tactic.IntervalCases
/-! Arithmetic of the window recoding: limbs, windows, Booth digits. -/
namespace Verif.Sm2.Amd64
open Verif Verif.Sm2

theorem get_fromBig (k q : Nat) (hq : q ≤ 3) : (fromBig k).get q = BitVec.ofNat 64 (k / 2 ^ (64 * q)) := by
  interval_cases q <;> simp [fromBig, Limbs.get]

theorem and_mask (x : W64) (b : Nat) (hb : b ≤ 64) : (x &&& BitVec.ofNat 64 (2 ^ b - 1)).toNat = x.toNat % 2 ^ b := by
  rw [BitVec.toNat_and, BitVec.toNat_ofNat, Nat.mod_eq_of_lt, Nat.and_two_pow_sub_one_eq_mod]
  have := Nat.pow_le_pow_right (show 0 < 2 by decide) hb
  have := Nat.two_pow_pos b
  omega

private theorem split_div (K r : Nat) (hr : r ≤ 64) : K / 2 ^ r = K % 2 ^ 64 / 2 ^ r + K / 2 ^ 64 * 2 ^ (64 - r) := by
  have e : 2 ^ 64 = 2 ^ r * 2 ^ (64 - r) := by rw [← Nat.pow_add]; congr 1; omega
  conv_lhs => rw [← Nat.mod_add_div K (2 ^ 64)]
  have : 2 ^ 64 * (K / 2 ^ 64) = 2 ^ r * (2 ^ (64 - r) * (K / 2 ^ 64)) := by
    rw [← Nat.mul_assoc, ← e]
  rw [this, Nat.add_mul_div_left _ _ (Nat.two_pow_pos r), Nat.mul_comm (2 ^ (64 - r))]

/-- Window extraction returns bits `index … index+b-1` of the scalar. -/
theorem window_spec (k index b : Nat) (hk : k < 2 ^ 256) (hi : index < 256) (hb : b ≤ 64) :
    (window (fromBig k) index (BitVec.ofNat 64 (2 ^ b - 1))).toNat = k / 2 ^ index % 2 ^ b := by
  have hd : 2 ^ b ∣ 2 ^ 64 := Nat.pow_dvd_pow 2 hb
  have hidx : index = 64 * (index / 64) + index % 64 := by omega
  have hdiv : k / 2 ^ index = k / 2 ^ (64 * (index / 64)) / 2 ^ (index % 64) := by
    rw [Nat.div_div_eq_div_mul, ← Nat.pow_add, ← hidx]
  have hr : index % 64 ≤ 64 := by omega
  unfold window
  split
  · rename_i hlt
    rw [and_mask _ _ hb, get_fromBig _ _ (by omega), get_fromBig _ _ (by omega), BitVec.toNat_add,
      BitVec.toNat_ushiftRight, BitVec.toNat_shiftLeft, BitVec.toNat_ofNat, BitVec.toNat_ofNat,
      Nat.mod_mod_of_dvd _ hd, Nat.shiftRight_eq_div_pow, Nat.shiftLeft_eq, hdiv,
      split_div (k / 2 ^ (64 * (index / 64))) (index % 64) hr]
    have e2 : k / 2 ^ (64 * (index / 64 + 1)) = k / 2 ^ (64 * (index / 64)) / 2 ^ 64 := by
      rw [Nat.div_div_eq_div_mul, ← Nat.pow_add]; congr 2
    rw [e2, Nat.add_mod, Nat.mod_mod_of_dvd _ hd]
    conv_rhs => rw [Nat.add_mod]
    congr 2
    rw [← Nat.mod_mod_of_dvd (k / 2 ^ (64 * (index / 64)) / 2 ^ 64 % 2 ^ 64 * 2 ^ (64 - index % 64)) hd,
      ← Nat.mod_mod_of_dvd (k / 2 ^ (64 * (index / 64)) / 2 ^ 64 * 2 ^ (64 - index % 64)) hd]
    congr 1
    rw [Nat.mod_mul_mod]
  · rename_i hge
    have h3 : index / 64 = 3 := by omega
    rw [and_mask _ _ hb, get_fromBig _ _ (by omega), BitVec.toNat_ushiftRight, BitVec.toNat_ofNat,
      Nat.shiftRight_eq_div_pow, hdiv, h3, Nat.mod_eq_of_lt (show k / 2 ^ (64 * 3) < 2 ^ 64 by omega)]

/-- the lowest window, `(scalar[0] << 1) & mask` -/
theorem window0_spec (k b : Nat) (hb : b ≤ 64) :
    (((fromBig k).get 0 <<< 1) &&& BitVec.ofNat 64 (2 ^ b - 1)).toNat = 2 * k % 2 ^ b := by
  have hd : 2 ^ b ∣ 2 ^ 64 := Nat.pow_dvd_pow 2 hb
  rw [and_mask _ _ hb, get_fromBig _ _ (by omega), BitVec.toNat_shiftLeft, BitVec.toNat_ofNat,
    Nat.shiftLeft_eq]
  simp only [Nat.mul_zero, Nat.pow_zero, Nat.div_one]
  rw [Nat.mod_mul_mod, Nat.mod_mod_of_dvd _ hd]
  congr 1; omega

/-- signed digit of a window `w` of `b+1` bits -/
def digit (b w : Nat) : Int := ((w + 1) / 2 : Nat) - (if 2 ^ b ≤ w then (2 ^ b : Nat) else 0 : Nat)

theorem booth7_table : ∀ w : Fin 256, boothW7 (BitVec.ofNat 64 w.val) =
    ((digit 7 w.val).natAbs, if 128 ≤ w.val then 1 else 0) := by decide +kernel
theorem booth5_table : ∀ w : Fin 64, boothW5 (BitVec.ofNat 64 w.val) =
    ((digit 5 w.val).natAbs, if 32 ≤ w.val then 1 else 0) := by decide +kernel

theorem boothW7_spec (w : W64) (h : w.toNat < 256) :
    boothW7 w = ((digit 7 w.toNat).natAbs, if 128 ≤ w.toNat then 1 else 0) := by
  have := booth7_table ⟨w.toNat, h⟩
  simpa using this
theorem boothW5_spec (w : W64) (h : w.toNat < 64) :
    boothW5 w = ((digit 5 w.toNat).natAbs, if 32 ≤ w.toNat then 1 else 0) := by
  have := booth5_table ⟨w.toNat, h⟩
  simpa using this

/-- `round(k / 2^(b·i))`: what remains to be represented from window `i` up. -/
def rest (b k i : Nat) : Nat := (2 * k / 2 ^ (b * i) + 1) / 2

theorem rest_zero (b k : Nat) : rest b k 0 = k := by simp [rest]; omega

theorem rest_step7 (k i : Nat) :
    (rest 7 k i : Int) = 128 * rest 7 k (i + 1) + digit 7 (2 * k / 2 ^ (7 * i) % 256) := by
  unfold rest digit
  have e : 2 * k / 2 ^ (7 * (i + 1)) = 2 * k / 2 ^ (7 * i) / 128 := by
    rw [Nat.div_div_eq_div_mul, Nat.mul_add, Nat.pow_add]
  rw [e]
  generalize 2 * k / 2 ^ (7 * i) = K
  norm_num only
  split <;> omega

theorem rest_step5 (k i : Nat) :
    (rest 5 k i : Int) = 32 * rest 5 k (i + 1) + digit 5 (2 * k / 2 ^ (5 * i) % 64) := by
  unfold rest digit
  have e : 2 * k / 2 ^ (5 * (i + 1)) = 2 * k / 2 ^ (5 * i) / 32 := by
    rw [Nat.div_div_eq_div_mul, Nat.mul_add, Nat.pow_add]
  rw [e]
  generalize 2 * k / 2 ^ (5 * i) = K
  norm_num only
  split <;> omega

theorem digit_bounds (b w : Nat) (h : w < 2 ^ (b + 1)) :
    -(2 ^ b : Int) ≤ 2 * digit b w ∧ 2 * digit b w ≤ (2 ^ b : Int) := by
  unfold digit
  rw [Nat.pow_succ] at h
  have h2 : ((2 ^ b : Nat) : Int) = 2 ^ b := by push_cast; rfl
  split
  · push_cast; omega
  · push_cast; omega

theorem digit_sign7 (w : Nat) (h : w < 256) :
    digit 7 w = if (128 ≤ w) then -((digit 7 w).natAbs : Int) else ((digit 7 w).natAbs : Int) := by
  unfold digit; norm_num only; split <;> omega
theorem digit_sign5 (w : Nat) (h : w < 64) :
    digit 5 w = if (32 ≤ w) then -((digit 5 w).natAbs : Int) else ((digit 5 w).natAbs : Int) := by
  unfold digit; norm_num only; split <;> omega

theorem uint64IsZero_spec (x : W64) : uint64IsZero x = if x = 0 then 1 else 0 := by
  have key : (uint64IsZero x = 1 ↔ x = 0) ∧ (uint64IsZero x = 0 ∨ uint64IsZero x = 1) := by
    constructor
    · constructor
      · intro h
        unfold uint64IsZero at h
        simp only at h
        apply BitVec.eq_of_getLsbD_eq
        intro i hi
        have h0 : (BitVec.toNat (_ &&& 1 : W64)) = 1 := h
        rw [show (1 : W64) = BitVec.ofNat 64 (2 ^ 1 - 1) from rfl, and_mask _ 1 (by decide)] at h0
        have h1 := congrArg (fun n => Nat.testBit n 0) h0
        simp only [pow_one, Nat.testBit_zero] at h1
        rw [show ∀ m : Nat, m % 2 % 2 = m % 2 from fun m => by omega] at h1
        simp only [← Nat.testBit_zero, BitVec.testBit_toNat] at h1
        simp [BitVec.getLsbD_and, BitVec.getLsbD_ushiftRight] at h1
        interval_cases i <;> simp_all
      · rintro rfl; decide
    · have : ∀ y : W64, (y &&& 1).toNat = 0 ∨ (y &&& 1).toNat = 1 := by
        intro y
        rw [show (1 : W64) = BitVec.ofNat 64 (2 ^ 1 - 1) from rfl, and_mask _ 1 (by decide)]
        omega
      unfold uint64IsZero
      exact this _
  split
  · exact key.1.2 ‹_›
  · rcases key.2 with h | h
    · exact h
    · exact absurd (key.1.1 h) ‹_›

theorem scalarIsZero_spec (k : Nat) (hk : k < 2 ^ 256) : scalarIsZero (fromBig k) = if k = 0 then 1 else 0 := by
  rw [scalarIsZero, uint64IsZero_spec]
  have : (fromBig k).l0 ||| (fromBig k).l1 ||| (fromBig k).l2 ||| (fromBig k).l3 = 0 ↔ k = 0 := by
    constructor
    · intro h
      have or0 : ∀ a b : W64, a ||| b = 0 → a = 0 ∧ b = 0 := by
        intro a b h
        constructor <;>
        · apply BitVec.eq_of_getLsbD_eq
          intro i hi
          have := congrArg (fun x : W64 => x.getLsbD i) h
          simp [BitVec.getLsbD_or] at this
          simp [this]
      obtain ⟨h, h3⟩ := or0 _ _ h
      obtain ⟨h, h2⟩ := or0 _ _ h
      obtain ⟨h0, h1⟩ := or0 _ _ h
      have c0 := congrArg BitVec.toNat h0
      have c1 := congrArg BitVec.toNat h1
      have c2 := congrArg BitVec.toNat h2
      have c3 := congrArg BitVec.toNat h3
      simp [fromBig] at c0 c1 c2 c3
      omega
    · rintro rfl; decide
  simp only [this]

/-- `CopyConditional` word by word. -/
theorem copyWord_spec (n src : W64) : copyWord n src 1 = src ∧ copyWord n src 0 = n := by
  have h1 : ∀ x : W64, x &&& 18446744073709551615#64 = x := fun x => BitVec.and_allOnes
  constructor <;> simp [copyWord, h1]

/-- `p256GetScalar` reduces modulo `N`. -/
theorem getScalar_eq (b : Bytes) : getScalar b = fromBig (beNat b % N) := by
  unfold getScalar
  simp only []
  split
  · rfl
  · rw [Nat.mod_eq_of_lt (by omega)]

end Verif.Sm2.Amd64
