import Verif.Tls.Record
import Mathlib.Tactic.ByContra
import Mathlib.Data.List.Basic
/-!
C27: the constant-time CBC padding check, computed with the masks and shifts of the code, equals its
specification.
-/
namespace Verif.Tls
open Verif

namespace Spec
/-- RFC 5246 6.2.3.2: the last byte `p` counts the padding bytes before it, and all `p + 1` last bytes equal `p`. -/
def GoodPadding (payload : Bytes) : Prop :=
  ∃ (body : Bytes) (p : Byte), payload = body ++ List.replicate (p.toNat + 1) p
end Spec

theorem maskOf_small (t : BitVec 64) (h : t.toNat < 2 ^ 31) : maskOf t = 255#8 := by
  have h1 : (~~~ t).truncate 32 = ~~~ (t.truncate 32) := by
    simp only [BitVec.truncate_eq_setWidth]; exact BitVec.setWidth_not (by decide)
  unfold maskOf; rw [h1]
  have hm : (t.truncate 32).msb = false := by
    rw [BitVec.msb_eq_false_iff_two_mul_lt]
    simp only [BitVec.truncate_eq_setWidth, BitVec.toNat_setWidth]
    have := Nat.mod_le t.toNat (2 ^ 32)
    omega
  apply BitVec.eq_of_getLsbD_eq
  intro i hi
  simp only [BitVec.truncate_eq_setWidth, BitVec.getLsbD_setWidth, hi, decide_true, Bool.true_and, BitVec.getLsbD_sshiftRight]
  have : ¬ (32 ≤ i) := by omega
  simp only [BitVec.truncate_eq_setWidth] at hm
  have h255 : (255#8 : BitVec 8) = BitVec.allOnes 8 := by decide
  rw [h255, BitVec.getLsbD_allOnes]
  simp only [hi, decide_true]
  rw [BitVec.msb_not]
  split
  · rename_i h31
    have : i = 0 := by omega
    subst this
    simp only [BitVec.getLsbD_not]
    rw [BitVec.msb_eq_getLsbD_last] at hm
    simpa using hm
  · simp [hm]; omega

theorem maskOf_big (t : BitVec 64) (h : 2 ^ 64 - 2 ^ 31 ≤ t.toNat) : maskOf t = 0#8 := by
  have h1 : (~~~ t).truncate 32 = ~~~ (t.truncate 32) := by
    simp only [BitVec.truncate_eq_setWidth]; exact BitVec.setWidth_not (by decide)
  unfold maskOf; rw [h1]
  have hm : (t.truncate 32).msb = true := by
    rw [BitVec.msb_eq_true_iff_two_mul_ge]
    simp only [BitVec.truncate_eq_setWidth, BitVec.toNat_setWidth]
    have := t.isLt
    omega
  apply BitVec.eq_of_getLsbD_eq
  intro i hi
  simp only [BitVec.truncate_eq_setWidth, BitVec.getLsbD_setWidth, hi, decide_true, Bool.true_and, BitVec.getLsbD_sshiftRight]
  simp only [BitVec.truncate_eq_setWidth] at hm
  rw [BitVec.msb_not]
  split
  · rename_i h31
    have : i = 0 := by omega
    subst this
    simp only [BitVec.getLsbD_not]
    rw [BitVec.msb_eq_getLsbD_last] at hm
    simpa using hm
  · simp [hm]

/-- bits are folded to all-ones or zero -/
theorem foldBits_spec (g : Byte) : foldBits g = if g = 255#8 then 255#8 else 0#8 := by
  revert g; decide +kernel

theorem and_not_all (g x : Byte) : g &&& ~~~ x = 255#8 ↔ g = 255#8 ∧ x = 0#8 := by
  have h255 : (255#8 : BitVec 8) = BitVec.allOnes 8 := by decide
  rw [h255]
  constructor
  · intro h
    constructor <;> apply BitVec.eq_of_getLsbD_eq <;> intro i hi <;>
      · have := congrArg (fun b => b.getLsbD i) h
        simp only [BitVec.getLsbD_and, BitVec.getLsbD_not, BitVec.getLsbD_allOnes, hi, decide_true, Bool.true_and,
          Bool.and_eq_true, Bool.not_eq_true'] at this
        simp only [BitVec.getLsbD_allOnes, hi, decide_true, BitVec.getLsbD_zero]
        first | exact this.1 | exact this.2
  · rintro ⟨rfl, rfl⟩; decide

theorem xor_zero_iff (a b : Byte) : a ^^^ b = 0#8 ↔ a = b := by
  constructor
  · intro h
    have : a ^^^ b ^^^ b = 0#8 ^^^ b := by rw [h]
    simpa [BitVec.xor_assoc] using this
  · rintro rfl; simp

theorem paddingStep_spec (payload : Bytes) (p g : Byte) (i : Nat) (hi : i < 256) :
    paddingStep payload p g i = 255#8 ↔
      g = 255#8 ∧ (i ≤ p.toNat → payload.getD (payload.length - 1 - i) 0 = p) := by
  unfold paddingStep
  simp only
  rw [and_not_all, xor_zero_iff]
  have hz : (p.zeroExtend 64).toNat = p.toNat := by
    simp only [BitVec.truncate_eq_setWidth, BitVec.toNat_setWidth]
    have := p.isLt; omega
  have ht : (p.zeroExtend 64 - BitVec.ofNat 64 i).toNat = (2 ^ 64 - i + p.toNat) % 2 ^ 64 := by
    rw [BitVec.toNat_sub, hz, BitVec.toNat_ofNat, Nat.mod_eq_of_lt (by omega : i < 2 ^ 64)]
  have hp := p.isLt
  by_cases hle : i ≤ p.toNat
  · rw [maskOf_small _ (by rw [ht]; omega)]
    have ha : ∀ x : Byte, 255#8 &&& x = x := fun x => BitVec.allOnes_and
    rw [ha, ha]
    constructor
    · rintro ⟨h, h'⟩; exact ⟨h, fun _ => h'.symm⟩
    · rintro ⟨h, h'⟩; exact ⟨h, (h' hle).symm⟩
  · rw [maskOf_big _ (by rw [ht]; omega)]
    simp [hle]

theorem paddingLoop_spec (payload : Bytes) (p g : Byte) (k : Nat) (hk : k ≤ 256) :
    (List.range k).foldl (paddingStep payload p) g = 255#8 ↔
      g = 255#8 ∧ ∀ i < k, i ≤ p.toNat → payload.getD (payload.length - 1 - i) 0 = p := by
  induction k with
  | zero => simp
  | succ k ih =>
    rw [List.range_succ, List.foldl_append, List.foldl_cons, List.foldl_nil,
      paddingStep_spec _ _ _ _ (by omega), ih (by omega)]
    constructor
    · rintro ⟨⟨h1, h2⟩, h3⟩
      refine ⟨h1, fun i hi hp => ?_⟩
      rcases Nat.lt_succ_iff_lt_or_eq.1 hi with h | rfl
      · exact h2 i h hp
      · exact h3 hp
    · rintro ⟨h1, h2⟩
      exact ⟨⟨h1, fun i hi => h2 i (by omega)⟩, h2 k (by omega)⟩

theorem goodPadding_iff (payload : Bytes) (hne : payload ≠ []) :
    Spec.GoodPadding payload ↔
      (payload.getD (payload.length - 1) 0).toNat + 1 ≤ payload.length ∧
        ∀ i ≤ (payload.getD (payload.length - 1) 0).toNat,
          payload.getD (payload.length - 1 - i) 0 = payload.getD (payload.length - 1) 0 := by
  constructor
  · rintro ⟨body, p, rfl⟩
    have hl : (body ++ List.replicate (p.toNat + 1) p).length = body.length + (p.toNat + 1) := by simp
    have hg : ∀ i ≤ p.toNat, (body ++ List.replicate (p.toNat + 1) p).getD
        ((body ++ List.replicate (p.toNat + 1) p).length - 1 - i) 0 = p := by
      intro i hi
      rw [getD_append_right _ _ _ _ (by rw [hl]; omega), hl, List.getD_eq_getElem?_getD,
        List.getElem?_replicate, if_pos (by omega)]
      rfl
    have h0 := hg 0 (Nat.zero_le _)
    rw [Nat.sub_zero] at h0
    rw [h0]
    exact ⟨by rw [hl]; omega, hg⟩
  · rintro ⟨h1, h2⟩
    generalize hp : payload.getD (payload.length - 1) 0 = p at h1 h2
    refine ⟨payload.take (payload.length - (p.toNat + 1)), p, ?_⟩
    have : payload.drop (payload.length - (p.toNat + 1)) = List.replicate (p.toNat + 1) p := by
      rw [List.eq_replicate_iff]
      refine ⟨by rw [List.length_drop]; omega, fun b hb => ?_⟩
      obtain ⟨j, hj, rfl⟩ := List.getElem_of_mem hb
      rw [List.length_drop] at hj
      rw [List.getElem_drop]
      have := h2 (payload.length - 1 - (payload.length - (p.toNat + 1) + j)) (by omega)
      rw [show payload.length - 1 - (payload.length - 1 - (payload.length - (p.toNat + 1) + j)) =
        payload.length - (p.toNat + 1) + j by omega, List.getD_eq_getElem?_getD,
        List.getElem?_eq_getElem (by omega)] at this
      simpa using this
    rw [← this, List.take_append_drop]

/-- C27: for every payload (shorter than 2^31 bytes; a record has at most 18432), the verdict is 255 exactly when
the padding is well formed and 0 otherwise, and the number of bytes to remove is the last byte plus one. -/
theorem C27_extractPadding (payload : Bytes) (hlen : payload.length < 2 ^ 31) :
    ((extractPadding payload).2 = 255#8 ↔ Spec.GoodPadding payload) ∧
    ((extractPadding payload).2 ≠ 255#8 → (extractPadding payload).2 = 0#8) ∧
    (payload ≠ [] → (extractPadding payload).1 = (payload.getD (payload.length - 1) 0).toNat + 1) := by
  rcases List.eq_nil_or_concat' payload with rfl | ⟨init, last, rfl⟩
  · refine ⟨⟨fun h => absurd h (by decide), ?_⟩, fun _ => rfl, fun h => absurd rfl h⟩
    rintro ⟨body, p, h⟩
    have := congrArg List.length h
    simp at this
  generalize hpl : init ++ [last] = payload at *
  have hne : payload ≠ [] := by rw [← hpl]; simp
  have hpos : 0 < payload.length := List.length_pos_iff.2 hne
  unfold extractPadding
  rw [if_neg (by omega)]
  simp only
  generalize hp : payload.getD (payload.length - 1) 0 = p
  have hp' := p.isLt
  refine ⟨?_, ?_, fun _ => trivial⟩
  · rw [foldBits_spec]
    have hz : (p.zeroExtend 64).toNat = p.toNat := by
      simp only [BitVec.truncate_eq_setWidth, BitVec.toNat_setWidth]; omega
    have ht : (BitVec.ofNat 64 (payload.length - 1) - p.zeroExtend 64).toNat =
        (2 ^ 64 - p.toNat + (payload.length - 1)) % 2 ^ 64 := by
      rw [BitVec.toNat_sub, hz, BitVec.toNat_ofNat, Nat.mod_eq_of_lt (by omega : payload.length - 1 < 2 ^ 64)]
    have hk : (if 256 > payload.length then payload.length else 256) ≤ 256 := by split <;> omega
    have hloop := paddingLoop_spec payload p (maskOf (BitVec.ofNat 64 (payload.length - 1) - p.zeroExtend 64)) _ hk
    rw [goodPadding_iff payload hne, hp]
    constructor
    · intro h
      have hg : (List.range (if 256 > payload.length then payload.length else 256)).foldl (paddingStep payload p)
          (maskOf (BitVec.ofNat 64 (payload.length - 1) - p.zeroExtend 64)) = 255#8 := by
        by_contra hn
        rw [if_neg hn] at h
        exact absurd h (by decide)
      obtain ⟨h1, h2⟩ := hloop.1 hg
      have hle : p.toNat + 1 ≤ payload.length := by
        by_contra hn
        rw [maskOf_big _ (by rw [ht]; omega)] at h1
        exact absurd h1 (by decide)
      refine ⟨hle, fun i hi => h2 i ?_ hi⟩
      split <;> omega
    · rintro ⟨h1, h2⟩
      rw [if_pos]
      exact hloop.2 ⟨maskOf_small _ (by rw [ht]; omega), fun i _ hi => h2 i hi⟩
  · intro h
    rw [foldBits_spec] at h ⊢
    generalize (List.range (if 256 > payload.length then payload.length else 256)).foldl (paddingStep payload p)
      (maskOf (BitVec.ofNat 64 (payload.length - 1) - p.zeroExtend 64)) = g at h ⊢
    by_cases hg : g = 255#8
    · rw [if_pos hg] at h; exact absurd rfl h
    · rw [if_neg hg]

/-- C27 for SSL 3.0: only the count is checked, so any padding contents are accepted. -/
theorem C27_extractPaddingSSL30 (payload : Bytes) :
    ((extractPaddingSSL30 payload).2 = 255#8 ↔ ∃ body pad p, payload = body ++ pad ++ [p] ∧ pad.length = p.toNat) ∧
    ((extractPaddingSSL30 payload).2 = 255#8 →
      (extractPaddingSSL30 payload).1 = (payload.getD (payload.length - 1) 0).toNat + 1) ∧
    ((extractPaddingSSL30 payload).2 ≠ 255#8 → extractPaddingSSL30 payload = (0, 0)) := by
  rcases List.eq_nil_or_concat' payload with rfl | ⟨init, last, rfl⟩
  · refine ⟨⟨fun h => absurd h (by decide), ?_⟩, fun h => absurd h (by decide), fun _ => rfl⟩
    rintro ⟨body, pad, p, h, _⟩
    have := congrArg List.length h
    simp at this
  have hlast : (init ++ [last]).getD ((init ++ [last]).length - 1) 0 = last := by
    rw [getD_append_right _ _ _ _ (by simp)]; simp
  unfold extractPaddingSSL30
  rw [if_neg (by simp)]
  simp only [hlast]
  split
  · rename_i h
    rw [List.length_append, List.length_singleton] at h
    refine ⟨⟨fun h => absurd h (by decide), ?_⟩, fun h => absurd h (by decide), fun _ => rfl⟩
    rintro ⟨body, pad, p, h', hl⟩
    obtain ⟨h1, h2⟩ := List.append_inj' h' rfl
    cases h2
    subst h1
    rw [List.length_append, hl] at h
    omega
  · rename_i h
    rw [List.length_append, List.length_singleton] at h
    refine ⟨⟨fun _ => ?_, fun _ => rfl⟩, fun _ => rfl, fun h => absurd rfl h⟩
    refine ⟨init.take (init.length - last.toNat), init.drop (init.length - last.toNat), last, ?_, ?_⟩
    · rw [List.take_append_drop]
    · rw [List.length_drop]; omega

/- Non-vacuity: a good padding of two bytes, a bad one, and a length byte that points before the payload. -/
example : extractPadding [7, 1, 1] = (2, 255) := by decide
example : extractPadding [7, 0, 1] = (2, 0) := by decide
example : extractPadding [9, 9, 9] = (10, 0) := by decide
example : extractPaddingSSL30 [7, 0, 1] = (2, 255) := by decide
example : extractPaddingSSL30 [9, 9, 9] = (0, 0) := by decide

end Verif.Tls
