import Verif.Sm2.Spec
import Verif.Sm3.Props
import Mathlib.Tactic.Ring
import Mathlib.Tactic.LinearCombination
/-! Helper lemmas for SM2. -/
namespace Verif.Sm2
open Verif
variable {c : Curve} {G : Type} [AddCommGroup G]

theorem N_pos : 0 < N := by decide
theorem N_lt : N < 256 ^ 32 := by decide
theorem P_lt : P < 256 ^ 32 := by decide

theorem copyAt_zero (dst src : Bytes) (h : src.length ≤ dst.length) :
    copyAt dst 0 src = src ++ dst.drop src.length := by
  simp [copyAt, List.take_of_length_le h, Nat.min_eq_left h]

theorem copyAt_at (a b src : Bytes) (h : src.length ≤ b.length) :
    copyAt (a ++ b) a.length src = a ++ src ++ b.drop src.length := by
  have h1 : (a ++ b).length - a.length = b.length := by simp
  rw [copyAt, h1, List.take_of_length_le h, Nat.min_eq_left h]
  simp [List.drop_append]

theorem padCoord_eq (v : Nat) (h : v < 256 ^ 32) : padCoord v = beFixed 32 v := by
  have hl := natBytes_length_le h
  simp only [padCoord]
  split
  · rw [← pad_natBytes h, List.take_replicate]
    congr 2; omega
  · have : (natBytes v).length = 32 := by omega
    have h2 := beFixed_beNat (natBytes v)
    rw [this, beNat_natBytes] at h2
    exact h2.symm

theorem padCoord_big (a : Nat) (ha : ¬ a < 256 ^ 32) : 33 ≤ (padCoord a).length := by
  have hn : 33 ≤ (natBytes a).length := by
    by_contra hc
    apply ha
    have h1 := beNat_lt (natBytes a)
    rw [beNat_natBytes] at h1
    exact lt_of_lt_of_le h1 (Nat.pow_le_pow_right (by decide) (by omega))
  unfold padCoord
  simp only []
  split <;> simp <;> omega

theorem padCoord_ge (a : Nat) : 32 ≤ (padCoord a).length := by
  by_cases h : a < 256 ^ 32
  · rw [padCoord_eq a h]; simp
  · have := padCoord_big a h; omega

theorem padCoord_lt (a : Nat) (h : (padCoord a).length = 32) : a < 256 ^ 32 := by
  by_contra hc
  have := padCoord_big a hc
  omega

theorem padCoord_length (v : Nat) (h : v < 256 ^ 32) : (padCoord v).length = 32 := by
  rw [padCoord_eq v h]; simp

theorem sumSM3_eq (m : Bytes) : Sm3.sumSM3 m = .ok (Sm3.Spec.hash m) := Sm3.C02_sumSM3_is_standard m
theorem hash_len (m : Bytes) : (Sm3.Spec.hash m).length = 32 := Sm3.spec_hash_length m

theorem natBytes_full (v : Nat) (h : v < 256 ^ 32) (h2 : 256 ^ 31 ≤ v) : natBytes v = beFixed 32 v := by
  have := pad_natBytes h
  have hl : (natBytes v).length = 32 := by
    have h1 := natBytes_length_le h
    by_contra hne
    have : (natBytes v).length ≤ 31 := by omega
    have h3 := beNat_lt (natBytes v)
    rw [beNat_natBytes] at h3
    have := Nat.pow_le_pow_right (show 0 < 256 by decide) this
    omega
  rw [hl] at this; simpa using this

theorem entl_eq (n : Nat) :
    [((BitVec.ofNat 16 (n * 8)) >>> 8).setWidth 8, (BitVec.ofNat 16 (n * 8)).setWidth 8] = beFixed 2 (8 * n) := by
  simp only [beFixed, List.nil_append, List.cons_append, List.cons.injEq, and_true]
  constructor
  · apply BitVec.eq_of_toNat_eq
    simp [BitVec.toNat_setWidth, Nat.shiftRight_eq_div_pow]
    omega
  · apply BitVec.eq_of_toNat_eq
    simp [BitVec.toNat_setWidth]
    omega

theorem zPreimage_spec (x y : Nat) (id : Bytes) (hx : x < 256 ^ 32) (hy : y < 256 ^ 32) :
    zPreimage x y id = Spec.zInput id x y := by
  simp only [zPreimage, Spec.zInput, padCoord_eq x hx, padCoord_eq y hy]
  rw [natBytes_full A (by decide) (by decide), natBytes_full B (by decide) (by decide),
    natBytes_full Gx (by decide) (by decide), natBytes_full Gy (by decide) (by decide), entl_eq]

theorem msgDigest_spec (x y : Nat) (msg : Bytes) (hx : x < 256 ^ 32) (hy : y < 256 ^ 32) :
    msgDigest x y msg = .ok (Spec.msgHash x y msg) := by
  have hh := hash_len (Spec.zInput defaultId x y)
  simp only [msgDigest, getZ, getZById, zPreimage_spec x y defaultId hx hy, sumSM3_eq, Res.ok_bind,
    Spec.msgHash]
  have h1 : copyAt (List.replicate (32 + msg.length) 0) 0 (Sm3.Spec.hash (Spec.zInput defaultId x y))
      = Sm3.Spec.hash (Spec.zInput defaultId x y) ++ List.replicate msg.length 0 := by
    rw [copyAt_zero _ _ (by rw [hh]; simp), hh]
    simp
  rw [h1]
  have h2 := copyAt_at (Sm3.Spec.hash (Spec.zInput defaultId x y)) (List.replicate msg.length 0) msg (by simp)
  rw [hh] at h2
  rw [h2]
  simp

/-! ### group arithmetic -/
theorem Lawful.nsmul_mod (L : Lawful c G) (a : Nat) (Q : G) : (a % N) • Q = a • Q := by
  conv_rhs => rw [← Nat.div_add_mod a N]
  rw [add_nsmul, mul_nsmul, L.order, nsmul_zero, zero_add]

theorem Lawful.nsmul_congr (L : Lawful c G) {a b : Nat} (h : (a : ZMod N) = (b : ZMod N)) (Q : G) :
    a • Q = b • Q := by
  rw [← L.nsmul_mod a, ← L.nsmul_mod b, (ZMod.natCast_eq_natCast_iff a b N).1 h]

theorem Lawful.nsmul_g_eq_zero (L : Lawful c G) {a : Nat} (h : a • L.g = 0) : N ∣ a := by
  by_contra hn
  have hc : Nat.gcd a N = 1 := (Nat.coprime_comm.1 ((Nat.Prime.coprime_iff_not_dvd N_prime).2 hn))
  apply L.g_ne
  have h1 : (((a : ZMod N)⁻¹).val * a) • L.g = 1 • L.g := by
    apply L.nsmul_congr
    have : (a : ZMod N) ≠ 0 := by rwa [Ne, ZMod.natCast_eq_zero_iff]
    simp [this]
  rw [mul_comm, mul_nsmul, h, nsmul_zero, one_nsmul] at h1
  exact h1.symm

theorem Lawful.PubOf.combined {L : Lawful c G} {pub : PublicKey c} {Q : G} (h : L.PubOf pub Q)
    (s t : Nat) (hu : L.Usable pub t) :
    Sm2.combined c pub s t = (L.enc (s • L.g + t • Q)).1 := by
  obtain ⟨hne, hx, hy, hp⟩ := h
  rcases hp with hp | ⟨o, ho, hp⟩
  · have hb : t % N ∉ L.bad := by
      rcases hu with ⟨h1, _⟩ | h
      · exact absurd hp h1
      · exact h
    have : Sm2.combined c pub s t = (c.add (c.scalarMult pub.x pub.y (natBytes t)) (c.scalarBaseMult (natBytes s))).1 := by
      unfold Sm2.combined; rw [hp]; cases c.opt <;> rfl
    rw [this, hx, hy, L.mult _ _ hne (by rwa [beNat_natBytes]), L.base, L.add, beNat_natBytes, beNat_natBytes,
      add_comm]
  · have : Sm2.combined c pub s t = (o.combinedMult (o.initPubKeyTable pub.x pub.y) (natBytes s) (natBytes t)).1 := by
      unfold Sm2.combined; rw [hp, ho]
    rw [this, hx, hy, L.combined o ho Q hne, beNat_natBytes, beNat_natBytes]

theorem modInverse_spec (g : Int) (h : ((g : ZMod N)) ≠ 0) : ((modInverse g : Int) : ZMod N) = (g : ZMod N)⁻¹ := by
  have : Int.gcd g N = 1 := by
    rw [Int.gcd_comm]
    have hd : ¬ (N : Int) ∣ g := by rwa [← ZMod.intCast_zmod_eq_zero_iff_dvd] 
    have := (Nat.Prime.coprime_iff_not_dvd N_prime (n := g.natAbs)).2 (by rwa [← Int.natCast_dvd])
    rw [Int.gcd, Int.natAbs_natCast]; exact this
  rw [modInverse, if_pos this]
  simp

end Verif.Sm2
