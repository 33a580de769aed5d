import Verif.Sm2.Amd64.EndToEnd
import Verif.Sm2.ExternalProps
/-!
Concrete, non-trivial runs on the real curve, showing that the hypotheses of the SM2 theorems (C10-C20, C44, C46) are met together: the key pair `d = 1`, `Q = G`, which
`GenerateKey` returns for forty zero bytes of randomness, and the nonce `k = 1`, which the same randomness gives.
-/
namespace Verif.Sm2.Witness
open Verif Verif.Sm2 Verif.Sm2.Amd64

/-- forty zero bytes -/
def zeros : Bytes := List.replicate 40 0

theorem zeros_randK : generateRandK zeros = some 1 := by decide +kernel
theorem zeros_field : randFieldElement zeros = .ok 1 := by decide +kernel

theorem enc_g : sm2Lawful.enc (1 • sm2Lawful.g) = (Gx, Gy) := by
  rw [one_nsmul]
  show ((Gx : F).val, (Gy : F).val) = _
  rw [ZMod.val_natCast, ZMod.val_natCast, Nat.mod_eq_of_lt (by decide), Nat.mod_eq_of_lt (by decide)]

theorem base_one : sm2Curve.scalarBaseMult (natBytes 1) = (Gx, Gy) := by
  rw [sm2Lawful.base, beNat_natBytes, enc_g]

/-- `(1+1)^-1 mod n` -/
theorem inv_two : modInverse 2 = ((N + 1) / 2 : Nat) := by
  have h1 := modInverse_spec 2 (by
    intro h
    have : (N : Int) ∣ 2 := by rw [← ZMod.intCast_zmod_eq_zero_iff_dvd]; exact_mod_cast h
    exact absurd this (by decide))
  have h2 : (((N + 1) / 2 : Nat) : ZMod N) * 2 = 1 := by
    have e : (N + 1) / 2 * 2 = N + 1 := by decide
    generalize (N + 1) / 2 = m at e ⊢
    have : ((m * 2 : Nat) : ZMod N) = ((N + 1 : Nat) : ZMod N) := by rw [e]
    rw [Nat.cast_mul, Nat.cast_add, ZMod.natCast_self, zero_add, Nat.cast_one] at this
    exact_mod_cast this
  have h3 : (((N + 1) / 2 : Nat) : ZMod N) = ((modInverse 2 : Int) : ZMod N) := by
    rw [h1]
    push_cast
    exact eq_inv_of_mul_eq_one_left h2
  have hr : ∃ v : Nat, v < N ∧ modInverse 2 = (v : Int) := by
    unfold modInverse
    rw [if_pos (by decide)]
    exact ⟨_, ZMod.val_lt _, rfl⟩
  obtain ⟨v, hv, e⟩ := hr
  rw [e] at h3 ⊢
  have h4 := congrArg ZMod.val h3
  rw [ZMod.val_natCast, Int.cast_natCast, ZMod.val_natCast, Nat.mod_eq_of_lt (by decide), Nat.mod_eq_of_lt hv] at h4
  rw [h4]

/-- the key `GenerateKey` returns for `zeros` -/
noncomputable def key : PrivateKey sm2Curve :=
  { x := Gx, y := Gy, pre := sm2Curve.opt.map (fun o => o.initPubKeyTable Gx Gy), d := 1, dInv := some ((N + 1) / 2 : Nat) }

theorem key_generated : generateKey sm2Curve zeros = .ok key := by
  simp only [generateKey, zeros_field, Res.ok_bind, base_one]
  rw [show ((1 : Nat) : Int) + 1 = 2 from rfl, inv_two]
  rfl

theorem key_of : sm2Lawful.PrivOf key 1 := by
  obtain ⟨d, _, _, h⟩ := C10_generated_keys sm2Lawful zeros key key_generated
  have : d = 1 := by
    have := h.scalar
    rw [show key.d = 1 from rfl] at this
    omega
  exact this ▸ h

/-- what a signature made with this key and the nonce 1 is, given the SM3 digest of the signed bytes -/
theorem sign_value (msg hm : Bytes) (h : msgDigest Gx Gy msg = .ok hm) :
    sign sm2Curve zeros key msg =
      .ok (((beNat hm : Int) + Gx) % N, ((1 - ((beNat hm : Int) + Gx) % N * 1) * ((N + 1) / 2 : Nat)) % N) := by
  have hd : msgDigest key.x key.y msg = .ok hm := h
  unfold sign
  rw [hd, Res.ok_bind, zeros_randK]
  simp only [base_one]
  rfl

/-- "abc" -/
def abc : Bytes := [0x61, 0x62, 0x63]

def okVal : Res Bytes → Bytes
  | .ok b => b
  | _ => []

def abcDigest : Bytes := okVal (msgDigest Gx Gy abc)
theorem abc_digest : msgDigest Gx Gy abc = .ok abcDigest := by decide +kernel

/-- the key stream for a 48-byte message and the shared point `G` -/
def stream48 : Bytes := match keyDerivation (zOf (padCoord Gx) (padCoord Gy)) (48 * 8) with
  | .ok (some t) => t
  | _ => []
theorem stream48_eq : keyDerivation (zOf (padCoord Gx) (padCoord Gy)) (48 * 8) = .ok (some stream48) := by decide +kernel
theorem stream48_ne : allZeroScan stream48 = false := by decide +kernel
theorem stream48_len : stream48.length = 48 := by decide +kernel

/-- encryption of every 48-byte message (a GM premaster secret) to the key succeeds, with the table or without -/
theorem encrypts (pub : PublicKey sm2Curve) (h : sm2Lawful.PubOf pub (1 • sm2Lawful.g)) (msg : Bytes) (hm : msg.length = 48) :
    ∃ ct, encrypt sm2Curve zeros pub msg = some (.ok ct) := by
  have hu : sm2Lawful.Usable pub 1 := Or.inr (by
    rw [show 1 % N = 1 by decide]
    show 1 ∉ ({N - 6} : Set Nat)
    simp only [Set.mem_singleton_iff]
    decide)
  have h2 := h.encPoint 1 hu
  rw [one_nsmul, enc_g] at h2
  have hx : xorInto stream48 msg = .ok (Spec.xor stream48 msg) := xorInto_spec _ _ (by rw [stream48_len, hm])
  unfold encrypt doEncrypt
  rw [zeros_randK]
  simp only [h2, hm]
  rw [show (((48 : Nat) : Int) * 8) = 48 * 8 from rfl, stream48_eq]
  simp only [stream48_ne, Bool.false_eq_true, if_false, Option.map_some, hx, Res.ok_bind]
  rw [Sm3.C02_sumSM3_is_standard]
  exact ⟨_, rfl⟩

/-- the signature of "abc" -/
def r0 : Int := ((beNat abcDigest : Int) + Gx) % N
def s0 : Int := ((1 - r0 * 1) * ((N + 1) / 2 : Nat)) % N

theorem r0_ne : r0 ≠ 0 := by decide +kernel
theorem s0_ne : s0 ≠ 0 := by decide +kernel
theorem sum_ok : (r0 + s0).toNat % N ≠ N - 6 := by decide +kernel
theorem signed_abc : sign sm2Curve zeros key abc = .ok (r0, s0) := sign_value abc abcDigest abc_digest

theorem r0_range : 1 ≤ r0 ∧ r0 < N := by decide +kernel
theorem s0_range : 1 ≤ s0 ∧ s0 < N := by decide +kernel

theorem key_not_minus_one : key.d ≠ (N : Int) - 1 := by show (1 : Int) ≠ _; decide
theorem key_not_minus_six : key.d ≠ (N : Int) - 6 := by show (1 : Int) ≠ _; decide

/-- C10: all hypotheses of `C10_amd64` hold for this key, nonce and message, so the signature verifies -/
theorem verifies_abc : verify sm2Curve key.toPublicKey abc r0 s0 = .ok true :=
  C10_amd64 zeros zeros abc key key_generated key_not_minus_one r0 s0 signed_abc r0_ne s0_ne

/-- C11 is not vacuous: a pair that is accepted, and (by `C11_range`) one that is not -/
example : verify sm2Curve key.toPublicKey abc 0 s0 = .ok false :=
  (C11_range sm2Curve key.toPublicKey abc [] 0 s0 (by omega)).1

/-- C15: encryption to this key succeeds and decryption returns the message -/
example : ∃ ct, encrypt sm2Curve zeros key.toPublicKey (List.replicate 48 7) = some (.ok ct) ∧
    decrypt key ct = .ok (List.replicate 48 7) := by
  obtain ⟨ct, h⟩ := encrypts key.toPublicKey key_of.pub (List.replicate 48 7) (by simp)
  exact ⟨ct, h, (C15_amd64_partial zeros zeros _ ct key key_generated key_not_minus_six h).1⟩

end Verif.Sm2.Witness
