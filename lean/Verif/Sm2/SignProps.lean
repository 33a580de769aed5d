import Verif.Sm2.Lemmas
/-! Properties C10-C13 of SM2 signatures. -/
namespace Verif.Sm2
open Verif
variable {c : Curve} {G : Type} [AddCommGroup G]

/-- The value both signing functions return for nonce `k` and hash integer `e`. -/
private def core (c : Curve) (e k : Nat) (d inv : Int) : Int × Int :=
  let r : Int := ((e : Int) + (c.scalarBaseMult (natBytes k)).1) % N
  (r, ((k - r * d) * inv) % N)

private theorem signWithDigest_core (rand : Bytes) (priv : PrivateKey c) (dg : Bytes) :
    signWithDigest c rand priv dg = match generateRandK rand with
      | none => .panic
      | some k => .ok (core c (beNat dg) k priv.d (signInv priv)) := by
  unfold signWithDigest core
  cases generateRandK rand with
  | none => rfl
  | some k =>
    simp only [Res.ok.injEq, Prod.mk.injEq, true_and]
    simp [Int.mul_emod, Int.sub_emod]

private theorem sign_core (rand : Bytes) (priv : PrivateKey c) (msg : Bytes)
    (hx : priv.x < 256 ^ 32) (hy : priv.y < 256 ^ 32) :
    sign c rand priv msg = match generateRandK rand with
      | none => .panic
      | some k => .ok (core c (beNat (Spec.msgHash priv.x priv.y msg)) k priv.d (signInv priv)) := by
  unfold sign core
  rw [msgDigest_spec _ _ _ hx hy]
  cases generateRandK rand <;> rfl

private theorem verify_core (pub : PublicKey c) (msg : Bytes) (r s : Int)
    (hx : pub.x < 256 ^ 32) (hy : pub.y < 256 ^ 32) :
    verify c pub msg r s = .ok (verifyWithDigest c pub (Spec.msgHash pub.x pub.y msg) r s) := by
  unfold verify verifyWithDigest
  rw [msgDigest_spec _ _ _ hx hy]
  split
  · rfl
  · split
    · rfl
    · simp

theorem Lawful.PubOf.lt {L : Lawful c G} {pub : PublicKey c} {Q : G} (h : L.PubOf pub Q) :
    pub.x < 256 ^ 32 ∧ pub.y < 256 ^ 32 := by
  have := L.enc_lt Q
  have hp := P_lt
  rw [h.x, h.y]
  omega

private theorem verifyWithDigest_iff (pub : PublicKey c) (dg : Bytes) (r s : Int) (L : Lawful c G) (Q : G)
    (h : L.PubOf pub Q) (hu : L.Usable pub (r + s).toNat) :
    verifyWithDigest c pub dg r s = true ↔
      (1 ≤ r ∧ r < N) ∧ (1 ≤ s ∧ s < N) ∧
      ((beNat dg : Int) + (L.enc (s.toNat • L.g + ((r + s) % N).toNat • Q)).1) % N = r := by
  unfold verifyWithDigest
  split
  · rename_i h1; simp; omega
  · split
    · rename_i h1; simp; omega
    · rename_i h1 h2
      push Not at h1 h2
      have e1 : s.natAbs = s.toNat := by omega
      have e2 : (r + s).natAbs = (r + s).toNat := by omega
      have e3 : ((r + s) % N).toNat • Q = (r + s).toNat • Q := by
        rw [← L.nsmul_mod (r + s).toNat]
        congr 1
        rw [Int.toNat_emod (by omega) (by omega)]; rfl
      dsimp only
      rw [e1, e2, h.combined _ _ hu, e3]
      simp only [decide_eq_true_eq]
      omega

private theorem scalar_eq (L : Lawful c G) (d k : Nat) (inv r s : Int)
    (hinv : (inv : ZMod N) * (1 + d) = 1) (hr : 0 ≤ r) (hs0 : 0 ≤ s) (hs : s = ((k - r * d) * inv) % N) :
    s.toNat • L.g + ((r + s) % N).toNat • (d • L.g) = k • L.g := by
  rw [← mul_nsmul', ← add_nsmul]
  apply L.nsmul_congr
  have hs' : (s : ZMod N) = (k - r * d) * inv := by
    rw [hs, ZMod.intCast_mod]; push_cast; ring
  have ht : ((((r + s) % N).toNat : Nat) : ZMod N) = (r : ZMod N) + s := by
    have : ((((r + s) % N).toNat : Nat) : Int) = (r + s) % N :=
      Int.toNat_of_nonneg (Int.emod_nonneg _ (by have := N_pos; omega))
    rw [← Int.cast_natCast (R := ZMod N), this, ZMod.intCast_mod]; push_cast; rfl
  have hsn : ((s.toNat : Nat) : ZMod N) = (s : ZMod N) := by
    rw [← Int.cast_natCast (R := ZMod N), Int.toNat_of_nonneg hs0]
  push_cast
  rw [ht, hsn, hs']
  linear_combination ((k : ZMod N) - r * d) * hinv

private theorem signInv_spec (L : Lawful c G) (priv : PrivateKey c) (d : Nat) (h : L.PrivOf priv d)
    (hd : (d + 1) % N ≠ 0) : ((signInv priv : Int) : ZMod N) * (1 + d) = 1 := by
  have hne : ((1 : ZMod N) + d) ≠ 0 := by
    intro h0
    apply hd
    rw [← Nat.dvd_iff_mod_eq_zero, ← ZMod.natCast_eq_zero_iff]
    push_cast; rw [add_comm]; exact h0
  have hs : signInv priv = modInverse (1 + d) := by
    unfold signInv
    rcases h.dInv with h1 | h1 <;> rw [h1]
    · rw [h.scalar]
    · simp only []; rw [add_comm]
  rw [hs, modInverse_spec _ (by push_cast; exact hne)]
  push_cast
  exact inv_mul_cancel₀ hne

private theorem core_verifies (L : Lawful c G) (priv : PrivateKey c) (d : Nat) (h : L.PrivOf priv d)
    (hd : (d + 1) % N ≠ 0) (dg : Bytes) (k : Nat) (r s : Int)
    (hrs : core c (beNat dg) k priv.d (signInv priv) = (r, s)) (hr : r ≠ 0) (hs : s ≠ 0)
    (pub : PublicKey c) (hpub : L.PubOf pub (d • L.g)) (hu : L.Usable pub (r + s).toNat) :
    verifyWithDigest c pub dg r s = true := by
  simp only [core, Prod.mk.injEq] at hrs
  obtain ⟨hr', hs'⟩ := hrs
  rw [hr'] at hs'
  have hN : (0 : Int) < N := by have := N_pos; omega
  have r0 : 0 ≤ r := hr' ▸ Int.emod_nonneg _ hN.ne'
  have rN : r < N := hr' ▸ Int.emod_lt_of_pos _ hN
  have s0 : 0 ≤ s := hs' ▸ Int.emod_nonneg _ hN.ne'
  have sN : s < N := hs' ▸ Int.emod_lt_of_pos _ hN
  rw [verifyWithDigest_iff pub dg r s L _ hpub hu]
  refine ⟨by omega, by omega, ?_⟩
  rw [scalar_eq L d k (signInv priv) r s (signInv_spec L priv d h hd) r0 s0 (by rw [← hs', h.scalar]), ← hr',
    L.base, beNat_natBytes]

/-- **C10 (digest form).** A pair made by `SignWithDigest` with a key `d ≢ -1 (mod n)`, with both
components nonzero, is accepted by `VerifyWithDigest` under every representation of the public key. -/
theorem C10_signWithDigest_verifies (L : Lawful c G) (priv : PrivateKey c) (d : Nat)
    (h : L.PrivOf priv d) (hd : (d + 1) % N ≠ 0) (rand dg : Bytes) (r s : Int)
    (hsign : signWithDigest c rand priv dg = .ok (r, s)) (hr : r ≠ 0) (hs : s ≠ 0)
    (pub : PublicKey c) (hpub : L.PubOf pub (d • L.g)) (hu : L.Usable pub (r + s).toNat) :
    verifyWithDigest c pub dg r s = true := by
  rw [signWithDigest_core] at hsign
  cases hk : generateRandK rand with
  | none => rw [hk] at hsign; simp at hsign
  | some k =>
    rw [hk] at hsign
    exact core_verifies L priv d h hd dg k r s (by simpa using hsign) hr hs pub hpub hu

/-- **C10 (message form).** -/
theorem C10_sign_verifies (L : Lawful c G) (priv : PrivateKey c) (d : Nat)
    (h : L.PrivOf priv d) (hd : (d + 1) % N ≠ 0) (rand msg : Bytes) (r s : Int)
    (hsign : sign c rand priv msg = .ok (r, s)) (hr : r ≠ 0) (hs : s ≠ 0)
    (pub : PublicKey c) (hpub : L.PubOf pub (d • L.g)) (hu : L.Usable pub (r + s).toNat) :
    verify c pub msg r s = .ok true := by
  have hl := h.pub.lt
  have hl' := hpub.lt
  rw [sign_core _ _ _ hl.1 hl.2] at hsign
  rw [verify_core _ _ _ _ hl'.1 hl'.2]
  cases hk : generateRandK rand with
  | none => rw [hk] at hsign; simp at hsign
  | some k =>
    rw [hk] at hsign
    have hx : priv.x = pub.x := by rw [h.pub.x, hpub.x]
    have hy : priv.y = pub.y := by rw [h.pub.y, hpub.y]
    rw [hx, hy] at hsign
    rw [core_verifies L priv d h hd _ k r s (by simpa using hsign) hr hs pub hpub hu]

/-- `GenerateKey` makes well-formed keys: with C10 this covers every key the library generates. -/
theorem C10_generated_keys (L : Lawful c G) (rand : Bytes) (priv : PrivateKey c)
    (h : generateKey c rand = .ok priv) :
    ∃ d : Nat, 1 ≤ d ∧ d < N ∧ L.PrivOf priv d := by
  unfold generateKey at h
  cases hk : randFieldElement rand with
  | panic => rw [hk] at h; simp at h
  | err e => rw [hk] at h; simp at h
  | ok k =>
    rw [hk] at h
    simp only [Res.ok_bind, Res.ok.injEq] at h
    have hb : 1 ≤ k ∧ k < N := by
      unfold randFieldElement at hk
      split at hk
      · simp at hk
      · simp only [Res.ok.injEq] at hk
        rename_i b _ _
        have := Nat.mod_lt (beNat b) (show 0 < N - 1 by decide)
        omega
    refine ⟨k, hb.1, hb.2, ?_⟩
    subst h
    refine ⟨⟨?_, ?_, ?_, ?_⟩, rfl, Or.inr rfl⟩
    · intro h0
      have := Nat.le_of_dvd hb.1 (L.nsmul_g_eq_zero h0)
      omega
    · simp [L.base, beNat_natBytes]
    · simp [L.base, beNat_natBytes]
    · cases ho : c.opt with
      | none => left; simp
      | some o => right; exact ⟨o, rfl, by simp⟩

/-- **C11, exact acceptance.** `VerifyWithDigest` accepts exactly what the standard accepts, plus the
pairs with `r + s = n` that satisfy the final equation (the standard's step B5 rejects those). -/
theorem C11_digest_partial (L : Lawful c G) (pub : PublicKey c) (Q : G) (hpub : L.PubOf pub Q) (dg : Bytes)
    (r s : Int) (hu : L.Usable pub (r + s).toNat) :
    verifyWithDigest c pub dg r s = true ↔
      Spec.Accepts L Q (beNat dg) r s ∨
      (1 ≤ r ∧ 1 ≤ s ∧ r + s = N ∧ ((beNat dg : Int) + (L.enc (s.toNat • L.g)).1) % N = r) := by
  rw [verifyWithDigest_iff pub dg r s L Q hpub hu]
  unfold Spec.Accepts
  constructor
  · rintro ⟨h1, h2, h3⟩
    by_cases ht : (r + s) % N = 0
    · right
      have : r + s = N := by
        obtain ⟨q, hq⟩ := Int.dvd_of_emod_eq_zero ht
        have : q = 1 := by
          have hN : (0 : Int) < N := by have := N_pos; omega
          have q1 : 0 < q := by
            by_contra hc
            have : (N : Int) * q ≤ 0 := Int.mul_nonpos_of_nonneg_of_nonpos hN.le (by omega)
            omega
          have q2 : q < 2 := by
            by_contra hc
            have : (N : Int) * 2 ≤ N * q := Int.mul_le_mul_of_nonneg_left (by omega) hN.le
            omega
          omega
        rw [hq, this, mul_one]
      rw [ht] at h3
      simp only [Int.toNat_zero, zero_nsmul, add_zero] at h3
      exact ⟨h1.1, h2.1, this, h3⟩
    · left; exact ⟨h1, h2, ht, h3⟩
  · rintro (⟨h1, h2, _, h3⟩ | ⟨h1, h2, h3, h4⟩)
    · exact ⟨h1, h2, h3⟩
    · refine ⟨by omega, by omega, ?_⟩
      have : (r + s) % N = 0 := by rw [h3]; simp
      rw [this]
      simpa using h4

/-- The message form of C11: the digest is the standard's `H(Z‖M)`. -/
theorem C11_message_partial (L : Lawful c G) (pub : PublicKey c) (Q : G) (hpub : L.PubOf pub Q) (msg : Bytes)
    (r s : Int) (hu : L.Usable pub (r + s).toNat) :
    ∃ b, verify c pub msg r s = .ok b ∧ (b = true ↔
      Spec.Accepts L Q (beNat (Spec.msgHash pub.x pub.y msg)) r s ∨
      (1 ≤ r ∧ 1 ≤ s ∧ r + s = N ∧
        ((beNat (Spec.msgHash pub.x pub.y msg) : Int) + (L.enc (s.toNat • L.g)).1) % N = r)) := by
  refine ⟨_, verify_core _ _ _ _ hpub.lt.1 hpub.lt.2, ?_⟩
  exact C11_digest_partial L pub Q hpub _ r s hu

/-- Out-of-range values are rejected whatever the key and even if the curve object is broken. -/
theorem C11_range (c : Curve) (pub : PublicKey c) (msg dg : Bytes) (r s : Int)
    (h : r ≤ 0 ∨ s ≤ 0 ∨ (N : Int) ≤ r ∨ (N : Int) ≤ s) :
    verify c pub msg r s = .ok false ∧ verifyWithDigest c pub dg r s = false := by
  unfold verify verifyWithDigest
  by_cases h1 : r ≤ 0 ∨ s ≤ 0
  · simp [h1]
  · have h2 : (N : Int) ≤ r ∨ (N : Int) ≤ s := by omega
    simp [h1, h2]

/-- **C11 is violated by the missing `t = 0` check**: for *every* public key and every `s` there is a
digest accepted with `(n - s, s)`, which the standard rejects. No private key is involved. -/
theorem C11_t_zero_violated (L : Lawful c G) (pub : PublicKey c) (Q : G) (hpub : L.PubOf pub Q)
    (s : Nat) (hs : 1 ≤ s ∧ s < N) (hu : L.Usable pub N) :
    ∃ dg : Bytes, dg.length = 32 ∧ verifyWithDigest c pub dg ((N - s : Nat) : Int) s = true ∧
      ¬ Spec.Accepts L Q (beNat dg) ((N - s : Nat) : Int) s := by
  have hN : (0 : Int) < N := by have := N_pos; omega
  let e : Nat := ((((N - s : Nat) : Int) - (L.enc (s • L.g)).1) % N).toNat
  have he0 := Int.emod_nonneg (((N - s : Nat) : Int) - (L.enc (s • L.g)).1) hN.ne'
  have heN := Int.emod_lt_of_pos (((N - s : Nat) : Int) - (L.enc (s • L.g)).1) hN
  have heE : (e : Int) = (((N - s : Nat) : Int) - (L.enc (s • L.g)).1) % N := Int.toNat_of_nonneg he0
  have hlt : e < 256 ^ 32 := by have := N_lt; omega
  have hsum : ((N - s : Nat) : Int) + s = N := by omega
  refine ⟨beFixed 32 e, by simp, ?_, ?_⟩
  · rw [C11_digest_partial L pub Q hpub _ _ _ (by rw [hsum]; simpa using hu)]
    right
    refine ⟨by omega, by omega, hsum, ?_⟩
    rw [beNat_beFixed_of_lt hlt, heE]
    simp only [Int.toNat_natCast, Int.emod_add_emod, Int.sub_add_cancel]
    exact Int.emod_eq_of_lt (by omega) (by omega)
  · rintro ⟨_, _, h, _⟩
    apply h
    rw [hsum]; simp

/-- **C12.** Every nonce and every private scalar lies in `[1, n-1]`, whatever the source delivers. -/
theorem C12_range (rand : Bytes) (k : Nat)
    (h : generateRandK rand = some k ∨ randFieldElement rand = .ok k) : 1 ≤ k ∧ k ≤ N - 1 := by
  have hm : ∀ b : Bytes, 1 ≤ beNat b % (N - 1) + 1 ∧ beNat b % (N - 1) + 1 ≤ N - 1 := by
    intro b
    have := Nat.mod_lt (beNat b) (show 0 < N - 1 by decide)
    omega
  rcases h with h | h
  · unfold generateRandK at h
    split at h
    · simp at h
    · simp at h; rw [← h]; exact hm _
  · unfold randFieldElement at h
    split at h
    · simp at h
    · simp at h; rw [← h]; exact hm _

/-- every value of `[1, n-1]` does occur -/
theorem C12_onto (k : Nat) (h : 1 ≤ k ∧ k ≤ N - 1) :
    ∃ rand : Bytes, rand.length = 40 ∧ generateRandK rand = some k ∧ randFieldElement rand = .ok k := by
  refine ⟨beFixed 40 (k - 1), by simp, ?_, ?_⟩ <;>
  · have hl : k - 1 < 256 ^ 40 := by
      have : N < 256 ^ 40 := by decide
      omega
    have e : beNat ((beFixed 40 (k - 1)).take 40) % (N - 1) + 1 = k := by
      rw [List.take_of_length_le (by simp), beNat_beFixed_of_lt hl, Nat.mod_eq_of_lt (by omega)]
      omega
    simp [generateRandK, randFieldElement, readFull, nonceBytes, e]

/-- A source that fails before 40 bytes: `GenerateKey` returns an error and no key. -/
theorem C12_failing_source (c : Curve) (rand : Bytes) (h : rand.length < 40) :
    ∃ e, generateKey c rand = .err e := by
  refine ⟨"read", ?_⟩
  simp [generateKey, randFieldElement, readFull, nonceBytes, Nat.not_le.2 h]

/-- …whereas signing swallows the error and dereferences a nil nonce. -/
theorem C12_sign_panics_on_failing_source (c : Curve) (priv : PrivateKey c) (rand dg : Bytes)
    (h : rand.length < 40) : signWithDigest c rand priv dg = .panic := by
  simp [signWithDigest, generateRandK, readFull, nonceBytes, Nat.not_le.2 h]

/-- **C13 is violated by the key `d = n-1`**, which `GenerateKey` can produce: every signature made
with it has `s = 0` and is rejected by `Verify`. -/
theorem C13_key_minus_one_violated (L : Lawful c G) (priv : PrivateKey c) (h : L.PrivOf priv (N - 1))
    (rand dg : Bytes) (r s : Int) (hsign : signWithDigest c rand priv dg = .ok (r, s)) :
    s = 0 ∧ ∀ pub : PublicKey c, verifyWithDigest c pub dg r s = false := by
  have hinv : signInv priv = N := by
    have hg : ((N - 1 : Nat) : Int) + 1 = N := by have := N_pos; omega
    have hm : modInverse (N : Int) = N := by
      rw [modInverse, if_neg]
      rw [Int.gcd_self]; decide
    unfold signInv
    rcases h.dInv with h1 | h1 <;> rw [h1]
    · simp only []; rw [h.scalar, add_comm, hg, hm]
    · simp only []; rw [hg, hm]
  rw [signWithDigest_core] at hsign
  cases hk : generateRandK rand with
  | none => rw [hk] at hsign; simp at hsign
  | some k =>
    rw [hk] at hsign
    simp only [core, Res.ok.injEq, Prod.mk.injEq, hinv] at hsign
    have hs : s = 0 := by rw [← hsign.2]; simp
    exact ⟨hs, fun pub => (C11_range c pub [] dg r s (Or.inr (Or.inl hs.le))).2⟩

/-- `GenerateKey` does produce that key for some random bytes. -/
theorem C13_key_minus_one_reachable (L : Lawful c G) :
    ∃ rand priv, generateKey c rand = .ok priv ∧ L.PrivOf priv (N - 1) := by
  obtain ⟨rand, _, _, h⟩ := C12_onto (N - 1) ⟨by decide, le_refl _⟩
  have hk : ∃ priv, generateKey c rand = .ok priv ∧ priv.d = ((N - 1 : Nat) : Int) := by
    simp only [generateKey, h, Res.ok_bind]
    exact ⟨_, rfl, rfl⟩
  obtain ⟨priv, hp, hd⟩ := hk
  obtain ⟨d, _, _, hP⟩ := C10_generated_keys L rand priv hp
  have : d = N - 1 := by have := hP.scalar; omega
  exact ⟨rand, priv, hp, this ▸ hP⟩

/-- **C13, exact**: for the other keys the signature is rejected iff `r = 0` or `s = 0`, i.e. iff
`e + x(kG) ≡ 0` or `k ≡ r·d (mod n)`; the code never retries. -/
theorem C13_exact_partial (L : Lawful c G) (priv : PrivateKey c) (d : Nat)
    (h : L.PrivOf priv d) (hd : (d + 1) % N ≠ 0) (rand dg : Bytes) (k : Nat)
    (hk : generateRandK rand = some k) :
    ∃ r s, signWithDigest c rand priv dg = .ok (r, s) ∧
      (r = 0 ↔ ((beNat dg : Int) + (L.enc (k • L.g)).1) % N = 0) ∧
      (s = 0 ↔ ((k : Int) - r * d) % N = 0) ∧
      ∀ pub, L.PubOf pub (d • L.g) → L.Usable pub (r + s).toNat →
        (verifyWithDigest c pub dg r s = false ↔ (r = 0 ∨ s = 0)) := by
  have hN : (0 : Int) < N := by have := N_pos; omega
  refine ⟨(core c (beNat dg) k priv.d (signInv priv)).1, (core c (beNat dg) k priv.d (signInv priv)).2, ?_, ?_, ?_, ?_⟩
  · rw [signWithDigest_core, hk]
  · simp only [core, L.base, beNat_natBytes]
  · have hinv := signInv_spec L priv d h hd
    simp only [core, h.scalar]
    generalize ((beNat dg : Int) + (c.scalarBaseMult (natBytes k)).1) % N = r
    rw [← Int.dvd_iff_emod_eq_zero, ← Int.dvd_iff_emod_eq_zero, ← ZMod.intCast_zmod_eq_zero_iff_dvd,
      ← ZMod.intCast_zmod_eq_zero_iff_dvd, Int.cast_mul]
    constructor
    · intro h0
      have := congrArg (· * ((1 : ZMod N) + d)) h0
      simp only [zero_mul, mul_assoc, hinv, mul_one] at this
      exact this
    · intro h0; rw [h0, zero_mul]
  · intro pub hpub hu
    by_cases h0 : (core c (beNat dg) k priv.d (signInv priv)).1 = 0 ∨ (core c (beNat dg) k priv.d (signInv priv)).2 = 0
    · simp only [h0, iff_true]
      apply (C11_range c pub [] dg _ _ ?_).2
      rcases h0 with h0 | h0 <;> omega
    · simp only [h0, iff_false, Bool.not_eq_false]
      push Not at h0
      exact core_verifies L priv d h hd dg k _ _ rfl h0.1 h0.2 pub hpub hu

/-- **C13 is violated for every key and every nonce**: there is a digest whose "signature" has `r = 0`. -/
theorem C13_r_zero_violated (L : Lawful c G) (priv : PrivateKey c) (rand : Bytes) (k : Nat)
    (hk : generateRandK rand = some k) :
    ∃ dg : Bytes, dg.length = 32 ∧ ∃ s, signWithDigest c rand priv dg = .ok (0, s) := by
  have hN : (0 : Int) < N := by have := N_pos; omega
  let e : Nat := ((-((L.enc (k • L.g)).1 : Int)) % N).toNat
  have he0 := Int.emod_nonneg (-((L.enc (k • L.g)).1 : Int)) hN.ne'
  have heN := Int.emod_lt_of_pos (-((L.enc (k • L.g)).1 : Int)) hN
  have heE : (e : Int) = (-((L.enc (k • L.g)).1 : Int)) % N := Int.toNat_of_nonneg he0
  have hlt : e < 256 ^ 32 := by have := N_lt; omega
  refine ⟨beFixed 32 e, by simp, (core c e k priv.d (signInv priv)).2, ?_⟩
  rw [signWithDigest_core, hk]
  have h0 : (core c (beNat (beFixed 32 e)) k priv.d (signInv priv)).1 = 0 := by
    simp only [core, L.base, beNat_natBytes]
    rw [beNat_beFixed_of_lt hlt, heE, Int.emod_add_emod]
    simp
  simp only [Res.ok.injEq]
  rw [beNat_beFixed_of_lt hlt] at h0 ⊢
  exact Prod.ext h0 rfl

end Verif.Sm2
