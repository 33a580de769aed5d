import Verif.Sm4.ModeLemmas
/-
Property theorems about SM4: C04 - C09 and C56.
-/
namespace Verif.Sm4
open Spec (blk bxor Padded)

/-- C06. `NewCipher` fails exactly for keys that are not 16 bytes long, with an error carrying the
length; `Sm4Ecb`/`Sm4Cbc` fail with the same error for those keys, whatever the data and mode. -/
theorem C06_key_size (key input : Bytes) (mode : Mode) :
    (key.length ≠ 16 → newCipher key = .err (keySizeError key.length) ∧
      sm4Ecb key input mode = .err (keySizeError key.length) ∧
      sm4Cbc key input mode = .err (keySizeError key.length)) ∧
    (key.length = 16 → ∃ c, newCipher key = .ok c) := by
  refine ⟨fun h => ⟨?_, ?_, ?_⟩, fun h => ?_⟩
  · simp [newCipher, blockSize, h]
  · simp [sm4Ecb, blockSize, h]
  · simp [sm4Cbc, blockSize, h]
  · obtain ⟨c, hc, _⟩ := newCipher_ok key h; exact ⟨c, hc⟩

/-- C05. For every 16-byte key, the cipher object's Encrypt/Decrypt write the GB/T 32907 result to
the start of `dst` (as much as fits), for every source of at least 16 bytes, and panic for shorter
sources. -/
theorem C05_is_standard (key : Bytes) (hk : key.length = 16) :
    ∃ c, newCipher key = .ok c ∧ ∀ dst src,
      (16 ≤ src.length → encrypt c dst src = .ok (copyAt dst 0 (Spec.enc key src)) ∧
        decrypt c dst src = .ok (copyAt dst 0 (Spec.dec key src))) ∧
      (src.length < 16 → encrypt c dst src = .panic ∧ decrypt c dst src = .panic) := by
  obtain ⟨c, hc, _, hrk⟩ := newCipher_ok key hk
  refine ⟨c, hc, fun dst src => ⟨fun h => ⟨encrypt_ok key c dst src h hrk, decrypt_ok key c dst src h hrk⟩,
    fun h => ?_⟩⟩
  simp [encrypt, decrypt, cryptBlock, h]

/-- C05, the four 256-word tables are L applied to the S-box output in each byte position, and the
S-box table is the algebraic S-box. -/
theorem C05_tables (x : Byte) :
    scSbox x = Spec.S x ∧
    sbox0.getD x.toNat 0 = Spec.L ((Spec.S x).setWidth 32) ∧
    sbox1.getD x.toNat 0 = Spec.L ((Spec.S x).setWidth 32 <<< 8) ∧
    sbox2.getD x.toNat 0 = Spec.L ((Spec.S x).setWidth 32 <<< 16) ∧
    sbox3.getD x.toNat 0 = Spec.L ((Spec.S x).setWidth 32 <<< 24) :=
  ⟨scSbox_eq x, tbl0_eq x, tbl1_eq x, tbl2_eq x, tbl3_eq x⟩

/-- C04. Decrypt inverts Encrypt and Encrypt inverts Decrypt, for every key and block. -/
theorem C04_inverse (key : Bytes) (hk : key.length = 16) :
    ∃ c, newCipher key = .ok c ∧ ∀ b dst dst', b.length = 16 → dst.length = 16 → dst'.length = 16 →
      (∃ ct, encrypt c dst b = .ok ct ∧ ct.length = 16 ∧ decrypt c dst' ct = .ok b) ∧
      (∃ pt, decrypt c dst b = .ok pt ∧ pt.length = 16 ∧ encrypt c dst' pt = .ok b) := by
  obtain ⟨c, hc, _, hrk⟩ := newCipher_ok key hk
  refine ⟨c, hc, fun b dst dst' hb hd hd' => ⟨⟨Spec.enc key b, ?_, enc_length _ _, ?_⟩,
    ⟨Spec.dec key b, ?_, dec_length _ _, ?_⟩⟩⟩
  · rw [encrypt_ok key c _ _ (by omega) hrk, copyAt_zero _ _ (by rw [enc_length]; omega)]
  · rw [decrypt_ok key c _ _ (by rw [enc_length]; omega) hrk,
      copyAt_zero _ _ (by rw [dec_length]; omega), dec_enc key b hb]
  · rw [decrypt_ok key c _ _ (by omega) hrk, copyAt_zero _ _ (by rw [dec_length]; omega)]
  · rw [encrypt_ok key c _ _ (by rw [dec_length]; omega) hrk,
      copyAt_zero _ _ (by rw [enc_length]; omega), enc_dec key b hb]

/-- ECB encryption: length, and every ciphertext block is SM4 of the padded message's block. -/
theorem C07_ecb_enc (key m : Bytes) (hk : key.length = 16) :
    ∃ p c, Padded m p ∧ sm4Ecb key m .enc = .ok c ∧ c.length = 16 * (m.length / 16 + 1) ∧
      p.length = c.length ∧ ∀ i, i < c.length / 16 → blk c i = Spec.enc key (blk p i) := by
  obtain ⟨c, hc, _, hrk⟩ := newCipher_ok key hk
  obtain ⟨hp, hpl⟩ := padding_padded m
  obtain ⟨o, h1, h2, h3, _⟩ := ecbLoop_ok (encrypt c) (Spec.enc key) (pkcs7Padding m)
    (List.replicate (pkcs7Padding m).length 0) (encrypt16 key c hrk) (enc_length key) (by simp)
    ((pkcs7Padding m).length / 16) (Nat.le_refl _)
  refine ⟨pkcs7Padding m, o, hp, ?_, by rw [h2, hpl], h2.symm, fun i hi => h3 i (by rw [← h2]; exact hi)⟩
  simp only [sm4Ecb, blockSize, hk, hc, ne_eq, not_true_eq_false, if_false, h1]

/-- CBC encryption: zero IV, chained on the previous ciphertext block. -/
theorem C07_cbc_enc (key m : Bytes) (hk : key.length = 16) :
    ∃ p c, Padded m p ∧ sm4Cbc key m .enc = .ok c ∧ c.length = 16 * (m.length / 16 + 1) ∧
      p.length = c.length ∧ ∀ i, i < c.length / 16 →
        blk c i = Spec.enc key (bxor (blk p i) (if i = 0 then List.replicate 16 0 else blk c (i-1))) := by
  obtain ⟨c, hc, _, hrk⟩ := newCipher_ok key hk
  obtain ⟨hp, hpl⟩ := padding_padded m
  obtain ⟨o, h1, h2, h3, _⟩ := cbcEncLoop_ok c (Spec.enc key) (pkcs7Padding m)
    (List.replicate (pkcs7Padding m).length 0) (encrypt16 key c hrk) (enc_length key) (by simp)
    ((pkcs7Padding m).length / 16) (Nat.le_refl _)
  refine ⟨pkcs7Padding m, o, hp, ?_, by rw [h2, hpl], h2.symm, fun i hi => h3 i (by rw [← h2]; exact hi)⟩
  simp only [sm4Cbc, blockSize, hk, hc, ne_eq, not_true_eq_false, if_false, h1, Res.ok_bind]

/-- ECB decryption of a nonempty block-aligned input: the padded plaintext is the blockwise SM4
decryption; if it is well padded its content is returned, otherwise nil **without an error**. -/
theorem C08_ecb_dec (key ct : Bytes) (hk : key.length = 16) (h0 : 0 < ct.length)
    (h16 : ct.length % 16 = 0) :
    ∃ p, p.length = ct.length ∧ (∀ i, i < ct.length / 16 → blk p i = Spec.dec key (blk ct i)) ∧
      (∀ m, Padded m p → sm4Ecb key ct .dec = .ok m) ∧
      ((¬ ∃ m, Padded m p) → sm4Ecb key ct .dec = .ok []) := by
  obtain ⟨c, hc, _, hrk⟩ := newCipher_ok key hk
  obtain ⟨o, h1, h2, h3, _⟩ := ecbLoop_ok (decrypt c) (Spec.dec key) ct
    (List.replicate ct.length 0) (decrypt16 key c hrk) (dec_length key) (by simp)
    (ct.length / 16) (Nat.le_refl _)
  have e : sm4Ecb key ct .dec = unpadIgnoringError o := by
    simp only [sm4Ecb, blockSize, hk, hc, ne_eq, not_true_eq_false, if_false, h1, Res.ok_bind]
  have hu := unpadIgnoring_eq o (by omega)
  rw [e]
  exact ⟨o, h2, h3, hu.1, hu.2⟩

/-- CBC decryption of a nonempty block-aligned input, likewise. -/
theorem C08_cbc_dec (key ct : Bytes) (hk : key.length = 16) (h0 : 0 < ct.length)
    (h16 : ct.length % 16 = 0) :
    ∃ p, p.length = ct.length ∧ (∀ i, i < ct.length / 16 → blk p i =
        bxor (Spec.dec key (blk ct i)) (if i = 0 then List.replicate 16 0 else blk ct (i-1))) ∧
      (∀ m, Padded m p → sm4Cbc key ct .dec = .ok m) ∧
      ((¬ ∃ m, Padded m p) → sm4Cbc key ct .dec = .ok []) := by
  obtain ⟨c, hc, _, hrk⟩ := newCipher_ok key hk
  obtain ⟨o, h1, h2, h3, _⟩ := cbcDecLoop_ok c (Spec.dec key) ct
    (List.replicate ct.length 0) (decrypt16 key c hrk) (dec_length key) (by simp)
    (ct.length / 16) (Nat.le_refl _)
  have e : sm4Cbc key ct .dec = unpadIgnoringError o := by
    simp only [sm4Cbc, blockSize, hk, hc, ne_eq, not_true_eq_false, if_false, h1, Res.ok_bind]
  have hu := unpadIgnoring_eq o (by omega)
  rw [e]
  exact ⟨o, h2, h3, hu.1, hu.2⟩

/-- C07. ECB round trip for every key and message, with the exact ciphertext length. -/
theorem C07_ecb_roundtrip (key m : Bytes) (hk : key.length = 16) :
    ∃ c, sm4Ecb key m .enc = .ok c ∧ c.length = 16 * (m.length / 16 + 1) ∧
      sm4Ecb key c .dec = .ok m := by
  obtain ⟨p, c, hp, h1, h2, h3, h4⟩ := C07_ecb_enc key m hk
  refine ⟨c, h1, h2, ?_⟩
  obtain ⟨p', hl, hb, hok, _⟩ := C08_ecb_dec key c hk (by omega) (by omega)
  refine hok m ?_
  have : p' = p := eq_of_blks _ _ (by omega) (by omega) (fun i hi => by
    rw [hb i (by omega), h4 i (by omega), dec_enc _ _ (blk_length _ _ (by omega))])
  rw [this]; exact hp

/-- C07. CBC round trip for every key and message, with the exact ciphertext length. -/
theorem C07_cbc_roundtrip (key m : Bytes) (hk : key.length = 16) :
    ∃ c, sm4Cbc key m .enc = .ok c ∧ c.length = 16 * (m.length / 16 + 1) ∧
      sm4Cbc key c .dec = .ok m := by
  obtain ⟨p, c, hp, h1, h2, h3, h4⟩ := C07_cbc_enc key m hk
  refine ⟨c, h1, h2, ?_⟩
  obtain ⟨p', hl, hb, hok, _⟩ := C08_cbc_dec key c hk (by omega) (by omega)
  refine hok m ?_
  have : p' = p := eq_of_blks _ _ (by omega) (by omega) (fun i hi => by
    have hbl : (blk p i).length = 16 := blk_length _ _ (by omega)
    have hpr : (if i = 0 then List.replicate 16 (0 : Byte) else blk c (i-1)).length = 16 :=
      prev_length c i (by omega)
    rw [hb i (by omega), h4 i (by omega), dec_enc _ _ (by rw [bxor_length _ _ (by omega), hbl]),
      bxor_cancel _ _ (by omega)])
  rw [this]; exact hp

/-- C08. The unpadding function accepts exactly well-formed PKCS#7 padding and strips it. -/
theorem C08_unpad_exact_partial (src m : Bytes) : pkcs7UnPadding src = .ok m ↔ Padded m src :=
  unpad_ok_iff src m

/-- C08 fails for the exported helpers: for every key there is a 16-byte ciphertext whose plaintext
is not padded at all and which ECB decryption and CBC decryption both accept, returning an empty
plaintext and no error.  (sm4/sm4.go:220 and 274 discard the error.) -/
theorem C08_bad_padding_not_reported_violated (key : Bytes) (hk : key.length = 16) :
    ∃ ct, ct.length = 16 ∧ (¬ ∃ m, Padded m (Spec.dec key ct)) ∧
      sm4Ecb key ct .dec = .ok [] ∧ sm4Cbc key ct .dec = .ok [] := by
  have hz : (List.replicate 16 (0 : Byte)).length = 16 := by simp
  have hd := dec_enc key (List.replicate 16 0) hz
  have hnp : ¬ ∃ m, Padded m (List.replicate 16 (0 : Byte)) := by
    rintro ⟨m, n, h1, h2, h⟩
    have hl : (m ++ List.replicate n (BitVec.ofNat 8 n)).getLast? = some (BitVec.ofNat 8 n) := by
      obtain ⟨k, rfl⟩ : ∃ k, n = k + 1 := ⟨n - 1, by omega⟩
      rw [List.replicate_succ', ← List.append_assoc, List.getLast?_concat]
    rw [← h] at hl
    simp at hl
    have := congrArg BitVec.toNat hl
    simp at this
    omega
  have hb : ∀ b : Bytes, b.length = 16 → blk b 0 = b := by
    intro b hb; simp [blk, List.take_of_length_le, hb]
  have hx : bxor (List.replicate 16 (0 : Byte)) (List.replicate 16 0) = List.replicate 16 0 := by decide
  refine ⟨Spec.enc key (List.replicate 16 0), enc_length _ _, by rw [hd]; exact hnp, ?_, ?_⟩
  · obtain ⟨p, hl, hp, _, hno⟩ := C08_ecb_dec key (Spec.enc key (List.replicate 16 0)) hk (by rw [enc_length]; omega) (by rw [enc_length])
    rw [enc_length] at hl hp
    have := hp 0 (by omega)
    rw [hb _ hl, hb _ (enc_length _ _), hd] at this
    exact hno (by rw [this]; exact hnp)
  · obtain ⟨p, hl, hp, _, hno⟩ := C08_cbc_dec key (Spec.enc key (List.replicate 16 0)) hk (by rw [enc_length]; omega) (by rw [enc_length])
    rw [enc_length] at hl hp
    have := hp 0 (by omega)
    rw [hb _ hl, hb _ (enc_length _ _), hd, if_pos rfl, hx] at this
    exact hno (by rw [this]; exact hnp)

theorem ecb_dec_unaligned (key ct : Bytes) (hk : key.length = 16) (h16 : ct.length % 16 ≠ 0) :
    sm4Ecb key ct .dec = .ok [] := by
  obtain ⟨c, hc, _, hrk⟩ := newCipher_ok key hk
  obtain ⟨o, h1, h2, _, h4⟩ := ecbLoop_ok (decrypt c) (Spec.dec key) ct
    (List.replicate ct.length 0) (decrypt16 key c hrk) (dec_length key) (by simp)
    (ct.length / 16) (Nat.le_refl _)
  have e : sm4Ecb key ct .dec = unpadIgnoringError o := by
    simp only [sm4Ecb, blockSize, hk, hc, ne_eq, not_true_eq_false, if_false, h1, Res.ok_bind]
  rw [List.drop_replicate] at h4
  rw [e]; exact unpad_zero_last _ (getLast_of_drop _ _ _ (by omega) h4)

theorem cbc_dec_unaligned (key ct : Bytes) (hk : key.length = 16) (h16 : ct.length % 16 ≠ 0) :
    sm4Cbc key ct .dec = .ok [] := by
  obtain ⟨c, hc, _, hrk⟩ := newCipher_ok key hk
  obtain ⟨o, h1, h2, _, h4⟩ := cbcDecLoop_ok c (Spec.dec key) ct
    (List.replicate ct.length 0) (decrypt16 key c hrk) (dec_length key) (by simp)
    (ct.length / 16) (Nat.le_refl _)
  have e : sm4Cbc key ct .dec = unpadIgnoringError o := by
    simp only [sm4Cbc, blockSize, hk, hc, ne_eq, not_true_eq_false, if_false, h1, Res.ok_bind]
  rw [List.drop_replicate] at h4
  rw [e]; exact unpad_zero_last _ (getLast_of_drop _ _ _ (by omega) h4)

/-- C09. With a 16-byte key, helper decryption panics on exactly one input, the empty one (so the
property "never panics" fails there), and never returns an error. -/
theorem C09_dec_panics_iff_empty_partial (key ct : Bytes) (hk : key.length = 16) :
    (sm4Ecb key ct .dec = .panic ↔ ct = []) ∧ (sm4Cbc key ct .dec = .panic ↔ ct = []) ∧
    (ct ≠ [] → (∃ m, sm4Ecb key ct .dec = .ok m) ∧ (∃ m, sm4Cbc key ct .dec = .ok m)) := by
  by_cases h0 : ct = []
  · subst h0
    obtain ⟨c, hc, _⟩ := newCipher_ok key hk
    refine ⟨?_, ?_, fun h => absurd rfl h⟩
    · simp [sm4Ecb, blockSize, hk, hc, ecbLoop, unpadIgnoringError, pkcs7UnPadding]
    · simp [sm4Cbc, blockSize, hk, hc, cbcDecLoop, unpadIgnoringError, pkcs7UnPadding]
  · have hl : 0 < ct.length := List.length_pos_iff.mpr h0
    have hE : ∃ m, sm4Ecb key ct .dec = .ok m := by
      by_cases h16 : ct.length % 16 = 0
      · obtain ⟨p, _, _, hy, hn⟩ := C08_ecb_dec key ct hk hl h16
        by_cases hp : ∃ m, Padded m p
        · obtain ⟨m, hm⟩ := hp; exact ⟨m, hy m hm⟩
        · exact ⟨[], hn hp⟩
      · exact ⟨[], ecb_dec_unaligned key ct hk h16⟩
    have hC : ∃ m, sm4Cbc key ct .dec = .ok m := by
      by_cases h16 : ct.length % 16 = 0
      · obtain ⟨p, _, _, hy, hn⟩ := C08_cbc_dec key ct hk hl h16
        by_cases hp : ∃ m, Padded m p
        · obtain ⟨m, hm⟩ := hp; exact ⟨m, hy m hm⟩
        · exact ⟨[], hn hp⟩
      · exact ⟨[], cbc_dec_unaligned key ct hk h16⟩
    refine ⟨⟨fun h => ?_, fun h => absurd h h0⟩, ⟨fun h => ?_, fun h => absurd h h0⟩, fun _ => ⟨hE, hC⟩⟩
    · obtain ⟨m, hm⟩ := hE; rw [hm] at h; cases h
    · obtain ⟨m, hm⟩ := hC; rw [hm] at h; cases h

/-- C09, inputs that are not a multiple of 16 bytes long are silently turned into an empty
plaintext, whatever they contain. -/
theorem C09_unaligned_gives_empty (key ct : Bytes) (hk : key.length = 16) (h : ct.length % 16 ≠ 0) :
    sm4Ecb key ct .dec = .ok [] ∧ sm4Cbc key ct .dec = .ok [] :=
  ⟨ecb_dec_unaligned key ct hk h, cbc_dec_unaligned key ct hk h⟩

/-- C56. Encryption never changes the bytes of the caller's message, and leaves the caller's
backing array alone unless it has room for the padding after the message; in that case the bytes
right after the message are overwritten with padding. -/
theorem C56_caller_memory_partial (arr : Bytes) (n : Nat) (hn : n ≤ arr.length) :
    (callerMemoryAfterEnc arr n).take n = arr.take n ∧
    (callerMemoryAfterEnc arr n).length = arr.length ∧
    (arr.length < 16 * (n / 16 + 1) → callerMemoryAfterEnc arr n = arr) ∧
    (16 * (n / 16 + 1) ≤ arr.length → Padded (arr.take n) ((callerMemoryAfterEnc arr n).take (16 * (n / 16 + 1))) ∧
      (callerMemoryAfterEnc arr n).drop (16 * (n / 16 + 1)) = arr.drop (16 * (n / 16 + 1))) := by
  unfold callerMemoryAfterEnc appendInPlace blockSize
  simp only [List.length_replicate]
  have e : n + (16 - n % 16) = 16 * (n / 16 + 1) := by omega
  rw [e]
  split
  · rename_i h
    have hl : (arr.take n ++ List.replicate (16 - n % 16) (BitVec.ofNat 8 (16 - n % 16))).length
        = 16 * (n / 16 + 1) := by simp; omega
    refine ⟨?_, ?_, fun h' => by omega, fun _ => ⟨?_, ?_⟩⟩
    · rw [List.append_assoc, List.take_left' (by simp; omega)]
    · simp; omega
    · rw [List.take_left' hl]
      exact ⟨16 - n % 16, by omega, by omega, rfl⟩
    · rw [List.drop_left' hl]
  · rename_i h
    exact ⟨rfl, rfl, fun _ => rfl, fun h' => absurd h' h⟩

/-- C56 fails: a caller that passes the first byte of a 16-byte buffer sees the other fifteen bytes
destroyed. -/
theorem C56_clobbers_violated : ∃ (arr : Bytes) (n : Nat), n ≤ arr.length ∧ callerMemoryAfterEnc arr n ≠ arr :=
  ⟨List.replicate 16 7, 1, by decide, by decide⟩

/-! Non-vacuity: a concrete key and message; GB/T 32907 Appendix A example 1 (a test). -/
def exKey : Bytes := beFixed 16 0x0123456789abcdeffedcba9876543210

example : exKey.length = 16 := by decide
example : (newCipher exKey).bind (fun c => encrypt c (List.replicate 16 0) exKey)
    = .ok (beFixed 16 0x681edf34d206965e86b3e94f536e4246) := by decide +kernel
example : ∃ c, sm4Cbc exKey [1, 2, 3] .enc = .ok c ∧ c.length = 16 ∧ sm4Cbc exKey c .dec = .ok [1, 2, 3] :=
  C07_cbc_roundtrip exKey [1, 2, 3] (by decide)
example : Padded [1, 2] ([1, 2] ++ List.replicate 14 14) := ⟨14, by decide, by decide, rfl⟩

end Verif.Sm4
