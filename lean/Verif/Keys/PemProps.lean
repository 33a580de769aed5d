import Verif.Keys.Props
namespace Verif.Keys
open Verif Verif.Sm2

/-! ## Padding -/

theorem ofNat_toNat_16 {n : Nat} (h : n ≤ 16) : (BitVec.ofNat 8 n : Byte).toNat = n := by
  rw [BitVec.toNat_ofNat]; omega

/-- what `EncryptPEMBlock` appends: between 1 and 16 bytes, each holding their number -/
theorem C22_padding (data : Bytes) :
    ∃ n, 1 ≤ n ∧ n ≤ 16 ∧ pemPad data = data ++ List.replicate n (BitVec.ofNat 8 n) ∧
      (pemPad data).length % 16 = 0 := by
  refine ⟨16 - data.length % 16, by omega, by omega, rfl, ?_⟩
  simp only [pemPad, List.length_append, List.length_replicate]
  omega

theorem getLast?_append_replicate (d : Bytes) (n : Nat) (x : Byte) (h : 1 ≤ n) :
    (d ++ List.replicate n x).getLast? = some x := by
  obtain ⟨m, rfl⟩ : ∃ m, n = m + 1 := ⟨n - 1, by omega⟩
  rw [List.replicate_succ', ← List.append_assoc, List.getLast?_concat]

/-- **C22** exactly which padded strings are accepted, and what is returned: the last byte `p` is below
the total length and the last `p` bytes all equal `p` (so `p = 0` and `p > 16` are accepted too). -/
theorem C22_unpad_accepts_iff (d out : Bytes) :
    pemUnpad d = .ok out ↔ d ≠ [] ∧ ∃ p : Byte, d.getLast? = some p ∧ p.toNat < d.length ∧
      d = out ++ List.replicate p.toNat p := by
  rw [pemUnpad]
  cases hl : d.getLast? with
  | none => simp
  | some l =>
    dsimp only
    have hne : d ≠ [] := by rintro rfl; simp at hl
    split
    · rename_i hle
      constructor
      · intro h; simp at h
      · rintro ⟨-, p, hp, hlt, -⟩
        simp only [Option.some.injEq] at hp; subst hp; omega
    · rename_i hlt
      have key : ((d.drop (d.length - l.toNat)).all (fun b => b == l)) = true ↔
          d.drop (d.length - l.toNat) = List.replicate l.toNat l := by
        rw [List.all_eq_true]
        constructor
        · intro h
          rw [List.eq_replicate_iff]
          refine ⟨by simp; omega, fun b hb => by simpa using h b hb⟩
        · intro h b hb
          rw [h] at hb
          simpa using (List.mem_replicate.1 hb).2
      split
      · rename_i hall
        have := key.1 hall
        constructor
        · intro h
          simp only [Res.ok.injEq] at h
          refine ⟨hne, l, rfl, by omega, ?_⟩
          rw [← h, ← this, List.take_append_drop]
        · rintro ⟨-, p, hp, -, hd⟩
          simp only [Option.some.injEq] at hp; subst hp
          have hlen : d.length = out.length + l.toNat := by rw [hd]; simp
          rw [show d.length - l.toNat = out.length by omega]
          rw [hd, List.take_left' rfl]
      · rename_i hall
        constructor
        · intro h; simp at h
        · rintro ⟨-, p, hp, -, hd⟩
          simp only [Option.some.injEq] at hp; subst hp
          exfalso; apply hall; apply key.2
          have hlen : d.length = out.length + l.toNat := by rw [hd]; simp
          rw [show d.length - l.toNat = out.length by omega]
          rw [hd, List.drop_left' rfl]

theorem pemUnpad_pemPad (data : Bytes) (h : data ≠ []) : pemUnpad (pemPad data) = .ok data := by
  obtain ⟨n, h1, h2, h3, -⟩ := C22_padding data
  rw [h3, C22_unpad_accepts_iff]
  have hd : 0 < data.length := List.length_pos_iff.2 h
  refine ⟨by simp; omega, BitVec.ofNat 8 n, getLast?_append_replicate _ _ _ h1, ?_, ?_⟩
  · rw [ofNat_toNat_16 h2]; simp; omega
  · rw [ofNat_toNat_16 h2]

theorem pemUnpad_pemPad_nil : pemUnpad (pemPad []) = .err "padding info incorrect" := by decide

/-! ## The encrypted container -/

/-- the fields `asn1.Marshal` can write and the parser reads back -/
structure Known (i : EncInfo) : Prop where
  pbes : i.pbes = oidPBES2
  kdf : i.kdf = oidPBKDF2
  prf : i.prf = oidKEYSHA1
  enc : i.encAlgo = oidAES128 ∨ i.encAlgo = oidAES256
  params : i.prfParams = [5, 0]
  salt : i.salt.length < 100
  iv : i.iv.length < 100
  iter : i.iter.natAbs < 256 ^ 7
  data : i.data.length < 2 ^ 30

theorem seq_len {fs : List Bytes} {n : Nat} (h : fs.flatten.length ≤ n) (hn : n < 2 ^ 31) :
    (Der.encSeq fs).length ≤ n + 6 := by
  have := Der.encTLV_length 0x30 fs.flatten (by omega)
  rw [Der.encSeq]; omega

theorem unmarshal_marshalInfo (i : EncInfo) (hk : Known i) : unmarshalInfo (marshalInfo i) = some i := by
  obtain ⟨pbes, kdf, salt, iter, prf, pp, ea, iv, data⟩ := i
  obtain ⟨h1, h2, h3, h4, h5, h6, h7, h8, h9⟩ := hk
  dsimp only at h1 h2 h3 h4 h5 h6 h7 h8 h9
  subst h1 h2 h3 h5
  have hea : ea ∈ [oidSM2, oidECDSA, oidPBES2, oidPBKDF2, oidKEYSHA1, oidAES128, oidAES256] := by
    rcases h4 with h | h <;> subst h <;> simp
  clear h4
  have lo1 := (parseRaw_oid (o := oidPBES2) (by simp)).2
  have lo2 := (parseRaw_oid (o := oidPBKDF2) (by simp)).2
  have lo3 := (parseRaw_oid (o := oidKEYSHA1) (by simp)).2
  have lo4 := (parseRaw_oid hea).2
  have ls := Der.encTLV_length 0x04 salt (by omega)
  have li := Der.encTLV_length 0x04 iv (by omega)
  have ld := Der.encTLV_length 0x04 data (by omega)
  have lt0 := Der.encIntBody_length h8
  have lt := Der.encTLV_length 0x02 (Der.encIntBody iter) (by omega)
  have lsa : (Der.encOctets salt).length ≤ 106 := by rw [Der.encOctets]; omega
  have liv : (Der.encOctets iv).length ≤ 106 := by rw [Der.encOctets]; omega
  have lda : (Der.encOctets data).length ≤ data.length + 6 := ld
  have lit : (Der.encInt iter).length ≤ 20 := by rw [Der.encInt]; omega
  -- the pieces, from the inside out
  obtain ⟨s1, e1⟩ : ∃ s1, s1 = Der.encSeq [encOIDTLV oidKEYSHA1, [5, 0]] := ⟨_, rfl⟩
  have ls1 : s1.length ≤ 100 := by
    rw [e1]; have := seq_len (fs := [encOIDTLV oidKEYSHA1, [5, 0]]) (n := 40)
      (by simp only [List.flatten_cons, List.flatten_nil, List.append_nil, List.length_append,
            List.length_cons, List.length_nil]; omega) (by omega)
    omega
  have ps1 : parseAlgId s1 = some ((oidKEYSHA1, [5, 0]), []) := by
    have := parseAlgId_enc (o := oidKEYSHA1) (by simp) [5, 0] [] (by decide +kernel) (by decide)
    rw [List.append_nil] at this; rw [e1]; exact this
  obtain ⟨s2, e2⟩ : ∃ s2, s2 = Der.encSeq [Der.encOctets salt, Der.encInt iter, s1] := ⟨_, rfl⟩
  have ls2 : s2.length ≤ 300 := by
    rw [e2]; have := seq_len (fs := [Der.encOctets salt, Der.encInt iter, s1]) (n := 240)
      (by simp only [List.flatten_cons, List.flatten_nil, List.append_nil, List.length_append]; omega) (by omega)
    omega
  have ps2 : Der.parseSeq s2 = some (Der.encOctets salt ++ (Der.encInt iter ++ s1), []) := by
    have := Der.parseSeq_encSeq [Der.encOctets salt, Der.encInt iter, s1] []
      (by simp only [List.flatten_cons, List.flatten_nil, List.append_nil, List.length_append]; omega)
    simpa only [List.flatten_cons, List.flatten_nil, List.append_nil, e2] using this
  obtain ⟨s3, e3⟩ : ∃ s3, s3 = Der.encSeq [encOIDTLV oidPBKDF2, s2] := ⟨_, rfl⟩
  have ls3 : s3.length ≤ 400 := by
    rw [e3]; have := seq_len (fs := [encOIDTLV oidPBKDF2, s2]) (n := 340)
      (by simp only [List.flatten_cons, List.flatten_nil, List.append_nil, List.length_append]; omega) (by omega)
    omega
  have ps3 : ∀ r, Der.parseSeq (s3 ++ r) = some (encOIDTLV oidPBKDF2 ++ s2, r) := by
    intro r
    have := Der.parseSeq_encSeq [encOIDTLV oidPBKDF2, s2] r
      (by simp only [List.flatten_cons, List.flatten_nil, List.append_nil, List.length_append]; omega)
    simpa only [List.flatten_cons, List.flatten_nil, List.append_nil, e3] using this
  obtain ⟨s4, e4⟩ : ∃ s4, s4 = Der.encSeq [encOIDTLV ea, Der.encOctets iv] := ⟨_, rfl⟩
  have ls4 : s4.length ≤ 200 := by
    rw [e4]; have := seq_len (fs := [encOIDTLV ea, Der.encOctets iv]) (n := 140)
      (by simp only [List.flatten_cons, List.flatten_nil, List.append_nil, List.length_append]; omega) (by omega)
    omega
  have ps4 : Der.parseSeq s4 = some (encOIDTLV ea ++ Der.encOctets iv, []) := by
    have := Der.parseSeq_encSeq [encOIDTLV ea, Der.encOctets iv] []
      (by simp only [List.flatten_cons, List.flatten_nil, List.append_nil, List.length_append]; omega)
    simpa only [List.flatten_cons, List.flatten_nil, List.append_nil, e4] using this
  obtain ⟨s5, e5⟩ : ∃ s5, s5 = Der.encSeq [s3, s4] := ⟨_, rfl⟩
  have ls5 : s5.length ≤ 700 := by
    rw [e5]; have := seq_len (fs := [s3, s4]) (n := 600)
      (by simp only [List.flatten_cons, List.flatten_nil, List.append_nil, List.length_append]; omega) (by omega)
    omega
  have ps5 : Der.parseSeq s5 = some (s3 ++ s4, []) := by
    have := Der.parseSeq_encSeq [s3, s4] []
      (by simp only [List.flatten_cons, List.flatten_nil, List.append_nil, List.length_append]; omega)
    simpa only [List.flatten_cons, List.flatten_nil, List.append_nil, e5] using this
  obtain ⟨s6, e6⟩ : ∃ s6, s6 = Der.encSeq [encOIDTLV oidPBES2, s5] := ⟨_, rfl⟩
  have ls6 : s6.length ≤ 800 := by
    rw [e6]; have := seq_len (fs := [encOIDTLV oidPBES2, s5]) (n := 740)
      (by simp only [List.flatten_cons, List.flatten_nil, List.append_nil, List.length_append]; omega) (by omega)
    omega
  have ps6 : ∀ r, Der.parseSeq (s6 ++ r) = some (encOIDTLV oidPBES2 ++ s5, r) := by
    intro r
    have := Der.parseSeq_encSeq [encOIDTLV oidPBES2, s5] r
      (by simp only [List.flatten_cons, List.flatten_nil, List.append_nil, List.length_append]; omega)
    simpa only [List.flatten_cons, List.flatten_nil, List.append_nil, e6] using this
  have ps7 : Der.parseSeq (Der.encSeq [s6, Der.encOctets data]) = some (s6 ++ Der.encOctets data, []) := by
    have := Der.parseSeq_encSeq [s6, Der.encOctets data] []
      (by simp only [List.flatten_cons, List.flatten_nil, List.append_nil, List.length_append]; omega)
    simpa only [List.flatten_cons, List.flatten_nil, List.append_nil] using this
  have pd : Der.parseOctets (Der.encOctets data) = some (data, []) := by
    have := Der.parseOctets_encOctets data [] (by omega)
    rwa [List.append_nil] at this
  have pv : Der.parseOctets (Der.encOctets iv) = some (iv, []) := by
    have := Der.parseOctets_encOctets iv [] (by omega)
    rwa [List.append_nil] at this
  have pi : Der.parseInt64 (Der.encInt iter ++ s1) = some (iter, s1) := parseInt64_enc h8 s1
  have psl := Der.parseOctets_encOctets salt (Der.encInt iter ++ s1) (by omega)
  have po1 := parseOID_enc (o := oidPBES2) (by simp) s5
  have po2 := parseOID_enc (o := oidPBKDF2) (by simp) s2
  have po3 := parseOID_enc hea (Der.encOctets iv)
  have ps6' := ps6 (Der.encOctets data)
  have ps3' := ps3 s4
  rw [marshalInfo]
  dsimp only
  rw [← e1, ← e2, ← e3, ← e4, ← e5, ← e6, unmarshalInfo]
  refine Option.bind_eq_some_iff.2 ⟨_, ps7, ?_⟩
  refine Option.bind_eq_some_iff.2 ⟨_, ps6', ?_⟩
  refine Option.bind_eq_some_iff.2 ⟨_, pd, ?_⟩
  refine Option.bind_eq_some_iff.2 ⟨_, po1, ?_⟩
  refine Option.bind_eq_some_iff.2 ⟨_, ps5, ?_⟩
  refine Option.bind_eq_some_iff.2 ⟨_, ps3', ?_⟩
  refine Option.bind_eq_some_iff.2 ⟨_, ps4, ?_⟩
  refine Option.bind_eq_some_iff.2 ⟨_, po2, ?_⟩
  refine Option.bind_eq_some_iff.2 ⟨_, ps2, ?_⟩
  refine Option.bind_eq_some_iff.2 ⟨_, psl, ?_⟩
  refine Option.bind_eq_some_iff.2 ⟨_, pi, ?_⟩
  refine Option.bind_eq_some_iff.2 ⟨_, ps1, ?_⟩
  refine Option.bind_eq_some_iff.2 ⟨_, po3, ?_⟩
  refine Option.bind_eq_some_iff.2 ⟨_, pv, ?_⟩
  rfl

theorem decrypt_of_unmarshal (aes : Aes) (hm : Hmac) (bytes pwd : Bytes) (i : EncInfo)
    (hu : unmarshalInfo bytes = some i) (hk : Known i) (hiv : i.iv.length = 16) (hd : i.data.length % 16 = 0) :
    decryptPEMBlock aes hm bytes pwd
      = pemUnpad (Std.cbcDec (aes.dec (pbkdf hm pwd i.salt i.iter 32 .sha1)) 16 (i.data.length / 16) i.iv i.data).1 := by
  have he : ¬ (i.encAlgo ≠ oidAES128 ∧ i.encAlgo ≠ oidAES256) := by
    rcases hk.enc with h | h <;> rw [h] <;> simp
  rw [decryptPEMBlock, hu]
  dsimp only
  rw [if_neg (by rw [hk.pbes]; simp), if_neg (by rw [hk.kdf]; simp), if_neg he, hk.prf,
    show hashOf oidKEYSHA1 = some .sha1 by decide]
  dsimp only
  rw [if_neg (by omega), if_neg (by omega)]

/-- the whole path: what decrypting an encryption does -/
theorem decrypt_encrypt (aes : Aes) (hm : Hmac) (rand : Bytes) (type : String)
    (data pwd : Bytes) (a : PemCipher) (hr : 24 ≤ rand.length) (hl : data.length < 2 ^ 29) :
    ∃ b, encryptPEMBlock aes hm rand type data pwd (some a) = .ok b ∧ b.type = type ∧
      (type ∈ ["PRIVATE KEY", "ENCRYPTED PRIVATE KEY", "PUBLIC KEY"] → Plain b) ∧ isEncrypted b = true ∧ decryptPEMBlock aes hm b.bytes pwd = pemUnpad (pemPad data) := by
  obtain ⟨n, hn1, hn2, hpad, hmod⟩ := C22_padding data
  have hplen : (pemPad data).length = data.length + n := by rw [hpad]; simp
  have hiv : ((rand.drop 8).take 16).length = 16 := by simp; omega
  have hpn : (pemPad data).length = (pemPad data).length / 16 * 16 := by omega
  have key := fun k => Std.cbcEnc_length (aes.enc k) 16 ((pemPad data).length / 16) ((rand.drop 8).take 16)
    (pemPad data) (aes.enc_len k) hiv hpn
  have rt := fun k => Std.cbcDec_cbcEnc (aes.enc k) (aes.dec k) 16 ((pemPad data).length / 16) ((rand.drop 8).take 16)
    (pemPad data) (aes.enc_len k) (aes.dec_enc k) hiv hpn
  refine ⟨_, by rw [encryptPEMBlock]; dsimp only; rw [if_neg (by omega)], rfl, fun ht => ⟨ht, Or.inr ⟨a, _, rfl⟩⟩, ?_, ?_⟩
  · simp [isEncrypted]
  · dsimp only
    have hk : Known { pbes := oidPBES2, kdf := oidPBKDF2, salt := rand.take 8, iter := 2048,
                      prf := oidKEYSHA1, prfParams := [5, 0], encAlgo := oidAES256, iv := (rand.drop 8).take 16,
                      data := (Std.cbcEnc (aes.enc (pbkdf hm pwd (rand.take 8) 2048 32 .sha1)) 16 ((pemPad data).length / 16)
          ((rand.drop 8).take 16) (pemPad data)).1 } := by
      refine ⟨rfl, rfl, rfl, Or.inr rfl, rfl, ?_, ?_, ?_, ?_⟩ <;> dsimp only
      · simp
      · omega
      · decide
      · rw [(key _).1]; omega
    rw [decrypt_of_unmarshal aes hm _ pwd _ (unmarshal_marshalInfo _ hk) hk hiv (by
      dsimp only; rw [(key _).1]; omega)]
    dsimp only
    rw [(key _).1, Nat.mul_div_cancel _ (by decide), rt]

/-- **C22** Decrypting an encrypted block with the same password returns the data, for every
non-empty data (below 512 MiB), password, random source and requested cipher. -/
theorem C22_block_roundtrip_partial (aes : Aes) (hm : Hmac) (rand : Bytes) (type : String)
    (data pwd : Bytes) (a : PemCipher) (hr : 24 ≤ rand.length) (hl : data.length < 2 ^ 29) (hne : data ≠ []) :
    ∃ b, encryptPEMBlock aes hm rand type data pwd (some a) = .ok b ∧
      decryptPEMBlock aes hm b.bytes pwd = .ok data := by
  obtain ⟨b, h1, -, -, -, h4⟩ := decrypt_encrypt aes hm rand type data pwd a hr hl
  exact ⟨b, h1, by rw [h4, pemUnpad_pemPad _ hne]⟩

/-- **C22, violated**: empty data cannot be decrypted again, with any password, cipher or randomness. -/
theorem C22_empty_data_violated (aes : Aes) (hm : Hmac) (rand : Bytes) (type : String)
    (pwd : Bytes) (a : PemCipher) (hr : 24 ≤ rand.length) :
    ∃ b, encryptPEMBlock aes hm rand type [] pwd (some a) = .ok b ∧
      decryptPEMBlock aes hm b.bytes pwd = .err "padding info incorrect" := by
  obtain ⟨b, h1, -, -, -, h4⟩ := decrypt_encrypt aes hm rand type [] pwd a hr (by simp)
  exact ⟨b, h1, by rw [h4, pemUnpad_pemPad_nil]⟩

/-- **C67, violated**: the requested cipher changes nothing in the encrypted bytes (it is only
announced in the DEK-Info header). -/
theorem C67_encrypt_ignores_cipher_violated (aes : Aes) (hm : Hmac) (rand : Bytes)
    (type : String) (data pwd : Bytes) (a a' : PemCipher) (b b' : Block)
    (h : encryptPEMBlock aes hm rand type data pwd (some a) = .ok b)
    (h' : encryptPEMBlock aes hm rand type data pwd (some a') = .ok b') :
    b.bytes = b'.bytes ∧ b.headers = [("Proc-Type", "4,ENCRYPTED"), ("DEK-Info", a.name ++ "," ++ hex ((rand.drop 8).take 16))] := by
  rw [encryptPEMBlock] at h h'
  dsimp only at h h'
  split at h
  · simp at h
  · rw [if_neg (by assumption)] at h'
    simp only [Res.ok.injEq] at h h'
    subst h h'
    exact ⟨rfl, rfl⟩

/-- **C67, violated**: a block that names AES-128 is decrypted with AES-256 (a 32-byte key), exactly
as the same block naming AES-256. -/
theorem C67_decrypt_ignores_cipher_violated (aes : Aes) (hm : Hmac) (i : EncInfo) (pwd : Bytes)
    (hk : Known i) (hiv : i.iv.length = 16) (hd : i.data.length % 16 = 0) :
    decryptPEMBlock aes hm (marshalInfo { i with encAlgo := oidAES128 }) pwd
      = decryptPEMBlock aes hm (marshalInfo { i with encAlgo := oidAES256 }) pwd ∧
    decryptPEMBlock aes hm (marshalInfo { i with encAlgo := oidAES128 }) pwd
      = pemUnpad (Std.cbcDec (aes.dec (pbkdf hm pwd i.salt i.iter 32 .sha1)) 16 (i.data.length / 16) i.iv i.data).1 := by
  have k1 : Known { i with encAlgo := oidAES128 } :=
    ⟨hk.pbes, hk.kdf, hk.prf, Or.inl rfl, hk.params, hk.salt, hk.iv, hk.iter, hk.data⟩
  have k2 : Known { i with encAlgo := oidAES256 } :=
    ⟨hk.pbes, hk.kdf, hk.prf, Or.inr rfl, hk.params, hk.salt, hk.iv, hk.iter, hk.data⟩
  rw [decrypt_of_unmarshal aes hm _ pwd _ (unmarshal_marshalInfo _ k1) k1 hiv hd,
    decrypt_of_unmarshal aes hm _ pwd _ (unmarshal_marshalInfo _ k2) k2 hiv hd]
  exact ⟨rfl, rfl⟩

theorem pemUnpad_panic_iff (d : Bytes) : pemUnpad d = .panic ↔ d = [] := by
  rw [pemUnpad]
  cases hl : d.getLast? with
  | none => simp [List.getLast?_eq_none_iff.1 hl]
  | some l =>
    have hne : d ≠ [] := by rintro rfl; simp at hl
    dsimp only
    split
    · simp [hne]
    · split <;> simp [hne]

/-- **C66** The exact set of blocks on which `DecryptPEMBlock` panics. -/
theorem C66_decrypt_panics_iff_partial (aes : Aes) (hm : Hmac) (bytes pwd : Bytes) :
    decryptPEMBlock aes hm bytes pwd = .panic ↔
      ∃ i, unmarshalInfo bytes = some i ∧ i.pbes = oidPBES2 ∧ i.kdf = oidPBKDF2 ∧
        (i.encAlgo = oidAES128 ∨ i.encAlgo = oidAES256) ∧ (hashOf i.prf).isSome ∧
        (i.iv.length ≠ 16 ∨ i.data.length % 16 ≠ 0 ∨ i.data = []) := by
  rw [decryptPEMBlock]
  cases hu : unmarshalInfo bytes with
  | none => simp
  | some i =>
    simp only [Option.some.injEq, exists_eq_left']
    by_cases h1 : i.pbes = oidPBES2
    swap
    · simp [h1]
    by_cases h2 : i.kdf = oidPBKDF2
    swap
    · simp [h1, h2]
    by_cases h3 : i.encAlgo = oidAES128 ∨ i.encAlgo = oidAES256
    swap
    · have h3' : i.encAlgo ≠ oidAES128 ∧ i.encAlgo ≠ oidAES256 := by
        constructor <;> intro h <;> exact h3 (by simp [h])
      rw [if_neg (by simp [h1]), if_neg (by simp [h2]), if_pos h3']
      constructor
      · intro h; simp at h
      · rintro ⟨-, -, h, -⟩; exact absurd h h3
    have h3' : ¬ (i.encAlgo ≠ oidAES128 ∧ i.encAlgo ≠ oidAES256) := by
      rintro ⟨ha, hb⟩; rcases h3 with h | h
      · exact ha h
      · exact hb h
    rw [if_neg (by simp [h1]), if_neg (by simp [h2]), if_neg h3']
    cases h4 : hashOf i.prf with
    | none => simp
    | some h =>
      dsimp only
      by_cases h5 : i.iv.length = 16
      swap
      · rw [if_pos h5]; simp [h1, h2, h3, h5]
      by_cases h6 : i.data.length % 16 = 0
      swap
      · rw [if_neg (by omega), if_pos h6]; simp [h1, h2, h3, h6]
      rw [if_neg (by omega), if_neg (by omega), pemUnpad_panic_iff, ← List.length_eq_zero_iff,
        (Std.cbcDec_length _ 16 (i.data.length / 16) i.iv i.data (aes.dec_len _) h5 (by omega)).1]
      simp only [h1, h2, h3, h5, h6, ne_eq, not_true_eq_false, false_or, Option.isSome_some, true_and]
      rw [← List.length_eq_zero_iff]
      omega

/-- **C66, violated**: a well-formed container whose IV has another length (here any but 16 bytes)
panics whatever the password. -/
theorem C66_decrypt_panics_violated (aes : Aes) (hm : Hmac) (pwd iv : Bytes) (hiv : iv.length ≠ 16) (hl : iv.length < 100) :
    decryptPEMBlock aes hm (marshalInfo
      { pbes := oidPBES2, kdf := oidPBKDF2, salt := [], iter := 1,
        prf := oidKEYSHA1, prfParams := [5, 0], encAlgo := oidAES256, iv := iv, data := [] }) pwd = .panic := by
  rw [C66_decrypt_panics_iff_partial]
  refine ⟨_, unmarshal_marshalInfo _ ⟨rfl, rfl, rfl, Or.inr rfl, rfl, by simp, hl, by dsimp only; decide, by simp⟩, rfl, rfl,
    Or.inr rfl, ?_, Or.inl hiv⟩
  dsimp only
  decide

variable {c : Curve} {G : Type} [AddCommGroup G]

/-- **C22** A private key written as an encrypted PEM under a non-empty password is read back with
that password: same scalar, same public point. -/
theorem C22_key_pem_roundtrip (L : Lawful c G) (e : Env) (rand pwd : Bytes) (k : PrivateKey c) (d : Nat)
    (hk : L.PrivOf k d) (hd : d < N) (hp : pwd ≠ []) (hr : 24 ≤ rand.length) :
    ∃ pem k', privateKeyToPEM e rand k pwd = .ok pem ∧ privateKeyToEncryptedPEM e rand k pwd = .ok pem ∧
      pemToPrivateKey c e pem pwd = .ok k' ∧ k'.d = k.d ∧ k'.x = k.x ∧ k'.y = k.y ∧ L.PrivOf k' d := by
  obtain ⟨der, h1, h2, h3, h4⟩ := pkcs8_roundtrip L e.order hk hd
  obtain ⟨b, b1, b2, bp, b3, b4⟩ := decrypt_encrypt e.aes e.hm rand "ENCRYPTED PRIVATE KEY" der pwd .aes256 hr (by omega)
  have hne : der ≠ [] := List.length_pos_iff.1 h2
  have hpl : pwd.length ≠ 0 := by rw [Ne, List.length_eq_zero_iff]; exact hp
  have he : privateKeyToEncryptedPEM e rand k pwd = .ok (e.pem.encode b) := by
    rw [privateKeyToEncryptedPEM, h1]; simp only [Res.ok_bind, b1]
  refine ⟨e.pem.encode b, { x := k.x, y := k.y, pre := none, d := d, dInv := none }, ?_, he, ?_,
    hk.scalar.symm, rfl, rfl, ⟨hk.pub.ne, hk.pub.x, hk.pub.y, Or.inl rfl⟩, rfl, Or.inl rfl⟩
  · rw [privateKeyToPEM, if_pos hpl, he]
  · rw [pemToPrivateKey, if_neg (by rw [List.length_eq_zero_iff]; exact e.pem.nonempty _), e.pem.decode_encode _ (bp (by simp))]
    dsimp only
    rw [if_pos (by simp [b3]), if_neg hpl, b4, pemUnpad_pemPad _ hne]
    dsimp only
    rw [h4]; rfl

/-- **C22, violated**: `PrivateKeyToEncryptedPEM` accepts the empty password, but the result can then
not be read with it. -/
theorem C22_empty_password_violated (L : Lawful c G) (e : Env) (rand : Bytes) (k : PrivateKey c) (d : Nat)
    (hk : L.PrivOf k d) (hd : d < N) (hr : 24 ≤ rand.length) :
    ∃ pem, privateKeyToEncryptedPEM e rand k [] = .ok pem ∧
      pemToPrivateKey c e pem [] = .err "encrypted Key. Need a password" := by
  obtain ⟨der, h1, h2, h3, h4⟩ := pkcs8_roundtrip L e.order hk hd
  obtain ⟨b, b1, b2, bp, b3, b4⟩ := decrypt_encrypt e.aes e.hm rand "ENCRYPTED PRIVATE KEY" der [] .aes256 hr (by omega)
  refine ⟨e.pem.encode b, ?_, ?_⟩
  · rw [privateKeyToEncryptedPEM, h1]; simp only [Res.ok_bind, b1]
  · rw [pemToPrivateKey, if_neg (by rw [List.length_eq_zero_iff]; exact e.pem.nonempty _), e.pem.decode_encode _ (bp (by simp))]
    dsimp only
    rw [if_pos (by simp [b3]), if_pos (by rfl)]

end Verif.Keys
