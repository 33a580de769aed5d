import Verif.Tls.PrfProps
/-!
C41 (key block), C43 and C72 (exporter), C73 and C74 (Finished).
-/
namespace Verif.Tls
open Verif

/-! ## SSLv3 PRF -/

theorem ssl3_blocks_length (hs : Hashes) (secret seed : Bytes) (n : Nat) :
    ((List.range n).flatMap (Spec.ssl3Block hs secret seed)).length = n * 16 := by
  induction n with
  | zero => simp
  | succ n ih =>
    rw [List.range_succ, List.flatMap_append, List.length_append, ih, Nat.succ_mul]
    simp [Spec.ssl3Block, hs.md5.len, hs.md5_size]

theorem ssl3_length (hs : Hashes) (secret seed : Bytes) (n : Nat) : (Spec.ssl3 hs secret seed n).length = n := by
  rw [Spec.ssl3, List.length_take, ssl3_blocks_length]; omega

theorem ssl3_blocks_take (hs : Hashes) (secret seed : Bytes) (i m n : Nat) (hi : n ≤ i * 16) (hm : n ≤ m * 16) :
    ((List.range i).flatMap (Spec.ssl3Block hs secret seed)).take n = ((List.range m).flatMap (Spec.ssl3Block hs secret seed)).take n := by
  have key : ∀ i k n, n ≤ i * 16 → ((List.range (i + k)).flatMap (Spec.ssl3Block hs secret seed)).take n =
      ((List.range i).flatMap (Spec.ssl3Block hs secret seed)).take n := by
    intro i k n hi
    induction k with
    | zero => rfl
    | succ k ih =>
      rw [← Nat.add_assoc, List.range_succ, List.flatMap_append, List.take_append_of_le_length, ih]
      rw [ssl3_blocks_length]; omega
  rcases Nat.le_total i m with h | h
  · obtain ⟨k, rfl⟩ := Nat.le.dest h
    rw [key i k n hi]
  · obtain ⟨k, rfl⟩ := Nat.le.dest h
    rw [key m k n hm]

theorem prf30Loop_spec (hs : Hashes) (secret seed : Bytes) (fuel i : Nat) (result : Bytes)
    (hf : result.length ≤ fuel + i * 16) (hlen : result.length ≤ 176)
    (hr : result.take (i * 16) = ((List.range i).flatMap (Spec.ssl3Block hs secret seed)).take result.length) :
    prf30Loop hs secret seed fuel i (min (i * 16) result.length) result = .ok (Spec.ssl3 hs secret seed result.length) := by
  induction fuel generalizing i result with
  | zero =>
    have hle : result.length ≤ i * 16 := by omega
    rw [List.take_of_length_le hle] at hr
    rw [prf30Loop, Spec.ssl3, ← ssl3_blocks_take hs secret seed i _ _ hle (by omega)]
    exact congrArg _ hr
  | succ fuel ih =>
    unfold prf30Loop
    by_cases hj : i * 16 < result.length
    · have hmin : min (i * 16) result.length = i * 16 := by omega
      rw [hmin, if_pos hj, if_neg (by omega)]
      dsimp only
      have hb : (Spec.ssl3Block hs secret seed i).length = 16 := by simp [Spec.ssl3Block, hs.md5.len, hs.md5_size]
      rw [show hs.md5.sum (secret ++ hs.sha1.sum (List.replicate (i + 1) (BitVec.ofNat 8 (0x41 + i)) ++ secret ++ seed)) =
        Spec.ssl3Block hs secret seed i from rfl]
      have hcl := copyAt_len result (i * 16) (Spec.ssl3Block hs secret seed i) (Nat.le_of_lt hj)
      have := ih (i + 1) (copyAt result (i * 16) (Spec.ssl3Block hs secret seed i)) (by rw [hcl]; omega) (by rw [hcl]; exact hlen) (by
        rw [hcl]
        have e := copyAt_take_append result (i * 16) (Spec.ssl3Block hs secret seed i) (Nat.le_of_lt hj)
        rw [hb] at e
        rw [Nat.succ_mul, e, hr, List.range_succ, List.flatMap_append]
        rw [List.take_of_length_le (l := (List.range i).flatMap (Spec.ssl3Block hs secret seed))]
        · simp
        · rw [ssl3_blocks_length]; omega)
      rw [hcl] at this
      rw [← this]
      congr 1
      simp only [copyCount, hb]; omega
    · have hle : result.length ≤ i * 16 := by omega
      rw [if_neg (by omega)]
      rw [List.take_of_length_le hle] at hr
      rw [Spec.ssl3, ← ssl3_blocks_take hs secret seed i _ _ hle (by omega)]
      exact congrArg _ hr

theorem prf30Loop_panics (hs : Hashes) (secret seed : Bytes) (fuel i : Nat) (result : Bytes)
    (hf : result.length ≤ fuel + i * 16) (hlen : 176 < result.length) (hi : i ≤ 11) :
    prf30Loop hs secret seed fuel i (i * 16) result = .panic := by
  induction fuel generalizing i result with
  | zero => omega
  | succ fuel ih =>
    unfold prf30Loop
    rw [if_pos (by omega)]
    by_cases h11 : 11 ≤ i
    · rw [if_pos h11]
    · rw [if_neg h11]
      dsimp only
      generalize hd : hs.md5.sum _ = d
      have hb : d.length = 16 := by rw [← hd, hs.md5.len, hs.md5_size]
      have hcl := copyAt_len result (i * 16) d (by omega)
      have := ih (i + 1) (copyAt result (i * 16) d) (by rw [hcl]; omega) (by rw [hcl]; exact hlen) (by omega)
      rw [← this]
      congr 1
      simp only [copyCount, hb]; omega

/-- C42, SSLv3. The SSLv3 PRF fills the buffer with the draft's blocks, and panics exactly when more
than 176 bytes are asked for. -/
theorem C42_ssl3 (hs : Hashes) (result secret label seed : Bytes) :
    prf30 hs result secret label seed =
      if result.length ≤ 176 then .ok (Spec.ssl3 hs secret seed result.length) else .panic := by
  unfold prf30
  split
  · next h =>
    have := prf30Loop_spec hs secret seed result.length 0 result (by omega) h (by simp)
    simpa using this
  · next h =>
    have := prf30Loop_panics hs secret seed result.length 0 result (by omega) (by omega) (by omega)
    simpa using this

/-! ## The key block (C41) -/

/-- what the version's PRF must produce, SSLv3 included -/
def Spec.anyPrf (hs : Hashes) (v : Version) (s : Suite) (n : Nat) (secret label seed : Bytes) : Bytes :=
  if v = vSSL30 then Spec.ssl3 hs secret seed n else Spec.prf hs v s n secret label seed

theorem anyPrf_ok (hs : Hashes) (v : Version) (s : Suite) (result secret label seed : Bytes)
    (hv : Spec.Supported v ∨ v = vSSL30 ∧ result.length ≤ 176) :
    (prfForVersion hs v s >>= fun f => f result secret label seed) = .ok (Spec.anyPrf hs v s result.length secret label seed) := by
  rcases hv with h | ⟨h, hl⟩
  · have hne : v ≠ vSSL30 := by
      rcases h with h | h | h | h <;> rw [h] <;> decide
    rw [Spec.anyPrf, if_neg hne]
    exact C42_prf_standard hs v s h ..
  · subst h
    rw [Spec.anyPrf, if_pos rfl]
    simp [prfForVersion, C42_ssl3, hl]

theorem anyPrf_length (hs : Hashes) (v : Version) (s : Suite) (n : Nat) (secret label seed : Bytes) :
    (Spec.anyPrf hs v s n secret label seed).length = n := by
  unfold Spec.anyPrf
  split
  · exact ssl3_length ..
  · exact prf_length ..

theorem keys_eq (hs : Hashes) (v : Version) (s : Suite) (master cr sr : Bytes) (m k i : Nat)
    (hv : Spec.Supported v ∨ v = vSSL30 ∧ 2 * m + 2 * k + 2 * i ≤ 176) :
    ∃ kb, keysFromMasterSecret hs v s master cr sr m k i = .ok kb ∧
      kb.clientMAC ++ kb.serverMAC ++ kb.clientKey ++ kb.serverKey ++ kb.clientIV ++ kb.serverIV =
        Spec.anyPrf hs v s (2 * m + 2 * k + 2 * i) master keyExpansionLabel (sr ++ cr) ∧
      kb.clientMAC.length = m ∧ kb.serverMAC.length = m ∧ kb.clientKey.length = k ∧ kb.serverKey.length = k ∧
      kb.clientIV.length = i ∧ kb.serverIV.length = i := by
  have hp := anyPrf_ok hs v s (zeros (2 * m + 2 * k + 2 * i)) master keyExpansionLabel (sr ++ cr) (by simpa [zeros] using hv)
  have hzl : (zeros (2 * m + 2 * k + 2 * i)).length = 2 * m + 2 * k + 2 * i := by simp [zeros]
  rw [hzl] at hp
  obtain ⟨f, hf, hfe⟩ := Res.bind_eq_ok.1 hp
  have hlen := anyPrf_length hs v s (2 * m + 2 * k + 2 * i) master keyExpansionLabel (sr ++ cr)
  unfold keysFromMasterSecret
  dsimp only
  rw [hf, Res.ok_bind, hfe, Res.ok_bind]
  generalize Spec.anyPrf hs v s (2 * m + 2 * k + 2 * i) master keyExpansionLabel (sr ++ cr) = km at hlen
  refine ⟨_, rfl, ?_, ?_, ?_, ?_, ?_, ?_, ?_⟩
  · dsimp only
    have e6 : ((((((km.drop m).drop m).drop k).drop k).drop i).take i) = (((((km.drop m).drop m).drop k).drop k).drop i) := by
      apply List.take_of_length_le; simp [hlen]; omega
    rw [e6]
    simp only [List.append_assoc, List.take_append_drop]
  all_goals simp only [List.length_take, List.length_drop, hlen]; omega

/-- C41. The six pieces have the requested lengths and, in the order of RFC 5246 section 6.3, are
exactly the PRF stream for the seed server_random + client_random: adjacent, non-overlapping, with no
byte left out. -/
theorem C41_key_block (hs : Hashes) (v : Version) (s : Suite) (hv : Spec.Supported v) (master cr sr : Bytes) (m k i : Nat) :
    ∃ kb, keysFromMasterSecret hs v s master cr sr m k i = .ok kb ∧
      kb.clientMAC ++ kb.serverMAC ++ kb.clientKey ++ kb.serverKey ++ kb.clientIV ++ kb.serverIV =
        Spec.prf hs v s (2 * m + 2 * k + 2 * i) master keyExpansionLabel (sr ++ cr) ∧
      kb.clientMAC.length = m ∧ kb.serverMAC.length = m ∧ kb.clientKey.length = k ∧ kb.serverKey.length = k ∧
      kb.clientIV.length = i ∧ kb.serverIV.length = i := by
  have h := keys_eq hs v s master cr sr m k i (Or.inl hv)
  have hne : v ≠ vSSL30 := by
    rcases hv with h | h | h | h <;> rw [h] <;> decide
  rw [Spec.anyPrf, if_neg hne] at h
  exact h

/-- C41. The master secret is 48 bytes of the PRF for the seed client_random + server_random. -/
theorem C41_master (hs : Hashes) (v : Version) (s : Suite) (hv : Spec.Supported v) (pre cr sr : Bytes) :
    masterFromPreMasterSecret hs v s pre cr sr = .ok (Spec.prf hs v s 48 pre masterSecretLabel (cr ++ sr)) := by
  have := C42_prf_standard hs v s hv (zeros 48) pre masterSecretLabel (cr ++ sr)
  simpa [masterFromPreMasterSecret, zeros] using this

/-- the suites usable with a version: tls/handshake_server.go `setCipherSuite`, `suiteTLS12` only with
TLS 1.2; the GM suites with GMSSL -/
def Spec.Usable (v : Version) (s : Suite) : Prop :=
  (s ∈ cipherSuites ∧ (v = vTLS12 ∨ (s.tls12 = false ∧ (v = vSSL30 ∨ v = vTLS10 ∨ v = vTLS11)))) ∨
  (s ∈ gmCipherSuites ∧ v = vGMSSL)

/-- key sizes the constructors of tls/cipher_suites.go and tls/gm_support.go need, and the block or
nonce size of the IV -/
def Spec.keySizeOK (c : CipherKind) (keyLen ivLen : Nat) : Prop :=
  match c with
  | .rc4 => keyLen = 16 ∧ ivLen = 0
  | .des3 => keyLen = 24 ∧ ivLen = 8
  | .aesCBC => (keyLen = 16 ∨ keyLen = 32) ∧ ivLen = 16
  | .sm4CBC => keyLen = 16 ∧ ivLen = 16
  | .aesGCM => (keyLen = 16 ∨ keyLen = 32) ∧ ivLen = 4
  | .chacha => keyLen = 32 ∧ ivLen = 12

instance (c : CipherKind) (k i : Nat) : Decidable (Spec.keySizeOK c k i) := by
  cases c <;> unfold Spec.keySizeOK <;> infer_instance

theorem suites_fit : ∀ s ∈ cipherSuites ++ gmCipherSuites,
    (s.tls12 = false → 2 * s.macLen + 2 * s.keyLen + 2 * s.ivLen ≤ 176) ∧ Spec.keySizeOK s.cipher s.keyLen s.ivLen := by
  decide

/-- C41. For every usable (version, suite) pair, any master secret and any randoms, both endpoints
derive keys without panicking; each side's write keys are the other side's read keys; and the pieces
have the sizes the ciphers take (so the constructors whose errors the code drops do not fail). -/
theorem C41_endpoints_agree (hs : Hashes) (v : Version) (s : Suite) (hu : Spec.Usable v s) (master cr sr : Bytes) :
    ∃ c d, clientEstablishKeys hs v s master cr sr = .ok c ∧ serverEstablishKeys hs v s master cr sr = .ok d ∧
      c.out = d.inp ∧ c.inp = d.out ∧
      ∀ x ∈ [c.out, c.inp], x.mac.length = s.macLen ∧ Spec.keySizeOK s.cipher x.key.length x.iv.length := by
  have hmem : s ∈ cipherSuites ++ gmCipherSuites := by
    rcases hu with ⟨h, _⟩ | ⟨h, _⟩ <;> simp [h]
  have hfit := suites_fit s hmem
  have hv : Spec.Supported v ∨ v = vSSL30 ∧ 2 * s.macLen + 2 * s.keyLen + 2 * s.ivLen ≤ 176 := by
    rcases hu with ⟨_, h | ⟨h1, h | h | h⟩⟩ | ⟨_, h⟩
    · exact Or.inl (Or.inr (Or.inr (Or.inl h)))
    · exact Or.inr ⟨h, hfit.1 h1⟩
    · exact Or.inl (Or.inl h)
    · exact Or.inl (Or.inr (Or.inl h))
    · exact Or.inl (Or.inr (Or.inr (Or.inr h)))
  obtain ⟨kb, hk, _, h1, h2, h3, h4, h5, h6⟩ := keys_eq hs v s master cr sr s.macLen s.keyLen s.ivLen hv
  refine ⟨⟨⟨kb.serverMAC, kb.serverKey, kb.serverIV⟩, ⟨kb.clientMAC, kb.clientKey, kb.clientIV⟩⟩,
    ⟨⟨kb.clientMAC, kb.clientKey, kb.clientIV⟩, ⟨kb.serverMAC, kb.serverKey, kb.serverIV⟩⟩, ?_, ?_, rfl, rfl, ?_⟩
  · simp [clientEstablishKeys, hk]
  · simp [serverEstablishKeys, hk]
  · intro x hx
    simp only [List.mem_cons, List.not_mem_nil, or_false] at hx
    rcases hx with rfl | rfl
    · exact ⟨h1, by simpa [h3, h5] using hfit.2⟩
    · exact ⟨h2, by simpa [h4, h6] using hfit.2⟩

example : ∀ s ∈ gmCipherSuites, Spec.Usable vGMSSL s := fun _ h => Or.inr ⟨h, rfl⟩

/-! ## Exporter (C43, C72) -/

/-- the PRF seed RFC 5705 prescribes -/
def Spec.ekmSeed (cr sr : Bytes) : Option Bytes → Bytes
  | none => cr ++ sr
  | some c => cr ++ sr ++ (beFixed 2 c.length ++ c)

def Spec.reserved (label : Bytes) : Prop :=
  label = str "client finished" ∨ label = str "server finished" ∨ label = str "master secret" ∨ label = str "key expansion"

theorem reserved_iff (label : Bytes) : Spec.reserved label ↔
    (label = clientFinishedLabel ∨ label = serverFinishedLabel ∨ label = masterSecretLabel ∨ label = keyExpansionLabel) := by
  rw [Spec.reserved, show str "client finished" = clientFinishedLabel by decide +kernel,
    show str "server finished" = serverFinishedLabel by decide +kernel,
    show str "master secret" = masterSecretLabel by decide +kernel,
    show str "key expansion" = keyExpansionLabel by decide +kernel]

/-- C43. Reserved labels are refused whatever the context and length. -/
theorem C43_reserved_refused (hs : Hashes) (v : Version) (s : Suite) (master cr sr label : Bytes) (ctx : Option Bytes) (n : Int)
    (h : Spec.reserved label) : ∃ e, ekm hs v s master cr sr label ctx n = .err e :=
  ⟨_, if_pos ((reserved_iff label).1 h)⟩

/-- C43. Contexts of 65536 bytes or more are refused. -/
theorem C43_long_context_refused (hs : Hashes) (v : Version) (s : Suite) (master cr sr label c : Bytes) (n : Int)
    (h : 65536 ≤ c.length) : ∃ e, ekm hs v s master cr sr label (some c) n = .err e := by
  unfold ekm
  split
  · exact ⟨_, rfl⟩
  · dsimp only
    rw [if_pos h]; exact ⟨_, rfl⟩

/-- C43. Everything else returns exactly `n` bytes of the RFC 5705 stream. -/
theorem C43_value (hs : Hashes) (v : Version) (s : Suite) (hv : Spec.Supported v) (master cr sr label : Bytes) (ctx : Option Bytes)
    (n : Nat) (hl : ¬ Spec.reserved label) (hc : ∀ c, ctx = some c → c.length < 65536) :
    ekm hs v s master cr sr label ctx n = .ok (Spec.prf hs v s n master label (Spec.ekmSeed cr sr ctx)) := by
  unfold ekm
  rw [if_neg (fun h => hl ((reserved_iff label).2 h))]
  have hz : (zeros n).length = n := by simp [zeros]
  cases ctx with
  | none =>
    dsimp only
    rw [if_neg (by omega)]
    have := C42_prf_standard hs v s hv (zeros n) master label (Spec.ekmSeed cr sr none)
    rw [hz] at this
    exact this
  | some c =>
    dsimp only
    have := hc c rfl
    rw [if_neg (by omega), if_neg (by omega)]
    have := C42_prf_standard hs v s hv (zeros n) master label (Spec.ekmSeed cr sr (some c))
    rw [hz] at this
    rw [Spec.ekmSeed, ← List.append_assoc (cr ++ sr)] at this
    rw [Spec.ekmSeed, ← List.append_assoc (cr ++ sr)]
    exact this

/-- C43. The seed determines the context: a missing context, the empty context and any two different
contexts give different seeds. -/
theorem C43_seed_injective (cr sr : Bytes) (c c' : Option Bytes) (h : Spec.ekmSeed cr sr c = Spec.ekmSeed cr sr c') : c = c' := by
  cases c with
  | none =>
    cases c' with
    | none => rfl
    | some c' =>
      exfalso
      have := congrArg List.length h
      simp [Spec.ekmSeed] at this
  | some c =>
    cases c' with
    | none =>
      exfalso
      have := congrArg List.length h
      simp [Spec.ekmSeed] at this
    | some c' =>
      have h1 := List.append_cancel_left h
      have := (List.append_inj h1 (by simp)).2
      rw [this]

/-- C43. Without a context, an allowed label of an export never feeds the PRF the input that the
master secret, the key block or (for 32-byte randoms) another label of the same length feeds it. -/
theorem C43_label_separation (cr sr label label' : Bytes) (h : ¬ Spec.reserved label) (seed : Bytes)
    (hr : Spec.reserved label') (hlen : seed.length = (cr ++ sr).length) :
    label ++ Spec.ekmSeed cr sr none ≠ label' ++ seed := by
  intro he
  have := (List.append_inj' he hlen.symm).1
  exact h (this ▸ hr)

/-- C72. On a connection using TLS 1.0 to 1.2 or GMSSL whose handshake is complete, exporting a
non-negative number of bytes never panics; with renegotiation it always is an error. -/
theorem C72_export_returns_partial (hs : Hashes) (c : EkmConn) (hd : c.handshakeComplete = true) (hv : Spec.Supported c.vers)
    (label : Bytes) (ctx : Option Bytes) (n : Nat) :
    (exportKeyingMaterial hs c label ctx n).returns ∧
    (c.renegotiation = true → ∃ e, exportKeyingMaterial hs c label ctx n = .err e) := by
  unfold exportKeyingMaterial
  rw [if_pos hd]
  refine ⟨?_, fun h => ⟨_, if_pos h⟩⟩
  split
  · trivial
  · by_cases hr : Spec.reserved label
    · obtain ⟨e, he⟩ := C43_reserved_refused hs c.vers c.suite c.master c.clientRandom c.serverRandom label ctx n hr
      rw [he]; trivial
    · by_cases hc : ∀ x, ctx = some x → x.length < 65536
      · rw [C43_value hs c.vers c.suite hv _ _ _ label ctx n hr hc]; trivial
      · cases ctx with
        | none => exact absurd (fun x hx => by cases hx) hc
        | some x =>
          obtain ⟨e, he⟩ := C43_long_context_refused hs c.vers c.suite c.master c.clientRandom c.serverRandom label x n
            (Nat.le_of_not_lt fun hlt => hc (fun y hy => by injection hy with hy; exact hy ▸ hlt))
          rw [he]; trivial

/-- C72 is false of the code, three ways: exporting before the handshake is complete, exporting a
negative number of bytes, and exporting more than 176 bytes on an SSLv3 connection all panic. -/
theorem C72_export_panics_violated (hs : Hashes) (c : EkmConn) (label : Bytes) (h : ¬ Spec.reserved label) :
    (∀ ctx n, c.handshakeComplete = false → exportKeyingMaterial hs c label ctx n = .panic) ∧
    (∀ n : Int, n < 0 → c.handshakeComplete = true → c.renegotiation = false → exportKeyingMaterial hs c label none n = .panic) ∧
    (∀ n : Nat, 176 < n → c.handshakeComplete = true → c.renegotiation = false → c.vers = vSSL30 →
      exportKeyingMaterial hs c label none n = .panic) := by
  refine ⟨?_, ?_, ?_⟩
  · intro ctx n hc
    simp [exportKeyingMaterial, hc]
  · intro n hn hc hr
    simp only [exportKeyingMaterial, hc, hr, ekm]
    rw [if_neg (fun h' => h ((reserved_iff label).2 h'))]
    simp [hn]
  · intro n hn hc hr hv
    simp only [exportKeyingMaterial, hc, hr, ekm]
    rw [if_neg (fun h' => h ((reserved_iff label).2 h'))]
    have hz : ¬ ((zeros n).length ≤ 176) := by simp [zeros]; omega
    have : ¬ ((n : Int) < 0) := by omega
    simp [hv, prfForVersion, C42_ssl3, hz, this]

example : ¬ Spec.reserved (str "EXPORTER-app") := by
  rw [reserved_iff]; decide +kernel

end Verif.Tls
