import Verif.Tls.CertNameProps
/-!
C38 (refusal and acceptance), C51 (client), C52, C75, C76, C77: the rest of the negotiation.
-/
namespace Verif.Tls
open Verif

/-! ### C38: refusal -/

/-- C38: whatever the server agrees to, resumption included, is a suite both sides list and the
server can use; so without one the handshake is refused. -/
theorem C38_always_mutual (c : Config) (dec : Bytes → Option SessionState) (rand : Bytes) (ch : ClientHello) (r : ServerChoice)
    (h : readClientHello c dec rand ch = .ok r) :
    ∃ cert, c.selectCertificate ch = some cert ∧ Spec.Mutual c ch cert r.vers r.suite := by
  cases hr : r.resume with
  | none =>
    obtain ⟨cert, h1, _, h2, _⟩ := C38_first_mutual c dec rand ch r h hr
    exact ⟨cert, h1, h2⟩
  | some st =>
    obtain ⟨_, s, hs, hres, cert, hc, hu, he⟩ := (C51_server c dec rand ch r h st).1 hr
    rw [← he hr] at hres hu hs
    exact ⟨cert, hc, hs, hres.2.2.2.1, hres.2.2.2.2.1, hu⟩

/-- C38 for the GM server. -/
theorem C38_gm_always_mutual (c : Config) (dec : Bytes → Option SessionState) (rand : Bytes) (ch : ClientHello) (r : ServerChoice)
    (h : readClientHelloGM c dec rand ch = .ok r) : Spec.MutualGM c ch r.suite := by
  cases hr : r.resume with
  | none => exact (C38_gm_first_mutual c dec rand ch r h hr).1
  | some st =>
    obtain ⟨_, s, hs, hres, he⟩ := (C51_gm_server c dec rand ch r h st).1 hr
    rw [← he hr] at hres hs
    refine ⟨hs, hres.2.2.2.1, ?_⟩
    have h1 := hres.2.2.2.2.1
    unfold Config.suites at h1
    unfold Config.suitesGM
    cases hcs : c.cipherSuites with
    | some l => rw [hcs] at h1; exact h1
    | none => rw [hcs] at h1; exact absurd h1 (gm_not_default _ hs)

theorem scsv_iff (max v : Version) (l : List (BitVec 16)) : scsvRefuses max v l = true ↔ (0x5600 ∈ l ∧ v.toNat < max.toNat) := by
  induction l with
  | nil => simp [scsvRefuses]
  | cons x r ih =>
    unfold scsvRefuses
    by_cases hx : x = 0x5600
    · subst hx; simp
    · rw [if_neg hx, ih]
      simp only [List.mem_cons]
      constructor
      · rintro ⟨h1, h2⟩; exact ⟨Or.inr h1, h2⟩
      · rintro ⟨rfl | h1, h2⟩
        · exact absurd rfl hx
        · exact ⟨h1, h2⟩

/-- C38, the converse: a hello is accepted whenever the version and the compression are acceptable,
there is a certificate with a supported key type, some suite is mutual, and the hello is not an
inappropriate fallback. -/
theorem C38_accepts (c : Config) (dec : Bytes → Option SessionState) (rand : Bytes) (ch : ClientHello) (v : Version) (cert : Cert) (s : Suite)
    (hv : c.mutualVersion ch.vers = some v) (hcomp : 0 ∈ ch.compressionMethods) (hrand : 32 ≤ rand.length) (hreneg : ch.secureRenegotiation = [])
    (hc : c.selectCertificate ch = some cert) (hsig : cert.signer = none ∨ cert.signer = some .rsa ∨ cert.signer = some .ecdsa)
    (hdec : cert.decrypter = none ∨ cert.decrypter = some .rsa) (hs : Spec.Mutual c ch cert v s)
    (hscsv : 0x5600 ∉ ch.cipherSuites ∨ c.effMax.toNat ≤ ch.vers.toNat) :
    ∃ r, readClientHello c dec rand ch = .ok r := by
  obtain ⟨⟨alpn, npn⟩, hp⟩ := chooseProtocol_ok c ch
  have hs1 : ¬ (cert.signer = some .sm2 ∨ cert.signer = some .other) := by
    rcases hsig with h | h | h <;> rw [h] <;> simp
  have hd1 : ¬ (cert.decrypter.isSome = true ∧ cert.decrypter ≠ some .rsa) := by
    rcases hdec with h | h <;> rw [h] <;> simp
  unfold readClientHello
  rw [hv]
  dsimp only
  rw [if_neg (by simpa using hcomp), if_neg (by omega), if_neg (by simp [hreneg]), hp]
  dsimp only
  rw [hc]
  dsimp only
  rw [if_neg hs1, if_neg hd1]
  split
  · exact ⟨_, rfl⟩
  · rename_i before hck
    have := (set_std c ch cert v s).2 hs
    obtain ⟨s', hs'⟩ := chooseSuite_isSome (fun id => setCipherSuite (flagsFor c ch cert) id v (prefsFor c c.suites ch.cipherSuites).2)
      (prefsFor c c.suites ch.cipherSuites).1 before ⟨s.id, this.1, by simp [this.2]⟩
    have hs'' : chooseSuite (fun id => setCipherSuite
          { ellipticOk := (ch.supportedCurves.any fun k => c.curves.contains k) && ch.supportedPoints.contains 0,
            ecdsaOk := decide (cert.signer = some .ecdsa), rsaSignOk := decide (cert.signer = some .rsa),
            rsaDecryptOk := decide (cert.decrypter = some .rsa) } id v
          (if c.preferServerCipherSuites = true then (c.suites, ch.cipherSuites) else (ch.cipherSuites, c.suites)).2) before
          (if c.preferServerCipherSuites = true then (c.suites, ch.cipherSuites) else (ch.cipherSuites, c.suites)).1 = some s' := hs'
    rw [hs'']
    dsimp only
    rw [if_neg]
    · exact ⟨_, rfl⟩
    · rw [scsv_iff]
      rintro ⟨h1, h2⟩
      rcases hscsv with h | h
      · exact h h1
      · omega

/-- C38, client: the suite the client goes on with is one it offered and knows. -/
theorem C38_client_partial (c : Config) (conn : ClientConn) (hello : ClientHello) (session : Option ClientSession) (sh : ServerHello) (r : ClientChoice)
    (h : readServerHello c conn hello session sh = .ok r) :
    r.suite.id = sh.cipherSuite ∧ r.suite.id ∈ hello.cipherSuites ∧ r.suite ∈ cipherSuites := by
  unfold readServerHello at h
  split at h
  · cases h
  split at h
  · cases h
  rename_i suite hm
  split at h
  · cases h
  cases h
  unfold mutualCipherSuite at hm
  split at hm
  · rename_i hc
    obtain ⟨h1, h2⟩ := (find_suite cipherSuites suite_ids_nodup _ _).1 hm
    exact ⟨h2, by rw [h2]; simpa using hc, h1⟩
  · cases hm

/-- C38 is false of a client in one respect: it does not check that the suite fits the version. A
server may answer TLS 1.0 with an AES-GCM suite and the client goes on. -/
theorem C38_client_version_violated :
    ∃ (c : Config) (hello : ClientHello) (sh : ServerHello) (r : ClientChoice),
      makeClientHello c [] (List.replicate 32 0) = .ok hello ∧ readServerHello c ⟨0, false, [], []⟩ hello none sh = .ok r ∧
      r.suite.tls12 = true ∧ r.vers = vTLS10 := by
  refine ⟨{ minVersion := 0, maxVersion := 0, cipherSuites := none, preferServerCipherSuites := false, curvePreferences := [],
            nextProtos := [], clientAuth := .noClientCert, sessionTicketsDisabled := false, certificates := [], nameToCertificate := none,
            getCertificate := none, toLower := id, serverName := [0x61], insecureSkipVerify := false },
    _, ⟨vTLS10, [], [], 0x009c, 0, false, [], false, [], false, []⟩, _, rfl, rfl, by decide +kernel, by decide +kernel⟩

/-! ### C51: the rest -/

/-- C51: a resumed session comes from an authentic ticket (one that `C34_accepts_iff` characterises). -/
theorem C51_ticket_authentic (C : TicketCrypto) (tc : TicketConfig) (c : Config) (rand : Bytes) (ch : ClientHello) (r : ServerChoice)
    (h : readClientHello c (decryptTicket C tc) rand ch = .ok r ∨ readClientHelloGM c (decryptTicket C tc) rand ch = .ok r) (st : SessionState)
    (hr : r.resume = some st) :
    ∃ k ∈ tc.keys, k.keyName = ch.sessionTicket.take 16 ∧
      ch.sessionTicket.drop (ch.sessionTicket.length - 32) = C.mac k.hmacKey (ch.sessionTicket.take (ch.sessionTicket.length - 32)) := by
  have hd : decryptTicket C tc ch.sessionTicket = some st := by
    rcases h with h | h
    · exact ((C51_server c _ rand ch r h st).1 hr).1
    · exact ((C51_gm_server c _ rand ch r h st).1 hr).1
  obtain ⟨_, _, i, k, hk, _, h1, h2, _⟩ := (C34_accepts_iff C tc _ st).1 hd
  exact ⟨k, List.mem_of_getElem? hk, h1, h2⟩

/-- A GM server with the default suite list never resumes: the resumption check consults the
standard default list, which contains no GM suite. -/
theorem C51_gm_default_never_resumes (c : Config) (hd : c.cipherSuites = none) (dec : Bytes → Option SessionState) (rand : Bytes) (ch : ClientHello)
    (r : ServerChoice) (h : readClientHelloGM c dec rand ch = .ok r) : r.resume = none := by
  cases hr : r.resume with
  | none => rfl
  | some st =>
    obtain ⟨_, s, hs, hres, _⟩ := (C51_gm_server c dec rand ch r h st).1 hr
    have h1 := hres.2.2.2.2.1
    unfold Config.suites at h1
    rw [hd] at h1
    exact absurd h1 (gm_not_default _ hs)

theorem processServerHello_resume {conn : ClientConn} {v : Version} {s : Suite} {hello : ClientHello} {session : Option ClientSession}
    {sh : ServerHello} {p : Bytes} {st : ClientSession} (h : processServerHello conn v s hello session sh = .ok (p, some st)) :
    session = some st ∧ sh.sessionId = hello.sessionId ∧ st.vers = v ∧ st.cipherSuite = s.id := by
  unfold processServerHello at h
  split at h
  · cases h
  split at h
  · cases h
  split at h
  · cases h
  split at h
  · cases h
  split at h
  · cases h
  split at h
  · cases h
  split at h
  · cases h
  rename_i st'
  split at h
  · rename_i hid
    split at h
    · cases h
    rename_i hv
    split at h
    · cases h
    rename_i hc
    cases h
    exact ⟨rfl, hid, by simpa using hv, by simpa using hc⟩
  · cases h

theorem offerSession_session {c : Config} {conn : ClientConn} {hasCache : Bool} {cached : Option ClientSession} {sid : Bytes} {h h' : ClientHello}
    {s : ClientSession} (ho : offerSession c conn hasCache cached sid h = (h', some s)) :
    hasCache = true ∧ c.sessionTicketsDisabled = false ∧ conn.handshakes = 0 ∧ cached = some s ∧ c.effMin.toNat ≤ s.vers.toNat ∧
      s.vers.toNat ≤ c.effMax.toNat ∧ s.cipherSuite ∈ h.cipherSuites ∧ h'.sessionTicket = s.ticket ∧ h'.sessionId = sid ∧
      h'.cipherSuites = h.cipherSuites := by
  unfold offerSession at ho
  by_cases hcache : (hasCache && !c.sessionTicketsDisabled) = true
  · by_cases hz : conn.handshakes = 0
    · cases hcd : cached with
      | none => simp [hcache, hz, hcd] at ho
      | some s0 =>
        simp only [hcache, hz, hcd, Nat.lt_irrefl, if_false, if_true, decide_true, Bool.and_self] at ho
        split at ho
        · rename_i s1 hs1
          split at hs1
          · rename_i hcond
            simp only [Option.some.injEq] at hs1
            simp only [Prod.mk.injEq, Option.some.injEq] at ho
            obtain ⟨rfl, rfl⟩ := ho
            subst hs1
            simp only [Bool.and_eq_true, decide_eq_true_eq, List.contains_eq_mem] at hcond
            simp only [Bool.and_eq_true, Bool.not_eq_true'] at hcache
            exact ⟨hcache.1, hcache.2, hz, rfl, hcond.1.1, hcond.1.2, hcond.2, rfl, rfl, rfl⟩
          · cases hs1
        · simp at ho
    · simp [hcache, hz] at ho
  · simp [hcache] at ho

/-- C51, client: a client resumes only the session it took from its cache for this connection, only
in the first handshake, only if the server echoed the fresh session identifier, and only at the
session's own version and suite, both of which are still allowed by its configuration. -/
theorem C51_client (c : Config) (conn : ClientConn) (hasCache : Bool) (cached : Option ClientSession) (sid : Bytes) (h h' : ClientHello)
    (session : Option ClientSession) (ho : offerSession c conn hasCache cached sid h = (h', session)) (sh : ServerHello) (r : ClientChoice)
    (hr : readServerHello c conn h' session sh = .ok r ∨ readServerHelloGM conn h' session sh = .ok r) (st : ClientSession) (hst : r.resume = some st) :
    cached = some st ∧ c.sessionTicketsDisabled = false ∧ conn.handshakes = 0 ∧ sh.sessionId = sid ∧ r.vers = st.vers ∧ r.suite.id = st.cipherSuite ∧
      c.effMin.toNat ≤ st.vers.toNat ∧ st.vers.toNat ≤ c.effMax.toNat ∧ st.cipherSuite ∈ h.cipherSuites := by
  have : processServerHello conn r.vers r.suite h' session sh = .ok (r.alpn, r.resume) := by
    rcases hr with h | h
    · unfold readServerHello at h
      split at h
      · cases h
      split at h
      · cases h
      split at h
      · cases h
      rename_i hp
      cases h
      exact hp
    · unfold readServerHelloGM at h
      split at h
      · cases h
      split at h
      · cases h
      split at h
      · cases h
      rename_i hp
      cases h
      exact hp
  rw [hst] at this
  obtain ⟨h1, h2, h3, h4⟩ := processServerHello_resume this
  subst h1
  obtain ⟨g1, g2, g3, g4, g5, g6, g7, g8, g9, g10⟩ := offerSession_session ho
  exact ⟨g4, g2, g3, by rw [h2, g9], h3.symm, h4.symm, g5, g6, g7⟩

/-! ### C76: resumption and server authentication -/

/-- C76 is false: a client that is configured to verify servers resumes a session of which the server
was never verified (e.g. one cached by a configuration with `InsecureSkipVerify` that shares the
session cache). -/
theorem C76_unverified_session_violated (c : Config) (hd : c.sessionTicketsDisabled = false) (hv : c.insecureSkipVerify = false) (st : ClientSession)
    (hst : st.verified = false) (s : Suite) (hs : s ∈ cipherSuites) (hid : st.cipherSuite = s.id) (hello : ClientHello) (sni rand sid : Bytes)
    (hh : makeClientHello c sni rand = .ok hello) (hoff : s.id ∈ hello.cipherSuites)
    (hvers : c.effMin.toNat ≤ st.vers.toNat ∧ st.vers.toNat ≤ c.effMax.toNat ∧ 0x0301 ≤ st.vers.toNat) :
    ∃ hello' sh r, offerSession c ⟨0, false, [], []⟩ true (some st) sid hello = (hello', some st) ∧
      readServerHello c ⟨0, false, [], []⟩ hello' (some st) sh = .ok r ∧ r.resume = some st := by
  have hcond : (decide (c.effMin.toNat ≤ st.vers.toNat ∧ st.vers.toNat ≤ c.effMax.toNat) && hello.cipherSuites.contains st.cipherSuite) = true := by
    simp [hvers.1, hvers.2.1, hid, hoff]
  refine ⟨{ hello with ticketSupported := true, sessionTicket := st.ticket, sessionId := sid },
    ⟨st.vers, [], sid, s.id, 0, false, [], false, [], false, []⟩, ⟨st.vers, s, [], false, some st⟩, ?_, ?_, rfl⟩
  · unfold offerSession
    simp only [hd, Nat.lt_irrefl, if_false, Bool.not_false, Bool.and_self, if_true, decide_true]
    rw [hcond]
    rfl
  · have hpv : pickTLSVersion c ⟨st.vers, [], sid, s.id, 0, false, [], false, [], false, []⟩ = .ok st.vers := by
      have ht : vTLS10.toNat = 0x0301 := rfl
      unfold pickTLSVersion Config.mutualVersion
      dsimp only
      rw [if_neg (by omega), if_neg (by omega)]
      dsimp only
      rw [if_neg (by omega)]
    have hm : mutualCipherSuite cipherSuites hello.cipherSuites s.id = some s := by
      unfold mutualCipherSuite
      rw [if_pos (by simpa using hoff)]
      exact (find_suite cipherSuites suite_ids_nodup _ _).2 ⟨hs, rfl⟩
    unfold readServerHello
    simp only [hpv, hm]
    simp [processServerHello, hid]

/-! ### C52 -/

/-- C52 (partial): a hello that signals a fallback to a version below the server's maximum is never
accepted for a full handshake. Missing: resumption, where the check is skipped. -/
theorem C52_full_handshake_partial (c : Config) (dec : Bytes → Option SessionState) (rand : Bytes) (ch : ClientHello) (r : ServerChoice)
    (h : readClientHello c dec rand ch = .ok r ∨ readClientHelloGM c dec rand ch = .ok r)
    (hs : 0x5600 ∈ ch.cipherSuites) (hlow : ch.vers.toNat < c.effMax.toNat) : r.resume ≠ none := by
  have hx : scsvRefuses c.effMax ch.vers ch.cipherSuites = true := (scsv_iff _ _ _).2 ⟨hs, hlow⟩
  rcases h with h | h
  · obtain ⟨_, _, _, _, _, _, hor⟩ := readClientHello_inv h
    rcases hor with ⟨s, o, _, hs⟩ | ⟨_, _, _, _, hf⟩
    · rw [hs]; simp
    · rw [hx] at hf; cases hf
  · obtain ⟨_, _, _, _, _, hor⟩ := readClientHelloGM_inv h
    rcases hor with ⟨s, o, _, hs⟩ | ⟨_, _, _, _, hf⟩
    · rw [hs]; simp
    · rw [hx] at hf; cases hf

/-- C52, no false alarms: the fallback alert is sent only for a hello that carries the signal and
offers less than the server's maximum. -/
theorem C52_no_false_alarm (c : Config) (dec : Bytes → Option SessionState) (rand : Bytes) (ch : ClientHello)
    (h : readClientHello c dec rand ch = .error .inappropriateFallback) : 0x5600 ∈ ch.cipherSuites ∧ ch.vers.toNat < c.effMax.toNat := by
  unfold readClientHello at h
  split at h
  · cases h
  dsimp only at h
  split at h
  · cases h
  split at h
  · cases h
  split at h
  · cases h
  split at h
  · cases h
  · cases h
  split at h
  · cases h
  split at h
  · cases h
  split at h
  · cases h
  split at h
  · cases h
  split at h
  · cases h
  split at h
  · rename_i hx
    exact (scsv_iff _ _ _).1 hx
  · cases h

/-- C52 is false when a ticket is presented: the fallback check comes after the resumption check. A
TLS 1.0 hello with the fallback signal is accepted by a server that supports TLS 1.2. -/
theorem C52_resumption_violated :
    ∃ (c : Config) (dec : Bytes → Option SessionState) (ch : ClientHello) (r : ServerChoice),
      readClientHello c dec (List.replicate 32 0) ch = .ok r ∧ 0x5600 ∈ ch.cipherSuites ∧ ch.vers = vTLS10 ∧ c.effMax = vTLS12 ∧ r.vers = vTLS10 := by
  refine ⟨{ minVersion := 0, maxVersion := 0, cipherSuites := none, preferServerCipherSuites := false, curvePreferences := [],
            nextProtos := [], clientAuth := .noClientCert, sessionTicketsDisabled := false, certificates := [⟨[[1]], some .rsa, some .rsa⟩],
            nameToCertificate := none, getCertificate := none, toLower := id, serverName := [], insecureSkipVerify := false },
    fun t => if t = [9] then some ⟨vTLS10, 0x002f, [], [], false⟩ else none,
    ⟨vTLS10, [], [1], [0x002f, 0x5600], [0], false, [], [], [], true, [9], [], false, []⟩, _, rfl, by decide, rfl, rfl, rfl⟩

/-! ### C75: the negotiated version is one the rest of the code supports -/

theorem prf_supported (hs : Hashes) (v : Version) (s : Suite) :
    (∃ p, prfForVersion hs v s = .ok p) ↔ (v = vSSL30 ∨ v = vTLS10 ∨ v = vTLS11 ∨ v = vTLS12 ∨ v = vGMSSL) := by
  unfold prfForVersion
  split
  · rename_i h; simp [h]
  split
  · rename_i h1 h; rcases h with h | h <;> simp [h]
  split
  · rename_i h1 h2 h; split <;> simp [h]
  split
  · rename_i h; simp [h]
  · rename_i h1 h2 h3 h4
    simp only [not_or] at h2
    simp [h1, h2.1, h2.2, h3, h4]

theorem newFinishedHash_panics_iff (hs : Hashes) (v : Version) (s : Suite) :
    newFinishedHash hs v s = .panic ↔ ¬ (v = vSSL30 ∨ v = vTLS10 ∨ v = vTLS11 ∨ v = vTLS12 ∨ v = vGMSSL) := by
  rw [← prf_supported hs v s]
  unfold newFinishedHash
  cases hp : prfForVersion hs v s with
  | ok p =>
    simp only [Res.ok_bind]
    split <;> simp
  | err e =>
    unfold prfForVersion at hp
    repeat' split at hp
    all_goals cases hp
  | panic => simp

/-- C75 (partial): if the configuration restricts the versions to SSL 3.0 - TLS 1.2, setting up the
Finished hash for whatever version the server agrees to does not panic. -/
theorem C75_restricted_partial (hs : Hashes) (c : Config) (hmin : 0x0300 ≤ c.effMin.toNat) (hmax : c.effMax.toNat ≤ 0x0303)
    (hr : c.effMin.toNat ≤ c.effMax.toNat) (dec : Bytes → Option SessionState) (rand : Bytes) (ch : ClientHello) (r : ServerChoice)
    (h : readClientHello c dec rand ch = .ok r ∨ readClientHelloGM c dec rand ch = .ok r) : (newFinishedHash hs r.vers r.suite).returns := by
  have hv := (C37_server c hr dec rand ch r h).1
  have hx : r.vers = vSSL30 ∨ r.vers = vTLS10 ∨ r.vers = vTLS11 ∨ r.vers = vTLS12 ∨ r.vers = vGMSSL := by
    have : r.vers.toNat = 0x300 ∨ r.vers.toNat = 0x301 ∨ r.vers.toNat = 0x302 ∨ r.vers.toNat = 0x303 := by omega
    rcases this with h | h | h | h
    · exact Or.inl (BitVec.eq_of_toNat_eq h)
    · exact Or.inr (Or.inl (BitVec.eq_of_toNat_eq h))
    · exact Or.inr (Or.inr (Or.inl (BitVec.eq_of_toNat_eq h)))
    · exact Or.inr (Or.inr (Or.inr (Or.inl (BitVec.eq_of_toNat_eq h))))
  cases hn : newFinishedHash hs r.vers r.suite with
  | ok p => exact trivial
  | err e => exact trivial
  | panic => exact absurd hx ((newFinishedHash_panics_iff hs _ _).1 hn)

/-- C75 is false: with the default version range, a server agrees to any version from 0x0102 to
0x02ff that a hello offers (with an otherwise acceptable hello), and then panics. -/
theorem C75_unknown_version_panics_violated (hs : Hashes) (c : Config) (hmin : c.minVersion = 0) (hmax : c.maxVersion = 0)
    (dec : Bytes → Option SessionState) (rand : Bytes) (ch : ClientHello) (v : Version) (hv : 0x0102 ≤ v.toNat ∧ v.toNat ≤ 0x02ff)
    (hcv : ch.vers = v) (cert : Cert) (s : Suite)
    (hcomp : 0 ∈ ch.compressionMethods) (hrand : 32 ≤ rand.length) (hreneg : ch.secureRenegotiation = [])
    (hc : c.selectCertificate ch = some cert) (hsig : cert.signer = none ∨ cert.signer = some .rsa ∨ cert.signer = some .ecdsa)
    (hdec : cert.decrypter = none ∨ cert.decrypter = some .rsa) (hm : Spec.Mutual c ch cert v s) (hscsv : 0x5600 ∉ ch.cipherSuites) :
    ∃ r, readClientHello c dec rand ch = .ok r ∧ newFinishedHash hs r.vers r.suite = .panic := by
  have hmv : c.mutualVersion ch.vers = some v := by
    have h1 : c.effMin.toNat = 0x0101 := by simp [Config.effMin, hmin, vGMSSL]
    have h2 : c.effMax.toNat = 0x0303 := by simp [Config.effMax, hmax, vTLS12]
    unfold Config.mutualVersion
    rw [hcv, if_neg (by omega), if_neg (by omega)]
  obtain ⟨r, hr⟩ := C38_accepts c dec rand ch v cert s hmv hcomp hrand hreneg hc hsig hdec hm (Or.inl hscsv)
  refine ⟨r, hr, ?_⟩
  obtain ⟨_, h1, _⟩ := readClientHello_inv hr
  rw [hmv] at h1
  cases h1
  rw [newFinishedHash_panics_iff]
  rintro (h | h | h | h | h) <;> (rw [h] at hv; revert hv; decide)

/-- the hypotheses are met: an RSA server and a hello with version 0x0200 and one RSA suite -/
example (hs : Hashes) : ∃ (c : Config) (ch : ClientHello) (r : ServerChoice), c.minVersion = 0 ∧ c.maxVersion = 0 ∧ ch.vers = 0x0200 ∧
    readClientHello c (fun _ => none) (List.replicate 32 0) ch = .ok r ∧ newFinishedHash hs r.vers r.suite = .panic := by
  refine ⟨{ minVersion := 0, maxVersion := 0, cipherSuites := none, preferServerCipherSuites := false, curvePreferences := [],
            nextProtos := [], clientAuth := .noClientCert, sessionTicketsDisabled := false, certificates := [⟨[[1]], some .rsa, some .rsa⟩],
            nameToCertificate := none, getCertificate := none, toLower := id, serverName := [], insecureSkipVerify := false },
    ⟨0x0200, [], [1], [0x002f], [0], false, [], [], [], true, [9], [], false, []⟩, _, rfl, rfl, rfl, rfl, ?_⟩
  rw [newFinishedHash_panics_iff]
  decide

end Verif.Tls
