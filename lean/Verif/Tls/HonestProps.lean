import Verif.Tls.AgreeProps
/-!
C77: a client and a server of this library that exchange hellos agree on the outcome.
-/
namespace Verif.Tls
open Verif

theorem makeClientHello_inv {c : Config} {sni rand : Bytes} {h : ClientHello} (hh : makeClientHello c sni rand = .ok h) :
    h.vers = c.effMax ∧ h.secureRenegotiation = [] ∧ h.sessionTicket = [] ∧ h.sessionId = [] ∧ h.alpnProtocols = c.nextProtos ∧
      h.cipherSuites = offeredSuites c.effMax c.suites ∧ h.random = rand.take 32 := by
  unfold makeClientHello at hh
  split at hh
  · cases hh
  split at hh
  · cases hh
  split at hh
  · cases hh
  cases hh
  exact ⟨rfl, rfl, rfl, rfl, rfl, rfl, rfl⟩

theorem makeClientHelloGM_inv {c : Config} {rand : Bytes} {h : ClientHello} (hh : makeClientHelloGM c rand = .ok h) :
    h.vers = vGMSSL ∧ h.secureRenegotiation = [] ∧ h.sessionTicket = [] ∧ h.sessionId = [] ∧ h.alpnProtocols = [] ∧ h.nextProtoNeg = false := by
  unfold makeClientHelloGM at hh
  split at hh
  · cases hh
  split at hh
  · cases hh
  cases hh
  exact ⟨rfl, rfl, rfl, rfl, rfl, rfl⟩

/-- what `offerSession` leaves alone in a first handshake -/
theorem offerSession_same {c : Config} {conn : ClientConn} {hasCache : Bool} {cached : Option ClientSession} {sid : Bytes} {h h' : ClientHello}
    {session : Option ClientSession} (hz : conn.handshakes = 0) (ho : offerSession c conn hasCache cached sid h = (h', session)) :
    h'.vers = h.vers ∧ h'.cipherSuites = h.cipherSuites ∧ h'.alpnProtocols = h.alpnProtocols ∧ h'.nextProtoNeg = h.nextProtoNeg ∧
      (session = none → h'.sessionTicket = h.sessionTicket ∧ h'.sessionId = h.sessionId) := by
  unfold offerSession at ho
  simp only [hz, Nat.lt_irrefl, if_false] at ho
  split at ho
  · cases ho
    split <;> exact ⟨rfl, rfl, rfl, rfl, by simp⟩
  · cases ho
    split <;> exact ⟨rfl, rfl, rfl, rfl, fun _ => ⟨rfl, rfl⟩⟩

theorem mutualVersion_le {c : Config} {v w : Version} (h : c.mutualVersion v = some w) : w.toNat ≤ v.toNat := by
  unfold Config.mutualVersion at h
  split at h
  · cases h
  split at h
  · cases h; omega
  · cases h; omega

namespace Spec
/-- the server reads from the client's ticket the parameters the client remembers -/
def TicketFaithful (dec : Bytes → Option SessionState) (session : Option ClientSession) : Prop :=
  ∀ s, session = some s → ∀ st, dec s.ticket = some st → st.vers = s.vers ∧ st.cipherSuite = s.cipherSuite
end Spec

theorem process_honest (sc : Config) (conn : ClientConn) (hz : conn.handshakes = 0) (h' : ClientHello) (session : Option ClientSession) (sid : Bytes)
    (hsid : sid ≠ []) (hsess : ∀ s, session = some s → h'.sessionId = sid ∧ h'.sessionTicket = s.ticket)
    (hnone : session = none → h'.sessionTicket = []) (dec : Bytes → Option SessionState) (hd0 : dec [] = none)
    (hfaith : Spec.TicketFaithful dec session) (r : ServerChoice) (v : Version) (hv : v = r.vers)
    (hnpn : r.npn = true → h'.nextProtoNeg = true ∧ h'.alpnProtocols = [])
    (halpn : h'.alpnProtocols = [] → r.alpn = [])
    (hres : ∀ st, r.resume = some st → dec h'.sessionTicket = some st ∧ st.vers = r.vers ∧ st.cipherSuite = r.suite.id) :
    ∃ k, processServerHello conn v r.suite h' session (serverHello sc h' r) = .ok (r.alpn, k) ∧ (k.isSome ↔ r.resume.isSome) := by
  unfold processServerHello
  rw [if_neg (by simp [serverHello]), if_neg (by simp [serverHello]), if_neg (by simp [hz])]
  rw [if_neg (by
    rintro ⟨h1, h2⟩
    exact h1 (hnpn h2).1)]
  rw [if_neg (by
    rintro ⟨h1, h2⟩
    have := halpn (List.length_eq_zero_iff.1 h1)
    simp [serverHello, this] at h2)]
  rw [if_neg (by
    rintro ⟨h1, h2⟩
    have := halpn (hnpn h1).2
    simp [serverHello, this] at h2)]
  cases hs : session with
  | none =>
    refine ⟨none, rfl, ?_⟩
    cases hr : r.resume with
    | none => simp
    | some st =>
      have := (hres st hr).1
      rw [hnone hs, hd0] at this; cases this
  | some s =>
    obtain ⟨g1, g2⟩ := hsess s hs
    cases hr : r.resume with
    | none =>
      refine ⟨none, ?_, by simp⟩
      dsimp only
      rw [if_neg]
      · rfl
      · simp [serverHello, hr, g1]; exact hsid
    | some st =>
      refine ⟨some s, ?_, by simp⟩
      obtain ⟨h1, h2, h3⟩ := hres st hr
      rw [g2] at h1
      obtain ⟨f1, f2⟩ := hfaith s hs st h1
      dsimp only
      rw [if_pos (by simp [serverHello, hr]), if_neg (by rw [hv, ← h2, f1]; simp), if_neg (by rw [← f2, h3]; simp)]
      rfl

/-- C77: when the hello made by a client is accepted by a server at a version the client supports, the
client accepts the server's answer, and both have settled on the same version, suite (which fits the
version), application protocol and decision to resume. -/
theorem C77_agreement (cc sc : Config) (sni rand rand' sid : Bytes) (conn : ClientConn) (hz : conn.handshakes = 0) (hasCache : Bool)
    (cached session : Option ClientSession) (h h' : ClientHello) (hh : makeClientHello cc sni rand = .ok h)
    (ho : offerSession cc conn hasCache cached sid h = (h', session)) (hsid : sid ≠ []) (dec : Bytes → Option SessionState)
    (hd0 : dec [] = none) (hfaith : Spec.TicketFaithful dec session) (r : ServerChoice) (hs : readClientHello sc dec rand' h' = .ok r)
    (hmin : cc.effMin.toNat ≤ r.vers.toNat) (hten : 0x0301 ≤ r.vers.toNat) :
    ∃ k, readServerHello cc conn h' session (serverHello sc h' r) = .ok k ∧ k.vers = r.vers ∧ k.suite = r.suite ∧ k.alpn = r.alpn ∧
      k.npn = r.npn ∧ (k.resume.isSome ↔ r.resume.isSome) ∧ (k.suite.tls12 = true → 0x0303 ≤ k.vers.toNat) := by
  obtain ⟨m1, m2, m3, m4, m5, m6, _⟩ := makeClientHello_inv hh
  obtain ⟨o1, o2, o3, o4, o5⟩ := offerSession_same hz ho
  obtain ⟨cert, hcert, hmut⟩ := C38_always_mutual sc dec rand' h' r hs
  obtain ⟨_, hmv, _⟩ := readClientHello_inv hs
  obtain ⟨a1, a2, a3⟩ := C39_server sc dec rand' h' r (Or.inl hs)
  have hle : r.vers.toNat ≤ cc.effMax.toNat := by
    have := mutualVersion_le hmv
    rw [o1, m1] at this; exact this
  have hpv : pickTLSVersion cc (serverHello sc h' r) = .ok r.vers := by
    have ht : vTLS10.toNat = 0x0301 := rfl
    have hv : (serverHello sc h' r).vers = r.vers := rfl
    have hm : cc.mutualVersion r.vers = some r.vers := by
      unfold Config.mutualVersion
      rw [if_neg (by omega), if_neg (by omega)]
    unfold pickTLSVersion
    rw [hv, hm]
    dsimp only
    rw [if_neg (by omega)]
  have hsu : mutualCipherSuite cipherSuites h'.cipherSuites (serverHello sc h' r).cipherSuite = some r.suite := by
    unfold mutualCipherSuite
    rw [if_pos (by simpa [serverHello] using hmut.2.1)]
    exact (find_suite cipherSuites suite_ids_nodup _ _).2 ⟨hmut.1, rfl⟩
  obtain ⟨k, hk, hkr⟩ := process_honest sc conn hz h' session sid hsid
    (by
      rintro s rfl
      obtain ⟨_, _, _, _, _, _, _, g8, g9, _⟩ := offerSession_session ho
      exact ⟨g9, g8⟩)
    (by intro hn; rw [(o5 hn).1]; exact m3) dec hd0 hfaith r r.vers rfl
    (fun hn => ⟨(a3 hn).1, (a3 hn).2.1⟩)
    (by
      intro hn
      apply a2
      intro q hq; rw [hn]; simp)
    (by
      intro st hst
      obtain ⟨h1, s, _, hres, _, _, _, he⟩ := (C51_server sc dec rand' h' r hs st).1 hst
      rw [← he hst] at hres
      exact ⟨h1, hres.2.1, hres.2.2.1⟩)
  refine ⟨⟨r.vers, r.suite, r.alpn, r.npn, k⟩, ?_, rfl, rfl, rfl, rfl, hkr, fun h12 => hmut.2.2.2.2.2 h12⟩
  unfold readServerHello
  rw [hpv]
  dsimp only
  rw [hsu]
  dsimp only
  rw [hk]
  rfl

/-- C77 for a GM client and a GM server whose version range contains 0x0101. -/
theorem C77_gm_agreement (cc sc : Config) (rand rand' sid : Bytes) (conn : ClientConn) (hz : conn.handshakes = 0) (hasCache : Bool)
    (cached session : Option ClientSession) (h h' : ClientHello) (hh : makeClientHelloGM cc rand = .ok h)
    (ho : offerSession cc conn hasCache cached sid h = (h', session)) (hsid : sid ≠ []) (dec : Bytes → Option SessionState)
    (hd0 : dec [] = none) (hfaith : Spec.TicketFaithful dec session) (r : ServerChoice) (hs : readClientHelloGM sc dec rand' h' = .ok r)
    (hmax : 0x0101 ≤ sc.effMax.toNat) :
    ∃ k, readServerHelloGM conn h' session (serverHello sc h' r) = .ok k ∧ k.vers = r.vers ∧ r.vers = vGMSSL ∧ k.suite = r.suite ∧ k.alpn = r.alpn ∧
      k.npn = r.npn ∧ (k.resume.isSome ↔ r.resume.isSome) := by
  obtain ⟨m1, m2, m3, m4, m5, m6⟩ := makeClientHelloGM_inv hh
  obtain ⟨o1, o2, o3, o4, o5⟩ := offerSession_same hz ho
  have hmut := C38_gm_always_mutual sc dec rand' h' r hs
  obtain ⟨hmv, _⟩ := readClientHelloGM_inv hs
  obtain ⟨a1, a2, a3⟩ := C39_server sc dec rand' h' r (Or.inr hs)
  have hgm : r.vers = vGMSSL := by
    have ht : vGMSSL.toNat = 0x0101 := rfl
    rw [o1, m1] at hmv
    unfold Config.mutualVersion at hmv
    split at hmv
    · cases hmv
    · rw [if_neg (by omega)] at hmv
      exact (Option.some.inj hmv).symm
  have hsu : mutualCipherSuite gmCipherSuites h'.cipherSuites (serverHello sc h' r).cipherSuite = some r.suite := by
    unfold mutualCipherSuite
    rw [if_pos (by simpa [serverHello] using hmut.2.1)]
    exact (find_suite gmCipherSuites gmSuite_ids_nodup _ _).2 ⟨hmut.1, rfl⟩
  obtain ⟨k, hk, hkr⟩ := process_honest sc conn hz h' session sid hsid
    (by
      rintro s rfl
      obtain ⟨_, _, _, _, _, _, _, g8, g9, _⟩ := offerSession_session ho
      exact ⟨g9, g8⟩)
    (by intro hn; rw [(o5 hn).1]; exact m3) dec hd0 hfaith r vGMSSL hgm.symm
    (fun hn => ⟨(a3 hn).1, (a3 hn).2.1⟩)
    (by
      intro hn
      apply a2
      intro q hq; rw [hn]; simp)
    (by
      intro st hst
      obtain ⟨h1, s, _, hres, he⟩ := (C51_gm_server sc dec rand' h' r hs st).1 hst
      rw [← he hst] at hres
      exact ⟨h1, hres.2.1, hres.2.2.1⟩)
  refine ⟨⟨vGMSSL, r.suite, r.alpn, r.npn, k⟩, ?_, hgm.symm, hgm, rfl, rfl, rfl, hkr⟩
  unfold readServerHelloGM
  rw [if_neg (by simp [serverHello, hgm]), hsu]
  dsimp only
  rw [hk]
  rfl

/-- C77: a client offers a suite defined for TLS 1.2 only if it offers TLS 1.2, and only suites it
knows, in its configured order. -/
theorem C77_offer (c : Config) (sni rand : Bytes) (h : ClientHello) (hh : makeClientHello c sni rand = .ok h) :
    h.cipherSuites.Sublist c.suites ∧
      ∀ id, id ∈ h.cipherSuites ↔ (id ∈ c.suites ∧ ∃ s ∈ cipherSuites, s.id = id ∧ (s.tls12 = true → 0x0303 ≤ c.effMax.toNat)) := by
  obtain ⟨_, _, _, _, _, m6, _⟩ := makeClientHello_inv hh
  rw [m6]
  have hkey : ∀ l : List (BitVec 16), (offeredSuites c.effMax l).Sublist l ∧ ∀ id, id ∈ offeredSuites c.effMax l ↔
      (id ∈ l ∧ ∃ s ∈ cipherSuites, s.id = id ∧ (s.tls12 = true → 0x0303 ≤ c.effMax.toNat)) := by
    intro l
    induction l with
    | nil => exact ⟨List.Sublist.slnil, by simp [offeredSuites]⟩
    | cons x r ih =>
      have ht : vTLS12.toNat = 0x0303 := rfl
      have hx : (cipherSuites.any fun s => decide (s.id = x) && !(decide (c.effMax.toNat < vTLS12.toNat) && s.tls12)) = true ↔
          ∃ s ∈ cipherSuites, s.id = x ∧ (s.tls12 = true → 0x0303 ≤ c.effMax.toNat) := by
        rw [List.any_eq_true]
        constructor
        · rintro ⟨s, h1, h2⟩
          simp only [Bool.and_eq_true, decide_eq_true_eq, Bool.not_eq_true', Bool.and_eq_false_iff, decide_eq_false_iff_not] at h2
          refine ⟨s, h1, h2.1, fun h3 => ?_⟩
          rcases h2.2 with h4 | h4
          · omega
          · rw [h3] at h4; cases h4
        · rintro ⟨s, h1, h2, h3⟩
          refine ⟨s, h1, ?_⟩
          simp only [Bool.and_eq_true, decide_eq_true_eq, Bool.not_eq_true', Bool.and_eq_false_iff, decide_eq_false_iff_not]
          refine ⟨h2, ?_⟩
          cases h4 : s.tls12 with
          | true => left; have := h3 h4; omega
          | false => right; rfl
      unfold offeredSuites
      split
      · rename_i hc
        refine ⟨List.Sublist.cons_cons x ih.1, ?_⟩
        intro id
        rw [List.mem_cons, ih.2 id, List.mem_cons]
        constructor
        · rintro (rfl | ⟨h1, h2⟩)
          · exact ⟨Or.inl rfl, hx.1 hc⟩
          · exact ⟨Or.inr h1, h2⟩
        · rintro ⟨rfl | h1, h2⟩
          · exact Or.inl rfl
          · exact Or.inr ⟨h1, h2⟩
      · rename_i hc
        refine ⟨List.Sublist.cons x ih.1, ?_⟩
        intro id
        rw [ih.2 id, List.mem_cons]
        constructor
        · rintro ⟨h1, h2⟩; exact ⟨Or.inr h1, h2⟩
        · rintro ⟨rfl | h1, h2⟩
          · exact absurd (hx.2 h2) hc
          · exact ⟨h1, h2⟩
  exact hkey c.suites

/-- the hypotheses of `C77_agreement` are met by a default client and a default RSA server that agree
on TLS 1.2, ALPN "h2" and TLS_ECDHE_RSA_WITH_CHACHA20_POLY1305 -/
example : ∃ (cc sc : Config) (h : ClientHello) (r : ServerChoice), makeClientHello cc [0x61] (List.replicate 32 1) = .ok h ∧
    offerSession cc ⟨0, false, [], []⟩ false none [1] h = (h, none) ∧ readClientHello sc (fun _ => none) (List.replicate 32 2) h = .ok r ∧
    cc.effMin.toNat ≤ r.vers.toNat ∧ r.vers = vTLS12 ∧ r.suite.id = 0xcca8 ∧ r.alpn = [0x68, 0x32] :=
  ⟨{ minVersion := 0, maxVersion := 0, cipherSuites := none, preferServerCipherSuites := false, curvePreferences := [],
     nextProtos := [[0x68, 0x32]], clientAuth := .noClientCert, sessionTicketsDisabled := false, certificates := [],
     nameToCertificate := none, getCertificate := none, toLower := id, serverName := [0x61], insecureSkipVerify := false },
   { minVersion := 0, maxVersion := 0, cipherSuites := none, preferServerCipherSuites := true, curvePreferences := [],
     nextProtos := [[0x78], [0x68, 0x32]], clientAuth := .noClientCert, sessionTicketsDisabled := false,
     certificates := [⟨[[1]], some .rsa, some .rsa⟩],
     nameToCertificate := none, getCertificate := none, toLower := id, serverName := [], insecureSkipVerify := false },
   _, _, rfl, rfl, rfl, by decide +kernel, by decide +kernel, by decide +kernel, by decide +kernel⟩

end Verif.Tls
