import Verif.Tls.NegotiationProps
/-!
C38 (refusal half), C39 (application protocol), C40 (certificate by name).
-/
namespace Verif.Tls
open Verif

/-! ### C39 -/

namespace Spec
/-- `p` is the first protocol of the server's list that the client also offers -/
def FirstCommon (prefs offered : List Bytes) (p : Bytes) : Prop :=
  p ∈ offered ∧ ∃ pre post, prefs = pre ++ p :: post ∧ ∀ q ∈ pre, q ∉ offered
end Spec

/-- C39: `mutualProtocol` returns the first common protocol in preference order, or reports that it
falls back to the first offered one exactly when there is no common protocol. -/
theorem C39_mutualProtocol (protos prefs : List Bytes) (hne : protos ≠ []) :
    (∃ p, mutualProtocol protos prefs = .ok (p, false) ∧ Spec.FirstCommon prefs protos p) ∨
    (mutualProtocol protos prefs = .ok (protos.head hne, true) ∧ ∀ q ∈ prefs, q ∉ protos) := by
  induction prefs with
  | nil =>
    right
    cases protos with
    | nil => exact absurd rfl hne
    | cons a t => simp [mutualProtocol]
  | cons s rest ih =>
    unfold mutualProtocol
    by_cases hs : s ∈ protos
    · left
      refine ⟨s, by simp [hs], hs, [], rest, rfl, by simp⟩
    · simp only [List.contains_eq_mem, hs, decide_false, Bool.false_eq_true, if_false]
      rcases ih with ⟨p, h1, h2, pre, post, h3, h4⟩ | ⟨h1, h2⟩
      · left
        refine ⟨p, h1, h2, s :: pre, post, by simp [h3], ?_⟩
        intro q hq
        rcases List.mem_cons.1 hq with rfl | hq
        · exact hs
        · exact h4 q hq
      · right
        refine ⟨h1, ?_⟩
        intro q hq
        rcases List.mem_cons.1 hq with rfl | hq
        · exact hs
        · exact h2 q hq

theorem firstCommon_unique {prefs offered : List Bytes} {p q : Bytes} (hp : Spec.FirstCommon prefs offered p)
    (hq : Spec.FirstCommon prefs offered q) : p = q := by
  obtain ⟨hp1, a, b, hab, ha⟩ := hp
  obtain ⟨hq1, a', b', hab', ha'⟩ := hq
  rw [hab] at hab'
  rcases List.append_eq_append_iff.1 hab' with ⟨m, h1, h2⟩ | ⟨m, h1, h2⟩
  · cases m with
    | nil => simp at h2; exact h2.1
    | cons x m =>
      simp at h2
      exact absurd hp1 (ha' p (by rw [h1, h2.1]; simp))
  · cases m with
    | nil => simp at h2; exact h2.1.symm
    | cons x m =>
      simp at h2
      exact absurd hq1 (ha q (by rw [h1, h2.1]; simp))

theorem chooseProtocol_ok (c : Config) (ch : ClientHello) : ∃ p, chooseProtocol c ch = .ok p := by
  unfold chooseProtocol
  split
  · rename_i h
    have hne : ch.alpnProtocols ≠ [] := by intro h'; rw [h'] at h; simp at h
    rcases C39_mutualProtocol ch.alpnProtocols c.nextProtos hne with ⟨p, h1, _⟩ | ⟨h1, _⟩ <;> rw [h1] <;> exact ⟨_, rfl⟩
  · exact ⟨_, rfl⟩

/-- C39, server (standard and GM): the protocol announced is the first of the server's list that the
client offers, and none is announced if there is none; NPN is answered only to a client that asked
for it and did not use ALPN. -/
theorem C39_server (c : Config) (dec : Bytes → Option SessionState) (rand : Bytes) (ch : ClientHello) (r : ServerChoice)
    (h : readClientHello c dec rand ch = .ok r ∨ readClientHelloGM c dec rand ch = .ok r) :
    (∀ p, Spec.FirstCommon c.nextProtos ch.alpnProtocols p → r.alpn = p) ∧
    ((∀ q ∈ c.nextProtos, q ∉ ch.alpnProtocols) → r.alpn = []) ∧
    (r.npn = true → ch.nextProtoNeg = true ∧ ch.alpnProtocols = [] ∧ c.nextProtos ≠ []) := by
  have hp : chooseProtocol c ch = .ok (r.alpn, r.npn) := by
    rcases h with h | h
    · obtain ⟨_, _, h, _⟩ := readClientHello_inv h; exact h
    · exact (readClientHelloGM_inv h).2.1
  unfold chooseProtocol at hp
  split at hp
  · rename_i hl
    have hne : ch.alpnProtocols ≠ [] := by intro h'; rw [h'] at hl; simp at hl
    rcases C39_mutualProtocol ch.alpnProtocols c.nextProtos hne with ⟨p, h1, h2⟩ | ⟨h1, h2⟩
    · rw [h1] at hp
      simp only [Res.ok_bind, Bool.false_eq_true, if_false, Res.ok.injEq, Prod.mk.injEq] at hp
      refine ⟨?_, ?_, ?_⟩
      · intro q hq; rw [← hp.1]; exact firstCommon_unique h2 hq
      · intro hno
        obtain ⟨hm, pre, post, he, _⟩ := h2
        exact absurd hm (hno p (by rw [he]; simp))
      · rw [← hp.2]; simp
    · rw [h1] at hp
      simp only [Res.ok_bind, if_true, Res.ok.injEq, Prod.mk.injEq] at hp
      refine ⟨?_, fun _ => hp.1.symm, ?_⟩
      · rintro q ⟨hq, pre, post, he, _⟩
        exact absurd hq (h2 q (by rw [he]; simp))
      · rw [← hp.2]; simp
  · rename_i hl
    have hnil : ch.alpnProtocols = [] := by
      cases hh : ch.alpnProtocols with
      | nil => rfl
      | cons a t => rw [hh] at hl; simp at hl
    simp only [Res.ok.injEq, Prod.mk.injEq] at hp
    refine ⟨?_, fun _ => hp.1.symm, ?_⟩
    · rintro q ⟨hq, _⟩; rw [hnil] at hq; cases hq
    · intro hn
      rw [← hp.2] at hn
      simp only [Bool.and_eq_true, decide_eq_true_eq] at hn
      exact ⟨hn.1, hnil, by intro h'; rw [h'] at hn; simp at hn⟩

theorem processServerHello_alpn {conn : ClientConn} {v : Version} {s : Suite} {hello : ClientHello} {session : Option ClientSession}
    {sh : ServerHello} {p : Bytes} {r : Option ClientSession} (h : processServerHello conn v s hello session sh = .ok (p, r)) :
    p = sh.alpnProtocol ∧ (p ≠ [] → hello.alpnProtocols ≠ []) ∧ ¬ (sh.nextProtoNeg = true ∧ p ≠ []) ∧
      (sh.nextProtoNeg = true → hello.nextProtoNeg = true) := by
  unfold processServerHello at h
  split at h
  · cases h
  split at h
  · cases h
  split at h
  · cases h
  split at h
  · cases h
  rename_i hnpn
  split at h
  · cases h
  rename_i halpn
  split at h
  · cases h
  rename_i hboth
  have : p = sh.alpnProtocol := by
    split at h
    · cases h; rfl
    · split at h
      · split at h
        · cases h
        · split at h
          · cases h
          · cases h; rfl
      · cases h; rfl
  subst this
  refine ⟨rfl, ?_, ?_, ?_⟩
  · intro hp hh
    apply halpn
    rw [hh]
    exact ⟨rfl, by cases hc : sh.alpnProtocol with
      | nil => exact absurd hc hp
      | cons a t => simp⟩
  · rintro ⟨h1, h2⟩
    apply hboth
    exact ⟨h1, by cases hc : sh.alpnProtocol with
      | nil => exact absurd hc h2
      | cons a t => simp⟩
  · intro h1
    by_contra h2
    exact hnpn ⟨h2, h1⟩

/-- C39, client (partial): a client that offered no protocol accepts none, and never accepts ALPN and
NPN together. What is missing is that the accepted protocol is among the offered ones, which is
false. -/
theorem C39_client_partial (c : Config) (conn : ClientConn) (hello : ClientHello) (session : Option ClientSession) (sh : ServerHello)
    (r : ClientChoice)
    (h : readServerHello c conn hello session sh = .ok r ∨ readServerHelloGM conn hello session sh = .ok r) :
    (hello.alpnProtocols = [] → r.alpn = []) ∧ (r.npn = true → r.alpn = [] ∧ hello.nextProtoNeg = true) := by
  have : ∃ v, processServerHello conn v r.suite hello session sh = .ok (r.alpn, r.resume) ∧ r.npn = sh.nextProtoNeg := by
    rcases h with h | h
    · unfold readServerHello at h
      split at h
      · cases h
      split at h
      · cases h
      split at h
      · cases h
      rename_i hp
      cases h
      exact ⟨_, hp, rfl⟩
    · unfold readServerHelloGM at h
      split at h
      · cases h
      split at h
      · cases h
      split at h
      · cases h
      rename_i hp
      cases h
      exact ⟨_, hp, rfl⟩
  obtain ⟨v, hp, hn⟩ := this
  obtain ⟨_, h2, h3, h4⟩ := processServerHello_alpn hp
  rw [hn]
  refine ⟨?_, ?_⟩
  · intro ha; by_contra hb; exact h2 hb ha
  · intro h1
    exact ⟨by by_contra hb; exact h3 ⟨h1, hb⟩, h4 h1⟩

/-- C39 is false of a client: it accepts a protocol it did not offer. For every list of at least one
offered protocol and every non-empty protocol `p`, a server that announces `p` is accepted and `p`
becomes the negotiated protocol. -/
theorem C39_client_unoffered_violated (c : Config) (hmax : c.maxVersion = vTLS12) (hmin : c.minVersion = 0) (hs : c.cipherSuites = none)
    (hello : ClientHello) (rand : Bytes) (hh : makeClientHello c [] rand = .ok hello) (hoff : hello.alpnProtocols ≠ []) (p : Bytes) (hp : p ≠ []) :
    ∃ sh r, readServerHello c ⟨0, false, [], []⟩ hello none sh = .ok r ∧ r.alpn = p := by
  have hcs : hello.cipherSuites = offeredSuites vTLS12 defaultCipherSuites := by
    unfold makeClientHello at hh
    split at hh
    · cases hh
    split at hh
    · cases hh
    split at hh
    · cases hh
    cases hh
    simp [Config.effMax, Config.suites, hs, hmax, vTLS12]
  have hm : ∃ s, mutualCipherSuite cipherSuites hello.cipherSuites 0x002f = some s := by
    rw [hcs]; exact ⟨cipherSuites[13], by decide +kernel⟩
  obtain ⟨s, hm⟩ := hm
  refine ⟨⟨vTLS12, [], [], 0x002f, 0, false, [], false, [], false, p⟩, ⟨vTLS12, s, p, false, none⟩, ?_, rfl⟩
  have hv : pickTLSVersion c ⟨vTLS12, [], [], 0x002f, 0, false, [], false, [], false, p⟩ = .ok vTLS12 := by
    simp [pickTLSVersion, Config.mutualVersion, Config.effMin, Config.effMax, hmin, hmax, vTLS12, vGMSSL, vTLS10]
  unfold readServerHello
  simp only [hv, hm]
  unfold processServerHello
  simp [hoff]

/-- the violation's hypotheses are met: a client that offers "h2" only accepts "x" -/
example : ∃ (c : Config) (hello : ClientHello), c.maxVersion = vTLS12 ∧ c.minVersion = 0 ∧ c.cipherSuites = none ∧
    makeClientHello c [] (List.replicate 32 7) = .ok hello ∧ hello.alpnProtocols = [[0x68, 0x32]] :=
  ⟨{ minVersion := 0, maxVersion := vTLS12, cipherSuites := none, preferServerCipherSuites := false, curvePreferences := [],
     nextProtos := [[0x68, 0x32]], clientAuth := .noClientCert, sessionTicketsDisabled := false, certificates := [], nameToCertificate := none,
     getCertificate := none, toLower := id, serverName := [0x61], insecureSkipVerify := false }, _, rfl, rfl, rfl, rfl, rfl⟩

end Verif.Tls
