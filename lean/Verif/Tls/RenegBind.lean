import Verif.Tls.AlpnProps
import Verif.Tls.HonestProps
import Verif.Tls.Renegotiation
import Verif.Tls.MessagesDispatch
/-!
Secure renegotiation (RFC 5746) on the client: whether a renegotiation is bound to the connection it happens on.
-/
namespace Verif.Tls
open Verif

/-- tls/handshake_client.go:582-584, 290; tls/gm_handshake_client_double.go:429-431: what the client remembers of a first handshake whose ServerHello was
`sh` and whose two Finished messages were `cf` and `sf` (12-byte arrays: a longer SSL 3.0 value is cut by `copy`) -/
def ClientConn.afterFirst (sh : ServerHello) (cf sf : Bytes) : ClientConn :=
  { handshakes := 1, secureRenegotiation := sh.secureRenegotiationSupported,
    clientFinished := copyAt (List.replicate 12 0) 0 cf, serverFinished := copyAt (List.replicate 12 0) 0 sf }

theorem copyAt_12 (b : Bytes) : (copyAt (List.replicate 12 0) 0 b).length = 12 := by
  simp only [copyAt, List.length_append, List.length_take, List.length_drop, List.length_replicate]
  omega

theorem copyAt_full (a b : Bytes) (ha : a.length = 12) (hb : b.length = 12) : copyAt (copyAt (List.replicate 24 0) 0 a) 12 b = a ++ b := by
  have h1 : copyAt (List.replicate 24 0) 0 a = a ++ List.replicate 12 0 := by
    unfold copyAt
    simp [ha, List.take_of_length_le]
  rw [h1]
  unfold copyAt
  have h2 : b.take 12 = b := List.take_of_length_le (by omega)
  have h3 : a.drop 24 = [] := List.drop_of_length_le (by omega)
  simp [ha, hb, List.drop_append, h2, h3]

theorem processServerHello_reneg {conn : ClientConn} {v : Version} {s : Suite} {hello : ClientHello} {session : Option ClientSession}
    {sh : ServerHello} {p : Bytes} {r : Option ClientSession} (h : processServerHello conn v s hello session sh = .ok (p, r)) :
    (conn.handshakes = 0 → sh.secureRenegotiationSupported = true → sh.secureRenegotiation = []) ∧
    (0 < conn.handshakes → conn.secureRenegotiation = true →
      sh.secureRenegotiation = copyAt (copyAt (List.replicate 24 0) 0 conn.clientFinished) 12 conn.serverFinished) := by
  unfold processServerHello at h
  split at h
  · cases h
  split at h
  · cases h
  rename_i h1
  split at h
  · cases h
  rename_i h2
  refine ⟨fun h0 hs => ?_, fun h0 hs => ?_⟩
  · by_contra hne
    exact h1 ⟨h0, hs, by simpa using hne⟩
  · by_contra hne
    exact h2 ⟨h0, hs, hne⟩

theorem readServerHello_process {c : Config} {conn : ClientConn} {hello : ClientHello} {session : Option ClientSession} {sh : ServerHello} {r : ClientChoice}
    (h : readServerHello c conn hello session sh = .ok r ∨ readServerHelloGM conn hello session sh = .ok r) :
    ∃ v, processServerHello conn v r.suite hello session sh = .ok (r.alpn, r.resume) := by
  rcases h with h | h
  · unfold readServerHello at h
    split at h
    · cases h
    · rename_i v _
      split at h
      · cases h
      · split at h
        · cases h
        · rename_i hp
          cases h
          exact ⟨v, hp⟩
  · unfold readServerHelloGM at h
    split at h
    · cases h
    · split at h
      · cases h
      · split at h
        · cases h
        · rename_i hp
          cases h
          exact ⟨_, hp⟩

/-- **C87.** A client whose server announced secure renegotiation in the first handshake accepts, in a renegotiation, only a ServerHello that repeats the
two Finished values of the handshake before; and one that announced it sent an empty value first. -/
theorem C87_bound_partial (c : Config) (sh1 sh2 : ServerHello) (cf sf : Bytes) (conn0 : ClientConn) (h0 : conn0.handshakes = 0)
    (hello1 hello2 : ClientHello) (s1 s2 : Option ClientSession) (r1 r2 : ClientChoice)
    (hann : sh1.secureRenegotiationSupported = true)
    (hfirst : readServerHello c conn0 hello1 s1 sh1 = .ok r1 ∨ readServerHelloGM conn0 hello1 s1 sh1 = .ok r1)
    (hcf : cf.length = 12) (hsf : sf.length = 12)
    (hsecond : readServerHello c (ClientConn.afterFirst sh1 cf sf) hello2 s2 sh2 = .ok r2 ∨
      readServerHelloGM (ClientConn.afterFirst sh1 cf sf) hello2 s2 sh2 = .ok r2) :
    sh1.secureRenegotiation = [] ∧ sh2.secureRenegotiation = cf ++ sf := by
  obtain ⟨v1, p1⟩ := readServerHello_process hfirst
  obtain ⟨v2, p2⟩ := readServerHello_process hsecond
  refine ⟨(processServerHello_reneg p1).1 h0 hann, ?_⟩
  have h := (processServerHello_reneg p2).2 Nat.zero_lt_one hann
  have full : ∀ b : Bytes, b.length = 12 → copyAt (List.replicate 12 0) 0 b = b := by
    intro b hb
    unfold copyAt
    simp [hb, List.take_of_length_le]
  rw [h]
  unfold ClientConn.afterFirst
  dsimp only
  rw [full cf hcf, full sf hsf]
  exact copyAt_full cf sf hcf hsf

/-- **C87.** The standard client's own half: a renegotiation's ClientHello carries the client's Finished value of the handshake before, in a
renegotiation_info extension. -/
theorem C87_client_hello_partial (c : Config) (sni rand : Bytes) (h : ClientHello) (conn : ClientConn) (hc : Bool) (ca : Option ClientSession) (sid : Bytes)
    (hm : makeClientHello c sni rand = .ok h) :
    (offerSession c conn hc ca sid h).1.secureRenegotiationSupported = true ∧
    (offerSession c conn hc ca sid h).1.secureRenegotiation = (if 0 < conn.handshakes then conn.clientFinished else []) := by
  have h1 : h.secureRenegotiationSupported = true ∧ h.secureRenegotiation = [] := by
    unfold makeClientHello at hm
    split at hm
    · cases hm
    split at hm
    · cases hm
    split at hm
    · cases hm
    cases hm
    exact ⟨rfl, rfl⟩
  unfold offerSession
  dsimp only
  by_cases hh : 0 < conn.handshakes
  · simp only [hh, if_true]
    split <;> (split <;> simp [h1.1])
  · simp only [hh, if_false]
    split <;> (split <;> simp [h1.1, h1.2])

/-- **C87** fails, first: if the server did not announce secure renegotiation the client nevertheless renegotiates, and the ServerHello may carry
anything: what is accepted with one value is accepted with every other. -/
theorem C87_unannounced_violated (c : Config) (sh1 sh2 : ServerHello) (cf sf x : Bytes) (hello : ClientHello) (s : Option ClientSession) (r : ClientChoice)
    (hann : sh1.secureRenegotiationSupported = false)
    (h : readServerHello c (ClientConn.afterFirst sh1 cf sf) hello s sh2 = .ok r) :
    readServerHello c (ClientConn.afterFirst sh1 cf sf) hello s { sh2 with secureRenegotiation := x } = .ok r := by
  unfold readServerHello pickTLSVersion processServerHello at h ⊢
  simp only [ClientConn.afterFirst, hann, Bool.false_eq_true, false_and, and_false, if_false, Nat.one_ne_zero] at h ⊢
  exact h

/-- **C87** fails, second: the GM client never sends the renegotiation_info extension: its ClientHello does not announce it, so a renegotiation's
ClientHello on the wire is the same whatever the previous handshake was. -/
theorem C87_gm_client_violated (c : Config) (rand : Bytes) (h : ClientHello) (conn : ClientConn) (hc : Bool) (ca : Option ClientSession) (sid : Bytes)
    (hm : makeClientHelloGM c rand = .ok h) :
    (offerSession c conn hc ca sid h).1.secureRenegotiationSupported = false ∧
    ∀ (m m' : Wire.ClientHelloMsg) (x b : Bytes), m.secureRenegotiationSupported = false → m.raw = none → m.marshal = .ok (b, m') →
      ∃ m'', Wire.ClientHelloMsg.marshal { m with secureRenegotiation := x } = .ok (b, m'') := by
  have h1 : h.secureRenegotiationSupported = false := by
    unfold makeClientHelloGM at hm
    split at hm
    · cases hm
    split at hm
    · cases hm
    cases hm
    rfl
  refine ⟨?_, fun m m' x b hms hraw hb => ?_⟩
  · unfold offerSession
    dsimp only
    by_cases hh : 0 < conn.handshakes
    · simp only [hh, if_true]
      split <;> (split <;> simp [h1])
    · simp only [hh, if_false]
      split <;> (split <;> simp [h1])
  · have e : Wire.chBody { m with secureRenegotiation := x } = Wire.chBody m := by
      unfold Wire.chBody
      simp only [Wire.chExts, Wire.chExtensionsLength, Wire.chNpn, Wire.chSni, Wire.chStatus, Wire.chCurves, Wire.chPoints, Wire.chTicket, Wire.chSigAlgs, Wire.chReneg,
        Wire.chAlpn, Wire.chSct, hms, Bool.false_eq_true, if_false]
    rw [hraw] at e
    unfold Wire.ClientHelloMsg.marshal at hb ⊢
    dsimp only
    rw [hraw] at hb ⊢
    dsimp only at hb ⊢
    split at hb
    · cases hb
    · rename_i ha
      rw [if_neg ha, e]
      obtain ⟨rfl, -⟩ := Prod.mk.inj (Res.ok.inj hb)
      exact ⟨_, rfl⟩

/-! ### The hypotheses are met -/

def renegConfig : Config :=
  { minVersion := 0, maxVersion := vTLS12, cipherSuites := none, preferServerCipherSuites := false, curvePreferences := [],
    nextProtos := [], clientAuth := .noClientCert, sessionTicketsDisabled := false, certificates := [], nameToCertificate := none,
    getCertificate := none, toLower := id, serverName := [0x61], insecureSkipVerify := false }

def renegHello (x : Bytes) (announce : Bool) : ServerHello := ⟨vTLS12, [], [], 0x002f, 0, false, [], false, x, announce, []⟩

def accepts (r : Except Alert ClientChoice) : Bool :=
  match r with
  | .ok _ => true
  | .error _ => false

def renegAccepts (announce1 : Bool) (x : Bytes) : Bool :=
  match makeClientHello renegConfig [] (List.replicate 32 7) with
  | .ok h => accepts (readServerHello renegConfig ⟨0, false, [], []⟩ h none (renegHello [] announce1)) &&
      accepts (readServerHello renegConfig (ClientConn.afterFirst (renegHello [] announce1) (List.replicate 12 3) (List.replicate 12 4)) h none (renegHello x true))
  | .error _ => false

/-- after an announcement only the right value; without one, any -/
example : renegAccepts true (List.replicate 12 3 ++ List.replicate 12 4) = true ∧ renegAccepts true (List.replicate 12 3 ++ List.replicate 12 5) = false ∧
    renegAccepts true [] = false ∧ renegAccepts false [] = true ∧ renegAccepts false [9] = true := by
  decide +kernel

end Verif.Tls
