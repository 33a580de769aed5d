import Verif.Tls.ClientCertProps
/-!
Runs of the client that meet the hypotheses of C46, C54, C79, C84, C85 and C86, and the runs that show where C46 and C79 fail.
-/
namespace Verif.Tls
open Verif Verif.Tls.Wire

/-! ### the environment -/

/-- certificates of one byte -/
def toyCert (b : Byte) (p : X509.Pub) (u : Nat) : X509.Cert := { raw := [b], pub := p, notAfter := 10, keyUsage := u }

/-- an ECDSA certificate, an RSA certificate, an SM2 certificate for signatures and one for encryption -/
def toyParse (b : Bytes) : Option X509.Cert :=
  if b = [1] then some (toyCert 1 (.ecdsa [9]) 0) else if b = [2] then some (toyCert 2 (.rsa [8]) 0)
  else if b = [3] then some (toyCert 3 (.sm2 1 1) 1) else if b = [4] then some (toyCert 4 (.sm2 1 1) 4) else none

def toyK : KaEnv := { toyKa with auth := { toyAuth with parse := toyParse } }

def toyRoots : X509.Pool := X509.poolOf [toyCert 1 (.ecdsa [9]) 0, toyCert 2 (.rsa [8]) 0, toyCert 3 (.sm2 1 1) 1, toyCert 4 (.sm2 1 1) 4]

def toyClient : ClientHs where
  insecureSkipVerify := false
  rootCAs := some toyRoots
  serverName := []
  now := 5
  verifyPeer := none
  certificates := [{ chain := [[2]] }, { chain := [[1]], key := some toySigner }]
  getClientCertificate := none
  keyLog := fun _ => true
  renegotiation := false
  gm := false
  helloVers := vTLS12
  vers := vTLS12
  suite := ⟨0xc02b, 16, 0, 4, .ecdheECDSA, true, true, true, false, false, .aesGCM, .none⟩
  clientRandom := [1]
  serverRandom := [2]
  sigAlgs := [0x0401, 0x0403]
  ocsp := false
  ticket := true
  nextProto := none
  previous := none

/-- Certificate, ServerKeyExchange, CertificateRequest for ECDSA, ServerHelloDone -/
def toyFlight : List Item :=
  [.msg (.certificate { raw := none, certificates := [[1]] }),
   .msg (.serverKeyExchange { raw := none, key := [3, 0, 24, 1, 7, 4, 3, 0, 8, 0x30, 6, 2, 1, 1, 2, 1, 1] }),
   .msg (.certificateRequest { raw := none, hasSignatureAndHash := true, certificateTypes := [64], supportedSignatureAlgorithms := [0x0403], certificateAuthorities := [] }),
   .msg .serverHelloDone]

def toyEnd (vd : Bytes) : List Item := [.msg (.newSessionTicket { raw := none, ticket := [42] }), .ccs, .msg (.finished { raw := none, verifyData := vd })]

/-- what is seen of a run -/
structure Seen where
  certs : List Bytes
  chains : Nat
  /-- the number of messages sent -/
  sent : Nat
  ticket : Option Bytes
  switched : Bool
  rest : Nat
deriving DecidableEq

def seen : Res (ClientSent × ClientDone) → Option Seen
  | .ok (c, d) => some ⟨c.certs.map (·.raw), c.chains.length, c.sent.length, d.ticket, d.switched, d.rest.length⟩
  | _ => none

/-- C84, C86: a complete handshake with a client certificate: Certificate, ClientKeyExchange, CertificateVerify, ChangeCipherSpec and Finished are sent -/
example : seen (clientFull toyK toyClient [[2, 0, 0, 0]] [5] [6] (toyFlight ++ toyEnd (0x6a :: List.replicate 11 0))) = some ⟨[[1]], 1, 5, some [42], true, 0⟩ ∧
    toyClient.suite ∈ cipherSuites ∧ (∀ a ∈ toyClient.sigAlgs, a ∈ supportedSignatureAlgorithms) := by
  refine ⟨by decide +kernel, by decide +kernel, ?_⟩
  intro a ha
  simp only [toyClient, List.mem_cons, List.not_mem_nil, or_false] at ha
  rcases ha with rfl | rfl <;> decide

/-- without the ChangeCipherSpec, or with another Finished, it fails -/
example : seen (clientFull toyK toyClient [[2, 0, 0, 0]] [5] [6] (toyFlight ++ toyEnd (0x6b :: List.replicate 11 0))) = none ∧
    seen (clientFull toyK toyClient [[2, 0, 0, 0]] [5] [6] (toyFlight ++ (toyEnd (0x6a :: List.replicate 11 0)).eraseIdx 1)) = none := by decide +kernel

/-- C54: a renegotiation with the same leaf completes, and with another leaf known it does not -/
example : seen (clientFull toyK { toyClient with previous := some ([toyCert 1 (.ecdsa [9]) 0], []) } [[2, 0, 0, 0]] [5] [6]
      (toyFlight ++ toyEnd (0x6a :: List.replicate 11 0))) = some ⟨[[1]], 0, 5, some [42], true, 0⟩ ∧
    seen (clientFull toyK { toyClient with previous := some ([toyCert 2 (.rsa [8]) 0], []) } [[2, 0, 0, 0]] [5] [6]
      (toyFlight ++ toyEnd (0x6a :: List.replicate 11 0))) = none := by decide +kernel

/-! ### C79 -/

theorem ticketPhase_tail {S : ClientHs} {fh fh' : FinishedHash} {items it : List Item} {t : Option Bytes} (h : ticketPhase S fh items = .ok (t, fh', it)) :
    ∃ before, items = before ++ it ∧ ∀ x, ticketPhase S fh (before ++ x) = .ok (t, fh', x) := by
  unfold ticketPhase at h
  by_cases ht : S.ticket = true
  · rw [if_pos ht] at h
    obtain ⟨⟨m, it1⟩, h1, h⟩ := Res.bind_eq_ok.1 h
    dsimp only at h
    cases items with
    | nil => cases h1
    | cons i r =>
      cases i with
      | ccs => cases h1
      | msg m' =>
        simp only [readMsg, Res.ok.injEq, Prod.mk.injEq] at h1
        obtain ⟨rfl, rfl⟩ := h1
        cases m' with
        | newSessionTicket t' =>
          dsimp only at h
          obtain ⟨⟨b, x⟩, h2, h⟩ := Res.bind_eq_ok.1 h
          dsimp only at h
          obtain ⟨f, h3, h⟩ := Res.bind_eq_ok.1 h
          simp only [Res.ok.injEq, Prod.mk.injEq] at h
          obtain ⟨rfl, rfl, rfl⟩ := h
          refine ⟨[.msg (.newSessionTicket t')], rfl, fun y => ?_⟩
          unfold ticketPhase
          rw [if_pos ht]
          simp only [List.singleton_append, readMsg, Res.ok_bind, h2, h3]
        | _ => cases h
  · rw [if_neg ht] at h
    simp only [Res.ok.injEq, Prod.mk.injEq] at h
    obtain ⟨rfl, rfl, rfl⟩ := h
    refine ⟨[], rfl, fun y => ?_⟩
    unfold ticketPhase
    rw [if_neg ht]
    rfl

/-- **C79** fails for a client that allows renegotiation: every flight it accepts as the end of a handshake it also accepts without the ChangeCipherSpec, that is, under
the old keys, or unencrypted. -/
theorem C79_ccs_skipped_violated (S : ClientHs) (hr : S.renegotiation = true) (c : ClientSent) (items : List Item) (d : ClientDone)
    (h : clientFinish S c items = .ok d) (hsw : d.switched = true) :
    ∃ before after, items = before ++ .ccs :: after ∧ clientFinish S c (before ++ after) = .ok { d with switched := false } := by
  unfold clientFinish at h
  obtain ⟨⟨t, fh, it1⟩, h1, h⟩ := Res.bind_eq_ok.1 h
  dsimp only at h
  obtain ⟨⟨sw, it2⟩, h2, h⟩ := Res.bind_eq_ok.1 h
  dsimp only at h
  obtain ⟨⟨m, it3⟩, h3, h⟩ := Res.bind_eq_ok.1 h
  dsimp only at h
  cases m with
  | finished fin =>
    dsimp only at h
    obtain ⟨⟨v, fh'⟩, h4, h⟩ := Res.bind_eq_ok.1 h
    dsimp only at h
    split at h
    · cases h
    · rename_i hv
      obtain ⟨⟨b, x⟩, h5, h⟩ := Res.bind_eq_ok.1 h
      dsimp only at h
      obtain ⟨f4, h6, h⟩ := Res.bind_eq_ok.1 h
      simp only [Res.ok.injEq] at h
      subst h
      dsimp only at hsw
      subst hsw
      have hit2 : it2 = .msg (.finished fin) :: it3 := by
        cases it2 with
        | nil => cases h3
        | cons i r =>
          cases i with
          | ccs => cases h3
          | msg m' =>
            simp only [readMsg, Res.ok.injEq, Prod.mk.injEq] at h3
            rw [h3.1, h3.2]
      have hit1 : it1 = .ccs :: it2 := by
        unfold clientReadCCS at h2
        split at h2
        · simp only [Res.ok.injEq, Prod.mk.injEq, true_and] at h2
          rw [h2]
        · rw [if_pos hr] at h2
          simp at h2
        · cases h2
      obtain ⟨before, e1, e2⟩ := ticketPhase_tail h1
      refine ⟨before, it2, by rw [e1, hit1], ?_⟩
      unfold clientFinish
      rw [e2 it2]
      simp only [Res.ok_bind, hit2, clientReadCCS, hr, if_true, readMsg, h4, if_neg hv, h5, h6]
  | _ => cases h

/-- the hypotheses are met: the toy client with renegotiation, with and without ChangeCipherSpec -/
example : seen (clientFull toyK { toyClient with renegotiation := true } [[2, 0, 0, 0]] [5] [6] (toyFlight ++ toyEnd (0x6a :: List.replicate 11 0))) =
      some ⟨[[1]], 1, 5, some [42], true, 0⟩ ∧
    seen (clientFull toyK { toyClient with renegotiation := true } [[2, 0, 0, 0]] [5] [6] (toyFlight ++ (toyEnd (0x6a :: List.replicate 11 0)).eraseIdx 1)) =
      some ⟨[[1]], 1, 5, some [42], false, 0⟩ := by decide +kernel

/-! ### the GM client -/

def toyGmClient : ClientHs := { toyClient with
  certificates := []
  ticket := false
  gm := true
  helloVers := 0x0101
  vers := 0x0101
  suite := ⟨0xe013, 16, 32, 16, .eccGM, false, true, false, false, false, .sm4CBC, .sm3⟩
  sigAlgs := [] }


end Verif.Tls
