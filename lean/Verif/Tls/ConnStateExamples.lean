import Verif.Tls.ConnState
import Verif.Tls.SrvExamples
/-!
A client and a server of the toy primitives talk to each other: a case that meets the hypotheses of `C145_agreement`.
-/
namespace Verif.Tls
open Verif Verif.Tls.Wire

/-- the two ends, with what the transport delivers to each -/
def toyEndC (b : Bytes) : Conn := { isClient := true, stream := b, rand := List.replicate 64 0 }
def toyEndS (b : Bytes) : Conn := { isClient := false, stream := b, rand := List.replicate 64 0 }
def toyStartS : ClientHelloMsg → Option (ServerStart toyK.auth.x509.curve) := fun _ => some (toySrv .noClientCert (fun _ => none) (fun _ => .ok [42]))
def toyTalkC (b : Bytes) : Res (HsOut ClientEnd) := (clientProg toyK toyStart [5] [6]).run toyPrims false (toyEndC b)
def toyTalkS (b : Bytes) : Res (HsOut (ServerChoice × ServerRes)) := (serverProg toyK false toyStartS).run toyPrims false (toyEndS b)

/-- what the client says: ClientHello, ClientKeyExchange, ChangeCipherSpec, Finished -/
def toyTalk3 : Bytes :=
  [22, 3, 1, 0, 80, 1, 0, 0, 76, 3, 3] ++ List.replicate 32 1 ++ [0, 0, 2, 192, 43, 1, 0, 0, 33, 0, 10, 0, 4, 0, 2, 0, 24, 0, 11, 0, 2, 1, 0, 0, 35, 0, 0, 0, 13, 0, 6, 0, 4, 4, 1, 4, 3, 255, 1, 0, 1, 0, 22, 3, 3, 0, 6, 16, 0, 0, 2, 1, 5, 20, 3, 3, 0, 1, 1, 22, 3, 3, 0, 40] ++ List.replicate 8 0 ++ [20, 0, 0, 12, 136] ++ List.replicate 27 0
/-- what the server says: ServerHello to ServerHelloDone, NewSessionTicket, ChangeCipherSpec, Finished -/
def toyTalk4 : Bytes :=
  [22, 3, 3, 0, 53, 2, 0, 0, 49, 3, 3] ++ List.replicate 32 2 ++ [0, 192, 43, 0, 0, 9, 0, 35, 0, 0, 255, 1, 0, 1, 0, 22, 3, 3, 0, 11, 11, 0, 0, 7, 0, 0, 4, 0, 0, 1, 1, 22, 3, 3, 0, 21, 12, 0, 0, 17, 3, 0, 24, 1, 7, 4, 3, 0, 8, 48, 6, 2, 1, 1, 2, 1, 1, 22, 3, 3, 0, 4, 14, 0, 0, 0, 22, 3, 3, 0, 11, 4, 0, 0, 7, 0, 0, 0, 0, 0, 1, 42, 20, 3, 3, 0, 1, 1, 22, 3, 3, 0, 40] ++ List.replicate 8 0 ++ [20, 0, 0, 12, 116] ++ List.replicate 27 0

/-- both completed, and each received exactly what the other sent -/
def toyMatching (a : Res (HsOut ClientEnd)) (b : Res (HsOut (ServerChoice × ServerRes))) : Bool :=
  match a, b with
  | .ok x, .ok y => decide (x.sent = y.got) && decide (y.sent = x.got) && decide (x.conn.wire = toyTalk3) && decide (y.conn.wire = toyTalk4) && decide (9 ≤ x.got.length + x.sent.length)
  | _, _ => false

/-- C145, C88: over the bytes -/
theorem toyTalk_matches : toyMatching (toyTalkC toyTalk4) (toyTalkS toyTalk3) = true := by decide +kernel

/-- both calls of `Handshake` return nil and leave nothing unread -/
theorem toyTalk_completes :
    toySeen ((toyEndC toyTalk4).handshake ((clientProg toyK toyStart [5] [6]).asHandshake toyPrims false)) = some (none, toyTalk3.length, 0) ∧
    toySeen ((toyEndS toyTalk3).handshake ((serverProg toyK false toyStartS).asHandshake toyPrims false)) = some (none, toyTalk4.length, 0) := by decide +kernel

/-- the hypotheses of `C145_agreement`, `C145_unique` and `C145_certificates` -/
example : toyStart.S.gm = false ∧ (toyStart.S.gm = false → toyStart.hello.vers.toNat ≤ toyStart.cfg.effMax.toNat) ∧ toyStart.S.renegotiation = (toyEndC toyTalk4).ren ∧
    (toyEndC toyTalk4).handshakeErr = none ∧ (toyEndC toyTalk4).handshakeComplete = false ∧ (toyEndS toyTalk3).isClient = false ∧
    (toyEndS toyTalk3).handshakeErr = none ∧ (toyEndS toyTalk3).handshakeComplete = false ∧ toyStart.S.previous = none ∧ toyStart.session = none ∧
    (∀ a ∈ toyStart.hello.supportedSignatureAlgorithms, a ∈ supportedSignatureAlgorithms) := by
  refine ⟨rfl, fun _ => (by decide), rfl, rfl, rfl, rfl, rfl, rfl, rfl, rfl, ?_⟩
  intro a ha
  simp only [toyStart, toyHello, List.mem_cons, List.not_mem_nil, or_false] at ha
  rcases ha with rfl | rfl <;> decide

/-- a state with a chain and its certificate, for `C145_hostname` -/
example : ∃ i : ConnInfo, i.verifiedChains ≠ [] ∧ (i.verifiedChains ≠ [] → i.peerCertificates ≠ []) ∧ i.complete = true := by
  refine ⟨⟨true, vTLS12, [], [], false, false, 0xc02b, [toyCert 1 (.ecdsa [9]) 0], [[toyCert 1 (.ecdsa [9]) 0]], [], [], true, [], [], false, none⟩, by simp, by simp, rfl⟩

/-- roots and a parser as `C145_gm_chains_violated` wants them -/
example : (X509.Built toyRoots) ∧ X509.KeysParsed toyRoots ∧ ∀ b x, toyK.auth.parse b = some x → x.keyAlgUnknown = true → x.pub = .none := by
  refine ⟨⟨_, rfl⟩, by unfold X509.KeysParsed; decide, ?_⟩
  intro b x h
  have h : toyParse b = some x := h
  unfold toyParse at h
  intro h'
  repeat' split at h
  all_goals cases h <;> exact absurd h' (by decide)

end Verif.Tls
