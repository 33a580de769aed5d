import Verif.Tls.HsSafe
import Verif.Tls.ClientExamples
/-!
Handshakes of a client over bytes that meet the hypotheses of C134 and C135.
-/
namespace Verif.Tls
open Verif Verif.Tls.Wire

/-- toy ciphers: the AEADs append a tag of zeros -/
def toyAead : RawAead where
  overhead := 16
  sealF := fun _ p _ => p ++ List.replicate 16 0
  openF := fun _ c _ => if 16 ≤ c.length ∧ c.drop (c.length - 16) = List.replicate 16 0 then some (c.take (c.length - 16)) else none

def toyPrims : Prims where
  hashes := toyHashes
  rc4 := fun _ _ => 0
  des3E := fun _ b => b
  des3D := fun _ b => b
  aesE := fun _ b => b
  aesD := fun _ b => b
  gcm := fun _ => toyAead
  chacha := fun _ => toyAead

def toyHello : ClientHelloMsg := { ClientHelloMsg.zero with
  vers := vTLS12, random := List.replicate 32 1, cipherSuites := [0xc02b], compressionMethods := [0], supportedCurves := [24], supportedPoints := [0],
  supportedSignatureAlgorithms := [0x0401, 0x0403], secureRenegotiationSupported := true, ticketSupported := true }

def toyCfg : Config where
  minVersion := 0
  maxVersion := 0
  cipherSuites := none
  preferServerCipherSuites := false
  curvePreferences := []
  nextProtos := []
  clientAuth := .noClientCert
  sessionTicketsDisabled := false
  certificates := []
  nameToCertificate := none
  getCertificate := none
  toLower := id
  serverName := []
  insecureSkipVerify := false

def toyStart : ClientStart where
  S := toyClient
  cfg := toyCfg
  conn := ⟨0, false, [], []⟩
  hello := toyHello
  session := none

def toyServerHello : ServerHelloMsg := { ServerHelloMsg.zero with
  vers := vTLS12, random := List.replicate 32 2, cipherSuite := 0xc02b, compressionMethod := 0, ticketSupported := true, secureRenegotiationSupported := true }

def bytesOfMsg (m : Message) : Bytes := match m.marshal with | .ok (b, _) => b | _ => []
def toyRecord (typ : Byte) (b : Bytes) : Bytes := Spec.frame typ vTLS12 b
def toyStream (vd : Bytes) : Bytes :=
  toyRecord 22 (bytesOfMsg (.serverHello toyServerHello)) ++
  (toyFlight.flatMap fun i => match i with | .msg m => toyRecord 22 (bytesOfMsg m) | .ccs => toyRecord 20 [1]) ++
  toyRecord 22 (bytesOfMsg (.newSessionTicket { raw := none, ticket := [42] })) ++
  toyRecord 20 [1] ++ toyRecord 22 (List.replicate 8 0 ++ bytesOfMsg (.finished { raw := none, verifyData := vd }) ++ List.replicate 16 0)

def toyConn (vd : Bytes) : Conn := { isClient := true, stream := toyStream vd, rand := List.replicate 64 0 }

def toySeen (r : Res (Option String × Conn)) : Option (Option String × Nat × Nat) :=
  match r with | .ok (e, c) => some (e, c.wire.length, c.stream.length) | _ => none
def toyRun (vd : Bytes) := (toyConn vd).handshake ((clientProg toyK toyStart [5] [6]).asHandshake toyPrims false)

/-- C135: this handshake completes: 184 bytes go out, all that came in is consumed -/
theorem toyRun_completes : toySeen (toyRun (174 :: List.replicate 11 0)) = some (none, 184, 0) := by decide +kernel

/-- with another Finished it does not, and 31 bytes more go out: an encrypted alert -/
theorem toyRun_refused : toySeen (toyRun (175 :: List.replicate 11 0)) = some (some "tls: server's Finished message was incorrect", 215, 0) := by decide +kernel

/-- the hypotheses of `C135_standard` -/
example : toyStart.S.gm = false ∧ toyStart.S.previous = none ∧ toyStart.S.renegotiation = (toyConn []).ren ∧
    (∀ a ∈ toyStart.hello.supportedSignatureAlgorithms, a ∈ supportedSignatureAlgorithms) ∧ (toyConn []).handshakeErr = none ∧ (toyConn []).handshakeComplete = false := by
  refine ⟨rfl, rfl, rfl, ?_, rfl, rfl⟩
  intro a ha
  simp only [toyStart, toyHello, List.mem_cons, List.not_mem_nil, or_false] at ha
  rcases ha with rfl | rfl <;> decide

/-! ### a resumption -/

def toyKept : SavedSession := ⟨[42], vTLS12, 0xc02b, List.replicate 48 3, [toyCert 1 (.ecdsa [9]) 0], [[toyCert 1 (.ecdsa [9]) 0]]⟩
def toyStart2 : ClientStart := { toyStart with hello := { toyHello with sessionTicket := [42], sessionId := [7, 7] }, session := some toyKept }
def toyStream2 (vd : Bytes) : Bytes :=
  toyRecord 22 (bytesOfMsg (.serverHello { toyServerHello with ticketSupported := false, sessionId := [7, 7] })) ++
  toyRecord 20 [1] ++ toyRecord 22 (List.replicate 8 0 ++ bytesOfMsg (.finished { raw := none, verifyData := vd }) ++ List.replicate 16 0)
def toyRun2 (vd : Bytes) := ({ isClient := true, stream := toyStream2 vd, rand := List.replicate 64 0 } : Conn).handshake
  ((clientProg toyK toyStart2 [5] [6]).asHandshake toyPrims false)

/-- C135: a resumed handshake -/
theorem toyRun2_completes : toySeen (toyRun2 (46 :: List.replicate 11 0)) = some (none, 139, 0) := by decide +kernel

end Verif.Tls
