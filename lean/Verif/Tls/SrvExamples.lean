import Verif.Tls.SrvRun
import Verif.Tls.HsExamples
/-!
Handshakes of a server over bytes that meet the hypotheses of C138.
-/
namespace Verif.Tls
open Verif Verif.Tls.Wire

def toySrvCfg (auth : ClientAuth) : Config := { toyCfg with clientAuth := auth, certificates := [⟨[[1]], some .ecdsa, none⟩] }

def toySrv (auth : ClientAuth) (dec : Bytes → Option SessionState) (box : SessionState → Res Bytes) : ServerStart toyK.auth.x509.curve where
  cfg := toySrvCfg auth
  clientCAs := some toyRoots
  now := 5
  verifyPeer := none
  keyLog := fun _ => true
  keysOf := fun _ => { chain := [], signer := some toySigner }
  scts := fun _ => []
  decrypt := dec
  box := box
  rand := List.replicate 32 2
  randKx := [7, 8, 9]
  randCkx := []

/-- ClientHello, Certificate, ClientKeyExchange, CertificateVerify, ChangeCipherSpec, Finished with the verify data `vd` -/
def toySrvStream (vd : Bytes) : Bytes :=
  toyRecord 22 (bytesOfMsg (.clientHello toyHello)) ++
  toyRecord 22 (bytesOfMsg (.certificate { raw := none, certificates := [[1]] })) ++
  toyRecord 22 (bytesOfMsg (.clientKeyExchange { raw := none, ciphertext := [1, 5] })) ++
  toyRecord 22 (bytesOfMsg (.certificateVerify { raw := none, hasSignatureAndHash := true, signatureAlgorithm := 0x0403, signature := [0x30, 6, 2, 1, 1, 2, 1, 1] })) ++
  toyRecord 20 [1] ++ toyRecord 22 (List.replicate 8 0 ++ bytesOfMsg (.finished { raw := none, verifyData := vd }) ++ List.replicate 16 0)

def toySrvRun (auth : ClientAuth) (box : SessionState → Res Bytes) (vd : Bytes) : Res (Option String × Conn) :=
  ({ isClient := false, stream := toySrvStream vd, rand := List.replicate 64 0 } : Conn).handshake
    ((serverProg toyK false fun _ => some (toySrv auth (fun _ => none) box)).asHandshake toyPrims false)

/-- C138: this handshake completes; 216 bytes go out, all that came in is consumed -/
theorem toySrvRun_completes : toySeen (toySrvRun .requireAndVerifyClientCert (fun _ => .ok [42]) (250 :: List.replicate 11 0)) = some (none, 216, 0) := by decide +kernel

/-- with another Finished it does not -/
theorem toySrvRun_refused : toySeen (toySrvRun .requireAndVerifyClientCert (fun _ => .ok [42]) (251 :: List.replicate 11 0)) =
    some (some "tls: client's Finished message is incorrect", 156, 0) := by decide +kernel

/-! ### a resumption -/

def toySession : SessionState := ⟨vTLS12, 0xc02b, List.replicate 48 3, [[1]], false⟩
def toySrvStream2 (vd : Bytes) : Bytes :=
  toyRecord 22 (bytesOfMsg (.clientHello { toyHello with sessionTicket := [42], sessionId := [7, 7] })) ++
  toyRecord 20 [1] ++ toyRecord 22 (List.replicate 8 0 ++ bytesOfMsg (.finished { raw := none, verifyData := vd }) ++ List.replicate 16 0)
def toySrvRun2 (vd : Bytes) : Res (Option String × Conn) :=
  ({ isClient := false, stream := toySrvStream2 vd, rand := List.replicate 64 0 } : Conn).handshake
    ((serverProg toyK false fun _ => some (toySrv .requireAndVerifyClientCert (fun t => if t = [42] then some toySession else none) (fun _ => .ok [42]))).asHandshake toyPrims false)

/-- C138: a resumed handshake -/
theorem toySrvRun2_completes : toySeen (toySrvRun2 (154 :: List.replicate 11 0)) = some (none, 107, 0) := by decide +kernel

end Verif.Tls
