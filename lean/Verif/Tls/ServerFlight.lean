import Verif.Tls.Forward
/-!
What the server of a full handshake sends: ServerHello excepted, everything up to ServerHelloDone (tls/handshake_server.go:362-448,
tls/gm_handshake_server_double.go:323-412), and the end of the handshake (tls/handshake_server.go:616-659, tls/gm_handshake_server_double.go:581-624). With `serverFull`
(`ServerAuth`) this is the whole server, and with `clientFlight`, `clientFinish` (`ClientFull`) both ends of a handshake: C88.

Simplifications. As in `ServerAuth` and `ClientFull`: items instead of records, no alerts, no failing writes. The randomness of the key exchange and the one
`processClientKeyExchange` may use are separate arguments. `encryptTicket` (C50) is an argument.
-/
namespace Verif.Tls
open Verif Verif.Tls.Wire

/-- a `Certificate` of the server: `Certificate`, `OCSPStaple`, and `PrivateKey` as far as it is a `crypto.Signer`, an RSA `crypto.Decrypter`, an SM2 key -/
structure ServerCert (c : Sm2.Curve) where
  chain : List Bytes
  staple : Bytes := []
  signer : Option Signer := none
  rsa : Option Bytes := none
  sm2 : Option (Sm2.PrivateKey c) := none

/-- what the server knows when it has chosen a full handshake -/
structure ServerSide (c : Sm2.Curve) where
  auth : ClientAuth
  clientCAs : Option X509.Pool
  now : Int
  verifyPeer : Option (List Bytes → List (List X509.Cert) → Bool)
  gm : Bool
  vers : Version
  suite : Suite
  clientRandom : Bytes
  serverRandom : Bytes
  keyLog : Bytes → Bool
  /-- `hello.nextProtoNeg` -/
  npn : Bool
  /-- `hs.cert`, or `hs.cert[0]` (GM) -/
  cert : ServerCert c
  /-- `hs.cert[1]`, GM only -/
  second : ServerCert c
  /-- `hs.cert[2:]`, GM only -/
  more : List (ServerCert c)
  /-- `config.curvePreferences()` -/
  curvePrefs : List U16
  /-- `clientHello.supportedCurves`, `clientHello.supportedSignatureAlgorithms`, `clientHello.ocspStapling` -/
  offeredCurves : List U16
  offeredAlgs : List U16
  ocspAsked : Bool
  /-- `hello.ticketSupported` -/
  ticket : Bool
  /-- built with the tag `single_cert`: the GM server is that of gm_handshake_server.go, `hs.cert` is one `Certificate` -/
  single : Bool := false

/-- two certificates: the GM server of gm_handshake_server_double.go -/
def ServerSide.dual {c : Sm2.Curve} (T : ServerSide c) : Bool := T.gm && !T.single

/-- the second certificate argument of the key agreement: tls/handshake_server.go:394, tls/gm_handshake_server_double.go:366, 460, tls/gm_handshake_server.go:389, 483 -/
def ServerSide.enc {c : Sm2.Curve} (T : ServerSide c) : ServerCert c := if T.dual then T.second else T.cert

/-- tls/handshake_server.go:380-381, tls/gm_handshake_server_double.go:345-349, tls/gm_handshake_server.go:372 -/
def ServerSide.chain {c : Sm2.Curve} (T : ServerSide c) : List Bytes :=
  if T.dual then T.cert.chain ++ T.second.chain ++ (T.more.map (·.chain)).flatten else T.cert.chain

/-- tls/handshake_server.go:365-367, gm: 326-328: `hello.ocspStapling` -/
def ServerSide.ocsp {c : Sm2.Curve} (T : ServerSide c) : Bool := T.ocspAsked && decide (0 < T.cert.staple.length)

/-- `keyAgreement.generateServerKeyExchange` for the suite: tls/key_agreement.go:28-30 (RSA sends nothing), 161-258, tls/gm_key_agreement.go:69-71, 310-334 -/
def serverGenSKX (K : KaEnv) (T : ServerSide K.auth.x509.curve) (rand : Bytes) : Res (Option EcdheServer × Option Bytes) :=
  match T.suite.ka with
  | .rsa => .ok (none, none)
  | .ecdheRSA => (ecdheGenSKX K T.vers true T.curvePrefs T.offeredCurves T.offeredAlgs rand T.cert.signer T.clientRandom T.serverRandom).map fun p => (some p.1, some p.2)
  | .ecdheECDSA => (ecdheGenSKX K T.vers false T.curvePrefs T.offeredCurves T.offeredAlgs rand T.cert.signer T.clientRandom T.serverRandom).map fun p => (some p.1, some p.2)
  | .eccGM => (Gm.eccGenerateSKX K.auth.x509.curve rand T.cert.sm2 T.enc.chain T.clientRandom T.serverRandom).map fun k => (none, some k)
  | .ecdheGM => .panic

/-- `keyAgreement.processClientKeyExchange` for the suite: tls/key_agreement.go:33-62, 260-291, tls/gm_key_agreement.go:169-170, 336-363. A nil curve (no ServerKeyExchange was
generated) would be a nil dereference. -/
def serverProcessCKX (K : KaEnv) (T : ServerSide K.auth.x509.curve) (st : Option EcdheServer) (rand ct : Bytes) : Res Bytes :=
  match T.suite.ka, st with
  | .rsa, _ => rsaProcessCKX K T.vers rand T.enc.rsa ct
  | .ecdheRSA, some st => ecdheProcessCKX K st ct
  | .ecdheECDSA, some st => ecdheProcessCKX K st ct
  | .eccGM, _ => Gm.eccProcessCKX T.enc.sm2 ct
  | _, _ => .panic

/-- marshal a message and send it -/
def encode (m : Message) : Res (Bytes × Item) := do
  let (b, m') ← m.marshal
  .ok (b, .msg m')

/-- tls/handshake_server.go:387-395, gm: 355-363 -/
def sendStatus {c : Sm2.Curve} (T : ServerSide c) : Res (List Bytes × List Item) :=
  if T.ocsp then do
    let (b, i) ← encode (.certificateStatus { raw := none, statusType := 1, response := T.cert.staple })
    .ok ([b], [i])
  else .ok ([], [])

/-- tls/handshake_server.go:402-407, gm: 371-376 -/
def sendSKX : Option Bytes → Res (List Bytes × List Item)
  | none => .ok ([], [])
  | some key => do
    let (b, i) ← encode (.serverKeyExchange { raw := none, key := key })
    .ok ([b], [i])

/-- tls/handshake_server.go:423-430, gm: 396-398: the names of the CAs -/
def ServerSide.caNames {c : Sm2.Curve} (T : ServerSide c) : List Bytes :=
  match T.clientCAs with
  | none => []
  | some p => p.certs.map (·.rawSubject)

/-- tls/handshake_server.go:411-430; `certTypeRSASign` is 1, `certTypeECDSASign` 64 -/
def ServerSide.request {c : Sm2.Curve} (T : ServerSide c) : CertificateRequestMsg where
  raw := none
  hasSignatureAndHash := decide (vTLS12.toNat ≤ T.vers.toNat)
  certificateTypes := [1, 64]
  supportedSignatureAlgorithms := if vTLS12.toNat ≤ T.vers.toNat then supportedSignatureAlgorithms else []
  certificateAuthorities := T.caNames

/-- tls/gm_handshake_server_double.go:380-398 -/
def ServerSide.requestGM {c : Sm2.Curve} (T : ServerSide c) : CertificateRequestMsgGM where
  raw := none
  certificateTypes := [1, 64]
  certificateAuthorities := T.caNames

/-- tls/handshake_server.go:409-435, gm: 378-403 -/
def sendReq {c : Sm2.Curve} (T : ServerSide c) : Res (List Bytes × List Item) :=
  if T.auth.rank ≥ ClientAuth.requestClientCert.rank then do
    let (b, i) ← encode (if T.gm then .certificateRequestGM T.requestGM else .certificateRequest T.request)
    .ok ([b], [i])
  else .ok ([], [])

/-- what the server has sent by ServerHelloDone: the ephemeral key it keeps, the bytes hashed, the messages -/
structure ServerSent where
  key : Option EcdheServer
  bytes : List Bytes
  items : List Item

/-- tls/handshake_server.go:380-440, tls/gm_handshake_server_double.go:344-409: Certificate to ServerHelloDone -/
def serverFlight (K : KaEnv) (T : ServerSide K.auth.x509.curve) (rand : Bytes) : Res ServerSent := do
  let (b1, i1) ← encode (.certificate { raw := none, certificates := T.chain })
  let (b2, i2) ← sendStatus T
  let (st, key) ← serverGenSKX K T rand
  let (b3, i3) ← sendSKX key
  let (b4, i4) ← sendReq T
  let (b5, i5) ← encode .serverHelloDone
  .ok ⟨st, b1 :: (b2 ++ b3 ++ b4 ++ [b5]), i1 :: (i2 ++ i3 ++ i4 ++ [i5])⟩

/-- the state in which `serverFull` takes over -/
def ServerSide.hs {K : KaEnv} (T : ServerSide K.auth.x509.curve) (st : Option EcdheServer) (rand : Bytes) : ServerHs where
  auth := T.auth
  clientCAs := T.clientCAs
  now := T.now
  verifyPeer := T.verifyPeer
  gm := T.gm
  vers := T.vers
  suite := T.suite
  clientRandom := T.clientRandom
  serverRandom := T.serverRandom
  processCKX := serverProcessCKX K T st rand
  keyLog := T.keyLog
  npn := T.npn

/-- tls/handshake_server.go:616-640, gm: 581-605 `sendSessionTicket` -/
def sendTicket (ticket : Bool) (encrypted : Res Bytes) (fh : FinishedHash) : Res (FinishedHash × List Item) :=
  if ticket then do
    let t ← encrypted
    let (fh, i) ← emit fh (.newSessionTicket { raw := none, ticket := t })
    .ok (fh, [i])
  else .ok (fh, [])

/-- tls/handshake_server.go:95-104, 616-659, gm: 93-102, 581-624: the session ticket, if announced, ChangeCipherSpec, Finished -/
def serverEnd (ticket : Bool) (encrypted : Res Bytes) (d : ServerDone) : Res (FinishedHash × List Item) := do
  let (fh, t) ← sendTicket ticket encrypted d.fh
  let (vd, fh) ← fh.serverSum d.master
  let (fh, i) ← emit fh (.finished { raw := none, verifyData := vd })
  .ok (fh, t ++ [.ccs, i])

end Verif.Tls
