import Verif.Tls.HsProg
/-!
The server's handshake as a program over a connection, in the same language `Hs` as the client's (`HsProg`): tls/handshake_server.go and
tls/gm_handshake_server_double.go. The decisions are those of `Negotiation`, `ServerAuth`, `ServerFlight` and `Resume`.

Simplifications. The randomness of the hello, of the key exchange and of `processClientKeyExchange` are fields of `ServerStart`; that of the records is `Conn.rand`. The
configuration in use is a function of the ClientHello (`GetConfigForClient`, conn.go `c.config`); a configuration it returns is of the same kind (GM or not). The GM server of
gm_handshake_server.go (build tag `single_cert`) is not in this file. Errors are strings.
-/
namespace Verif.Tls
open Verif Verif.Tls.Wire

/-- what the configuration of a server brings to a handshake -/
structure ServerStart (c : Sm2.Curve) where
  cfg : Config
  /-- `ClientCAs`, `Time()`, `VerifyPeerCertificate`, `KeyLogWriter` -/
  clientCAs : Option X509.Pool
  now : Int
  verifyPeer : Option (List Bytes → List (List X509.Cert) → Bool)
  keyLog : Bytes → Bool
  /-- `OCSPStaple` and `PrivateKey` of a certificate of the configuration -/
  keysOf : Cert → ServerCert c
  /-- `SignedCertificateTimestamps` -/
  scts : Cert → List Bytes
  /-- `c.decryptTicket`, `c.encryptTicket` -/
  decrypt : Bytes → Option SessionState
  box : SessionState → Res Bytes
  /-- what the random source delivers for the ServerHello, the ServerKeyExchange, the ClientKeyExchange -/
  rand : Bytes
  randKx : Bytes
  randCkx : Bytes

/-- a certificate of the configuration: chain, staple, keys -/
def ServerStart.certOf {c : Sm2.Curve} (Z : ServerStart c) (x : Cert) : ServerCert c := { Z.keysOf x with chain := x.chain }

/-- `readClientHello` after the version: tls/handshake_server.go:137-285, tls/gm_handshake_server_double.go:136-246 -/
def ServerStart.react {c : Sm2.Curve} (gm : Bool) (Z : ServerStart c) (ch : ClientHelloMsg) : Except Alert ServerChoice :=
  if gm then readClientHelloGM Z.cfg Z.decrypt Z.rand (clientHelloOf ch) else readClientHello Z.cfg Z.decrypt Z.rand (clientHelloOf ch)

/-- what the server knows when it has decided: `hs.cert` is `config.Certificates` in GM mode (tls/gm_handshake_server_double.go:191-192) -/
def ServerStart.side {c : Sm2.Curve} (gm : Bool) (Z : ServerStart c) (ch : ClientHelloMsg) (r : ServerChoice) : ServerSide c where
  auth := Z.cfg.clientAuth
  clientCAs := Z.clientCAs
  now := Z.now
  verifyPeer := Z.verifyPeer
  gm := gm
  vers := r.vers
  suite := r.suite
  clientRandom := ch.random
  serverRandom := r.random
  keyLog := Z.keyLog
  npn := r.npn
  cert := match r.cert with | some x => Z.certOf x | none => { chain := [] }
  second := match Z.cfg.certificates[1]? with | some x => Z.certOf x | none => { chain := [] }
  more := (Z.cfg.certificates.drop 2).map Z.certOf
  curvePrefs := Z.cfg.curves
  offeredCurves := ch.supportedCurves
  offeredAlgs := ch.supportedSignatureAlgorithms
  ocspAsked := ch.ocspStapling
  ticket := ch.ticketSupported && !Z.cfg.sessionTicketsDisabled

/-- the ServerHello as a message: tls/handshake_server.go:133-213, 338-343, 365-370, gm: 132-190, 299-304, 326-331 -/
def ServerStart.helloMsg {c : Sm2.Curve} (gm : Bool) (Z : ServerStart c) (ch : ClientHelloMsg) (r : ServerChoice) : ServerHelloMsg :=
  let h := serverHello Z.cfg (clientHelloOf ch) r
  { raw := none
    vers := h.vers
    random := h.random
    sessionId := h.sessionId
    cipherSuite := h.cipherSuite
    compressionMethod := h.compressionMethod
    nextProtoNeg := h.nextProtoNeg
    nextProtos := h.nextProtos
    ocspStapling := r.resume.isNone && (Z.side gm ch r).ocsp
    scts := if ch.scts then (match r.cert with | some x => Z.scts x | none => []) else []
    ticketSupported := h.ticketSupported
    secureRenegotiation := h.secureRenegotiation
    secureRenegotiationSupported := h.secureRenegotiationSupported
    alpnProtocol := h.alpnProtocol }

/-- tls/handshake_server.go:115-285, gm: 113-246 `readClientHello`. The version is set and pinned before anything else is checked. -/
def srvHelloProg {c : Sm2.Curve} (gm : Bool) (start : ClientHelloMsg → Option (ServerStart c)) : Hs (ClientHelloMsg × ServerStart c × ServerChoice) :=
  .read fun m =>
    match m with
    | .clientHello ch =>
      match start ch with
      | none => .fail (some 80) "GetConfigForClient"
      | some Z =>
        match Z.cfg.mutualVersion ch.vers with
        | none => .fail (some 70) "tls: client offered an unsupported, maximum protocol version"
        | some v => .upd (.pinVers v)
          (match Z.react gm ch with
           | .error a => .fail a.code "ClientHello"
           | .ok r => .ret (ch, Z, r))
    | _ => .fail (some 10) "tls: unexpected message"

/-- tls/handshake_server.go:667-722, gm: 632-687 `processCertsFromClient` -/
def srvCertsProg (E : AuthEnv) (S : ServerHs) (certificates : List Bytes) : Hs PeerId :=
  match parseAll E.parse certificates with
  | none => .fail (some 42) "tls: failed to parse client certificate"
  | some certs => do
    let chains ← Hs.lift (some 42) (verifyClientChain E S certs)
    Hs.check 42 "VerifyPeerCertificate" (S.callback certificates chains)
    match certs with
    | [] => .ret { certs := [], chains := chains, pub := none }
    | leaf :: _ =>
      if keyAllowed S.gm leaf.pub then .ret { certs := certs, chains := chains, pub := some leaf.pub }
      else .fail (some 43) "tls: client's certificate contains an unsupported public key"

/-- tls/handshake_server.go:450-485, gm: 414-450. The certificates as sent come back too (`hs.certsFromClient`). -/
def clientCertProg (E : AuthEnv) (S : ServerHs) (fh : FinishedHash) : Hs ((PeerId × List Bytes) × FinishedHash) :=
  if S.auth.rank ≥ ClientAuth.requestClientCert.rank then
    .read fun m =>
      match m with
      | .certificate cm => do
        let x ← Hs.lift none cm.marshal
        let fh ← Hs.lift none (fh.write x.1)
        if cm.certificates.length = 0 ∧ (S.auth = .requireAnyClientCert ∨ S.auth = .requireAndVerifyClientCert) then
          .fail (some 42) "tls: client didn't provide a certificate"
        else do
          let p ← srvCertsProg E S cm.certificates
          .ret ((p, cm.certificates), fh)
      | _ => .fail (some 10) "tls: unexpected message"
  else .ret ((⟨[], [], none⟩, []), fh)

/-- tls/handshake_server.go:487-504, gm: 452-469 -/
def ckxProg (E : AuthEnv) (S : ServerHs) (fh : FinishedHash) : Hs (Bytes × FinishedHash) :=
  .read fun m =>
    match m with
    | .clientKeyExchange ckx => do
      let x ← Hs.lift none ckx.marshal
      let fh ← Hs.lift none (fh.write x.1)
      let pre ← Hs.lift (some 40) (S.processCKX ckx.ciphertext)
      let master ← Hs.lift none (masterFromPreMasterSecret E.hashes S.vers S.suite pre S.clientRandom S.serverRandom)
      Hs.check 80 "key log" (S.keyLog master)
      .ret (master, fh)
    | _ => .fail (some 10) "tls: unexpected message"

/-- tls/handshake_server.go:512-540, gm: 477-505 -/
def certVerifyProg (E : AuthEnv) (S : ServerHs) (p : PeerId) (master : Bytes) (fh : FinishedHash) : Hs FinishedHash :=
  match p.pub with
  | none => .ret fh
  | some pub =>
    .read fun m =>
      match m with
      | .certificateVerify cv => do
        let a ← Hs.lift (some 47) (pickSignatureAlgorithm pub [cv.signatureAlgorithm] supportedSignatureAlgorithms S.vers)
        let digest ← Hs.lift (some 42) (fh.hashForClientCertificate E.hashes (a.1 = .pkcs1v15) (a.1 = .ecdsa) (E.hashFn a.2) master)
        let ok ← Hs.lift (some 42) (verifyHandshakeSignature E a.1 pub a.2 digest cv.signature)
        Hs.check 42 "tls: could not validate signature of connection nonces" ok
        let x ← Hs.lift none cv.marshal
        Hs.lift none (fh.write x.1)
      | _ => .fail (some 10) "tls: unexpected message"

/-- tls/handshake_server.go:594-613, gm: 559-578: the client's Finished -/
def clientFinProg (master : Bytes) (fh : FinishedHash) (m : Message) : Hs FinishedHash :=
  match m with
  | .finished fin => do
    let x ← Hs.lift none (fh.clientSum master)
    if x.1.length ≠ fin.verifyData.length ∨ x.1 ≠ fin.verifyData then .fail (some 40) "tls: client's Finished message is incorrect"
    else do
      let y ← Hs.lift none fin.marshal
      Hs.lift none (x.2.write y.1)
  | _ => .fail (some 10) "tls: unexpected message"

/-- tls/handshake_server.go:572-614, gm: 537-579 `readFinished` -/
def srvReadFinishedProg (S : ServerHs) (master : Bytes) (fh : FinishedHash) : Hs FinishedHash :=
  .readSwitch fun _ m =>
    if S.npn then
      match m with
      | .nextProto np => do
        let x ← Hs.lift none np.marshal
        let fh ← Hs.lift none (fh.write x.1)
        .read fun m => clientFinProg master fh m
      | _ => .fail (some 10) "tls: unexpected message"
    else clientFinProg master fh m

/-- tls/handshake_server.go:616-640, gm: 581-605 `sendSessionTicket`: no alert if the ticket cannot be sealed -/
def srvTicketProg (ticket : Bool) (encrypted : Res Bytes) (fh : FinishedHash) : Hs FinishedHash :=
  if ticket then do
    let t ← Hs.lift none encrypted
    emitProg fh (.newSessionTicket { raw := none, ticket := t })
  else .ret fh

/-- tls/handshake_server.go:642-659, gm: 607-624 `sendFinished` -/
def srvFinishedProg (master : Bytes) (fh : FinishedHash) : Hs FinishedHash :=
  .writeCCS do
    let x ← Hs.lift none (fh.serverSum master)
    emitProg x.2 (.finished { raw := none, verifyData := x.1 })

/-- tls/handshake_server.go:387-395, gm: 355-363 -/
def srvStatusProg {c : Sm2.Curve} (T : ServerSide c) (fh : FinishedHash) : Hs FinishedHash :=
  if T.ocsp then emitProg fh (.certificateStatus { raw := none, statusType := 1, response := T.cert.staple }) else .ret fh

/-- tls/handshake_server.go:402-407, gm: 371-376 -/
def srvSkxProg (key : Option Bytes) (fh : FinishedHash) : Hs FinishedHash :=
  match key with
  | none => .ret fh
  | some key => emitProg fh (.serverKeyExchange { raw := none, key := key })

/-- tls/handshake_server.go:409-435, gm: 378-403 -/
def srvReqProg {c : Sm2.Curve} (T : ServerSide c) (fh : FinishedHash) : Hs FinishedHash :=
  if T.auth.rank ≥ ClientAuth.requestClientCert.rank then emitProg fh (if T.gm then .certificateRequestGM T.requestGM else .certificateRequest T.request)
  else .ret fh

/-- tls/handshake_server.go:380-444, tls/gm_handshake_server_double.go:344-412: Certificate to ServerHelloDone -/
def srvFlightProg (K : KaEnv) (T : ServerSide K.auth.x509.curve) (rand : Bytes) (fh : FinishedHash) : Hs (Option EcdheServer × FinishedHash) := do
  let fh ← emitProg fh (.certificate { raw := none, certificates := T.chain })
  let fh ← srvStatusProg T fh
  let k ← Hs.lift (some 40) (serverGenSKX K T rand)
  let fh ← srvSkxProg k.2 fh
  let fh ← srvReqProg T fh
  let fh ← emitProg fh .serverHelloDone
  .ret (k.1, fh)

/-- the state of the server after a completed handshake -/
structure ServerRes where
  /-- what it knew after the ClientHello -/
  S : ServerHs
  /-- the two hello messages as hashed -/
  hellos : List Bytes
  /-- the session resumed, if one was -/
  resumed : Option SessionState
  peer : PeerId
  /-- `hs.certsFromClient` -/
  certsSent : List Bytes
  master : Bytes
  fh : FinishedHash

/-- tls/handshake_server.go:351-355, gm: 312-316: the certificates of the session under the present configuration -/
def srvAgainProg (E : AuthEnv) (S : ServerHs) (st : SessionState) : Hs PeerId :=
  if st.certificates.length > 0 then srvCertsProg E S st.certificates else .ret ⟨[], [], none⟩

/-- tls/handshake_server.go:54-80, 335-360, tls/gm_handshake_server_double.go:52-78, 296-321: the abbreviated handshake. Both kinds of server use `newFinishedHash` here. -/
def srvResumeProg (E : AuthEnv) (S : ServerHs) (box : SessionState → Res Bytes) (ch : ClientHelloMsg) (hello : ServerHelloMsg) (st : SessionState) : Hs ServerRes :=
  .upd .buffer do
    let fh ← Hs.lift none (newFinishedHash E.hashes S.vers S.suite)
    let x ← Hs.lift none ch.marshal
    let y ← Hs.lift none (Message.serverHello hello).marshal
    let fh ← Hs.lift none (fh.discardHandshakeBuffer.writes [x.1, y.1])
    .write y.1 y.2 do
      let p ← srvAgainProg E S st
      .upd (.serverKeys S.suite st.masterSecret S.clientRandom S.serverRandom) do
        let fh ← srvTicketProg st.usedOldKey (box (renewedState S st)) fh
        let fh ← srvFinishedProg st.masterSecret fh
        .flush do
          let fh ← srvReadFinishedProg S st.masterSecret fh
          .ret ⟨S, [x.1, y.1], some st, p, st.certificates, st.masterSecret, fh⟩

/-- tls/handshake_server.go:446-545, tls/gm_handshake_server_double.go:413-510: what the client answers to ServerHelloDone -/
def srvAnswerProg (E : AuthEnv) (S : ServerHs) (fh : FinishedHash) : Hs ((PeerId × List Bytes) × Bytes × FinishedHash) := do
  let p ← clientCertProg E S fh
  let m ← ckxProg E S p.2
  let fh ← certVerifyProg E S p.1.1 m.1 m.2
  .ret (p.1, m.1, fh.discardHandshakeBuffer)

/-- tls/handshake_server.go:81-105, 362-545, tls/gm_handshake_server_double.go:79-103, 323-510: the full handshake -/
def srvFullProg (K : KaEnv) (T : ServerSide K.auth.x509.curve) (box : SessionState → Res Bytes) (randKx randCkx : Bytes) (ch : ClientHelloMsg) (hello : ServerHelloMsg) :
    Hs ServerRes :=
  .upd .buffer do
    let fh ← Hs.lift none ((T.hs (K := K) none randCkx).newHash K.auth)
    let x ← Hs.lift none ch.marshal
    let y ← Hs.lift none (Message.serverHello hello).marshal
    let fh ← Hs.lift none ((if T.auth = .noClientCert then fh.discardHandshakeBuffer else fh).writes [x.1, y.1])
    .write y.1 y.2 do
      let k ← srvFlightProg K T randKx fh
      .flush do
        let a ← srvAnswerProg K.auth (T.hs k.1 randCkx) k.2
        .upd (.serverKeys T.suite a.2.1 T.clientRandom T.serverRandom) do
          let fh ← srvReadFinishedProg (T.hs k.1 randCkx) a.2.1 a.2.2
          .upd .buffer do
            let fh ← srvTicketProg T.ticket (box ⟨T.vers, T.suite.id, a.2.1, a.1.2, false⟩) fh
            let fh ← srvFinishedProg a.2.1 fh
            .flush (.ret ⟨T.hs k.1 randCkx, [x.1, y.1], none, a.1.1, a.1.2, a.2.1, fh⟩)

/-- tls/handshake_server.go:39-112, tls/gm_handshake_server_double.go:38-111: `serverHandshake`, `serverHandshakeGM` -/
def serverProg (K : KaEnv) (gm : Bool) (start : ClientHelloMsg → Option (ServerStart K.auth.x509.curve)) : Hs (ServerChoice × ServerRes) := do
  let x ← srvHelloProg gm start
  let T := x.2.1.side gm x.1 x.2.2
  let hello := x.2.1.helloMsg gm x.1 x.2.2
  match x.2.2.resume with
  | some st => do
    let r ← srvResumeProg K.auth (T.hs (K := K) none x.2.1.randCkx) x.2.1.box x.1 hello st
    .ret (x.2.2, r)
  | none => do
    let r ← srvFullProg K T x.2.1.box x.2.1.randKx x.2.1.randCkx x.1 hello
    .ret (x.2.2, r)

end Verif.Tls
