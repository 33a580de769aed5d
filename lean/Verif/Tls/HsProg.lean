import Verif.Tls.Resume
import Verif.Tls.Renegotiation
/-!
The client's handshake as a program over a connection: which records it reads and writes, in which order, which alert it sends before it
gives up, when it buffers and when it flushes, and when the keys are made (tls/handshake_client.go, tls/gm_handshake_client_double.go,
tls/gm_handshake_client.go).

`Hs α` is the type of such programs. A program has two readings: `Hs.run` executes it on a connection (`Conn`: bytes from the transport, records,
keys), and `Hs.items` on a list of messages, as in `ClientFull`. The decisions are those of `ClientFull`, `Resume` and `Negotiation`.

Simplifications. As in `ClientFull`, the randomness of the key exchange and of the CertificateVerify are arguments; that of the records is
`Conn.rand`. Errors are strings.
-/
namespace Verif.Tls
open Verif Verif.Tls.Wire

/-- assignments to fields of the connection in a handshake -/
inductive HsUpd where
  /-- `c.vers = v`: tls/handshake_client.go:106 -/
  | setVers (v : Version)
  /-- `c.vers = v; c.haveVers = true`: tls/handshake_client.go:304-305 -/
  | pinVers (v : Version)
  /-- `c.buffering = true`: tls/handshake_client.go:249 -/
  | buffer
  /-- `establishKeys` of the client: tls/handshake_client.go:545-565 -/
  | clientKeys (s : Suite) (master clientRandom serverRandom : Bytes)
  /-- `establishKeys` of the server: tls/handshake_server.go:547-570, tls/gm_handshake_server_double.go:512-535 -/
  | serverKeys (s : Suite) (master clientRandom serverRandom : Bytes)

/-- what they do -/
def HsUpd.apply (P : Prims) (u : HsUpd) (c : Conn) : Res Conn :=
  match u with
  | .setVers v => .ok { c with vers := v }
  | .pinVers v => .ok { c with vers := v, haveVers := true }
  | .buffer => .ok { c with buffering := true }
  | .clientKeys s master cr sr => c.clientEstablish P s master cr sr
  | .serverKeys s master cr sr => c.serverEstablish P s master cr sr

/-- a handshake program. Statements whose error is returned at once (`if err != nil { return err }`) are single constructors. -/
inductive Hs (α : Type) where
  | ret (a : α)
  /-- `c.sendAlert(alert)`, if there is one, and `return err` -/
  | fail (alert : Option Byte) (e : String)
  | panic
  /-- `c.readHandshake()` -/
  | read (k : Message → Hs α)
  /-- `c.readRecord(recordTypeChangeCipherSpec)`, the test of `c.in.err`, then `c.readHandshake()`. The Boolean (not seen by the code) says whether the keys were changed -/
  | readSwitch (k : Bool → Message → Hs α)
  /-- `c.writeRecord(recordTypeHandshake, b)`; `m` is the message that `b` encodes -/
  | write (b : Bytes) (m : Message) (k : Hs α)
  /-- `c.writeRecord(recordTypeChangeCipherSpec, []byte{1})` -/
  | writeCCS (k : Hs α)
  /-- `c.flush()` -/
  | flush (k : Hs α)
  | upd (u : HsUpd) (k : Hs α)

/-- sequencing -/
def Hs.bind {α β : Type} : Hs α → (α → Hs β) → Hs β
  | .ret a, f => f a
  | .fail a e, _ => .fail a e
  | .panic, _ => .panic
  | .read k, f => .read fun m => (k m).bind f
  | .readSwitch k, f => .readSwitch fun b m => (k b m).bind f
  | .write b m k, f => .write b m (k.bind f)
  | .writeCCS k, f => .writeCCS (k.bind f)
  | .flush k, f => .flush (k.bind f)
  | .upd u k, f => .upd u (k.bind f)

instance : Monad Hs where
  pure := Hs.ret
  bind := Hs.bind

/-- a computation of the other files inside a program: if it fails, the alert is sent and the error returned -/
def Hs.lift {α : Type} (alert : Option Byte) : Res α → Hs α
  | .ok a => .ret a
  | .err e => .fail alert e
  | .panic => .panic

/-- `if !b { c.sendAlert(alert); return err }` -/
def Hs.check (alert : Byte) (e : String) (b : Bool) : Hs Unit := if b then .ret () else .fail (some alert) e

/-! ### the two readings -/

/-- how a run ended -/
inductive HsEnd (α : Type) where
  | done (a : α)
  /-- this side refused what the peer sent, or could not go on -/
  | refused (alert : Option Byte) (e : String)
  /-- reading or writing failed -/
  | failed (e : String)

structure HsOut (α : Type) where
  result : HsEnd α
  /-- the messages and key changes read, and those sent -/
  got : List Item
  sent : List Item
  conn : Conn

def HsOut.saw {α : Type} (l : List Item) (r : Res (HsOut α)) : Res (HsOut α) := r.map fun o => { o with got := l ++ o.got }
def HsOut.put {α : Type} (l : List Item) (r : Res (HsOut α)) : Res (HsOut α) := r.map fun o => { o with sent := l ++ o.sent }

/-- `c.readHandshake()` with the message decoded: tls/conn.go:951-1025. `gm` is `c.config.GMSupport != nil` -/
def Conn.readMessage (gm : Bool) (c : Conn) : Res (Except String Message × Conn) :=
  let tls12 := decide (vTLS12.toNat ≤ c.vers.toNat)
  match c.readHandshake (parses gm tls12) with
  | .ok (.error e, c) => .ok (.error e, c)
  | .ok (.ok data, c) =>
    match parse gm tls12 data with
    | .ok m => .ok (.ok m, c)
    | _ => .panic
  | .err x => .err x
  | .panic => .panic

/-- the program on a connection -/
def Hs.run {α : Type} (P : Prims) (gm : Bool) : Hs α → Conn → Res (HsOut α)
  | .ret a, c => .ok ⟨.done a, [], [], c⟩
  | .fail none e, c => .ok ⟨.refused none e, [], [], c⟩
  | .fail (some a) e, c =>
    match c.sendAlert a with
    | .ok (_, c) => .ok ⟨.refused (some a) e, [], [], c⟩
    | .err x => .err x
    | .panic => .panic
  | .panic, _ => .panic
  | .read k, c =>
    match c.readMessage gm with
    | .ok (.error e, c) => .ok ⟨.failed e, [], [], c⟩
    | .ok (.ok m, c) => HsOut.saw [.msg m] ((k m).run P gm c)
    | .err x => .err x
    | .panic => .panic
  | .readSwitch k, c =>
    match c.readRecord typCCS with
    | .ok (_, c1) =>
      match c1.inp.err with
      | some e => .ok ⟨.failed e, [], [], c1⟩
      | none =>
        let sw := c.inp.nextCipher.isSome && c1.inp.nextCipher.isNone
        match c1.readMessage gm with
        | .ok (.error e, c2) => .ok ⟨.failed e, if sw then [.ccs] else [], [], c2⟩
        | .ok (.ok m, c2) => HsOut.saw (if sw then [.ccs, .msg m] else [.msg m]) ((k sw m).run P gm c2)
        | .err x => .err x
        | .panic => .panic
    | .err x => .err x
    | .panic => .panic
  | .write b m k, c =>
    match c.writeRecord typHandshake b with
    | .ok (_, some e, c) => .ok ⟨.failed e, [], [], c⟩
    | .ok (_, none, c) => HsOut.put [.msg m] (k.run P gm c)
    | .err x => .err x
    | .panic => .panic
  | .writeCCS k, c =>
    match c.writeRecord typCCS [1] with
    | .ok (_, some e, c) => .ok ⟨.failed e, [], [], c⟩
    | .ok (_, none, c) => HsOut.put [.ccs] (k.run P gm c)
    | .err x => .err x
    | .panic => .panic
  | .flush k, c =>
    match c.flush with
    | (some e, c) => .ok ⟨.failed e, [], [], c⟩
    | (none, c) => k.run P gm c
  | .upd u k, c =>
    match u.apply P c with
    | .ok c => k.run P gm c
    | .err x => .err x
    | .panic => .panic

/-- the program on a list of messages: the result, what was sent, and what is left. `ren` says whether a handshake record is accepted in place of a ChangeCipherSpec
(tls/conn.go:722). -/
def Hs.items {α : Type} (ren : Bool) : Hs α → List Item → Res (α × List Item × List Item)
  | .ret a, l => .ok (a, [], l)
  | .fail _ e, _ => .err e
  | .panic, _ => .panic
  | .read k, .msg m :: r => (k m).items ren r
  | .read _, _ => .err "tls: unexpected message"
  | .readSwitch k, .ccs :: .msg m :: r => (k true m).items ren r
  | .readSwitch k, .msg m :: r => if ren then (k false m).items ren r else .err "tls: no renegotiation"
  | .readSwitch _, _ => .err "tls: unexpected message"
  | .write _ m k, l => (k.items ren l).map fun x => (x.1, .msg m :: x.2.1, x.2.2)
  | .writeCCS k, l => (k.items ren l).map fun x => (x.1, .ccs :: x.2.1, x.2.2)
  | .flush k, l => k.items ren l
  | .upd _ k, l => k.items ren l

/-- what the handshake function returns to `Handshake` and `handleRenegotiation` -/
def HsEnd.err {α : Type} : HsEnd α → Option String
  | .done _ => none
  | .refused _ e => some e
  | .failed e => some e

/-- a program as the argument `hs` of `Conn.handshake` and `Conn.handleRenegotiation` -/
def Hs.asHandshake {α : Type} (P : Prims) (gm : Bool) (p : Hs α) (c : Conn) : Res (Option String × Conn) :=
  (p.run P gm c).map fun o => (o.result.err, o.conn)

/-! ### the client -/

/-- write a message: it enters the transcript and goes out -/
def emitProg (fh : FinishedHash) (m : Message) : Hs FinishedHash := do
  let x ← Hs.lift none m.marshal
  let fh ← Hs.lift none (fh.write x.1)
  .write x.1 x.2 (.ret fh)

/-- tls/handshake_client.go:337-381: parse, verify, callback, type of key -/
def stdCertsProg (E : AuthEnv) (S : ClientHs) (certificates : List Bytes) : Hs (List X509.Cert × List (List X509.Cert)) :=
  match parseAll E.parse certificates with
  | none => .fail (some 42) "tls: failed to parse certificate from server"
  | some certs => do
    let chains ← Hs.lift (some 42) (verifyServerChain E S certs)
    Hs.check 42 "VerifyPeerCertificate" (S.callback certificates chains)
    match certs with
    | [] => .panic
    | leaf :: _ =>
      if stdServerKey leaf.pub then .ret (certs, chains)
      else .fail (some 43) "tls: server's certificate contains an unsupported type of public key"

/-- tls/gm_handshake_client.go:197-276 (`single_cert`) -/
def singleCertsProg (E : AuthEnv) (S : ClientHs) (certificates : List Bytes) : Hs (List X509.Cert × List (List X509.Cert)) :=
  match parseAll E.parse certificates with
  | none => .fail (some 42) "tls: failed to parse certificate from server"
  | some certs => do
    let chains ← Hs.lift (some 42) (verifyServerChain E { S with rootCAs := some (S.rootCAs.getD X509.Pool.new) } certs)
    Hs.check 42 "VerifyPeerCertificate" (S.callback certificates chains)
    match certs with
    | [] => .panic
    | leaf :: _ =>
      if keyAllowed true leaf.pub then .ret (certs, chains)
      else .fail (some 43) "tls: server's certificate contains an unsupported type of public key"

/-- tls/gm_handshake_client_double.go:197-225: parse; an SM2 key; the key usage of the first two -/
def gmParseProg (parse : Bytes → Option X509.Cert) : Nat → List Bytes → Hs (List X509.Cert)
  | _, [] => .ret []
  | i, b :: r =>
    match parse b with
    | none => .fail (some 42) "tls: failed to parse certificate from server"
    | some c => do
      Hs.check 43 "tls: pubkey type of cert is error, expect sm2.publicKey" (gmFits c.pub)
      Hs.check 71 "tls: the keyusage of cert" (gmCertOk i c)
      let cs ← gmParseProg parse (i + 1) r
      .ret (c :: cs)

/-- tls/gm_handshake_client_double.go:193-270 -/
def gmCertsProg (E : AuthEnv) (S : ClientHs) (certificates : List Bytes) : Hs (List X509.Cert × List (List X509.Cert)) := do
  let certs ← gmParseProg E.parse 0 certificates
  let chains ← Hs.lift (some 42) (gmChains E S certs)
  Hs.check 42 "VerifyPeerCertificate" (S.callback certificates chains)
  .ret (certs, chains)

/-- tls/handshake_client.go:333-395, tls/gm_handshake_client_double.go:192-282, tls/gm_handshake_client.go:194-287 -/
def identityProg (E : AuthEnv) (S : ClientHs) (certificates : List Bytes) : Hs (List X509.Cert × List (List X509.Cert)) :=
  match S.previous with
  | some p => Hs.lift (some 42) (sameServer p certificates)
  | none => if S.dual then gmCertsProg E S certificates else if S.gm then singleCertsProg E S certificates else stdCertsProg E S certificates

/-- tls/handshake_client.go:323-395, tls/gm_handshake_client_double.go:174-282 -/
def certProg (E : AuthEnv) (S : ClientHs) (fh : FinishedHash) : Hs ((List X509.Cert × List (List X509.Cert)) × FinishedHash) :=
  .read fun m =>
    match m with
    | .certificate cm =>
      if cm.certificates.length = 0 then .fail (some 10) "tls: unexpected message"
      else if S.dual = true ∧ cm.certificates.length < 2 then .fail (some 71) "tls: length of certificates in GMT0024 must great than 2"
      else do
        let x ← Hs.lift none cm.marshal
        let fh ← Hs.lift none (fh.write x.1)
        let p ← identityProg E S cm.certificates
        .ret (p, fh)
    | _ => .fail (some 10) "tls: unexpected message"

/-- tls/handshake_client.go:397-425: the next message, after the CertificateStatus if it is one (standard client only); gm: 284-287 -/
def statusProg (S : ClientHs) (fh : FinishedHash) : Hs (FinishedHash × Message) :=
  .read fun m =>
    match m with
    | .certificateStatus cs =>
      if S.gm then .ret (fh, .certificateStatus cs)
      else if S.ocsp = false then .fail (some 10) "tls: received unexpected CertificateStatus message"
      else do
        let x ← Hs.lift none cs.marshal
        let fh ← Hs.lift none (fh.write x.1)
        .read fun m => .ret (fh, m)
    | m => .ret (fh, m)

/-- tls/handshake_client.go:427-442, tls/gm_handshake_client_double.go:289-307: if `m` is a ServerKeyExchange; the message after it -/
def skxProg (K : KaEnv) (S : ClientHs) (leaf enc : X509.Cert) (fh : FinishedHash) (m : Message) : Hs (Option EcdheClient × FinishedHash × Message) :=
  match m with
  | .serverKeyExchange skx => do
    let x ← Hs.lift none skx.marshal
    let fh ← Hs.lift none (fh.write x.1)
    let st ← Hs.lift (some 10) (clientProcessSKX K S leaf enc skx.key)
    .read fun m => .ret (st, fh, m)
  | m => .ret (none, fh, m)

/-- tls/handshake_client.go:444-460, tls/gm_handshake_client_double.go:309-325: if `m` is a CertificateRequest; the message after it -/
def reqProg (E : AuthEnv) (S : ClientHs) (fh : FinishedHash) (m : Message) : Hs (Option Requested × FinishedHash × Message) :=
  match m with
  | .certificateRequest r =>
    if S.gm then .ret (none, fh, .certificateRequest r) else do
    let x ← Hs.lift none r.marshal
    let fh ← Hs.lift none (fh.write x.1)
    let c ← Hs.lift (some 80) (stdGetCertificate E S r)
    .read fun m => .ret (some ⟨c, r.supportedSignatureAlgorithms⟩, fh, m)
  | .certificateRequestGM r =>
    if S.gm = false then .ret (none, fh, .certificateRequestGM r) else do
    let x ← Hs.lift none r.marshal
    let fh ← Hs.lift none (fh.write x.1)
    let c ← Hs.lift (some 80) (gmGetCertificate E S r)
    .read fun m => .ret (some ⟨c, []⟩, fh, m)
  | m => .ret (none, fh, m)

/-- tls/handshake_client.go:462-467, gm: 327-332 -/
def doneProg (fh : FinishedHash) (m : Message) : Hs FinishedHash :=
  match m with
  | .serverHelloDone => Hs.lift none (fh.write serverHelloDoneMarshal)
  | _ => .fail (some 10) "tls: unexpected message"

/-- tls/handshake_client.go:469-479, gm: 334-344 -/
def sendCertProg (req : Option Requested) (fh : FinishedHash) : Hs FinishedHash :=
  match req with
  | none => .ret fh
  | some ⟨none, _⟩ => .panic
  | some ⟨some c, _⟩ => emitProg fh (.certificate { raw := none, certificates := c.chain })

/-- tls/handshake_client.go:493-532, gm: 358-379 -/
def sendCertVerifyProg (E : AuthEnv) (S : ClientHs) (req : Option Requested) (rand : Bytes) (fh : FinishedHash) : Hs FinishedHash :=
  match req with
  | some ⟨some c, algs⟩ =>
    if c.chain.length > 0 then
      match c.key with
      | none => .fail (some 80) "tls: client certificate private key does not implement crypto.Signer"
      | some key => do
        let cv ← Hs.lift (some 80) (makeCertVerify E S key algs rand fh)
        emitProg fh (.certificateVerify cv)
    else .ret fh
  | _ => .ret fh

/-- what `doFullHandshake` leaves behind -/
structure FullState where
  certs : List X509.Cert
  chains : List (List X509.Cert)
  ecdhe : Option EcdheClient
  master : Bytes
  fh : FinishedHash

/-- tls/handshake_client.go:320-543, tls/gm_handshake_client_double.go:171-390 `doFullHandshake` -/
def fullProg (K : KaEnv) (S : ClientHs) (randKx randSign : Bytes) (fh : FinishedHash) : Hs FullState := do
  let x ← certProg K.auth S fh
  let y ← statusProg S x.2
  let ka ← Hs.lift none (kaCerts S.dual x.1.1)
  let z ← skxProg K S ka.1 ka.2 y.1 y.2
  let w ← reqProg K.auth S z.2.1 z.2.2
  let fh ← doneProg w.2.1 w.2.2
  let fh ← sendCertProg w.1 fh
  let pc ← Hs.lift (some 80) (clientGenCKX K S z.1 ka.2 randKx)
  let fh ← emitProg fh (.clientKeyExchange { raw := none, ciphertext := pc.2 })
  let fh ← sendCertVerifyProg K.auth S w.1 randSign fh
  let master ← Hs.lift none (masterFromPreMasterSecret K.auth.hashes S.vers S.suite pc.1 S.clientRandom S.serverRandom)
  Hs.check 80 "key log" (S.keyLog master)
  .ret ⟨x.1.1, x.1.2, z.1, master, fh.discardHandshakeBuffer⟩

/-- tls/handshake_client.go:712-723, gm: 559-570 -/
def nextProtoProg (S : ClientHs) (fh : FinishedHash) : Hs FinishedHash :=
  match S.nextProto with
  | none => .ret fh
  | some p => emitProg fh (.nextProto { raw := none, proto := p })

/-- tls/handshake_client.go:705-733, gm: 552-580 `sendFinished` -/
def finishedProg (S : ClientHs) (master : Bytes) (fh : FinishedHash) : Hs FinishedHash :=
  .writeCCS do
    let fh ← nextProtoProg S fh
    let x ← Hs.lift none (fh.clientSum master)
    emitProg x.2 (.finished { raw := none, verifyData := x.1 })

/-- tls/handshake_client.go:676-703, gm: 523-550 `readSessionTicket` -/
def ticketProg (S : ClientHs) (fh : FinishedHash) : Hs (Option Bytes × FinishedHash) :=
  if S.ticket then
    .read fun m =>
      match m with
      | .newSessionTicket t => do
        let x ← Hs.lift none t.marshal
        let fh ← Hs.lift none (fh.write x.1)
        .ret (some t.ticket, fh)
      | _ => .fail (some 10) "tls: unexpected message"
  else .ret (none, fh)

/-- tls/handshake_client.go:647-674, gm: 494-521 `readFinished` -/
def readFinishedProg (master : Bytes) (fh : FinishedHash) : Hs (Bool × FinishedHash) :=
  .readSwitch fun sw m =>
    match m with
    | .finished fin => do
      let x ← Hs.lift none (fh.serverSum master)
      if x.1.length ≠ fin.verifyData.length ∨ x.1 ≠ fin.verifyData then .fail (some 40) "tls: server's Finished message was incorrect"
      else do
        let y ← Hs.lift none fin.marshal
        let fh ← Hs.lift none (x.2.write y.1)
        .ret (sw, fh)
    | _ => .fail (some 10) "tls: unexpected message"

/-- the state of the client after a completed handshake -/
structure ClientEnd where
  /-- what it knew after the ServerHello -/
  S : ClientHs
  /-- the two hello messages as hashed -/
  hellos : List Bytes
  /-- the session resumed, if one was -/
  resumed : Option SavedSession
  certs : List X509.Cert
  chains : List (List X509.Cert)
  ecdhe : Option EcdheClient
  master : Bytes
  ticket : Option Bytes
  switched : Bool
  fh : FinishedHash

/-- the alerts of `Negotiation`: tls/alert.go:12-39 -/
def Alert.code : Alert → Option Byte
  | .unexpectedMessage => some 10
  | .handshakeFailure => some 40
  | .protocolVersion => some 70
  | .inappropriateFallback => some 86
  | .internalError => some 80
  | .none => Option.none

/-- the fields of the messages that the negotiation looks at -/
def clientHelloOf (m : ClientHelloMsg) : ClientHello where
  vers := m.vers
  random := m.random
  sessionId := m.sessionId
  cipherSuites := m.cipherSuites
  compressionMethods := m.compressionMethods
  nextProtoNeg := m.nextProtoNeg
  serverName := m.serverName
  supportedCurves := m.supportedCurves
  supportedPoints := m.supportedPoints
  ticketSupported := m.ticketSupported
  sessionTicket := m.sessionTicket
  secureRenegotiation := m.secureRenegotiation
  secureRenegotiationSupported := m.secureRenegotiationSupported
  alpnProtocols := m.alpnProtocols

def serverHelloOf (m : ServerHelloMsg) : ServerHello where
  vers := m.vers
  random := m.random
  sessionId := m.sessionId
  cipherSuite := m.cipherSuite
  compressionMethod := m.compressionMethod
  nextProtoNeg := m.nextProtoNeg
  nextProtos := m.nextProtos
  ticketSupported := m.ticketSupported
  secureRenegotiation := m.secureRenegotiation
  secureRenegotiationSupported := m.secureRenegotiationSupported
  alpnProtocol := m.alpnProtocol

def sessionOf (s : SavedSession) : ClientSession where
  ticket := s.ticket
  vers := s.vers
  cipherSuite := s.suite
  masterSecret := s.master
  serverCertificates := s.certs.map (·.raw)
  verified := !s.chains.isEmpty

/-- what a client brings to a handshake: its configuration (`S`: the fields that do not come from the hellos; `cfg`), the state of the connection, the ClientHello
it made (C77, C87) and the session it offers in it -/
structure ClientStart where
  S : ClientHs
  cfg : Config
  conn : ClientConn
  hello : ClientHelloMsg
  session : Option SavedSession

/-- the reaction to the ServerHello: tls/handshake_client.go:217-230, tls/gm_handshake_client_double.go:82-95 -/
def ClientStart.react (Z : ClientStart) (sh : ServerHelloMsg) : Except Alert ClientChoice :=
  if Z.S.gm then readServerHelloGM Z.conn (clientHelloOf Z.hello) (Z.session.map sessionOf) (serverHelloOf sh)
  else readServerHello Z.cfg Z.conn (clientHelloOf Z.hello) (Z.session.map sessionOf) (serverHelloOf sh)

/-- what the client knows after the ServerHello `sh`. If the server does NPN the protocol is `mutualProtocol`'s (tls/handshake_client.go:712-717), which does not
panic then (the client offered NPN, so it has protocols). -/
def ClientStart.knows (Z : ClientStart) (sh : ServerHelloMsg) (ch : ClientChoice) : ClientHs :=
  { Z.S with
    helloVers := Z.hello.vers
    vers := ch.vers
    suite := ch.suite
    clientRandom := Z.hello.random
    serverRandom := sh.random
    sigAlgs := Z.hello.supportedSignatureAlgorithms
    ocsp := sh.ocspStapling
    ticket := sh.ticketSupported
    nextProto := if sh.nextProtoNeg then (match mutualProtocol Z.cfg.nextProtos sh.nextProtos with | .ok p => some p.1 | _ => none) else none }

/-- tls/handshake_client.go:218-226, 296-309 `pickTLSVersion`: the version of the standard client is pinned as soon as it is known; the GM client does not pin it
(tls/gm_handshake_client_double.go:71-90) -/
def pinProg (Z : ClientStart) (sh : ServerHelloMsg) : Hs Unit :=
  if Z.S.gm then .ret ()
  else match pickTLSVersion Z.cfg (serverHelloOf sh) with
    | .ok v => .upd (.pinVers v) (.ret ())
    | .error a => .fail a.code "tls: server selected unsupported protocol version"

/-- tls/handshake_client.go:105-107: the GM client sets the version of its records before the ClientHello -/
def versProg (Z : ClientStart) : Hs Unit :=
  if Z.S.gm then .upd (.setVers vGMSSL) (.ret ()) else .ret ()

/-- tls/handshake_client.go:208-236, gm: 71-101: up to the decision between a full handshake and a resumption. -/
def helloProg (Z : ClientStart) : Hs (ClientHs × List Bytes × Bool) := do
  let x ← Hs.lift none (Message.clientHello Z.hello).marshal
  .write x.1 x.2 (.read fun m =>
    match m with
    | .serverHello sh => do
      let _ ← pinProg Z sh
      match Z.react sh with
      | .error a => .fail a.code "ServerHello"
      | .ok ch => do
        let y ← Hs.lift none sh.marshal
        .ret (Z.knows sh ch, [x.1, y.1], ch.resume.isSome)
    | _ => .fail (some 10) "tls: unexpected message")

/-- tls/handshake_client.go:236-270, gm: 101-135: the abbreviated handshake -/
def resumeProg (E : AuthEnv) (S : ClientHs) (hellos : List Bytes) (s : SavedSession) : Hs ClientEnd := do
  let fh ← Hs.lift none (S.newHash E)
  let fh ← Hs.lift none (fh.discardHandshakeBuffer.writes hellos)
  .upd .buffer (.upd (.clientKeys S.suite s.master S.clientRandom S.serverRandom) do
    let t ← ticketProg S fh
    let f ← readFinishedProg s.master t.2
    let fh ← finishedProg S s.master f.2
    .flush (.ret ⟨S, hellos, some s, s.certs, s.chains, none, s.master, t.1, f.1, fh⟩))

/-- tls/handshake_client.go:236-251, 271-286, gm: 101-115, 136-151: the full handshake -/
def newSessionProg (K : KaEnv) (S : ClientHs) (hellos : List Bytes) (randKx randSign : Bytes) : Hs ClientEnd := do
  let fh ← Hs.lift none (S.newHash K.auth)
  let fh ← Hs.lift none ((if S.noCerts then fh.discardHandshakeBuffer else fh).writes hellos)
  .upd .buffer do
    let c ← fullProg K S randKx randSign fh
    .upd (.clientKeys S.suite c.master S.clientRandom S.serverRandom) do
      let fh ← finishedProg S c.master c.fh
      .flush do
        let t ← ticketProg S fh
        let f ← readFinishedProg c.master t.2
        .ret ⟨S, hellos, none, c.certs, c.chains, c.ecdhe, c.master, t.1, f.1, f.2⟩

/-- tls/handshake_client.go:105-107, 204-294, gm: 68-159: `clientHandshake` from the finished ClientHello on -/
def clientProg (K : KaEnv) (Z : ClientStart) (randKx randSign : Bytes) : Hs ClientEnd := do
  let _ ← versProg Z
  let x ← helloProg Z
  match x.2.2, Z.session with
  | true, some s => resumeProg K.auth x.1 x.2.1 s
  | _, _ => newSessionProg K x.1 x.2.1 randKx randSign

end Verif.Tls
