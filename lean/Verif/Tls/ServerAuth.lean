import Verif.X509.VerifyProps
import Verif.Sm2.ExternalProps
import Verif.Tls.MessagesDispatch
import Verif.Tls.FinishedProps
import Verif.Tls.NegotiationProps
/-!
The part of a full server handshake that decides who the client is: everything after ServerHelloDone, for the standard server
(tls/handshake_server.go) and the GM server (tls/gm_handshake_server_double.go), which run the same statements here. Theorems C47.

What the client sends is a list of items: handshake messages as `readHandshake` returns them, or a ChangeCipherSpec record. (How records
become items is the subject of `Reassembly`, `Establish`, C29, C78.) Alerts sent before returning an error are not represented.
-/
namespace Verif.Tls
open Verif Verif.Tls.Wire

/-- one thing the peer sends -/
inductive Item where
  | msg (m : Message)
  | ccs
deriving DecidableEq, Repr

/-- `c.readHandshake()`: a message, or an error when the stream ends or a ChangeCipherSpec arrives -/
def readMsg : List Item → Res (Message × List Item)
  | [] => .err "EOF"
  | .msg m :: r => .ok (m, r)
  | .ccs :: _ => .err "tls: unexpected message"

/-- the order of the constants, tls/common.go:191-197 -/
def ClientAuth.rank : ClientAuth → Nat
  | .noClientCert => 0
  | .requestClientCert => 1
  | .requireAnyClientCert => 2
  | .verifyClientCertIfGiven => 3
  | .requireAndVerifyClientCert => 4

/-- tls/common.go:131-136, and 0 -/
inductive SigType where
  | unknown | pkcs1v15 | rsaPSS | ecdsa | sm2
deriving DecidableEq, Repr

/-- `crypto.Hash` values in use -/
inductive HashId where
  | md5sha1 | sha1 | sha256 | sha384 | sha512
deriving DecidableEq, Repr

/-- the surroundings: certificate parsing and verification, hash functions, and the RSA and ECDSA verifications of the standard library -/
structure AuthEnv where
  x509 : X509.Env
  entrust : Bytes
  system : Option X509.Pool
  /-- `x509.ParseCertificate` -/
  parse : Bytes → Option X509.Cert
  hashes : Hashes
  sha512 : HashFn
  /-- `rsa.VerifyPKCS1v15(pub, hash, digest, sig) == nil` -/
  rsaPKCS1 : Bytes → HashId → Bytes → Bytes → Bool
  /-- `rsa.VerifyPSS` with `PSSSaltLengthEqualsHash` -/
  rsaPSS : Bytes → HashId → Bytes → Bytes → Bool
  /-- `ecdsa.Verify(pub, digest, r, s)` -/
  ecdsaVerify : Bytes → Bytes → Int → Int → Bool

/-- `hashAlg.New()` (crypto.MD5SHA1 has none and is never asked for one) -/
def AuthEnv.hashFn (E : AuthEnv) : HashId → HashFn
  | .sha256 => E.hashes.sha256
  | .sha384 => E.hashes.sha384
  | .sha512 => E.sha512
  | _ => E.hashes.sha1

/-- tls/common.go:142-151 -/
def supportedSignatureAlgorithms : List U16 := [0x0401, 0x0403, 0x0501, 0x0503, 0x0601, 0x0603, 0x0201, 0x0203]

/-- tls/prf.go:184-197 `lookupTLSHash` -/
def lookupTLSHash (a : U16) : Option HashId :=
  if a = 0x0201 ∨ a = 0x0203 then some .sha1
  else if a = 0x0401 ∨ a = 0x0804 ∨ a = 0x0403 then some .sha256
  else if a = 0x0501 ∨ a = 0x0805 ∨ a = 0x0503 then some .sha384
  else if a = 0x0601 ∨ a = 0x0806 ∨ a = 0x0603 then some .sha512
  else none

/-- tls/common.go:975-986 `signatureFromSignatureScheme` -/
def signatureFromSignatureScheme (a : U16) : SigType :=
  if a = 0x0201 ∨ a = 0x0401 ∨ a = 0x0501 ∨ a = 0x0601 then .pkcs1v15
  else if a = 0x0804 ∨ a = 0x0805 ∨ a = 0x0806 then .rsaPSS
  else if a = 0x0203 ∨ a = 0x0403 ∨ a = 0x0503 ∨ a = 0x0603 then .ecdsa
  else .unknown

/-- tls/auth.go:47-70, the loop of `pickSignatureAlgorithm` -/
def pickLoop (pub : X509.Pub) (ours : List U16) : List U16 → Res (SigType × HashId)
  | [] => .err "tls: peer doesn't support any common signature algorithms"
  | a :: rest =>
    if a ∉ ours then pickLoop pub ours rest
    else match lookupTLSHash a with
      | none => .panic
      | some h =>
        let t := signatureFromSignatureScheme a
        match pub with
        | .rsa _ => if t = .pkcs1v15 ∨ t = .rsaPSS then .ok (t, h) else pickLoop pub ours rest
        | .ecdsa _ => if t = .ecdsa then .ok (t, h) else pickLoop pub ours rest
        | .sm2 _ _ => if t = .ecdsa then .ok (t, h) else pickLoop pub ours rest
        | _ => .err "tls: unsupported public key"

/-- tls/auth.go:25-71 `pickSignatureAlgorithm`, without the code point -/
def pickSignatureAlgorithm (pub : X509.Pub) (peer ours : List U16) (v : Version) : Res (SigType × HashId) :=
  if v.toNat < vTLS12.toNat ∨ peer.length = 0 then
    match pub with
    | .rsa _ => if v.toNat < vTLS12.toNat then .ok (.pkcs1v15, .md5sha1) else .ok (.pkcs1v15, .sha1)
    | .ecdsa _ => .ok (.ecdsa, .sha1)
    | .sm2 _ _ => .ok (.sm2, .sha1)
    | _ => .err "tls: unsupported public key"
  else pickLoop pub ours peer

/-- tls/auth.go:78-124 `verifyHandshakeSignature`; `true` is a nil error -/
def verifyHandshakeSignature (E : AuthEnv) (t : SigType) (pub : X509.Pub) (h : HashId) (digest sig : Bytes) : Res Bool :=
  match t with
  | .ecdsa =>
    match pub with
    | .ecdsa k =>
      match Sm2.unmarshalPair sig with
      | none => .ok false
      | some (r, s) => if r ≤ 0 ∨ s ≤ 0 then .ok false else .ok (E.ecdsaVerify k digest r s)
    | _ => .ok false
  | .pkcs1v15 =>
    match pub with
    | .rsa k => .ok (E.rsaPKCS1 k h digest sig)
    | _ => .ok false
  | .rsaPSS =>
    match pub with
    | .rsa k => .ok (E.rsaPSS k h digest sig)
    | _ => .ok false
  | .sm2 =>
    match pub with
    | .sm2 x y => Sm2.pubVerify E.x509.curve { x := x, y := y, pre := none } digest sig
    | _ => .ok false
  | .unknown => .ok false

/-- what the server knows when it has sent ServerHelloDone -/
structure ServerHs where
  auth : ClientAuth
  clientCAs : Option X509.Pool
  now : Int
  /-- `config.VerifyPeerCertificate`, if set: true is a nil error -/
  verifyPeer : Option (List Bytes → List (List X509.Cert) → Bool)
  /-- `serverHandshakeStateGM` rather than `serverHandshakeState` -/
  gm : Bool
  vers : Version
  suite : Suite
  clientRandom : Bytes
  serverRandom : Bytes
  /-- `keyAgreement.processClientKeyExchange` of the suite with the server's certificate -/
  processCKX : Bytes → Res Bytes
  /-- `config.writeKeyLog` -/
  keyLog : Bytes → Bool
  /-- `hello.nextProtoNeg` -/
  npn : Bool := false

/-- `c.peerCertificates`, `c.verifiedChains`, the public key returned -/
structure PeerId where
  certs : List X509.Cert
  chains : List (List X509.Cert)
  pub : Option X509.Pub

/-- tls/handshake_server.go:671-678 (tls/gm_handshake_server_double.go:636-643): parse every certificate -/
def parseAll (parse : Bytes → Option X509.Cert) : List Bytes → Option (List X509.Cert)
  | [] => some []
  | b :: r => do
    let c ← parse b
    let cs ← parseAll parse r
    some (c :: cs)

/-- tls/handshake_server.go:681-690 (gm: 646-655): the options. `ExtKeyUsageClientAuth` is 2. -/
def clientVerifyOpts (S : ServerHs) (rest : List X509.Cert) : X509.Opts :=
  { dnsName := [], intermediates := some (rest.foldl X509.Pool.addCert X509.Pool.new), roots := S.clientCAs, now := S.now, keyUsages := [2] }

/-- tls/handshake_server.go:680-699 (gm: 645-664) -/
def verifyClientChain (E : AuthEnv) (S : ServerHs) : List X509.Cert → Res (List (List X509.Cert))
  | [] => .ok []
  | leaf :: rest =>
    if S.auth.rank ≥ ClientAuth.verifyClientCertIfGiven.rank then
      match X509.verify E.x509 E.entrust E.system leaf (clientVerifyOpts S rest) with
      | some (.ok chains) => .ok chains
      | _ => .err "tls: failed to verify client's certificate"
    else .ok []

/-- tls/handshake_server.go:713-719 (gm: 678-684), the type switch -/
def keyAllowed (gm : Bool) : X509.Pub → Bool
  | .rsa _ => true
  | .ecdsa _ => true
  | .sm2 _ _ => gm
  | _ => false

/-- tls/handshake_server.go:701-706 (gm: 666-671): `VerifyPeerCertificate`, if set -/
def ServerHs.callback (S : ServerHs) (certificates : List Bytes) (chains : List (List X509.Cert)) : Bool :=
  match S.verifyPeer with
  | some f => f certificates chains
  | none => true

/-- tls/handshake_server.go:667-722, tls/gm_handshake_server_double.go:632-687 `processCertsFromClient` on a connection with no earlier chains -/
def processCertsFromClient (E : AuthEnv) (S : ServerHs) (certificates : List Bytes) : Res PeerId :=
  match parseAll E.parse certificates with
  | none => .err "tls: failed to parse client certificate"
  | some certs => do
    let chains ← verifyClientChain E S certs
    if S.callback certificates chains = false then .err "VerifyPeerCertificate" else
    match certs with
    | [] => .ok { certs := [], chains := chains, pub := none }
    | leaf :: _ =>
      if keyAllowed S.gm leaf.pub then .ok { certs := certs, chains := chains, pub := some leaf.pub }
      else .err "tls: client's certificate contains an unsupported public key"

/-- tls/handshake_server.go:450-485 (gm: 414-450): the client's Certificate message -/
def clientCertPhase (E : AuthEnv) (S : ServerHs) (fh : FinishedHash) (items : List Item) : Res (PeerId × FinishedHash × List Item) :=
  if S.auth.rank ≥ ClientAuth.requestClientCert.rank then do
    let (m, items) ← readMsg items
    match m with
    | .certificate cm => do
      let (b, _) ← cm.marshal
      let fh ← fh.write b
      if cm.certificates.length = 0 ∧ (S.auth = .requireAnyClientCert ∨ S.auth = .requireAndVerifyClientCert) then
        .err "tls: client didn't provide a certificate"
      else do
        let p ← processCertsFromClient E S cm.certificates
        .ok (p, fh, items)
    | _ => .err "tls: unexpected message"
  else .ok (⟨[], [], none⟩, fh, items)

/-- tls/handshake_server.go:487-504 (gm: 452-469): ClientKeyExchange -/
def ckxPhase (E : AuthEnv) (S : ServerHs) (fh : FinishedHash) (items : List Item) : Res (Bytes × FinishedHash × List Item) := do
  let (m, items) ← readMsg items
  match m with
  | .clientKeyExchange ckx => do
    let (b, _) ← ckx.marshal
    let fh ← fh.write b
    let pre ← S.processCKX ckx.ciphertext
    let master ← masterFromPreMasterSecret E.hashes S.vers S.suite pre S.clientRandom S.serverRandom
    if S.keyLog master = false then .err "key log" else
    .ok (master, fh, items)
  | _ => .err "tls: unexpected message"

/-- tls/handshake_server.go:512-540 (gm: 477-505): CertificateVerify, if the client has a certificate -/
def certVerifyPhase (E : AuthEnv) (S : ServerHs) (p : PeerId) (master : Bytes) (fh : FinishedHash) (items : List Item) :
    Res (FinishedHash × List Item) :=
  match p.pub with
  | none => .ok (fh, items)
  | some pub => do
    let (m, items) ← readMsg items
    match m with
    | .certificateVerify cv => do
      let (t, h) ← pickSignatureAlgorithm pub [cv.signatureAlgorithm] supportedSignatureAlgorithms S.vers
      let digest ← fh.hashForClientCertificate E.hashes (t = .pkcs1v15) (t = .ecdsa) (E.hashFn h) master
      let ok ← verifyHandshakeSignature E t pub h digest cv.signature
      if ok = false then .err "tls: could not validate signature of connection nonces" else do
      let (b, _) ← cv.marshal
      let fh ← fh.write b
      .ok (fh, items)
    | _ => .err "tls: unexpected message"

/-- `c.readRecord(recordTypeChangeCipherSpec)` and the test of `c.in.err` on a server (tls/handshake_server.go:575-578, gm: 540-543): anything but
a ChangeCipherSpec is an error -/
def readCCS : List Item → Res (List Item)
  | .ccs :: r => .ok r
  | _ => .err "tls: unexpected message"

/-- tls/handshake_server.go:580-592 (gm: 545-557): the NextProtocol message, if the server announced NPN -/
def nextProtoPhase (S : ServerHs) (fh : FinishedHash) (items : List Item) : Res (FinishedHash × List Item) :=
  if S.npn then do
    let (m, items) ← readMsg items
    match m with
    | .nextProto np => do
      let (b, _) ← np.marshal
      let fh ← fh.write b
      .ok (fh, items)
    | _ => .err "tls: unexpected message"
  else .ok (fh, items)

/-- tls/handshake_server.go:572-614 (gm: 537-579) `readFinished` -/
def serverReadFinished (S : ServerHs) (master : Bytes) (fh : FinishedHash) (items : List Item) : Res (FinishedHash × List Item) := do
  let items ← readCCS items
  let (fh, items) ← nextProtoPhase S fh items
  let (m, items) ← readMsg items
  match m with
  | .finished fin => do
    let (verify, fh) ← fh.clientSum master
    if verify.length ≠ fin.verifyData.length ∨ verify ≠ fin.verifyData then .err "tls: client's Finished message is incorrect" else do
    let (b, _) ← fin.marshal
    let fh ← fh.write b
    .ok (fh, items)
  | _ => .err "tls: unexpected message"

/-- tls/handshake_server.go:372, gm: 333: which hash object -/
def ServerHs.newHash (E : AuthEnv) (S : ServerHs) : Res FinishedHash :=
  if S.gm then .ok newFinishedHashGM else newFinishedHash E.hashes S.vers S.suite

/-- tls/prf.go:348-350 -/
def FinishedHash.discardHandshakeBuffer (h : FinishedHash) : FinishedHash := { h with buffer := none }

/-- the state after a completed full handshake (before the server's own Finished) -/
structure ServerDone where
  peer : PeerId
  master : Bytes
  fh : FinishedHash
  rest : List Item

/-- tls/handshake_server.go:372-545 and 572-614, tls/gm_handshake_server_double.go:333-510 and 537-579: a full handshake from the creation of the hash
object; `flight` are the messages hashed up to and including ServerHelloDone. -/
def serverFull (E : AuthEnv) (S : ServerHs) (flight : List Bytes) (items : List Item) : Res ServerDone := do
  let fh ← S.newHash E
  let fh := if S.auth = .noClientCert then fh.discardHandshakeBuffer else fh
  let fh ← fh.writes flight
  let (p, fh, items) ← clientCertPhase E S fh items
  let (master, fh, items) ← ckxPhase E S fh items
  let (fh, items) ← certVerifyPhase E S p master fh items
  let fh := fh.discardHandshakeBuffer
  let (fh, items) ← serverReadFinished S master fh items
  .ok ⟨p, master, fh, items⟩

/-- tls/handshake_server.go:351-355, tls/gm_handshake_server_double.go:312-316 in `doResumeHandshake`, the part about the client's identity: the certificates
of the session are processed again under the present configuration; nothing is asked of the client. -/
def serverResume (E : AuthEnv) (S : ServerHs) (st : SessionState) : Res PeerId :=
  if st.certificates.length > 0 then processCertsFromClient E S st.certificates else .ok ⟨[], [], none⟩

end Verif.Tls
