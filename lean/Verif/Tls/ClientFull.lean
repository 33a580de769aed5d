import Verif.Tls.KeyAgreementProps
/-!
A full handshake on the client, after the ServerHello has been processed: tls/handshake_client.go (standard) and
tls/gm_handshake_client_double.go (GM; gm_handshake_client.go if built with the tag `single_cert`). What the server sends is a list of items, as in `ServerAuth`; so is what the client sends.

Simplifications. Alerts sent before an error and failing writes are not represented. The randomness of the key exchange and that of the
CertificateVerify signature are separate arguments (in the code both come from `config.rand()`). An endless loop in `sm2.Encrypt` counts as an
error. A message that is waited for as a ChangeCipherSpec came in a record of its own.
-/
namespace Verif.Tls
open Verif Verif.Tls.Wire

/-- a `Certificate` of the client's configuration: `Certificate`, `Leaf`, and `PrivateKey` if it is a `crypto.Signer` -/
structure ClientCert where
  chain : List Bytes
  leaf : Option X509.Cert := none
  key : Option Signer := none

/-- what the client knows when it has processed the ServerHello of a full handshake -/
structure ClientHs where
  insecureSkipVerify : Bool
  rootCAs : Option X509.Pool
  serverName : Bytes
  now : Int
  /-- `config.VerifyPeerCertificate`, if set: true is a nil error -/
  verifyPeer : Option (List Bytes → List (List X509.Cert) → Bool)
  /-- `config.Certificates` -/
  certificates : List ClientCert
  /-- `config.GetClientCertificate`, if set; `none` is a nil certificate with a nil error -/
  getClientCertificate : Option (List Bytes → List U16 → Res (Option ClientCert))
  /-- `config.writeKeyLog` -/
  keyLog : Bytes → Bool
  /-- `config.Renegotiation != RenegotiateNever` -/
  renegotiation : Bool
  /-- `clientHandshakeStateGM` rather than `clientHandshakeState` -/
  gm : Bool
  /-- `hello.vers`, `c.vers` -/
  helloVers : Version
  vers : Version
  suite : Suite
  clientRandom : Bytes
  serverRandom : Bytes
  /-- `hello.supportedSignatureAlgorithms` -/
  sigAlgs : List U16
  /-- `serverHello.ocspStapling`, `serverHello.ticketSupported` -/
  ocsp : Bool
  ticket : Bool
  /-- the protocol chosen by `mutualProtocol`, if `serverHello.nextProtoNeg` -/
  nextProto : Option Bytes
  /-- `c.peerCertificates`, `c.verifiedChains` if `c.handshakes > 0` -/
  previous : Option (List X509.Cert × List (List X509.Cert))
  /-- built with the tag `single_cert`: the GM client is that of gm_handshake_client.go -/
  single : Bool := false

/-- two certificates, for signatures and for encryption: the GM client of gm_handshake_client_double.go -/
def ClientHs.dual (S : ClientHs) : Bool := S.gm && !S.single

/-! ### the server's certificates -/

/-- tls/handshake_client.go:348-360 -/
def serverVerifyOpts (S : ClientHs) (rest : List X509.Cert) : X509.Opts :=
  { dnsName := S.serverName, intermediates := some (rest.foldl X509.Pool.addCert X509.Pool.new), roots := S.rootCAs, now := S.now, keyUsages := [] }

/-- tls/handshake_client.go:347-366 -/
def verifyServerChain (E : AuthEnv) (S : ClientHs) : List X509.Cert → Res (List (List X509.Cert))
  | [] => .panic
  | leaf :: rest =>
    if S.insecureSkipVerify then .ok []
    else match X509.verify E.x509 E.entrust E.system leaf (serverVerifyOpts S rest) with
      | some (.ok chains) => .ok chains
      | _ => .err "x509"

/-- tls/handshake_client.go:368-373 (gm: 255-260): `VerifyPeerCertificate`, if set -/
def ClientHs.callback (S : ClientHs) (certificates : List Bytes) (chains : List (List X509.Cert)) : Bool :=
  match S.verifyPeer with
  | some f => f certificates chains
  | none => true

/-- tls/handshake_client.go:375-381, the type switch -/
def stdServerKey : X509.Pub → Bool
  | .rsa _ => true
  | .ecdsa _ => true
  | _ => false

/-- tls/handshake_client.go:334-383: the first handshake of a connection -/
def stdServerCerts (E : AuthEnv) (S : ClientHs) (certificates : List Bytes) : Res (List X509.Cert × List (List X509.Cert)) :=
  match parseAll E.parse certificates with
  | none => .err "tls: failed to parse certificate from server"
  | some certs => do
    let chains ← verifyServerChain E S certs
    if S.callback certificates chains = false then .err "VerifyPeerCertificate" else
    match certs with
    | [] => .panic
    | leaf :: _ => if stdServerKey leaf.pub then .ok (certs, chains) else .err "tls: server's certificate contains an unsupported type of public key"

/-- tls/gm_handshake_client_double.go:204-222: an SM2 key; the first certificate is for signatures, the second for encryption. The bits of `KeyUsage`
are DigitalSignature 1, ContentCommitment 2, KeyEncipherment 4, DataEncipherment 8, KeyAgreement 16. -/
def gmCertOk (i : Nat) (c : X509.Cert) : Bool :=
  (match c.pub with
    | .sm2 _ _ => true
    | _ => false) &&
  (if i = 0 then c.keyUsage != 0 && (c.keyUsage &&& (1 ||| (c.keyUsage &&& 2))) != 0
   else if i = 1 then c.keyUsage != 0 && (c.keyUsage &&& (8 ||| 4 ||| 16)) != 0
   else true)

/-- tls/gm_handshake_client_double.go:196-225 -/
def gmParseAll (parse : Bytes → Option X509.Cert) : Nat → List Bytes → Option (List X509.Cert)
  | _, [] => some []
  | i, b :: r => do
    let c ← parse b
    if gmCertOk i c then do
      let cs ← gmParseAll parse (i + 1) r
      some (c :: cs)
    else none

/-- tls/gm_handshake_client_double.go:241-251: every certificate is verified in turn; from the third on each then becomes an intermediate. The result is
that of the last verification. -/
def gmVerifyAll (E : AuthEnv) (S : ClientHs) (roots : X509.Pool) : Nat → X509.Pool → List (List X509.Cert) → List X509.Cert → Res (List (List X509.Cert))
  | _, _, chains, [] => .ok chains
  | i, inter, _, c :: r =>
    match X509.verify E.x509 E.entrust E.system c { dnsName := S.serverName, intermediates := some inter, roots := some roots, now := S.now, keyUsages := [] } with
    | some (.ok chains) => gmVerifyAll E S roots (i + 1) (if i = 0 ∨ i = 1 then inter else inter.addCert c) chains r
    | _ => .err "x509"

/-- tls/gm_handshake_client_double.go:226-252 -/
def gmChains (E : AuthEnv) (S : ClientHs) (certs : List X509.Cert) : Res (List (List X509.Cert)) :=
  if S.insecureSkipVerify then .ok [] else gmVerifyAll E S (S.rootCAs.getD X509.Pool.new) 0 X509.Pool.new [] certs

/-- tls/gm_handshake_client_double.go:193-270. Nil `RootCAs` is replaced by an empty pool (`getCAs` returns nil); the key type was checked before. -/
def gmServerCerts (E : AuthEnv) (S : ClientHs) (certificates : List Bytes) : Res (List X509.Cert × List (List X509.Cert)) :=
  match gmParseAll E.parse 0 certificates with
  | none => .err "tls: bad certificate"
  | some certs => do
    let chains ← gmChains E S certs
    if S.callback certificates chains = false then .err "VerifyPeerCertificate" else
    .ok (certs, chains)

/-- tls/gm_handshake_client.go:196-276, built with `single_cert`: the first certificate is verified with the others as intermediates; neither the kind of its key nor
its key usage is looked at beyond the type switch. Nil `RootCAs` is replaced by an empty pool. -/
def singleServerCerts (E : AuthEnv) (S : ClientHs) (certificates : List Bytes) : Res (List X509.Cert × List (List X509.Cert)) :=
  match parseAll E.parse certificates with
  | none => .err "tls: failed to parse certificate from server"
  | some certs => do
    let chains ← verifyServerChain E { S with rootCAs := some (S.rootCAs.getD X509.Pool.new) } certs
    if S.callback certificates chains = false then .err "VerifyPeerCertificate" else
    match certs with
    | [] => .panic
    | leaf :: _ => if keyAllowed true leaf.pub then .ok (certs, chains) else .err "tls: server's certificate contains an unsupported type of public key"

/-- tls/handshake_client.go:384-395, gm: 271-282: a renegotiation; the leaf must be the one known -/
def sameServer (p : List X509.Cert × List (List X509.Cert)) (certificates : List Bytes) : Res (List X509.Cert × List (List X509.Cert)) :=
  match p.1, certificates with
  | c :: _, b :: _ => if c.raw = b then .ok p else .err "tls: server's identity changed during renegotiation"
  | _, _ => .panic

/-- tls/handshake_client.go:333-395, tls/gm_handshake_client_double.go:192-282, tls/gm_handshake_client.go:194-287: `if c.handshakes == 0` -/
def serverIdentity (E : AuthEnv) (S : ClientHs) (certificates : List Bytes) : Res (List X509.Cert × List (List X509.Cert)) :=
  match S.previous with
  | some p => sameServer p certificates
  | none => if S.dual then gmServerCerts E S certificates else if S.gm then singleServerCerts E S certificates else stdServerCerts E S certificates

/-- tls/handshake_client.go:323-395, tls/gm_handshake_client_double.go:174-282: the Certificate message -/
def serverCertPhase (E : AuthEnv) (S : ClientHs) (fh : FinishedHash) (items : List Item) :
    Res ((List X509.Cert × List (List X509.Cert)) × FinishedHash × List Item) := do
  let (m, items) ← readMsg items
  match m with
  | .certificate cm =>
    if cm.certificates.length = 0 then .err "tls: unexpected message"
    else if S.dual = true ∧ cm.certificates.length < 2 then .err "tls: length of certificates in GMT0024 must great than 2"
    else do
      let (b, _) ← cm.marshal
      let fh ← fh.write b
      let p ← serverIdentity E S cm.certificates
      .ok (p, fh, items)
  | _ => .err "tls: unexpected message"

/-- tls/handshake_client.go:397-425: the CertificateStatus message, if it comes (standard client only). The stapled response is kept, not checked. -/
def statusPhase (S : ClientHs) (fh : FinishedHash) (items : List Item) : Res (FinishedHash × List Item) :=
  match items with
  | .msg (.certificateStatus cs) :: rest =>
    if S.gm then .ok (fh, items)
    else if S.ocsp = false then .err "tls: received unexpected CertificateStatus message"
    else do
      let (b, _) ← cs.marshal
      let fh ← fh.write b
      .ok (fh, rest)
  | _ => .ok (fh, items)

/-! ### key agreement -/

/-- `keyAgreement.processServerKeyExchange` for the suite: tls/key_agreement.go:64-66 (RSA), 293-358, tls/gm_key_agreement.go:203-245, 365-398. -/
def clientProcessSKX (K : KaEnv) (S : ClientHs) (leaf enc : X509.Cert) (key : Bytes) : Res (Option EcdheClient) :=
  match S.suite.ka with
  | .rsa => .err "tls: unexpected ServerKeyExchange"
  | .ecdheRSA => (ecdheProcessSKX K S.vers true S.sigAlgs leaf.pub S.clientRandom S.serverRandom key).map some
  | .ecdheECDSA => (ecdheProcessSKX K S.vers false S.sigAlgs leaf.pub S.clientRandom S.serverRandom key).map some
  | .eccGM => (Gm.eccProcessSKX K.auth.x509.curve leaf.pub S.clientRandom S.serverRandom enc.raw key).map fun _ => none
  | .ecdheGM => (ecdheGmProcessSKX K S.vers S.sigAlgs leaf.pub S.clientRandom S.serverRandom key).map some

/-- `keyAgreement.generateClientKeyExchange` for the suite; `cert` is the leaf (standard) or the second certificate (GM). -/
def clientGenCKX (K : KaEnv) (S : ClientHs) (st : Option EcdheClient) (cert : X509.Cert) (rand : Bytes) : Res (Bytes × Bytes) :=
  match S.suite.ka with
  | .rsa => rsaGenCKX K S.helloVers rand cert.pub
  | .ecdheRSA => ecdheGenCKX K st rand
  | .ecdheECDSA => ecdheGenCKX K st rand
  | .eccGM => match Gm.eccGenerateCKX K.auth.x509.curve rand S.helloVers cert.pub with
    | some r => r
    | none => .err "endless loop"
  | .ecdheGM => ecdheGenCKX K st rand

/-- the leaf and the certificate used for encryption: `c.peerCertificates[0]` and, for GM, `[1]` (`[0]` if built with `single_cert`,
tls/gm_handshake_client.go:298, 355) -/
def kaCerts (gm : Bool) : List X509.Cert → Res (X509.Cert × X509.Cert)
  | [] => .panic
  | [c] => if gm then .panic else .ok (c, c)
  | c :: d :: _ => .ok (c, if gm then d else c)

/-- tls/handshake_client.go:427-442, tls/gm_handshake_client_double.go:289-307: the ServerKeyExchange message, if it comes -/
def skxPhase (K : KaEnv) (S : ClientHs) (leaf enc : X509.Cert) (fh : FinishedHash) (items : List Item) :
    Res (Option EcdheClient × FinishedHash × List Item) :=
  match items with
  | .msg (.serverKeyExchange skx) :: rest => do
    let (b, _) ← skx.marshal
    let fh ← fh.write b
    let st ← clientProcessSKX K S leaf enc skx.key
    .ok (st, fh, rest)
  | _ => .ok (none, fh, items)

/-! ### the client's certificate -/

/-- tls/handshake_client.go:736 `tls11SignatureSchemes` -/
def tls11SignatureSchemes : List U16 := [0x0403, 0x0503, 0x0603, 0x0401, 0x0501, 0x0601, 0x0201]

/-- tls/handshake_client.go:761-777 -/
def schemesOffered (rsaAvail ecdsaAvail : Bool) (r : CertificateRequestMsg) : List U16 :=
  if r.hasSignatureAndHash then r.supportedSignatureAlgorithms
  else
    let l := if ecdsaAvail then tls11SignatureSchemes else tls11SignatureSchemes.drop 3
    if rsaAvail then l else l.take (l.length - 4)

/-- tls/handshake_client.go:805-836 (tls/gm_handshake_client_double.go:623-652): one configured chain, from certificate `j` on. `false` is `continue findCert`, or the end of the
chain. -/
def chainFits (parse : Bytes → Option X509.Cert) (fits : X509.Pub → Bool) (cas : List Bytes) (leaf : Option X509.Cert) : Nat → List Bytes → Res Bool
  | _, [] => .ok false
  | j, b :: r => do
    let x ← (match leaf with
      | some l => if j = 0 then .ok l else (match parse b with
        | some c => .ok c
        | none => .err "tls: failed to parse client certificate")
      | none => match parse b with
        | some c => .ok c
        | none => .err "tls: failed to parse client certificate")
    if fits x.pub = false then .ok false
    else if cas.length = 0 ∨ x.rawIssuer ∈ cas then .ok true
    else chainFits parse fits cas leaf (j + 1) r

/-- tls/handshake_client.go:799-840 (gm: 620-656), the loop over `config.Certificates` -/
def findCert (parse : Bytes → Option X509.Cert) (fits : X509.Pub → Bool) (cas : List Bytes) : List ClientCert → Res ClientCert
  | [] => .ok { chain := [] }
  | c :: r => do
    let ok ← chainFits parse fits cas c.leaf 0 c.chain
    if ok then .ok c else findCert parse fits cas r

/-- the type switch of tls/handshake_client.go:817-822 -/
def stdFits (rsaAvail ecdsaAvail : Bool) : X509.Pub → Bool
  | .rsa _ => rsaAvail
  | .ecdsa _ => ecdsaAvail
  | _ => false

/-- tls/gm_handshake_client_double.go:635-639 -/
def gmFits : X509.Pub → Bool
  | .sm2 _ _ => true
  | _ => false

/-- tls/handshake_client.go:747-841 `getCertificate`; `certTypeRSASign` is 1, `certTypeECDSASign` 64 -/
def stdGetCertificate (E : AuthEnv) (S : ClientHs) (r : CertificateRequestMsg) : Res (Option ClientCert) :=
  let rsaAvail := decide ((1 : Byte) ∈ r.certificateTypes)
  let ecdsaAvail := decide ((64 : Byte) ∈ r.certificateTypes)
  match S.getClientCertificate with
  | some f => f r.certificateAuthorities (schemesOffered rsaAvail ecdsaAvail r)
  | none =>
    if rsaAvail = false ∧ ecdsaAvail = false then .ok (some { chain := [] })
    else (findCert E.parse (stdFits rsaAvail ecdsaAvail) r.certificateAuthorities S.certificates).map some

/-- tls/gm_handshake_client_double.go:594-657 `getCertificate` -/
def gmGetCertificate (E : AuthEnv) (S : ClientHs) (r : CertificateRequestMsgGM) : Res (Option ClientCert) :=
  match S.getClientCertificate with
  | some f => f r.certificateAuthorities []
  | none => (findCert E.parse gmFits r.certificateAuthorities S.certificates).map some

/-- the answer to a CertificateRequest: the chain to send and the signature algorithms of the request -/
structure Requested where
  cert : Option ClientCert
  algs : List U16

/-- tls/handshake_client.go:444-460, tls/gm_handshake_client_double.go:309-325: the CertificateRequest message, if it comes -/
def reqPhase (E : AuthEnv) (S : ClientHs) (fh : FinishedHash) (items : List Item) : Res (Option Requested × FinishedHash × List Item) :=
  match items with
  | .msg (.certificateRequest r) :: rest =>
    if S.gm then .ok (none, fh, items) else do
    let (b, _) ← r.marshal
    let fh ← fh.write b
    let c ← stdGetCertificate E S r
    .ok (some ⟨c, r.supportedSignatureAlgorithms⟩, fh, rest)
  | .msg (.certificateRequestGM r) :: rest =>
    if S.gm = false then .ok (none, fh, items) else do
    let (b, _) ← r.marshal
    let fh ← fh.write b
    let c ← gmGetCertificate E S r
    .ok (some ⟨c, []⟩, fh, rest)
  | _ => .ok (none, fh, items)

/-- tls/handshake_client.go:462-467, gm: 327-332 -/
def donePhase (fh : FinishedHash) (items : List Item) : Res (FinishedHash × List Item) := do
  let (m, items) ← readMsg items
  match m with
  | .serverHelloDone => do
    let fh ← fh.write serverHelloDoneMarshal
    .ok (fh, items)
  | _ => .err "tls: unexpected message"

/-! ### the client's messages -/

/-- write a message: it enters the transcript and goes out with its encoding -/
def emit (fh : FinishedHash) (m : Message) : Res (FinishedHash × Item) := do
  let (b, m') ← m.marshal
  let fh ← fh.write b
  .ok (fh, .msg m')

/-- tls/handshake_client.go:469-479, gm: 334-344: the Certificate message, if one was requested; `chainToSend.Certificate` of a nil pointer panics -/
def sendCert (req : Option Requested) (fh : FinishedHash) : Res (FinishedHash × List Item) :=
  match req with
  | none => .ok (fh, [])
  | some ⟨none, _⟩ => .panic
  | some ⟨some c, _⟩ => do
    let (fh, i) ← emit fh (.certificate { raw := none, certificates := c.chain })
    .ok (fh, [i])

/-- the CertificateVerify of the standard client, tls/handshake_client.go:494-526. `hs.masterSecret` is still nil here. -/
def stdCertVerify (E : AuthEnv) (S : ClientHs) (key : Signer) (algs : List U16) (rand : Bytes) (fh : FinishedHash) : Res CertificateVerifyMsg := do
  let (a, t, h) ← pickSignatureAlgorithmFull key.pub algs S.sigAlgs S.vers
  let digest ← fh.hashForClientCertificate E.hashes (t = .pkcs1v15) (t = .ecdsa) (E.hashFn h) []
  let sig ← key.sign rand t h digest
  .ok { raw := none, hasSignatureAndHash := decide (vTLS12.toNat ≤ S.vers.toNat), signatureAlgorithm := if vTLS12.toNat ≤ S.vers.toNat then a else 0, signature := sig }

/-- the CertificateVerify of the GM client, tls/gm_handshake_client_double.go:359-373: the hash of the transcript is signed, without options -/
def gmCertVerify (key : Signer) (rand : Bytes) (fh : FinishedHash) : Res CertificateVerifyMsg := do
  let sig ← key.sign rand .sm2 .sha1 (fh.hash.sum fh.client)
  .ok { raw := none, hasSignatureAndHash := false, signatureAlgorithm := 0, signature := sig }

/-- tls/handshake_client.go:494-526, gm: 359-373 -/
def makeCertVerify (E : AuthEnv) (S : ClientHs) (key : Signer) (algs : List U16) (rand : Bytes) (fh : FinishedHash) : Res CertificateVerifyMsg :=
  if S.gm then gmCertVerify key rand fh else stdCertVerify E S key algs rand fh

/-- tls/handshake_client.go:493-532, gm: 358-379 -/
def sendCertVerify (E : AuthEnv) (S : ClientHs) (req : Option Requested) (rand : Bytes) (fh : FinishedHash) : Res (FinishedHash × List Item) :=
  match req with
  | some ⟨some c, algs⟩ =>
    if c.chain.length > 0 then
      match c.key with
      | none => .err "tls: client certificate private key does not implement crypto.Signer"
      | some key => do
        let cv ← makeCertVerify E S key algs rand fh
        let (fh, i) ← emit fh (.certificateVerify cv)
        .ok (fh, [i])
    else .ok (fh, [])
  | _ => .ok (fh, [])

/-- tls/handshake_client.go:708-723 (gm: 555-570): ChangeCipherSpec and, with NPN, the protocol -/
def sendNextProto (S : ClientHs) (fh : FinishedHash) : Res (FinishedHash × List Item) :=
  match S.nextProto with
  | none => .ok (fh, [])
  | some p => do
    let (fh, i) ← emit fh (.nextProto { raw := none, proto := p })
    .ok (fh, [i])

/-- tls/handshake_client.go:705-733, gm: 552-580 `sendFinished` -/
def clientSendFinished (S : ClientHs) (master : Bytes) (fh : FinishedHash) : Res (FinishedHash × List Item) := do
  let (fh, np) ← sendNextProto S fh
  let (vd, fh) ← fh.clientSum master
  let (fh, i) ← emit fh (.finished { raw := none, verifyData := vd })
  .ok (fh, .ccs :: np ++ [i])

/-- which hash object: tls/handshake_client.go:236, tls/gm_handshake_client_double.go:101 -/
def ClientHs.newHash (E : AuthEnv) (S : ClientHs) : Res FinishedHash :=
  if S.gm then .ok newFinishedHashGM else newFinishedHash E.hashes S.vers S.suite

/-- tls/handshake_client.go:242, gm: 107: will the client never sign? -/
def ClientHs.noCerts (S : ClientHs) : Bool := S.certificates.isEmpty && S.getClientCertificate.isNone

/-- the state of the client when it has sent its Finished -/
structure ClientSent where
  certs : List X509.Cert
  chains : List (List X509.Cert)
  ecdhe : Option EcdheClient
  master : Bytes
  fh : FinishedHash
  /-- what the client sent -/
  sent : List Item
  /-- what the server sent beyond ServerHelloDone -/
  rest : List Item

/-- tls/handshake_client.go:236-247, 320-543, 705-733, tls/gm_handshake_client_double.go:101-112, 171-390, 552-580: `doFullHandshake` and `sendFinished`;
`hellos` are the ClientHello and the ServerHello. -/
def clientFlight (K : KaEnv) (S : ClientHs) (hellos : List Bytes) (randKx randSign : Bytes) (items : List Item) : Res ClientSent := do
  let fh ← S.newHash K.auth
  let fh := if S.noCerts then fh.discardHandshakeBuffer else fh
  let fh ← fh.writes hellos
  let ((certs, chains), fh, items) ← serverCertPhase K.auth S fh items
  let (fh, items) ← statusPhase S fh items
  let (leaf, enc) ← kaCerts S.dual certs
  let (st, fh, items) ← skxPhase K S leaf enc fh items
  let (req, fh, items) ← reqPhase K.auth S fh items
  let (fh, items) ← donePhase fh items
  let (fh, sent1) ← sendCert req fh
  let (pre, ct) ← clientGenCKX K S st enc randKx
  let (fh, ckx) ← emit fh (.clientKeyExchange { raw := none, ciphertext := ct })
  let (fh, sent2) ← sendCertVerify K.auth S req randSign fh
  let master ← masterFromPreMasterSecret K.auth.hashes S.vers S.suite pre S.clientRandom S.serverRandom
  if S.keyLog master = false then .err "key log" else do
  let (fh, sent3) ← clientSendFinished S master fh.discardHandshakeBuffer
  .ok ⟨certs, chains, st, master, fh, sent1 ++ [ckx] ++ sent2 ++ sent3, items⟩

/-! ### the end of the handshake -/

/-- tls/handshake_client.go:676-703, gm: 523-550 `readSessionTicket`: the ticket, if the server announced one -/
def ticketPhase (S : ClientHs) (fh : FinishedHash) (items : List Item) : Res (Option Bytes × FinishedHash × List Item) :=
  if S.ticket then do
    let (m, items) ← readMsg items
    match m with
    | .newSessionTicket t => do
      let (b, _) ← t.marshal
      let fh ← fh.write b
      .ok (some t.ticket, fh, items)
    | _ => .err "tls: unexpected message"
  else .ok (none, fh, items)

/-- `c.readRecord(recordTypeChangeCipherSpec)` on a client (tls/conn.go:701-728): with renegotiation allowed a handshake message is accepted in its place, and
the keys are not changed. The Boolean says whether they were. -/
def clientReadCCS (S : ClientHs) : List Item → Res (Bool × List Item)
  | .ccs :: r => .ok (true, r)
  | .msg m :: r => if S.renegotiation then .ok (false, .msg m :: r) else .err "tls: no renegotiation"
  | [] => .err "EOF"

/-- the state after a completed full handshake -/
structure ClientDone where
  ticket : Option Bytes
  /-- the server's part of the connection now uses the new keys -/
  switched : Bool
  fh : FinishedHash
  rest : List Item

/-- tls/handshake_client.go:280-286, 647-703, gm: 145-151, 494-550: the session ticket and the server's Finished -/
def clientFinish (S : ClientHs) (c : ClientSent) (items : List Item) : Res ClientDone := do
  let (t, fh, items) ← ticketPhase S c.fh items
  let (sw, items) ← clientReadCCS S items
  let (m, items) ← readMsg items
  match m with
  | .finished fin => do
    let (verify, fh) ← fh.serverSum c.master
    if verify.length ≠ fin.verifyData.length ∨ verify ≠ fin.verifyData then .err "tls: server's Finished message was incorrect" else do
    let (b, _) ← fin.marshal
    let fh ← fh.write b
    .ok ⟨t, sw, fh, items⟩
  | _ => .err "tls: unexpected message"

/-- the full handshake, with `items` everything the server sends after its ServerHello: tls/handshake_client.go:271-286, gm: 136-151 -/
def clientFull (K : KaEnv) (S : ClientHs) (hellos : List Bytes) (randKx randSign : Bytes) (items : List Item) : Res (ClientSent × ClientDone) := do
  let c ← clientFlight K S hellos randKx randSign items
  let d ← clientFinish S c c.rest
  .ok (c, d)

end Verif.Tls
