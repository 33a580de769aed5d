import Verif.Tls.Ticket
import Verif.Tls.Suites
/-!
Model of the negotiation part of the handshakes: what a server decides from a ClientHello, what a
client offers and accepts. Messages are records of their parsed fields (the wire format is
`Verif.Tls.Messages`). Strings are byte lists.
-/
namespace Verif.Tls
open Verif

/-- tls/common.go:187-197 -/
inductive ClientAuth where
  | noClientCert | requestClientCert | requireAnyClientCert | verifyClientCertIfGiven | requireAndVerifyClientCert
deriving DecidableEq, Repr

/-- the public key types the type switches distinguish -/
inductive KeyKind where
  | rsa | ecdsa | sm2 | other
deriving DecidableEq, Repr

/-- tls/common.go `Certificate`, the part the negotiation looks at: the DER chain, and whether
`PrivateKey` implements `crypto.Signer` / `crypto.Decrypter` and with which public key type. -/
structure Cert where
  chain : List Bytes
  signer : Option KeyKind
  decrypter : Option KeyKind
deriving DecidableEq, Repr

/-- tls/handshake_messages.go:12-31 `clientHelloMsg` -/
structure ClientHello where
  vers : Version
  random : Bytes
  sessionId : Bytes
  cipherSuites : List (BitVec 16)
  compressionMethods : List Byte
  nextProtoNeg : Bool
  serverName : Bytes
  supportedCurves : List (BitVec 16)
  supportedPoints : List Byte
  ticketSupported : Bool
  sessionTicket : Bytes
  secureRenegotiation : Bytes
  secureRenegotiationSupported : Bool
  alpnProtocols : List Bytes
deriving DecidableEq, Repr

/-- tls/handshake_messages.go `serverHelloMsg`, the fields used here -/
structure ServerHello where
  vers : Version
  random : Bytes
  sessionId : Bytes
  cipherSuite : BitVec 16
  compressionMethod : Byte
  nextProtoNeg : Bool
  nextProtos : List Bytes
  ticketSupported : Bool
  secureRenegotiation : Bytes
  secureRenegotiationSupported : Bool
  alpnProtocol : Bytes
deriving DecidableEq, Repr

/-- tls/common.go `Config`, the part used here. `cipherSuites = none` is a nil slice,
`nameToCertificate = none` a nil map. `getCertificate` is the optional callback: `none` is a non-nil
error, `some none` is `(nil, nil)`. `toLower` is `strings.ToLower`. -/
structure Config where
  minVersion : Version
  maxVersion : Version
  cipherSuites : Option (List (BitVec 16))
  preferServerCipherSuites : Bool
  curvePreferences : List (BitVec 16)
  nextProtos : List Bytes
  clientAuth : ClientAuth
  sessionTicketsDisabled : Bool
  certificates : List Cert
  nameToCertificate : Option (Bytes → Option Cert)
  getCertificate : Option (ClientHello → Option (Option Cert))
  toLower : Bytes → Bytes
  serverName : Bytes
  insecureSkipVerify : Bool

/-- the alert the failing side sends (`none` where it sends none) -/
inductive Alert where
  | unexpectedMessage | handshakeFailure | protocolVersion | inappropriateFallback | internalError | none
deriving DecidableEq, Repr

/-- tls/common.go:37-38, 688-693 -/
def Config.effMin (c : Config) : Version := if c.minVersion = 0 then vGMSSL else c.minVersion
/-- tls/common.go:695-700 -/
def Config.effMax (c : Config) : Version := if c.maxVersion = 0 then vTLS12 else c.maxVersion

/-- tls/common.go:713-724 `mutualVersion` -/
def Config.mutualVersion (c : Config) (vers : Version) : Option Version :=
  if vers.toNat < c.effMin.toNat then none
  else if c.effMax.toNat < vers.toNat then some c.effMax
  else some vers

/-- tls/common.go:934-941 -/
def topCipherSuites : List (BitVec 16) := [0xcca8, 0xcca9, 0xc02f, 0xc030, 0xc02b, 0xc02c]

/-- tls/common.go:947-957: the loop of `initDefaultCipherSuites` -/
def addDefaults : List Suite → List (BitVec 16) → List (BitVec 16)
  | [], acc => acc
  | s :: rest, acc =>
    if s.defaultOff then addDefaults rest acc
    else if acc.contains s.id then addDefaults rest acc
    else addDefaults rest (acc ++ [s.id])

/-- tls/common.go:931-958 -/
def defaultCipherSuites : List (BitVec 16) := addDefaults cipherSuites topCipherSuites

/-- tls/common.go:680-686 -/
def Config.suites (c : Config) : List (BitVec 16) := c.cipherSuites.getD defaultCipherSuites

/-- tls/gm_support.go:124-130 -/
def Config.suitesGM (c : Config) : List (BitVec 16) := c.cipherSuites.getD [0xe013, 0xe011]

/-- tls/common.go:702-709: X25519, P256, P384, P521 -/
def Config.curves (c : Config) : List (BitVec 16) :=
  if c.curvePreferences.length = 0 then [29, 23, 24, 25] else c.curvePreferences

/-- tls/handshake_client.go:855-865; `protos[0]` panics on an empty list. -/
def mutualProtocol (protos preferenceProtos : List Bytes) : Res (Bytes × Bool) :=
  match preferenceProtos with
  | [] => match protos with
    | [] => .panic
    | p :: _ => .ok (p, true)
  | s :: rest => if protos.contains s then .ok (s, false) else mutualProtocol protos rest

/-! ### Certificate selection -/

/-- tls/common.go:747-749: strip the trailing dots. On the reversed name. -/
def dropDots : Bytes → Bytes
  | [] => []
  | c :: r => if c = 0x2e then dropDots r else c :: r

def stripTrailingDots (name : Bytes) : Bytes := (dropDots name.reverse).reverse

/-- `strings.Split(name, ".")` (standard library) -/
def splitDots : Bytes → List Bytes
  | [] => [[]]
  | c :: r =>
    if c = 0x2e then [] :: splitDots r
    else match splitDots r with
      | [] => [[c]]
      | l :: ls => (c :: l) :: ls

/-- `strings.Join(labels, ".")` (standard library) -/
def joinDots : List Bytes → Bytes
  | [] => []
  | [l] => l
  | l :: ls => l ++ 0x2e :: joinDots ls

/-- tls/common.go:758-764: replace labels by `*` from the left, cumulatively; `i` counts up. -/
def wildcardLoop (m : Bytes → Option Cert) : List Bytes → List Bytes → Option Cert
  | _, [] => none
  | done, _ :: rest =>
    let done := done ++ [[0x2a]]
    match m (joinDots (done ++ rest)) with
    | some c => some c
    | none => wildcardLoop m done rest

/-- tls/common.go:728-768 `getCertificate`; `none` is an error. -/
def Config.selectCertificate (c : Config) (ch : ClientHello) : Option Cert :=
  let rest : Option Cert :=
    match c.certificates with
    | [] => none
    | [first] => some first
    | first :: _ =>
      match c.nameToCertificate with
      | none => some first
      | some m =>
        let name := stripTrailingDots (c.toLower ch.serverName)
        match m name with
        | some cert => some cert
        | none =>
          match wildcardLoop m [] (splitDots name) with
          | some cert => some cert
          | none => some first
  match c.getCertificate with
  | some f =>
    if c.certificates.length = 0 ∨ 0 < ch.serverName.length then
      match f ch with
      | none => none
      | some (some cert) => some cert
      | some none => rest
    else rest
  | none => rest

/-- tls/common.go:773-789 `BuildNameToCertificate`: the map built from the parsed leaf names.
`parse` gives the common name and the DNS names of a certificate (`none` if it does not parse, in
which case the certificate is skipped; an empty chain would panic and is not modelled). Later entries
overwrite earlier ones. -/
def buildNames (parse : Bytes → Option (Bytes × List Bytes)) : List Cert → List (Bytes × Cert)
  | [] => []
  | c :: rest =>
    (match c.chain with
     | [] => []
     | leaf :: _ =>
       match parse leaf with
       | none => []
       | some (cn, sans) => (if 0 < cn.length then [(cn, c)] else []) ++ sans.map fun s => (s, c)) ++ buildNames parse rest

/-- map lookup after the writes in order: the last write to a key wins -/
def lookupLast (m : List (Bytes × Cert)) (name : Bytes) : Option Cert := (m.reverse.find? (·.1 = name)).map (·.2)

/-! ### The server -/

/-- the flags `readClientHello` computes before choosing a suite -/
structure ServerFlags where
  ellipticOk : Bool
  ecdsaOk : Bool
  rsaSignOk : Bool
  rsaDecryptOk : Bool
deriving DecidableEq, Repr

/-- tls/handshake_server.go:728-765 `setCipherSuite`: the loop over the supported list -/
def setCipherSuite (f : ServerFlags) (id : BitVec 16) (version : Version) : List (BitVec 16) → Option Suite
  | [] => none
  | supported :: rest =>
    if id = supported then
      match cipherSuites.find? (·.id = id) with
      | none => setCipherSuite f id version rest
      | some cand =>
        if cand.ecdhe then
          if !f.ellipticOk then setCipherSuite f id version rest
          else if cand.ecdsa then
            if !f.ecdsaOk then setCipherSuite f id version rest
            else if version.toNat < vTLS12.toNat && cand.tls12 then setCipherSuite f id version rest
            else some cand
          else if !f.rsaSignOk then setCipherSuite f id version rest
          else if version.toNat < vTLS12.toNat && cand.tls12 then setCipherSuite f id version rest
          else some cand
        else if !f.rsaDecryptOk then setCipherSuite f id version rest
        else if version.toNat < vTLS12.toNat && cand.tls12 then setCipherSuite f id version rest
        else some cand
    else setCipherSuite f id version rest

/-- tls/gm_handshake_server_double.go:692-714 (gm_handshake_server.go the same) -/
def setCipherSuiteGM (id : BitVec 16) (version : Version) : List (BitVec 16) → Option Suite
  | [] => none
  | supported :: rest =>
    if id = supported then
      match gmCipherSuites.find? (·.id = id) with
      | none => setCipherSuiteGM id version rest
      | some cand =>
        if version.toNat < vTLS12.toNat && cand.tls12 then setCipherSuiteGM id version rest
        else some cand
    else setCipherSuiteGM id version rest

/-- the preference loop, tls/handshake_server.go:252-270: the first identifier for which the setter
succeeds; `hs.suite` keeps its previous value when none does. -/
def chooseSuite (set : BitVec 16 → Option Suite) (before : Option Suite) : List (BitVec 16) → Option Suite
  | [] => before
  | id :: rest =>
    match set id with
    | some s => some s
    | none => chooseSuite set before rest

/-- the SCSV loop, tls/handshake_server.go:272-283: `true` if the connection must be refused -/
def scsvRefuses (max vers : Version) : List (BitVec 16) → Bool
  | [] => false
  | id :: rest => if id = 0x5600 then vers.toNat < max.toNat else scsvRefuses max vers rest

/-- tls/handshake_server.go:288-333 `checkForResumption`. `decrypt` is `decryptTicket`. The result is
the session to resume, if any, and the value of `hs.suite` afterwards (it is set even if a later
check fails). -/
def checkForResumption (c : Config) (decrypt : Bytes → Option SessionState) (set : BitVec 16 → Version → List (BitVec 16) → Option Suite)
    (vers : Version) (ch : ClientHello) : Option (SessionState × Suite) × Option Suite :=
  if c.sessionTicketsDisabled then (none, none) else
  match decrypt ch.sessionTicket with
  | none => (none, none)
  | some s =>
    if vers ≠ s.vers then (none, none)
    else if !ch.cipherSuites.contains s.cipherSuite then (none, none)
    else match set s.cipherSuite s.vers c.suites with
      | none => (none, none)
      | some suite =>
        let hasCerts := s.certificates.length != 0
        let need := c.clientAuth = .requireAnyClientCert ∨ c.clientAuth = .requireAndVerifyClientCert
        if need ∧ ¬hasCerts then (none, some suite)
        else if hasCerts ∧ c.clientAuth = .noClientCert then (none, some suite)
        else (some (s, suite), some suite)

/-- what a server has decided when `readClientHello` returns -/
structure ServerChoice where
  vers : Version
  suite : Suite
  resume : Option SessionState
  alpn : Bytes
  npn : Bool
  cert : Option Cert
  random : Bytes
deriving DecidableEq

/-- tls/handshake_server.go:202-216: the application protocol: the ALPN choice (empty if none) and
whether NPN is answered -/
def chooseProtocol (c : Config) (ch : ClientHello) : Res (Bytes × Bool) :=
  if 0 < ch.alpnProtocols.length then do
    let (p, fallback) ← mutualProtocol ch.alpnProtocols c.nextProtos
    .ok (if fallback then ([], false) else (p, false))
  else .ok ([], ch.nextProtoNeg && 0 < c.nextProtos.length)

/-- tls/handshake_server.go:115-285 `readClientHello`, after the message has been read and
`GetConfigForClient` (if any) has chosen the configuration `c`. `rand` is what the random source
delivers. -/
def readClientHello (c : Config) (decrypt : Bytes → Option SessionState) (rand : Bytes) (ch : ClientHello) : Except Alert ServerChoice :=
  match c.mutualVersion ch.vers with
  | none => .error .protocolVersion
  | some vers =>
    let supportedCurve := ch.supportedCurves.any fun k => c.curves.contains k
    let supportedPoint := ch.supportedPoints.contains 0
    if !ch.compressionMethods.contains 0 then .error .handshakeFailure
    else if rand.length < 32 then .error .internalError
    else if ch.secureRenegotiation.length ≠ 0 then .error .handshakeFailure
    else match chooseProtocol c ch with
      | .panic => .error .internalError   -- unreachable: the client list is not empty there
      | .err _ => .error .internalError
      | .ok (alpn, npn) =>
        match c.selectCertificate ch with
        | none => .error .internalError
        | some cert =>
          if cert.signer = some .sm2 ∨ cert.signer = some .other then .error .internalError
          else if cert.decrypter.isSome ∧ cert.decrypter ≠ some .rsa then .error .internalError
          else
            let f : ServerFlags :=
              { ellipticOk := supportedCurve && supportedPoint, ecdsaOk := cert.signer = some .ecdsa,
                rsaSignOk := cert.signer = some .rsa, rsaDecryptOk := cert.decrypter = some .rsa }
            match checkForResumption c decrypt (setCipherSuite f) vers ch with
            | (some (s, suite), _) =>
              .ok { vers := vers, suite := suite, resume := some s, alpn := alpn, npn := npn, cert := some cert, random := rand.take 32 }
            | (none, before) =>
              let (preference, supported) :=
                if c.preferServerCipherSuites then (c.suites, ch.cipherSuites) else (ch.cipherSuites, c.suites)
              match chooseSuite (fun id => setCipherSuite f id vers supported) before preference with
              | none => .error .handshakeFailure
              | some suite =>
                if scsvRefuses c.effMax ch.vers ch.cipherSuites then .error .inappropriateFallback
                else .ok { vers := vers, suite := suite, resume := none, alpn := alpn, npn := npn, cert := some cert, random := rand.take 32 }

/-- tls/gm_handshake_server_double.go:113-246 `readClientHello`. The certificates are the first two
configured ones; the result of `getCertificate` is dropped. -/
def readClientHelloGM (c : Config) (decrypt : Bytes → Option SessionState) (rand : Bytes) (ch : ClientHello) : Except Alert ServerChoice :=
  match c.mutualVersion ch.vers with
  | none => .error .protocolVersion
  | some vers =>
    if !ch.compressionMethods.contains 0 then .error .handshakeFailure
    else if rand.length < 32 then .error .internalError
    else if ch.secureRenegotiation.length ≠ 0 then .error .handshakeFailure
    else match chooseProtocol c ch with
      | .panic => .error .internalError
      | .err _ => .error .internalError
      | .ok (alpn, npn) =>
        if c.certificates.length < 2 then .error .internalError
        else
          match checkForResumption c decrypt setCipherSuiteGM vers ch with
          | (some (s, suite), _) =>
            .ok { vers := vers, suite := suite, resume := some s, alpn := alpn, npn := npn, cert := c.certificates.head?, random := rand.take 32 }
          | (none, before) =>
            let (preference, supported) :=
              if c.preferServerCipherSuites then (c.suitesGM, ch.cipherSuites) else (ch.cipherSuites, c.suitesGM)
            match chooseSuite (fun id => setCipherSuiteGM id vers supported) before preference with
            | none => .error .handshakeFailure
            | some suite =>
              if scsvRefuses c.effMax ch.vers ch.cipherSuites then .error .inappropriateFallback
              else .ok { vers := vers, suite := suite, resume := none, alpn := alpn, npn := npn, cert := c.certificates.head?, random := rand.take 32 }

/-- the ServerHello sent: tls/handshake_server.go:335-348 (resumption) and 362-370 (full handshake),
tls/gm_handshake_server_double.go:296-309 and 323-331 -/
def serverHello (c : Config) (ch : ClientHello) (r : ServerChoice) : ServerHello :=
  { vers := r.vers, random := r.random,
    sessionId := if r.resume.isSome then ch.sessionId else [],
    cipherSuite := r.suite.id, compressionMethod := 0,
    nextProtoNeg := r.npn, nextProtos := if r.npn then c.nextProtos else [],
    ticketSupported := match r.resume with
      | some s => s.usedOldKey
      | none => ch.ticketSupported && !c.sessionTicketsDisabled,
    secureRenegotiation := [], secureRenegotiationSupported := ch.secureRenegotiationSupported,
    alpnProtocol := r.alpn }

/-! ### The client -/

/-- tls/handshake_client.go:65-82: the suites a client offers -/
def offeredSuites (vers : Version) : List (BitVec 16) → List (BitVec 16)
  | [] => []
  | id :: rest =>
    if cipherSuites.any fun s => decide (s.id = id) && !(vers.toNat < vTLS12.toNat && s.tls12) then id :: offeredSuites vers rest
    else offeredSuites vers rest

/-- tls/gm_handshake_client_double.go:47-56 -/
def offeredSuitesGM : List (BitVec 16) → List (BitVec 16)
  | [] => []
  | id :: rest => if gmCipherSuites.any fun s => s.id = id then id :: offeredSuitesGM rest else offeredSuitesGM rest

/-- the length check of tls/handshake_client.go:38-49 -/
def protosOk (l : List Bytes) : Bool :=
  l.all (fun p => p.length != 0 && p.length ≤ 255) && (l.map fun p => 1 + p.length).sum ≤ 0xffff

/-- tls/handshake_client.go:33-93 `makeClientHello`; `sni` is `hostnameInSNI(config.ServerName)`. -/
def makeClientHello (c : Config) (sni rand : Bytes) : Except Alert ClientHello :=
  if c.serverName.length = 0 ∧ !c.insecureSkipVerify then .error .none
  else if !protosOk c.nextProtos then .error .none
  else if rand.length < 32 then .error .none
  else .ok
    { vers := c.effMax, random := rand.take 32, sessionId := [], cipherSuites := offeredSuites c.effMax c.suites,
      compressionMethods := [0], nextProtoNeg := 0 < c.nextProtos.length, serverName := sni, supportedCurves := c.curves,
      supportedPoints := [0], ticketSupported := false, sessionTicket := [], secureRenegotiation := [],
      secureRenegotiationSupported := true, alpnProtocols := c.nextProtos }

/-- tls/gm_handshake_client_double.go:34-64 `makeClientHelloGM` -/
def makeClientHelloGM (c : Config) (rand : Bytes) : Except Alert ClientHello :=
  if c.serverName.length = 0 ∧ !c.insecureSkipVerify then .error .none
  else if rand.length < 32 then .error .none
  else .ok
    { vers := vGMSSL, random := rand.take 32, sessionId := [], cipherSuites := offeredSuitesGM c.suitesGM,
      compressionMethods := [0], nextProtoNeg := false, serverName := [], supportedCurves := [],
      supportedPoints := [], ticketSupported := false, sessionTicket := [], secureRenegotiation := [],
      secureRenegotiationSupported := false, alpnProtocols := [] }

/-- tls/common.go `ClientSessionState`; `verified` is whether `verifiedChains` is non-empty. -/
structure ClientSession where
  ticket : Bytes
  vers : Version
  cipherSuite : BitVec 16
  masterSecret : Bytes
  serverCertificates : List Bytes
  verified : Bool
deriving DecidableEq, Repr

/-- the connection state the client negotiation reads -/
structure ClientConn where
  handshakes : Nat
  secureRenegotiation : Bool
  clientFinished : Bytes
  serverFinished : Bytes
deriving DecidableEq, Repr

/-- tls/handshake_client.go:121-169: the hello with the session ticket, and the session offered.
`cached` is the answer of the session cache (`none` if there is no cache or no entry); `sid` are the
16 random bytes. -/
def offerSession (c : Config) (conn : ClientConn) (hasCache : Bool) (cached : Option ClientSession) (sid : Bytes) (h : ClientHello) :
    ClientHello × Option ClientSession :=
  let h := if 0 < conn.handshakes then { h with secureRenegotiation := conn.clientFinished } else h
  let useCache := hasCache && !c.sessionTicketsDisabled
  let h := if useCache then { h with ticketSupported := true } else h
  let session :=
    if useCache && conn.handshakes = 0 then
      match cached with
      | none => none
      | some s =>
        let versOk := decide (c.effMin.toNat ≤ s.vers.toNat ∧ s.vers.toNat ≤ c.effMax.toNat)
        if versOk && h.cipherSuites.contains s.cipherSuite then some s else none
    else none
  match session with
  | some s => ({ h with sessionTicket := s.ticket, sessionId := sid }, some s)
  | none => (h, none)

/-- tls/handshake_client.go:296-308 `pickTLSVersion` -/
def pickTLSVersion (c : Config) (sh : ServerHello) : Except Alert Version :=
  match c.mutualVersion sh.vers with
  | none => .error .protocolVersion
  | some v => if v.toNat < vTLS10.toNat then .error .protocolVersion else .ok v

/-- tls/cipher_suites.go:348-360 `mutualCipherSuite`, over a given table (tls/gm_support.go:186-198 is the
same function over the GM table) -/
def mutualCipherSuite (table : List Suite) (have_ : List (BitVec 16)) (want : BitVec 16) : Option Suite :=
  if have_.contains want then table.find? (·.id = want) else none

/-- what the client has decided after the ServerHello -/
structure ClientChoice where
  vers : Version
  suite : Suite
  alpn : Bytes
  npn : Bool
  resume : Option ClientSession
deriving DecidableEq, Repr

/-- tls/handshake_client.go:574-645 `processServerHello` (tls/gm_handshake_client_double.go:421-492 is the
same): the protocol and whether the session is resumed -/
def processServerHello (conn : ClientConn) (vers : Version) (suite : Suite) (hello : ClientHello) (session : Option ClientSession)
    (sh : ServerHello) : Except Alert (Bytes × Option ClientSession) :=
  if sh.compressionMethod ≠ 0 then .error .unexpectedMessage
  else if conn.handshakes = 0 ∧ sh.secureRenegotiationSupported ∧ sh.secureRenegotiation.length ≠ 0 then .error .handshakeFailure
  else if 0 < conn.handshakes ∧ conn.secureRenegotiation ∧
      sh.secureRenegotiation ≠ copyAt (copyAt (List.replicate 24 0) 0 conn.clientFinished) 12 conn.serverFinished then
    .error .handshakeFailure
  else if ¬hello.nextProtoNeg ∧ sh.nextProtoNeg then .error .handshakeFailure
  else if hello.alpnProtocols.length = 0 ∧ 0 < sh.alpnProtocol.length then .error .handshakeFailure
  else if sh.nextProtoNeg ∧ 0 < sh.alpnProtocol.length then .error .handshakeFailure
  else
    match session with
    | none => .ok (sh.alpnProtocol, none)
    | some s =>
      if sh.sessionId = hello.sessionId then
        if s.vers ≠ vers then .error .handshakeFailure
        else if s.cipherSuite ≠ suite.id then .error .handshakeFailure
        else .ok (sh.alpnProtocol, some s)
      else .ok (sh.alpnProtocol, none)

/-- tls/handshake_client.go:217-230: the client's reaction to the ServerHello -/
def readServerHello (c : Config) (conn : ClientConn) (hello : ClientHello) (session : Option ClientSession) (sh : ServerHello) :
    Except Alert ClientChoice :=
  match pickTLSVersion c sh with
  | .error e => .error e
  | .ok vers =>
    match mutualCipherSuite cipherSuites hello.cipherSuites sh.cipherSuite with
    | none => .error .handshakeFailure
    | some suite =>
      match processServerHello conn vers suite hello session sh with
      | .error e => .error e
      | .ok (alpn, r) => .ok { vers := vers, suite := suite, alpn := alpn, npn := sh.nextProtoNeg, resume := r }

/-- tls/gm_handshake_client_double.go:82-95 -/
def readServerHelloGM (conn : ClientConn) (hello : ClientHello) (session : Option ClientSession) (sh : ServerHello) :
    Except Alert ClientChoice :=
  if sh.vers ≠ vGMSSL then .error .protocolVersion
  else match mutualCipherSuite gmCipherSuites hello.cipherSuites sh.cipherSuite with
    | none => .error .handshakeFailure
    | some suite =>
      match processServerHello conn vGMSSL suite hello session sh with
      | .error e => .error e
      | .ok (alpn, r) => .ok { vers := vGMSSL, suite := suite, alpn := alpn, npn := sh.nextProtoNeg, resume := r }

end Verif.Tls
