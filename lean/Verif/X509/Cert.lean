import Verif.X509.Ext
import Verif.X509.Model
/-!
Model of certificates as DER: `CreateCertificate` (x509/x509.go:1863-1961), `ParseCertificate` (1183-1465), the algorithm tables
(346-477, 502-512, 1763-1836) and `parsePublicKey` (1014-1126).

Parameters (standard library, not modelled): the two time formats of `encoding/asn1`, `pkix.RDNSequence` and `pkix.Name`, the
contents of RSA, DSA and NIST keys. `subject`/`issuer` are the results of `subjectBytes` (1755-1761), the DER of a name.
-/
namespace Verif.X509
open Verif Asn1

/-! ## Algorithm identifiers -/

/-- an `optional,explicit` field around a value with identifier `inner` (`parseField`): the length of the outer header is only looked
at for being zero -/
def explicit (outer inner : Byte) (b : Bytes) : Option (Option Elem × Bytes) :=
  if b = [] then some (none, [])
  else match hdr b with
    | none => none
    | some (h, r) =>
      if r = [] then none
      else if h.isTag outer && (decide (h.len = 0) || h.compound) then
        if h.len = 0 then none
        else match hdr r with
          | none => none
          | some (h', r') =>
            if h'.is inner then
              if r'.length < h'.len then none
              else some (some ⟨h', r'.take h'.len, r.take (r.length - r'.length + h'.len)⟩, r'.drop h'.len)
            else some (none, b)
      else some (none, b)

/-- `pkix.AlgorithmIdentifier`: the identifier and the raw parameters, empty when absent -/
structure AlgId where
  oid : OID
  params : Bytes
deriving DecidableEq, Repr

def algIdBody (b : Bytes) : Option AlgId := do
  let (o, r) ← Keys.parseOID b
  let (p, _) ← optWhere (fun _ => true) r
  some ⟨o, (p.map (·.full)).getD []⟩

def algId (b : Bytes) : Option (AlgId × Bytes) := do
  let (c, r) ← Der.parseTLV 0x30 b
  let a ← algIdBody c
  some (a, r)

def encAlgId (a : AlgId) : Bytes := Der.encTLV 0x30 (Keys.encOIDTLV a.oid ++ a.params)

/-- `PublicKeyAlgorithm`, x509/x509.go:255-263 -/
inductive KeyAlg where
  | unknown | rsa | dsa | ecdsa | sm2
deriving DecidableEq, Repr

/-- `crypto.Hash` values used; `sm3` is 255 -/
inductive HashId where
  | none | md5 | sha1 | sha256 | sha384 | sha512 | sm3
deriving DecidableEq, Repr

def oidRSAPSS : OID := [1, 2, 840, 113549, 1, 1, 10]
def oidSM2SM3 : OID := [1, 2, 156, 10197, 1, 501]
def oidMGF1 : OID := [1, 2, 840, 113549, 1, 1, 8]
def oidSHA256 : OID := [2, 16, 840, 1, 101, 3, 4, 2, 1]
def oidSHA384 : OID := [2, 16, 840, 1, 101, 3, 4, 2, 2]
def oidSHA512 : OID := [2, 16, 840, 1, 101, 3, 4, 2, 3]
/-- `asn1.NullBytes` -/
def nullBytes : Bytes := [5, 0]

/-- `signatureAlgorithmDetails`, x509/x509.go:347-372 -/
def sigTable : List (Alg × OID × KeyAlg × HashId) :=
  [ (.md2RSA, [1, 2, 840, 113549, 1, 1, 2], .rsa, .none), (.md5RSA, [1, 2, 840, 113549, 1, 1, 4], .rsa, .md5),
    (.sha1RSA, [1, 2, 840, 113549, 1, 1, 5], .rsa, .sha1), (.sha1RSA, [1, 3, 14, 3, 2, 29], .rsa, .sha1),
    (.sha256RSA, [1, 2, 840, 113549, 1, 1, 11], .rsa, .sha256), (.sha384RSA, [1, 2, 840, 113549, 1, 1, 12], .rsa, .sha384),
    (.sha512RSA, [1, 2, 840, 113549, 1, 1, 13], .rsa, .sha512), (.sha256PSS, oidRSAPSS, .rsa, .sha256),
    (.sha384PSS, oidRSAPSS, .rsa, .sha384), (.sha512PSS, oidRSAPSS, .rsa, .sha512),
    (.dsaSha1, [1, 2, 840, 10040, 4, 3], .dsa, .sha1), (.dsaSha256, [2, 16, 840, 1, 101, 3, 4, 3, 2], .dsa, .sha256),
    (.ecdsaSha1, [1, 2, 840, 10045, 4, 1], .ecdsa, .sha1), (.ecdsaSha256, [1, 2, 840, 10045, 4, 3, 2], .ecdsa, .sha256),
    (.ecdsaSha384, [1, 2, 840, 10045, 4, 3, 3], .ecdsa, .sha384), (.ecdsaSha512, [1, 2, 840, 10045, 4, 3, 4], .ecdsa, .sha512),
    (.sm2Sm3, oidSM2SM3, .sm2, .sm3), (.sm2Sha1, [1, 2, 156, 10197, 1, 502], .sm2, .sha1),
    (.sm2Sha256, [1, 2, 156, 10197, 1, 503], .sm2, .sha256) ]

/-- x509/x509.go:218-225 -/
def isPSS (a : Alg) : Bool := a == .sha256PSS || a == .sha384PSS || a == .sha512PSS

/-- hash identifier and `hashFunc.Size()`, x509/x509.go:391-398 -/
def hashOID : HashId → OID
  | .sha256 => oidSHA256
  | .sha384 => oidSHA384
  | .sha512 => oidSHA512
  | _ => []

def hashSize : HashId → Nat
  | .none => 0
  | .md5 => 16
  | .sha1 => 20
  | .sha256 => 32
  | .sha384 => 48
  | .sha512 => 64
  | .sm3 => 32

/-- x509/x509.go:388-429 `rsaPSSParameters`; the trailer field has its default value and is left out -/
def pssParams (h : HashId) : Bytes :=
  Der.encTLV 0x30
    (Der.encTLV 0xa0 (encAlgId ⟨hashOID h, nullBytes⟩) ++
     Der.encTLV 0xa1 (encAlgId ⟨oidMGF1, encAlgId ⟨hashOID h, nullBytes⟩⟩) ++
     Der.encTLV 0xa2 (Der.encInt (hashSize h)))

/-- a mandatory `explicit` field -/
def explicitM (outer inner : Byte) (b : Bytes) : Option (Bytes × Bytes) :=
  match explicit outer inner b with
  | some (some e, r) => some (e.body, r)
  | _ => none

/-- an `int` -/
def intBody (b : Bytes) : Option Int := if 8 < b.length then none else Der.parseIntBody b

/-- an `optional,explicit` int with a default -/
def optInt (outer : Byte) (dflt : Int) (b : Bytes) : Option (Int × Bytes) :=
  match explicit outer 0x02 b with
  | none => none
  | some (none, r) => some (dflt, r)
  | some (some e, r) => (intBody e.body).map (·, r)

/-- `pssParameters`, x509/x509.go:376-384 -/
structure Pss where
  hash : AlgId
  mgf : AlgId
  salt : Int
  trailer : Int

def parsePss (b : Bytes) : Option Pss := do
  let (c, _) ← Der.parseTLV 0x30 b
  let (h, c) ← explicitM 0xa0 0x30 c
  let h ← algIdBody h
  let (m, c) ← explicitM 0xa1 0x30 c
  let m ← algIdBody m
  let (s, c) ← explicitM 0xa2 0x02 c
  let s ← intBody s
  let (t, _) ← optInt 0xa3 1 c
  some ⟨h, m, s, t⟩

/-- x509/x509.go:443-476: the RSA PSS case of `getSignatureAlgorithmFromAI` -/
def pssAlg (params : Bytes) : Alg :=
  match parsePss params with
  | none => .unknown
  | some p =>
    match algId p.mgf.params with
    | none => .unknown
    | some (m, _) =>
      if p.hash.params ≠ nullBytes ∨ p.mgf.oid ≠ oidMGF1 ∨ m.oid ≠ p.hash.oid ∨ m.params ≠ nullBytes ∨ p.trailer ≠ 1 then .unknown
      else if p.hash.oid = oidSHA256 ∧ p.salt = 32 then .sha256PSS
      else if p.hash.oid = oidSHA384 ∧ p.salt = 48 then .sha384PSS
      else if p.hash.oid = oidSHA512 ∧ p.salt = 64 then .sha512PSS
      else .unknown

/-- x509/x509.go:431-477 `getSignatureAlgorithmFromAI` -/
def algFromAI (a : AlgId) : Alg :=
  if a.oid ≠ oidRSAPSS then ((sigTable.find? (fun d => a.oid == d.2.1)).map (·.1)).getD .unknown
  else pssAlg a.params

/-- x509/x509.go:502-512 `getPublicKeyAlgorithmFromOID` -/
def keyAlgFromOID (o : OID) : KeyAlg :=
  if o = Keys.oidRSA then .rsa
  else if o = [1, 2, 840, 10040, 4, 1] then .dsa
  else if o = Keys.oidECDSA then .ecdsa
  else .unknown

/-- the dynamic type of the signer's public key, with its curve -/
inductive KeyKind where
  | sm2 (standardCurve : Bool)
  | rsa
  | ecdsa (c : Option Keys.Named)
  | other
deriving DecidableEq, Repr

/-- x509/x509.go:1767-1801: the default algorithm of a key. `ecdsa.PublicKey` on the SM2 curve is an unknown curve. -/
def defaultParams : KeyKind → Res (KeyAlg × HashId × AlgId)
  | .sm2 true => .ok (.sm2, .sm3, ⟨oidSM2SM3, []⟩)
  | .sm2 false => .err "x509: SM2 unknown elliptic curve"
  | .rsa => .ok (.rsa, .sha256, ⟨[1, 2, 840, 113549, 1, 1, 11], nullBytes⟩)
  | .ecdsa (some .p224) => .ok (.ecdsa, .sha256, ⟨[1, 2, 840, 10045, 4, 3, 2], []⟩)
  | .ecdsa (some .p256) => .ok (.ecdsa, .sha256, ⟨[1, 2, 840, 10045, 4, 3, 2], []⟩)
  | .ecdsa (some .p384) => .ok (.ecdsa, .sha384, ⟨[1, 2, 840, 10045, 4, 3, 3], []⟩)
  | .ecdsa (some .p521) => .ok (.ecdsa, .sha512, ⟨[1, 2, 840, 10045, 4, 3, 4], []⟩)
  | .ecdsa _ => .err "x509: unknown elliptic curve"
  | .other => .err "x509: only SM2, RSA and ECDSA keys supported"

/-- x509/x509.go:1803-1836: the requested algorithm replaces the default one -/
def requestedParams (req : Alg) (d : KeyAlg × HashId × AlgId) : Res (HashId × AlgId) :=
  match sigTable.find? (fun x => x.1 == req) with
  | none => .err "x509: unknown SignatureAlgorithm"
  | some (_, oid, ka, h) =>
    if ka ≠ d.1 then .err "x509: requested SignatureAlgorithm does not match private key type"
    else if h = .none then .err "x509: cannot sign with hash function requested"
    else .ok (h, ⟨oid, if isPSS req then pssParams h else d.2.2.params⟩)

/-- x509/x509.go:1767-1837 `signingParamsForPublicKey` -/
def signingParams (k : KeyKind) (req : Alg) : Res (HashId × AlgId) := do
  let d ← defaultParams k
  if req = .unknown then .ok (d.2.1, d.2.2) else requestedParams req d

/-! ## Certificates as DER -/

/-- standard-library parameters of parsing -/
structure ParseEnv where
  /-- one `time.Time` field (UTCTime or GeneralizedTime): seconds since the epoch -/
  time : Bytes → Option (Int × Bytes)
  /-- `asn1.Unmarshal(b, &pkix.RDNSequence)` without trailing data; the result is the common name -/
  rdn : Bytes → Option Bytes
  /-- the contents of a `nameRelativeToCRLIssuer` -/
  rdnRelative : Bytes → Bool
  /-- contents of RSA and DSA keys and points on NIST curves -/
  rsaKey : Bytes → Bool
  dsaKey : Bytes → Bytes → Bool
  nistPoint : Keys.Named → Bytes → Bool

/-- `publicKeyInfo`, x509/x509.go:183-187 -/
structure Spki where
  raw : Bytes
  alg : AlgId
  /-- `PublicKey.RightAlign()` -/
  bits : Bytes
deriving DecidableEq, Repr

def bitString (b : Bytes) : Option (Bytes × Bytes) := do
  let (c, r) ← Der.parseTLV 0x03 b
  let bs ← Keys.parseBitStringBody c
  some (Keys.rightAlign bs, r)

def spkiBody (raw c : Bytes) : Option Spki := do
  let (a, c) ← algId c
  let (k, _) ← bitString c
  some ⟨raw, a, k⟩

/-- a field that is a SEQUENCE, with its raw bytes -/
def seqField (b : Bytes) : Option (Elem × Bytes) :=
  match elem b with
  | some (e, r) => if e.h.is 0x30 then some (e, r) else none
  | none => none

def spkiField (b : Bytes) : Option (Spki × Bytes) := do
  let (e, r) ← seqField b
  let s ← spkiBody e.full e.body
  some (s, r)

/-- `Critical bool "optional"` -/
def parseCritical (b : Bytes) : Option (Bool × Bytes) :=
  match opt 0x01 b with
  | none => none
  | some (none, r) => some (false, r)
  | some (some e, r) => (boolBody e.body).map (·, r)

/-- `pkix.Extension` -/
def parseExt (b : Bytes) : Option Extension := do
  let (o, r) ← Keys.parseOID b
  let (c, r) ← parseCritical r
  let (v, _) ← Der.parseTLV 0x04 r
  some ⟨o, c, v⟩

/-- `Extensions []pkix.Extension "optional,explicit,tag:3"` -/
def parseExts (b : Bytes) : Option (List Extension) :=
  match explicit 0xa3 0x30 b with
  | none => none
  | some (none, _) => some []
  | some (some e, _) =>
    match seqOf 0x30 e.body with
    | none => none
    | some l => parseAll parseExt l

/-- `tbsCertificate`, x509/x509.go:153-165 -/
structure Tbs where
  raw : Bytes
  version : Int
  serial : Int
  sigAlg : AlgId
  issuer : Bytes
  notBefore : Int
  notAfter : Int
  subject : Bytes
  spki : Spki
  extensions : List Extension
deriving DecidableEq, Repr

/-- `validity` -/
def parseValidity (E : ParseEnv) (b : Bytes) : Option ((Int × Int) × Bytes) := do
  let (c, r) ← Der.parseTLV 0x30 b
  let (nb, c) ← E.time c
  let (na, _) ← E.time c
  some ((nb, na), r)

def parseTbs (E : ParseEnv) (raw b : Bytes) : Option Tbs := do
  let (version, b) ← optInt 0xa0 0 b
  let (serial, b) ← Der.parseInt b
  let (alg, b) ← algId b
  let (issuer, b) ← elem b
  let (val, b) ← parseValidity E b
  let (subject, b) ← elem b
  let (spki, b) ← spkiField b
  let b ← skipBitString 0x81 b
  let b ← skipBitString 0x82 b
  let exts ← parseExts b
  some ⟨raw, version, serial, alg, issuer.full, val.1, val.2, subject.full, spki, exts⟩

/-- `certificate`, x509/x509.go:146-151. The outer algorithm is parsed and never looked at again. -/
structure RawCert where
  raw : Bytes
  tbs : Tbs
  outerAlg : AlgId
  signature : Bytes
deriving DecidableEq, Repr

/-- `asn1.Unmarshal(data, &certificate)` -/
def parseRawCert (E : ParseEnv) (b : Bytes) : Option (RawCert × Bytes) := do
  let (e, rest) ← seqField b
  let (t, c) ← seqField e.body
  let tbs ← parseTbs E t.full t.body
  let (a, c) ← algId c
  let (s, _) ← bitString c
  some (⟨e.full, tbs, a, s⟩, rest)

/-- the curve named by the parameters of an EC key, with nothing after it -/
def curveOfParams (params : Bytes) : Option Keys.Named :=
  match Keys.parseOID params with
  | some (o, []) => Keys.namedCurveFromOID o
  | _ => none

/-- a point of a named curve -/
def pointOk (E : ParseEnv) (c : Keys.Named) (b : Bytes) : Bool :=
  if c = .sm2 then (Keys.unmarshalPoint b).isSome else E.nistPoint c b

/-- x509/x509.go:1014-1126 `parsePublicKey`; `some .none` is a nil key without an error. An SM2 key must be on the SM2 curve here (callers pass
`sm2` only then, except for certificate requests). -/
def parsePub (E : ParseEnv) (ka : KeyAlg) (s : Spki) : Option Pub :=
  match ka with
  | .sm2 => (Keys.unmarshalPoint s.bits).map fun p => Pub.sm2 p.1 p.2
  | .rsa => if s.alg.params = nullBytes ∧ E.rsaKey s.bits = true then some (.rsa s.bits) else none
  | .dsa => if E.dsaKey s.alg.params s.bits then some (.dsa (s.alg.params ++ s.bits)) else none
  | .ecdsa =>
    match curveOfParams s.alg.params with
    | none => none
    | some c => if pointOk E c s.bits then some (.ecdsa (s.alg.params ++ s.bits)) else none
  | .unknown => some .none

/-- x509/x509.go:1195-1201 -/
def keyAlgOf (s : Spki) : KeyAlg :=
  if keyAlgFromOID s.alg.oid = .ecdsa ∧ s.alg.params = Keys.encOIDTLV Keys.oidSM2 then .sm2 else keyAlgFromOID s.alg.oid

/-- a parsed `Certificate`: the fields verification reads, and the rest -/
structure Certificate where
  cert : Cert
  serial : Int
  fields : Fields
  extensions : List Extension
  keyAlg : KeyAlg
deriving DecidableEq, Repr

/-- x509/x509.go:1184-1454 `parseCertificate` -/
def parseCertificate (E : ParseEnv) (c : RawCert) : Option Certificate := do
  let pub ← parsePub E (keyAlgOf c.tbs.spki) c.tbs.spki
  let cn ← E.rdn c.tbs.subject
  let _ ← E.rdn c.tbs.issuer
  let p ← parseExtensions E.rdnRelative c.tbs.extensions
  some
    { cert :=
        { raw := c.raw, rawTBS := c.tbs.raw, rawSubject := c.tbs.subject, rawIssuer := c.tbs.issuer, rawSPKI := c.tbs.spki.raw,
          subjectKeyId := p.fields.subjectKeyId, authorityKeyId := p.fields.authorityKeyId, signature := c.signature,
          sigAlg := algFromAI c.tbs.sigAlg, keyAlgUnknown := decide (keyAlgOf c.tbs.spki = .unknown), pub := pub,
          version := c.tbs.version + 1, basicConstraintsValid := p.fields.basicConstraintsValid, isCA := p.fields.isCA,
          maxPathLen := p.fields.maxPathLen, keyUsage := p.fields.keyUsage.toNat, extKeyUsage := p.fields.extKeyUsage,
          unknownExtKeyUsage := p.fields.unknownExtKeyUsage.map Keys.encOID, notBefore := c.tbs.notBefore, notAfter := c.tbs.notAfter,
          permittedDNS := p.fields.permitted, excludedDNS := p.fields.excluded,
          unhandledCritical := p.unhandledCritical.map Keys.encOID, dnsNames := p.fields.dnsNames, ipAddresses := p.fields.ips,
          commonName := cn, hasSAN := oidIn oidSAN p.extensions }
      serial := c.tbs.serial, fields := p.fields, extensions := p.extensions, keyAlg := keyAlgOf c.tbs.spki }

/-- x509/x509.go:1456-1467 `ParseCertificate` -/
def parse (E : ParseEnv) (b : Bytes) : Option Certificate :=
  match parseRawCert E b with
  | some (c, []) => parseCertificate E c
  | _ => none

/-! ## Creating -/

def encBits (b : Bytes) : Bytes := Der.encTLV 0x03 (0 :: b)

/-- `publicKeyInfo{nil, algorithm, bits}` -/
def encSpki (a : AlgId) (bits : Bytes) : Bytes := Der.encTLV 0x30 (encAlgId a ++ encBits bits)

/-- `pkix.Extension`: `Critical` is left out when false -/
def encExt (e : Extension) : Res Bytes := do
  let o ← oidRes e.id
  .ok (Der.encTLV 0x30 (o ++ (if e.critical then Der.encTLV 0x01 [0xff] else []) ++ Der.encTLV 0x04 e.value))

/-- what `CreateCertificate` takes from template and parent -/
structure Request where
  fields : Fields
  extra : List Extension
  serial : Int
  notBefore : Int
  notAfter : Int
  sigAlg : Alg
  /-- `subjectBytes(template)`, `subjectBytes(parent)` -/
  subject : Bytes
  issuer : Bytes
  parentKeyId : Bytes

/-- x509/x509.go:1893-1896 -/
def Request.aki (r : Request) : Bytes := if r.issuer ≠ r.subject ∧ r.parentKeyId ≠ [] then r.parentKeyId else r.fields.authorityKeyId

/-- the marshalled `tbsCertificate` (x509/x509.go:1903-1918): version 3, the extensions always present (a non-nil slice). `time` is the
`encoding/asn1` rendering of a time, an error outside the years 0..9999. -/
def encTbs (time : Int → Res Bytes) (r : Request) (alg : AlgId) (keyAlg : AlgId) (key : Bytes) (exts : List Extension) : Res Bytes := do
  let nb ← time r.notBefore
  let na ← time r.notAfter
  let xs ← marshalAll encExt exts
  .ok (Der.encTLV 0x30
    (Der.encTLV 0xa0 (Der.encInt 2) ++ Der.encInt r.serial ++ encAlgId alg ++ r.issuer ++ Der.encTLV 0x30 (nb ++ na) ++ r.subject ++
     encSpki keyAlg key ++ Der.encTLV 0xa3 (Der.encTLV 0x30 xs)))

def encCert (tbs : Bytes) (alg : AlgId) (signature : Bytes) : Bytes := Der.encTLV 0x30 (tbs ++ encAlgId alg ++ encBits signature)

/-- x509/x509.go:1863-1961 `CreateCertificate`. `kind` is the signer's key type, `sign hash tbs` its signature: an SM2 key signs the contents
themselves, other keys the digest (1943-1955). `keyAlg` and `key` are the result of `marshalPublicKey` for the subject's key. -/
def createCertificate (time : Int → Res Bytes) (r : Request) (kind : KeyKind) (sign : HashId → Bytes → Res Bytes) (marshalKey : Res (AlgId × Bytes)) :
    Res Bytes := do
  let (h, alg) ← signingParams kind r.sigAlg
  let (ka, key) ← marshalKey
  let exts ← buildExtensions r.fields r.aki r.extra
  let tbs ← encTbs time r alg ka key exts
  let s ← sign h tbs
  .ok (encCert tbs alg s)

/-- `marshalPublicKey` of an SM2 key, x509/x509.go:76-88 -/
def marshalSM2 (x y : Nat) : Res (AlgId × Bytes) := do
  let p ← Keys.marshalPoint x y
  .ok (⟨Keys.oidECDSA, Keys.encOIDTLV Keys.oidSM2⟩, p)

/-- the signature of an SM2 private key (`sm2.PrivateKey.Sign`, sm2/external.go:28-34): the hash is ignored -/
def sm2Signer (c : Sm2.Curve) (rand : Bytes) (priv : Sm2.PrivateKey c) (_ : HashId) (tbs : Bytes) : Res Bytes := Sm2.privSign c rand priv tbs

end Verif.X509
