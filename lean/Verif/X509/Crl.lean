import Verif.X509.Cert
/-!
Model of certificate revocation lists: `ParseDERCRL` (x509/x509.go:1985-1993), `CreateCRL` (1997-2068), `CheckCRLSignature` (964-967).

The DER of `pkix.CertificateList` is the standard library's (`encoding/asn1`, `crypto/x509/pkix`), read from the field tags of
`pkix.TBSCertificateList` and `pkix.RevokedCertificate`: version optional with default 0, next update optional, revoked certificates optional, extensions
optional in an explicit [0]. `ParseCRL`'s PEM detection (1975-1985) is not modelled. A zero `time.Time` as expiry is `none`.
-/
namespace Verif.X509
open Verif Asn1

/-- `pkix.RevokedCertificate`; nil extensions are `none` -/
structure Revoked where
  serial : Int
  time : Int
  extensions : Option (List Extension)
deriving DecidableEq, Repr

/-- `pkix.CertificateList`: what a caller of `ParseDERCRL` sees -/
structure Crl where
  /-- `TBSCertList.Raw` -/
  rawTBS : Bytes
  version : Int
  alg : AlgId
  issuer : Bytes
  thisUpdate : Int
  nextUpdate : Option Int
  revoked : List Revoked
  extensions : List Extension
  /-- the algorithm outside the signed part -/
  outerAlg : AlgId
  signature : Bytes
deriving DecidableEq, Repr

/-! ## Writing -/

def encExtsOpt : Option (List Extension) → Res Bytes
  | none => .ok []
  | some l => do
    let xs ← marshalAll encExt l
    .ok (Der.encTLV 0x30 xs)

def encRevoked (time : Int → Res Bytes) (r : Revoked) : Res Bytes := do
  let t ← time r.time
  let x ← encExtsOpt r.extensions
  .ok (Der.encTLV 0x30 (Der.encInt r.serial ++ t ++ x))

def encNext (time : Int → Res Bytes) : Option Int → Res Bytes
  | none => .ok []
  | some t => time t

/-- x509/x509.go:2025-2033: the authority key identifier, if the certificate has a subject key identifier -/
def crlExtensions (subjectKeyId : Bytes) : List Extension :=
  if subjectKeyId = [] then [] else [⟨oidAuthorityKeyId, false, authKeyIdValue subjectKeyId⟩]

def encCrlExts (exts : List Extension) : Res Bytes :=
  if exts = [] then .ok []
  else do
    let xs ← marshalAll encExt exts
    .ok (Der.encTLV 0xa0 (Der.encTLV 0x30 xs))

/-- x509/x509.go:2015-2033 -/
def encCrlTbs (time : Int → Res Bytes) (alg : AlgId) (issuer : Bytes) (now : Int) (expiry : Option Int) (revoked : List Revoked)
    (exts : List Extension) : Res Bytes := do
  let t ← time now
  let n ← encNext time expiry
  let rs ← marshalAll (encRevoked time) revoked
  let x ← encCrlExts exts
  .ok (Der.encTLV 0x30 (Der.encInt 1 ++ encAlgId alg ++ issuer ++ t ++ n ++ Der.encTLV 0x30 rs ++ x))

/-- x509/x509.go:1997-2068 `CreateCRL` by a certificate with this subject (its DER) and subject key identifier -/
def createCRL (time : Int → Res Bytes) (issuer subjectKeyId : Bytes) (kind : KeyKind) (sign : HashId → Bytes → Res Bytes)
    (revoked : List Revoked) (now : Int) (expiry : Option Int) : Res Bytes := do
  let (h, alg) ← signingParams kind .unknown
  let tbs ← encCrlTbs time alg issuer now expiry revoked (crlExtensions subjectKeyId)
  let s ← sign h tbs
  .ok (encCert tbs alg s)

/-! ## Reading -/

/-- an optional field that is a SEQUENCE OF extensions -/
def parseExtsOpt (b : Bytes) : Option (Option (List Extension)) :=
  match opt 0x30 b with
  | none => none
  | some (none, _) => some none
  | some (some e, _) =>
    match seqOf 0x30 e.body with
    | none => none
    | some l => (parseAll parseExt l).map some

def parseRevoked (E : ParseEnv) (b : Bytes) : Option Revoked := do
  let (s, b) ← Der.parseInt b
  let (t, b) ← E.time b
  let x ← parseExtsOpt b
  some ⟨s, t, x⟩

/-- `NextUpdate time.Time "optional"`: UTCTime or GeneralizedTime -/
def optTime (E : ParseEnv) (b : Bytes) : Option (Option Int × Bytes) :=
  if b = [] then some (none, [])
  else match hdr b with
    | none => none
    | some (h, _) => if h.is 0x17 || h.is 0x18 then (E.time b).map (fun x => (some x.1, x.2)) else some (none, b)

def revokedOpt (E : ParseEnv) (b : Bytes) : Option (List Revoked × Bytes) :=
  match opt 0x30 b with
  | none => none
  | some (none, r) => some ([], r)
  | some (some e, r) =>
    match seqOf 0x30 e.body with
    | none => none
    | some l => (parseAll (parseRevoked E) l).map (·, r)

/-- `Extensions []Extension "tag:0,optional,explicit"` -/
def parseCrlExts (b : Bytes) : Option (List Extension) :=
  match explicit 0xa0 0x30 b with
  | none => none
  | some (none, _) => some []
  | some (some e, _) =>
    match seqOf 0x30 e.body with
    | none => none
    | some l => parseAll parseExt l

/-- `Version int "optional,default:0"` -/
def versionOpt (b : Bytes) : Option (Int × Bytes) :=
  match opt 0x02 b with
  | none => none
  | some (none, r) => some (0, r)
  | some (some e, r) => (intBody e.body).map (·, r)

/-- `pkix.TBSCertificateList` -/
structure CrlTbs where
  version : Int
  alg : AlgId
  issuer : Bytes
  thisUpdate : Int
  nextUpdate : Option Int
  revoked : List Revoked
  extensions : List Extension
deriving DecidableEq, Repr

def parseCrlTbs (E : ParseEnv) (b : Bytes) : Option CrlTbs := do
  let (v, b) ← versionOpt b
  let (alg, b) ← algId b
  let (issuer, b) ← elem b
  let _ ← E.rdn issuer.full
  let (this, b) ← E.time b
  let (next, b) ← optTime E b
  let (revoked, b) ← revokedOpt E b
  let exts ← parseCrlExts b
  some ⟨v, alg, issuer.full, this, next, revoked, exts⟩

/-- x509/x509.go:1985-1993 `ParseDERCRL` -/
def parseRawCrl (E : ParseEnv) (b : Bytes) : Option (Crl × Bytes) := do
  let (e, rest) ← seqField b
  let (t, c) ← seqField e.body
  let tbs ← parseCrlTbs E t.body
  let (a, c) ← algId c
  let (s, _) ← bitString c
  some (⟨t.full, tbs.version, tbs.alg, tbs.issuer, tbs.thisUpdate, tbs.nextUpdate, tbs.revoked, tbs.extensions, a, s⟩, rest)

def parseCRL (E : ParseEnv) (b : Bytes) : Option Crl :=
  match parseRawCrl E b with
  | some (c, []) => some c
  | _ => none

/-- x509/x509.go:964-967 `CheckCRLSignature`, by a certificate with this public key -/
def checkCRLSignature (E : Env) (pub : Pub) (c : Crl) : Option VErr := checkSignature E (algFromAI c.outerAlg) c.rawTBS c.signature pub

end Verif.X509
