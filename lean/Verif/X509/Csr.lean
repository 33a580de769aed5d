import Verif.X509.Cert
/-!
Model of certificate requests, x509/x509.go:2111-2450 (`CreateCertificateRequest`, `ParseCertificateRequest`, `CheckSignature`).

`CertificateRequest.Attributes` of the template is nil in `createCSR`; what happens to a template that has attributes is the separate
`mergeAttributes` (2243-2288). `pkix.AttributeTypeAndValueSET` of a parsed request ("the dried husk of a bug") is not modelled.
-/
namespace Verif.X509
open Verif Asn1

/-- x509/x509.go:2129 -/
def oidExtensionRequest : OID := [1, 2, 840, 113549, 1, 9, 14]

/-- what `CreateCertificateRequest` takes from the template -/
structure CsrTemplate where
  dnsNames : List Bytes
  emails : List Bytes
  ips : List Bytes
  extra : List Extension
  /-- `RawSubject`, or the DER of `Subject` -/
  subject : Bytes
  sigAlg : Alg

/-- x509/x509.go:2225-2242: the extensions asked for -/
def CsrTemplate.extensions (t : CsrTemplate) : List Extension :=
  (if (!t.dnsNames.isEmpty || !t.emails.isEmpty || !t.ips.isEmpty) && !oidIn oidSAN t.extra then
    [⟨oidSAN, false, sanValue t.dnsNames t.emails t.ips⟩]
  else []) ++ t.extra

/-- one `pkix.AttributeTypeAndValue` whose value is a byte string (2252-2265): no critical flag -/
def encAtv (e : Extension) : Res Bytes := do
  let o ← oidRes e.id
  .ok (Der.encTLV 0x30 (o ++ Der.encTLV 0x04 e.value))

/-- x509/x509.go:2244-2297 and `newRawAttributes` (2133-2147) for a template without attributes: nothing, or one extension request -/
def encAttributes (exts : List Extension) : Res Bytes :=
  if exts = [] then .ok []
  else do
    let xs ← marshalAll encAtv exts
    .ok (Der.encTLV 0x30 (Keys.encOIDTLV oidExtensionRequest ++ Der.encTLV 0x31 (Der.encTLV 0x30 xs)))

/-- x509/x509.go:2300-2324 -/
def encCsrTbs (subject : Bytes) (ka : AlgId) (key attrs : Bytes) : Bytes :=
  Der.encTLV 0x30 (Der.encInt 0 ++ subject ++ encSpki ka key ++ Der.encTLV 0xa0 attrs)

/-- x509/x509.go:2333-2348: SM2 and ECDSA keys sign; for any other key the error is assigned to `err` and overwritten by the `return` -/
def csrSignature (kind : KeyKind) (sign : HashId → Bytes → Res Bytes) (h : HashId) (tbs : Bytes) : Res Bytes :=
  match kind with
  | .sm2 _ => sign h tbs
  | .ecdsa _ => sign h tbs
  | _ => .ok []

/-- x509/x509.go:2205-2374 `CreateCertificateRequest` -/
def createCSR (t : CsrTemplate) (kind : KeyKind) (sign : HashId → Bytes → Res Bytes) (marshalKey : Res (AlgId × Bytes)) : Res Bytes := do
  let (h, alg) ← signingParams kind t.sigAlg
  let (ka, key) ← marshalKey
  let attrs ← encAttributes t.extensions
  let tbs := encCsrTbs t.subject ka key attrs
  let s ← csrSignature kind sign h tbs
  .ok (encCert tbs alg s)

/-! ## Parsing -/

/-- the key of a parsed request: as in a certificate, or an `sm2.PublicKey` on a NIST curve -/
inductive CsrPub where
  | key (p : Pub)
  | sm2On (c : Keys.Named) (bits : Bytes)
deriving DecidableEq, Repr

/-- `tbsCertificateRequest` -/
structure CsrTbs where
  raw : Bytes
  version : Int
  subject : Bytes
  spki : Spki
  attributes : List Elem

def parseCsrTbs (raw b : Bytes) : Option CsrTbs := do
  let (v, b) ← Der.parseTLV 0x02 b
  let v ← intBody v
  let (subject, b) ← elem b
  let (spki, b) ← spkiField b
  let (a, _) ← Der.parseTLV 0xa0 b
  let attrs ← elems a
  some ⟨raw, v, subject.full, spki, attrs⟩

structure RawCsr where
  raw : Bytes
  tbs : CsrTbs
  alg : AlgId
  signature : Bytes

def parseRawCsr (b : Bytes) : Option (RawCsr × Bytes) := do
  let (e, rest) ← seqField b
  let (t, c) ← seqField e.body
  let tbs ← parseCsrTbs t.full t.body
  let (a, c) ← algId c
  let (s, _) ← bitString c
  some (⟨e.full, tbs, a, s⟩, rest)

/-- x509/x509.go:2169-2190: an attribute `{id, SET OF value}`; `none` is "ignore", for other attributes and ones that do not parse -/
def attrValue (e : Elem) : Option Bytes :=
  if e.h.is 0x30 then do
    let (o, r) ← Keys.parseOID e.body
    let (vs, _) ← Der.parseTLV 0x31 r
    let l ← elems vs
    if o = oidExtensionRequest then (l.head?).map (·.full) else none
  else none

/-- `asn1.Unmarshal(b, &[]pkix.Extension)`; trailing bytes are not looked at (2183) -/
def extSequence (b : Bytes) : Option (List Extension) := do
  let (c, _) ← Der.parseTLV 0x30 b
  let l ← seqOf 0x30 c
  parseAll parseExt l

/-- x509/x509.go:2166-2194 `parseCSRExtensions` -/
def csrExtensions : List Elem → Option (List Extension)
  | [] => some []
  | a :: l =>
    match attrValue a with
    | none => csrExtensions l
    | some v =>
      match extSequence v with
      | none => none
      | some es => (csrExtensions l).map (es ++ ·)

/-- x509/x509.go:2434-2441: the last subject alternative name wins -/
def csrSan : List Extension → List Bytes × List Bytes × List Bytes → Option (List Bytes × List Bytes × List Bytes)
  | [], s => some s
  | e :: l, s =>
    if e.id = oidSAN then
      match parseSAN e.value with
      | none => none
      | some s' => csrSan l s'
    else csrSan l s

/-- the SM2 case of `parsePublicKey` (x509/x509.go:1017-1040) on any named curve -/
def csrSm2Key (E : ParseEnv) (s : Spki) : Option CsrPub :=
  match curveOfParams s.alg.params with
  | none => none
  | some .sm2 => (Keys.unmarshalPoint s.bits).map fun p => .key (.sm2 p.1 p.2)
  | some c => if pointOk E c s.bits then some (.sm2On c s.bits) else none

/-- x509/x509.go:2392-2400: the kind of key is taken from the *signature* algorithm when that is SM2 with SM3 -/
def csrKeyAlg (sigAlg : Alg) (s : Spki) : KeyAlg := if sigAlg = .sm2Sm3 then .sm2 else keyAlgFromOID s.alg.oid

def csrPub (E : ParseEnv) (ka : KeyAlg) (s : Spki) : Option CsrPub :=
  if ka = .sm2 then csrSm2Key E s else (parsePub E ka s).map .key

/-- `CertificateRequest` as parsed -/
structure Csr where
  raw : Bytes
  rawTBS : Bytes
  rawSPKI : Bytes
  rawSubject : Bytes
  version : Int
  signature : Bytes
  sigAlg : Alg
  keyAlg : KeyAlg
  pub : CsrPub
  extensions : List Extension
  dnsNames : List Bytes
  emails : List Bytes
  ips : List Bytes
deriving DecidableEq, Repr

/-- x509/x509.go:2391-2445 -/
def parseCsrBody (E : ParseEnv) (c : RawCsr) : Option Csr := do
  let sigAlg := algFromAI c.alg
  let ka := csrKeyAlg sigAlg c.tbs.spki
  let pub ← csrPub E ka c.tbs.spki
  let _ ← E.rdn c.tbs.subject
  let exts ← csrExtensions c.tbs.attributes
  let san ← csrSan exts ([], [], [])
  some ⟨c.raw, c.tbs.raw, c.tbs.spki.raw, c.tbs.subject, c.tbs.version, c.signature, sigAlg, ka, pub, exts, san.1, san.2.1, san.2.2⟩

/-- x509/x509.go:2378-2389 `ParseCertificateRequest` -/
def parseCSR (E : ParseEnv) (b : Bytes) : Option Csr :=
  match parseRawCsr b with
  | some (c, []) => parseCsrBody E c
  | _ => none

/-- x509/x509.go:2447-2449 `CheckSignature`; verification with an SM2 key on a NIST curve is a parameter -/
def csrCheckSignature (E : Env) (sm2OnNist : Keys.Named → Bytes → Bytes → Bytes → Bool) (c : Csr) : Option VErr :=
  match c.pub with
  | .key p => checkSignature E c.sigAlg c.rawTBS c.signature p
  | .sm2On cv bits => if sm2OnNist cv bits c.rawTBS c.signature then none else some .badSignature

/-! ## Attributes of the template -/

/-- `pkix.AttributeTypeAndValueSET` with byte-string values. The outer slice of values is shared with the template (`append` copies the
slice header only). -/
structure Attribute where
  type : OID
  values : List (List (OID × Bytes))
deriving DecidableEq, Repr

/-- x509/x509.go:2277-2287: append to the first extension request that has a value -/
def appendToFirst (atvs : List (OID × Bytes)) : List Attribute → Option (List Attribute)
  | [] => none
  | a :: l =>
    match a.values with
    | v :: vs => if a.type = oidExtensionRequest then some ({ a with values := (v ++ atvs) :: vs } :: l) else (appendToFirst atvs l).map (a :: ·)
    | [] => (appendToFirst atvs l).map (a :: ·)

/-- x509/x509.go:2248-2261: identifiers already given in the attributes -/
def specified (attrs : List Attribute) : List OID :=
  attrs.flatMap fun a => if a.type = oidExtensionRequest then a.values.flatMap (·.map (·.1)) else []

/-- x509/x509.go:2244-2297: the attributes to be written, and the template's attributes afterwards -/
def mergeAttributes (attrs : List Attribute) (exts : List Extension) : List Attribute × List Attribute :=
  if exts = [] then (attrs, attrs)
  else
    let atvs := (exts.filter fun e => !(specified attrs).contains e.id).map fun e => (e.id, e.value)
    match appendToFirst atvs attrs with
    | some l => (l, l)
    | none => (attrs ++ [⟨oidExtensionRequest, [atvs]⟩], attrs)

end Verif.X509
