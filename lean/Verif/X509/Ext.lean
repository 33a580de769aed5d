import Verif.X509.Asn1
/-!
Model of the certificate extensions of `x509/x509.go`: `buildExtensions` (1571-1749), `marshalSANs` (1550-1569),
`parseSANExtension` (1128-1182) and the extension loop of `parseCertificate` (1227-1449). Go strings are byte lists;
errors of the parsers carry no text (`none`).
-/
namespace Verif.X509
open Verif Asn1

abbrev OID := Keys.OID

/-- `pkix.Extension` -/
structure Extension where
  id : OID
  critical : Bool
  value : Bytes
deriving DecidableEq, Repr

/-- the fields of `Certificate` (x509/x509.go:671-772) that extensions carry, in a template or as parsed -/
structure Fields where
  keyUsage : Int := 0
  extKeyUsage : List Int := []
  unknownExtKeyUsage : List OID := []
  basicConstraintsValid : Bool := false
  isCA : Bool := false
  maxPathLen : Int := 0
  maxPathLenZero : Bool := false
  subjectKeyId : Bytes := []
  authorityKeyId : Bytes := []
  ocspServer : List Bytes := []
  issuingURL : List Bytes := []
  dnsNames : List Bytes := []
  emails : List Bytes := []
  ips : List Bytes := []
  policies : List OID := []
  permittedCritical : Bool := false
  permitted : List Bytes := []
  excluded : List Bytes := []
  crlDPs : List Bytes := []
deriving DecidableEq, Repr

/-- x509/x509.go:1524-1540 -/
def oidSubjectKeyId : OID := [2, 5, 29, 14]
def oidKeyUsage : OID := [2, 5, 29, 15]
def oidExtKeyUsage : OID := [2, 5, 29, 37]
def oidAuthorityKeyId : OID := [2, 5, 29, 35]
def oidBasicConstraints : OID := [2, 5, 29, 19]
def oidSAN : OID := [2, 5, 29, 17]
def oidPolicies : OID := [2, 5, 29, 32]
def oidNameConstraints : OID := [2, 5, 29, 30]
def oidCRLDP : OID := [2, 5, 29, 31]
def oidAIA : OID := [1, 3, 6, 1, 5, 5, 7, 1, 1]
def oidOcsp : OID := [1, 3, 6, 1, 5, 5, 7, 48, 1]
def oidIssuers : OID := [1, 3, 6, 1, 5, 5, 7, 48, 2]

/-- x509/x509.go:599-612, 634-650 -/
def ekuTable : List (Int × OID) :=
  [ (0, [2, 5, 29, 37, 0]), (1, [1, 3, 6, 1, 5, 5, 7, 3, 1]), (2, [1, 3, 6, 1, 5, 5, 7, 3, 2]), (3, [1, 3, 6, 1, 5, 5, 7, 3, 3]),
    (4, [1, 3, 6, 1, 5, 5, 7, 3, 4]), (5, [1, 3, 6, 1, 5, 5, 7, 3, 5]), (6, [1, 3, 6, 1, 5, 5, 7, 3, 6]),
    (7, [1, 3, 6, 1, 5, 5, 7, 3, 7]), (8, [1, 3, 6, 1, 5, 5, 7, 3, 8]), (9, [1, 3, 6, 1, 5, 5, 7, 3, 9]),
    (10, [1, 3, 6, 1, 4, 1, 311, 10, 3, 3]), (11, [2, 16, 840, 1, 113730, 4, 1]) ]

/-- x509/x509.go:652-659 `extKeyUsageFromOID` -/
def ekuFromOID (o : OID) : Option Int := (ekuTable.find? (fun p => o == p.2)).map (·.1)

/-- x509/x509.go:661-668 `oidFromExtKeyUsage` -/
def oidFromEku (u : Int) : Option OID := (ekuTable.find? (fun p => u == p.1)).map (·.2)

/-! ## Building -/

/-- x509/x509.go:1497-1502 `reverseBitsInAByte` -/
def reverseBits (b : Byte) : Byte :=
  let b1 := b >>> 4 ||| b <<< 4
  let b2 := (b1 >>> 2 &&& 0x33) ||| (b1 <<< 2 &&& 0xcc)
  (b2 >>> 1 &&& 0x55) ||| (b2 <<< 1 &&& 0xaa)

/-- the inner loop of `asn1BitLength`, x509/x509.go:1513-1519: the number of trailing zero bits of a byte (8 for 0) -/
def trailingZeros (b : Byte) : Nat := ((List.range 8).find? (fun i => b.getLsbD i)).getD 8

/-- x509/x509.go:1507-1522 `asn1BitLength`, over the reversed byte string -/
def bitLengthRev : Bytes → Nat
  | [] => 0
  | b :: r => if b = 0 then bitLengthRev r else 8 * (r.length + 1) - trailingZeros b

def asn1BitLength (b : Bytes) : Nat := bitLengthRev b.reverse

/-- `asn1.Marshal` of a `BitString` -/
def encBitString (b : Bytes) (bitLen : Nat) : Bytes := Der.encTLV 0x03 (BitVec.ofNat 8 ((8 - bitLen % 8) % 8) :: b)

/-- x509/x509.go:1582-1596: the value of the key usage extension; `byte(k)`, `byte(k >> 8)` keep the low bits of the int -/
def keyUsageValue (k : Int) : Bytes :=
  let a0 := reverseBits (BitVec.ofInt 8 k)
  let a1 := reverseBits (BitVec.ofInt 8 (k / 256))
  let bs := if a1 ≠ 0 then [a0, a1] else [a0]
  encBitString bs (asn1BitLength bs)

/-- concatenation of the encodings of a list -/
def marshalAll {α : Type} (f : α → Res Bytes) : List α → Res Bytes
  | [] => .ok []
  | x :: l => do
    let a ← f x
    let r ← marshalAll f l
    .ok (a ++ r)

/-- an `ObjectIdentifier` field -/
def oidRes (o : OID) : Res Bytes :=
  match marshalOID o with
  | some b => .ok b
  | none => .err "asn1: structure error: invalid object identifier"

/-- x509/x509.go:1605-1611; an unknown `ExtKeyUsage` panics -/
def ekuRes (u : Int) : Res Bytes :=
  match oidFromEku u with
  | some o => oidRes o
  | none => .panic

/-- x509/x509.go:1600-1620 -/
def extKeyUsageValue (us : List Int) (unknown : List OID) : Res Bytes := do
  let a ← marshalAll ekuRes us
  let b ← marshalAll oidRes unknown
  .ok (Der.encTLV 0x30 (a ++ b))

/-- x509/x509.go:1626-1634: `basicConstraints{IsCA optional, MaxPathLen optional default:-1}` -/
def basicConstraintsValue (isCA : Bool) (maxPathLen : Int) (zero : Bool) : Bytes :=
  let m := if maxPathLen = 0 ∧ zero = false then -1 else maxPathLen
  Der.encTLV 0x30 ((if isCA then Der.encTLV 0x01 [0xff] else []) ++ (if m = -1 then [] else Der.encInt m))

/-- `authKeyId{Id optional, tag:0}`, x509/x509.go:190-192 -/
def authKeyIdValue (id : Bytes) : Bytes := Der.encTLV 0x30 (if id = [] then [] else Der.encTLV 0x80 id)

/-- x509/x509.go:1657-1678 -/
def aiaValue (ocsp issuers : List Bytes) : Bytes :=
  Der.encTLV 0x30
    (ocsp.flatMap (fun u => Der.encTLV 0x30 (Keys.encOIDTLV oidOcsp ++ Der.encTLV 0x86 u)) ++
     issuers.flatMap (fun u => Der.encTLV 0x30 (Keys.encOIDTLV oidIssuers ++ Der.encTLV 0x86 u)))

/-- `net.IP.To4` of the standard library -/
def to4 (ip : Bytes) : Option Bytes :=
  if ip.length = 4 then some ip
  else if ip.length = 16 ∧ ip.take 12 = List.replicate 10 0 ++ [0xff, 0xff] then some (ip.drop 12)
  else none

/-- x509/x509.go:1557-1571 -/
def ipBytes (ip : Bytes) : Bytes := (to4 ip).getD ip

/-- x509/x509.go:1555-1572 `marshalSANs` -/
def sanValue (dns emails ips : List Bytes) : Bytes :=
  Der.encTLV 0x30 (dns.flatMap (Der.encTLV 0x82) ++ emails.flatMap (Der.encTLV 0x81) ++ ips.flatMap (fun ip => Der.encTLV 0x87 (ipBytes ip)))

/-- x509/x509.go:1690-1702 -/
def policyRes (o : OID) : Res Bytes := do
  let b ← oidRes o
  .ok (Der.encTLV 0x30 b)

def policiesValue (l : List OID) : Res Bytes := do
  let b ← marshalAll policyRes l
  .ok (Der.encTLV 0x30 b)

/-- `makeIA5String`: ASCII only -/
def isIA5 (s : Bytes) : Bool := s.all (fun b => b.toNat < 128)

/-- `generalSubtree{Name tag:2,optional,ia5}`, x509/x509.go:992-994; an empty name is left out -/
def subtreeRes (s : Bytes) : Res Bytes :=
  if s = [] then .ok (Der.encTLV 0x30 [])
  else if isIA5 s then .ok (Der.encTLV 0x30 (Der.encTLV 0x82 s))
  else .err "asn1: structure error: IA5String contains invalid character"

/-- x509/x509.go:1704-1725: both lists are made with `make`, so an empty list is written as an empty field -/
def nameConstraintsValue (permitted excluded : List Bytes) : Res Bytes := do
  let a ← marshalAll subtreeRes permitted
  let b ← marshalAll subtreeRes excluded
  .ok (Der.encTLV 0x30 (Der.encTLV 0xa0 a ++ Der.encTLV 0xa1 b))

/-- x509/x509.go:1727-1748 -/
def crlDPValue (l : List Bytes) : Bytes :=
  Der.encTLV 0x30 (l.flatMap (fun u => Der.encTLV 0x30 (Der.encTLV 0xa0 (Der.encTLV 0xa0 (Der.encTLV 0x86 u)))))

/-- x509/x509.go:1544-1551 `oidInExtensions` -/
def oidIn (o : OID) (l : List Extension) : Bool := l.any (fun e => e.id == o)

/-- one block of `buildExtensions`: generated unless not wanted or overridden -/
def gen (extra : List Extension) (id : OID) (wanted critical : Bool) (value : Res Bytes) : Res (List Extension) :=
  if wanted && !oidIn id extra then
    match value with
    | .ok v => .ok [⟨id, critical, v⟩]
    | .err m => .err m
    | .panic => .panic
  else .ok []

/-- x509/x509.go:1574-1754 `buildExtensions` -/
def buildExtensions (t : Fields) (aki : Bytes) (extra : List Extension) : Res (List Extension) := do
  let e1 ← gen extra oidKeyUsage (t.keyUsage != 0) true (.ok (keyUsageValue t.keyUsage))
  let e2 ← gen extra oidExtKeyUsage (!t.extKeyUsage.isEmpty || !t.unknownExtKeyUsage.isEmpty) false
    (extKeyUsageValue t.extKeyUsage t.unknownExtKeyUsage)
  let e3 ← gen extra oidBasicConstraints t.basicConstraintsValid true
    (.ok (basicConstraintsValue t.isCA t.maxPathLen t.maxPathLenZero))
  let e4 ← gen extra oidSubjectKeyId (!t.subjectKeyId.isEmpty) false (.ok (Der.encOctets t.subjectKeyId))
  let e5 ← gen extra oidAuthorityKeyId (!aki.isEmpty) false (.ok (authKeyIdValue aki))
  let e6 ← gen extra oidAIA (!t.ocspServer.isEmpty || !t.issuingURL.isEmpty) false (.ok (aiaValue t.ocspServer t.issuingURL))
  let e7 ← gen extra oidSAN (!t.dnsNames.isEmpty || !t.emails.isEmpty || !t.ips.isEmpty) false
    (.ok (sanValue t.dnsNames t.emails t.ips))
  let e8 ← gen extra oidPolicies (!t.policies.isEmpty) false (policiesValue t.policies)
  let e9 ← gen extra oidNameConstraints (!t.permitted.isEmpty || !t.excluded.isEmpty) t.permittedCritical
    (nameConstraintsValue t.permitted t.excluded)
  let e10 ← gen extra oidCRLDP (!t.crlDPs.isEmpty) false (.ok (crlDPValue t.crlDPs))
  .ok (e1 ++ e2 ++ e3 ++ e4 ++ e5 ++ e6 ++ e7 ++ e8 ++ e9 ++ e10 ++ extra)

/-! ## Parsing -/

/-- `BitString.At` -/
def bitAt (b : Bytes) (bitLen i : Nat) : Bool :=
  decide (i < bitLen) && (b.getD (i / 8) 0).getLsbD (7 - i % 8)

/-- x509/x509.go:1235-1250 -/
def parseKeyUsage (v : Bytes) : Option Int := do
  let c ← only 0x03 v
  let (b, pad) ← Keys.parseBitStringBody c
  some ((List.range 9).foldl (fun u i => if bitAt b (b.length * 8 - pad) i then u + 2 ^ i else u) 0)

/-- x509/x509.go:1252-1265 -/
def parseBasicConstraints (v : Bytes) : Option (Bool × Int) := do
  let c ← only 0x30 v
  let (b, c) ← opt 0x01 c
  let isCA ← match b with
    | none => some false
    | some e => boolBody e.body
  let (i, _) ← opt 0x02 c
  match i with
  | none => some (isCA, -1)
  | some e => if 8 < e.body.length then none else (Der.parseIntBody e.body).map (isCA, ·)

/-- x509/x509.go:1158-1179: one general name -/
def sanStep (s : List Bytes × List Bytes × List Bytes) (e : Elem) : Option (List Bytes × List Bytes × List Bytes) :=
  if e.h.tag = 1 then some (s.1, s.2.1 ++ [e.body], s.2.2)
  else if e.h.tag = 2 then some (s.1 ++ [e.body], s.2.1, s.2.2)
  else if e.h.tag = 7 then
    if e.body.length = 4 ∨ e.body.length = 16 then some (s.1, s.2.1, s.2.2 ++ [e.body]) else none
  else some s

def sanFold : List Elem → List Bytes × List Bytes × List Bytes → Option (List Bytes × List Bytes × List Bytes)
  | [], s => some s
  | e :: l, s =>
    match sanStep s e with
    | none => none
    | some s' => sanFold l s'

/-- x509/x509.go:1128-1182 `parseSANExtension`: DNS names, email addresses, IP addresses -/
def parseSAN (v : Bytes) : Option (List Bytes × List Bytes × List Bytes) :=
  match elem v with
  | some (e, []) =>
    if e.h.compound = true ∧ e.h.tag = 16 ∧ e.h.cls = 0 then
      match elems e.body with
      | none => none
      | some l => sanFold l ([], [], [])
    else none
  | _ => none

/-- `parseIA5String` -/
def ia5Body (b : Bytes) : Option Bytes := if isIA5 b then some b else none

/-- one `generalSubtree`: its DNS name, empty when it has none -/
def parseSubtree (b : Bytes) : Option Bytes :=
  match opt 0x82 b with
  | none => none
  | some (none, _) => some []
  | some (some e, _) => ia5Body e.body

/-- all elements parsed -/
def parseAll {α : Type} (f : Bytes → Option α) : List Bytes → Option (List α)
  | [] => some []
  | x :: l =>
    match f x with
    | none => none
    | some a => (parseAll f l).map (a :: ·)

/-- an optional field holding a `SEQUENCE OF` subtrees -/
def parseSubtrees (id : Byte) (b : Bytes) : Option (List Bytes × Bytes) :=
  match opt id b with
  | none => none
  | some (none, r) => some ([], r)
  | some (some e, r) =>
    match seqOf 0x30 e.body with
    | none => none
    | some l => (parseAll parseSubtree l).map (·, r)

/-- x509/x509.go:1300-1311 `getDNSNames`: subtrees of another kind are skipped, an error when critical -/
def getDNSNames (critical : Bool) : List Bytes → Option (List Bytes)
  | [] => some []
  | s :: l =>
    if s = [] then (if critical then none else getDNSNames critical l)
    else (getDNSNames critical l).map (s :: ·)

/-- x509/x509.go:1277-1320: permitted and excluded names -/
def parseNameConstraints (critical : Bool) (v : Bytes) : Option (List Bytes × List Bytes) := do
  let c ← only 0x30 v
  let (p, c) ← parseSubtrees 0xa0 c
  let (x, _) ← parseSubtrees 0xa1 c
  let p ← getDNSNames critical p
  let x ← getDNSNames critical x
  some (p, x)

/-- an optional BIT STRING with identifier `id` must parse when present -/
def skipBitString (id : Byte) (b : Bytes) : Option Bytes :=
  match opt id b with
  | none => none
  | some (none, r) => some r
  | some (some e, r) => if (Keys.parseBitStringBody e.body).isSome then some r else none

/-- `distributionPointName`, x509/x509.go:1009-1012: the contents of `FullName`, empty when absent. `rdnOk` says whether the
contents of a `RelativeName` parse as an RDN sequence (not modelled). -/
def parseDPName (rdnOk : Bytes → Bool) (b : Bytes) : Option Bytes := do
  let (n, r) ← optWhere (·.isTag 0xa0) b
  let (rel, _) ← opt 0xa1 r
  match rel with
  | some e => if rdnOk e.body then some ((n.map (·.body)).getD []) else none
  | none => some ((n.map (·.body)).getD [])

/-- `distributionPoint`, x509/x509.go:1003-1007: the contents of `DistributionPoint.FullName` -/
def parseDP (rdnOk : Bytes → Bool) (b : Bytes) : Option Bytes := do
  let (d, r) ← opt 0xa0 b
  let n ← match d with
    | none => some []
    | some e => parseDPName rdnOk e.body
  let r ← skipBitString 0x81 r
  let _ ← optWhere (·.isTag 0xa2) r
  some n

/-- x509/x509.go:1343-1360: the URIs; a distribution point without full name or with another kind of name is skipped -/
def dpUris : List Bytes → Option (List Bytes)
  | [] => some []
  | n :: l =>
    if n = [] then dpUris l
    else match elem n with
      | none => none
      | some (e, _) => (dpUris l).map (fun r => if e.h.tag = 6 then e.body :: r else r)

/-- x509/x509.go:1322-1360 -/
def parseCRLDPs (rdnOk : Bytes → Bool) (v : Bytes) : Option (List Bytes) := do
  let c ← only 0x30 v
  let l ← seqOf 0x30 c
  let ns ← parseAll (parseDP rdnOk) l
  dpUris ns

/-- x509/x509.go:1362-1370 -/
def parseAuthKeyId (v : Bytes) : Option Bytes := do
  let c ← only 0x30 v
  let (o, _) ← opt 0x80 c
  some ((o.map (·.body)).getD [])

/-- x509/x509.go:1372-1394 -/
def parseEKUs (v : Bytes) : Option (List OID) := do
  let c ← only 0x30 v
  let l ← seqOf 0x06 c
  parseAll Keys.parseOIDBody l

/-- `policyInformation`: the identifier; qualifiers are ignored -/
def parsePolicy (b : Bytes) : Option OID := (Keys.parseOID b).map (·.1)

/-- x509/x509.go:1406-1418 -/
def parsePolicies (v : Bytes) : Option (List OID) := do
  let c ← only 0x30 v
  let l ← seqOf 0x30 c
  parseAll parsePolicy l

/-- `authorityInfoAccess`: method and location -/
def parseAccess (b : Bytes) : Option (OID × Elem) := do
  let (o, r) ← Keys.parseOID b
  let (e, _) ← elem r
  some (o, e)

/-- x509/x509.go:1424-1430 -/
def parseAIA (v : Bytes) : Option (List (OID × Elem)) := do
  let c ← only 0x30 v
  let l ← seqOf 0x30 c
  parseAll parseAccess l

/-- x509/x509.go:1432-1442: the URIs of one method -/
def accessUris (m : OID) (l : List (OID × Elem)) : List Bytes :=
  l.filterMap (fun x => if x.2.h.tag = 6 ∧ x.1 = m then some x.2.body else none)

/-- x509/x509.go:1231-1449: what one extension does to the fields, and whether it stays unhandled -/
def interp (rdnOk : Bytes → Bool) (f : Fields) (e : Extension) : Option (Fields × Bool) :=
  if e.id = oidKeyUsage then (parseKeyUsage e.value).map fun u => ({ f with keyUsage := u }, false)
  else if e.id = oidBasicConstraints then (parseBasicConstraints e.value).map fun (x : Bool × Int) =>
    ({ f with basicConstraintsValid := true, isCA := x.1, maxPathLen := x.2, maxPathLenZero := decide (x.2 = 0) }, false)
  else if e.id = oidSAN then (parseSAN e.value).map fun x =>
    ({ f with dnsNames := x.1, emails := x.2.1, ips := x.2.2 }, x.1.isEmpty && x.2.1.isEmpty && x.2.2.isEmpty)
  else if e.id = oidNameConstraints then (parseNameConstraints e.critical e.value).map fun x =>
    ({ f with permitted := x.1, excluded := x.2, permittedCritical := e.critical }, false)
  else if e.id = oidCRLDP then (parseCRLDPs rdnOk e.value).map fun x => ({ f with crlDPs := f.crlDPs ++ x }, false)
  else if e.id = oidAuthorityKeyId then (parseAuthKeyId e.value).map fun x => ({ f with authorityKeyId := x }, false)
  else if e.id = oidExtKeyUsage then (parseEKUs e.value).map fun x =>
    ({ f with extKeyUsage := f.extKeyUsage ++ x.filterMap ekuFromOID,
              unknownExtKeyUsage := f.unknownExtKeyUsage ++ x.filter (fun o => (ekuFromOID o).isNone) }, false)
  else if e.id = oidSubjectKeyId then (only 0x04 e.value).map fun x => ({ f with subjectKeyId := x }, false)
  else if e.id = oidPolicies then (parsePolicies e.value).map fun x => ({ f with policies := x }, false)
  else if e.id = oidAIA then (parseAIA e.value).map fun x =>
    ({ f with ocspServer := f.ocspServer ++ accessUris oidOcsp x, issuingURL := f.issuingURL ++ accessUris oidIssuers x }, false)
  else some (f, true)

/-- what the loop of `parseCertificate` has gathered -/
structure Parsed where
  fields : Fields := {}
  unhandledCritical : List OID := []
  extensions : List Extension := []
deriving DecidableEq, Repr

/-- one pass of the loop, x509/x509.go:1229-1451 -/
def extStep (rdnOk : Bytes → Bool) (p : Parsed) (e : Extension) : Option Parsed :=
  match interp rdnOk p.fields e with
  | none => none
  | some (f, unhandled) =>
    some ⟨f, if e.critical && unhandled then p.unhandledCritical ++ [e.id] else p.unhandledCritical, p.extensions ++ [e]⟩

def extLoop (rdnOk : Bytes → Bool) : List Extension → Parsed → Option Parsed
  | [], p => some p
  | e :: l, p =>
    match extStep rdnOk p e with
    | none => none
    | some p' => extLoop rdnOk l p'

/-- the extensions of a certificate read into its fields -/
def parseExtensions (rdnOk : Bytes → Bool) (l : List Extension) : Option Parsed := extLoop rdnOk l {}

end Verif.X509
