import Verif.Sm2.External
/-!
Model of `x509/verify.go`, `x509/cert_pool.go` and of the signature checks of `x509/x509.go:783-962`.

A parsed certificate is the record of the fields these functions read. Go strings and `[]byte` are byte lists; a `map[string][]int` is a
function with default `[]` (a missing key reads as a nil slice). Standard-library functions that are not modelled (`net.ParseIP`,
`net.IP.Equal`, `strings.EqualFold`, RSA/DSA/ECDSA verification) are parameters collected in `Env`.
-/
namespace Verif.X509
open Verif

/-- the dynamic type of `Certificate.PublicKey` (x509/x509.go:1013-1126): SM2 keys are parsed without a precomputed table -/
inductive Pub where
  | sm2 (x y : Nat)
  | rsa (k : Bytes)
  | dsa (k : Bytes)
  | ecdsa (k : Bytes)
  | none
deriving DecidableEq, Repr

/-- `SignatureAlgorithm`, x509/x509.go:196-216 -/
inductive Alg where
  | unknown | md2RSA | md5RSA | sha1RSA | sha256RSA | sha384RSA | sha512RSA | dsaSha1 | dsaSha256 | ecdsaSha1 | ecdsaSha256 | ecdsaSha384
  | ecdsaSha512 | sha256PSS | sha384PSS | sha512PSS | sm2Sm3 | sm2Sha1 | sm2Sha256
deriving DecidableEq, Repr

/-- the fields of `Certificate` (x509/x509.go:671-772) read by verification -/
structure Cert where
  raw : Bytes
  rawTBS : Bytes := []
  rawSubject : Bytes := []
  rawIssuer : Bytes := []
  rawSPKI : Bytes := []
  subjectKeyId : Bytes := []
  authorityKeyId : Bytes := []
  signature : Bytes := []
  sigAlg : Alg := .sm2Sm3
  /-- `PublicKeyAlgorithm == UnknownPublicKeyAlgorithm` -/
  keyAlgUnknown : Bool := false
  pub : Pub := .none
  version : Int := 3
  basicConstraintsValid : Bool := false
  isCA : Bool := false
  maxPathLen : Int := -1
  keyUsage : Nat := 0
  extKeyUsage : List Int := []
  unknownExtKeyUsage : List Bytes := []
  notBefore : Int := 0
  notAfter : Int := 0
  permittedDNS : List Bytes := []
  excludedDNS : List Bytes := []
  unhandledCritical : List Bytes := []
  dnsNames : List Bytes := []
  ipAddresses : List Bytes := []
  commonName : Bytes := []
  /-- `hasSANExtension()`, x509/x509.go:787-789 -/
  hasSAN : Bool := false
deriving DecidableEq, Repr

/-- errors, by kind (x509/verify.go:19-135, x509.go) -/
inductive VErr where
  | notParsed | systemRoots | unhandledCritical | nameMismatch | expired | nameConstraint | notAuthorizedToSign | tooManyIntermediates
  | incompatibleUsage | hostname | unknownAuthority (hint : Bool)
  | constraintViolation | unsupportedAlgorithm | insecureAlgorithm | badSignature
deriving DecidableEq, Repr

/-- parameters: library functions not modelled -/
structure Env where
  curve : Sm2.Curve
  /-- `net.ParseIP` -/
  parseIP : Bytes → Option Bytes
  /-- `net.IP.Equal` -/
  ipEqual : Bytes → Bytes → Bool
  /-- `strings.EqualFold` -/
  equalFold : Bytes → Bytes → Bool
  /-- `hashType.Available()`, the digest and the RSA, DSA and ECDSA verifications of x509/x509.go:901-960 -/
  otherVerify : Alg → Pub → Bytes → Bytes → Option VErr

/-- `asn1.Unmarshal(signature, sm2Sig)` with the rest, x509/x509.go:911-915 -/
def unmarshalPairRest (b : Bytes) : Option ((Int × Int) × Bytes) := do
  let (c, rest) ← Der.parseSeq b
  let (r, c) ← Der.parseInt c
  let (s, _) ← Der.parseInt c
  some ((r, s), rest)

/-- x509/x509.go:870-961 `CheckSignature`/`checkSignature`; `none` is a nil error. `sm2.Verify` cannot panic on coordinates below 2^256
(`Sm2.verify`): any other outcome than `true` is a failure. The hash algorithms of the SM2 variants do not matter: `sm2.Verify` gets the
message itself (x509/x509.go:919); SM2WithSHA1/256 additionally need the hash to be linked in, which is taken as given. -/
def checkSignature (E : Env) (algo : Alg) (signed signature : Bytes) (pub : Pub) : Option VErr :=
  if algo = .md2RSA ∨ algo = .md5RSA then some .insecureAlgorithm
  else if algo = .unknown then some .unsupportedAlgorithm
  else match pub with
    | .sm2 x y =>
      match unmarshalPairRest signature with
      | none => some .badSignature
      | some ((r, s), rest) =>
        if rest ≠ [] then some .badSignature
        else if r ≤ 0 ∨ s ≤ 0 then some .badSignature
        else match Sm2.verify E.curve { x := x, y := y, pre := none } signed r s with
          | .ok true => none
          | _ => some .badSignature
    | .none => some .unsupportedAlgorithm
    | p => E.otherVerify algo p signed signature

/-- `KeyUsageCertSign`, x509/x509.go:581 -/
def keyUsageCertSign : Nat := 32

/-- x509/x509.go:842-866 `CheckSignatureFrom`. `entrust` is the byte string `entrustBrokenSPKI` (x509/x509.go:797-838), compared with the key of
the *child*. -/
def checkSignatureFrom (E : Env) (entrust : Bytes) (c parent : Cert) : Option VErr :=
  if (parent.version = 3 ∧ parent.basicConstraintsValid = false ∨ parent.basicConstraintsValid = true ∧ parent.isCA = false) ∧
      c.rawSPKI ≠ entrust then some .constraintViolation
  else if parent.keyUsage ≠ 0 ∧ parent.keyUsage &&& keyUsageCertSign = 0 then some .constraintViolation
  else if parent.keyAlgUnknown = true then some .unsupportedAlgorithm
  else checkSignature E c.sigAlg c.rawTBS c.signature parent.pub

/-! ### cert_pool.go -/

/-- `CertPool`, x509/cert_pool.go:14-18 -/
structure Pool where
  bySubjectKeyId : Bytes → List Nat
  byName : Bytes → List Nat
  certs : List Cert

/-- x509/cert_pool.go:21-26 `NewCertPool` -/
def Pool.new : Pool := { bySubjectKeyId := fun _ => [], byName := fun _ => [], certs := [] }

/-- x509/x509.go:783-785 `Equal` -/
def Cert.equal (a b : Cert) : Bool := a.raw == b.raw

/-- `s.certs[c]`; an index out of range would panic (it never is: `Pool.WF`) -/
def Pool.at (p : Pool) (i : Nat) : Cert := p.certs.getD i { raw := [] }

/-- x509/cert_pool.go:100-113 `contains` -/
def Pool.contains (p : Pool) (c : Cert) : Bool := (p.byName c.rawSubject).any (fun i => (p.at i).equal c)

/-- map update `m[k] = append(m[k], n)` -/
def addIdx (m : Bytes → List Nat) (k : Bytes) (n : Nat) : Bytes → List Nat := fun k' => if k' = k then m k' ++ [n] else m k'

/-- x509/cert_pool.go:115-134 `AddCert` (of a non-nil certificate) -/
def Pool.addCert (p : Pool) (c : Cert) : Pool :=
  if p.contains c then p
  else
    { certs := p.certs ++ [c]
      bySubjectKeyId := if c.subjectKeyId.length > 0 then addIdx p.bySubjectKeyId c.subjectKeyId p.certs.length else p.bySubjectKeyId
      byName := addIdx p.byName c.rawSubject p.certs.length }

/-- a PEM block as `pem.Decode` gives it: type, whether it has headers, bytes -/
structure PemBlock where
  type : Bytes
  headers : Bool
  bytes : Bytes

/-- x509/cert_pool.go:142-164 `AppendCertsFromPEM`, on the sequence of blocks `pem.Decode` finds; `parse` is `ParseCertificate` -/
def Pool.appendBlocks (parse : Bytes → Option Cert) (certType : Bytes) : Pool → List PemBlock → Pool × Bool
  | p, [] => (p, false)
  | p, b :: bs =>
    if b.type ≠ certType ∨ b.headers = true then p.appendBlocks parse certType bs
    else match parse b.bytes with
      | none => p.appendBlocks parse certType bs
      | some c => (((p.addCert c).appendBlocks parse certType bs).1, true)

/-- x509/cert_pool.go:168-174 `Subjects` -/
def Pool.subjects (p : Pool) : List Bytes := p.certs.map (·.rawSubject)

/-- x509/cert_pool.go:80-87: the candidates -/
def Pool.candidates (p : Pool) (c : Cert) : List Nat :=
  let byKey := if c.authorityKeyId.length > 0 then p.bySubjectKeyId c.authorityKeyId else []
  if byKey.length = 0 then p.byName c.rawIssuer else byKey

/-- x509/cert_pool.go:76-98 `findVerifiedParents`: the parents, and the error of the last candidate (the other result, `errCert`, only feeds
error texts). A nil pool has no candidates. -/
def findVerifiedParents (E : Env) (entrust : Bytes) (p : Option Pool) (c : Cert) : List Nat × Option VErr :=
  match p with
  | none => ([], none)
  | some p =>
    ((p.candidates c).filter (fun i => (checkSignatureFrom E entrust c (p.at i)).isNone),
     ((p.candidates c).getLast?).bind (fun i => checkSignatureFrom E entrust c (p.at i)))

/-! ### verify.go -/

/-- x509/verify.go:167-190 `matchNameConstraint` -/
def matchNameConstraint (E : Env) (domain constraint : Bytes) : Bool :=
  if constraint.length = 0 then true
  else if domain.length < constraint.length then false
  else
    let prefixLen := domain.length - constraint.length
    if !E.equalFold (domain.drop prefixLen) constraint then false
    else if prefixLen = 0 then true
    else
      let isSubdomain := domain.getD (prefixLen - 1) 0 == 0x2e
      let leadingDot := constraint.getD 0 0 == 0x2e
      isSubdomain != leadingDot

/-- `certType`, x509/verify.go:161-165 -/
inductive Kind where
  | leaf | intermediate | root
deriving DecidableEq, Repr

/-- `VerifyOptions`, x509/verify.go:149-159. `now` is the resolved time: `CurrentTime`, or `time.Now()` when that is zero (the code reads the
clock anew for every certificate; the model reads it once). -/
structure Opts where
  dnsName : Bytes
  intermediates : Option Pool
  roots : Option Pool
  now : Int
  keyUsages : List Int

/-- x509/verify.go:213-231, the DNS name constraints of one certificate -/
def nameConstraintsOk (E : Env) (c : Cert) (dns : Bytes) : Bool :=
  (c.permittedDNS.length == 0 || c.permittedDNS.any (matchNameConstraint E dns)) && !(c.excludedDNS.any (matchNameConstraint E dns))

/-- x509/verify.go:198-203: the certificate at the end of the chain names another issuer -/
def issuerMismatch (chain : List Cert) (c : Cert) : Bool :=
  match chain.getLast? with
  | none => false
  | some child => child.rawIssuer != c.rawSubject

/-- x509/verify.go:193-262 `isValid` -/
def isValid (E : Env) (c : Cert) (kind : Kind) (chain : List Cert) (o : Opts) : Option VErr :=
  if c.unhandledCritical.length > 0 then some .unhandledCritical
  else if issuerMismatch chain c = true then some .nameMismatch
  else if o.now < c.notBefore ∨ o.now > c.notAfter then some .expired
  else if nameConstraintsOk E c o.dnsName = false then some .nameConstraint
  else if kind = .intermediate ∧ (c.basicConstraintsValid = false ∨ c.isCA = false) then some .notAuthorizedToSign
  else if c.basicConstraintsValid = true ∧ c.maxPathLen ≥ 0 ∧ (chain.length : Int) - 1 > c.maxPathLen then some .tooManyIntermediates
  else none

/-- the cache of `buildChains`: `map[int][][]*Certificate` -/
abbrev Cache := Nat → Option (List (List Cert))

/-- x509/verify.go:356-371: the loop over the possible roots: chains found and the value of `err` after the loop -/
def rootLoop (E : Env) (o : Opts) (roots : Pool) (chain : List Cert) : List Nat → List (List Cert) × Option VErr → List (List Cert) × Option VErr
  | [], acc => acc
  | i :: is, (chains, err) =>
    let root := roots.at i
    if chain.any (fun c => c.equal root) then rootLoop E o roots chain is (chains, err)
    else match isValid E root .root chain o with
      | some e => rootLoop E o roots chain is (chains, some e)
      | none => rootLoop E o roots chain is (chains ++ [chain ++ [root]], none)

/-- x509/verify.go:374-394: the loop over the possible intermediates; `rec` is the recursive call of `buildChains` -/
def interLoop (E : Env) (o : Opts) (inters : Pool) (chain : List Cert)
    (rec : Cert → Cache → List Cert → Option ((List (List Cert) × Option VErr) × Cache)) :
    List Nat → (List (List Cert) × Option VErr) × Cache → Option ((List (List Cert) × Option VErr) × Cache)
  | [], acc => some acc
  | i :: is, ((chains, err), cache) =>
    let inter := inters.at i
    if chain.any (fun c => c.equal inter) then interLoop E o inters chain rec is ((chains, err), cache)
    else match isValid E inter .intermediate chain o with
      | some e => interLoop E o inters chain rec is ((chains, some e), cache)
      | none =>
        match cache i with
        | some cs => interLoop E o inters chain rec is ((chains ++ cs, none), cache)
        | none =>
          match rec inter cache (chain ++ [inter]) with
          | none => none
          | some ((cs, err'), cache') =>
            interLoop E o inters chain rec is ((chains ++ cs, err'), fun j => if j = i then some cs else cache' j)

/-- an absent pool has no certificates -/
def poolOrEmpty : Option Pool → Pool
  | none => .new
  | some p => p

/-- x509/verify.go:353-409 `buildChains`. `fuel` bounds the depth of the recursion; `none` when it runs out
(`C48_terminates`: it never does in `verify`). -/
def buildChains (E : Env) (entrust : Bytes) (o : Opts) : Nat → Cert → Cache → List Cert → Option ((List (List Cert) × Option VErr) × Cache)
  | 0, _, _, _ => none
  | fuel + 1, c, cache, chain =>
    let (possibleRoots, rootErr) := findVerifiedParents E entrust o.roots c
    let r := rootLoop E o (poolOrEmpty o.roots) chain possibleRoots ([], none)
    let (possibleInters, interErr) := findVerifiedParents E entrust o.intermediates c
    match interLoop E o (poolOrEmpty o.intermediates) chain (buildChains E entrust o fuel) possibleInters (r, cache) with
    | none => none
    | some ((chains, err), cache) =>
      let err := if chains.length > 0 then none else err
      let err := if chains.length = 0 ∧ err = none then some (.unknownAuthority (rootErr.isSome || interErr.isSome)) else err
      some ((chains, err), cache)

/-- `ExtKeyUsageAny`, `ExtKeyUsageServerAuth`, `ExtKeyUsageMicrosoftServerGatedCrypto`, `ExtKeyUsageNetscapeServerGatedCrypto`,
x509/x509.go:618-631 -/
def ekuAny : Int := 0
def ekuServerAuth : Int := 1
def ekuMicrosoftSGC : Int := 10
def ekuNetscapeSGC : Int := 11

/-- x509/verify.go:542-554: is a requested usage covered by one of the certificate's usages? -/
def usageCovered (requested : Int) (usages : List Int) : Bool :=
  usages.any fun u => requested == u || (requested == ekuServerAuth && (u == ekuNetscapeSGC || u == ekuMicrosoftSGC))

/-- x509/verify.go:537-561: crossing out, in one certificate; `none` is `return false` -/
def crossOut (ekus : List Int) : List Int → Int → Option (List Int × Int)
  | [], remaining => some ([], remaining)
  | u :: us, remaining =>
    if u = -1 ∨ usageCovered u ekus = true then
      (crossOut ekus us remaining).map fun (l, r) => (u :: l, r)
    else if remaining - 1 = 0 then none
    else (crossOut ekus us (remaining - 1)).map fun (l, r) => (-1 :: l, r)

/-- x509/verify.go:519-562: the walk down the chain (root first) -/
def usageLoop : List Cert → List Int → Int → Bool
  | [], _, _ => true
  | c :: cs, usages, remaining =>
    if c.extKeyUsage.length = 0 ∧ c.unknownExtKeyUsage.length = 0 then usageLoop cs usages remaining
    else if c.extKeyUsage.contains ekuAny then usageLoop cs usages remaining
    else match crossOut c.extKeyUsage usages remaining with
      | none => false
      | some (usages', remaining') => usageLoop cs usages' remaining'

/-- x509/verify.go:505-565 `checkChainForKeyUsage` -/
def checkChainForKeyUsage (chain : List Cert) (keyUsages : List Int) : Bool :=
  if chain.length = 0 then false else usageLoop chain.reverse keyUsages keyUsages.length

/-! #### Host names -/

/-- `strings.TrimSuffix(s, ".")` -/
def trimDot (s : Bytes) : Bytes := if s.getLast? = some 0x2e then s.dropLast else s

/-- `strings.Split(s, ".")` -/
def splitDots : Bytes → List Bytes
  | [] => [[]]
  | c :: r =>
    if c = 0x2e then [] :: splitDots r
    else match splitDots r with
      | [] => [[c]]
      | l :: ls => (c :: l) :: ls

/-- x509/verify.go:426-433: the comparison of the labels, from index `i` on (the lists have the same length) -/
def matchLabels : Nat → List Bytes → List Bytes → Bool
  | _, [], _ => true
  | _, _ :: _, [] => true
  | i, p :: ps, h :: hs => if i = 0 ∧ p = [0x2a] then matchLabels (i + 1) ps hs else if p ≠ h then false else matchLabels (i + 1) ps hs

/-- x509/verify.go:411-436 `matchHostnames` -/
def matchHostnames (pattern host : Bytes) : Bool :=
  let host := trimDot host
  let pattern := trimDot pattern
  if pattern.length = 0 ∨ host.length = 0 then false
  else
    let ps := splitDots pattern
    let hs := splitDots host
    if ps.length ≠ hs.length then false else matchLabels 0 ps hs

/-- a continuation byte -/
def cont (b : Byte) : Bool := 0x80 ≤ b.toNat && b.toNat ≤ 0xbf

/-- `utf8.DecodeRuneInString` (standard library), as far as `toLowerCaseASCII` observes it: the rune if it is ASCII, or whether it is
`RuneError` (an invalid sequence, or the encoded U+FFFD), and how many bytes it takes. -/
inductive Rune where
  | ascii (b : Byte) | error | other
deriving DecidableEq

def decodeRune : Bytes → Rune × Nat
  | [] => (.error, 0)
  | b0 :: r =>
    let n := b0.toNat
    if n < 0x80 then (.ascii b0, 1)
    else if n < 0xc2 then (.error, 1)
    else if n < 0xe0 then
      match r with
      | b1 :: _ => if cont b1 then (.other, 2) else (.error, 1)
      | _ => (.error, 1)
    else if n < 0xf0 then
      match r with
      | b1 :: b2 :: _ =>
        let lo := if n = 0xe0 then 0xa0 else 0x80
        let hi := if n = 0xed then 0x9f else 0xbf
        if lo ≤ b1.toNat ∧ b1.toNat ≤ hi ∧ cont b2 then (if n = 0xef ∧ b1 = 0xbf ∧ b2 = 0xbd then .error else .other, 3) else (.error, 1)
      | _ => (.error, 1)
    else if n < 0xf5 then
      match r with
      | b1 :: b2 :: b3 :: _ =>
        let lo := if n = 0xf0 then 0x90 else 0x80
        let hi := if n = 0xf4 then 0x8f else 0xbf
        if lo ≤ b1.toNat ∧ b1.toNat ≤ hi ∧ cont b2 ∧ cont b3 then (.other, 4) else (.error, 1)
      | _ => (.error, 1)
    else (.error, 1)

/-- is the byte in `'A'..'Z'`? -/
def isUpper (b : Byte) : Bool := 0x41 ≤ b.toNat && b.toNat ≤ 0x5a

/-- x509/verify.go:444-455: `for _, c := range in`; fuel is the number of bytes left (every rune takes at least one) -/
def alreadyLower : Nat → Bytes → Bool
  | 0, _ => true
  | _ + 1, [] => true
  | f + 1, s =>
    match decodeRune s with
    | (.error, _) => false
    | (.ascii b, k) => if isUpper b then false else alreadyLower f (s.drop k)
    | (.other, k) => alreadyLower f (s.drop k)

/-- x509/verify.go:461-466 -/
def lowerByte (b : Byte) : Byte := if isUpper b then b + 0x20 else b

/-- x509/verify.go:441-468 `toLowerCaseASCII` -/
def toLowerCaseASCII (s : Bytes) : Bytes := if alreadyLower s.length s then s else s.map lowerByte

/-- x509/verify.go:474-477: brackets around an IP address -/
def candidateIP (h : Bytes) : Bytes := if h.length ≥ 3 ∧ h.head? = some 0x5b ∧ h.getLast? = some 0x5d then (h.drop 1).dropLast else h

/-- x509/verify.go:472-503 `VerifyHostname` -/
def verifyHostname (E : Env) (c : Cert) (h : Bytes) : Option VErr :=
  match E.parseIP (candidateIP h) with
  | some ip => if c.ipAddresses.any (E.ipEqual ip) then none else some .hostname
  | none =>
    let lowered := toLowerCaseASCII h
    if c.hasSAN then
      if c.dnsNames.any (fun m => matchHostnames (toLowerCaseASCII m) lowered) then none else some .hostname
    else if matchHostnames (toLowerCaseASCII c.commonName) lowered then none else some .hostname

/-- x509/verify.go:311-313 (and 292-297: `system` is the system pool, `none` when it cannot be loaded): the roots used -/
def resolveRoots (o : Opts) (system : Option Pool) : Option Pool := if o.roots.isNone then system else o.roots

/-- x509/verify.go:311-318: the candidate chains (`none`: out of fuel) -/
def candidateChains (E : Env) (entrust : Bytes) (o : Opts) (roots : Pool) (c : Cert) : Option (Except VErr (List (List Cert))) :=
  if roots.contains c then some (.ok [[c]])
  else match buildChains E entrust o ((poolOrEmpty o.intermediates).certs.length + 1) c (fun _ => none) [c] with
    | none => none
    | some ((_, some e), _) => some (.error e)
    | some ((chains, none), _) => some (.ok chains)

/-- x509/verify.go:320-343: the filter by key usage -/
def filterUsages (keyUsages : List Int) (chains : List (List Cert)) : Except VErr (List (List Cert)) :=
  let usages := if keyUsages.length = 0 then [ekuServerAuth] else keyUsages
  if usages.contains ekuAny then .ok chains
  else
    let good := chains.filter (fun ch => checkChainForKeyUsage ch usages)
    if good.length = 0 then .error .incompatibleUsage else .ok good

/-- x509/verify.go:299-343 -/
def verifyWith (E : Env) (entrust : Bytes) (roots : Pool) (c : Cert) (o : Opts) : Option (Except VErr (List (List Cert))) :=
  match isValid E c .leaf [] o with
  | some e => some (.error e)
  | none =>
    match (if o.dnsName.length > 0 then verifyHostname E c o.dnsName else none) with
    | some e => some (.error e)
    | none =>
      match candidateChains E entrust o roots c with
      | none => none
      | some (.error e) => some (.error e)
      | some (.ok chains) => some (filterUsages o.keyUsages chains)

/-- x509/verify.go:273-344 `Verify` (not on Windows). The result is the chains, or the error; `none` only if the recursion ran out of fuel. -/
def verify (E : Env) (entrust : Bytes) (system : Option Pool) (c : Cert) (opts : Opts) : Option (Except VErr (List (List Cert))) :=
  if c.raw.length = 0 then some (.error .notParsed)
  else if (poolOrEmpty opts.intermediates).certs.any (fun i => i.raw.length == 0) then some (.error .notParsed)
  else match resolveRoots opts system with
    | none => some (.error .systemRoots)
    | some roots => verifyWith E entrust roots c { opts with roots := some roots }

end Verif.X509
