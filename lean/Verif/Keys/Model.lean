import Verif.Sm2.External
import Verif.Std.Cbc
/-!
Model of `x509/sec1.go`, `x509/pkcs8.go`, `x509/pem_decrypt.go`, `utils/keys.go` and the public-key
half of `x509/x509.go` (lines 40-145, 502-570, 1014-1042) for SM2 keys.
Standard-library primitives are parameters: the SM2 curve object (`Sm2.Curve`), AES (`Aes`), HMAC
(`hmac`), the PEM text codec (`Pem`), curve membership of `elliptic.Unmarshal`.
-/
namespace Verif.Keys
open Verif Verif.Sm2

/-! ## Object identifiers, bit strings, optional fields (encoding/asn1) -/

abbrev OID := List Nat

/-- base-128 digits, most significant first, of `n` (without continuation bits) -/
def base128 (n : Nat) : List Nat :=
  if _h : n < 128 then [n] else base128 (n / 128) ++ [n % 128]
termination_by n
decreasing_by exact Nat.div_lt_self (by omega) (by decide)

/-- `appendBase128Int` -/
def encBase128 (n : Nat) : Bytes :=
  let d := base128 n
  (d.dropLast.map fun x => BitVec.ofNat 8 (128 + x)) ++ [BitVec.ofNat 8 (n % 128)]

/-- `makeObjectIdentifier` (for identifiers with at least two arcs) -/
def encOID (o : OID) : Bytes :=
  match o with
  | a :: b :: rest => encBase128 (a * 40 + b) ++ rest.flatMap encBase128
  | _ => []

/-- `parseBase128Int`, Go 1.16: at most five bytes, value below 2^31. -/
def parseBase128 : Nat → Nat → Bytes → Option (Nat × Bytes)
  | _, _, [] => none
  | 0, _, _ => none
  | k+1, acc, b :: r =>
    let acc := acc * 128 + b.toNat % 128
    if b.toNat < 128 then (if acc < 2 ^ 31 then some (acc, r) else none) else parseBase128 k acc r

/-- the remaining arcs; `fuel` is the number of bytes -/
def parseArcs : Nat → Bytes → Option OID
  | _, [] => some []
  | 0, _ => none
  | f+1, b => do
    let (v, r) ← parseBase128 5 0 b
    let l ← parseArcs f r
    some (v :: l)

/-- `parseObjectIdentifier` -/
def parseOIDBody (b : Bytes) : Option OID :=
  if b = [] then none else do
  let (v, r) ← parseBase128 5 0 b
  let l ← parseArcs r.length r
  some (if v < 80 then v / 40 :: v % 40 :: l else 2 :: (v - 80) :: l)

/-- an OBJECT IDENTIFIER field -/
def parseOID (b : Bytes) : Option (OID × Bytes) := do
  let (c, r) ← Der.parseTLV 0x06 b
  let o ← parseOIDBody c
  some (o, r)

def encOIDTLV (o : OID) : Bytes := Der.encTLV 0x06 (encOID o)

/-- `parseBitString`: the data bytes (with `RightAlign`, which is the identity when no padding bits
are present; other paddings give `pad ≠ 0`). -/
def parseBitStringBody (b : Bytes) : Option (Bytes × Nat) :=
  match b with
  | [] => none
  | p :: t =>
    if 7 < p.toNat ∨ (t = [] ∧ 0 < p.toNat) ∨ (t.getLastD 0).toNat % 2 ^ p.toNat ≠ 0 then none
    else some (t, p.toNat)

/-- `BitString.RightAlign`: shift right by the number of padding bits. -/
def rightAlign (b : Bytes × Nat) : Bytes :=
  if b.2 = 0 ∨ b.1 = [] then b.1 else beFixed b.1.length (beNat b.1 / 2 ^ b.2)

/-- a `RawValue` tagged optional: `FullBytes` of one element, or empty at the end -/
def parseRaw (b : Bytes) : Option (Bytes × Bytes) :=
  if b = [] then some ([], []) else
  match Der.parseHdr b with
  | none => none
  | some (_, n, r) =>
    if r.length < n then none else some (b.take (b.length - r.length + n), r.drop n)

/-- `optional,explicit,tag:k` around a primitive with identifier `inner`: `none` when absent. -/
def parseExplicit (outer inner : Byte) (b : Bytes) : Option (Option Bytes × Bytes) :=
  if b = [] then some (none, []) else
  match Der.parseHdr b with
  | none => none
  | some (id, n, r) =>
    if r = [] then none
    else if id = outer ∨ (id = (outer &&& 0xdf) ∧ n = 0) then
      if n = 0 then none else
      match Der.parseHdr r with
      | none => none
      | some (id', m, r') =>
        if id' ≠ inner then some (none, b)
        else if r'.length < m then none
        else some (some (r'.take m), r'.drop m)
    else some (none, b)

/-! ## Curves and keys -/

/-- x509/x509.go:530-536 -/
inductive Named where
  | sm2
  | p224
  | p256
  | p384
  | p521
deriving DecidableEq, Repr

def oidSM2 : OID := [1, 2, 156, 10197, 1, 301]
def oidP224 : OID := [1, 3, 132, 0, 33]
def oidP256 : OID := [1, 2, 840, 10045, 3, 1, 7]
def oidP384 : OID := [1, 3, 132, 0, 34]
def oidP521 : OID := [1, 3, 132, 0, 35]
/-- x509/x509.go:496-499; `oidPublicKeySM2` is the same identifier. -/
def oidECDSA : OID := [1, 2, 840, 10045, 2, 1]
def oidRSA : OID := [1, 2, 840, 113549, 1, 1, 1]

/-- x509/x509.go:538-552 `namedCurveFromOID` -/
def namedCurveFromOID (o : OID) : Option Named :=
  if o = oidSM2 then some .sm2
  else if o = oidP224 then some .p224
  else if o = oidP256 then some .p256
  else if o = oidP384 then some .p384
  else if o = oidP521 then some .p521
  else none

/-- A parsed private key: an SM2 key, an ECDSA key on a NIST curve (scalar only), or an RSA key
(contents not modelled). -/
inductive ParsedKey (c : Curve) where
  | sm2 (k : PrivateKey c)
  | ecdsa (cv : Named) (d : Nat)
  | rsa

/-- The fixed-width scalar: `make([]byte, 32)` and `copy(padded[32-len(D.Bytes()):], D.Bytes())`
(x509/sec1.go:60-61, utils/keys.go:50-52, 91-93); a longer scalar makes the slice bound negative: panic. -/
def padScalar (d : Int) : Res Bytes :=
  let b := natBytes d.natAbs
  if 32 < b.length then .panic else .ok (copyAt (List.replicate 32 0) (32 - b.length) b)

/-- `elliptic.Marshal(curve, x, y)`: `FillBytes` panics on a coordinate of more than 32 bytes. -/
def marshalPoint (x y : Nat) : Res Bytes :=
  if 2 ^ 256 ≤ x ∨ 2 ^ 256 ≤ y then .panic else .ok ([4] ++ beFixed 32 x ++ beFixed 32 y)

/-- The DER of `ecPrivateKey{1, padded, oid, BitString{Bytes: point}}` (x509/sec1.go:63-68, utils/keys.go:54-59,
94-99; `BitLength` is left 0, so the padding count written is 0). -/
def ecPrivateKeyDer (padded point : Bytes) : Bytes :=
  Der.encSeq [Der.encInt 1, Der.encOctets padded, Der.encTLV 0xa0 (encOIDTLV oidSM2),
    Der.encTLV 0xa1 (Der.encTLV 0x03 (0 :: point))]

/-- x509/sec1.go:37-69 `MarshalECPrivateKey` for an SM2 key. -/
def marshalECPrivateKey {c : Curve} (k : PrivateKey c) : Res Bytes := do
  let padded ← padScalar k.d
  let point ← marshalPoint k.x k.y
  .ok (ecPrivateKeyDer padded point)

/-- the decoded `ecPrivateKey` struct (x509/sec1.go:25-30): version, key octets, OID if present. -/
structure EcRaw where
  version : Int
  key : Bytes
  oid : Option OID

/-- `asn1.Unmarshal(der, &privKey)`, x509/sec1.go:77. The public key bit string is parsed and ignored. -/
def parseEcRaw (der : Bytes) : Option EcRaw := do
  let (s, _) ← Der.parseSeq der
  let (v, s) ← Der.parseInt64 s
  let (k, s) ← Der.parseOctets s
  let (o, s) ← parseExplicit 0xa0 0x06 s
  let oid ← match o with
    | none => some none
    | some b => (parseOIDBody b).map some
  let (p, _) ← parseExplicit 0xa1 0x03 s
  match p with
    | none => some ()
    | some b => (parseBitStringBody b).map fun _ => ()
  some { version := v, key := k, oid := oid }

/-- x509/sec1.go:116-121: strip leading bytes while longer than 32; a nonzero one is an error. -/
def stripTo32 : Bytes → Option Bytes
  | [] => some []
  | x :: t => if 32 < (x :: t).length then (if x ≠ 0 then none else stripTo32 t) else some (x :: t)

/-- x509/sec1.go:76-162 `parseECPrivateKey`; `order cv` is `Params().N` of a NIST curve. -/
def parseECPrivateKey (c : Curve) (order : Named → Nat) (curveOID : Option OID) (der : Bytes) :
    Res (ParsedKey c) :=
  match parseEcRaw der with
  | none => .err "x509: failed to parse EC private key"
  | some raw =>
    if raw.version ≠ 1 then .err "x509: unknown EC private key version"
    else
      -- a missing OID is the nil identifier, equal to no curve's
      let oid := match curveOID with
        | some o => o
        | none => raw.oid.getD []
      match namedCurveFromOID oid with
      | none => .err "x509: unknown elliptic curve"
      | some .sm2 =>
        let k := beNat raw.key
        if N ≤ k then .err "x509: invalid elliptic curve private key value"
        else match stripTo32 raw.key with
          | none => .err "x509: invalid private key length"
          | some b =>
            let padded := copyAt (List.replicate 32 0) (32 - b.length) b
            let q := c.scalarBaseMult padded
            .ok (.sm2 { x := q.1, y := q.2, pre := none, d := k, dInv := none })
      | some cv =>
        let k := beNat raw.key
        if order cv ≤ k then .err "x509: invalid elliptic curve private key value"
        else .ok (.ecdsa cv k)

/-- x509/sec1.go:33-35 `ParseECPrivateKey`. -/
def parseECPrivateKeyDer (c : Curve) (order : Named → Nat) (der : Bytes) : Res (ParsedKey c) :=
  parseECPrivateKey c order none der

/-- The `FullBytes` literal of utils/keys.go:71, 113. -/
def sm2ParamBytes : Bytes := [6, 8, 42, 129, 28, 207, 85, 1, 130, 45]

/-- utils/keys.go:64-76, 105-116: the PKCS#8 wrapping. -/
def pkcs8Der (ec : Bytes) : Bytes :=
  Der.encSeq [Der.encInt 0, Der.encSeq [encOIDTLV oidECDSA, sm2ParamBytes], Der.encOctets ec]

/-- `pkix.AlgorithmIdentifier`: OID and raw parameters. -/
def parseAlgId (b : Bytes) : Option ((OID × Bytes) × Bytes) := do
  let (s, r) ← Der.parseSeq b
  let (o, s) ← parseOID s
  let (p, _) ← parseRaw s
  some ((o, p), r)

/-- x509/pkcs8.go:26-55 `ParsePKCS8PrivateKey` (RSA keys: contents not modelled). -/
def parsePKCS8 (c : Curve) (order : Named → Nat) (der : Bytes) : Res (ParsedKey c) :=
  match (do
    let (s, _) ← Der.parseSeq der
    let (_, s) ← Der.parseInt64 s
    let (a, s) ← parseAlgId s
    let (k, _) ← Der.parseOctets s
    some (a, k)) with
  | none => .err "asn1"
  | some ((alg, params), key) =>
    if alg = oidRSA then .ok .rsa
    else if alg = oidECDSA then
      let curveOID := (parseOID params).map (·.1)
      match parseECPrivateKey c order curveOID key with
      | .ok k => .ok k
      | .err e => .err ("x509: failed to parse EC private key embedded in PKCS#8: " ++ e)
      | .panic => .panic
    else .err "x509: PKCS#8 wrapping contained private key with unknown algorithm"

/-- x509/x509.go:74-88, 123-143 `MarshalPKIXPublicKey` for an SM2 key. -/
def marshalPKIX {c : Curve} (k : PublicKey c) : Res Bytes := do
  let point ← marshalPoint k.x k.y
  .ok (Der.encSeq [Der.encSeq [encOIDTLV oidECDSA, encOIDTLV oidSM2], Der.encTLV 0x03 (0 :: point)])

/-- `elliptic.Unmarshal`: 65 bytes, leading 4, coordinates below `p`, on the curve. -/
def unmarshalPoint (b : Bytes) : Option (Nat × Nat) :=
  if b.length ≠ 65 then none
  else if b.headD 0 ≠ 4 then none
  else
    let x := beNat ((b.drop 1).take 32)
    let y := beNat (b.drop 33)
    if P ≤ x ∨ P ≤ y then none
    else if (y * y) % P ≠ (x * x * x + A * x + B) % P then none
    else some (x, y)

/-- outcome of `ParsePKIXPublicKey`: an SM2 key or something else -/
inductive ParsedPub (c : Curve) where
  | sm2 (k : PublicKey c)
  | other

/-- x509/x509.go:55-72 and the SM2 case of `parsePublicKey` (1016-1041). The other algorithms are not
modelled (`other`). -/
def parsePKIX (c : Curve) (der : Bytes) : Res (ParsedPub c) :=
  match (do
    let (s, rest) ← Der.parseSeq der
    let (a, s) ← parseAlgId s
    let (bits, _) ← Der.parseTLV 0x03 s
    let bs ← parseBitStringBody bits
    some (a, bs, rest)) with
  | none => .err "asn1"
  | some ((alg, params), bs, rest) =>
    if rest ≠ [] then .err "x509: trailing data after ASN.1 of public-key"
    else if alg = oidECDSA ∧ params = encOIDTLV oidSM2 then
      match unmarshalPoint (rightAlign bs) with
      | none => .err "x509: failed to unmarshal elliptic curve point"
      | some (x, y) => .ok (.sm2 { x := x, y := y, pre := none })
    else .ok .other

/-! ## Password-based encryption (x509/pem_decrypt.go) -/

/-- AES with a 32-byte key (crypto/aes) -/
structure Aes where
  enc : Bytes → Bytes → Bytes
  dec : Bytes → Bytes → Bytes
  enc_len : ∀ k b, b.length = 16 → (enc k b).length = 16
  dec_len : ∀ k b, b.length = 16 → (dec k b).length = 16
  dec_enc : ∀ k b, b.length = 16 → dec k (enc k b) = b

inductive HashAlg where
  | md5
  | sha1
  | sha256
  | sha512
deriving DecidableEq, Repr

def HashAlg.size : HashAlg → Nat
  | .md5 => 16
  | .sha1 => 20
  | .sha256 => 32
  | .sha512 => 64

/-- HMAC (crypto/hmac) -/
structure Hmac where
  mac : HashAlg → Bytes → Bytes → Bytes
  len : ∀ h k m, (mac h k m).length = h.size

/-- inner loop of `pbkdf`, x509/pem_decrypt.go:371-379: `k` remaining iterations, state (T, U). -/
def pbkdfInner (prf : Bytes → Bytes) : Nat → Bytes → Bytes → Bytes
  | 0, T, _ => T
  | k+1, T, U =>
    let U := prf U
    pbkdfInner prf k (List.zipWith (· ^^^ ·) T U) U

/-- outer loop, x509/pem_decrypt.go:355-380: `k` remaining blocks, `block` the counter. -/
def pbkdfOuter (prf : Bytes → Bytes) (salt : Bytes) (iter : Int) : Nat → Nat → Bytes → Bytes
  | 0, _, dk => dk
  | k+1, block, dk =>
    let buf : Bytes := [BitVec.ofNat 8 (block >>> 24), BitVec.ofNat 8 (block >>> 16),
      BitVec.ofNat 8 (block >>> 8), BitVec.ofNat 8 block]
    let u := prf (salt ++ buf)
    pbkdfOuter prf salt iter k (block + 1) (dk ++ pbkdfInner prf (iter - 1).toNat u u)

/-- x509/pem_decrypt.go:346-382 `pbkdf`. -/
def pbkdf (hm : Hmac) (password salt : Bytes) (iter : Int) (keyLen : Nat) (h : HashAlg) : Bytes :=
  let numBlocks := (keyLen + h.size - 1) / h.size
  (pbkdfOuter (hm.mac h password) salt iter numBlocks 1 []).take keyLen

def oidPBES2 : OID := [1, 2, 840, 113549, 1, 5, 13]
def oidPBKDF2 : OID := [1, 2, 840, 113549, 1, 5, 12]
def oidKEYMD5 : OID := [1, 2, 840, 113549, 2, 5]
def oidKEYSHA1 : OID := [1, 2, 840, 113549, 2, 7]
def oidKEYSHA256 : OID := [1, 2, 840, 113549, 2, 9]
def oidKEYSHA512 : OID := [1, 2, 840, 113549, 2, 11]
def oidAES128 : OID := [2, 16, 840, 1, 101, 3, 4, 1, 2]
def oidAES256 : OID := [2, 16, 840, 1, 101, 3, 4, 1, 42]

/-- `EncryptedPrivateKeyInfo`, x509/pem_decrypt.go:69-103, flattened. -/
structure EncInfo where
  pbes : OID
  kdf : OID
  salt : Bytes
  iter : Int
  prf : OID
  prfParams : Bytes
  encAlgo : OID
  iv : Bytes
  data : Bytes
deriving DecidableEq

/-- `asn1.Marshal(encryptedPkey)` -/
def marshalInfo (i : EncInfo) : Bytes :=
  Der.encSeq [
    Der.encSeq [encOIDTLV i.pbes,
      Der.encSeq [
        Der.encSeq [encOIDTLV i.kdf,
          Der.encSeq [Der.encOctets i.salt, Der.encInt i.iter, Der.encSeq [encOIDTLV i.prf, i.prfParams]]],
        Der.encSeq [encOIDTLV i.encAlgo, Der.encOctets i.iv]]],
    Der.encOctets i.data]

/-- `asn1.Unmarshal(b.Bytes, &keyInfo)` -/
def unmarshalInfo (b : Bytes) : Option EncInfo := do
  let (s, _) ← Der.parseSeq b
  let (alg, s) ← Der.parseSeq s
  let (data, _) ← Der.parseOctets s
  let (pbes, alg) ← parseOID alg
  let (params, _) ← Der.parseSeq alg
  let (kdfS, params) ← Der.parseSeq params
  let (encS, _) ← Der.parseSeq params
  let (kdf, kdfS) ← parseOID kdfS
  let (kp, _) ← Der.parseSeq kdfS
  let (salt, kp) ← Der.parseOctets kp
  let (iter, kp) ← Der.parseInt64 kp
  let (prf, _) ← parseAlgId kp
  let (ea, encS) ← parseOID encS
  let (iv, _) ← Der.parseOctets encS
  some { pbes := pbes, kdf := kdf, salt := salt, iter := iter, prf := prf.1, prfParams := prf.2,
         encAlgo := ea, iv := iv, data := data }

/-- x509/pem_decrypt.go:30-40, 109-139: the ciphers and their names. -/
inductive PemCipher where
  | des
  | tdes
  | aes128
  | aes192
  | aes256
deriving DecidableEq, Repr

def PemCipher.name : PemCipher → String
  | .des => "DES-CBC"
  | .tdes => "DES-EDE3-CBC"
  | .aes128 => "AES-128-CBC"
  | .aes192 => "AES-192-CBC"
  | .aes256 => "AES-256-CBC"

/-- `pem.Block` -/
structure Block where
  type : String
  headers : List (String × String)
  bytes : Bytes

/-- the PKCS#7 style padding of x509/pem_decrypt.go:268-275 -/
def pemPad (data : Bytes) : Bytes :=
  let padding := 16 - data.length % 16
  data ++ List.replicate padding (BitVec.ofNat 8 padding)

/-- the unpadding of x509/pem_decrypt.go:234-245; the empty slice panics on `[dataLen-1]`. -/
def pemUnpad (d : Bytes) : Res Bytes :=
  match d.getLast? with
  | none => .panic
  | some l =>
    if d.length ≤ l.toNat then .err "padding info incorrect"
    else if (d.drop (d.length - l.toNat)).all (fun b => b == l) then .ok (d.take (d.length - l.toNat))
    else .err "padding info incorrect"

/-- x509/pem_decrypt.go:209-225: hash choice -/
def hashOf (o : OID) : Option HashAlg :=
  if o = oidKEYMD5 then some .md5
  else if o = oidKEYSHA1 then some .sha1
  else if o = oidKEYSHA256 then some .sha256
  else if o = oidKEYSHA512 then some .sha512
  else none

/-- x509/pem_decrypt.go:185-246 `DecryptPEMBlock` (only `b.Bytes` is used). `NewCBCDecrypter` panics when
the IV is not one block, `CryptBlocks` when the data is not a multiple of the block size. -/
def decryptPEMBlock (aes : Aes) (hm : Hmac) (bytes password : Bytes) : Res Bytes :=
  match unmarshalInfo bytes with
  | none => .err "x509: unknown format"
  | some i =>
    if i.pbes ≠ oidPBES2 then .err "x509: only support PBES2"
    else if i.kdf ≠ oidPBKDF2 then .err "x509: only support PBKDF2"
    else if i.encAlgo ≠ oidAES128 ∧ i.encAlgo ≠ oidAES256 then .err "x509: unknow encryption algorithm"
    else match hashOf i.prf with
      | none => .err "x509: unknown hash algorithm"
      | some h =>
        let key := pbkdf hm password i.salt i.iter 32 h
        if i.iv.length ≠ 16 then .panic
        else if i.data.length % 16 ≠ 0 then .panic
        else pemUnpad (Std.cbcDec (aes.dec key) 16 (i.data.length / 16) i.iv i.data).1

/-- `hex.EncodeToString` -/
def hexDigit (n : Nat) : Char := if n < 10 then Char.ofNat (48 + n) else Char.ofNat (87 + n)
def hex (b : Bytes) : String :=
  String.ofList (b.flatMap fun x => [hexDigit (x.toNat / 16), hexDigit (x.toNat % 16)])

/-- x509/pem_decrypt.go:251-324 `EncryptPEMBlock`; the random source supplies 8 and then 16 bytes
(`rand.Read`; short reads are not modelled). `alg = none` is a value outside the constants. -/
def encryptPEMBlock (aes : Aes) (hm : Hmac) (rand : Bytes) (type : String)
    (data password : Bytes) (alg : Option PemCipher) : Res Block :=
  match alg with
  | none => .err "x509: unknown encryption mode"
  | some a =>
    if rand.length < 24 then .err "rand" else
    let salt := rand.take 8
    let iv := (rand.drop 8).take 16
    let key := pbkdf hm password salt 2048 32 .sha1
    let padded := pemPad data
    let enc := (Std.cbcEnc (aes.enc key) 16 (padded.length / 16) iv padded).1
    .ok { type := type,
          headers := [("Proc-Type", "4,ENCRYPTED"), ("DEK-Info", a.name ++ "," ++ hex iv)],
          bytes := marshalInfo
            { pbes := oidPBES2, kdf := oidPBKDF2, salt := salt, iter := 2048,
              prf := oidKEYSHA1, prfParams := [5, 0], encAlgo := oidAES256, iv := iv, data := enc } }

/-- x509/pem_decrypt.go:169-172 `IsEncryptedPEMBlock` -/
def isEncrypted (b : Block) : Bool := b.headers.any (fun h => h.1 == "DEK-Info")

/-! ## utils/keys.go -/

/-- the blocks this package writes -/
def Plain (b : Block) : Prop :=
  b.type ∈ ["PRIVATE KEY", "ENCRYPTED PRIVATE KEY", "PUBLIC KEY"] ∧
    (b.headers = [] ∨ ∃ (a : PemCipher) (iv : Bytes),
      b.headers = [("Proc-Type", "4,ENCRYPTED"), ("DEK-Info", a.name ++ "," ++ hex iv)])

/-- `encoding/pem`: text encoding of a block and its decoder. The round trip is assumed only for
blocks of the shapes written here. -/
structure Pem where
  encode : Block → Bytes
  decode : Bytes → Option Block
  decode_encode : ∀ b, Plain b → decode (encode b) = some b
  nonempty : ∀ b, encode b ≠ []

structure Env where
  aes : Aes
  hm : Hmac
  pem : Pem
  order : Named → Nat

/-- the PKCS#8 DER both writers build -/
def pkcs8Of {c : Curve} (k : PrivateKey c) : Res Bytes := do
  let ec ← marshalECPrivateKey k
  .ok (pkcs8Der ec)

/-- utils/keys.go:86-130 `PrivateKeyToEncryptedPEM` -/
def privateKeyToEncryptedPEM {c : Curve} (e : Env) (rand : Bytes) (k : PrivateKey c) (pwd : Bytes) : Res Bytes := do
  let der ← pkcs8Of k
  let b ← encryptPEMBlock e.aes e.hm rand "ENCRYPTED PRIVATE KEY" der pwd (some .aes256)
  .ok (e.pem.encode b)

/-- utils/keys.go:42-84 `PrivateKeyToPEM` (`pwd = none` and the empty password behave alike) -/
def privateKeyToPEM {c : Curve} (e : Env) (rand : Bytes) (k : PrivateKey c) (pwd : Bytes) : Res Bytes :=
  if pwd.length ≠ 0 then privateKeyToEncryptedPEM e rand k pwd
  else do
    let der ← pkcs8Of k
    .ok (e.pem.encode { type := "PRIVATE KEY", headers := [], bytes := der })

/-- `key.(*sm2.PrivateKey)` -/
def asSm2 {c : Curve} : Res (ParsedKey c) → Res (PrivateKey c)
  | .ok (.sm2 k) => .ok k
  | .ok _ => .err "key type error"
  | .err e => .err e
  | .panic => .panic

/-- utils/keys.go:131-172 `PEMtoPrivateKey` -/
def pemToPrivateKey (c : Curve) (e : Env) (raw pwd : Bytes) : Res (PrivateKey c) :=
  if raw.length = 0 then .err "invalid PEM. It must be different from nil"
  else match e.pem.decode raw with
    | none => .err "failed decoding PEM"
    | some b =>
      if isEncrypted b || b.type == "ENCRYPTED PRIVATE KEY" then
        if pwd.length = 0 then .err "encrypted Key. Need a password"
        else match decryptPEMBlock e.aes e.hm b.bytes pwd with
          | .panic => .panic
          | .err _ => .err "failed PEM decryption"
          | .ok der => asSm2 (parsePKCS8 c e.order der)
      else asSm2 (parsePKCS8 c e.order b.bytes)

/-- utils/keys.go:198-221 `PublicKeyToEncryptedPEM` -/
def publicKeyToEncryptedPEM {c : Curve} (e : Env) (rand : Bytes) (k : PublicKey c) (pwd : Bytes) : Res Bytes :=
  if pwd.length = 0 then .err "invalid password. It must be different from nil"
  else do
    let der ← marshalPKIX k
    let b ← encryptPEMBlock e.aes e.hm rand "PUBLIC KEY" der pwd (some .aes256)
    .ok (e.pem.encode b)

/-- utils/keys.go:175-195 `PublicKeyToPEM` -/
def publicKeyToPEM {c : Curve} (e : Env) (rand : Bytes) (k : PublicKey c) (pwd : Bytes) : Res Bytes :=
  if pwd.length ≠ 0 then publicKeyToEncryptedPEM e rand k pwd
  else do
    let der ← marshalPKIX k
    .ok (e.pem.encode { type := "PUBLIC KEY", headers := [], bytes := der })

/-- utils/keys.go:232-266 `PEMtoPublicKey` -/
def pemToPublicKey (c : Curve) (e : Env) (raw pwd : Bytes) : Res (PublicKey c) :=
  let conv : Res (ParsedPub c) → Res (PublicKey c) := fun r => match r with
    | .ok (.sm2 k) => .ok k
    | .ok .other => .err "invalid public key format"
    | .err e => .err e
    | .panic => .panic
  if raw.length = 0 then .err "invalid PEM. It must be different from nil"
  else match e.pem.decode raw with
    | none => .err "failed decoding"
    | some b =>
      if isEncrypted b then
        if pwd.length = 0 then .err "encrypted Key. Password must be different from nil"
        else match decryptPEMBlock e.aes e.hm b.bytes pwd with
          | .panic => .panic
          | .err _ => .err "failed PEM decryption."
          | .ok der => conv (parsePKIX c der)
      else conv (parsePKIX c b.bytes)

end Verif.Keys
