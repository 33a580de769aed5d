import Verif.Sm2.Model
import Verif.Asn1.Der
/-!
Model of `sm2/external.go` and of the ASN.1 half of `sm2/sm2enc.go`.
-/
namespace Verif.Sm2
open Verif

/-- `asn1.Marshal` of a struct of two `*big.Int` (`sm2Signature`, `Sm2PublicKey`, sm2/external.go:19-26). -/
def marshalPair (r s : Int) : Bytes := Der.encSeq [Der.encInt r, Der.encInt s]

/-- `asn1.Unmarshal` into such a struct; the `rest` result is dropped by every caller
(sm2/external.go:38, 65, 92, 97). -/
def unmarshalPair (b : Bytes) : Option (Int × Int) := do
  let (c, _) ← Der.parseSeq b
  let (r, c) ← Der.parseInt c
  let (s, _) ← Der.parseInt c
  some (r, s)

/-- `asn1.Marshal(Sm2PrivateKey{D})`, sm2/external.go:15-17. -/
def marshalOne (d : Int) : Bytes := Der.encSeq [Der.encInt d]

/-- `asn1.Unmarshal(sk, &sm2SK)`, sm2/external.go:60. -/
def unmarshalOne (b : Bytes) : Option Int := do
  let (c, _) ← Der.parseSeq b
  let (d, _) ← Der.parseInt c
  some d

/-- sm2/external.go:28-34 `(*PrivateKey).Sign`. -/
def privSign (c : Curve) (rand : Bytes) (priv : PrivateKey c) (msg : Bytes) : Res Bytes := do
  let (r, s) ← sign c rand priv msg
  .ok (marshalPair r s)

/-- sm2/external.go:36-43 `(*PublicKey).Verify`. -/
def pubVerify (c : Curve) (pub : PublicKey c) (msg sig : Bytes) : Res Bool :=
  match unmarshalPair sig with
  | none => .ok false
  | some (r, s) => verify c pub msg r s

/-- sm2/external.go:45-57 `Sm2KeyGen`: the error of `GenerateKey` is dropped and the nil key dereferenced. -/
def sm2KeyGen (c : Curve) (rand : Bytes) : Res (Bytes × Bytes) :=
  match generateKey c rand with
  | .ok priv => .ok (marshalOne priv.d, marshalPair priv.x priv.y)
  | _ => .panic

/-- sm2/external.go:59-83 `Sm2Sign` (`rand.Reader` is the argument `rand`; `X.Bytes()` is the absolute
value; no table and no cached inverse). -/
def sm2Sign (c : Curve) (rand sk pk msg : Bytes) : Res Bytes :=
  match unmarshalOne sk with
  | none => .err "asn1"
  | some d =>
    match unmarshalPair pk with
    | none => .err "asn1"
    | some (x, y) =>
      privSign c rand { x := x.natAbs, y := y.natAbs, pre := none, d := d, dInv := none } msg

/-- What `ScalarMult` does with a coordinate on amd64 (sm2/sm2p256_amd64.go:193-202, 222-227, 322-323):
`maybeReduceModP` leaves a negative number alone and `fromBig` writes its words into a four-word
slice, so a negative number of more than 256 bits is an index-out-of-range panic. -/
def coordPanics (x : Int) : Bool := decide (x < 0 ∧ 2 ^ 256 ≤ x.natAbs)

/-- sm2/external.go:85-106 `Sm2Verify`. The signature is parsed twice. The key has no table, so `Verify`
calls `ScalarMult` on the parsed coordinates once the range checks have passed. (For a negative
coordinate of at most 256 bits the words of the absolute value are used: `natAbs`; a non-negative
one is reduced modulo `p` by `ScalarMult` itself.) -/
def sm2Verify (c : Curve) (sig pk msg : Bytes) : Res Bool :=
  match unmarshalPair sig with
  | none => .ok false
  | some (r, s) =>
    match unmarshalPair pk with
    | none => .ok false
    | some (x, y) =>
      if r ≤ 0 ∨ s ≤ 0 ∨ (N : Int) ≤ r ∨ (N : Int) ≤ s then .ok false
      else if coordPanics x || coordPanics y then .panic
      else pubVerify c { x := x.natAbs, y := y.natAbs, pre := none } msg sig

/-- `asn1.Marshal(sm2Cipher{x, y, c3, c2})`, sm2/sm2enc.go:24-29, 246-248. -/
def marshalCipher (p : EncParts) : Bytes :=
  Der.encSeq [Der.encInt p.x1, Der.encInt p.y1, Der.encOctets p.c3, Der.encOctets p.c2]

/-- `asn1.Unmarshal(cipher, &C)`, sm2/sm2enc.go:252-257: X, Y, HASH, CipherText. -/
def unmarshalCipher (b : Bytes) : Option (Int × Int × Bytes × Bytes) := do
  let (c, _) ← Der.parseSeq b
  let (x, c) ← Der.parseInt c
  let (y, c) ← Der.parseInt c
  let (h, c) ← Der.parseOctets c
  let (ct, _) ← Der.parseOctets c
  some (x, y, h, ct)

/-- sm2/sm2enc.go:225-234 `EncryptAsn1`. -/
def encryptAsn1 (c : Curve) (rand : Bytes) (key : PublicKey c) (msg : Bytes) : Option (Res Bytes) :=
  (doEncrypt c rand key msg).map fun r => do
    let p ← r
    .ok (marshalCipher p)

/-- sm2/sm2enc.go:251-295 `DecryptAsn1`. -/
def decryptAsn1 {c : Curve} (key : PrivateKey c) (ct : Bytes) : Res Bytes :=
  match unmarshalCipher ct with
  | none => .err "asn1"
  | some (x, y, h, c2) =>
    if coordPanics x || coordPanics y then .panic
    else decryptParts key x.natAbs y.natAbs c2 h (c2.length * 8)

end Verif.Sm2
