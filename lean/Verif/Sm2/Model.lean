import Verif.Go
import Verif.Sm3.Model
import Verif.Sm2.Params
import Mathlib.Data.ZMod.Basic
/-!
Model of `sm2/sm2.go` and `sm2/sm2enc.go`.

The curve object (`elliptic.Curve`, with the optional fast methods of `optMethod`) is a parameter
`Curve`: a record of functions on coordinate pairs and byte strings, exactly the Go interface.
What those functions compute is a separate hypothesis (`Lawful`, in `Sm2/Spec.lean`), discharged
for the amd64 Go code in `Sm2/Amd64*.lean`.  Go's `*big.Int` is `Int` (or `Nat` where the code only
produces non-negative values).
-/
namespace Verif.Sm2
open Verif

/-- Affine coordinates as two `*big.Int`. -/
abbrev Coord := Nat × Nat

/-- `optMethod`, sm2/sm2.go:32-39. `T` is the type of precomputed tables (`*[37][64*8]uint64`). -/
structure Opt (T : Type) where
  combinedMult : T → Bytes → Bytes → Coord
  initPubKeyTable : Nat → Nat → T
  preScalarMult : T → Bytes → Coord

/-- The `elliptic.Curve` methods the package calls (sm2.go, sm2enc.go): `ScalarBaseMult`,
`ScalarMult`, `Add`, and `optMethod` when the dynamic type has it (amd64 yes, arm64 no). The
parameters `N`, `BitSize` etc. are the constants of `Sm2/Params.lean`. -/
structure Curve where
  T : Type
  scalarBaseMult : Bytes → Coord
  scalarMult : Nat → Nat → Bytes → Coord
  add : Coord → Coord → Coord
  opt : Option (Opt T)

/-- `PublicKey`, sm2/sm2.go:17-21 (the curve is passed separately). -/
structure PublicKey (c : Curve) where
  x : Nat
  y : Nat
  pre : Option c.T

/-- `PrivateKey`, sm2/sm2.go:23-27. `D`, `DInv` are big integers (decoded keys may hold any integer). -/
structure PrivateKey (c : Curve) extends PublicKey c where
  d : Int
  dInv : Option Int

/-- `io.ReadFull` on a source that delivers the bytes `rand` and then fails: the bytes read and the
remaining source, or an error. -/
def readFull (rand : Bytes) (k : Nat) : Option (Bytes × Bytes) :=
  if k ≤ rand.length then some (rand.take k, rand.drop k) else none

/-- `params.BitSize/8+8`, sm2/sm2.go:50, 84. -/
def nonceBytes : Nat := 256 / 8 + 8

/-- sm2/sm2.go:48-60 `randFieldElement`. -/
def randFieldElement (rand : Bytes) : Res Nat :=
  match readFull rand nonceBytes with
  | none => .err "read"
  | some (b, _) => .ok (beNat b % (N - 1) + 1)

/-- sm2/sm2.go:82-94 `_generateRandK`: the error is swallowed, the result is then a nil pointer. -/
def generateRandK (rand : Bytes) : Option Nat :=
  match readFull rand nonceBytes with
  | none => none
  | some (b, _) => some (beNat b % (N - 1) + 1)

/-- `z.ModInverse(g, n)` with `z` aliasing `g` (sm2/sm2.go:72-74, 163-164): the inverse in `[0,n)` if
`gcd(g,n)=1`, otherwise `z` is left unchanged (documented in math/big). -/
def modInverse (g : Int) : Int :=
  if Int.gcd g N = 1 then (((g : ZMod N)⁻¹).val : Int) else g

/-- sm2/sm2.go:62-80 `GenerateKey`. -/
def generateKey (c : Curve) (rand : Bytes) : Res (PrivateKey c) := do
  let k ← randFieldElement rand
  let dInv := modInverse ((k : Int) + 1)
  let q := c.scalarBaseMult (natBytes k)
  let pre := c.opt.map (fun o => o.initPubKeyTable q.1 q.2)
  .ok { x := q.1, y := q.2, pre := pre, d := k, dInv := some dInv }

/-- Left padding of a coordinate to 32 bytes, `sm2/sm2.go:103-115` (longer values are left alone). -/
def padCoord (v : Nat) : Bytes :=
  let buf := natBytes v
  if buf.length < 32 then (List.replicate 32 0).take (32 - buf.length) ++ buf else buf

/-- The byte string hashed by `getZById`, sm2/sm2.go:96-125. -/
def zPreimage (x y : Nat) (id : Bytes) : Bytes :=
  let lena : BitVec 16 := BitVec.ofNat 16 (id.length * 8)
  let entl : Bytes := [(lena >>> 8).setWidth 8, lena.setWidth 8]
  entl ++ id ++ natBytes A ++ natBytes B ++ natBytes Gx ++ natBytes Gy ++ padCoord x ++ padCoord y

/-- sm2/sm2.go:96-129 `getZById`. -/
def getZById (x y : Nat) (id : Bytes) : Res Bytes := Sm3.sumSM3 (zPreimage x y id)

/-- `[]byte("1234567812345678")`, sm2/sm2.go:133. -/
def defaultId : Bytes :=
  [0x31, 0x32, 0x33, 0x34, 0x35, 0x36, 0x37, 0x38, 0x31, 0x32, 0x33, 0x34, 0x35, 0x36, 0x37, 0x38]

/-- sm2/sm2.go:132-134 `getZ`. -/
def getZ (x y : Nat) : Res Bytes := getZById x y defaultId

/-- The message digest: sm2/sm2.go:142-147 (Sign) and 223-229 (Verify). -/
def msgDigest (x y : Nat) (msg : Bytes) : Res Bytes := do
  let z ← getZ x y
  let m := List.replicate (32 + msg.length) (0 : Byte)
  let m := copyAt m 0 z
  let m := copyAt m 32 msg
  Sm3.sumSM3 m

/-- sm2/sm2.go:161-167: the cached or recomputed `(1+d)^-1`. -/
def signInv {c : Curve} (priv : PrivateKey c) : Int :=
  match priv.dInv with
  | none => modInverse (1 + priv.d)
  | some v => v

/-- sm2/sm2.go:136-173 `Sign`. -/
def sign (c : Curve) (rand : Bytes) (priv : PrivateKey c) (msg : Bytes) : Res (Int × Int) := do
  let hash ← msgDigest priv.x priv.y msg
  let e : Int := beNat hash
  match generateRandK rand with
  | none => .panic -- k.Bytes() on a nil *big.Int
  | some k =>
    let x1 := (c.scalarBaseMult (natBytes k)).1
    let r : Int := (e + x1) % N
    let s1 : Int := k - r * priv.d
    let s : Int := (s1 * signInv priv) % N
    .ok (r, s)

/-- sm2/sm2.go:175-208 `SignWithDigest`. -/
def signWithDigest (c : Curve) (rand : Bytes) (priv : PrivateKey c) (digest : Bytes) :
    Res (Int × Int) :=
  let e : Int := beNat digest
  match generateRandK rand with
  | none => .panic
  | some k =>
    let x1 := (c.scalarBaseMult (natBytes k)).1
    let r : Int := (e + x1) % N
    let s1 : Int := (r * priv.d) % N
    let s1 : Int := (k - s1) % N
    let s : Int := (s1 * signInv priv) % N
    .ok (r, s)

/-- sm2/sm2.go:234-242, 267-275: `x1` of `s*G + t*P`, by the precomputed table if there is one. -/
def combined (c : Curve) (pub : PublicKey c) (s t : Nat) : Nat :=
  match c.opt, pub.pre with
  | some o, some tbl => (o.combinedMult tbl (natBytes s) (natBytes t)).1
  | _, _ =>
    let p11 := c.scalarMult pub.x pub.y (natBytes t)
    let p12 := c.scalarBaseMult (natBytes s)
    (c.add p11 p12).1

/-- sm2/sm2.go:210-248 `Verify`. -/
def verify (c : Curve) (pub : PublicKey c) (msg : Bytes) (r s : Int) : Res Bool :=
  if r ≤ 0 ∨ s ≤ 0 then .ok false else
  if (N : Int) ≤ r ∨ (N : Int) ≤ s then .ok false else do
  let hash ← msgDigest pub.x pub.y msg
  let e : Int := beNat hash
  let t := r + s
  let x1 := combined c pub s.natAbs t.natAbs
  .ok (decide ((e + x1) % N = r))

/-- sm2/sm2.go:250-280 `VerifyWithDigest`. -/
def verifyWithDigest (c : Curve) (pub : PublicKey c) (digest : Bytes) (r s : Int) : Bool :=
  if r ≤ 0 ∨ s ≤ 0 then false else
  if (N : Int) ≤ r ∨ (N : Int) ≤ s then false else
  let e : Int := beNat digest
  let t := r + s
  let x1 := combined c pub s.natAbs t.natAbs
  decide ((e + x1) % N = r)

/-! ## sm2enc.go -/

/-- The body of the `for` loop of sm2/sm2enc.go:49-55 at counter `ct` (from `j` remaining iterations). -/
def kdfLoop (z : Bytes) : Nat → Nat → Bytes → Res Bytes
  | 0, _, K => .ok K
  | j+1, ct, K => do
    let m := List.replicate (z.length + 4) (0 : Byte)
    let m := copyAt m 0 z
    let m := copyAt m z.length (beFixed 4 ct) -- PutUint32(uint32(ct))
    let hash ← Sm3.sumSM3 m
    kdfLoop z j (ct + 1) (copyAt K ((ct - 1) * 32) hash)

/-- sm2/sm2enc.go:34-57 `keyDerivation`; `klen` in bits. `nil` is `ok none`. The `float64` ceilings are
read as exact (they are for `klen < 2^53`); a negative `klen` panics (negative `make` or slice). -/
def keyDerivation (z : Bytes) (klen : Int) : Res (Option Bytes) :=
  if klen % 8 ≠ 0 then .ok none else
  if klen < 0 then .panic else
  let l := (klen.toNat + 255) / 256
  do
  let K ← kdfLoop z l 1 (List.replicate (l * 32) 0)
  .ok (some (K.take (klen.toNat / 8)))

/-- the scan `for i, v := range t { if v != 0 {break}; if i == len(t)-1 {…} }`,
sm2/sm2enc.go:109-116, 161-168: true when it reaches the action. -/
def allZeroScan : Bytes → Bool
  | [] => false
  | [v] => v == 0
  | v :: rest => if v ≠ 0 then false else allZeroScan rest

/-- `for i, v := range t { t[i] = v ^ m[i] }` (sm2/sm2enc.go:119-121); panics if `m` is too short. -/
def xorInto : Bytes → Bytes → Res Bytes
  | [], _ => .ok []
  | _ :: _, [] => .panic
  | v :: t, a :: m => do
    let r ← xorInto t m
    .ok ((v ^^^ a) :: r)

/-- `Z` and the hash input share `xBuf`, `yBuf`; sm2/sm2enc.go:87-103. -/
def zOf (xBuf yBuf : Bytes) : Bytes :=
  copyAt (copyAt (List.replicate 64 0) 0 xBuf) 32 yBuf

/-- `x2||M||y2` as assembled in sm2/sm2enc.go:123-126, 177-180. -/
def hashInput (xBuf t yBuf : Bytes) : Bytes :=
  copyAt (copyAt (copyAt (List.replicate (64 + t.length) 0) 0 xBuf) 32 t) (32 + t.length) yBuf

/-- Result of `doEncrypt` that returned: `(x1, y1, c2, c3)`. `none` (in `Option`) is "never
returns": the `regen` label is after the nonce generation, so the `goto` repeats for ever. -/
structure EncParts where
  x1 : Nat
  y1 : Nat
  c2 : Bytes
  c3 : Bytes

/-- `(x2,y2) = k*P`, through the table if there is one: sm2/sm2enc.go:80-85. -/
def encPoint (c : Curve) (key : PublicKey c) (k : Nat) : Coord :=
  match c.opt, key.pre with
  | some o, some tbl => o.preScalarMult tbl (natBytes k)
  | _, _ => c.scalarMult key.x key.y (natBytes k)

/-- sm2/sm2enc.go:74-131 `doEncrypt`. -/
def doEncrypt (c : Curve) (rand : Bytes) (key : PublicKey c) (msg : Bytes) :
    Option (Res EncParts) :=
  match generateRandK rand with
  | none => some .panic
  | some k =>
    let p1 := c.scalarBaseMult (natBytes k)
    let p2 := encPoint c key k
    let xBuf := padCoord p2.1
    let yBuf := padCoord p2.2
    match keyDerivation (zOf xBuf yBuf) (msg.length * 8) with
    | .panic => some .panic
    | .err e => some (.err e)
    | .ok none => some (.err "sm2: encryption error")
    | .ok (some t) =>
      if allZeroScan t then none -- goto regen, with the same k: the loop never ends
      else some (do
        let c2 ← xorInto t msg
        let h ← Sm3.sumSM3 (hashInput xBuf msg yBuf)
        .ok { x1 := p1.1, y1 := p1.2, c2 := c2, c3 := h })

/-- sm2/sm2enc.go:190-212 `pointToBytes`. -/
def pointToBytes (x y : Nat) : Bytes := [4] ++ padCoord x ++ padCoord y

/-- sm2/sm2enc.go:214-223 `pointFromBytes` (`nil, nil` is `none`). -/
def pointFromBytes (buf : Bytes) : Option (Nat × Nat) :=
  if buf.length ≠ 65 ∨ buf.getD 0 0 ≠ 4 then none
  else some (beNat ((buf.drop 1).take 32), beNat (buf.drop 33))

/-- sm2/sm2enc.go:59-72 `Encrypt`. -/
def encrypt (c : Curve) (rand : Bytes) (key : PublicKey c) (msg : Bytes) : Option (Res Bytes) :=
  (doEncrypt c rand key msg).map fun r => do
    let p ← r
    .ok (pointToBytes p.x1 p.y1 ++ p.c3 ++ p.c2)

/-- sm2/sm2enc.go:136-187 (after C1 is read), shared by `Decrypt` and `DecryptAsn1` (259-295): the two
Go functions repeat the same statements with `c[97:]`, `c[65:97]` resp. `C.CipherText`, `C.HASH`. -/
def decryptParts {c : Curve} (key : PrivateKey c) (x1 y1 : Nat) (c2 c3 : Bytes) (klen : Int) : Res Bytes :=
  let p2 := c.scalarMult x1 y1 (natBytes key.d.natAbs)
  let xBuf := padCoord p2.1
  let yBuf := padCoord p2.2
  do
  match ← keyDerivation (zOf xBuf yBuf) klen with
  | none => .err "sm2: decryption error"
  | some t =>
    if allZeroScan t then .err "sm2: decryption error" else do
    let m ← xorInto t c2
    let u ← Sm3.sumSM3 (hashInput xBuf m yBuf)
    if u ≠ c3 then .err "sm2: decryption error" else .ok m

/-- sm2/sm2enc.go:133-187 `Decrypt`. `c[:65]` needs 65 bytes (capacity beyond the length is not
modelled: with it the call panics a few lines later instead, at the negative KDF length). A nil
point panics in `ScalarMult`. -/
def decrypt {c : Curve} (key : PrivateKey c) (ct : Bytes) : Res Bytes :=
  if ct.length < 65 then .panic else
  match pointFromBytes (ct.take 65) with
  | none => .panic
  | some (x1, y1) =>
    decryptParts key x1 y1 (ct.drop 97) ((ct.drop 65).take 32) (((ct.length : Int) - 97) * 8)

end Verif.Sm2
