import Verif.Sm4.Tables
/-
Model of package sm4 (/repo/sm4/sm4.go).
A byte slice is a list; a nil slice and an empty slice are both `[]` (Go callers see len 0 in both
cases).  A run-time panic (index out of range) is `Res.panic`.
-/
namespace Verif.Sm4

/-- sm4/const.go:11-14 -/
inductive Mode where
  | enc
  | dec
deriving DecidableEq, Repr

/-- sm4/const.go:9 -/
def blockSize : Nat := 16

/-- sm4/sm4.go:24-29 (`in >> 4 & 0x0f` is `(in >> 4) & 0x0f` in Go) -/
def scSbox (x : Byte) : Byte :=
  let r := ((x >>> 4) &&& 0x0f).toNat
  let c := (x &&& 0x0f).toNat
  (sbox.getD r []).getD c 0

/-- sm4/sm4.go:46-49 -/
def leftRotate (x : W32) (r : Nat) : W32 := ((x <<< r) ||| (x >>> (32 - r))) &&& 0xffffffff

/-- sm4/sm4.go:32-34 -/
def l (x : W32) : W32 :=
  x ^^^ leftRotate x 2 ^^^ leftRotate x 10 ^^^ leftRotate x 18 ^^^ leftRotate x 24

/-- sm4/sm4.go:37-39 -/
def keyL (x : W32) : W32 := x ^^^ leftRotate x 13 ^^^ leftRotate x 23

/-- sm4/sm4.go:52-64 -/
def tt (x : W32) : W32 :=
  let t0 : Byte := (x >>> 24).setWidth 8 &&& 0xff
  let t1 : Byte := (x >>> 16).setWidth 8 &&& 0xff
  let t2 : Byte := (x >>> 8).setWidth 8 &&& 0xff
  let t3 : Byte := x.setWidth 8 &&& 0xff
  (scSbox t3).setWidth 32 ||| ((scSbox t2).setWidth 32 <<< 8) ||| ((scSbox t1).setWidth 32 <<< 16)
    ||| ((scSbox t0).setWidth 32 <<< 24)

/-- sm4/sm4.go:72-74 -/
def keyT (x : W32) : W32 := keyL (tt x)

/-- One iteration of sm4/sm4.go:83-86; `k` is the filled part of the array (length `i+4`). -/
def keyStep (k : List W32) (i : Nat) : List W32 :=
  k ++ [k.getD i 0 ^^^ keyT (k.getD (i+1) 0 ^^^ k.getD (i+2) 0 ^^^ k.getD (i+3) 0 ^^^ ck.getD i 0)]

/-- sm4/sm4.go:77-88: returns rk[0..31] = k[4..35]. -/
def keyExp (key : List W32) : List W32 :=
  let k := (List.range 4).map fun i => key.getD i 0 ^^^ fk.getD i 0
  ((List.range 32).foldl keyStep k).drop 4

/-- The four words b[0..3] of cryptBlock (sm4/sm4.go:93). -/
structure B4 where
  b0 : W32
  b1 : W32
  b2 : W32
  b3 : W32
deriving DecidableEq, Repr

/-- `sbox0[x&0xff] ^ sbox1[(x>>8)&0xff] ^ sbox2[(x>>16)&0xff] ^ sbox3[(x>>24)&0xff]`
(sm4/sm4.go:104 and the seven other occurrences). -/
def tbl (x : W32) : W32 :=
  sbox0.getD (x &&& 0xff).toNat 0 ^^^ sbox1.getD ((x >>> 8) &&& 0xff).toNat 0 ^^^
  sbox2.getD ((x >>> 16) &&& 0xff).toNat 0 ^^^ sbox3.getD ((x >>> 24) &&& 0xff).toNat 0

/-- Loop body sm4/sm4.go:103-110 (ENC), with the four round keys it uses. -/
def quad (b : B4) (k0 k1 k2 k3 : W32) : B4 :=
  let x := b.b1 ^^^ b.b2 ^^^ b.b3 ^^^ k0
  let b := { b with b0 := b.b0 ^^^ tbl x }
  let x := b.b0 ^^^ b.b2 ^^^ b.b3 ^^^ k1
  let b := { b with b1 := b.b1 ^^^ tbl x }
  let x := b.b0 ^^^ b.b1 ^^^ b.b3 ^^^ k2
  let b := { b with b2 := b.b2 ^^^ tbl x }
  let x := b.b1 ^^^ b.b2 ^^^ b.b0 ^^^ k3
  { b with b3 := b.b3 ^^^ tbl x }

/-- sm4/sm4.go:102-111: iteration `i` of the ENC loop. -/
def encIter (rk : List W32) (b : B4) (i : Nat) : B4 :=
  quad b (rk.getD (4*i) 0) (rk.getD (4*i+1) 0) (rk.getD (4*i+2) 0) (rk.getD (4*i+3) 0)

/-- sm4/sm4.go:113-122: iteration `i` of the DEC loop. -/
def decIter (rk : List W32) (b : B4) (i : Nat) : B4 :=
  quad b (rk.getD (31-4*i) 0) (rk.getD (31-4*i-1) 0) (rk.getD (31-4*i-2) 0) (rk.getD (31-4*i-3) 0)

/-- sm4/sm4.go:97-98 (also 147-148 for the key): word `i` of a byte slice, big-endian. -/
def ldWord (src : Bytes) (i : Nat) : W32 :=
  ((src.getD (i*4) 0).setWidth 32 <<< 24) ||| ((src.getD (i*4+1) 0).setWidth 32 <<< 16) |||
  ((src.getD (i*4+2) 0).setWidth 32 <<< 8) ||| (src.getD (i*4+3) 0).setWidth 32

/-- sm4/sm4.go:128-131 -/
def stWord (b : W32) : Bytes :=
  [(b >>> 24).setWidth 8, (b >>> 16).setWidth 8, (b >>> 8).setWidth 8, b.setWidth 8]

/-- sm4/sm4.go:91-132: the 16 output bytes `r`. -/
def cryptWords (rk : List W32) (src : Bytes) (mode : Mode) : Bytes :=
  let b : B4 := ⟨ldWord src 0, ldWord src 1, ldWord src 2, ldWord src 3⟩
  let b := match mode with
    | .enc => (List.range 8).foldl (encIter rk) b
    | .dec => (List.range 8).foldl (decIter rk) b
  stWord b.b3 ++ stWord b.b2 ++ stWord b.b1 ++ stWord b.b0

/-- sm4/sm4.go:91-134: the new contents of `dst`.  Panics when `src` has fewer than 16 bytes
(index out of range); all reads of `src` happen before the single `copy` into `dst`, so `dst` and
`src` may alias. -/
def cryptBlock (rk : List W32) (dst src : Bytes) (mode : Mode) : Res Bytes :=
  if src.length < 16 then .panic else .ok (copyAt dst 0 (cryptWords rk src mode))

/-- sm4/sm4.go:16, 136-138: the error carries the offending length. -/
def keySizeError (n : Nat) : String := "SM4: invalid key size " ++ toString n

/-- sm4/sm4.go:140-152 -/
def newCipher (key : Bytes) : Res (List W32) :=
  if key.length ≠ blockSize then .err (keySizeError key.length)
  else .ok (keyExp ((List.range 4).map (ldWord key)))

/-- sm4/sm4.go:158-160 -/
def encrypt (rk : List W32) (dst src : Bytes) : Res Bytes := cryptBlock rk dst src .enc
/-- sm4/sm4.go:162-164 -/
def decrypt (rk : List W32) (dst src : Bytes) : Res Bytes := cryptBlock rk dst src .dec

/-- sm4/sm4.go:166-170 (the returned value; the aliasing effect is `appendInPlace` below) -/
def pkcs7Padding (src : Bytes) : Bytes :=
  let padding := blockSize - src.length % blockSize
  src ++ List.replicate padding (BitVec.ofNat 8 padding)

/-- sm4/sm4.go:172-188; `src[length-1]` panics on an empty slice, `src[len(src)-unpadding:]` when
the slice is shorter than the padding. -/
def pkcs7UnPadding (src : Bytes) : Res Bytes :=
  match src.getLast? with
  | none => .panic
  | some last =>
    let unpadding := last.toNat
    if unpadding > blockSize ∨ unpadding = 0 then
      .err "Invalid pkcs7 padding (unpadding > BlockSize || unpadding == 0)"
    else if src.length < unpadding then .panic
    else
      let pad := src.drop (src.length - unpadding)
      if pad.all (fun b => b == BitVec.ofNat 8 unpadding) then
        .ok (src.take (src.length - unpadding))
      else .err "Invalid pkcs7 padding (pad[i] != unpadding)"

/-- `out, _ = pkcs7UnPadding(out)`: the error is dropped and `out` becomes nil
(sm4/sm4.go:220, 274). -/
def unpadIgnoringError (out : Bytes) : Res Bytes :=
  match pkcs7UnPadding out with
  | .ok o => .ok o
  | .err _ => .ok []
  | .panic => .panic

/-- sm4/sm4.go:207-212 and 214-219: the first `n` iterations of the ECB loop, `out` being the
freshly made output slice. -/
def ecbLoop (crypt : Bytes → Bytes → Res Bytes) (inData : Bytes) : Nat → Bytes → Res Bytes
  | 0, out => .ok out
  | n+1, out => do
    let out ← ecbLoop crypt inData n out
    let outTmp ← crypt (List.replicate 16 0) ((inData.drop (n*16)).take 16)
    .ok (copyAt out (n*16) outTmp)

/-- sm4/sm4.go:191-224 -/
def sm4Ecb (key input : Bytes) (mode : Mode) : Res Bytes :=
  if key.length ≠ blockSize then .err (keySizeError key.length)
  else
    let inData := match mode with
      | .enc => pkcs7Padding input
      | .dec => input
    let out := List.replicate inData.length 0
    match newCipher key with
    | .err _ => .panic
    | .panic => .panic
    | .ok c =>
      match mode with
      | .enc => ecbLoop (encrypt c) inData (inData.length / 16) out
      | .dec => do
        let out ← ecbLoop (decrypt c) inData (inData.length / 16) out
        unpadIgnoringError out

/-- sm4/sm4.go:226-236 (nil when the lengths differ) -/
def xor (a b : Bytes) : Bytes :=
  if a.length ≠ b.length then [] else List.zipWith (· ^^^ ·) a b

/-- sm4/sm4.go:257-263: CBC encryption loop; state is (out, iv). -/
def cbcEncLoop (c : List W32) (inData : Bytes) : Nat → Bytes → Res (Bytes × Bytes)
  | 0, out => .ok (out, List.replicate blockSize 0)
  | n+1, out => do
    let (out, iv) ← cbcEncLoop c inData n out
    let inTmp := xor ((inData.drop (n*16)).take 16) iv
    let outTmp ← encrypt c (List.replicate 16 0) inTmp
    .ok (copyAt out (n*16) outTmp, outTmp)

/-- sm4/sm4.go:265-272: CBC decryption loop; state is (out, iv). -/
def cbcDecLoop (c : List W32) (inData : Bytes) : Nat → Bytes → Res (Bytes × Bytes)
  | 0, out => .ok (out, List.replicate blockSize 0)
  | n+1, out => do
    let (out, iv) ← cbcDecLoop c inData n out
    let inTmp := (inData.drop (n*16)).take 16
    let outTmp ← decrypt c (List.replicate 16 0) inTmp
    let outTmp := xor outTmp iv
    .ok (copyAt out (n*16) outTmp, inTmp)

/-- sm4/sm4.go:239-278 -/
def sm4Cbc (key input : Bytes) (mode : Mode) : Res Bytes :=
  if key.length ≠ blockSize then .err (keySizeError key.length)
  else
    let inData := match mode with
      | .enc => pkcs7Padding input
      | .dec => input
    let out := List.replicate inData.length 0
    match newCipher key with
    | .err _ => .panic
    | .panic => .panic
    | .ok c =>
      match mode with
      | .enc => do
        let (out, _) ← cbcEncLoop c inData (inData.length / 16) out
        .ok out
      | .dec => do
        let (out, _) ← cbcDecLoop c inData (inData.length / 16) out
        unpadIgnoringError out

/-- Go's `append(src, extra...)` for a slice that starts at the beginning of its backing array
`arr` (so `cap = arr.length`) and has length `n`: if the capacity suffices the backing array itself
is overwritten after position `n`, otherwise a new array is allocated and `arr` is untouched.
Returns the backing array the *caller* still sees. -/
def appendInPlace (arr : Bytes) (n : Nat) (extra : Bytes) : Bytes :=
  if n + extra.length ≤ arr.length then arr.take n ++ extra ++ arr.drop (n + extra.length) else arr

/-- Effect of `Sm4Ecb`/`Sm4Cbc` (ENC) on the caller's backing array when called with `in = arr[:n]`:
only `pkcs7Padding`'s `append(src, padtext...)` (sm4/sm4.go:169) writes through it. -/
def callerMemoryAfterEnc (arr : Bytes) (n : Nat) : Bytes :=
  let padding := blockSize - n % blockSize
  appendInPlace arr n (List.replicate padding (BitVec.ofNat 8 padding))

end Verif.Sm4
