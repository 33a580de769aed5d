import Verif.Go
/-
Model of package sm3 (/repo/sm3/sm3.go, /repo/sm3/sm3hash.go).
uint32 arithmetic is `BitVec 32`, the byte counter `len` is `BitVec 64` (so it wraps as in Go).
-/
namespace Verif.Sm3

/-- `[8]uint32` chaining value; the fields are h[0]..h[7] / the registers A..H
(sm3/sm3.go:37-38, sm3/sm3hash.go:85-93). -/
structure H8 where
  a : W32
  b : W32
  c : W32
  d : W32
  e : W32
  f : W32
  g : W32
  h : W32
deriving DecidableEq, Repr

/-- sm3/sm3hash.go:18 -/
def leftRotate (x : W32) (r : Nat) : W32 := (x <<< (r % 32)) ||| (x >>> (32 - r % 32))
/-- sm3/sm3hash.go:20 -/
def ff0 (x y z : W32) : W32 := x ^^^ y ^^^ z
/-- sm3/sm3hash.go:21 -/
def ff1 (x y z : W32) : W32 := (x &&& y) ||| (x &&& z) ||| (y &&& z)
/-- sm3/sm3hash.go:23 -/
def gg0 (x y z : W32) : W32 := x ^^^ y ^^^ z
/-- sm3/sm3hash.go:24 -/
def gg1 (x y z : W32) : W32 := (x &&& y) ||| ((~~~x) &&& z)
/-- sm3/sm3hash.go:26 -/
def p0 (x : W32) : W32 := x ^^^ leftRotate x 9 ^^^ leftRotate x 17
/-- sm3/sm3hash.go:28 -/
def p1 (x : W32) : W32 := x ^^^ leftRotate x 15 ^^^ leftRotate x 23

/-- One step of the loop sm3/sm3hash.go:74-76: the array W1 filled up to index `i` is a list of
length `i`; index reads are in range because `i ≥ 16`. -/
def expandStep (w : List W32) (i : Nat) : List W32 :=
  w ++ [p1 (w.getD (i-16) 0 ^^^ w.getD (i-9) 0 ^^^ leftRotate (w.getD (i-3) 0) 15)
        ^^^ leftRotate (w.getD (i-13) 0) 7 ^^^ w.getD (i-6) 0]

/-- sm3/sm3hash.go:68-76 (the array W1 of `msgExp`). -/
def msgExpW1 (x : List W32) : List W32 := (List.range' 16 52).foldl expandStep x

/-- sm3/sm3hash.go:77-79 (entry `j` of the array W2 of `msgExp`). -/
def msgExpW2 (w1 : List W32) (j : Nat) : W32 := w1.getD j 0 ^^^ w1.getD (j+4) 0

/-- sm3/sm3hash.go:97-101, 119-123: `if j < 33 { jj = j } else { jj = j - 32 }`. -/
def rotIndex (j : Nat) : Nat := if j < 33 then j else j - 32

/-- Body of the loop sm3/sm3hash.go:95-116 (rounds 0..15). -/
def round0 (w1 : List W32) (s : H8) (j : Nat) : H8 :=
  let ss1 := leftRotate (leftRotate s.a 12 + s.e + leftRotate 0x79cc4519 (rotIndex j)) 7
  let ss2 := ss1 ^^^ leftRotate s.a 12
  let tt1 := ff0 s.a s.b s.c + s.d + ss2 + msgExpW2 w1 j
  let tt2 := gg0 s.e s.f s.g + s.h + ss1 + w1.getD j 0
  { d := s.c, c := leftRotate s.b 9, b := s.a, a := tt1,
    h := s.g, g := leftRotate s.f 19, f := s.e, e := p0 tt2 }

/-- Body of the loop sm3/sm3hash.go:117-138 (rounds 16..63). -/
def round1 (w1 : List W32) (s : H8) (j : Nat) : H8 :=
  let ss1 := leftRotate (leftRotate s.a 12 + s.e + leftRotate 0x7a879d8a (rotIndex j)) 7
  let ss2 := ss1 ^^^ leftRotate s.a 12
  let tt1 := ff1 s.a s.b s.c + s.d + ss2 + msgExpW2 w1 j
  let tt2 := gg1 s.e s.f s.g + s.h + ss1 + w1.getD j 0
  { d := s.c, c := leftRotate s.b 9, b := s.a, a := tt1,
    h := s.g, g := leftRotate s.f 19, f := s.e, e := p0 tt2 }

/-- sm3/sm3hash.go:83-146 -/
def cF (v : H8) (m : List W32) : H8 :=
  let w1 := msgExpW1 m
  let s := (List.range' 0 16).foldl (round0 w1) v
  let s := (List.range' 16 48).foldl (round1 w1) s
  { a := s.a ^^^ v.a, b := s.b ^^^ v.b, c := s.c ^^^ v.c, d := s.d ^^^ v.d,
    e := s.e ^^^ v.e, f := s.f ^^^ v.f, g := s.g ^^^ v.g, h := s.h ^^^ v.h }

/-- sm3/sm3hash.go:154-165: sixteen big-endian words of a 64-byte block. -/
def loadWords : Bytes → List W32
  | x0 :: x1 :: x2 :: x3 :: t =>
    (x3.setWidth 32 ||| (x2.setWidth 32 <<< 8) ||| (x1.setWidth 32 <<< 16)
      ||| (x0.setWidth 32 <<< 24)) :: loadWords t
  | _ => []

/-- sm3/sm3hash.go:148-172, the `for len(p) >= 64` loop; `fuel` bounds the iterations and is
`p.length` at the call, which is never exhausted before the loop ends. -/
def blockLoop : Nat → H8 → Bytes → H8
  | 0, v, _ => v
  | fuel+1, v, p =>
    if 64 ≤ p.length then blockLoop fuel (cF v (loadWords (p.take 64))) (p.drop 64) else v

/-- sm3/sm3hash.go:148-172 -/
def block (v : H8) (p : Bytes) : H8 := blockLoop p.length v p

/-- sm3/sm3.go:37-42 -/
structure Digest where
  h : H8
  x : Bytes        -- the array [64]byte, stale bytes beyond nx included
  nx : Nat
  len : BitVec 64
deriving DecidableEq, Repr

/-- sm3/sm3.go:27-34 -/
def initH : H8 :=
  { a := 0x7380166f, b := 0x4914b2b9, c := 0x172442d7, d := 0xda8a0600,
    e := 0xa96f30bc, f := 0x163138aa, g := 0xe38dee4d, h := 0xb0fb0e4e }

/-- sm3/sm3.go:45-56: `x` keeps its (stale) contents. -/
def Digest.reset (d : Digest) : Digest := { d with h := initH, nx := 0, len := 0 }

/-- sm3/sm3.go:62-66: `new(digest)` zeroes the buffer, then Reset. -/
def new : Digest :=
  Digest.reset { h := ⟨0,0,0,0,0,0,0,0⟩, x := List.replicate 64 0, nx := 0, len := 0 }

/-- sm3/sm3.go:78-86: top up a partly filled buffer; returns the digest and the rest of `p`. -/
def Digest.fill (d : Digest) (p : Bytes) : Digest × Bytes :=
  if d.nx > 0 then
    let n := copyCount d.x d.nx p
    let x := copyAt d.x d.nx p
    let nx := d.nx + n
    if nx = 64 then ({ d with h := block d.h x, x := x, nx := 0 }, p.drop n)
    else ({ d with x := x, nx := nx }, p.drop n)
  else (d, p)

/-- sm3/sm3.go:74-97 (the returned count is always `len(p)` and the error always nil).
`len(p) &^ 63` is `p.length / 64 * 64`. -/
def Digest.write (d : Digest) (p : Bytes) : Digest :=
  let d := { d with len := d.len + BitVec.ofNat 64 p.length }
  let (d, p) := d.fill p
  let (d, p) :=
    if 64 ≤ p.length then ({ d with h := block d.h p }, p.drop (p.length / 64 * 64)) else (d, p)
  if 0 < p.length then { d with nx := copyCount d.x 0 p, x := copyAt d.x 0 p } else d

/-- sm3/sm3.go:133-140: big-endian serialisation of one word. -/
def putWord (s : W32) : Bytes :=
  [(s >>> 24).setWidth 8, (s >>> 16).setWidth 8, (s >>> 8).setWidth 8, s.setWidth 8]

/-- sm3/sm3.go:130-141 -/
def putH (v : H8) : Bytes :=
  putWord v.a ++ putWord v.b ++ putWord v.c ++ putWord v.d ++
  putWord v.e ++ putWord v.f ++ putWord v.g ++ putWord v.h

/-- sm3/sm3.go:122-124: the eight bytes `byte(len >> (56 - 8*i))`. -/
def putLen (len : BitVec 64) : Bytes :=
  (List.range 8).map fun i => (len >>> (56 - 8*i)).setWidth 8

/-- sm3/sm3.go:110-142; `panic` is the explicit `panic("d.nx != 0")` of line 128. -/
def Digest.checkSum (d : Digest) : Res Bytes :=
  let len := d.len
  let tmp : Bytes := 0x80 :: List.replicate 63 0
  let r := len.toNat % 64
  let d := if r < 56 then d.write (tmp.take (56 - r)) else d.write (tmp.take (64 + 56 - r))
  let len := len <<< 3
  let d := d.write (putLen len)
  if d.nx ≠ 0 then .panic else .ok (putH d.h)

/-- sm3/sm3.go:99-104 (and ConstantTimeSum, 106-108): works on a copy of the digest, so the
receiver is unchanged; only the returned slice matters. -/
def Digest.sum (d : Digest) (input : Bytes) : Res Bytes := do
  let hash ← d.checkSum
  .ok (input ++ hash)

/-- sm3/sm3.go:144-149 -/
def sumSM3 (data : Bytes) : Res Bytes :=
  let d : Digest := { h := ⟨0,0,0,0,0,0,0,0⟩, x := List.replicate 64 0, nx := 0, len := 0 }
  (d.reset.write data).checkSum

end Verif.Sm3
