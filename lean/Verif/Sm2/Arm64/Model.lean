import Verif.Sm2.Amd64.Concrete
/-!
The curve object of the arm64 build, sm2/sm2p256_arm64.go:11-34: a `*elliptic.CurveParams` and nothing else, so that every operation is the generic one of
the Go standard library (crypto/elliptic/elliptic.go of Go 1.16, the version go.mod asks for), written there with `math/big` integers.  The library is not
in /repo; the functions below follow its published source statement by statement.
-/
namespace Verif.Sm2.Arm64
open Verif Verif.Sm2 Verif.Sm2.Amd64

/-- three big integers `x, y, z` -/
structure Tri where
  x : Int
  y : Int
  z : Int

/-- `if v.Sign() == -1 { v.Add(v, curve.P) }` -/
def fix (v : Int) : Int := if v < 0 then v + P else v

/-- `zForAffine`: zero for the point at infinity, given as `(0, 0)`, and one otherwise. -/
def zForAffine (x y : Int) : Int := if x ≠ 0 ∨ y ≠ 0 then 1 else 0

/-- `(*CurveParams).doubleJacobian` -/
def dblJ (p : Tri) : Tri :=
  let delta := p.z * p.z % P
  let gamma := p.y * p.y % P
  let alpha := fix (p.x - delta)
  let alpha2 := p.x + delta
  let alpha := alpha * alpha2
  let alpha2 := alpha
  let alpha := alpha * 2
  let alpha := alpha + alpha2
  let beta := p.x * gamma
  let x3 := alpha * alpha
  let beta8 := beta * 8 % P
  let x3 := fix (x3 - beta8)
  let x3 := x3 % P
  let z3 := p.y + p.z
  let z3 := z3 * z3
  let z3 := fix (z3 - gamma)
  let z3 := fix (z3 - delta)
  let z3 := z3 % P
  let beta := beta * 4
  let beta := fix (beta - x3)
  let y3 := alpha * beta
  let gamma := gamma * gamma
  let gamma := gamma * 8 % P
  let y3 := fix (y3 - gamma)
  let y3 := y3 % P
  ⟨x3, y3, z3⟩

/-- `(*CurveParams).addJacobian` -/
def addJ (p q : Tri) : Tri :=
  if p.z = 0 then q else
  if q.z = 0 then p else
  let z1z1 := p.z * p.z % P
  let z2z2 := q.z * q.z % P
  let u1 := p.x * z2z2 % P
  let u2 := q.x * z1z1 % P
  let h := u2 - u1
  let xEqual := decide (h = 0)
  let h := fix h
  let i := h * 2
  let i := i * i
  let j := h * i
  let s1 := p.y * q.z
  let s1 := s1 * z2z2 % P
  let s2 := q.y * p.z
  let s2 := s2 * z1z1 % P
  let r := fix (s2 - s1)
  let yEqual := decide (r = 0)
  if xEqual && yEqual then dblJ p else
  let r := r * 2
  let v := u1 * i
  let x3 := r * r
  let x3 := x3 - j
  let x3 := x3 - v
  let x3 := x3 - v
  let x3 := x3 % P
  let y3 := r
  let v := v - x3
  let y3 := y3 * v
  let s1 := s1 * j
  let s1 := s1 * 2
  let y3 := y3 - s1
  let y3 := y3 % P
  let z3 := p.z + q.z
  let z3 := z3 * z3
  let z3 := z3 - z1z1
  let z3 := z3 - z2z2
  let z3 := z3 * h
  let z3 := z3 % P
  ⟨x3, y3, z3⟩

/-- `(*CurveParams).affineFromJacobian`.  `ModInverse(z, P)` is the inverse in `[0, P)`; it exists for every `z` that gets here, which is `0`, `1` or a nonzero
residue (`Reduced`, below). -/
def affine (p : Tri) : Coord :=
  if p.z = 0 then (0, 0) else
  let zinv : Int := ((p.z : F)⁻¹).val
  let zinvsq := zinv * zinv
  let xOut := p.x * zinvsq
  let xOut := xOut % P
  let zinvsq := zinvsq * zinv
  let yOut := p.y * zinvsq
  let yOut := yOut % P
  (xOut.toNat, yOut.toNat)

/-- `(*CurveParams).Add` -/
def add (p q : Coord) : Coord :=
  affine (addJ ⟨p.1, p.2, zForAffine p.1 p.2⟩ ⟨q.1, q.2, zForAffine q.1 q.2⟩)

/-- `(*CurveParams).Double` -/
def double (p : Coord) : Coord := affine (dblJ ⟨p.1, p.2, zForAffine p.1 p.2⟩)

/-- The inner loop of `(*CurveParams).ScalarMult`, `n` iterations on the byte `b`. -/
def bits (B : Tri) : Nat → Byte → Tri → Tri
  | 0, _, t => t
  | n + 1, b, t =>
    let t := dblJ t
    let t := if b &&& 0x80 = 0x80 then addJ B t else t
    bits B n (b <<< 1) t

/-- The outer loop. -/
def bytes (B : Tri) : Bytes → Tri → Tri
  | [], t => t
  | b :: k, t => bytes B k (bits B 8 b t)

/-- `(*CurveParams).ScalarMult` -/
def scalarMult (x y : Nat) (k : Bytes) : Coord := affine (bytes ⟨x, y, 1⟩ k ⟨0, 0, 0⟩)

/-- `(*CurveParams).ScalarBaseMult` -/
def scalarBaseMult (k : Bytes) : Coord := scalarMult Gx Gy k

/-- `(*CurveParams).IsOnCurve` -/
def isOnCurve (x y : Int) : Bool :=
  let y2 := y * y % P
  let x3 := x * x
  let x3 := x3 * x
  let threeX := x * 2
  let threeX := threeX + x
  let x3 := x3 - threeX
  let x3 := x3 + Verif.Sm2.B
  let x3 := x3 % P
  x3 == y2

/-- The curve object, sm2/sm2p256_arm64.go:11-34: it has no method of its own, so the type assertions to `optMethod` (sm2/sm2.go:75, 236, 270, sm2/sm2enc.go:81) fail. -/
def curve : Curve where
  T := Unit
  scalarBaseMult := scalarBaseMult
  scalarMult := scalarMult
  add := add
  opt := none

end Verif.Sm2.Arm64
