import Verif.Sm2.Model
/-!
Model of the Go part of `sm2/sm2p256_amd64.go`: window recoding, table construction, fixed-base and
variable-base multiplication, `CombinedMult`.  The assembly point routines are a record `Asm` of
functions; `Amd64/Jacobian.lean` gives the formulas of the assembly source for them.
-/
namespace Verif.Sm2.Amd64
open Verif Verif.Sm2

abbrev W64 := BitVec 64

/-- The assembly entry points used by the Go code (declared sm2/sm2p256_amd64.go:57-107). `J` is
`p256Point` (12 words, Jacobian), `A` an 8-word affine table entry. -/
structure Asm where
  J : Type
  A : Type
  /-- `sm2p256PointAddAsm(res, in1, in2) int`; the flag is the returned "points are equal". -/
  add : J → J → J × Bool
  /-- `sm2p256PointDoubleAsm`. -/
  dbl : J → J
  /-- `sm2p256NegCond(p.xyz[4:8], 1)` on a Jacobian point. -/
  neg : J → J
  /-- the same on an affine entry -/
  negA : A → A
  /-- the negation done inside `sm2p256PointAddAffineAsm` (a different instruction sequence) -/
  negB : A → A
  /-- the unconditional part of `sm2p256PointAddAffineAsm`. -/
  addA : J → A → J
  /-- an affine entry with `z = 1` (Montgomery one) -/
  toJ : A → J
  /-- `sm2p256Select(.., 0)`: twelve zero words -/
  zeroJ : J
  /-- `sm2p256SelectBase(.., 0)`: eight zero words -/
  zeroA : A
  /-- `fromBig`/`maybeReduceModP`/`sm2p256Mul(.., rr)` with `z = 1`: sm2/sm2p256_amd64.go:321-334 -/
  ofCoord : Nat → Nat → J
  /-- conversion to affine form inside Montgomery domain: sm2/sm2p256_amd64.go:624-631 -/
  normalize : J → A
  /-- `p256PointToAffine`, sm2/sm2p256_amd64.go:359-380 -/
  toCoord : J → Coord
  /-- the `basePoint` literal, sm2/sm2p256_amd64.go:604-608 -/
  basePoint : J

/-- a scalar as four 64-bit words, least significant first -/
structure Limbs where
  l0 : W64
  l1 : W64
  l2 : W64
  l3 : W64

/-- `scalar[i]` -/
def Limbs.get (s : Limbs) : Nat → W64
  | 0 => s.l0
  | 1 => s.l1
  | 2 => s.l2
  | _ => s.l3

/-- `fromBig`, sm2/sm2p256_amd64.go:193-202 (for a value below 2^256). -/
def fromBig (n : Nat) : Limbs :=
  ⟨BitVec.ofNat 64 n, BitVec.ofNat 64 (n / 2 ^ 64), BitVec.ofNat 64 (n / 2 ^ 128), BitVec.ofNat 64 (n / 2 ^ 192)⟩

/-- `p256GetScalar`, sm2/sm2p256_amd64.go:207-214. -/
def getScalar (inp : Bytes) : Limbs :=
  let n := beNat inp
  if N ≤ n then fromBig (n % N) else fromBig n

/-- `boothW5`, sm2/sm2p256_amd64.go:580-586 (`uint` is 64 bits on amd64). -/
def boothW5 (inp : W64) : Nat × Nat :=
  let s : W64 := ~~~((inp >>> 5) - 1)
  let d : W64 := (1 <<< 6) - inp - 1
  let d := (d &&& s) ||| (inp &&& (~~~s))
  let d := (d >>> 1) + (d &&& 1)
  (d.toNat, (s &&& 1).toNat)

/-- `boothW7`, sm2/sm2p256_amd64.go:588-594. -/
def boothW7 (inp : W64) : Nat × Nat :=
  let s : W64 := ~~~((inp >>> 7) - 1)
  let d : W64 := (1 <<< 8) - inp - 1
  let d := (d &&& s) ||| (inp &&& (~~~s))
  let d := (d >>> 1) + (d &&& 1)
  (d.toNat, (s &&& 1).toNat)

/-- The window extraction of sm2/sm2p256_amd64.go:673-677, 745-749, 897-901 with mask `mask`. -/
def window (s : Limbs) (index : Nat) (mask : W64) : W64 :=
  if index < 192 then
    ((s.get (index / 64) >>> (index % 64)) + (s.get (index / 64 + 1) <<< (64 - index % 64))) &&& mask
  else (s.get (index / 64) >>> (index % 64)) &&& mask

/-- `uint64IsZero`, sm2/sm2p256_amd64.go:342-351. -/
def uint64IsZero (x : W64) : Nat :=
  let x := ~~~x
  let x := x &&& (x >>> 32)
  let x := x &&& (x >>> 16)
  let x := x &&& (x >>> 8)
  let x := x &&& (x >>> 4)
  let x := x &&& (x >>> 2)
  let x := x &&& (x >>> 1)
  (x &&& 1).toNat

/-- `scalarIsZero`, sm2/sm2p256_amd64.go:355-357. -/
def scalarIsZero (s : Limbs) : Nat := uint64IsZero (s.l0 ||| s.l1 ||| s.l2 ||| s.l3)

/-- A precomputed table, `*[37][64*8]uint64`: entry `i j` is the affine point at `[i][j*8:]`. -/
abbrev Table (a : Asm) := Nat → Nat → a.A

/-- `t2` at the start of outer iteration `j`, sm2/sm2p256_amd64.go:612, 637-641 (and 1854-858). -/
def rowBase (a : Asm) (base : a.J) : Nat → a.J
  | 0 => base
  | 1 => a.dbl base
  | j+2 => (a.add (rowBase a base (j + 1)) base).1

/-- `k` successive doublings -/
def dblN (a : Asm) : Nat → a.J → a.J
  | 0, p => p
  | k+1, p => dblN a k (a.dbl p)

/-- the affine form of `t1` in inner iteration `i`: sm2/sm2p256_amd64.go:616-636. -/
def cell (a : Asm) (t2 : a.J) : Nat → a.A
  | 0 => a.normalize t2
  | i+1 => a.normalize (dblN a 7 (a.toJ (cell a t2 i)))

/-- `initTable` (596-643) and `InitPubKeyTable` (814-866): the same loops over a base point. -/
def buildTable (a : Asm) (base : a.J) : Table a := fun i j => cell a (rowBase a base j) i

/-- `sm2p256SelectBase` on row `i`: index 0 gives zero words (assembly comment, .s:718). -/
def selectBase (a : Asm) (tbl : Table a) (i idx : Nat) : a.A :=
  if idx = 0 ∨ 64 < idx then a.zeroA else tbl i (idx - 1)

/-- `sm2p256PointAddAffineAsm` with the negation it uses as a parameter. -/
def addAffineN (a : Asm) (neg : a.A → a.A) (p : a.J) (q : a.A) (sign sel zero : Nat) : a.J :=
  let q := if sign = 0 then q else neg q
  let r := if sel = 0 then p else a.addA p q
  if zero = 0 then a.toJ q else r

/-- `sm2p256PointAddAffineAsm(res, in1, in2, sign, sel, zero)`: .s:1979-1984 (negate if sign),
2062-2111 (`sel == 0` → in1), then 2112-2143 (`zero == 0` → in2 with z = 1). -/
def addAffine (a : Asm) (p : a.J) (q : a.A) (sign sel zero : Nat) : a.J :=
  addAffineN a a.negB p q sign sel zero

/-- The loop of `p256BaseMult`/`p256PreMult`, sm2/sm2p256_amd64.go:672-684, 896-908: `i` counts up while
`fuel` counts the remaining iterations; `zero |= sel`. -/
def preLoop (a : Asm) (tbl : Table a) (s : Limbs) : Nat → Nat → Nat → Nat → a.J → a.J
  | 0, _, _, _, p => p
  | fuel+1, i, index, zero, p =>
    let w := window s index 0xff
    let b := boothW7 w
    preLoop a tbl s fuel (i + 1) (index + 7) (zero ||| b.1)
      (addAffine a p (selectBase a tbl i b.1) b.2 b.1 zero)

/-- `p256BaseMult` (645-685) with the global table, `p256PreMult` (869-909) with a key's table. -/
def preMult (a : Asm) (tbl : Table a) (s : Limbs) : a.J :=
  let w := (s.get 0 <<< 1) &&& 0xff
  let b := boothW7 w
  let q := selectBase a tbl 0 b.1
  let q := if b.2 = 0 then q else a.negA q
  preLoop a tbl s 36 1 6 b.1 (a.toJ q)

/-- the `precomp` table of `p256ScalarMult`, sm2/sm2p256_amd64.go:690-734, in order 1..16. -/
def precomp (a : Asm) (p : a.J) : List a.J :=
  let p2 := a.dbl p
  let p4 := a.dbl p2
  let p8 := a.dbl p4
  let p16 := a.dbl p8
  let p3 := (a.add p2 p).1
  let p5 := (a.add p4 p).1
  let p9 := (a.add p8 p).1
  let p6 := a.dbl p3
  let p10 := a.dbl p5
  let p7 := (a.add p6 p).1
  let p11 := (a.add p10 p).1
  let p12 := a.dbl p6
  let p14 := a.dbl p7
  let p13 := (a.add p12 p).1
  let p15 := (a.add p14 p).1
  [p, p2, p3, p4, p5, p6, p7, p8, p9, p10, p11, p12, p13, p14, p15, p16]

/-- `sm2p256Select`: index 0 gives zero words. -/
def select (a : Asm) (tbl : List a.J) (idx : Nat) : a.J :=
  if idx = 0 then a.zeroJ else tbl.getD (idx - 1) a.zeroJ

/-- one addition step of `p256ScalarMult`, sm2/sm2p256_amd64.go:751-757, 771-777. -/
def smStep (a : Asm) (pre : List a.J) (p : a.J) (zero : Nat) (w : W64) : a.J × Nat :=
  let b := boothW5 w
  let t0 := select a pre b.1
  let t0 := if b.2 = 0 then t0 else a.neg t0
  let t1 := (a.add p t0).1
  let t1 := if b.1 = 0 then p else t1
  let p := if zero = 0 then t0 else t1
  (p, zero ||| b.1)

/-- the `for index > 4` loop, sm2/sm2p256_amd64.go:737-758 -/
def smLoop (a : Asm) (pre : List a.J) (s : Limbs) (index : Nat) (p : a.J) (zero : Nat) : a.J × Nat :=
  if h : index > 4 then
    let index' := index - 5
    let p := dblN a 5 p
    let r := smStep a pre p zero (window s index' 0x3f)
    smLoop a pre s index' r.1 r.2
  else (p, zero)
termination_by index
decreasing_by omega

/-- `p256ScalarMult`, sm2/sm2p256_amd64.go:687-778. -/
def scalarMultJ (a : Asm) (p : a.J) (s : Limbs) : a.J :=
  let pre := precomp a p
  let w := (s.get (254 / 64) >>> (254 % 64)) &&& 0x3f
  let sel := (boothW5 w).1
  let p0 := select a pre sel
  let r := smLoop a pre s 254 p0 sel
  let p1 := dblN a 5 r.1
  (smStep a pre p1 r.2 ((s.get 0 <<< 1) &&& 0x3f)).1

/-- `p256Precomputed` -/
def baseTable (a : Asm) : Table a := buildTable a a.basePoint

/-- `ScalarBaseMult`, sm2/sm2p256_amd64.go:309-316. -/
def scalarBaseMult (a : Asm) (k : Bytes) : Coord :=
  a.toCoord (preMult a (baseTable a) (getScalar k))

/-- `ScalarMult`, sm2/sm2p256_amd64.go:318-338. -/
def scalarMult (a : Asm) (x y : Nat) (k : Bytes) : Coord :=
  a.toCoord (scalarMultJ a (a.ofCoord x y) (getScalar k))

/-- `InitPubKeyTable`, sm2/sm2p256_amd64.go:814-866. -/
def initPubKeyTable (a : Asm) (x y : Nat) : Table a := buildTable a (a.ofCoord x y)

/-- `PreScalarMult`, sm2/sm2p256_amd64.go:912-920. -/
def preScalarMult (a : Asm) (tbl : Table a) (k : Bytes) : Coord :=
  a.toCoord (preMult a tbl (getScalar k))

/-- `CopyConditional`, sm2/sm2p256_amd64.go:459-466: masks with `v-1` and its complement. On whole points
(the mask is all ones or all zeros for `v ∈ {0,1}`, see `copyWord_spec`). -/
def copyConditional (a : Asm) (p src : a.J) (v : Nat) : a.J := if v = 1 then src else p

/-- one word of `CopyConditional`. -/
def copyWord (n src v : W64) : W64 :=
  let pMask := v - 1
  let srcMask := ~~~pMask
  (n &&& pMask) ||| (src &&& srcMask)

/-- the sum in `CombinedMult`, sm2/sm2p256_amd64.go:269-305, before the conversion to coordinates -/
def combinedJ (a : Asm) (tbl : Table a) (baseScalar scalar : Bytes) : a.J :=
  let s1 := getScalar baseScalar
  let r1Inf := scalarIsZero s1
  let r1 := preMult a (baseTable a) s1
  let s2 := getScalar scalar
  let r2Inf := scalarIsZero s2
  let r2 := preMult a tbl s2
  let ad := a.add r1 r2
  let double := a.dbl r1
  let sum := copyConditional a ad.1 double (if ad.2 then 1 else 0)
  let sum := copyConditional a sum r1 r2Inf
  copyConditional a sum r2 r1Inf

/-- `CombinedMult`, sm2/sm2p256_amd64.go:269-307. -/
def combinedMult (a : Asm) (tbl : Table a) (baseScalar scalar : Bytes) : Coord := a.toCoord (combinedJ a tbl baseScalar scalar)

/-- The amd64 curve object; `add` is the generic `elliptic.CurveParams.Add` of the standard library,
which the type inherits. -/
def curve (a : Asm) (stdAdd : Coord → Coord → Coord) : Curve where
  T := Table a
  scalarBaseMult := scalarBaseMult a
  scalarMult := scalarMult a
  add := stdAdd
  opt := some { combinedMult := combinedMult a, initPubKeyTable := initPubKeyTable a,
                preScalarMult := preScalarMult a }

end Verif.Sm2.Amd64
