import Verif.Go
/-
Specification of the SM4 block cipher from GB/T 32907-2016, and of PKCS#7 padding and the ECB / CBC
modes, independent of the Go code.  The S-box is given by its algebraic definition over
GF(2^8) = GF(2)[x]/(x^8+x^7+x^6+x^5+x^4+x^2+1), not by a table.
-/
namespace Verif.Sm4.Spec

/-- multiply by x in the field -/
def xtime (a : Nat) : Nat := if a < 128 then 2 * a else (2 * a) ^^^ 0x1F5
/-- field multiplication (shift and add over the 8 bits of `b`) -/
def gmul (a b : Nat) : Nat :=
  (List.range 8).foldl (fun acc i => xtime acc ^^^ (if b.testBit (7 - i) then a else 0)) 0
/-- `a^254`, the inverse of `a` (and 0 for 0) -/
def ginv (a : Nat) : Nat :=
  let a2 := gmul a a
  let a4 := gmul a2 a2
  let a8 := gmul a4 a4
  let a16 := gmul a8 a8
  let a32 := gmul a16 a16
  let a64 := gmul a32 a32
  let a128 := gmul a64 a64
  gmul a128 (gmul a64 (gmul a32 (gmul a16 (gmul a8 (gmul a4 a2)))))
/-- the cyclic linear map of the S-box -/
def aff (x : Byte) : Byte :=
  x ^^^ x.rotateLeft 1 ^^^ x.rotateLeft 3 ^^^ x.rotateLeft 6 ^^^ x.rotateLeft 7
/-- S(x) = A(I(A x + C)) + C with C = 0xD3 -/
def S (x : Byte) : Byte :=
  aff (BitVec.ofNat 8 (ginv (aff x ^^^ 0xD3).toNat)) ^^^ 0xD3

/-- byte `i` of a word, counted from the left (6.2.1: A = (a_0, a_1, a_2, a_3)) -/
def byteOf (x : W32) (i : Nat) : Byte := BitVec.ofNat 8 (x.toNat / 256 ^ (3 - i))
/-- 6.2.1 non-linear transformation tau -/
def tau (x : W32) : W32 :=
  BitVec.ofNat 32 (beNat [S (byteOf x 0), S (byteOf x 1), S (byteOf x 2), S (byteOf x 3)])
/-- 6.2.2 linear transformation L -/
def L (b : W32) : W32 :=
  b ^^^ b.rotateLeft 2 ^^^ b.rotateLeft 10 ^^^ b.rotateLeft 18 ^^^ b.rotateLeft 24
/-- 6.2 T -/
def T (x : W32) : W32 := L (tau x)
/-- 7.3 L' and T' -/
def L' (b : W32) : W32 := b ^^^ b.rotateLeft 13 ^^^ b.rotateLeft 23
def T' (x : W32) : W32 := L' (tau x)

/-- 7.3.2 FK -/
def FK : Nat → W32
  | 0 => 0xA3B1BAC6 | 1 => 0x56AA3350 | 2 => 0x677D9197 | 3 => 0xB27022DC | _ => 0
/-- 7.3.3 CK: ck_{i,j} = (4i + j) * 7 mod 256 -/
def CK (i : Nat) : W32 :=
  BitVec.ofNat 32 (beNat ((List.range 4).map fun j => BitVec.ofNat 8 ((4 * i + j) * 7)))

/-- word `i` of a byte string, big-endian -/
def word (b : Bytes) (i : Nat) : W32 := BitVec.ofNat 32 (beNat ((b.drop (4 * i)).take 4))

/-- 7.3 key expansion K_i -/
def K (mk : Bytes) (i : Nat) : W32 :=
  if i < 4 then word mk i ^^^ FK i
  else K mk (i-4) ^^^ T' (K mk (i-3) ^^^ K mk (i-2) ^^^ K mk (i-1) ^^^ CK (i-4))
termination_by i
/-- round key rk_i -/
def rk (mk : Bytes) (i : Nat) : W32 := K mk (i + 4)

/-- 7.1 the round sequence X_i with round keys `k` -/
def X (k : Nat → W32) (b : Bytes) (i : Nat) : W32 :=
  if i < 4 then word b i
  else X k b (i-4) ^^^ T (X k b (i-3) ^^^ X k b (i-2) ^^^ X k b (i-1) ^^^ k (i-4))
termination_by i

/-- 7.1 output (X_35, X_34, X_33, X_32) -/
def crypt (k : Nat → W32) (b : Bytes) : Bytes :=
  beFixed 4 (X k b 35).toNat ++ beFixed 4 (X k b 34).toNat ++
  beFixed 4 (X k b 33).toNat ++ beFixed 4 (X k b 32).toNat

/-- 7.1 encryption, 7.2 decryption (round keys in reverse order) -/
def enc (mk b : Bytes) : Bytes := crypt (rk mk) b
def dec (mk b : Bytes) : Bytes := crypt (fun i => rk mk (31 - i)) b

/-- block number `i` of a byte string -/
def blk (m : Bytes) (i : Nat) : Bytes := (m.drop (16 * i)).take 16

/-- bytewise exclusive or -/
def bxor (a b : Bytes) : Bytes := List.zipWith (· ^^^ ·) a b

/-- PKCS#7 for 16-byte blocks: `p` is `m` followed by n copies of n, 1 ≤ n ≤ 16. -/
def Padded (m p : Bytes) : Prop :=
  ∃ n, 1 ≤ n ∧ n ≤ 16 ∧ p = m ++ List.replicate n (BitVec.ofNat 8 n)

end Verif.Sm4.Spec
