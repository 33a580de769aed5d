import Verif.Go
/-
Specification of the SM3 hash function, transcribed from GB/T 32905-2016 (not from the Go code).
Words are `BitVec 32`, `<<<` of the standard is `rotateLeft`.
-/
namespace Verif.Sm3.Spec

/-- 4.2 constants T_j -/
def T (j : Nat) : W32 := if j ≤ 15 then 0x79cc4519 else 0x7a879d8a
/-- 4.3 Boolean functions -/
def FF (j : Nat) (x y z : W32) : W32 :=
  if j ≤ 15 then x ^^^ y ^^^ z else (x &&& y) ||| (x &&& z) ||| (y &&& z)
def GG (j : Nat) (x y z : W32) : W32 :=
  if j ≤ 15 then x ^^^ y ^^^ z else (x &&& y) ||| (~~~x &&& z)
/-- 4.4 permutations -/
def P0 (x : W32) : W32 := x ^^^ x.rotateLeft 9 ^^^ x.rotateLeft 17
def P1 (x : W32) : W32 := x ^^^ x.rotateLeft 15 ^^^ x.rotateLeft 23

/-- 4.1 the initial value IV, as one 256-bit number. -/
def IV : Nat := 0x7380166f4914b2b9172442d7da8a0600a96f30bc163138aae38dee4db0fb0e4e

/-- word `i` (from the left) of a 256-bit value -/
def ivWord (i : Nat) : W32 := BitVec.ofNat 32 (IV / 2 ^ (32 * (7 - i)))

/-- 5.2 padding: bit 1, the least number of zero bits, 64-bit bit length; for a byte string. -/
def pad (m : Bytes) : Bytes :=
  m ++ [0x80] ++ List.replicate ((119 - m.length % 64) % 64) 0 ++ beFixed 8 (8 * m.length)

/-- 5.3.1: word `i` of block `n` of the padded message, big-endian. -/
def B (m : Bytes) (n i : Nat) : W32 :=
  BitVec.ofNat 32 (beNat ((m.drop (64 * n + 4 * i)).take 4))

/-- 5.3.2 message expansion: W_0..W_67 as a function of the block words. -/
def W (b : Nat → W32) (j : Nat) : W32 :=
  if j < 16 then b j
  else P1 (W b (j-16) ^^^ W b (j-9) ^^^ (W b (j-3)).rotateLeft 15)
        ^^^ (W b (j-13)).rotateLeft 7 ^^^ W b (j-6)
termination_by j
/-- 5.3.2: W'_j -/
def W' (b : Nat → W32) (j : Nat) : W32 := W b j ^^^ W b (j+4)

/-- 5.3.3 the registers A..H, as a function from register number 0..7. -/
abbrev Reg := Nat → W32

/-- 5.3.3 one round. -/
def round (b : Nat → W32) (j : Nat) (r : Reg) : Reg :=
  let SS1 := ((r 0).rotateLeft 12 + r 4 + (T j).rotateLeft (j % 32)).rotateLeft 7
  let SS2 := SS1 ^^^ (r 0).rotateLeft 12
  let TT1 := FF j (r 0) (r 1) (r 2) + r 3 + SS2 + W' b j
  let TT2 := GG j (r 4) (r 5) (r 6) + r 7 + SS1 + W b j
  fun i => match i with
    | 3 => r 2
    | 2 => (r 1).rotateLeft 9
    | 1 => r 0
    | 0 => TT1
    | 7 => r 6
    | 6 => (r 5).rotateLeft 19
    | 5 => r 4
    | 4 => P0 TT2
    | _ => 0

/-- rounds 0 .. j-1 -/
def rounds (b : Nat → W32) (v : Reg) : Nat → Reg
  | 0 => v
  | j+1 => round b j (rounds b v j)

/-- 5.3.3 compression function CF(V, B). -/
def CF (v : Reg) (b : Nat → W32) : Reg := fun i => rounds b v 64 i ^^^ v i

/-- 5.3.1 iteration: V^(n). -/
def V (m : Bytes) : Nat → Reg
  | 0 => ivWord
  | n+1 => CF (V m n) (B m n)

/-- 5.4 the hash value: the words of V^(n), n = number of blocks of the padded message. -/
def hash (m : Bytes) : Bytes :=
  let p := pad m
  let v := V p (p.length / 64)
  (List.range 8).flatMap fun i => beFixed 4 (v i).toNat

end Verif.Sm3.Spec
