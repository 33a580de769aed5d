import Verif.X509.Asn1
import Mathlib.Data.Nat.ModEq
import Mathlib.Data.Int.GCD
/-!
RSA private keys: x509/pkcs1.go, with `rsa.PrivateKey.Validate` and `Precompute` of the standard library (Go 1.16, not in /repo), and the RSA case of
x509/pkcs8.go:33-38.

Simplifications: the numbers of a key are natural numbers (the parser refuses others; a caller of `MarshalPKCS1PrivateKey` could build a key with negative or nil
numbers, which is not represented).
-/
namespace Verif.Keys
open Verif

/-- `rsa.PrecomputedValues`; the last are `CRTValues` (`Exp`, `Coeff`; `R` is left out). A nil number is `none`. -/
structure RsaPre where
  dp : Nat
  dq : Nat
  qinv : Option Nat
  crt : List (Nat × Option Nat)
deriving DecidableEq, Repr

/-- `rsa.PrivateKey`; `pre` is none if `Precomputed.Dp` is nil -/
structure RsaKey where
  n : Nat
  e : Nat
  d : Nat
  primes : List Nat
  pre : Option RsaPre
deriving DecidableEq, Repr

/-- `new(big.Int).ModInverse(a, m)` for m > 1: nil if there is no inverse -/
def modInv (a m : Nat) : Option Nat := if Nat.gcd a m = 1 then some (Nat.gcdA a m % m).toNat else none

/-- crypto/rsa `Validate` with `checkPub` -/
def RsaKey.validate (k : RsaKey) : Bool :=
  decide (2 ≤ k.e) && decide (k.e ≤ 2 ^ 31 - 1) && k.primes.all (fun p => decide (1 < p)) && decide (k.primes.prod = k.n) &&
    k.primes.all (fun p => decide (k.e * k.d % (p - 1) = 1))

/-- crypto/rsa `Precompute`, the loop: `r` is the product of the primes before -/
def crtValues (d : Nat) : Nat → List Nat → List (Nat × Option Nat)
  | _, [] => []
  | r, p :: ps => (d % (p - 1), modInv r p) :: crtValues d (r * p) ps

/-- crypto/rsa `Precompute`: nothing if it was done before; fewer than two primes are an index out of range, the prime 1 a division by zero -/
def RsaKey.precompute (k : RsaKey) : Res RsaKey :=
  match k.pre with
  | some _ => .ok k
  | none =>
    match k.primes with
    | p :: q :: more =>
      if 1 ∈ k.primes then .panic
      else .ok { k with pre := some ⟨k.d % (p - 1), k.d % (q - 1), modInv q p, crtValues k.d (p * q) more⟩ }
    | _ => .panic

/-- `asn1:"optional"` on a `*big.Int` -/
def optInt (b : Bytes) : Option (Option Int × Bytes) :=
  match X509.Asn1.opt 0x02 b with
  | none => none
  | some (none, r) => some (none, r)
  | some (some e, r) => (Der.parseIntBody e.body).map fun i => (some i, r)

/-- x509/pkcs1.go:30-36 `pkcs1AdditionalRSAPrime`, from the contents of the SEQUENCE: only the prime is used -/
def extraPrime (b : Bytes) : Option Int := do
  let (p, b) ← Der.parseInt b
  let (_, b) ← Der.parseInt b
  let (_, _) ← Der.parseInt b
  some p

/-- `asn1:"optional,omitempty"` on the slice of those -/
def extraPrimes (b : Bytes) : Option (List Int) :=
  match X509.Asn1.opt 0x30 b with
  | none => none
  | some (none, _) => some []
  | some (some e, _) =>
    match X509.Asn1.seqOf 0x30 e.body with
    | none => none
    | some l => l.mapM extraPrime

/-- x509/pkcs1.go:15-28: the fields of `pkcs1PrivateKey` that are used -/
structure Pkcs1 where
  version : Int
  n : Int
  e : Int
  d : Int
  p : Int
  q : Int
  more : List Int

/-- `asn1.Unmarshal` into `pkcs1PrivateKey`, from the contents of the SEQUENCE -/
def pkcs1Fields (s : Bytes) : Option Pkcs1 := do
  let (version, s) ← Der.parseInt64 s
  let (n, s) ← Der.parseInt s
  let (e, s) ← Der.parseInt64 s
  let (d, s) ← Der.parseInt s
  let (p, s) ← Der.parseInt s
  let (q, s) ← Der.parseInt s
  let (_, s) ← optInt s
  let (_, s) ← optInt s
  let (_, s) ← optInt s
  let more ← extraPrimes s
  some ⟨version, n, e, d, p, q, more⟩

/-- x509/pkcs1.go:45-90 `ParsePKCS1PrivateKey` -/
def parsePKCS1 (der : Bytes) : Res RsaKey :=
  match X509.Asn1.only 0x30 der with
  | none => .err "asn1"
  | some s =>
    match pkcs1Fields s with
    | none => .err "asn1"
    | some f =>
      if 1 < f.version then .err "x509: unsupported private key version"
      else if f.n ≤ 0 ∨ f.d ≤ 0 ∨ f.p ≤ 0 ∨ f.q ≤ 0 then .err "x509: private key contains zero or negative value"
      else if f.more.any (fun a => decide (a ≤ 0)) then .err "x509: private key contains zero or negative prime"
      else
        let k : RsaKey := ⟨f.n.toNat, f.e.toNat, f.d.toNat, f.p.toNat :: f.q.toNat :: f.more.map (·.toNat), none⟩
        if k.validate then k.precompute else .err "crypto/rsa"

/-- x509/pkcs1.go:111-116 and `asn1.Marshal` of one entry; a nil coefficient is an error of `asn1.Marshal` -/
def encExtra (x : Nat × (Nat × Option Nat)) : Option Bytes :=
  match x.2.2 with
  | none => none
  | some c => some (Der.encSeq [Der.encInt x.1, Der.encInt x.2.1, Der.encInt c])

/-- x509/pkcs1.go:93-121 `MarshalPKCS1PrivateKey`: an error of `asn1.Marshal` is dropped, and nil is returned. Nil optional numbers and an empty slice are left out. -/
def marshalPKCS1 (k : RsaKey) : Res Bytes := do
  let k ← k.precompute
  match k.primes, k.pre with
  | p :: q :: more, some pre =>
    if more.length < pre.crt.length then .panic else
    match (more.zip pre.crt).mapM encExtra with
    | none => .ok []
    | some extra =>
      .ok (Der.encSeq ([Der.encInt (if 2 < k.primes.length then 1 else 0), Der.encInt k.n, Der.encInt k.e, Der.encInt k.d, Der.encInt p, Der.encInt q,
        Der.encInt pre.dp, Der.encInt pre.dq] ++ (pre.qinv.map fun x => Der.encInt x).toList ++ if extra.isEmpty then [] else [Der.encSeq extra]))
  | _, _ => .panic

/-- x509/pkcs8.go:26-38: the RSA key inside a PKCS#8 wrapping -/
def pkcs8Rsa (der : Bytes) : Option RsaKey :=
  match (do
    let (s, _) ← Der.parseSeq der
    let (_, s) ← Der.parseInt64 s
    let (a, s) ← parseAlgId s
    let (k, _) ← Der.parseOctets s
    some (a, k)) with
  | none => none
  | some ((alg, _), key) =>
    if alg = oidRSA then
      match parsePKCS1 key with
      | .ok k => some k
      | _ => none
    else none

end Verif.Keys
