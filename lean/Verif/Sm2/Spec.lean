import Verif.Sm2.Model
import Verif.Sm2.Prime
import Verif.Sm3.Spec
/-!
Independent specification for SM2: what the curve object is supposed to compute (`Lawful`), the
GB/T 32918 verification predicate, key derivation function, identity hash input.
-/
namespace Verif.Sm2
open Verif

/-- The curve object `c` implements the group `G` on affine coordinates (`(0,0)` for the point at
infinity), with base point `g` of order `N`; `bad` is the set of scalars (mod `N`) on which
`ScalarMult` is *not* promised to be right (empty for a correct implementation). -/
structure Lawful (c : Curve) (G : Type) [AddCommGroup G] where
  g : G
  enc : G → Coord
  bad : Set Nat
  enc_zero : enc 0 = (0, 0)
  enc_inj : Function.Injective enc
  enc_lt : ∀ Q, (enc Q).1 < P ∧ (enc Q).2 < P
  order : ∀ Q : G, N • Q = 0
  g_ne : g ≠ 0
  base : ∀ k, c.scalarBaseMult k = enc (beNat k • g)
  mult : ∀ Q k, Q ≠ 0 → beNat k % N ∉ bad → c.scalarMult (enc Q).1 (enc Q).2 k = enc (beNat k • Q)
  add : ∀ Q R, c.add (enc Q) (enc R) = enc (Q + R)
  combined : ∀ o, c.opt = some o → ∀ Q, Q ≠ 0 → ∀ s t,
    o.combinedMult (o.initPubKeyTable (enc Q).1 (enc Q).2) s t = enc (beNat s • g + beNat t • Q)
  pre : ∀ o, c.opt = some o → ∀ Q, Q ≠ 0 → ∀ k,
    o.preScalarMult (o.initPubKeyTable (enc Q).1 (enc Q).2) k = enc (beNat k • Q)

variable {c : Curve} {G : Type} [AddCommGroup G]

/-- `pub` holds the coordinates of `Q ≠ 0`, and its table (if any) is the one `InitPubKeyTable`
builds for these coordinates. -/
structure Lawful.PubOf (L : Lawful c G) (pub : PublicKey c) (Q : G) : Prop where
  ne : Q ≠ 0
  x : pub.x = (L.enc Q).1
  y : pub.y = (L.enc Q).2
  pre : pub.pre = none ∨ ∃ o, c.opt = some o ∧ pub.pre = some (o.initPubKeyTable pub.x pub.y)

/-- `priv` is the private key `d`, with its public point `d·g` and with `DInv` either absent or as
`GenerateKey` computes it. -/
structure Lawful.PrivOf (L : Lawful c G) (priv : PrivateKey c) (d : Nat) : Prop where
  pub : L.PubOf priv.toPublicKey (d • L.g)
  scalar : priv.d = d
  dInv : priv.dInv = none ∨ priv.dInv = some (modInverse ((d : Int) + 1))

/-- The verifier will multiply through the table, or by a scalar `ScalarMult` handles. -/
def Lawful.Usable (L : Lawful c G) (pub : PublicKey c) (t : Nat) : Prop :=
  (pub.pre ≠ none ∧ c.opt ≠ none) ∨ t % N ∉ L.bad

namespace Spec

/-- GB/T 32918.2-2016 §7.1, steps B1-B7, for the hash value `e` (an integer). -/
def Accepts (L : Lawful c G) (Q : G) (e : Nat) (r s : Int) : Prop :=
  (1 ≤ r ∧ r < N) ∧ (1 ≤ s ∧ s < N) ∧ (r + s) % N ≠ 0 ∧
    ((e : Int) + (L.enc (s.toNat • L.g + ((r + s) % N).toNat • Q)).1) % N = r

/-- GB/T 32918.2-2016 §5.5: `Z = H(ENTL || ID || a || b || xG || yG || xA || yA)`. -/
def zInput (id : Bytes) (x y : Nat) : Bytes :=
  beFixed 2 (8 * id.length) ++ id ++ beFixed 32 A ++ beFixed 32 B ++ beFixed 32 Gx ++
    beFixed 32 Gy ++ beFixed 32 x ++ beFixed 32 y

/-- GB/T 32918.2-2016 §6.1 A1-A2: `e = H(Z || M)` with the default identity. -/
def msgHash (x y : Nat) (msg : Bytes) : Bytes :=
  Sm3.Spec.hash (Sm3.Spec.hash (zInput defaultId x y) ++ msg)

/-- GB/T 32918.4-2016 §5.4.3: the first `len` bytes of `H(Z||1) || H(Z||2) || …`. -/
def kdf (z : Bytes) (len : Nat) : Bytes :=
  ((List.range ((len + 31) / 32)).flatMap fun i => Sm3.Spec.hash (z ++ beFixed 4 (i + 1))).take len

/-- bytewise exclusive or -/
def xor (a b : Bytes) : Bytes := List.zipWith (· ^^^ ·) a b

end Spec
end Verif.Sm2
