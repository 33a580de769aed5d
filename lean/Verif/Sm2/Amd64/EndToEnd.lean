import Verif.Sm2.Amd64.Props
import Verif.Sm2.SignProps
import Verif.Sm2.EncProps
import Verif.Sm3.Props
/-!
The SM2 theorems for the real curve object of the amd64 build, with no hypothesis about the curve
left, and the concrete failures found (C15, C57, C59, C61).
-/
namespace Verif.Sm2.Amd64
open Verif Verif.Sm2

theorem val_lt_256 (a : F) : a.val < 2 ^ 256 :=
  Nat.lt_of_lt_of_le (ZMod.val_lt a) (by decide +kernel)

theorem toCoord_lt (p : asm.J) : (asm.toCoord p).1 < 2 ^ 256 ∧ (asm.toCoord p).2 < 2 ^ 256 := by
  unfold asm
  dsimp only
  exact ⟨val_lt_256 _, val_lt_256 _⟩

theorem sm2_bounded : Bounded sm2Curve := by
  intro x y k
  exact toCoord_lt (scalarMultJ asm (asm.ofCoord x y) (getScalar k))

theorem generated_usable (rand : Bytes) (priv : PrivateKey sm2Curve) (h : generateKey sm2Curve rand = .ok priv) (t : Nat) :
    sm2Lawful.Usable priv.toPublicKey t := by
  left
  unfold generateKey at h
  cases hk : randFieldElement rand with
  | panic => rw [hk] at h; simp at h
  | err e => rw [hk] at h; simp at h
  | ok k =>
    rw [hk] at h
    simp only [Res.ok_bind, Res.ok.injEq] at h
    subst h
    exact ⟨by simp [sm2Curve, curve], by simp [sm2Curve, curve]⟩

/-- **C10 on the real curve.** A key made by `GenerateKey` other than `n-1`: every signature it makes
with nonzero `r` and `s` verifies under its public key. -/
theorem C10_amd64 (rk rand msg : Bytes) (priv : PrivateKey sm2Curve) (hgen : generateKey sm2Curve rk = .ok priv)
    (hd : priv.d ≠ (N : Int) - 1) (r s : Int) (hsign : sign sm2Curve rand priv msg = .ok (r, s))
    (hr : r ≠ 0) (hs : s ≠ 0) : verify sm2Curve priv.toPublicKey msg r s = .ok true := by
  obtain ⟨d, h1, h2, hP⟩ := C10_generated_keys sm2Lawful rk priv hgen
  have hsc := hP.scalar
  have hd' : (d + 1) % N ≠ 0 := by
    rw [Nat.mod_eq_of_lt (by omega)]; omega
  exact C10_sign_verifies sm2Lawful priv d hP hd' rand msg r s hsign hr hs _ hP.pub (generated_usable rk priv hgen _)

/-- **C15 on the real curve.** A key made by `GenerateKey` other than `n-6` decrypts whatever was
encrypted to it. -/
theorem C15_amd64_partial (rk rand msg ct : Bytes) (priv : PrivateKey sm2Curve) (hgen : generateKey sm2Curve rk = .ok priv)
    (hd : priv.d ≠ (N : Int) - 6) (henc : encrypt sm2Curve rand priv.toPublicKey msg = some (.ok ct)) :
    decrypt priv ct = .ok msg ∧ ct.length = 97 + msg.length ∧ ct.head? = some 4 := by
  obtain ⟨d, h1, h2, hP⟩ := C10_generated_keys sm2Lawful rk priv hgen
  have hsc := hP.scalar
  refine C15_roundtrip_partial sm2Lawful sm2_bounded priv d hP _ hP.pub rand msg ct ?_ (fun k _ => generated_usable rk priv hgen _) henc
  rw [Nat.mod_eq_of_lt h2]
  show d ∉ ({N - 6} : Set Nat)
  simp only [Set.mem_singleton_iff]
  omega

/-- **C15 is violated by the key `n-6`** (which `GenerateKey` can return): decryption with it derives
the key stream from the point at infinity, i.e. from 64 zero bytes, for *every* ciphertext whose first
part is a point - the private key plays no role. -/
theorem C15_key_n_minus_6_violated (priv : PrivateKey sm2Curve) (hd : priv.d = (N : Int) - 6)
    (Q : Grp) (hQ : Q ≠ 0) (c3 c2 m : Bytes) (h3 : c3.length = 32)
    (h : decrypt priv (pointToBytes (encPt Q.1).1 (encPt Q.1).2 ++ c3 ++ c2) = .ok m) :
    c3 = Sm3.Spec.hash (beFixed 32 0 ++ m ++ beFixed 32 0) ∧
    c2 = Spec.xor m (Spec.kdf (beFixed 32 0 ++ beFixed 32 0) m.length) := by
  obtain ⟨x1, y1, c2', c3', e, l1, l3, h4⟩ := C16_released_only_if_hash_ok sm2_bounded priv _ m h
  have hlt := asmLawful.enc_lt Q
  have hP : P < 256 ^ 32 := by decide
  have hb : ∀ a b : Nat, a < 256 ^ 32 → b < 256 ^ 32 → (pointToBytes a b).length = 65 := by
    intro a b ha hb
    simp [pointToBytes, padCoord_eq _ ha, padCoord_eq _ hb]
  have l0 := hb _ _ (lt_trans hlt.1 hP) (lt_trans hlt.2 hP)
  have l0' : (pointToBytes (encPt Q.1).1 (encPt Q.1).2).length = 65 := l0
  obtain ⟨e1, e2⟩ := List.append_inj e (by simp only [List.length_append, l0', h3, l1, l3])
  obtain ⟨e3, e4⟩ := List.append_inj e1 (by rw [l0', l1])
  subst e2 e4
  have hz : sm2Curve.scalarMult x1 y1 (natBytes priv.d.natAbs) = (0, 0) := by
    have hxy : (x1, y1) = encPt Q.1 := by
      have e256 : (2 : Nat) ^ 256 = 256 ^ 32 := by decide
      have r1 := (C19_roundtrip (encPt Q.1).1 (encPt Q.1).2 (e256 ▸ lt_trans hlt.1 hP) (e256 ▸ lt_trans hlt.2 hP)).2.2
      have b1 : x1 < 256 ^ 32 ∧ y1 < 256 ^ 32 := by
        have hlen : (padCoord x1).length + (padCoord y1).length = 64 := by
          have := l1; simp [pointToBytes] at this; omega
        have hge : ∀ a, 32 ≤ (padCoord a).length := padCoord_ge
        have key : ∀ a, (padCoord a).length = 32 → a < 256 ^ 32 := padCoord_lt
        have := hge x1; have := hge y1
        exact ⟨key _ (by omega), key _ (by omega)⟩
      have r2 := (C19_roundtrip x1 y1 (e256 ▸ b1.1) (e256 ▸ b1.2)).2.2
      rw [← e3, r1] at r2
      exact (Option.some.inj r2).symm
    rw [hd, show ((N : Int) - 6).natAbs = N - 6 by decide]
    have := asmLawful.scalarMult_bad Q hQ (natBytes (N - 6)) (by rw [beNat_natBytes]; decide)
    have e5 : x1 = (encPt Q.1).1 := congrArg Prod.fst hxy
    have e6 : y1 = (encPt Q.1).2 := congrArg Prod.snd hxy
    rw [e5, e6]
    exact this
  rw [hz] at h4
  exact ⟨h4.1, h4.2.1⟩

/-! ### C61: `Encrypt` can run forever -/

/-- double-and-add over a list of bits -/
def nmul : List Bool → NPt → Option NPt
  | [], p => some p
  | b :: bs, p => match (if b then nadd (ndbl p) nG else some (ndbl p)) with
    | none => none
    | some q => nmul bs q

def bitsVal : List Bool → Nat → Nat
  | [], m => m
  | b :: bs, m => bitsVal bs (2 * m + (if b then 1 else 0))

theorem nmul_rep (bs : List Bool) (p q : NPt) (m : Nat) (h : RepN p (m • gPt)) (hq : nmul bs p = some q) :
    RepN q (bitsVal bs m • gPt) := by
  induction bs generalizing p m with
  | nil => rw [nmul, Option.some.injEq] at hq; subst hq; exact h
  | cons b bs ih =>
    rw [nmul] at hq
    have h1 := repN_dbl _ _ h
    rw [← add_nsmul, ← two_mul] at h1
    cases b with
    | false => exact ih (ndbl p) (2 * m) h1 hq
    | true =>
      simp only [if_true] at hq
      cases ha : nadd (ndbl p) nG with
      | none => rw [ha] at hq; cases hq
      | some r =>
        rw [ha] at hq
        have h2 := repN_add _ _ _ _ _ h1 nG_rep ha
        exact ih r (2 * m + 1) (by rw [add_nsmul, one_nsmul]; exact h2) hq

/-- `351 = 0b101011111` below the leading one -/
def bits351 : List Bool := [false, true, false, true, true, true, true, true]

def k351x : Nat := 0x316fe3dd6255801cc977e25de41e72c4bd74712f9d307a72e13305e1e4a8f4d0
def k351y : Nat := 0x6606511ca364d9502307c881aae55216c611693b2d686fe674e33038deecf15e

def check351 : Option NPt → Bool
  | none => false
  | some p => p.z % P != 0 && p.x % P == k351x * p.z ^ 2 % P && p.y % P == k351y * p.z ^ 3 % P

theorem check351_ok : check351 (nmul bits351 nG) = true := by decide +kernel

theorem enc351 : encPt (351 • gPt) = (k351x, k351y) := by
  have key : ∀ o : Option NPt, check351 o = true → ∃ p, o = some p ∧ p.z % P ≠ 0 ∧
      p.x % P = k351x * p.z ^ 2 % P ∧ p.y % P = k351y * p.z ^ 3 % P := by
    intro o h
    cases o with
    | none => cases h
    | some p =>
      simp only [check351, Bool.and_eq_true, bne_iff_ne, beq_iff_eq] at h
      exact ⟨p, rfl, h.1.1, h.1.2, h.2⟩
  obtain ⟨p, hp, hz, hx, hy⟩ := key _ check351_ok
  have hr := nmul_rep bits351 nG p 1 (by rw [one_nsmul]; exact nG_rep) hp
  have hb : bitsVal bits351 1 = 351 := by decide
  rw [hb] at hr
  have hx' := cast_eq_of_mod hx
  have hy' := cast_eq_of_mod hy
  have hz' : (p.z : F) ≠ 0 := fun h => hz ((cast_zero_iff _).1 h)
  push_cast at hx' hy'
  generalize 351 • gPt = Q at hr
  cases Q with
  | zero => exact absurd hr hz'
  | some X Y hn =>
    obtain ⟨_, h2, h3⟩ := hr
    simp only [Jac.fromMont, inv_one, mul_one, NPt.cast] at h2 h3
    have eX : X = (k351x : F) := mul_right_cancel₀ (pow_ne_zero 2 hz') (by rw [← h2, hx'])
    have eY : Y = (k351y : F) := mul_right_cancel₀ (pow_ne_zero 3 hz') (by rw [← h3, hy'])
    subst eX eY
    show ((k351x : F).val, (k351y : F).val) = _
    rw [ZMod.val_natCast, ZMod.val_natCast, Nat.mod_eq_of_lt (by decide), Nat.mod_eq_of_lt (by decide)]

theorem hash351 : Sm3.sumSM3 (beFixed 32 k351x ++ beFixed 32 k351y ++ beFixed 4 1) =
    .ok (beFixed 32 0x00a4024c4c686d609f47a959047a4536ff87a0cfcfe11524e907674157b57555) := by decide +kernel

/-- **C61 is violated**: for the key `d = 1` (produced by `GenerateKey` for the all-zero randomness) and
the randomness that yields nonce 351, `Encrypt` of any one-byte message never returns. -/
theorem C61_encrypt_diverges_violated :
    ∃ (rk rand : Bytes) (priv : PrivateKey sm2Curve), generateKey sm2Curve rk = .ok priv ∧
      ∀ b : Byte, encrypt sm2Curve rand priv.toPublicKey [b] = none := by
  obtain ⟨rk, _, _, hrk⟩ := C12_onto 1 ⟨le_refl _, by decide⟩
  obtain ⟨rand, _, hrand, _⟩ := C12_onto 351 ⟨by decide, by decide⟩
  have hgen : ∃ priv, generateKey sm2Curve rk = .ok priv ∧ priv.d = 1 := by
    simp only [generateKey, hrk, Res.ok_bind]
    exact ⟨_, rfl, rfl⟩
  obtain ⟨priv, hp, hd⟩ := hgen
  refine ⟨rk, rand, priv, hp, fun b => ?_⟩
  obtain ⟨d, _, _, hP⟩ := C10_generated_keys sm2Lawful rk priv hp
  have hd1 : d = 1 := by have := hP.scalar; omega
  subst hd1
  rw [C15_diverges_iff sm2Lawful priv.toPublicKey _ hP.pub rand [b] 351 hrand (generated_usable rk priv hp _)]
  refine ⟨by simp, ?_⟩
  have e : sm2Lawful.enc (351 • 1 • sm2Lawful.g) = (k351x, k351y) := by
    rw [one_nsmul]; exact enc351
  rw [e]
  have hk : Spec.kdf (beFixed 32 k351x ++ beFixed 32 k351y) [b].length = [0] := by
    have hh : Sm3.Spec.hash (beFixed 32 k351x ++ beFixed 32 k351y ++ beFixed 4 1) =
        beFixed 32 0x00a4024c4c686d609f47a959047a4536ff87a0cfcfe11524e907674157b57555 := by
      have h1 := Sm3.C02_sumSM3_is_standard (beFixed 32 k351x ++ beFixed 32 k351y ++ beFixed 4 1)
      rw [hash351] at h1
      exact (Res.ok.inj h1).symm
    unfold Spec.kdf
    simp only [List.length_singleton]
    rw [show (1 + 31) / 32 = 1 from rfl, show List.range 1 = [0] from rfl]
    simp only [List.flatMap_cons, List.flatMap_nil, List.append_nil]
    rw [show 0 + 1 = 1 from rfl, hh]
    decide +kernel
  rw [hk]
  simp

/-! ### C59: the order-field inversion -/

/-- `sm2p256OrdSqr(x, x, n)` -/
def ordSqrN (r : ZMod N) : Nat → ZMod N → ZMod N
  | 0, x => x
  | n+1, x => ordSqrN r n (Jac.mmul r x x)

/-- `expLo`, sm2/sm2p256_amd64.go:174 -/
def expLo : List Nat := [0xb, 0xc, 0xe, 0x6, 0xf, 0xa, 0xa, 0xd, 0xa, 0x7, 0x1, 0x7, 0x9, 0xe, 0x8, 0x4,
  0xf, 0x3, 0xb, 0x9, 0xc, 0xa, 0xc, 0x2, 0xf, 0xc, 0x6, 0x3, 0x2, 0x5, 0x4, 0xf]

/-- entry `i` (from 0) of the power table, sm2/sm2p256_amd64.go:135-142: entry 0 is the base, even
entries (odd powers) multiply the previous one by the base, odd entries square entry `i/2`. -/
def ordTable (r x : ZMod N) (i : Nat) : ZMod N :=
  if h : i = 0 then x
  else if i % 2 = 1 then Jac.mmul r (ordTable r x (i / 2)) (ordTable r x (i / 2))
  else Jac.mmul r (ordTable r x (i - 1)) x
termination_by i
decreasing_by all_goals omega

/-- `RR`, sm2/sm2p256_amd64.go:128 -/
def ordRR : Nat := words 0x901192AF7C114F20 0x3464504ADE6FA2FA 0x620FC84C3AFFE0D4 0x1EB5E412A22B3D3B

/-- `Inverse`, sm2/sm2p256_amd64.go:109-191. `sm2p256OrdMul` is the Montgomery product modulo `N`
(assembly, not modelled at word level). -/
def ordInverse (k : Int) : Nat :=
  let k : Int := if k < 0 then -k else k
  let k : Nat := k.toNat % N
  let r : ZMod N := 2 ^ 256
  let x0 := Jac.mmul r (k : ZMod N) (ordRR : ZMod N)
  let x := ordTable r x0 14
  let x := ordSqrN r 4 x
  let x := Jac.mmul r x (ordTable r x0 14)
  let t := x
  let x := ordSqrN r 8 x
  let x := Jac.mmul r x t
  let t := x
  let x := ordSqrN r 16 x
  let x := Jac.mmul r x t
  let t := x
  let x := ordSqrN r 64 x
  let x := Jac.mmul r x t
  let x := ordSqrN r 32 x
  let x := Jac.mmul r x t
  let x := expLo.foldl (fun x e => Jac.mmul r (ordSqrN r 4 x) (ordTable r x0 (e - 1))) x
  (Jac.mmul r x 1).val

/-- order of the NIST P-256 group, minus two -/
def nistExp : Nat := 0xffffffff00000000ffffffffffffffffbce6faada7179e84f3b9cac2fc63254f

theorem ordSqrN_eq (r : ZMod N) (n : Nat) (x : ZMod N) : ordSqrN r n x = Jac.sqrN r n x := by
  induction n generalizing x with
  | zero => rfl
  | succ n ih => rw [ordSqrN, ih, Jac.sqrN]

theorem ordTable_fm (r x : ZMod N) (i : Nat) : Jac.fromMont r (ordTable r x i) = Jac.fromMont r x ^ (i + 1) := by
  induction i using Nat.strong_induction_on with
  | _ i ih =>
    rw [ordTable]
    split
    · rename_i h; subst h; simp
    · split
      · rw [Jac.fm_mul, ih _ (by omega), ← pow_add]; congr 1; omega
      · rw [Jac.fm_mul, ih _ (by omega), ← pow_succ]; congr 1; omega

theorem expLo_fold (r x0 : ZMod N) (l : List Nat) (hl : ∀ e ∈ l, 0 < e) (x : ZMod N) (m : Nat)
    (hx : Jac.fromMont r x = Jac.fromMont r x0 ^ m) :
    Jac.fromMont r (l.foldl (fun x e => Jac.mmul r (ordSqrN r 4 x) (ordTable r x0 (e - 1))) x) =
      Jac.fromMont r x0 ^ (l.foldl (fun m e => 16 * m + e) m) := by
  induction l generalizing x m with
  | nil => exact hx
  | cons e l ih =>
    rw [List.foldl_cons, List.foldl_cons]
    apply ih (fun e h => hl e (List.mem_cons_of_mem _ h))
    have := hl e List.mem_cons_self
    rw [Jac.fm_mul, ordSqrN_eq, Jac.fm_sqrN, hx, ordTable_fm, ← pow_mul, ← pow_add]
    congr 1; omega

theorem ord_two_ne : (2 : ZMod N) ≠ 0 := by
  have h : ((2 : Nat) : ZMod N) ≠ ((0 : Nat) : ZMod N) := by
    rw [Ne, ZMod.natCast_eq_natCast_iff]; decide
  exact_mod_cast h

/-- **C59, what the code computes**: `Inverse(k)` is `|k|^E mod n` with the exponent of *NIST* P-256
(order minus two), not of SM2. -/
theorem C59_value_partial (k : Int) : (ordInverse k : ZMod N) = (k.natAbs : ZMod N) ^ nistExp := by
  unfold ordInverse
  extract_lets k1 k2 r x0 x1 x2 x3 t x4 x5 t2 x6 x7 t3 x8 x9 x10 x11 x12
  have hr : r ≠ 0 := pow_ne_zero _ ord_two_ne
  have hk : (k2 : ZMod N) = (k.natAbs : ZMod N) := by
    have : k1.toNat = k.natAbs := by
      simp only [k1]; split <;> omega
    show ((k1.toNat % N : Nat) : ZMod N) = _
    rw [ZMod.natCast_mod, this]
  have h0 : Jac.fromMont r x0 = (k.natAbs : ZMod N) := by
    have hRR : (ordRR : ZMod N) = r * r := by
      have h : ((ordRR : Nat) : ZMod N) = ((2 ^ 256 * 2 ^ 256 : Nat) : ZMod N) := by
        rw [ZMod.natCast_eq_natCast_iff]; decide +kernel
      rw [h]; simp only [r]; push_cast; ring
    show Jac.fromMont r (Jac.mmul r _ _) = _
    rw [Jac.fm_mul, hRR, hk]
    unfold Jac.fromMont; field_simp
  rw [ZMod.natCast_val, ZMod.cast_id]
  have hlast : Jac.mmul r x12 1 = Jac.fromMont r x12 := by unfold Jac.mmul Jac.fromMont; ring
  rw [hlast, ← h0]
  generalize ha : Jac.fromMont r x0 = a
  have e1 : Jac.fromMont r x1 = a ^ 15 := by rw [← ha]; exact ordTable_fm r x0 14
  have e2 := Jac.fm_sqrN_pow r _ a _ 4 e1
  rw [← ordSqrN_eq] at e2
  have e3 := Jac.fm_mul_pow r _ _ a _ _ e2 e1
  have e4 := Jac.fm_sqrN_pow r _ a _ 8 e3
  rw [← ordSqrN_eq] at e4
  have e5 := Jac.fm_mul_pow r _ _ a _ _ e4 e3
  have e6 := Jac.fm_sqrN_pow r _ a _ 16 e5
  rw [← ordSqrN_eq] at e6
  have e7 := Jac.fm_mul_pow r _ _ a _ _ e6 e5
  have e8 := Jac.fm_sqrN_pow r _ a _ 64 e7
  rw [← ordSqrN_eq] at e8
  have e9 := Jac.fm_mul_pow r _ _ a _ _ e8 e7
  have e10 := Jac.fm_sqrN_pow r _ a _ 32 e9
  rw [← ordSqrN_eq] at e10
  have e11 := Jac.fm_mul_pow r _ _ a _ _ e10 e7
  have e12 := expLo_fold r x0 expLo (by decide) x11 _ (by rw [ha]; exact e11)
  rw [ha] at e12
  refine e12.trans ?_
  congr 1

/-- **C59 is violated**: `Inverse(2)` is not the inverse of 2 modulo `n`. -/
theorem C59_inverse_violated : (ordInverse 2 * 2) % N ≠ 1 := by
  intro h
  have h1 : ((ordInverse 2 * 2 : Nat) : ZMod N) = ((1 : Nat) : ZMod N) := by
    rw [ZMod.natCast_eq_natCast_iff, Nat.ModEq, h]; decide
  rw [Nat.cast_mul, C59_value_partial] at h1
  have h2 := powModF_spec 257 N 2 (nistExp + 1) 1 (by decide +kernel)
  rw [Nat.cast_one, one_mul, pow_succ] at h2
  have h3 : ((powModF 257 N 2 (nistExp + 1) 1 : Nat) : ZMod N) = ((1 : Nat) : ZMod N) := by
    rw [h2, ← h1]; rfl
  rw [ZMod.natCast_eq_natCast_iff] at h3
  revert h3
  show ¬ (powModF 257 N 2 (nistExp + 1) 1 % N = 1 % N)
  decide +kernel

end Verif.Sm2.Amd64
