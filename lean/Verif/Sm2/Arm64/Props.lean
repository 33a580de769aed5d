import Verif.Sm2.Arm64.Laws
import Verif.Sm2.Amd64.EndToEnd
import Verif.Sm2.ExternalProps
import Verif.Sm2.Witness
/-!
C118 to C120: the arm64 build. Its curve object is the generic one of the standard library; the arithmetic is exact, all scalars work, and invalid points
are multiplied on the curve they belong to.
-/
namespace Verif.Sm2.Arm64
open Verif Verif.Sm2 Verif.Sm2.Amd64 Verif.Sm2.Amd64.Jac

/-! ### C118: the group law -/

/-- C118: for all points of the curve, infinity included, `Add` and `Double` return the coordinates of the sum and of the double; for every point other than
infinity and every byte string, `ScalarMult` returns those of the multiple, and `ScalarBaseMult` those of the multiple of the base point. -/
theorem C118_group_law (Q Q' : sm2W.Point) (k : Bytes) :
    add (encPt Q) (encPt Q') = encPt (Q + Q') ∧ double (encPt Q) = encPt (Q + Q) ∧
    (Q ≠ 0 → scalarMult (encPt Q).1 (encPt Q).2 k = encPt (beNat k • Q)) ∧
    scalarBaseMult k = encPt (beNat k • gPt) := by
  refine ⟨add_enc Q Q', double_enc Q, fun h => scalarMult_enc Q h k, ?_⟩
  have h := scalarMult_enc gPt (WeierstrassCurve.Affine.Point.some_ne_zero g_on_curve) k
  rw [← h]
  show scalarMult Gx Gy k = scalarMult ((Gx : F)).val ((Gy : F)).val k
  rw [ZMod.val_natCast, ZMod.val_natCast, Nat.mod_eq_of_lt (by decide), Nat.mod_eq_of_lt (by decide)]

/-- a point other than infinity -/
example : gPt ≠ 0 := WeierstrassCurve.Affine.Point.some_ne_zero g_on_curve

/-- C118: `IsOnCurve` decides the equation of the curve, for all integers. -/
theorem C118_isOnCurve (x y : Int) : isOnCurve x y = true ↔ ((y : F) ^ 2 = (x : F) ^ 3 + (A : F) * (x : F) + (Verif.Sm2.B : F)) := by
  simp only [isOnCurve, beq_iff_eq]
  have e : ∀ a b : Int, a % (P : Int) = b % P ↔ (a : F) = (b : F) := fun a b => (ZMod.intCast_eq_intCast_iff a b P).symm
  rw [e, A_eq]
  simp only [Int.cast_sub, Int.cast_mul, Int.cast_add, Int.cast_ofNat, Int.cast_natCast]
  constructor
  · intro h; linear_combination -h
  · intro h; linear_combination -h

/-- the base point passes, `(1, 1)` does not -/
example : isOnCurve Gx Gy = true ∧ isOnCurve 1 1 = false := by decide +kernel

/-- C118 for the multiples of infinity: they are infinity. -/
theorem C118_infinity (k : Bytes) : scalarMult 0 0 k = (0, 0) := by
  have hn : (W (0 : F)).Nonsingular 0 0 := by
    rw [WeierstrassCurve.Affine.nonsingular_iff, WeierstrassCurve.Affine.equation_iff]
    refine ⟨by simp [W], Or.inl ?_⟩
    have h3 : ((3 : Nat) : F) ≠ ((0 : Nat) : F) := cast_ne_of_mod (by decide)
    push_cast at h3
    simpa [W] using h3
  have h := scalarMult_point hn k
  rw [ZMod.val_zero] at h
  rw [h]
  have h2 : (.some 0 0 hn : (W (0 : F)).Point) + .some 0 0 hn = 0 :=
    WeierstrassCurve.Affine.Point.add_self_of_Y_eq (by rw [negY_W, neg_zero])
  rw [← two_nsmul] at h2
  rcases Nat.even_or_odd' (beNat k) with ⟨m, hm | hm⟩
  · rw [hm, mul_nsmul, h2, nsmul_zero]; rfl
  · rw [hm, add_nsmul, mul_nsmul, h2, nsmul_zero, one_nsmul, zero_add]
    simp [enc]

/-- The curve object of the arm64 build obeys the laws, with no exception for any scalar. -/
noncomputable def armLawful : Lawful curve Grp where
  g := ⟨gPt, AddSubgroup.mem_zmultiples gPt⟩
  enc := fun Q => encPt Q.1
  bad := ∅
  enc_zero := rfl
  enc_inj := fun p q h => Subtype.ext (encPt_inj h)
  enc_lt := asmLawful.enc_lt
  order := asmLawful.order
  g_ne := asmLawful.g_ne
  base := fun k => (C118_group_law 0 0 k).2.2.2
  mult := fun Q k hQ _ => (C118_group_law Q.1 0 k).2.2.1 (fun h => hQ (Subtype.ext h))
  add := fun Q R => (C118_group_law Q.1 R.1 []).1
  combined := by intro o ho; cases ho
  pre := by intro o ho; cases ho

theorem arm_bounded : Bounded curve := fun x y k =>
  have h := affine_lt (bytes ⟨x, y, 1⟩ k ⟨0, 0, 0⟩)
  have hP : P < 2 ^ 256 := by decide
  ⟨lt_trans h.1 hP, lt_trans h.2 hP⟩

theorem arm_usable (pub : PublicKey curve) (t : Nat) : armLawful.Usable pub t := Or.inr (by show t % N ∉ (∅ : Set Nat); simp)

/-! ### C119: signatures and encryption of the arm64 build -/

/-- C119: every signature that a key made by `GenerateKey` makes, other than with the key `n - 1` and with `r` or `s` zero, verifies. -/
theorem C119_sign_verify_partial (rk rand msg : Bytes) (priv : PrivateKey curve) (hgen : generateKey curve rk = .ok priv)
    (hd : priv.d ≠ (N : Int) - 1) (r s : Int) (hsign : sign curve rand priv msg = .ok (r, s)) (hr : r ≠ 0) (hs : s ≠ 0) :
    verify curve priv.toPublicKey msg r s = .ok true := by
  obtain ⟨d, h1, h2, hP⟩ := C10_generated_keys armLawful rk priv hgen
  have hsc := hP.scalar
  have hd' : (d + 1) % N ≠ 0 := by
    rw [Nat.mod_eq_of_lt (by omega)]; omega
  exact C10_sign_verifies armLawful priv d hP hd' rand msg r s hsign hr hs _ hP.pub (arm_usable _ _)

/-- C119: every key made by `GenerateKey` decrypts whatever was encrypted to it; unlike on amd64 there is no exception. -/
theorem C119_encrypt_decrypt (rk rand msg ct : Bytes) (priv : PrivateKey curve) (hgen : generateKey curve rk = .ok priv)
    (henc : encrypt curve rand priv.toPublicKey msg = some (.ok ct)) :
    decrypt priv ct = .ok msg ∧ ct.length = 97 + msg.length ∧ ct.head? = some 4 := by
  obtain ⟨d, h1, h2, hP⟩ := C10_generated_keys armLawful rk priv hgen
  exact C15_roundtrip_partial armLawful arm_bounded priv d hP _ hP.pub rand msg ct (by show _ ∉ (∅ : Set Nat); simp) (fun k _ => arm_usable _ _) henc

/-- C119: `Sm2KeyGen`, `Sm2Sign` and `Sm2Verify` on byte strings. -/
theorem C119_bytes_partial (rk rand msg sk pk sig : Bytes) (hgen : sm2KeyGen curve rk = .ok (sk, pk)) (hsig : sm2Sign curve rand sk pk msg = .ok sig)
    (r s : Int) (hrs : unmarshalPair sig = some (r, s)) (hr : r ≠ 0) (hs : s ≠ 0) (hd : sk ≠ marshalOne (N - 1)) :
    sm2Verify curve sig pk msg = .ok true :=
  keygen_sign_verify armLawful rk rand msg sk pk sig hgen hsig r s hrs hr hs hd (by show _ ∉ (∅ : Set Nat); simp)

/-- C119: `EncryptAsn1` and `DecryptAsn1`, for messages below 2^29 bytes. -/
theorem C119_asn1 (rk rand msg ct : Bytes) (priv : PrivateKey curve) (hgen : generateKey curve rk = .ok priv) (hm : msg.length < 2 ^ 29)
    (henc : encryptAsn1 curve rand priv.toPublicKey msg = some (.ok ct)) : decryptAsn1 priv ct = .ok msg :=
  asn1_roundtrip armLawful rand msg ct priv (fun ct' h => C119_encrypt_decrypt rk rand msg ct' priv hgen h) hm henc

/-- C119: what `Verify` accepts on arm64 is what the standard accepts, plus the pairs with `r + s = n` (see C11). -/
theorem C119_verify_partial (pub : PublicKey curve) (Q : Grp) (hpub : armLawful.PubOf pub Q) (dg : Bytes) (r s : Int) :
    verifyWithDigest curve pub dg r s = true ↔ Spec.Accepts armLawful Q (beNat dg) r s ∨
      (1 ≤ r ∧ 1 ≤ s ∧ r + s = N ∧ ((beNat dg : Int) + (encPt (s.toNat • gPt)).1) % N = r) :=
  C11_digest_partial armLawful pub Q hpub dg r s (arm_usable _ _)

theorem generate_same {c c' : Curve} (hb : ∀ k, c.scalarBaseMult k = c'.scalarBaseMult k) (rk : Bytes) (p1 : PrivateKey c) (p2 : PrivateKey c')
    (h1 : generateKey c rk = .ok p1) (h2 : generateKey c' rk = .ok p2) : p1.x = p2.x ∧ p1.y = p2.y ∧ p1.d = p2.d ∧ p1.dInv = p2.dInv := by
  unfold generateKey at h1 h2
  cases hk : randFieldElement rk with
  | panic => rw [hk] at h1; simp at h1
  | err e => rw [hk] at h1; simp at h1
  | ok k =>
    rw [hk] at h1 h2
    simp only [Res.ok_bind, Res.ok.injEq] at h1 h2
    subst h1 h2
    exact ⟨congrArg Prod.fst (hb _), congrArg Prod.snd (hb _), rfl, rfl⟩

theorem sign_same {c c' : Curve} (hb : ∀ k, c.scalarBaseMult k = c'.scalarBaseMult k) (p1 : PrivateKey c) (p2 : PrivateKey c')
    (a1 : p1.x = p2.x) (a2 : p1.y = p2.y) (a3 : p1.d = p2.d) (a4 : p1.dInv = p2.dInv) (rand msg : Bytes) : sign c rand p1 msg = sign c' rand p2 msg := by
  simp only [sign, signInv, hb, a1, a2, a3, a4]

/-- C119: on amd64 (over exact arithmetic) and on arm64 `GenerateKey` makes the same key and `Sign` the same signature out of the same random bytes. -/
theorem C119_same_signature (rk : Bytes) (p1 : PrivateKey curve) (p2 : PrivateKey sm2Curve) (h1 : generateKey curve rk = .ok p1) (h2 : generateKey sm2Curve rk = .ok p2) :
    p1.x = p2.x ∧ p1.y = p2.y ∧ p1.d = p2.d ∧ ∀ rand msg, sign curve rand p1 msg = sign sm2Curve rand p2 msg := by
  have hb : ∀ k, curve.scalarBaseMult k = sm2Curve.scalarBaseMult k := fun k =>
    (C118_group_law 0 0 k).2.2.2.trans (sm2Lawful.base k).symm
  obtain ⟨a1, a2, a3, a4⟩ := generate_same hb rk p1 p2 h1 h2
  exact ⟨a1, a2, a3, fun rand msg => sign_same hb p1 p2 a1 a2 a3 a4 rand msg⟩

/-- a key, and a signature, as in the theorems above -/
example : ∃ priv, generateKey curve Witness.zeros = .ok priv ∧ priv.d = 1 ∧ sign curve Witness.zeros priv Witness.abc = .ok (Witness.r0, Witness.s0) ∧ Witness.r0 ≠ 0 ∧ Witness.s0 ≠ 0 := by
  have hg : ∃ priv, generateKey curve Witness.zeros = .ok priv := by
    have h : ∃ k, randFieldElement Witness.zeros = .ok k := ⟨_, rfl⟩
    obtain ⟨k, hk⟩ := h
    simp only [generateKey, hk, Res.ok_bind]
    exact ⟨_, rfl⟩
  obtain ⟨priv, hg⟩ := hg
  obtain ⟨_, _, h3, h4⟩ := C119_same_signature Witness.zeros priv Witness.key hg Witness.key_generated
  exact ⟨priv, hg, h3, by rw [h4]; exact Witness.signed_abc, Witness.r0_ne, Witness.s0_ne⟩

/-! ### C120: an oracle for the private key -/

/-- C120 is false: for every point `T` of every curve `y² = x³ - 3x + b` and every guess `S`, whoever can see whether `Decrypt` succeeds learns whether `d·T` is the
guess (up to a collision of SM3). -/
theorem C120_oracle_violated {b : F} {x y : F} (hn : (W b).Nonsingular x y) (key : PrivateKey curve) (S : Coord) :
    decrypt key (pointToBytes x.val y.val ++ Sm3.Spec.hash (beFixed 32 S.1 ++ beFixed 32 S.2)) =
      if Sm3.Spec.hash (beFixed 32 (enc (key.d.natAbs • (.some x y hn : (W b).Point))).1 ++ beFixed 32 (enc (key.d.natAbs • (.some x y hn : (W b).Point))).2) =
          Sm3.Spec.hash (beFixed 32 S.1 ++ beFixed 32 S.2)
      then .ok [] else .err "sm2: decryption error" := by
  have hP : P < 2 ^ 256 := by decide
  have e := decrypt_of_parts key x.val y.val (Sm3.Spec.hash (beFixed 32 S.1 ++ beFixed 32 S.2)) [] (lt_trans (ZMod.val_lt x) hP) (lt_trans (ZMod.val_lt y) hP) (Sm3.spec_hash_length _)
  rw [List.append_nil] at e
  rw [e]
  have h2 := decryptParts_spec arm_bounded key x.val y.val [] (Sm3.Spec.hash (beFixed 32 S.1 ++ beFixed 32 S.2))
  simp only at h2
  rw [h2]
  have hq : curve.scalarMult x.val y.val (natBytes key.d.natAbs) = enc (key.d.natAbs • (.some x y hn : (W b).Point)) := by
    have := scalarMult_point hn (natBytes key.d.natAbs)
    rw [beNat_natBytes] at this
    exact this
  rw [hq]
  simp [Spec.xor]

theorem two_zero : (W (-2 : F)).Nonsingular 2 0 := by
  rw [WeierstrassCurve.Affine.nonsingular_iff, WeierstrassCurve.Affine.equation_iff]
  refine ⟨by simp only [W]; ring, Or.inl ?_⟩
  have h9 : ((9 : Nat) : F) ≠ ((0 : Nat) : F) := cast_ne_of_mod (by decide)
  simp only [W]
  intro h
  apply h9
  push_cast
  linear_combination -h

/-- the SM3 values of the coordinates `(2, 0)` and `(0, 0)` -/
def h20 : Nat := 0x9579ed5936993a7f292943ac381e54ef9298138007add6b33946e9e686c9fba5
def h00 : Nat := 0x46b58571be41685c253194d20ec7f82b659cc8c6b753f26d4e9ec85bc91c231e

theorem sum20 : Sm3.sumSM3 (beFixed 32 2 ++ beFixed 32 0) = .ok (beFixed 32 h20) := by decide +kernel
theorem sum00 : Sm3.sumSM3 (beFixed 32 0 ++ beFixed 32 0) = .ok (beFixed 32 h00) := by decide +kernel

theorem hash20 : Sm3.Spec.hash (beFixed 32 2 ++ beFixed 32 0) = beFixed 32 h20 := by
  have h := Sm3.C02_sumSM3_is_standard (beFixed 32 2 ++ beFixed 32 0)
  rw [sum20] at h
  exact (Res.ok.inj h).symm

theorem hash00 : Sm3.Spec.hash (beFixed 32 0 ++ beFixed 32 0) = beFixed 32 h00 := by
  have h := Sm3.C02_sumSM3_is_standard (beFixed 32 0 ++ beFixed 32 0)
  rw [sum00] at h
  exact (Res.ok.inj h).symm

/-- a ciphertext of 97 bytes, fixed in advance -/
def probe : Bytes := pointToBytes 2 0 ++ beFixed 32 h20

theorem val_two : (2 : F).val = 2 := by
  have h : ((2 : Nat) : F).val = 2 := by rw [ZMod.val_natCast, Nat.mod_eq_of_lt (by decide)]
  exact_mod_cast h

/-- C120 is false: `Decrypt` of one fixed ciphertext, made without any knowledge of the key, succeeds if the private key is odd and fails if it is even, for every key. -/
theorem C120_lowest_bit_violated (key : PrivateKey curve) :
    decrypt key probe = if key.d % 2 = 1 then .ok [] else .err "sm2: decryption error" := by
  have h := C120_oracle_violated two_zero key (2, 0)
  rw [val_two, ZMod.val_zero] at h
  simp only [hash20] at h
  have h2 : (.some 2 0 two_zero : (W (-2 : F)).Point) + .some 2 0 two_zero = 0 :=
    WeierstrassCurve.Affine.Point.add_self_of_Y_eq (by rw [negY_W, neg_zero])
  rw [← two_nsmul] at h2
  rw [probe, h]
  rcases Nat.even_or_odd' key.d.natAbs with ⟨m, hm | hm⟩
  · have e : enc (key.d.natAbs • (.some 2 0 two_zero : (W (-2 : F)).Point)) = (0, 0) := by
      rw [hm, mul_nsmul, h2, nsmul_zero]; rfl
    have ho : ¬ key.d % 2 = 1 := by omega
    rw [e, if_neg ho, hash00]
    exact if_neg (by decide +kernel)
  · have e : enc (key.d.natAbs • (.some 2 0 two_zero : (W (-2 : F)).Point)) = (2, 0) := by
      rw [hm, add_nsmul, mul_nsmul, h2, nsmul_zero, one_nsmul, zero_add]
      show ((2 : F).val, (0 : F).val) = (2, 0)
      rw [val_two, ZMod.val_zero]
    have ho : key.d % 2 = 1 := by omega
    rw [e, if_pos ho, hash20]
    exact if_pos rfl

/-- the point of the ciphertext is not on the SM2 curve -/
example : isOnCurve 2 0 = false ∧ probe.length = 97 := by decide +kernel

end Verif.Sm2.Arm64
