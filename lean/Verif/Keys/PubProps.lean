import Verif.Keys.PemProps
import Verif.Sm2.Amd64.EndToEnd
import Mathlib.Tactic.LinearCombination
import Mathlib.Data.Countable.Basic
import Mathlib.Logic.Denumerable
namespace Verif.Keys
open Verif Verif.Sm2

variable {c : Curve} {G : Type} [AddCommGroup G]

/-- the SM2 curve equation `y² = x³ + a·x + b` on reduced coordinates -/
def OnCurve (x y : Nat) : Prop := x < P ∧ y < P ∧ (y * y) % P = (x * x * x + A * x + B) % P

theorem unmarshalPoint_iff (b : Bytes) (x y : Nat) :
    unmarshalPoint b = some (x, y) ↔ b = [4] ++ beFixed 32 x ++ beFixed 32 y ∧ OnCurve x y := by
  have hP := P_lt
  rw [unmarshalPoint]
  constructor
  · intro h
    split at h
    · simp at h
    rename_i hl
    split at h
    · simp at h
    rename_i h4
    dsimp only at h
    split at h
    · simp at h
    rename_i hlt
    split at h
    · simp at h
    rename_i hc
    simp only [Option.some.injEq, Prod.mk.injEq] at h
    obtain ⟨rfl, rfl⟩ := h
    simp only [ne_eq, Decidable.not_not] at hl h4 hc
    refine ⟨?_, by omega, by omega, hc⟩
    have l1 : ((b.drop 1).take 32).length = 32 := by simp [hl]
    have l2 : (b.drop 33).length = 32 := by simp [hl]
    have e1 := beFixed_beNat ((b.drop 1).take 32)
    have e2 := beFixed_beNat (b.drop 33)
    rw [l1] at e1; rw [l2] at e2
    rw [e1, e2]
    clear hc hlt e1 e2 l1 l2
    cases b with
    | nil => simp at hl
    | cons z t =>
      have hz : z = 4 := h4
      rw [hz]
      have := List.take_append_drop 32 t
      simp only [List.drop_succ_cons, List.drop_zero, List.cons_append, List.nil_append]
      rw [this]
  · rintro ⟨rfl, h1, h2, h3⟩
    have px : x < 256 ^ 32 := by rw [show 256 ^ 32 = 2 ^ 256 by decide]; omega
    have py : y < 256 ^ 32 := by rw [show 256 ^ 32 = 2 ^ 256 by decide]; omega
    rw [if_neg (by simp), if_neg (by simp)]
    have e1 : (List.drop 1 ([4] ++ beFixed 32 x ++ beFixed 32 y)).take 32 = beFixed 32 x := by
      simp [List.take_left']
    have e2 : List.drop 33 ([4] ++ beFixed 32 x ++ beFixed 32 y) = beFixed 32 y := by
      rw [List.drop_left' (by simp)]
    dsimp only
    rw [e1, e2, beNat_beFixed_of_lt px, beNat_beFixed_of_lt py, if_neg (by omega), if_neg (by simpa using h3)]

/-- **C68** Whatever `ParsePKIXPublicKey` accepts as an SM2 key is a point of the curve. -/
theorem C68_parsed_on_curve (der : Bytes) (k : PublicKey c) (h : parsePKIX c der = .ok (.sm2 k)) :
    OnCurve k.x k.y := by
  rw [parsePKIX] at h
  split at h
  · simp at h
  split at h
  · simp at h
  split at h
  · split at h
    · simp at h
    · rename_i x y hu
      simp only [Res.ok.injEq, ParsedPub.sm2.injEq] at h
      subst h
      exact ((unmarshalPoint_iff _ _ _).1 hu).2
  · simp at h

theorem pkix_roundtrip (k : PublicKey c) (h : OnCurve k.x k.y) :
    ∃ der, marshalPKIX k = .ok der ∧ 0 < der.length ∧ der.length < 200 ∧
      parsePKIX c der = .ok (.sm2 { x := k.x, y := k.y, pre := none }) := by
  have hP := P_lt
  obtain ⟨hx, hy, hc⟩ := h
  have hpt : marshalPoint k.x k.y = .ok ([4] ++ beFixed 32 k.x ++ beFixed 32 k.y) := by
    rw [marshalPoint, if_neg (by omega)]
  obtain ⟨pt, hpe⟩ : ∃ pt, pt = [4] ++ beFixed 32 k.x ++ beFixed 32 k.y := ⟨_, rfl⟩
  have hun := (unmarshalPoint_iff pt k.x k.y).2 ⟨hpe, hx, hy, hc⟩
  have hpl : pt.length = 65 := by rw [hpe]; simp
  have ha : (Der.encSeq [encOIDTLV oidECDSA, encOIDTLV oidSM2]).length < 40 := by decide +kernel
  have hb := Der.encTLV_length 0x03 (0 :: pt) (by simp; omega)
  simp only [List.length_cons] at hb
  have hs := Der.parseSeq_encSeq [Der.encSeq [encOIDTLV oidECDSA, encOIDTLV oidSM2], Der.encTLV 0x03 (0 :: pt)] []
    (by simp only [List.flatten_cons, List.flatten_nil, List.append_nil, List.length_append]; omega)
  simp only [List.flatten_cons, List.flatten_nil, List.append_nil] at hs
  have hl := Der.encTLV_length 0x30 [Der.encSeq [encOIDTLV oidECDSA, encOIDTLV oidSM2], Der.encTLV 0x03 (0 :: pt)].flatten
    (by simp only [List.flatten_cons, List.flatten_nil, List.append_nil, List.length_append]; omega)
  refine ⟨Der.encSeq [Der.encSeq [encOIDTLV oidECDSA, encOIDTLV oidSM2], Der.encTLV 0x03 (0 :: pt)], ?_, ?_, ?_, ?_⟩
  · rw [marshalPKIX, hpt, hpe]; rfl
  · rw [Der.encSeq]; exact List.length_pos_iff.2 (encTLV_ne_nil _ _)
  · rw [Der.encSeq]
    simp only [List.flatten_cons, List.flatten_nil, List.append_nil, List.length_append] at hl ⊢
    omega
  · have h2 := parseAlgId_enc (o := oidECDSA) (by simp) (encOIDTLV oidSM2) (Der.encTLV 0x03 (0 :: pt))
      (parseRaw_oid (by simp)).1 (by have := (parseRaw_oid (o := oidSM2) (by simp)).2; omega)
    have h3 := Der.parseTLV_encTLV' 0x03 (0 :: pt) (by decide) (by simp; omega)
    have h5 : parseBitStringBody (0 :: pt) = some (pt, 0) := by
      rw [parseBitStringBody, if_neg]
      · rfl
      · have : ((0 : Byte)).toNat = 0 := rfl
        rw [this]; omega
    rw [parsePKIX, hs]
    simp only [Option.bind_eq_bind, Option.bind_some, h2, h3, h5]
    rw [if_neg (by simp), if_pos (by simp), show rightAlign (pt, 0) = pt by simp [rightAlign], hun]

/-- **C68** A public key whose point is on the curve survives PKIX encoding and parsing. -/
theorem C68_pkix_roundtrip (k : PublicKey c) (h : OnCurve k.x k.y) :
    ∃ der k', marshalPKIX k = .ok der ∧ parsePKIX c der = .ok (.sm2 k') ∧ k'.x = k.x ∧ k'.y = k.y := by
  obtain ⟨der, h1, -, -, h4⟩ := pkix_roundtrip k h
  exact ⟨der, _, h1, h4, rfl, rfl⟩

/-- **C68** The same through the PEM helpers, with or without a password. -/
theorem C68_pem_roundtrip (e : Env) (rand pwd : Bytes) (k : PublicKey c) (h : OnCurve k.x k.y)
    (hr : 24 ≤ rand.length) :
    ∃ pem k', publicKeyToPEM e rand k pwd = .ok pem ∧ pemToPublicKey c e pem pwd = .ok k' ∧
      k'.x = k.x ∧ k'.y = k.y := by
  obtain ⟨der, h1, h2, h3, h4⟩ := pkix_roundtrip k h
  have hne : der ≠ [] := List.length_pos_iff.1 h2
  by_cases hp : pwd.length = 0
  · refine ⟨e.pem.encode { type := "PUBLIC KEY", headers := [], bytes := der },
      { x := k.x, y := k.y, pre := none }, ?_, ?_, rfl, rfl⟩
    · rw [publicKeyToPEM, if_neg (by omega), h1]; rfl
    · rw [pemToPublicKey]
      dsimp only
      rw [if_neg (by rw [List.length_eq_zero_iff]; exact e.pem.nonempty _), e.pem.decode_encode _ ⟨by simp, Or.inl rfl⟩]
      dsimp only
      rw [if_neg (by simp [isEncrypted]), h4]
  · obtain ⟨b, b1, b2, bp, b3, b4⟩ := decrypt_encrypt e.aes e.hm rand "PUBLIC KEY" der pwd .aes256 hr (by omega)
    refine ⟨e.pem.encode b, { x := k.x, y := k.y, pre := none }, ?_, ?_, rfl, rfl⟩
    · rw [publicKeyToPEM, if_pos hp, publicKeyToEncryptedPEM, if_neg hp, h1]
      simp only [Res.ok_bind, b1]
    · rw [pemToPublicKey]
      dsimp only
      rw [if_neg (by rw [List.length_eq_zero_iff]; exact e.pem.nonempty _), e.pem.decode_encode _ (bp (by simp))]
      dsimp only
      rw [if_pos b3, if_neg hp, b4, pemUnpad_pemPad _ hne]
      dsimp only
      rw [h4]

open Verif.Sm2.Amd64 in
/-- keys made by `GenerateKey` on the amd64 build are on the curve -/
theorem C68_generated_on_curve (rk : Bytes) (priv : PrivateKey sm2Curve)
    (hgen : generateKey sm2Curve rk = .ok priv) : OnCurve priv.x priv.y := by
  obtain ⟨d, h1, h2, hK⟩ := C10_generated_keys sm2Lawful rk priv hgen
  have hx := hK.pub.x
  have hy := hK.pub.y
  have hne := hK.pub.ne
  have hlt := sm2Lawful.enc_lt (d • sm2Lawful.g)
  rw [← hx, ← hy] at hlt
  refine ⟨hlt.1, hlt.2, ?_⟩
  generalize d • sm2Lawful.g = Q at *
  have hx' : priv.x = (encPt Q.1).1 := hx
  have hy' : priv.y = (encPt Q.1).2 := hy
  have hne' : Q.1 ≠ 0 := fun hh => hne (Subtype.ext hh)
  cases hq : Q.1 with
  | zero => exact absurd hq hne'
  | some x y hns =>
    rw [hq] at hx' hy'
    have hx'' : priv.x = x.val := hx'
    have hy'' : priv.y = y.val := hy'
    have heq := (WeierstrassCurve.Affine.equation_iff (W := sm2W) x y).1 hns.1
    have hA : ((A : Nat) : F) = -3 := by
      have h3 : A + 3 = P := by decide +kernel
      have : ((A + 3 : Nat) : F) = 0 := by rw [h3]; exact ZMod.natCast_self P
      push_cast at this
      linear_combination this
    have key : ((priv.y * priv.y : Nat) : F) = ((priv.x * priv.x * priv.x + A * priv.x + B : Nat) : F) := by
      push_cast
      rw [hx'', hy'', ZMod.natCast_zmod_val, ZMod.natCast_zmod_val, hA]
      simp only [sm2W, Jac.W] at heq
      linear_combination heq
    exact (ZMod.natCast_eq_natCast_iff' _ _ _).1 key

/-- **C69, violated**: the zero scalar is accepted as a private key, with the point at infinity
(0, 0) as its public key. -/
theorem C69_zero_key_accepted_violated (L : Lawful c G) (order : Named → Nat) (point : Bytes) (hp : point.length = 65) :
    ∃ k : PrivateKey c, parseECPrivateKeyDer c order (ecPrivateKeyDer (List.replicate 32 0) point) = .ok (.sm2 k) ∧
      k.d = 0 ∧ (k.x, k.y) = (0, 0) := by
  have hz : beNat (List.replicate 32 0) = 0 := by decide
  refine ⟨_, (C21_parse_accepts_iff order _ _).2 ⟨_, parseEcRaw_der _ _ (by simp) hp, rfl, rfl, ?_, rfl⟩, ?_, ?_⟩
  · dsimp only; rw [hz]; decide +kernel
  · dsimp only; rw [hz]; rfl
  · dsimp only
    rw [hz, L.base, show beNat (beFixed 32 0) = 0 by decide, zero_smul, L.enc_zero]

/-- **C69, violated**: neither does the parser compare the embedded public key with the scalar: the
result does not depend on it. -/
theorem C69_public_key_ignored_violated (order : Named → Nat) (d point point' : Bytes) (hd : d.length = 32)
    (hp : point.length = 65) (hp' : point'.length = 65) :
    parseECPrivateKeyDer c order (ecPrivateKeyDer d point) = parseECPrivateKeyDer c order (ecPrivateKeyDer d point') := by
  rw [parseECPrivateKeyDer, parseECPrivateKeyDer, parseECPrivateKey, parseECPrivateKey,
    parseEcRaw_der _ _ hd hp, parseEcRaw_der _ _ hd hp']

/-! ## The hypotheses are satisfiable -/

/-- a generated key of the real curve meets the hypotheses of C21, C22 and C68 -/
example : ∃ (priv : PrivateKey Amd64.sm2Curve) (d : Nat), generateKey Amd64.sm2Curve (List.replicate 40 0x11) = .ok priv ∧
    Amd64.sm2Lawful.PrivOf priv d ∧ d < N ∧ OnCurve priv.x priv.y := by
  have h : ∃ k, randFieldElement (List.replicate 40 0x11) = .ok k := ⟨_, rfl⟩
  obtain ⟨k, hk⟩ := h
  obtain ⟨priv, hg⟩ : ∃ priv, generateKey Amd64.sm2Curve (List.replicate 40 0x11) = .ok priv := by
    rw [generateKey, hk]; exact ⟨_, rfl⟩
  obtain ⟨d, h1, h2, h3⟩ := C10_generated_keys Amd64.sm2Lawful _ priv hg
  exact ⟨priv, d, hg, h3, h2, C68_generated_on_curve _ _ hg⟩

/-- a block cipher and a PRF with the assumed laws -/
def toyAes : Aes where
  enc := fun k b => Std.xorB b (List.replicate 16 (k.headD 0))
  dec := fun k b => Std.xorB b (List.replicate 16 (k.headD 0))
  enc_len := by intro k b h; rw [Std.xorB_length, h]; rfl
  dec_len := by intro k b h; rw [Std.xorB_length, h]; rfl
  dec_enc := by intro k b h; exact Std.xorB_cancel _ _ (by rw [h]; rfl)

def toyHmac : Hmac where
  mac := fun h k m => List.replicate h.size (k.headD 0 ^^^ m.headD 0)
  len := by intro h k m; simp

example : ∃ b, encryptPEMBlock toyAes toyHmac (List.replicate 24 7) "X" [1, 2, 3] [9] (some .aes256) = .ok b ∧
    decryptPEMBlock toyAes toyHmac b.bytes [9] = .ok [1, 2, 3] :=
  C22_block_roundtrip_partial _ _ _ _ _ _ _ (by decide) (by decide) (by decide)

/-- some text codec satisfies `Pem` -/
example : Nonempty Pem := by
  have hchar : Countable Char := Function.Injective.countable (f := Char.toNat) (fun a b h => by
    exact Char.toNat_inj.1 h)
  have hstr : Countable String := Function.Injective.countable (f := String.toList) (fun a b h => by
    exact String.toList_inj.1 h)
  have hbv : Countable Byte := Function.Injective.countable (f := BitVec.toNat) (fun a b h => BitVec.eq_of_toNat_eq h)
  have hb : Countable Block := Function.Injective.countable
    (f := fun b : Block => (b.type, b.headers, (b.bytes : List Byte))) (fun a b h => by
      cases a; cases b; simp only [Prod.mk.injEq] at h; obtain ⟨rfl, rfl, rfl⟩ := h; rfl)
  obtain ⟨f, hf⟩ := hb.exists_injective_nat
  classical
  refine ⟨{ encode := fun b => List.replicate (f b + 1) 0,
            decode := fun r => if h : ∃ b, List.replicate (f b + 1) (0 : Byte) = r then some h.choose else none,
            decode_encode := ?_, nonempty := ?_ }⟩
  · intro b _
    have h : ∃ b', List.replicate (f b' + 1) (0 : Byte) = List.replicate (f b + 1) 0 := ⟨b, rfl⟩
    rw [dif_pos h]
    have hs := congrArg List.length h.choose_spec
    simp only [List.length_replicate] at hs
    exact congrArg some (hf (by omega))
  · intro b; simp

end Verif.Keys
