import Verif.Keys.Model
import Verif.Sm2.Spec
import Mathlib.Tactic.ByContra
import Mathlib.Tactic.NormNum
namespace Verif.Keys
open Verif Verif.Sm2

/-! ## Object identifiers used by the code -/

theorem oid_body {o : OID} (h : o ∈ [oidSM2, oidECDSA, oidPBES2, oidPBKDF2, oidKEYSHA1, oidAES128, oidAES256]) :
    parseOIDBody (encOID o) = some o ∧ (encOID o).length < 20 := by
  revert o; decide +kernel

theorem parseOID_enc {o : OID} (h : o ∈ [oidSM2, oidECDSA, oidPBES2, oidPBKDF2, oidKEYSHA1, oidAES128, oidAES256])
    (r : Bytes) : parseOID (encOIDTLV o ++ r) = some (o, r) := by
  obtain ⟨h1, h2⟩ := oid_body h
  rw [parseOID, encOIDTLV, Der.parseTLV_encTLV 0x06 _ r (by decide) (by omega)]
  simp [h1]


theorem parseInt64_enc {n : Int} (h : n.natAbs < 256 ^ 7) (r : Bytes) :
    Der.parseInt64 (Der.encInt n ++ r) = some (n, r) := by
  have hl := Der.encIntBody_length h
  rw [Der.parseInt64, Der.encInt, Der.parseTLV_encTLV 0x02 _ r (by decide) (by omega)]
  simp only [if_neg (show ¬ 8 < (Der.encIntBody n).length by omega), Der.parseIntBody_encIntBody]
  rfl

theorem encTLV_ne_nil (id : Byte) (c : Bytes) : Der.encTLV id c ≠ [] := by simp [Der.encTLV]

theorem parseExplicit_enc (outer inner : Byte) (c r : Bytes) (ho : outer &&& 0x1f ≠ 0x1f)
    (hi : inner &&& 0x1f ≠ 0x1f) (h : c.length < 2 ^ 30) :
    parseExplicit outer inner (Der.encTLV outer (Der.encTLV inner c) ++ r) = some (some c, r) := by
  have hl := Der.encTLV_length inner c (by omega)
  have e : Der.encTLV outer (Der.encTLV inner c) ++ r
      = outer :: (Der.encLen (Der.encTLV inner c).length ++ (Der.encTLV inner c ++ r)) := by simp [Der.encTLV]
  have e2 : Der.encTLV inner c ++ r = inner :: (Der.encLen c.length ++ (c ++ r)) := by simp [Der.encTLV]
  have hne : Der.encTLV inner c ++ r ≠ [] := by simp [Der.encTLV]
  have hlen : (Der.encTLV inner c).length ≠ 0 := by simp [Der.encTLV]
  rw [parseExplicit, if_neg (by simp [Der.encTLV]), e, Der.parseHdr_encTLV _ _ _ ho (by omega)]
  simp only [if_neg hne, true_or, if_true, if_neg hlen]
  rw [e2, Der.parseHdr_encTLV _ _ _ hi (by omega)]
  simp

theorem parseExplicit_absent (outer inner : Byte) : parseExplicit outer inner [] = some (none, []) := rfl

theorem copyAt_pad (b : Bytes) (h : b.length ≤ 32) :
    copyAt (List.replicate 32 0) (32 - b.length) b = beFixed 32 (beNat b) := by
  have e : copyAt (List.replicate 32 0) (32 - b.length) b = List.replicate (32 - b.length) 0 ++ b := by
    simp only [copyAt, List.length_replicate, List.take_replicate, List.drop_replicate]
    rw [show 32 - (32 - b.length) = b.length by omega, List.take_length, Nat.min_self,
      show min (32 - b.length) 32 = 32 - b.length by omega,
      show 32 - (32 - b.length + b.length) = 0 by omega]
    simp
  have hz : ∀ n, beNat (List.replicate n 0) = 0 := by
    intro n
    induction n with
    | zero => rfl
    | succ n ih => rw [List.replicate_succ, beNat_cons, ih]; simp
  have hb := beFixed_beNat (List.replicate (32 - b.length) 0 ++ b)
  rw [beNat_append, hz, Nat.zero_mul, Nat.zero_add, List.length_append, List.length_replicate,
    show 32 - b.length + b.length = 32 by omega] at hb
  rw [e, hb]

theorem padScalar_eq {d : Int} (h : d.natAbs < 2 ^ 256) : padScalar d = .ok (beFixed 32 d.natAbs) := by
  have hl : (natBytes d.natAbs).length ≤ 32 := natBytes_length_le (by rw [show 256 ^ 32 = 2 ^ 256 by decide]; exact h)
  rw [padScalar]
  rw [if_neg (by omega), copyAt_pad _ hl, beNat_natBytes]

/-! ## SEC 1 -/

theorem sec1_len (padded point : Bytes) (h1 : padded.length = 32) (h2 : point.length = 65) :
    (Der.encInt 1 ++ (Der.encOctets padded ++ (Der.encTLV 0xa0 (encOIDTLV oidSM2) ++
      Der.encTLV 0xa1 (Der.encTLV 0x03 (0 :: point))))).length < 200 := by
  have a := Der.encTLV_length 0x02 (Der.encIntBody 1) (by decide +kernel)
  have b := Der.encTLV_length 0x04 padded (by omega)
  have c0 := (oid_body (o := oidSM2) (by simp)).2
  have c1 := Der.encTLV_length 0x06 (encOID oidSM2) (by omega)
  have c2 := Der.encTLV_length 0xa0 (encOIDTLV oidSM2) (by rw [encOIDTLV]; omega)
  have d1 := Der.encTLV_length 0x03 (0 :: point) (by simp; omega)
  have d2 := Der.encTLV_length 0xa1 (Der.encTLV 0x03 (0 :: point)) (by simp only [List.length_cons] at d1; omega)
  have e : (Der.encIntBody 1).length ≤ 1 := by decide +kernel
  rw [encOIDTLV] at c2
  simp only [List.length_append, Der.encInt, Der.encOctets, List.length_cons, encOIDTLV] at *
  omega

theorem parseEcRaw_der (padded point : Bytes) (h1 : padded.length = 32) (h2 : point.length = 65) :
    parseEcRaw (ecPrivateKeyDer padded point) = some { version := 1, key := padded, oid := some oidSM2 } := by
  have hlen := sec1_len padded point h1 h2
  have hs := Der.parseSeq_encSeq [Der.encInt 1, Der.encOctets padded, Der.encTLV 0xa0 (encOIDTLV oidSM2),
    Der.encTLV 0xa1 (Der.encTLV 0x03 (0 :: point))] [] (by
      simp only [List.flatten_cons, List.flatten_nil, List.append_nil]; omega)
  simp only [List.flatten_cons, List.flatten_nil, List.append_nil] at hs
  have hi := parseInt64_enc (n := 1) (by decide) (Der.encOctets padded ++ (Der.encTLV 0xa0 (encOIDTLV oidSM2) ++
      Der.encTLV 0xa1 (Der.encTLV 0x03 (0 :: point))))
  have ho := Der.parseOctets_encOctets padded (Der.encTLV 0xa0 (encOIDTLV oidSM2) ++
      Der.encTLV 0xa1 (Der.encTLV 0x03 (0 :: point))) (by omega)
  have hb := oid_body (o := oidSM2) (by simp)
  have h3 := parseExplicit_enc 0xa0 0x06 (encOID oidSM2) (Der.encTLV 0xa1 (Der.encTLV 0x03 (0 :: point)))
    (by decide) (by decide) (by omega)
  have h4 := parseExplicit_enc 0xa1 0x03 (0 :: point) [] (by decide) (by decide) (by simp; omega)
  rw [List.append_nil] at h4
  have h5 : parseBitStringBody (0 :: point) = some (point, 0) := by
    rw [parseBitStringBody, if_neg]
    · rfl
    · have : ((0 : Byte)).toNat = 0 := rfl
      rw [this]; omega
  rw [← encOIDTLV] at h3
  rw [parseEcRaw, ecPrivateKeyDer, hs]
  simp only [Option.bind_eq_bind, Option.bind_some, hi, ho, h3, h4, hb.1, h5, Option.map_some]

theorem stripTo32_id (b : Bytes) (h : b.length ≤ 32) : stripTo32 b = some b := by
  cases b with
  | nil => rfl
  | cons x t => rw [stripTo32, if_neg (by omega)]

theorem stripTo32_val (b b' : Bytes) (h : stripTo32 b = some b') :
    b'.length ≤ 32 ∧ beNat b' = beNat b := by
  induction b with
  | nil => simp [stripTo32] at h; subst h; simp
  | cons x t ih =>
    rw [stripTo32] at h
    split at h
    · split at h
      · simp at h
      · rename_i hx
        obtain ⟨h1, h2⟩ := ih h
        simp only [ne_eq, Decidable.not_not] at hx
        refine ⟨h1, ?_⟩
        rw [h2, beNat_cons, hx]
        simp
    · simp only [Option.some.injEq] at h
      subst h
      exact ⟨by omega, rfl⟩

theorem N_lt : N < 2 ^ 256 := by decide +kernel

/-- a scalar below the group order never fails the length check of x509/sec1.go:117-123 -/
theorem stripTo32_of_lt (b : Bytes) (h : beNat b < 2 ^ 256) : ∃ b', stripTo32 b = some b' := by
  induction b with
  | nil => exact ⟨[], rfl⟩
  | cons x t ih =>
    rw [stripTo32]
    split
    · rename_i hl
      rw [beNat_cons] at h
      have hx : x.toNat = 0 := by
        by_contra hx
        have h1 : 2 ^ 256 ≤ 256 ^ t.length := by
          rw [show (2:Nat) ^ 256 = 256 ^ 32 by decide]
          exact Nat.pow_le_pow_right (by decide) (by simp only [List.length_cons] at hl; omega)
        have h2 : 1 * 256 ^ t.length ≤ x.toNat * 256 ^ t.length := Nat.mul_le_mul_right _ (by omega)
        omega
      have hx' : x = 0 := BitVec.eq_of_toNat_eq hx
      subst hx'
      rw [if_neg (by simp)]
      exact ih (by rw [hx] at h; omega)
    · exact ⟨_, rfl⟩


variable {c : Curve} {G : Type} [AddCommGroup G]

theorem P_lt : P < 2 ^ 256 := by decide +kernel

theorem marshalEC_eq (L : Lawful c G) {k : PrivateKey c} {d : Nat} (hk : L.PrivOf k d) (hd : d < N) :
    marshalECPrivateKey k
      = .ok (ecPrivateKeyDer (beFixed 32 d) ([4] ++ beFixed 32 k.x ++ beFixed 32 k.y)) := by
  have hN := N_lt
  have hP := P_lt
  have he := L.enc_lt (d • L.g)
  have hx : k.x < P := by rw [hk.pub.x]; exact he.1
  have hy : k.y < P := by rw [hk.pub.y]; exact he.2
  have h1 : padScalar k.d = .ok (beFixed 32 d) := by
    rw [padScalar_eq (by rw [hk.scalar, Int.natAbs_natCast]; omega), hk.scalar, Int.natAbs_natCast]
  have h2 : marshalPoint k.x k.y = .ok ([4] ++ beFixed 32 k.x ++ beFixed 32 k.y) := by
    rw [marshalPoint, if_neg (by omega)]
  rw [marshalECPrivateKey, h1]
  simp only [Res.ok_bind, h2]

/-- parsing the encoding, as SEC 1 or inside PKCS#8 -/
theorem parseEC_eq (L : Lawful c G) (order : Named → Nat) {k : PrivateKey c} {d : Nat} (hk : L.PrivOf k d)
    (hd : d < N) (curveOID : Option OID) (ho : curveOID = none ∨ curveOID = some oidSM2) :
    parseECPrivateKey c order curveOID
        (ecPrivateKeyDer (beFixed 32 d) ([4] ++ beFixed 32 k.x ++ beFixed 32 k.y))
      = .ok (.sm2 { x := k.x, y := k.y, pre := none, d := d, dInv := none }) := by
  have hN := N_lt
  have hv : beNat (beFixed 32 d) = d := beNat_beFixed_of_lt (by
    rw [show 256 ^ 32 = 2 ^ 256 by decide]; omega)
  rw [parseECPrivateKey, parseEcRaw_der _ _ (by simp) (by simp)]
  dsimp only
  rw [if_neg (by simp)]
  have hoid : ∀ o, o = oidSM2 → namedCurveFromOID o = some .sm2 := by
    intro o h; subst h; decide
  rw [hoid _ (by rcases ho with h | h <;> subst h <;> rfl)]
  dsimp only
  rw [hv, if_neg (by omega), stripTo32_id _ (by simp)]
  dsimp only
  rw [copyAt_pad _ (by simp), hv, L.base, hv, hk.pub.x, hk.pub.y]

/-- **C21** Marshalling a private key and parsing it back returns the same scalar and the same public
point, for every key and every curve backend (`pre`/`DInv` are recomputed lazily: not stored). -/
theorem C21_sec1_roundtrip (L : Lawful c G) (order : Named → Nat) (k : PrivateKey c) (d : Nat)
    (hk : L.PrivOf k d) (hd : d < N) :
    ∃ der k', marshalECPrivateKey k = .ok der ∧ parseECPrivateKeyDer c order der = .ok (.sm2 k') ∧
      k'.d = k.d ∧ k'.x = k.x ∧ k'.y = k.y ∧ L.PrivOf k' d := by
  refine ⟨_, _, marshalEC_eq L hk hd, parseEC_eq L order hk hd none (Or.inl rfl), hk.scalar.symm, rfl, rfl, ?_⟩
  exact ⟨⟨hk.pub.ne, hk.pub.x, hk.pub.y, Or.inl rfl⟩, rfl, Or.inl rfl⟩

/-- the encoding is fixed width: the 32-byte big-endian scalar appears as the OCTET STRING -/
theorem C21_fixed_width (L : Lawful c G) (k : PrivateKey c) (d : Nat) (hk : L.PrivOf k d) (hd : d < N) :
    ∃ der, marshalECPrivateKey k = .ok der ∧
      parseEcRaw der = some { version := 1, key := beFixed 32 d, oid := some oidSM2 } :=
  ⟨_, marshalEC_eq L hk hd, parseEcRaw_der _ _ (by simp) (by simp)⟩

/-- **C21** What the parser accepts as an SM2 key, exactly: version 1, the SM2 curve identifier, a
scalar below `n`; the public point is recomputed from the scalar. -/
theorem C21_parse_accepts_iff (order : Named → Nat) (der : Bytes) (k : PrivateKey c) :
    parseECPrivateKeyDer c order der = .ok (.sm2 k) ↔
      ∃ raw, parseEcRaw der = some raw ∧ raw.version = 1 ∧ raw.oid = some oidSM2 ∧ beNat raw.key < N ∧
        k = { x := (c.scalarBaseMult (beFixed 32 (beNat raw.key))).1,
              y := (c.scalarBaseMult (beFixed 32 (beNat raw.key))).2,
              pre := none, d := (beNat raw.key : Nat), dInv := none } := by
  have hN := N_lt
  have hnil : namedCurveFromOID [] = none := by decide
  have hsm : ∀ o, namedCurveFromOID o = some .sm2 ↔ o = oidSM2 := by
    intro o
    rw [namedCurveFromOID]
    constructor
    · intro h
      split at h
      · assumption
      · repeat' split at h
        all_goals simp at h
    · intro h; rw [if_pos h]
  rw [parseECPrivateKeyDer, parseECPrivateKey]
  cases hr : parseEcRaw der with
  | none => simp
  | some raw =>
    dsimp only
    by_cases hv : raw.version = 1
    · rw [if_neg (by simp [hv])]
      by_cases ho : raw.oid = some oidSM2
      · rw [ho, show (some oidSM2).getD [] = oidSM2 from rfl, (hsm oidSM2).2 rfl]
        dsimp only
        by_cases hk : beNat raw.key < N
        · rw [if_neg (by omega)]
          obtain ⟨b', hb'⟩ := stripTo32_of_lt raw.key (by omega)
          obtain ⟨h1, h2⟩ := stripTo32_val _ _ hb'
          rw [hb']
          dsimp only
          rw [copyAt_pad _ h1, h2]
          constructor
          · intro h
            simp only [Res.ok.injEq, ParsedKey.sm2.injEq] at h
            exact ⟨raw, rfl, hv, ho, hk, h.symm⟩
          · rintro ⟨raw', h, -, -, -, rfl⟩
            simp only [Option.some.injEq] at h
            subst h; rfl
        · rw [if_pos (by omega)]
          constructor
          · intro h; simp at h
          · rintro ⟨raw', h, -, -, h4, -⟩
            simp only [Option.some.injEq] at h
            subst h; exact absurd h4 hk
      · constructor
        · intro h
          exfalso
          have : namedCurveFromOID (raw.oid.getD []) ≠ some .sm2 := by
            rw [Ne, hsm]
            cases ho' : raw.oid with
            | none => simp [oidSM2]
            | some o => intro hh; exact ho (by rw [ho']; exact congrArg some hh)
          split at h
          · simp at h
          · exact this (by assumption)
          · split at h <;> simp at h
        · rintro ⟨raw', h, -, h3, -⟩
          simp only [Option.some.injEq] at h
          subst h; exact absurd h3 ho
    · rw [if_pos (by simp [hv])]
      constructor
      · intro h; simp at h
      · rintro ⟨raw', h, h2, -⟩
        simp only [Option.some.injEq] at h
        subst h; exact absurd h2 hv

/-- **C21** no out-of-range scalar is ever accepted, on any curve, in SEC 1 or PKCS#8 form, and an
accepted SM2 key carries the public point of its scalar. -/
theorem C21_range_checked (order : Named → Nat) (curveOID : Option OID) (der : Bytes) (p : ParsedKey c)
    (h : parseECPrivateKey c order curveOID der = .ok p) :
    match p with
    | .sm2 k => 0 ≤ k.d ∧ k.d < N ∧ (k.x, k.y) = c.scalarBaseMult (beFixed 32 k.d.toNat)
    | .ecdsa cv d => cv ≠ .sm2 ∧ d < order cv
    | .rsa => False := by
  rw [parseECPrivateKey] at h
  split at h
  · simp at h
  rename_i raw hraw
  split at h
  · simp at h
  dsimp only at h
  split at h
  · simp at h
  · split at h
    · simp at h
    rename_i hk
    split at h
    · simp at h
    rename_i b hb
    obtain ⟨h1, h2⟩ := stripTo32_val _ _ hb
    simp only [Res.ok.injEq] at h
    subst h
    dsimp only
    rw [copyAt_pad _ h1, h2]
    exact ⟨by omega, by omega, by rw [Int.toNat_natCast]⟩
  · rename_i cv hne hcv
    split at h
    · simp at h
    · simp only [Res.ok.injEq] at h
      subst h
      rename_i hlt
      exact ⟨hne, by omega⟩


/-! ## PKCS#8 -/

theorem ecDer_length (padded point : Bytes) (h1 : padded.length = 32) (h2 : point.length = 65) :
    0 < (ecPrivateKeyDer padded point).length ∧ (ecPrivateKeyDer padded point).length < 210 := by
  have hlen := sec1_len padded point h1 h2
  have h := Der.encTLV_length 0x30 [Der.encInt 1, Der.encOctets padded, Der.encTLV 0xa0 (encOIDTLV oidSM2),
    Der.encTLV 0xa1 (Der.encTLV 0x03 (0 :: point))].flatten (by
      simp only [List.flatten_cons, List.flatten_nil, List.append_nil]; omega)
  constructor
  · rw [ecPrivateKeyDer, Der.encSeq]; exact List.length_pos_iff.2 (encTLV_ne_nil _ _)
  · rw [ecPrivateKeyDer, Der.encSeq]
    simp only [List.flatten_cons, List.flatten_nil, List.append_nil] at h ⊢
    omega

theorem parseRaw_oid {o : OID} (h : o ∈ [oidSM2, oidECDSA, oidPBES2, oidPBKDF2, oidKEYSHA1, oidAES128, oidAES256]) :
    parseRaw (encOIDTLV o) = some (encOIDTLV o, []) ∧ (encOIDTLV o).length < 30 := by
  revert o; decide +kernel

theorem parseAlgId_enc {o : OID} (h : o ∈ [oidSM2, oidECDSA, oidPBES2, oidPBKDF2, oidKEYSHA1, oidAES128, oidAES256])
    (p r : Bytes) (hp : parseRaw p = some (p, [])) (hl : p.length < 100) :
    parseAlgId (Der.encSeq [encOIDTLV o, p] ++ r) = some ((o, p), r) := by
  have hr := parseRaw_oid h
  have hs := Der.parseSeq_encSeq [encOIDTLV o, p] r (by
    simp only [List.flatten_cons, List.flatten_nil, List.append_nil, List.length_append]; omega)
  simp only [List.flatten_cons, List.flatten_nil, List.append_nil] at hs
  rw [parseAlgId, hs]
  simp only [Option.bind_eq_bind, Option.bind_some, parseOID_enc h, hp]

theorem sm2ParamBytes_eq : encOIDTLV oidSM2 = sm2ParamBytes := by decide +kernel

theorem algId_length : (Der.encSeq [encOIDTLV oidECDSA, sm2ParamBytes]).length < 40 := by decide +kernel

theorem parsePKCS8_der (order : Named → Nat) (ec : Bytes) (hl : ec.length < 300) :
    parsePKCS8 c order (pkcs8Der ec) = match parseECPrivateKey c order (some oidSM2) ec with
      | .ok k => .ok k
      | .err e => .err ("x509: failed to parse EC private key embedded in PKCS#8: " ++ e)
      | .panic => .panic := by
  have ha := algId_length
  have ho := Der.encTLV_length 0x04 ec (by omega)
  have hi : (Der.encInt 0).length < 10 := by decide +kernel
  have hs := Der.parseSeq_encSeq [Der.encInt 0, Der.encSeq [encOIDTLV oidECDSA, sm2ParamBytes], Der.encOctets ec] []
    (by simp only [List.flatten_cons, List.flatten_nil, List.append_nil, List.length_append, Der.encOctets]; omega)
  simp only [List.flatten_cons, List.flatten_nil, List.append_nil] at hs
  have h1 := parseInt64_enc (n := 0) (by decide)
    (Der.encSeq [encOIDTLV oidECDSA, sm2ParamBytes] ++ Der.encOctets ec)
  have h2 := parseAlgId_enc (o := oidECDSA) (by simp) sm2ParamBytes (Der.encOctets ec)
    (by decide +kernel) (by decide)
  have h3 := Der.parseOctets_encOctets ec [] (by omega)
  rw [List.append_nil] at h3
  have h4 : (parseOID sm2ParamBytes).map (·.1) = some oidSM2 := by decide +kernel
  rw [parsePKCS8, pkcs8Der, hs]
  simp only [Option.bind_eq_bind, Option.bind_some, h1, h2, h3]
  rw [if_neg (by decide), if_pos trivial, h4]
  cases parseECPrivateKey c order (some oidSM2) ec <;> rfl

theorem pkcs8_roundtrip (L : Lawful c G) (order : Named → Nat) {k : PrivateKey c} {d : Nat}
    (hk : L.PrivOf k d) (hd : d < N) :
    ∃ der, pkcs8Of k = .ok der ∧ 0 < der.length ∧ der.length < 400 ∧
      parsePKCS8 c order der = .ok (.sm2 { x := k.x, y := k.y, pre := none, d := d, dInv := none }) := by
  have hel := ecDer_length (beFixed 32 d) ([4] ++ beFixed 32 k.x ++ beFixed 32 k.y) (by simp) (by simp)
  refine ⟨pkcs8Der (ecPrivateKeyDer (beFixed 32 d) ([4] ++ beFixed 32 k.x ++ beFixed 32 k.y)), ?_, ?_, ?_, ?_⟩
  · rw [pkcs8Of, marshalEC_eq L hk hd]; rfl
  · rw [pkcs8Der, Der.encSeq]; exact List.length_pos_iff.2 (encTLV_ne_nil _ _)
  · have ha := algId_length
    have hi : (Der.encInt 0).length < 10 := by decide +kernel
    generalize ecPrivateKeyDer (beFixed 32 d) ([4] ++ beFixed 32 k.x ++ beFixed 32 k.y) = ec at *
    have ho := Der.encTLV_length 0x04 ec (by omega)
    have h := Der.encTLV_length 0x30 [Der.encInt 0, Der.encSeq [encOIDTLV oidECDSA, sm2ParamBytes], Der.encOctets ec].flatten
      (by simp only [List.flatten_cons, List.flatten_nil, List.append_nil, List.length_append, Der.encOctets]; omega)
    rw [pkcs8Der, Der.encSeq]
    simp only [List.flatten_cons, List.flatten_nil, List.append_nil, List.length_append, Der.encOctets] at h ⊢
    omega
  · rw [parsePKCS8_der _ _ (by omega), parseEC_eq L order hk hd _ (Or.inr rfl)]

/-- **C21** A private key written as an unencrypted PEM is read back unchanged (whatever password the
reader passes). -/
theorem C21_pem_roundtrip (L : Lawful c G) (e : Env) (rand pwd : Bytes) (k : PrivateKey c) (d : Nat)
    (hk : L.PrivOf k d) (hd : d < N) :
    ∃ pem k', privateKeyToPEM e rand k [] = .ok pem ∧ pemToPrivateKey c e pem pwd = .ok k' ∧
      k'.d = k.d ∧ k'.x = k.x ∧ k'.y = k.y ∧ L.PrivOf k' d := by
  obtain ⟨der, h1, -, -, h4⟩ := pkcs8_roundtrip L e.order hk hd
  refine ⟨e.pem.encode { type := "PRIVATE KEY", headers := [], bytes := der },
    { x := k.x, y := k.y, pre := none, d := d, dInv := none }, ?_, ?_,
    hk.scalar.symm, rfl, rfl, ⟨hk.pub.ne, hk.pub.x, hk.pub.y, Or.inl rfl⟩, rfl, Or.inl rfl⟩
  · rw [privateKeyToPEM, if_neg (by simp), h1]; rfl
  · rw [pemToPrivateKey, if_neg (by
      rw [List.length_eq_zero_iff]; exact e.pem.nonempty _), e.pem.decode_encode _ ⟨by simp, Or.inl rfl⟩]
    dsimp only
    rw [if_neg (by simp [isEncrypted]), h4]; rfl

/-! ## PBKDF2 -/

namespace Spec

/-- RFC 8018 §5.2: `U_1 = PRF (P, S || INT (i))`, `U_{j+1} = PRF (P, U_j)` (here numbered from 0). -/
def U (prf : Bytes → Bytes) (salt : Bytes) (i : Nat) : Nat → Bytes
  | 0 => prf (salt ++ beFixed 4 i)
  | j+1 => prf (U prf salt i j)

/-- `T_i = U_1 xor U_2 xor ... xor U_c` -/
def T (prf : Bytes → Bytes) (salt : Bytes) (i c : Nat) : Bytes :=
  ((List.range (c - 1)).map fun j => U prf salt i (j + 1)).foldl Std.xorB (U prf salt i 0)

/-- `DK = T_1 || T_2 || ... || T_l<0..r-1>`, `l = ceil (dkLen / hLen)` -/
def pbkdf2 (prf : Bytes → Bytes) (hLen : Nat) (salt : Bytes) (c dkLen : Nat) : Bytes :=
  ((List.range ((dkLen + hLen - 1) / hLen)).flatMap fun i => T prf salt (i + 1) c).take dkLen

end Spec

theorem pbkdfInner_eq (prf : Bytes → Bytes) (salt : Bytes) (i n m : Nat) (t : Bytes) :
    pbkdfInner prf n t (Spec.U prf salt i m)
      = ((List.range n).map fun j => Spec.U prf salt i (m + j + 1)).foldl Std.xorB t := by
  induction n generalizing m t with
  | zero => rfl
  | succ n ih =>
    rw [pbkdfInner]
    rw [show prf (Spec.U prf salt i m) = Spec.U prf salt i (m + 1) from rfl, ih, List.range_succ_eq_map]
    simp only [List.map_cons, List.foldl_cons, List.map_map]
    congr 1
    congr 1
    funext j
    simp only [Function.comp]
    congr 1
    omega

theorem be32 (n : Nat) : [BitVec.ofNat 8 (n >>> 24), BitVec.ofNat 8 (n >>> 16), BitVec.ofNat 8 (n >>> 8),
    BitVec.ofNat 8 n] = beFixed 4 n := by
  simp only [beFixed, List.nil_append, List.cons_append, Nat.shiftRight_eq_div_pow, Nat.div_div_eq_div_mul]

theorem pbkdfOuter_eq (prf : Bytes → Bytes) (salt : Bytes) (iter : Int) (n b : Nat) (dk : Bytes) :
    pbkdfOuter prf salt iter n b dk
      = dk ++ (List.range n).flatMap fun i => Spec.T prf salt (b + i) iter.toNat := by
  induction n generalizing b dk with
  | zero => simp [pbkdfOuter]
  | succ n ih =>
    rw [pbkdfOuter]
    rw [be32, show prf (salt ++ beFixed 4 b) = Spec.U prf salt b 0 from rfl, pbkdfInner_eq, ih,
      List.range_succ_eq_map, List.flatMap_cons, List.flatMap_map]
    rw [List.append_assoc]
    congr 1
    have h1 : (iter - 1).toNat = iter.toNat - 1 := by omega
    rw [h1]
    congr 1
    · simp [Spec.T]
    · congr 1
      funext j
      rw [show b + 1 + j = b + (j + 1) by omega]

/-- **C23** The key derivation is PBKDF2 of RFC 8018 for every password, salt, iteration count, key
length and hash (an iteration count below 1 behaves as 1). -/
theorem C23_pbkdf_is_rfc8018 (hm : Hmac) (password salt : Bytes) (iter : Int) (keyLen : Nat) (h : HashAlg) :
    pbkdf hm password salt iter keyLen h
      = Spec.pbkdf2 (hm.mac h password) h.size salt iter.toNat keyLen := by
  rw [pbkdf, Spec.pbkdf2]
  rw [pbkdfOuter_eq, List.nil_append]
  congr 2
  funext i
  rw [Nat.add_comm]

/-- the derived key has the requested length -/
theorem C23_length (hm : Hmac) (password salt : Bytes) (iter : Int) (keyLen : Nat) (h : HashAlg) :
    (pbkdf hm password salt iter keyLen h).length = keyLen := by
  have hU : ∀ i j, (Spec.U (hm.mac h password) salt i j).length = h.size := by
    intro i j; cases j <;> exact hm.len _ _ _
  have hT : ∀ i c, (Spec.T (hm.mac h password) salt i c).length = h.size := by
    intro i c
    rw [Spec.T]
    generalize hx : Spec.U (hm.mac h password) salt i 0 = x
    have hl : x.length = h.size := by rw [← hx]; exact hU _ _
    clear hx
    generalize List.range (c - 1) = l
    induction l generalizing x with
    | nil => exact hl
    | cons a l ih =>
      rw [List.map_cons, List.foldl_cons]
      exact ih _ (by rw [Std.xorB_length, hl, hU, Nat.min_self])
  have hF : ∀ l : List Nat, (l.flatMap fun i => Spec.T (hm.mac h password) salt (i + 1) iter.toNat).length
      = l.length * h.size := by
    intro l
    induction l with
    | nil => simp
    | cons a l ih => rw [List.flatMap_cons, List.length_append, ih, hT, List.length_cons, Nat.succ_mul]; omega
  rw [C23_pbkdf_is_rfc8018, Spec.pbkdf2, List.length_take, hF, List.length_range]
  have hs : 0 < h.size := by cases h <;> decide
  have := Nat.div_add_mod (keyLen + h.size - 1) h.size
  have := Nat.mod_lt (keyLen + h.size - 1) hs
  rw [Nat.mul_comm]
  omega

end Verif.Keys
