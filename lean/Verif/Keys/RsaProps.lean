import Verif.Keys.Rsa
import Mathlib.FieldTheory.Finite.Basic
import Mathlib.Data.Nat.ChineseRemainder
import Mathlib.Tactic.NormNum.Prime
/-! C127: RSA private keys in PKCS#1. -/
namespace Verif.Keys
open Verif

namespace Spec

/-- RFC 8017, 3.2, as far as it can be checked without testing primality: at least two factors, greater than two, whose product is the modulus, and exponents that are inverse to each other modulo each factor less one -/
structure RsaValid (k : RsaKey) : Prop where
  two : 2 ≤ k.primes.length
  exponent : 2 ≤ k.e ∧ k.e < 2 ^ 31
  primes : ∀ p ∈ k.primes, 2 < p
  modulus : k.primes.prod = k.n
  inverse : ∀ p ∈ k.primes, k.e * k.d ≡ 1 [MOD p - 1]

/-- the coefficients for the factors from the third on; `r` is the product of those before -/
inductive CrtOk (d : Nat) : Nat → List Nat → List (Nat × Option Nat) → Prop
  | nil (r : Nat) : CrtOk d r [] []
  | cons (r p x : Nat) (c : Option Nat) (ps : List Nat) (l : List (Nat × Option Nat)) :
      x < p - 1 → x ≡ d [MOD p - 1] → (∀ y, c = some y → y < p ∧ r * y ≡ 1 [MOD p]) → (c = none ↔ ¬ Nat.Coprime r p) →
      CrtOk d (r * p) ps l → CrtOk d r (p :: ps) ((x, c) :: l)

/-- the values for the Chinese remainder theorem are right: RFC 8017, 3.2 -/
def PreOk (k : RsaKey) (c : RsaPre) : Prop :=
  ∃ p q more, k.primes = p :: q :: more ∧ c.dp < p - 1 ∧ c.dp ≡ k.d [MOD p - 1] ∧ c.dq < q - 1 ∧ c.dq ≡ k.d [MOD q - 1] ∧
    (∀ y, c.qinv = some y → y < p ∧ q * y ≡ 1 [MOD p]) ∧ (c.qinv = none ↔ ¬ Nat.Coprime q p) ∧ CrtOk k.d (p * q) more c.crt

end Spec

theorem modInv_some {a m x : Nat} (hm : 1 < m) (h : modInv a m = some x) : x < m ∧ a * x ≡ 1 [MOD m] := by
  unfold modInv at h
  split at h
  · rename_i hg
    cases h
    have hm0 : (m : Int) ≠ 0 := by omega
    have h1 := Int.emod_nonneg (Nat.gcdA a m) hm0
    have h2 := Int.emod_lt_of_pos (Nat.gcdA a m) (show (0 : Int) < m by omega)
    refine ⟨by omega, ?_⟩
    rw [← Int.natCast_modEq_iff]
    have hb := Nat.gcd_eq_gcd_ab a m
    rw [hg] at hb
    push_cast
    rw [Int.toNat_of_nonneg h1]
    calc (a : Int) * (Nat.gcdA a m % m) ≡ a * Nat.gcdA a m [ZMOD m] := (Int.mod_modEq _ _).mul_left _
      _ ≡ 1 [ZMOD m] := by
        refine Int.modEq_iff_dvd.2 ⟨Nat.gcdB a m, ?_⟩
        push_cast at hb
        linarith
  · cases h

theorem modInv_none {a m : Nat} : modInv a m = none ↔ ¬ Nat.Coprime a m := by
  unfold modInv
  split
  · rename_i h; simp [Nat.Coprime, h]
  · rename_i h; simp [Nat.Coprime, h]

theorem crtValues_ok (d : Nat) (ps : List Nat) : ∀ r, (∀ p ∈ ps, 2 < p) → Spec.CrtOk d r ps (crtValues d r ps) := by
  induction ps with
  | nil => intro r _; exact .nil r
  | cons p ps ih =>
    intro r h2
    have hp := h2 p (by simp)
    exact .cons r p _ _ ps _ (Nat.mod_lt _ (by omega)) (Nat.mod_modEq _ _) (fun y hy => modInv_some (by omega) hy) modInv_none
      (ih _ (fun p hp => h2 p (by simp [hp])))

theorem validate_iff (k : RsaKey) : k.validate = true ∧ 2 ≤ k.primes.length ↔ Spec.RsaValid k := by
  unfold RsaKey.validate
  simp only [Bool.and_eq_true, decide_eq_true_eq, List.all_eq_true]
  constructor
  · rintro ⟨⟨⟨⟨⟨h1, h2⟩, h3⟩, h4⟩, h5⟩, h6⟩
    have h7 : ∀ p ∈ k.primes, 2 < p := by
      intro p hp
      by_contra hc
      have h := h5 p hp
      have := h3 p hp
      rw [show p = 2 by omega, Nat.mod_one] at h
      omega
    refine ⟨h6, ⟨h1, by omega⟩, h7, h4, fun p hp => ?_⟩
    have := h7 p hp
    rw [Nat.ModEq, h5 p hp, Nat.mod_eq_of_lt (by omega)]
  · rintro ⟨h1, ⟨h2, h3⟩, h4, h5, h6⟩
    refine ⟨⟨⟨⟨⟨h2, by omega⟩, fun p hp => ?_⟩, h5⟩, fun p hp => ?_⟩, h1⟩
    · have := h4 p hp
      omega
    · have h7 := h4 p hp
      have h8 : k.e * k.d % (p - 1) = 1 % (p - 1) := h6 p hp
      rw [h8, Nat.mod_eq_of_lt (by omega)]

/-- `Precompute` on a valid key that has no such values yet -/
theorem precompute_ok (k : RsaKey) (h : Spec.RsaValid k) (h0 : k.pre = none) :
    ∃ c, k.precompute = .ok { k with pre := some c } ∧ Spec.PreOk k c := by
  unfold RsaKey.precompute
  rw [h0]
  dsimp only
  obtain ⟨h1, h2, h3, h4, h5⟩ := h
  match hp : k.primes with
  | [] => rw [hp] at h1; simp at h1
  | [_] => rw [hp] at h1; simp at h1
  | p :: q :: more =>
    rw [hp] at h3
    have hn : 1 ∉ p :: q :: more := fun hm => by have := h3 1 hm; omega
    have hp2 := h3 p (by simp)
    have hq2 := h3 q (by simp)
    dsimp only
    rw [if_neg hn]
    refine ⟨_, rfl, p, q, more, hp, Nat.mod_lt _ (by omega), Nat.mod_modEq _ _, Nat.mod_lt _ (by omega), Nat.mod_modEq _ _,
      fun y hy => modInv_some (by omega) hy, modInv_none, crtValues_ok _ _ _ fun p hp => h3 p (by simp [hp])⟩

/-- what the parser went through -/
theorem parsePKCS1_inv {der : Bytes} {k : RsaKey} (h : parsePKCS1 der = .ok k) :
    ∃ s f k0, X509.Asn1.only 0x30 der = some s ∧ pkcs1Fields s = some f ∧ f.version ≤ 1 ∧ 0 < f.n ∧ 0 < f.d ∧ 0 < f.p ∧ 0 < f.q ∧ (∀ a ∈ f.more, 0 < a) ∧
      k0 = (⟨f.n.toNat, f.e.toNat, f.d.toNat, f.p.toNat :: f.q.toNat :: f.more.map (·.toNat), none⟩ : RsaKey) ∧ k0.validate = true ∧ k0.precompute = .ok k := by
  unfold parsePKCS1 at h
  split at h
  · cases h
  rename_i s hs
  split at h
  · cases h
  rename_i f hf
  split at h
  · cases h
  split at h
  · cases h
  split at h
  · cases h
  rename_i h1 h2 h3
  dsimp only at h
  split at h
  · rename_i hv
    simp only [List.any_eq_true, decide_eq_true_eq, not_exists, not_and, not_le] at h3
    exact ⟨s, f, _, hs, hf, by omega, by omega, by omega, by omega, by omega, h3, rfl, hv, h⟩
  · cases h

theorem only_inv {id : Byte} {b c : Bytes} (h : X509.Asn1.only id b = some c) : b = Der.encTLV id c := by
  unfold X509.Asn1.only at h
  split at h
  · rename_i hp
    cases h
    rw [(Der.parseTLV_inv _ _ _ _ hp).1]
    simp
  · cases h

theorem int64_inv {b r : Bytes} {n : Int} (h : Der.parseInt64 b = some (n, r)) : b = Der.encInt n ++ r := by
  rw [Der.parseInt64] at h
  split at h
  · cases h
  rename_i c r' hp
  split at h
  · cases h
  simp only [Option.map_eq_some_iff, Prod.mk.injEq] at h
  obtain ⟨m, h1, rfl, rfl⟩ := h
  obtain ⟨e, -⟩ := Der.parseTLV_inv _ _ _ _ hp
  rw [Der.encInt, Der.parseIntBody_unique _ _ h1, e]

theorem pkcs1Fields_inv {s : Bytes} {f : Pkcs1} (h : pkcs1Fields s = some f) :
    ∃ rest, s = Der.encInt f.version ++ Der.encInt f.n ++ Der.encInt f.e ++ Der.encInt f.d ++ Der.encInt f.p ++ Der.encInt f.q ++ rest ∧
      ∃ a1 r1 a2 r2 a3 r3, optInt rest = some (a1, r1) ∧ optInt r1 = some (a2, r2) ∧ optInt r2 = some (a3, r3) ∧ extraPrimes r3 = some f.more := by
  simp only [pkcs1Fields, Option.bind_eq_bind, Option.bind_eq_some_iff, Option.some.injEq, Prod.exists] at h
  obtain ⟨v, s1, h1, n, s2, h2, e, s3, h3, d, s4, h4, p, s5, h5, q, s6, h6, a1, s7, h7, a2, s8, h8, a3, s9, h9, more, h10, rfl⟩ := h
  have e1 := int64_inv h1
  have e2 := Der.parseInt_inv _ _ _ h2
  have e3 := int64_inv h3
  have e4 := Der.parseInt_inv _ _ _ h4
  have e5 := Der.parseInt_inv _ _ _ h5
  have e6 := Der.parseInt_inv _ _ _ h6
  refine ⟨s6, ?_, a1, s7, a2, s8, a3, s9, h7, h8, h9, h10⟩
  rw [e1, e2, e3, e4, e5, e6]
  simp only [List.append_assoc]

/-- **C127, what is accepted.** A key that `ParsePKCS1PrivateKey` returns is one SEQUENCE with nothing after it that begins with the numbers of the key, all positive; its factors are greater than two, their product is the modulus, and the
exponents are inverse modulo each factor less one; the values for decryption by the Chinese remainder theorem have been computed afresh from these numbers (those in the encoding are ignored). -/
theorem C127_parsed (der : Bytes) (k : RsaKey) (h : parsePKCS1 der = .ok k) :
    Spec.RsaValid k ∧ (∃ c, k.pre = some c ∧ Spec.PreOk k c) ∧
      ∃ (v : Int) (p q : Nat) (more : List Nat) (rest : Bytes), v ≤ 1 ∧ k.primes = p :: q :: more ∧
        der = Der.encTLV 0x30 (Der.encInt v ++ Der.encInt k.n ++ Der.encInt k.e ++ Der.encInt k.d ++ Der.encInt p ++ Der.encInt q ++ rest) := by
  obtain ⟨s, f, k0, h1, h2, h3, h4, h5, h6, h7, h8, h9, h10, h11⟩ := parsePKCS1_inv h
  have hl : 2 ≤ k0.primes.length := by rw [h9]; simp
  have hv := (validate_iff k0).1 ⟨h10, hl⟩
  obtain ⟨c, hc, ho⟩ := precompute_ok k0 hv (by rw [h9])
  rw [hc] at h11
  cases h11
  have he : 0 < f.e := by
    have := hv.exponent.1
    rw [h9] at this
    dsimp only at this
    omega
  refine ⟨⟨hv.two, hv.exponent, hv.primes, hv.modulus, hv.inverse⟩, ⟨c, rfl, ho⟩, f.version, f.p.toNat, f.q.toNat, f.more.map (·.toNat), ?_⟩
  obtain ⟨rest, hr, -⟩ := pkcs1Fields_inv h2
  refine ⟨rest, h3, by rw [h9], ?_⟩
  rw [only_inv h1, hr, h9]
  dsimp only
  rw [Int.toNat_of_nonneg (by omega), Int.toNat_of_nonneg (by omega), Int.toNat_of_nonneg (by omega), Int.toNat_of_nonneg (by omega), Int.toNat_of_nonneg (by omega)]

/-- **C127**: no input makes the parser panic. -/
theorem C127_never_panics (der : Bytes) : parsePKCS1 der ≠ .panic := by
  intro h
  unfold parsePKCS1 at h
  split at h
  · cases h
  split at h
  · cases h
  split at h
  · cases h
  split at h
  · cases h
  split at h
  · cases h
  dsimp only at h
  split at h
  · rename_i hv
    obtain ⟨c, hc, -⟩ := precompute_ok _ ((validate_iff _).1 ⟨hv, by simp⟩) rfl
    rw [hc] at h
    cases h
  · cases h

theorem fermat_pow {p m a : Nat} (hp : p.Prime) (h : a ≡ 1 [MOD p - 1]) (ha : 0 < a) : m ^ a ≡ m [MOD p] := by
  have := Fact.mk hp
  rw [← ZMod.natCast_eq_natCast_iff]
  push_cast
  by_cases h0 : (m : ZMod p) = 0
  · rw [h0, zero_pow (by omega)]
  · obtain ⟨j, hj⟩ : ∃ j, a = 1 + (p - 1) * j := by
      obtain ⟨j, hj⟩ := (Nat.modEq_iff_dvd' ha).1 h.symm
      exact ⟨j, by omega⟩
    rw [hj, pow_add, pow_one, pow_mul, ZMod.pow_card_sub_one_eq_one h0, one_pow, mul_one]

/-- **C127, usable.** If the factors of a parsed key are distinct primes, then its private exponent undoes its public exponent on every message. -/
theorem C127_usable_partial (der : Bytes) (k : RsaKey) (h : parsePKCS1 der = .ok k) (hp : ∀ p ∈ k.primes, p.Prime) (hd : k.primes.Nodup) (m : Nat) (hm : m < k.n) :
    (m ^ k.e % k.n) ^ k.d % k.n = m ∧ (m ^ k.d % k.n) ^ k.e % k.n = m := by
  obtain ⟨⟨h2, he, h3, h4, h5⟩, -, -⟩ := C127_parsed der k h
  have hco : k.primes.Pairwise Nat.Coprime := by
    refine List.Pairwise.imp_of_mem ?_ hd
    intro a b ha hb hab
    exact (Nat.coprime_primes (hp a ha) (hp b hb)).2 hab
  have hd0 : 0 < k.e * k.d := by
    by_contra hc
    match hpr : k.primes with
    | [] => rw [hpr] at h2; simp at h2
    | p :: _ =>
      have h6 : k.e * k.d % (p - 1) = 1 % (p - 1) := h5 p (by rw [hpr]; simp)
      have h7 := h3 p (by rw [hpr]; simp)
      rw [show k.e * k.d = 0 by omega, Nat.zero_mod, Nat.mod_eq_of_lt (by omega)] at h6
      omega
  have key : m ^ (k.e * k.d) ≡ m [MOD k.n] := by
    rw [← h4]
    exact (Nat.modEq_list_prod_iff hco).2 fun i => fermat_pow (hp _ (List.get_mem _ _)) (h5 _ (List.get_mem _ _)) hd0
  constructor
  · rw [Nat.pow_mod, Nat.mod_mod, ← Nat.pow_mod, ← pow_mul]
    exact Eq.trans key (Nat.mod_eq_of_lt hm)
  · rw [Nat.pow_mod, Nat.mod_mod, ← Nat.pow_mod, ← pow_mul, mul_comm]
    exact Eq.trans key (Nat.mod_eq_of_lt hm)

/-! ### round trip -/

theorem optInt_enc (i : Int) (r : Bytes) (h : (Der.encIntBody i).length < 2 ^ 31) : optInt (Der.encInt i ++ r) = some (some i, r) := by
  unfold optInt Der.encInt
  rw [X509.Asn1.opt_enc 0x02 _ r (by decide) h]
  dsimp only
  rw [Der.parseIntBody_encIntBody]
  rfl

theorem optInt_seq (l : List Bytes) (r : Bytes) (h : l.flatten.length < 2 ^ 31) : optInt (Der.encSeq l ++ r) = some (none, Der.encSeq l ++ r) := by
  unfold optInt Der.encSeq
  rw [X509.Asn1.opt_other 0x02 0x30 _ r (by decide) h (by simp [X509.Asn1.hdrOf, X509.Asn1.Hdr.is])]

theorem int64_enc (n : Nat) (r : Bytes) (h : n < 2 ^ 31) : Der.parseInt64 (Der.encInt n ++ r) = some ((n : Int), r) := by
  have hl : (Der.encIntBody (n : Int)).length ≤ 5 := Der.encIntBody_length (k := 4) (by rw [Int.natAbs_natCast]; omega)
  unfold Der.parseInt64 Der.encInt
  rw [Der.parseTLV_encTLV 0x02 _ r (by decide) (by omega)]
  dsimp only
  rw [if_neg (by omega), Der.parseIntBody_encIntBody]
  rfl

theorem crtOk_coprime {d : Nat} {ps : List Nat} : ∀ {r l}, Spec.CrtOk d r ps l → (∀ p ∈ ps, Nat.Coprime r p) → ps.Pairwise Nat.Coprime →
    l.length = ps.length ∧ ∀ x ∈ l, x.2 ≠ none := by
  induction ps with
  | nil => intro r l h _ _; cases h; simp
  | cons p ps ih =>
    intro r l h hr hp
    cases h with
    | cons _ _ x c _ l h1 h2 h3 h4 h5 =>
      rw [List.pairwise_cons] at hp
      obtain ⟨e1, e2⟩ := ih h5 (fun q hq => Nat.Coprime.mul_left (hr q (by simp [hq])) (hp.1 q hq)) hp.2
      refine ⟨by simp [e1], ?_⟩
      intro y hy
      rcases List.mem_cons.1 hy with rfl | hy
      · intro hc
        exact h4.1 hc (hr p (by simp))
      · exact e2 y hy

theorem encExtras {more : List Nat} : ∀ {crt : List (Nat × Option Nat)}, crt.length = more.length → (∀ x ∈ crt, x.2 ≠ none) →
    ∃ bodies : List Bytes, (more.zip crt).mapM encExtra = some (bodies.map (Der.encTLV 0x30)) ∧ bodies.length = more.length ∧
      ((∀ b ∈ bodies, b.length < 2 ^ 31) → bodies.mapM extraPrime = some (more.map fun (x : Nat) => (x : Int))) := by
  induction more with
  | nil =>
    intro crt h _
    exact ⟨[], by rw [List.zip_nil_left]; rfl, rfl, fun _ => rfl⟩
  | cons p ps ih =>
    intro crt h hc
    match crt, h, hc with
    | (x, none) :: l, _, hc => exact absurd rfl (hc (x, none) (by simp))
    | (x, some c) :: l, h, hc =>
      obtain ⟨bs, h1, h2, h3⟩ := ih (crt := l) (by simpa using h) (fun y hy => hc y (by simp [hy]))
      refine ⟨(Der.encInt p ++ (Der.encInt x ++ (Der.encInt c ++ []))) :: bs, ?_, by simp [h2], ?_⟩
      · rw [List.zip_cons_cons, List.mapM_cons, h1]
        simp [encExtra, Der.encSeq]
      · intro hb
        have hb0 := hb _ (List.mem_cons_self)
        have l1 := X509.Asn1.encTLV_len 0x02 (Der.encIntBody (p : Int))
        have l2 := X509.Asn1.encTLV_len 0x02 (Der.encIntBody (x : Int))
        have l3 := X509.Asn1.encTLV_len 0x02 (Der.encIntBody (c : Int))
        simp only [List.length_append, Der.encInt] at hb0
        rw [List.mapM_cons, h3 (fun b hb' => hb b (by simp [hb']))]
        have e : extraPrime (Der.encInt p ++ (Der.encInt x ++ (Der.encInt c ++ []))) = some (p : Int) := by
          unfold extraPrime
          rw [Der.parseInt_encInt _ _ (by omega), Option.bind_eq_bind, Option.bind_some]
          dsimp only [Option.bind_eq_bind]
          rw [Der.parseInt_encInt _ _ (by omega), Option.bind_some]
          dsimp only
          rw [Der.parseInt_encInt _ _ (by omega)]
          rfl
        rw [e]
        rfl

theorem extraPrimes_enc (bodies : List Bytes) (hb : (bodies.map (Der.encTLV 0x30)).flatten.length < 2 ^ 31) :
    extraPrimes (if (bodies.map (Der.encTLV 0x30)).isEmpty then ([] : List Bytes) else [Der.encSeq (bodies.map (Der.encTLV 0x30))]).flatten = bodies.mapM extraPrime := by
  cases bodies with
  | nil => rfl
  | cons b bs =>
    have hm : ∀ x ∈ b :: bs, x.length < 2 ^ 31 := by
      intro x hx
      have h1 : (Der.encTLV 0x30 x).length ≤ ((b :: bs).map (Der.encTLV 0x30)).flatten.length :=
        (List.sublist_flatten_of_mem (List.mem_map_of_mem hx)).length_le
      have := X509.Asn1.encTLV_len 0x30 x
      omega
    rw [List.map_cons, List.isEmpty_cons, if_neg (by simp), List.flatten_cons, List.flatten_nil, ← List.map_cons]
    unfold extraPrimes
    rw [Der.encSeq, X509.Asn1.opt_enc 0x30 _ _ (by decide) hb]
    dsimp only
    rw [← List.flatMap_def, X509.Asn1.seqOf_enc 0x30 (by decide) (b :: bs) hm]

/-- **C127, round trip.** A valid key whose factors have no common divisors, fresh or with the right values for the Chinese remainder theorem, is written, and (unless longer than ASN.1 lengths allow) read back with the same numbers. -/
theorem C127_roundtrip_partial (k : RsaKey) (hv : Spec.RsaValid k) (hco : k.primes.Pairwise Nat.Coprime) (hpre : ∀ c, k.pre = some c → Spec.PreOk k c) :
    ∃ der, marshalPKCS1 k = .ok der ∧ (der.length < 2 ^ 31 → ∃ c, parsePKCS1 der = .ok { k with pre := some c } ∧ Spec.PreOk k c) := by
  obtain ⟨c, hc, ho⟩ : ∃ c, k.precompute = .ok { k with pre := some c } ∧ Spec.PreOk k c := by
    cases h0 : k.pre with
    | none => exact precompute_ok k hv h0
    | some c =>
      refine ⟨c, ?_, hpre c h0⟩
      unfold RsaKey.precompute
      rw [h0]
      dsimp only
      rw [← h0]
  obtain ⟨p, q, more, h1, -, -, -, -, -, h2, h3⟩ := ho
  have hpr := hv.primes
  rw [h1] at hco hpr
  obtain ⟨hp1, hp2⟩ := List.pairwise_cons.1 hco
  obtain ⟨hq1, hq2⟩ := List.pairwise_cons.1 hp2
  obtain ⟨e1, e2⟩ := crtOk_coprime h3 (fun r hr => Nat.Coprime.mul_left (hp1 r (by simp [hr])) (hq1 r hr)) hq2
  obtain ⟨bodies, f1, f2, f3⟩ := encExtras e1 e2
  obtain ⟨qi, hqi⟩ : ∃ qi, c.qinv = some qi := by
    cases hx : c.qinv with
    | none => exact absurd ((hp1 q (by simp)).symm) (h2.1 hx)
    | some x => exact ⟨x, rfl⟩
  obtain ⟨der, hder⟩ : ∃ der, marshalPKCS1 k = .ok der ∧ der = Der.encSeq ([Der.encInt (if 2 < k.primes.length then 1 else 0), Der.encInt k.n, Der.encInt k.e, Der.encInt k.d, Der.encInt p, Der.encInt q,
      Der.encInt c.dp, Der.encInt c.dq] ++ [Der.encInt qi] ++ if (bodies.map (Der.encTLV 0x30)).isEmpty then [] else [Der.encSeq (bodies.map (Der.encTLV 0x30))]) := by
    refine ⟨_, ?_, rfl⟩
    unfold marshalPKCS1
    rw [hc, Res.ok_bind]
    dsimp only
    rw [h1]
    dsimp only
    rw [if_neg (by omega), f1, hqi]
    rfl
  refine ⟨der, hder.1, fun hl => ?_⟩
  have hd := hder.2
  have hvv := ((validate_iff k).2 hv).1
  have hfresh : ({ k with pre := none } : RsaKey).validate = true := hvv
  obtain ⟨c', hc', ho'⟩ := precompute_ok { k with pre := none } ⟨hv.two, hv.exponent, hv.primes, hv.modulus, hv.inverse⟩ rfl
  refine ⟨c', ?_, ho'⟩
  rw [hd, Der.encSeq] at hl
  have hlc := X509.Asn1.encTLV_len 0x30 ([Der.encInt (if 2 < k.primes.length then 1 else 0), Der.encInt k.n, Der.encInt k.e, Der.encInt k.d, Der.encInt p, Der.encInt q,
      Der.encInt c.dp, Der.encInt c.dq] ++ [Der.encInt qi] ++ if (bodies.map (Der.encTLV 0x30)).isEmpty then [] else [Der.encSeq (bodies.map (Der.encTLV 0x30))]).flatten
  have hin : ∀ i : Int, Der.encInt i ∈ ([Der.encInt (if 2 < k.primes.length then 1 else 0), Der.encInt k.n, Der.encInt k.e, Der.encInt k.d, Der.encInt p, Der.encInt q,
      Der.encInt c.dp, Der.encInt c.dq] ++ [Der.encInt qi] ++ if (bodies.map (Der.encTLV 0x30)).isEmpty then [] else [Der.encSeq (bodies.map (Der.encTLV 0x30))]) → (Der.encIntBody i).length < 2 ^ 31 := by
    intro i hi
    have h1 := (List.sublist_flatten_of_mem hi).length_le
    have h2 := X509.Asn1.encTLV_len 0x02 (Der.encIntBody i)
    rw [Der.encInt] at h1
    omega
  have hb : (bodies.map (Der.encTLV 0x30)).flatten.length < 2 ^ 31 := by
    by_cases he : (bodies.map (Der.encTLV 0x30)).isEmpty
    · rw [List.isEmpty_iff.1 he]; decide
    · rw [if_neg he] at hl hlc
      have h1 : Der.encSeq (bodies.map (Der.encTLV 0x30)) ∈ ([Der.encInt (if 2 < k.primes.length then 1 else 0), Der.encInt k.n, Der.encInt k.e, Der.encInt k.d, Der.encInt p, Der.encInt q,
        Der.encInt c.dp, Der.encInt c.dq] ++ [Der.encInt qi] ++ [Der.encSeq (bodies.map (Der.encTLV 0x30))]) := by simp
      have h2 := (List.sublist_flatten_of_mem h1).length_le
      have h3 : _ ≤ (Der.encSeq (bodies.map (Der.encTLV 0x30))).length := X509.Asn1.encTLV_len 0x30 (bodies.map (Der.encTLV 0x30)).flatten
      omega
  have hbm : ∀ b ∈ bodies, b.length < 2 ^ 31 := by
    intro x hx
    have h1 : (Der.encTLV 0x30 x).length ≤ (bodies.map (Der.encTLV 0x30)).flatten.length := (List.sublist_flatten_of_mem (List.mem_map_of_mem hx)).length_le
    have := X509.Asn1.encTLV_len 0x30 x
    omega
  have hf : pkcs1Fields ([Der.encInt (if 2 < k.primes.length then 1 else 0), Der.encInt k.n, Der.encInt k.e, Der.encInt k.d, Der.encInt p, Der.encInt q,
      Der.encInt c.dp, Der.encInt c.dq] ++ [Der.encInt qi] ++ if (bodies.map (Der.encTLV 0x30)).isEmpty then [] else [Der.encSeq (bodies.map (Der.encTLV 0x30))]).flatten =
      some ⟨if 2 < k.primes.length then 1 else 0, k.n, k.e, k.d, p, q, more.map fun (x : Nat) => (x : Int)⟩ := by
    rw [List.flatten_append, List.flatten_append]
    generalize hT : (if (bodies.map (Der.encTLV 0x30)).isEmpty then ([] : List Bytes) else [Der.encSeq (bodies.map (Der.encTLV 0x30))]).flatten = T
    have hTe : extraPrimes T = some (more.map fun (x : Nat) => (x : Int)) := by
      rw [← hT, extraPrimes_enc bodies hb, f3 hbm]
    have hver : (Der.encInt (if 2 < k.primes.length then 1 else 0)) = Der.encInt ((if 2 < k.primes.length then 1 else 0 : Nat) : Int) := by split <;> rfl
    simp only [List.flatten_cons, List.flatten_nil, List.append_nil, List.append_assoc]
    unfold pkcs1Fields
    rw [hver, int64_enc _ _ (by split <;> decide)]
    simp only [Option.bind_eq_bind, Option.bind_some]
    rw [Der.parseInt_encInt _ _ (hin _ (by simp))]
    simp only [Option.bind_some]
    rw [int64_enc _ _ hv.exponent.2]
    simp only [Option.bind_some]
    rw [Der.parseInt_encInt _ _ (hin _ (by simp))]
    simp only [Option.bind_some]
    rw [Der.parseInt_encInt _ _ (hin _ (by simp))]
    simp only [Option.bind_some]
    rw [Der.parseInt_encInt _ _ (hin _ (by simp))]
    simp only [Option.bind_some]
    rw [optInt_enc _ _ (hin _ (by simp))]
    simp only [Option.bind_some]
    rw [optInt_enc _ _ (hin _ (by simp))]
    simp only [Option.bind_some]
    rw [optInt_enc _ _ (hin _ (by simp))]
    simp only [Option.bind_some]
    rw [hTe]
    simp only [Option.bind_some]
    congr 2
    split <;> rfl
  have hpos : ∀ p ∈ k.primes, 2 < p := hv.primes
  have hn : 0 < k.n := by
    rw [← hv.modulus]
    exact List.prod_pos fun p hp => by have := hpos p hp; omega
  have hdp : 0 < k.d := by
    by_contra hc
    have h6 : k.e * k.d % (p - 1) = 1 % (p - 1) := hv.inverse p (by rw [h1]; simp)
    have h7 := hpr p (by simp)
    rw [show k.d = 0 by omega, Nat.mul_zero, Nat.zero_mod, Nat.mod_eq_of_lt (by omega)] at h6
    omega
  unfold parsePKCS1
  rw [hd, Der.encSeq, X509.Asn1.only_enc 0x30 _ (by decide) (by omega)]
  dsimp only
  rw [hf]
  dsimp only
  have hp7 := hpr p (by simp)
  have hq7 := hpr q (by simp)
  rw [if_neg (by split <;> decide), if_neg (by omega), if_neg (by
    simp only [List.any_map, List.any_eq_true, Function.comp, decide_eq_true_eq, not_exists, not_and, not_le]
    intro x hx
    have := hpr x (by simp [hx])
    omega)]
  have hk : (⟨(k.n : Int).toNat, (k.e : Int).toNat, (k.d : Int).toNat, (p : Int).toNat :: (q : Int).toNat :: (more.map fun (x : Nat) => (x : Int)).map (·.toNat), none⟩ : RsaKey) =
      { k with pre := none } := by
    simp only [Int.toNat_natCast, List.map_map, Function.comp_def, List.map_id']
    rw [← h1]
  rw [hk, if_pos hfresh]
  exact hc'

/-- three factors -/
def rsa105 : RsaKey := ⟨105, 5, 5, [3, 5, 7], none⟩

theorem rsa105_valid : Spec.RsaValid rsa105 :=
  ⟨by decide, by decide, by decide, by decide, by decide⟩

/-- the hypotheses of the theorems are met by a key with three factors -/
example : ∃ der k, marshalPKCS1 rsa105 = .ok der ∧ parsePKCS1 der = .ok k ∧ (∀ p ∈ k.primes, p.Prime) ∧ k.primes.Nodup ∧ k.n = 105 ∧
    Spec.PreOk rsa105 ⟨1, 1, some 2, [(5, some 1)]⟩ := by
  obtain ⟨der, h1, h2⟩ := C127_roundtrip_partial rsa105 rsa105_valid (by decide) nofun
  have hl : der.length < 2 ^ 31 := by
    have : marshalPKCS1 rsa105 = .ok (Der.encSeq [Der.encInt 1, Der.encInt 105, Der.encInt 5, Der.encInt 5, Der.encInt 3, Der.encInt 5, Der.encInt 1, Der.encInt 1, Der.encInt 2,
        Der.encSeq [Der.encSeq [Der.encInt 7, Der.encInt 5, Der.encInt 1]]]) := by decide +kernel
    rw [this] at h1
    cases h1
    decide +kernel
  obtain ⟨c, h3, h4⟩ := h2 hl
  refine ⟨der, _, h1, h3, ?_, (by decide : [3, 5, 7].Nodup), rfl, 3, 5, [7], rfl, by decide, by decide, by decide, by decide, ?_, by decide, ?_⟩
  · intro p hp
    have : p = 3 ∨ p = 5 ∨ p = 7 := by simpa [rsa105] using hp
    rcases this with rfl | rfl | rfl <;> norm_num
  · rintro y ⟨⟩
    decide
  · refine .cons _ _ _ _ _ _ (by decide) (by decide) ?_ (by decide) (.nil _)
    rintro y ⟨⟩
    decide

/-- **C127** fails if a factor is repeated: such a key is accepted, although it cannot be used: there is no coefficient for the Chinese remainder theorem (the field is nil, which `crypto/rsa` dereferences), and the private exponent does not undo
the public one. The encoding is that of p = q = 3. -/
theorem C127_repeated_violated : ∃ der k, parsePKCS1 der = .ok k ∧ k.primes = [3, 3] ∧ k.n = 9 ∧ (∃ c, k.pre = some c ∧ c.qinv = none) ∧ (3 ^ k.e % k.n) ^ k.d % k.n ≠ 3 := by
  refine ⟨[0x30, 18, 2, 1, 0, 2, 1, 9, 2, 1, 3, 2, 1, 1, 2, 1, 3, 2, 1, 3], ⟨9, 3, 1, [3, 3], some ⟨1, 1, none, []⟩⟩, ?_⟩
  refine ⟨by decide +kernel, rfl, rfl, ⟨_, rfl, rfl⟩, by decide⟩

/-- **C127** fails for factors that are not prime: 9·5, exponents 3 and 3 -/
theorem C127_composite_violated : ∃ der k, parsePKCS1 der = .ok k ∧ k.n = 45 ∧ k.primes = [9, 5] ∧ (3 ^ k.e % k.n) ^ k.d % k.n ≠ 3 := by
  refine ⟨[0x30, 18, 2, 1, 0, 2, 1, 45, 2, 1, 3, 2, 1, 3, 2, 1, 9, 2, 1, 5], ⟨45, 3, 3, [9, 5], some ⟨3, 3, some 2, []⟩⟩, ?_⟩
  refine ⟨by decide +kernel, rfl, rfl, by decide⟩

/-- **C127** fails for `MarshalPKCS1PrivateKey` on a key that `Validate` accepts: the error of the encoder is dropped and nothing is written. -/
theorem C127_marshal_empty_violated : Spec.RsaValid ⟨45, 3, 3, [3, 5, 3], none⟩ ∧ marshalPKCS1 ⟨45, 3, 3, [3, 5, 3], none⟩ = .ok [] := by
  refine ⟨⟨by decide, by decide, by decide, by decide, by decide⟩, by decide +kernel⟩
end Verif.Keys
