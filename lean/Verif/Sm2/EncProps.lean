import Verif.Sm2.SignProps
/-! Properties C14-C19: identity hash, public-key encryption, key derivation, point encoding. -/
namespace Verif.Sm2
open Verif
variable {c : Curve} {G : Type} [AddCommGroup G]

/-! ### lemmas -/
private theorem loop_spec (z : Bytes) (j i : Nat) (pre : Bytes) (hp : pre.length = i * 32) :
    kdfLoop z j (i + 1) (pre ++ List.replicate (j * 32) 0) =
      .ok (pre ++ (List.range j).flatMap (fun a => Sm3.Spec.hash (z ++ beFixed 4 (i + a + 1)))) := by
  induction j generalizing i pre with
  | zero => simp [kdfLoop]
  | succ j ih =>
    rw [kdfLoop]
    have h1 : copyAt (List.replicate (z.length + 4) 0) 0 z = z ++ List.replicate 4 0 := by
      rw [copyAt_zero _ _ (by simp)]; simp
    have h2 : copyAt (z ++ List.replicate 4 0) z.length (beFixed 4 (i + 1)) = z ++ beFixed 4 (i + 1) := by
      rw [copyAt_at _ _ _ (by simp)]; simp
    have h3 : copyAt (pre ++ List.replicate ((j + 1) * 32) 0) ((i + 1 - 1) * 32)
        (Sm3.Spec.hash (z ++ beFixed 4 (i + 1))) =
        (pre ++ Sm3.Spec.hash (z ++ beFixed 4 (i + 1))) ++ List.replicate (j * 32) 0 := by
      rw [Nat.add_sub_cancel, ← hp, copyAt_at _ _ _ (by rw [hash_len]; simp; try omega), hash_len]
      simp; omega
    simp only [h1, h2, sumSM3_eq, Res.ok_bind, h3]
    rw [ih (i + 1) _ (by rw [List.length_append, hash_len, hp]; omega)]
    simp only [List.range_succ_eq_map, List.flatMap_cons, List.append_assoc, List.flatMap_map,
      Nat.add_zero]
    simp only [Nat.succ_eq_add_one, show ∀ a, i + 1 + a + 1 = i + (a + 1) + 1 from fun a => by omega]

private theorem flat_length (z : Bytes) (j : Nat) :
    ((List.range j).flatMap (fun a => Sm3.Spec.hash (z ++ beFixed 4 (a + 1)))).length = j * 32 := by
  induction j with
  | zero => simp
  | succ j ih => rw [List.range_succ, List.flatMap_append, List.length_append, ih]; simp [hash_len]; omega

theorem kdf_length (z : Bytes) (n : Nat) : (Spec.kdf z n).length = n := by
  rw [Spec.kdf, List.length_take, flat_length]; omega

private theorem keyDerivation_spec (z : Bytes) (n : Nat) :
    keyDerivation z ((n : Int) * 8) = .ok (some (Spec.kdf z n)) := by
  have h1 : ¬ ((n : Int) * 8 % 8 ≠ 0) := by omega
  have h2 : ¬ ((n : Int) * 8 < 0) := by omega
  have h3 : ((n : Int) * 8).toNat = n * 8 := by omega
  have h4 : (n * 8 + 255) / 256 = (n + 31) / 32 := by omega
  simp only [keyDerivation, if_neg h1, if_neg h2, h3, h4]
  have := loop_spec z ((n + 31) / 32) 0 [] rfl
  simp only [List.nil_append, Nat.zero_add] at this
  rw [this, Res.ok_bind, Spec.kdf]
  simp

private theorem allZeroScan_iff (t : Bytes) : allZeroScan t = true ↔ t ≠ [] ∧ ∀ b ∈ t, b = 0 := by
  fun_induction allZeroScan t with
  | case1 => simp
  | case2 v => simp
  | case3 v rest _ h =>
    simp only [Bool.false_eq_true, false_iff, not_and, not_forall]
    exact fun _ => ⟨v, by simp, h⟩
  | case4 v rest hne h ih =>
    have : rest ≠ [] := by rintro rfl; exact hne rfl
    simp only [ne_eq, not_not] at h
    rw [ih]; simp [this, h]

theorem xorInto_spec (t m : Bytes) (h : t.length ≤ m.length) : xorInto t m = .ok (Spec.xor t m) := by
  induction t generalizing m with
  | nil => simp [xorInto, Spec.xor]
  | cons v t ih =>
    cases m with
    | nil => simp at h
    | cons a m => rw [xorInto, ih m (by simpa using h)]; simp [Spec.xor]

theorem xor_length (a b : Bytes) : (Spec.xor a b).length = min a.length b.length := by
  simp [Spec.xor]

theorem xor_cancel (t m : Bytes) (h : t.length = m.length) : Spec.xor t (Spec.xor t m) = m := by
  induction t generalizing m with
  | nil => simp at h; rw [List.eq_nil_of_length_eq_zero h.symm]; rfl
  | cons v t ih =>
    cases m with
    | nil => simp at h
    | cons a m =>
      have := ih m (by simpa using h)
      simp only [Spec.xor, List.zipWith_cons_cons] at this ⊢
      rw [this]
      congr 1
      rw [← BitVec.xor_assoc, BitVec.xor_self, BitVec.zero_xor]

theorem xor_comm' (a b : Bytes) : Spec.xor a b = Spec.xor b a := by
  unfold Spec.xor
  rw [List.zipWith_comm]
  congr 1
  funext x y
  exact BitVec.xor_comm y x

private theorem zOf_spec (a b : Bytes) (ha : a.length = 32) (hb : b.length = 32) : zOf a b = a ++ b := by
  have h1 : copyAt (List.replicate 64 0) 0 a = a ++ List.replicate 32 0 := by
    rw [copyAt_zero _ _ (by simp [ha]), ha]; rfl
  have h2 := copyAt_at a (List.replicate 32 0) b (by simp [hb])
  rw [ha] at h2
  rw [zOf, h1, h2, hb]; simp

private theorem hashInput_spec (a m b : Bytes) (ha : a.length = 32) (hb : b.length = 32) :
    hashInput a m b = a ++ m ++ b := by
  have h1 : copyAt (List.replicate (64 + m.length) 0) 0 a = a ++ List.replicate (32 + m.length) 0 := by
    rw [copyAt_zero _ _ (by simp [ha]; omega), ha, List.drop_replicate]
    congr 2; omega
  have h2 := copyAt_at a (List.replicate (32 + m.length) 0) m (by simp)
  have h3 := copyAt_at (a ++ m) (List.replicate 32 0) b (by simp [hb])
  rw [ha] at h2
  rw [List.length_append, ha] at h3
  rw [hashInput, h1, h2]
  have : (List.replicate (32 + m.length) (0 : Byte)).drop m.length = List.replicate 32 0 := by
    rw [List.drop_replicate]; congr 1; omega
  rw [this, h3, hb]
  simp

/-! ### C14 -/

/-- **C14 (unambiguous).** The bytes hashed into Z determine the identity and both coordinates
(identities of every length). -/
theorem C14_unambiguous (id id' : Bytes) (x y x' y' : Nat) (hx : x < 2 ^ 256) (hy : y < 2 ^ 256)
    (hx' : x' < 2 ^ 256) (hy' : y' < 2 ^ 256) (h : zPreimage x y id = zPreimage x' y' id') :
    id = id' ∧ x = x' ∧ y = y' := by
  have e : (2 : Nat) ^ 256 = 256 ^ 32 := by decide
  rw [e] at hx hy hx' hy'
  rw [zPreimage_spec _ _ _ hx hy, zPreimage_spec _ _ _ hx' hy'] at h
  simp only [Spec.zInput, List.append_assoc] at h
  have hl : id.length = id'.length := by
    have := congrArg List.length h
    simp only [List.length_append, beFixed_length] at this
    omega
  obtain ⟨_, h⟩ := List.append_inj h (by simp)
  obtain ⟨h1, h⟩ := List.append_inj h hl
  obtain ⟨_, h⟩ := List.append_inj h (by simp)
  obtain ⟨_, h⟩ := List.append_inj h (by simp)
  obtain ⟨_, h⟩ := List.append_inj h (by simp)
  obtain ⟨_, h⟩ := List.append_inj h (by simp)
  obtain ⟨h2, h3⟩ := List.append_inj h (by simp)
  exact ⟨h1, beFixed_inj hx hx' h2, beFixed_inj hy hy' h3⟩

/-- **C14 (conformance).** `getZById` is the standard's `Z` for 256-bit coordinates, with the ENTL
field equal to the true bit length for identities shorter than 8192 bytes. -/
theorem C14_is_standard (id : Bytes) (x y : Nat) (hx : x < 2 ^ 256) (hy : y < 2 ^ 256) :
    getZById x y id = .ok (Sm3.Spec.hash (Spec.zInput id x y)) ∧
    (id.length < 8192 → beNat ((Spec.zInput id x y).take 2) = 8 * id.length) := by
  have e : (2 : Nat) ^ 256 = 256 ^ 32 := by decide
  rw [e] at hx hy
  refine ⟨by rw [getZById, zPreimage_spec _ _ _ hx hy, sumSM3_eq], fun hid => ?_⟩
  simp only [Spec.zInput, List.append_assoc]
  rw [List.take_left' (by simp), beNat_beFixed]
  exact Nat.mod_eq_of_lt (by omega)

example : (defaultId.length = 16) ∧ Gx < 2 ^ 256 ∧ Gy < 2 ^ 256 := by decide

/-! ### C18 -/

/-- **C18.** `keyDerivation(Z, 8n)` is the standard's KDF and has exactly `n` bytes. -/
theorem C18_kdf (z : Bytes) (n : Nat) :
    keyDerivation z (8 * n) = .ok (some (Spec.kdf z n)) ∧ (Spec.kdf z n).length = n :=
  ⟨by rw [Int.mul_comm]; exact keyDerivation_spec z n, kdf_length z n⟩

/-- a bit length that is not a multiple of 8 gives nil; a negative one panics -/
theorem C18_other_lengths (z : Bytes) (klen : Int) :
    (klen % 8 ≠ 0 → keyDerivation z klen = .ok none) ∧
    (klen % 8 = 0 → klen < 0 → keyDerivation z klen = .panic) := by
  constructor
  · intro h; simp [keyDerivation, h]
  · intro h h2; simp [keyDerivation, h, h2]

/-- a shorter request is a prefix of a longer one -/
theorem C18_prefix (z : Bytes) (m n : Nat) (h : m ≤ n) :
    ∃ k k', keyDerivation z (8 * m) = .ok (some k) ∧ keyDerivation z (8 * n) = .ok (some k') ∧
      k = k'.take m := by
  refine ⟨_, _, (C18_kdf z m).1, (C18_kdf z n).1, ?_⟩
  simp only [Spec.kdf, List.take_take, Nat.min_eq_left h]
  obtain ⟨d, hd⟩ := Nat.exists_eq_add_of_le (show (m + 31) / 32 ≤ (n + 31) / 32 by omega)
  rw [hd, List.range_add, List.flatMap_append, List.take_append_of_le_length]
  rw [flat_length]; omega

/-! ### C19 -/

/-- **C19 (round trip).** -/
theorem C19_roundtrip (x y : Nat) (hx : x < 2 ^ 256) (hy : y < 2 ^ 256) :
    (pointToBytes x y).length = 65 ∧ (pointToBytes x y).head? = some 4 ∧
    pointFromBytes (pointToBytes x y) = some (x, y) := by
  have e : (2 : Nat) ^ 256 = 256 ^ 32 := by decide
  rw [e] at hx hy
  have hl : (pointToBytes x y).length = 65 := by
    simp [pointToBytes, padCoord_length x hx, padCoord_length y hy]
  refine ⟨hl, by simp [pointToBytes], ?_⟩
  rw [pointFromBytes, if_neg]
  · simp only [pointToBytes, padCoord_eq x hx, padCoord_eq y hy, List.cons_append, List.nil_append,
      List.drop_succ_cons, List.drop_zero]
    rw [List.take_left' (by simp), List.drop_left' (by simp), beNat_beFixed_of_lt hx, beNat_beFixed_of_lt hy]
  · rw [hl]; simp [pointToBytes]

/-- **C19 (strict).** Decoding accepts exactly the 65-byte strings that start with 4, and each is the
encoding of the point it decodes to. -/
theorem C19_strict (b : Bytes) :
    ((pointFromBytes b).isSome ↔ b.length = 65 ∧ b.head? = some 4) ∧
    (∀ x y, pointFromBytes b = some (x, y) → pointToBytes x y = b) := by
  constructor
  · cases b with
    | nil => simp [pointFromBytes]
    | cons v b =>
      unfold pointFromBytes
      split <;> rename_i h <;> simp at h ⊢
      · tauto
      · exact ⟨h.1, h.2⟩
  · intro x y h
    unfold pointFromBytes at h
    split at h
    · simp at h
    · rename_i hc
      push Not at hc
      simp only [Option.some.injEq, Prod.mk.injEq] at h
      cases b with
      | nil => simp at hc
      | cons v b =>
        simp at hc
        simp only [List.drop_succ_cons, List.drop_zero] at h
        have hb : b.length = 64 := hc.1
        have l1 : (b.take 32).length = 32 := by simp [hb]
        have l2 : (b.drop 32).length = 32 := by simp [hb]
        have hx : x < 256 ^ 32 := by rw [← h.1]; have := beNat_lt (b.take 32); rwa [l1] at this
        have hy : y < 256 ^ 32 := by rw [← h.2]; have := beNat_lt (b.drop 32); rwa [l2] at this
        rw [pointToBytes, padCoord_eq x hx, padCoord_eq y hy, ← h.1, ← h.2]
        have e1 := beFixed_beNat (b.take 32)
        have e2 := beFixed_beNat (b.drop 32)
        rw [l1] at e1
        rw [l2] at e2
        rw [e1, e2, hc.2]
        simp

example : (pointFromBytes (pointToBytes Gx Gy)).isSome := by
  rw [(C19_roundtrip Gx Gy (by decide) (by decide)).2.2]; rfl

/-! ### C16, C17 -/

/-- `ScalarMult` returns 256-bit coordinates on every input, also for points off the curve
(sm2/sm2p256_amd64.go:374-379: two 32-byte buffers). -/
def Bounded (c : Curve) : Prop := ∀ x y k, (c.scalarMult x y k).1 < 2 ^ 256 ∧ (c.scalarMult x y k).2 < 2 ^ 256

theorem decryptParts_spec (hb : Bounded c) (key : PrivateKey c) (x1 y1 : Nat) (c2 c3 : Bytes) :
    let q := c.scalarMult x1 y1 (natBytes key.d.natAbs)
    let t := Spec.kdf (beFixed 32 q.1 ++ beFixed 32 q.2) c2.length
    let m := Spec.xor t c2
    decryptParts key x1 y1 c2 c3 ((c2.length : Int) * 8) =
      if ((c2 ≠ [] ∧ ∀ b ∈ t, b = 0) ∨ Sm3.Spec.hash (beFixed 32 q.1 ++ m ++ beFixed 32 q.2) ≠ c3)
      then .err "sm2: decryption error" else .ok m := by
  intro q t m
  have e : (2 : Nat) ^ 256 = 256 ^ 32 := by decide
  have hq := hb x1 y1 (natBytes key.d.natAbs)
  rw [e] at hq
  have hx : padCoord q.1 = beFixed 32 q.1 := padCoord_eq _ hq.1
  have hy : padCoord q.2 = beFixed 32 q.2 := padCoord_eq _ hq.2
  have ht : t.length = c2.length := kdf_length _ _
  have hne : t ≠ [] ↔ c2 ≠ [] := by
    rw [← List.length_pos_iff, ← List.length_pos_iff, ht]
  have hz : zOf (padCoord q.1) (padCoord q.2) = beFixed 32 q.1 ++ beFixed 32 q.2 := by
    rw [hx, hy]; exact zOf_spec _ _ (by simp) (by simp)
  unfold decryptParts
  dsimp only
  rw [show c.scalarMult x1 y1 (natBytes key.d.natAbs) = q from rfl, hz, keyDerivation_spec, Res.ok_bind]
  simp only []
  by_cases h0 : allZeroScan t = true
  · have h0' := (allZeroScan_iff t).1 h0
    rw [if_pos h0, if_pos (Or.inl ⟨hne.1 h0'.1, h0'.2⟩)]
  · have h0' : ¬ (c2 ≠ [] ∧ ∀ b ∈ t, b = 0) := by
      rw [← hne, ← allZeroScan_iff]; exact h0
    rw [if_neg h0, xorInto_spec _ _ ht.le, Res.ok_bind, sumSM3_eq, Res.ok_bind, hx, hy,
      hashInput_spec _ _ _ (by simp) (by simp)]
    by_cases h1 : Sm3.Spec.hash (beFixed 32 q.1 ++ m ++ beFixed 32 q.2) ≠ c3
    · rw [if_pos h1, if_pos (Or.inr h1)]
    · rw [if_neg h1, if_neg (by tauto)]

private theorem decrypt_wf (hb : Bounded c) (key : PrivateKey c) (ct : Bytes) (hl : 97 ≤ ct.length)
    (h4 : ct.head? = some 4) :
    ∃ x1 y1, pointToBytes x1 y1 = ct.take 65 ∧ 
    decrypt key ct = 
      (let q := c.scalarMult x1 y1 (natBytes key.d.natAbs)
       let t := Spec.kdf (beFixed 32 q.1 ++ beFixed 32 q.2) (ct.length - 97)
       let m := Spec.xor t (ct.drop 97)
       if ((97 < ct.length ∧ ∀ b ∈ t, b = 0) ∨
          Sm3.Spec.hash (beFixed 32 q.1 ++ m ++ beFixed 32 q.2) ≠ (ct.drop 65).take 32)
       then .err "sm2: decryption error" else .ok m) := by
  have h65 : (ct.take 65).length = 65 := by simp; omega
  have hh : (ct.take 65).head? = some 4 := by cases ct <;> simp_all
  have hs := (C19_strict (ct.take 65)).1.2 ⟨h65, hh⟩
  obtain ⟨⟨x1, y1⟩, hp⟩ := Option.isSome_iff_exists.1 hs
  refine ⟨x1, y1, (C19_strict _).2 _ _ hp, ?_⟩
  rw [decrypt, if_neg (by omega), hp]
  simp only []
  have hl' : (ct.length : Int) - 97 = ((ct.drop 97).length : Int) := by simp; omega
  rw [hl']
  have := decryptParts_spec hb key x1 y1 (ct.drop 97) ((ct.drop 65).take 32)
  simp only [] at this
  rw [this]
  have hd : (ct.drop 97) ≠ [] ↔ 97 < ct.length := by
    rw [Ne, List.drop_eq_nil_iff]; omega
  simp only [hd, List.length_drop]

/-- **C16.** Plaintext is released only when the hash check passes: the released `m` has the length of
C2, C2 = m ⊕ KDF(x2‖y2) and C3 = SM3(x2‖m‖y2), where (x2,y2) = d·C1 and C1 is the decoded first part. -/
theorem C16_released_only_if_hash_ok (hb : Bounded c) (key : PrivateKey c) (ct m : Bytes)
    (h : decrypt key ct = .ok m) :
    ∃ x1 y1 c2 c3, ct = pointToBytes x1 y1 ++ c3 ++ c2 ∧ (pointToBytes x1 y1).length = 65 ∧ c3.length = 32 ∧
      (let q := c.scalarMult x1 y1 (natBytes key.d.natAbs)
       c3 = Sm3.Spec.hash (beFixed 32 q.1 ++ m ++ beFixed 32 q.2) ∧
       c2 = Spec.xor m (Spec.kdf (beFixed 32 q.1 ++ beFixed 32 q.2) m.length) ∧ c2.length = m.length) := by
  have hl : 97 ≤ ct.length ∧ ct.head? = some 4 := by
    unfold decrypt at h
    split at h
    · simp at h
    · split at h
      · simp at h
      · rename_i hn x1 y1 hp
        have hs := (C19_strict (ct.take 65)).1.1 (by rw [hp]; rfl)
        have hh : ct.head? = some 4 := by
          have := hs.2
          cases ct with
          | nil => simp at this
          | cons v ct => simpa using this
        refine ⟨?_, hh⟩
        by_contra hlt
        unfold decryptParts at h
        have hk : ∀ z, keyDerivation z (((ct.length : Int) - 97) * 8) = .panic := by
          intro z
          exact (C18_other_lengths z _).2 (by omega) (by omega)
        simp only [hk, Res.panic_bind] at h
        simp at h
  obtain ⟨x1, y1, hp, hd⟩ := decrypt_wf hb key ct hl.1 hl.2
  have h65 : (ct.take 65).length = 65 := by simp; omega
  refine ⟨x1, y1, ct.drop 97, (ct.drop 65).take 32, ?_, by rw [hp, h65], by simp; omega, ?_⟩
  · rw [hp]
    have e : ct.drop 97 = (ct.drop 65).drop 32 := by simp
    rw [e, List.append_assoc, List.take_append_drop, List.take_append_drop]
  · rw [hd] at h
    simp only [] at h ⊢
    split at h
    · simp at h
    · rename_i hc
      push Not at hc
      simp only [Res.ok.injEq] at h
      have hml : m.length = ct.length - 97 := by
        rw [← h, xor_length, kdf_length]; simp
      refine ⟨?_, ?_, by rw [hml]; simp⟩
      · rw [← hc.2, h]
      · rw [hml, xor_comm', ← h, xor_cancel]
        rw [kdf_length]; simp

/-- **C16, converse.** A well-formed ciphertext (97 bytes or more, starting with 4) never panics: it is
either accepted with exactly that plaintext or rejected with `DecryptionErr`. -/
theorem C16_well_formed_decided (hb : Bounded c) (key : PrivateKey c) (ct : Bytes) (hl : 97 ≤ ct.length)
    (h4 : ct.head? = some 4) :
    (∃ m, decrypt key ct = .ok m) ∨ decrypt key ct = .err "sm2: decryption error" := by
  obtain ⟨x1, y1, _, hd⟩ := decrypt_wf hb key ct hl h4
  rw [hd]
  simp only []
  split
  · right; rfl
  · left; exact ⟨_, rfl⟩

/-- Consequence of C16: two ciphertexts with the same C1 and C3 that are both accepted and have
different C2 exhibit an SM3 collision. -/
theorem C16_forgery_is_collision (hb : Bounded c) (key : PrivateKey c) (c1 c3 c2 c2' m m' : Bytes)
    (h1 : c1.length = 65) (h3 : c3.length = 32) (hne : c2 ≠ c2')
    (h : decrypt key (c1 ++ c3 ++ c2) = .ok m) (h' : decrypt key (c1 ++ c3 ++ c2') = .ok m') :
    ∃ a b, a ≠ b ∧ Sm3.Spec.hash a = Sm3.Spec.hash b := by
  obtain ⟨x, y, d2, d3, e, l1, l3, p3, p2, _⟩ := C16_released_only_if_hash_ok hb key _ m h
  obtain ⟨x', y', d2', d3', e', l1', l3', p3', p2', _⟩ := C16_released_only_if_hash_ok hb key _ m' h'
  obtain ⟨ea, eb⟩ := List.append_inj e (by simp only [List.length_append, h1, h3, l1, l3])
  obtain ⟨ec, ed⟩ := List.append_inj ea (by rw [h1, l1])
  obtain ⟨ea', eb'⟩ := List.append_inj e' (by simp only [List.length_append, h1, h3, l1', l3'])
  obtain ⟨ec', ed'⟩ := List.append_inj ea' (by rw [h1, l1'])
  have hxy : some (x, y) = some (x', y') := by
    have b : ∀ u v : Nat, (pointToBytes u v).length = 65 → ∃ w, pointFromBytes (pointToBytes u v) = some w := by
      intro u v hl
      have := (C19_strict (pointToBytes u v)).1.2 ⟨hl, by simp [pointToBytes]⟩
      exact Option.isSome_iff_exists.1 this
    obtain ⟨⟨u, v⟩, hw⟩ := b x y l1
    have hpad : ∀ a : Nat, a < 256 ^ 32 ∨ 33 ≤ (padCoord a).length := by
      intro a
      by_cases ha : a < 256 ^ 32
      · exact Or.inl ha
      · right
        have hn : 33 ≤ (natBytes a).length := by
          by_contra hc
          have h1 := beNat_lt (natBytes a)
          rw [beNat_natBytes] at h1
          have := Nat.pow_le_pow_right (show 0 < 256 by decide) (show (natBytes a).length ≤ 32 by omega)
          omega
        unfold padCoord
        simp only []
        rw [if_neg (by omega)]; exact hn
    have hmin : ∀ a : Nat, 32 ≤ (padCoord a).length := by
      intro a
      rcases hpad a with h | h
      · rw [padCoord_length a h]
      · omega
    have hsm : ∀ u v : Nat, (pointToBytes u v).length = 65 → u < 2 ^ 256 ∧ v < 2 ^ 256 := by
      intro u v hl
      have e : (2 : Nat) ^ 256 = 256 ^ 32 := by decide
      rw [e]
      simp only [pointToBytes, List.length_append, List.length_singleton] at hl
      have := hmin u; have := hmin v
      constructor
      · rcases hpad u with h | h
        · exact h
        · omega
      · rcases hpad v with h | h
        · exact h
        · omega
    rw [← (C19_roundtrip x y (hsm x y l1).1 (hsm x y l1).2).2.2,
      ← (C19_roundtrip x' y' (hsm x' y' l1').1 (hsm x' y' l1').2).2.2, ← ec, ← ec']
  simp only [Option.some.injEq, Prod.mk.injEq] at hxy
  obtain ⟨rfl, rfl⟩ := hxy
  refine ⟨_, _, ?_, p3.symm.trans (ed.symm.trans (ed'.trans p3'))⟩
  intro hcat
  apply hne
  have hmm : m = m' := by
    simp only [List.append_assoc] at hcat
    obtain ⟨_, hcat⟩ := List.append_inj hcat (by simp)
    have hl : m.length = m'.length := by
      have := congrArg List.length hcat
      simp only [List.length_append, beFixed_length] at this
      omega
    exact (List.append_inj hcat hl).1
  rw [eb, eb', p2, p2', hmm]

/-- **C17 is violated; exact panic set.** `Decrypt` panics exactly on inputs shorter than 97 bytes and
on inputs whose first byte is not 4. -/
theorem C17_panics_iff_partial (hb : Bounded c) (key : PrivateKey c) (ct : Bytes) :
    decrypt key ct = .panic ↔ ct.length < 97 ∨ ct.head? ≠ some 4 := by
  constructor
  · intro h
    by_contra hc
    push Not at hc
    rcases C16_well_formed_decided hb key ct hc.1 hc.2 with ⟨m, hm⟩ | hm <;> rw [hm] at h <;> simp at h
  · intro h
    by_contra hp
    have hr : (∃ m, decrypt key ct = .ok m) ∨ (∃ e, decrypt key ct = .err e) := by
      cases hd : decrypt key ct with
      | ok m => exact Or.inl ⟨m, rfl⟩
      | err e => exact Or.inr ⟨e, rfl⟩
      | panic => exact absurd hd hp
    have key1 : 65 ≤ ct.length ∧ (pointFromBytes (ct.take 65)).isSome ∧ 97 ≤ ct.length := by
      unfold decrypt at hp
      split at hp
      · simp at hp
      · split at hp
        · simp at hp
        · rename_i hn x1 y1 hpp
          refine ⟨by omega, by rw [hpp]; rfl, ?_⟩
          by_contra hlt
          apply hp
          unfold decryptParts
          have hk : ∀ z, keyDerivation z (((ct.length : Int) - 97) * 8) = .panic := by
            intro z
            exact (C18_other_lengths z _).2 (by omega) (by omega)
          simp only [hk, Res.panic_bind]
    have h2 := ((C19_strict (ct.take 65)).1.1 key1.2.1).2
    rcases h with h | h
    · omega
    · apply h
      cases ct with
      | nil => simp at h2
      | cons v ct => simpa using h2

theorem C17_violated (hb : Bounded c) (key : PrivateKey c) : decrypt key [] = .panic :=
  (C17_panics_iff_partial hb key []).2 (Or.inl (by decide))

/-! ### C15 -/

theorem Lawful.PubOf.encPoint {L : Lawful c G} {pub : PublicKey c} {Q : G} (hpub : L.PubOf pub Q)
    (k : Nat) (hku : L.Usable pub k) : Sm2.encPoint c pub k = L.enc (k • Q) := by
  rcases hpub.pre with hp | ⟨o, ho, hp⟩
  · have hb' : k % N ∉ L.bad := by
      rcases hku with ⟨h1, _⟩ | h1
      · exact absurd hp h1
      · exact h1
    have : Sm2.encPoint c pub k = c.scalarMult pub.x pub.y (natBytes k) := by
      unfold Sm2.encPoint; rw [hp]; cases c.opt <;> rfl
    rw [this, hpub.x, hpub.y, L.mult _ _ hpub.ne (by rwa [beNat_natBytes]), beNat_natBytes]
  · unfold Sm2.encPoint
    rw [ho, hp]
    simp only []
    rw [hpub.x, hpub.y, L.pre o ho _ hpub.ne, beNat_natBytes]

/-- **C15.** Whatever `Encrypt` returns is decrypted by the matching key to the message; its layout is
`04‖X‖Y‖C3‖C2` and its length `97 + len(m)`. -/
theorem C15_roundtrip_partial (L : Lawful c G) (hb : Bounded c) (priv : PrivateKey c) (d : Nat) (h : L.PrivOf priv d)
    (pub : PublicKey c) (hpub : L.PubOf pub (d • L.g)) (rand msg ct : Bytes)
    (hd : d % N ∉ L.bad) (hk : ∀ k, generateRandK rand = some k → L.Usable pub k)
    (henc : encrypt c rand pub msg = some (.ok ct)) :
    decrypt priv ct = .ok msg ∧ ct.length = 97 + msg.length ∧ ct.head? = some 4 := by
  have e256 : (2 : Nat) ^ 256 = 256 ^ 32 := by decide
  cases hg : generateRandK rand with
  | none => simp [encrypt, doEncrypt, hg] at henc
  | some k =>
    have hku := hk k hg
    let Q := L.enc (k • d • L.g)
    let C := L.enc (k • L.g)
    have hp2 : Sm2.encPoint c pub k = Q := hpub.encPoint k hku
    have hQ := L.enc_lt (k • d • L.g)
    have hC := L.enc_lt (k • L.g)
    have hPl := P_lt
    have hx : padCoord Q.1 = beFixed 32 Q.1 := padCoord_eq _ (by show (L.enc _).1 < _; omega)
    have hy : padCoord Q.2 = beFixed 32 Q.2 := padCoord_eq _ (by show (L.enc _).2 < _; omega)
    have hz : zOf (padCoord Q.1) (padCoord Q.2) = beFixed 32 Q.1 ++ beFixed 32 Q.2 := by
      rw [hx, hy]; exact zOf_spec _ _ (by simp) (by simp)
    set t := Spec.kdf (beFixed 32 Q.1 ++ beFixed 32 Q.2) msg.length with ht
    have htl : t.length = msg.length := kdf_length _ _
    have hz0 : allZeroScan t ≠ true := by
      intro h0
      unfold encrypt doEncrypt at henc
      rw [hg] at henc
      simp only [hp2, hz, keyDerivation_spec, ← ht, h0, if_true, Option.map_none] at henc
      simp at henc
    have hct : ct = pointToBytes C.1 C.2 ++ Sm3.Spec.hash (beFixed 32 Q.1 ++ msg ++ beFixed 32 Q.2) ++ Spec.xor t msg := by
      unfold encrypt doEncrypt at henc
      rw [hg] at henc
      simp only [hp2, hz, keyDerivation_spec, ← ht, if_neg hz0, xorInto_spec t msg htl.le, Res.ok_bind] at henc
      simp only [hx, hy, hashInput_spec _ _ _ (beFixed_length 32 Q.1) (beFixed_length 32 Q.2), sumSM3_eq, Option.map_some,
        Option.some.injEq, Res.ok_bind, Res.ok.injEq] at henc
      rw [← henc, L.base, beNat_natBytes]
    have hCr := C19_roundtrip C.1 C.2 (by rw [e256]; show (L.enc _).1 < _; omega)
      (by rw [e256]; show (L.enc _).2 < _; omega)
    have hlen : ct.length = 97 + msg.length := by
      rw [hct]
      simp only [List.length_append, hCr.1, hash_len, xor_length, htl, Nat.min_self]
    have hhead : ct.head? = some 4 := by rw [hct]; simp [pointToBytes]
    refine ⟨?_, hlen, hhead⟩
    have h65 : ct.take 65 = pointToBytes C.1 C.2 := by
      rw [hct, List.append_assoc, List.take_left' hCr.1]
    have h97 : ct.drop 97 = Spec.xor t msg := by
      rw [hct, List.drop_left']
      rw [List.length_append, hCr.1, hash_len]
    have h32 : (ct.drop 65).take 32 = Sm3.Spec.hash (beFixed 32 Q.1 ++ msg ++ beFixed 32 Q.2) := by
      rw [hct, List.append_assoc, List.drop_left' hCr.1, List.take_left' (hash_len _)]
    rw [decrypt, if_neg (by omega), h65, hCr.2.2]
    simp only []
    have hl' : ((ct.length : Int) - 97) * 8 = ((Spec.xor t msg).length : Int) * 8 := by
      rw [xor_length, htl]; simp; omega
    rw [hl', h97, h32]
    have := decryptParts_spec hb priv C.1 C.2 (Spec.xor t msg) (Sm3.Spec.hash (beFixed 32 Q.1 ++ msg ++ beFixed 32 Q.2))
    simp only [] at this
    have hsm : c.scalarMult C.1 C.2 (natBytes priv.d.natAbs) = Q := by
      rw [h.scalar, Int.natAbs_natCast]
      show c.scalarMult (L.enc (k • L.g)).1 (L.enc (k • L.g)).2 (natBytes d) = Q
      have hkg : k • L.g ≠ 0 := by
        intro h0
        have h1 := C12_range rand k (Or.inl hg)
        have := Nat.le_of_dvd (by omega) (L.nsmul_g_eq_zero h0)
        have := N_pos
        omega
      rw [L.mult _ _ hkg (by rwa [beNat_natBytes]), beNat_natBytes]
      show _ = L.enc (k • d • L.g)
      rw [← mul_nsmul, ← mul_nsmul, Nat.mul_comm]
    have hxl : (Spec.xor t msg).length = msg.length := by rw [xor_length, htl]; simp
    rw [this, hsm, hxl, ← ht, xor_cancel t msg htl, if_neg]
    rintro (⟨h1, h2⟩ | h1)
    · apply hz0
      rw [allZeroScan_iff]
      refine ⟨?_, h2⟩
      rw [← List.length_pos_iff] at h1 ⊢
      omega
    · exact h1 rfl

/-- `Encrypt` **does not terminate** exactly when the derived key stream is all zero (probability
1/256 for a one-byte message): the retry jumps back after the nonce was chosen. -/
theorem C15_diverges_iff (L : Lawful c G) (pub : PublicKey c) (Q : G) (hpub : L.PubOf pub Q)
    (rand msg : Bytes) (k : Nat) (hg : generateRandK rand = some k) (hku : L.Usable pub k) :
    encrypt c rand pub msg = none ↔
      (msg ≠ [] ∧ ∀ b ∈ Spec.kdf (beFixed 32 (L.enc (k • Q)).1 ++ beFixed 32 (L.enc (k • Q)).2) msg.length, b = 0) := by
  have hp2 := hpub.encPoint k hku
  have hQ := L.enc_lt (k • Q)
  have hPl := P_lt
  have hz : zOf (padCoord (L.enc (k • Q)).1) (padCoord (L.enc (k • Q)).2) =
      beFixed 32 (L.enc (k • Q)).1 ++ beFixed 32 (L.enc (k • Q)).2 := by
    rw [padCoord_eq _ (by omega), padCoord_eq _ (by omega)]
    exact zOf_spec _ _ (by simp) (by simp)
  set t := Spec.kdf (beFixed 32 (L.enc (k • Q)).1 ++ beFixed 32 (L.enc (k • Q)).2) msg.length with ht
  have htl : t.length = msg.length := kdf_length _ _
  have hne : t ≠ [] ↔ msg ≠ [] := by rw [← List.length_pos_iff, ← List.length_pos_iff, htl]
  rw [← hne, ← allZeroScan_iff]
  unfold encrypt doEncrypt
  rw [hg]
  simp only [hp2, hz, keyDerivation_spec, ← ht]
  by_cases h0 : allZeroScan t = true
  · simp [h0]
  · simp [h0]

end Verif.Sm2
