import Verif.Sm4.Lemmas
namespace Verif.Sm4
open Spec (blk bxor Padded)

theorem enc_length (mk b : Bytes) : (Spec.enc mk b).length = 16 := crypt_length _ _
theorem dec_length (mk b : Bytes) : (Spec.dec mk b).length = 16 := crypt_length _ _

theorem copyAt_zero (dst r : Bytes) (h : dst.length = r.length) : copyAt dst 0 r = r := by
  unfold copyAt
  rw [List.take_zero, List.nil_append, Nat.sub_zero, h, List.take_length, Nat.min_self, Nat.zero_add,
    ← h, List.drop_length, List.append_nil]

theorem copyAt_len (dst : Bytes) (off : Nat) (src : Bytes) (h : off ≤ dst.length) :
    (copyAt dst off src).length = dst.length := by
  simp [copyAt]; omega

theorem blk_length (m : Bytes) (i : Nat) (h : i < m.length / 16) : (blk m i).length = 16 := by
  simp [blk]; omega

theorem copyAt_fit (out r : Bytes) (n : Nat) (hr : r.length = 16) (h : 16 * n + 16 ≤ out.length) :
    copyAt out (n * 16) r = out.take (16 * n) ++ r ++ out.drop (16 * (n + 1)) := by
  unfold copyAt
  have e : n * 16 = 16 * n := by omega
  have e2 : min r.length (out.length - 16 * n) = 16 := by omega
  rw [e, e2, List.take_of_length_le (l := r) (by omega)]
  rfl

theorem blk_copyAt_same (out r : Bytes) (n : Nat) (hr : r.length = 16)
    (h : 16 * n + 16 ≤ out.length) : blk (copyAt out (n * 16) r) n = r := by
  rw [copyAt_fit out r n hr h]
  unfold blk
  rw [List.append_assoc, List.drop_left' (by simp; omega), List.take_left' hr]

theorem blk_copyAt_lt (out r : Bytes) (n i : Nat) (hr : r.length = 16)
    (h : 16 * n + 16 ≤ out.length) (hi : i < n) : blk (copyAt out (n * 16) r) i = blk out i := by
  rw [copyAt_fit out r n hr h]
  unfold blk
  rw [List.append_assoc, List.drop_append_of_le_length (by simp; omega),
    List.take_append_of_le_length (by simp; omega), List.drop_take, List.take_take]
  congr 1; omega

theorem drop_copyAt (out r : Bytes) (n : Nat) (hr : r.length = 16)
    (h : 16 * n + 16 ≤ out.length) :
    (copyAt out (n * 16) r).drop (16 * (n + 1)) = out.drop (16 * (n + 1)) := by
  rw [copyAt_fit out r n hr h]
  rw [List.drop_left' (by simp; omega)]

theorem drop_succ_of (out o : Bytes) (n : Nat) (h : o.drop (16 * n) = out.drop (16 * n)) :
    o.drop (16 * (n+1)) = out.drop (16 * (n+1)) := by
  have := congrArg (List.drop 16) h
  rw [List.drop_drop, List.drop_drop] at this
  exact this

theorem mul16 (inData : Bytes) (n : Nat) : (inData.drop (n*16)).take 16 = blk inData n := by
  unfold blk; rw [Nat.mul_comm]

theorem ecbLoop_ok (crypt : Bytes → Bytes → Res Bytes) (f : Bytes → Bytes) (inData out : Bytes)
    (hc : ∀ src, src.length = 16 → crypt (List.replicate 16 0) src = .ok (f src))
    (hf : ∀ src, (f src).length = 16) (ho : out.length = inData.length) (n : Nat)
    (hn : n ≤ inData.length / 16) :
    ∃ o, ecbLoop crypt inData n out = .ok o ∧ o.length = inData.length ∧
      (∀ i, i < n → blk o i = f (blk inData i)) ∧ o.drop (16 * n) = out.drop (16 * n) := by
  induction n with
  | zero => exact ⟨out, rfl, ho, by intros; omega, rfl⟩
  | succ n ih =>
    obtain ⟨o, h1, h2, h3, h4⟩ := ih (by omega)
    have hb := blk_length inData n (by omega)
    refine ⟨copyAt o (n*16) (f (blk inData n)), ?_, ?_, ?_, ?_⟩
    · rw [ecbLoop, h1, Res.ok_bind, mul16, hc _ hb]; rfl
    · rw [copyAt_len _ _ _ (by omega), h2]
    · intro i hi
      by_cases hin : i = n
      · subst hin; rw [blk_copyAt_same _ _ _ (hf _) (by omega)]
      · rw [blk_copyAt_lt _ _ _ _ (hf _) (by omega) (by omega)]; exact h3 i (by omega)
    · rw [drop_copyAt _ _ _ (hf _) (by omega)]; exact drop_succ_of _ _ _ h4

/-- the block xored in at position `i` of a CBC stream `c`: zero IV, then the previous block -/
def prev (c : Bytes) (i : Nat) : Bytes := if i = 0 then List.replicate 16 0 else blk c (i - 1)

theorem prev_length (c : Bytes) (i : Nat) (h : i ≤ c.length / 16) : (prev c i).length = 16 := by
  unfold prev; split
  · simp
  · exact blk_length _ _ (by omega)

theorem xor_eq (a b : Bytes) (h : a.length = b.length) : xor a b = bxor a b := by
  unfold xor bxor; rw [if_neg (by omega)]

theorem bxor_length (a b : Bytes) (h : a.length = b.length) : (bxor a b).length = a.length := by
  simp [bxor, h]

theorem bxor_cancel (a b : Bytes) (h : a.length = b.length) : bxor (bxor a b) b = a := by
  induction a generalizing b with
  | nil => simp [bxor]
  | cons x a ih =>
    cases b with
    | nil => simp at h
    | cons y b =>
      simp only [bxor, List.zipWith_cons_cons]
      have := ih b (by simpa using h)
      simp only [bxor] at this
      rw [this, BitVec.xor_assoc, BitVec.xor_self, BitVec.xor_zero]

theorem cbcEncLoop_ok (c : List W32) (f : Bytes → Bytes) (inData out : Bytes)
    (hc : ∀ src, src.length = 16 → encrypt c (List.replicate 16 0) src = .ok (f src))
    (hf : ∀ src, (f src).length = 16) (ho : out.length = inData.length) (n : Nat)
    (hn : n ≤ inData.length / 16) :
    ∃ o, cbcEncLoop c inData n out = .ok (o, prev o n) ∧ o.length = inData.length ∧
      (∀ i, i < n → blk o i = f (bxor (blk inData i) (prev o i))) ∧
      o.drop (16 * n) = out.drop (16 * n) := by
  induction n with
  | zero => exact ⟨out, rfl, ho, by intros; omega, rfl⟩
  | succ n ih =>
    obtain ⟨o, h1, h2, h3, h4⟩ := ih (by omega)
    have hb := blk_length inData n (by omega)
    have hp := prev_length o n (by omega)
    have hprev : ∀ i, i ≤ n → ∀ r : Bytes, r.length = 16 → prev (copyAt o (n*16) r) i = prev o i := by
      intro i hi r hr
      unfold prev; split
      · rfl
      · exact blk_copyAt_lt _ _ _ _ hr (by omega) (by omega)
    refine ⟨copyAt o (n*16) (f (bxor (blk inData n) (prev o n))), ?_, ?_, ?_, ?_⟩
    · rw [cbcEncLoop, h1, Res.ok_bind]
      simp only
      rw [mul16, xor_eq _ _ (by omega), hc _ (by rw [bxor_length _ _ (by omega)]; exact hb), Res.ok_bind]
      have : prev (copyAt o (n*16) (f (bxor (blk inData n) (prev o n)))) (n+1)
          = f (bxor (blk inData n) (prev o n)) := by
        unfold prev
        rw [if_neg (by omega), Nat.add_sub_cancel, blk_copyAt_same _ _ _ (hf _) (by omega)]
      rw [this]
    · rw [copyAt_len _ _ _ (by omega), h2]
    · intro i hi
      rw [hprev i (by omega) _ (hf _)]
      by_cases hin : i = n
      · subst hin; rw [blk_copyAt_same _ _ _ (hf _) (by omega)]
      · rw [blk_copyAt_lt _ _ _ _ (hf _) (by omega) (by omega)]; exact h3 i (by omega)
    · rw [drop_copyAt _ _ _ (hf _) (by omega)]; exact drop_succ_of _ _ _ h4

theorem cbcDecLoop_ok (c : List W32) (f : Bytes → Bytes) (inData out : Bytes)
    (hc : ∀ src, src.length = 16 → decrypt c (List.replicate 16 0) src = .ok (f src))
    (hf : ∀ src, (f src).length = 16) (ho : out.length = inData.length) (n : Nat)
    (hn : n ≤ inData.length / 16) :
    ∃ o, cbcDecLoop c inData n out = .ok (o, prev inData n) ∧ o.length = inData.length ∧
      (∀ i, i < n → blk o i = bxor (f (blk inData i)) (prev inData i)) ∧
      o.drop (16 * n) = out.drop (16 * n) := by
  induction n with
  | zero => exact ⟨out, rfl, ho, by intros; omega, rfl⟩
  | succ n ih =>
    obtain ⟨o, h1, h2, h3, h4⟩ := ih (by omega)
    have hb := blk_length inData n (by omega)
    have hp := prev_length inData n (by omega)
    have hr : (bxor (f (blk inData n)) (prev inData n)).length = 16 := by
      rw [bxor_length _ _ (by rw [hf, hp]), hf]
    refine ⟨copyAt o (n*16) (bxor (f (blk inData n)) (prev inData n)), ?_, ?_, ?_, ?_⟩
    · rw [cbcDecLoop, h1, Res.ok_bind]
      simp only
      rw [mul16, hc _ hb, Res.ok_bind, xor_eq _ _ (by rw [hf, hp])]
      simp [prev]
    · rw [copyAt_len _ _ _ (by omega), h2]
    · intro i hi
      by_cases hin : i = n
      · subst hin; rw [blk_copyAt_same _ _ _ hr (by omega)]
      · rw [blk_copyAt_lt _ _ _ _ hr (by omega) (by omega)]; exact h3 i (by omega)
    · rw [drop_copyAt _ _ _ hr (by omega)]; exact drop_succ_of _ _ _ h4

theorem eq_of_blks (a b : Bytes) (hl : a.length = b.length) (h16 : a.length % 16 = 0)
    (h : ∀ i, i < a.length / 16 → blk a i = blk b i) : a = b := by
  apply List.ext_getElem hl
  intro j h1 h2
  have hb := h (j / 16) (by omega)
  have := congrArg (fun l => l[j % 16]?) hb
  simp only [blk, List.getElem?_take, List.getElem?_drop] at this
  rw [if_pos (by omega), if_pos (by omega)] at this
  have e : 16 * (j / 16) + j % 16 = j := by omega
  rw [e, List.getElem?_eq_getElem h1, List.getElem?_eq_getElem h2] at this
  exact Option.some.inj this

/-! ### block functions of a cipher -/

theorem encrypt_ok (mk : Bytes) (c : List W32) (dst src : Bytes) (h : 16 ≤ src.length)
    (hc : ∀ i, i < 32 → c.getD i 0 = Spec.rk mk i) :
    encrypt c dst src = .ok (copyAt dst 0 (Spec.enc mk src)) := by
  unfold encrypt cryptBlock
  rw [if_neg (by omega), cryptWords_ok c mk src .enc h hc]

theorem decrypt_ok (mk : Bytes) (c : List W32) (dst src : Bytes) (h : 16 ≤ src.length)
    (hc : ∀ i, i < 32 → c.getD i 0 = Spec.rk mk i) :
    decrypt c dst src = .ok (copyAt dst 0 (Spec.dec mk src)) := by
  unfold decrypt cryptBlock
  rw [if_neg (by omega), cryptWords_ok c mk src .dec h hc]

theorem encrypt16 (mk : Bytes) (c : List W32) (hc : ∀ i, i < 32 → c.getD i 0 = Spec.rk mk i)
    (src : Bytes) (h : src.length = 16) :
    encrypt c (List.replicate 16 0) src = .ok (Spec.enc mk src) := by
  rw [encrypt_ok mk c _ _ (by omega) hc, copyAt_zero _ _ (by rw [enc_length]; simp)]

theorem decrypt16 (mk : Bytes) (c : List W32) (hc : ∀ i, i < 32 → c.getD i 0 = Spec.rk mk i)
    (src : Bytes) (h : src.length = 16) :
    decrypt c (List.replicate 16 0) src = .ok (Spec.dec mk src) := by
  rw [decrypt_ok mk c _ _ (by omega) hc, copyAt_zero _ _ (by rw [dec_length]; simp)]

/-! ### padding -/

theorem padding_padded (m : Bytes) : Padded m (pkcs7Padding m) ∧
    (pkcs7Padding m).length = 16 * (m.length / 16 + 1) := by
  refine ⟨⟨16 - m.length % 16, by omega, by omega, rfl⟩, ?_⟩
  simp [pkcs7Padding, blockSize]; omega

theorem unpad_ok_iff (src m : Bytes) : pkcs7UnPadding src = .ok m ↔ Padded m src := by
  unfold pkcs7UnPadding
  constructor
  · intro h
    split at h
    · cases h
    · rename_i last hlast
      simp only at h
      split at h
      · cases h
      · rename_i h1
        split at h
        · cases h
        · rename_i h2
          split at h
          · rename_i h3
            simp only [Res.ok.injEq] at h
            refine ⟨last.toNat, by omega, by simp [blockSize] at h1; omega, ?_⟩
            subst h
            have : src.drop (src.length - last.toNat) =
                List.replicate last.toNat (BitVec.ofNat 8 last.toNat) := by
              apply List.eq_replicate_iff.mpr
              refine ⟨by simp; omega, fun b hb => ?_⟩
              have := List.all_eq_true.mp h3 b hb
              exact eq_of_beq this
            rw [← this, List.take_append_drop]
          · cases h
  · rintro ⟨n, h1, h2, rfl⟩
    have hn : (BitVec.ofNat 8 n).toNat = n := by simp; omega
    have hlast : (m ++ List.replicate n (BitVec.ofNat 8 n)).getLast? = some (BitVec.ofNat 8 n) := by
      obtain ⟨k, rfl⟩ : ∃ k, n = k + 1 := ⟨n - 1, by omega⟩
      rw [List.replicate_succ', ← List.append_assoc, List.getLast?_concat]
    rw [hlast]
    simp only [hn]
    rw [if_neg (by simp [blockSize]; omega), if_neg (by simp), if_pos, List.length_append,
      List.length_replicate, Nat.add_sub_cancel, List.take_left' rfl]
    rw [List.length_append, List.length_replicate, Nat.add_sub_cancel, List.drop_left' rfl]
    simp

theorem unpad_never_panics (src : Bytes) (h : 16 ≤ src.length) :
    pkcs7UnPadding src ≠ .panic := by
  unfold pkcs7UnPadding
  split
  · rename_i hn; simp at hn; subst hn; simp at h
  · simp only
    split
    · simp
    · rename_i h1
      rw [if_neg (by simp [blockSize] at h1; omega)]
      split <;> simp

theorem unpad_zero_last (src : Bytes) (h : src.getLast? = some 0) :
    unpadIgnoringError src = .ok [] := by
  unfold unpadIgnoringError pkcs7UnPadding
  rw [h]; simp

/-- what DEC returns from the raw decryption `o` when it is at least one block long -/
theorem unpadIgnoring_eq (o : Bytes) (h : 16 ≤ o.length) :
    (∀ m, Padded m o → unpadIgnoringError o = .ok m) ∧
    ((¬ ∃ m, Padded m o) → unpadIgnoringError o = .ok []) := by
  constructor
  · intro m hm
    unfold unpadIgnoringError
    rw [(unpad_ok_iff o m).mpr hm]
  · intro hno
    unfold unpadIgnoringError
    cases hr : pkcs7UnPadding o with
    | ok m => exact absurd ⟨m, (unpad_ok_iff o m).mp hr⟩ hno
    | err e => rfl
    | panic => exact absurd hr (unpad_never_panics o h)

theorem getLast_of_drop (o : Bytes) (n k : Nat) (hk : 0 < k)
    (h : o.drop n = List.replicate k 0) : o.getLast? = some 0 := by
  have : o = o.take n ++ List.replicate k 0 := by rw [← h, List.take_append_drop]
  obtain ⟨j, rfl⟩ : ∃ j, k = j + 1 := ⟨k - 1, by omega⟩
  rw [this, List.replicate_succ', ← List.append_assoc, List.getLast?_concat]

end Verif.Sm4
