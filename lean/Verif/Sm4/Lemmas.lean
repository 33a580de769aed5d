import Verif.Sm4.Model
import Verif.Sm4.Spec
namespace Verif.Sm4

/-! ### tables (finite: all 256 entries, by kernel evaluation) -/

theorem forall_byte {p : Byte → Prop} (h : ∀ i, i < 256 → p (BitVec.ofNat 8 i)) (x : Byte) : p x := by
  have := h x.toNat x.isLt
  simpa using this

theorem scSbox_eq (x : Byte) : scSbox x = Spec.S x := by
  revert x; apply forall_byte; decide +kernel

theorem tbl0_eq (x : Byte) : sbox0.getD x.toNat 0 = Spec.L ((Spec.S x).setWidth 32) := by
  rw [← scSbox_eq]; revert x; apply forall_byte; decide +kernel
theorem tbl1_eq (x : Byte) : sbox1.getD x.toNat 0 = Spec.L ((Spec.S x).setWidth 32 <<< 8) := by
  rw [← scSbox_eq]; revert x; apply forall_byte; decide +kernel
theorem tbl2_eq (x : Byte) : sbox2.getD x.toNat 0 = Spec.L ((Spec.S x).setWidth 32 <<< 16) := by
  rw [← scSbox_eq]; revert x; apply forall_byte; decide +kernel
theorem tbl3_eq (x : Byte) : sbox3.getD x.toNat 0 = Spec.L ((Spec.S x).setWidth 32 <<< 24) := by
  rw [← scSbox_eq]; revert x; apply forall_byte; decide +kernel

theorem ck_eq (i : Nat) (h : i < 32) : ck.getD i 0 = Spec.CK i := by
  revert i; decide +kernel
theorem fk_eq (i : Nat) (h : i < 4) : fk.getD i 0 = Spec.FK i := by
  revert i; decide +kernel

/-! ### linearity of L -/

theorem rotateLeft_xor (a b : W32) (r : Nat) :
    (a ^^^ b).rotateLeft r = a.rotateLeft r ^^^ b.rotateLeft r := by
  ext i hi
  simp only [BitVec.getElem_rotateLeft, BitVec.getElem_xor]
  split <;> rfl

theorem L_xor (a b : W32) : Spec.L (a ^^^ b) = Spec.L a ^^^ Spec.L b := by
  unfold Spec.L
  simp only [rotateLeft_xor]
  ac_rfl

theorem leftRotate_eq (x : W32) (r : Nat) (h : r < 32) : leftRotate x r = x.rotateLeft r := by
  have e : (0xffffffff : W32) = BitVec.allOnes 32 := by decide
  have hr : r % 32 = r := Nat.mod_eq_of_lt h
  show ((x <<< r) ||| (x >>> (32 - r))) &&& 0xffffffff = (x <<< (r % 32)) ||| (x >>> (32 - r % 32))
  rw [e, BitVec.and_allOnes, hr]

theorem l_eq (x : W32) : l x = Spec.L x := by
  simp [l, Spec.L, leftRotate_eq]
theorem keyL_eq (x : W32) : keyL x = Spec.L' x := by
  simp [keyL, Spec.L', leftRotate_eq]

/-! ### words as big-endian numbers -/

theorem or4 (x0 x1 x2 x3 : Byte) :
    ((x0.setWidth 32 <<< 24) ||| (x1.setWidth 32 <<< 16) ||| (x2.setWidth 32 <<< 8)
      ||| x3.setWidth 32 : W32) = BitVec.ofNat 32 (beNat [x0, x1, x2, x3]) := by
  apply BitVec.eq_of_toNat_eq
  have h0 := x0.isLt; have h1 := x1.isLt; have h2 := x2.isLt; have h3 := x3.isLt
  simp only [BitVec.toNat_or, BitVec.toNat_shiftLeft, BitVec.toNat_setWidth, BitVec.toNat_ofNat,
    Nat.shiftLeft_eq]
  have e3 : x3.toNat % 2^32 = x3.toNat := Nat.mod_eq_of_lt (by omega)
  have e2 : (x2.toNat % 2^32) * 2^8 % 2^32 = 2^8 * x2.toNat := by
    rw [Nat.mod_eq_of_lt (a := x2.toNat) (by omega), Nat.mod_eq_of_lt (by omega), Nat.mul_comm]
  have e1 : (x1.toNat % 2^32) * 2^16 % 2^32 = 2^16 * x1.toNat := by
    rw [Nat.mod_eq_of_lt (a := x1.toNat) (by omega), Nat.mod_eq_of_lt (by omega), Nat.mul_comm]
  have e0 : (x0.toNat % 2^32) * 2^24 % 2^32 = 2^24 * x0.toNat := by
    rw [Nat.mod_eq_of_lt (a := x0.toNat) (by omega), Nat.mod_eq_of_lt (by omega), Nat.mul_comm]
  rw [e3, e2, e1, e0, Nat.or_assoc, Nat.or_assoc,
    ← Nat.two_pow_add_eq_or_of_lt (i := 8) (by omega),
    ← Nat.two_pow_add_eq_or_of_lt (i := 16) (by omega),
    ← Nat.two_pow_add_eq_or_of_lt (i := 24) (by omega)]
  have hb : beNat [x0, x1, x2, x3] =
      ((x0.toNat * 256 + x1.toNat) * 256 + x2.toNat) * 256 + x3.toNat := by
    simp only [beNat, List.foldl_cons, List.foldl_nil, Nat.zero_mul, Nat.zero_add]
  rw [hb, Nat.mod_eq_of_lt (by omega)]; omega

theorem or4' (x0 x1 x2 x3 : Byte) :
    (x3.setWidth 32 ||| (x2.setWidth 32 <<< 8) ||| (x1.setWidth 32 <<< 16)
      ||| (x0.setWidth 32 <<< 24) : W32) = BitVec.ofNat 32 (beNat [x0, x1, x2, x3]) := by
  rw [← or4]
  generalize (x0.setWidth 32 <<< 24 : W32) = a
  generalize (x1.setWidth 32 <<< 16 : W32) = b
  generalize (x2.setWidth 32 <<< 8 : W32) = c
  generalize (x3.setWidth 32 : W32) = d
  rw [BitVec.or_comm d c, BitVec.or_comm (c ||| d) b, BitVec.or_comm _ a, ← BitVec.or_assoc,
    ← BitVec.or_assoc]

/-- big-endian bytes as an exclusive or of shifted bytes -/
theorem xor4 (x0 x1 x2 x3 : Byte) :
    BitVec.ofNat 32 (beNat [x0, x1, x2, x3]) =
    ((x3.setWidth 32) ^^^ (x2.setWidth 32 <<< 8) ^^^ (x1.setWidth 32 <<< 16)
      ^^^ (x0.setWidth 32 <<< 24) : W32) := by
  rw [← or4']
  ext i hi
  simp only [BitVec.getElem_or, BitVec.getElem_xor, BitVec.getElem_shiftLeft, BitVec.getElem_setWidth]
  by_cases h8 : i < 8
  · simp [h8, show i < 16 by omega, show i < 24 by omega]
  · by_cases h16 : i < 16
    · simp [h8, h16, show i < 24 by omega, BitVec.getLsbD_of_ge _ _ (show 8 ≤ i by omega)]
    · by_cases h24 : i < 24
      · simp [h8, h16, h24, BitVec.getLsbD_of_ge _ _ (show 8 ≤ i by omega),
          BitVec.getLsbD_of_ge _ _ (show 8 ≤ i - 8 by omega)]
      · simp [h8, h16, h24, BitVec.getLsbD_of_ge _ _ (show 8 ≤ i by omega),
          BitVec.getLsbD_of_ge _ _ (show 8 ≤ i - 8 by omega),
          BitVec.getLsbD_of_ge _ _ (show 8 ≤ i - 16 by omega)]

theorem byteOf_eq (x : W32) (i : Nat) :
    (x >>> (8 * (3 - i))).setWidth 8 = Spec.byteOf x i := by
  apply BitVec.eq_of_toNat_eq
  simp [Spec.byteOf, Nat.shiftRight_eq_div_pow, Nat.pow_mul]

theorem and_ff (x : Byte) : x &&& 0xff = x := by
  have e : (0xff : Byte) = BitVec.allOnes 8 := by decide
  rw [e, BitVec.and_allOnes]

theorem tt_eq (x : W32) : tt x = Spec.tau x := by
  unfold tt Spec.tau
  simp only [and_ff, scSbox_eq]
  rw [or4']
  have h0 := byteOf_eq x 0
  have h1 := byteOf_eq x 1
  have h2 := byteOf_eq x 2
  have h3 := byteOf_eq x 3
  simp at h0 h1 h2 h3
  rw [h0, h1, h2, h3]

theorem keyT_eq (x : W32) : keyT x = Spec.T' x := by
  rw [keyT, keyL_eq, tt_eq]; rfl

theorem and_ff_toNat (x : W32) (k : Nat) :
    ((x >>> k) &&& 0xff).toNat = ((x >>> k).setWidth 8 : Byte).toNat := by
  simp only [BitVec.toNat_and, BitVec.toNat_setWidth]
  exact Nat.and_two_pow_sub_one_eq_mod _ 8

theorem tbl_eq (x : W32) : tbl x = Spec.T x := by
  unfold tbl Spec.T Spec.tau
  have h0 := byteOf_eq x 0
  have h1 := byteOf_eq x 1
  have h2 := byteOf_eq x 2
  have h3 := byteOf_eq x 3
  simp only [Nat.sub_zero, Nat.reduceSub, Nat.reduceMul] at h0 h1 h2 h3
  have a3 := and_ff_toNat x 0
  rw [h3] at a3
  rw [BitVec.ushiftRight_zero] at a3
  rw [and_ff_toNat, and_ff_toNat, and_ff_toNat, a3, h0, h1, h2]
  rw [tbl0_eq, tbl1_eq, tbl2_eq, tbl3_eq, xor4, L_xor, L_xor, L_xor]

/-! ### loading and storing words -/

theorem ldWord_eq (b : Bytes) (i : Nat) (h : 4 * i + 4 ≤ b.length) : ldWord b i = Spec.word b i := by
  unfold ldWord Spec.word
  rw [or4]
  have e : (b.drop (4 * i)).take 4 =
      [b.getD (i*4) 0, b.getD (i*4+1) 0, b.getD (i*4+2) 0, b.getD (i*4+3) 0] := by
    apply List.ext_getElem
    · simp; omega
    · intro n h1 h2
      simp at h2
      have : n = 0 ∨ n = 1 ∨ n = 2 ∨ n = 3 := by omega
      rcases this with rfl | rfl | rfl | rfl <;>
        simp [List.getD_eq_getElem?_getD, 
          show i * 4 < b.length by omega, show i * 4 + 1 < b.length by omega,
          show i * 4 + 2 < b.length by omega, show i * 4 + 3 < b.length by omega, Nat.mul_comm]
  rw [e]

theorem stWord_eq (s : W32) : stWord s = beFixed 4 s.toNat := by
  have e : ∀ k, (s >>> k).setWidth 8 = BitVec.ofNat 8 (s.toNat / 2 ^ k) := by
    intro k
    apply BitVec.eq_of_toNat_eq
    simp [Nat.shiftRight_eq_div_pow]
  have e0 : s.setWidth 8 = BitVec.ofNat 8 s.toNat := by
    apply BitVec.eq_of_toNat_eq; simp
  simp only [stWord, e, e0, beFixed, Nat.div_div_eq_div_mul, List.nil_append, List.cons_append]

/-! ### key schedule -/

theorem keyLoop_ok (mk : Bytes) (k : List W32) (hl : k.length = 4)
    (hk : ∀ i, i < 4 → k.getD i 0 = Spec.K mk i) (n : Nat) (hn : n ≤ 32) :
    ((List.range n).foldl keyStep k).length = 4 + n ∧
    ∀ i, i < 4 + n → ((List.range n).foldl keyStep k).getD i 0 = Spec.K mk i := by
  induction n with
  | zero => exact ⟨by simp [hl], fun i hi => by simpa using hk i (by omega)⟩
  | succ n ih =>
    obtain ⟨ihl, ih⟩ := ih (by omega)
    rw [List.range_succ, List.foldl_append]
    simp only [List.foldl_cons, List.foldl_nil]
    generalize (List.range n).foldl keyStep k = w at ih ihl
    refine ⟨by simp [keyStep, ihl]; omega, fun i hi => ?_⟩
    unfold keyStep
    by_cases hin : i < 4 + n
    · rw [getD_append_left _ _ _ _ (by omega)]; exact ih i hin
    · have : i = 4 + n := by omega
      subst this
      rw [getD_append_right _ _ _ _ (by omega), ihl]
      simp only [Nat.sub_self, List.getD_cons_zero]
      conv => rhs; rw [Spec.K, if_neg (by omega)]
      rw [ih _ (by omega), ih _ (by omega), ih _ (by omega), ih _ (by omega), keyT_eq,
        ck_eq n (by omega)]
      have e0 : 4 + n - 4 = n := by omega
      have e1 : 4 + n - 3 = n + 1 := by omega
      have e2 : 4 + n - 2 = n + 2 := by omega
      have e3 : 4 + n - 1 = n + 3 := by omega
      rw [e0, e1, e2, e3]

theorem newCipher_ok (mk : Bytes) (h : mk.length = 16) :
    ∃ c, newCipher mk = .ok c ∧ c.length = 32 ∧ ∀ i, i < 32 → c.getD i 0 = Spec.rk mk i := by
  have hr : List.range 4 = [0, 1, 2, 3] := by decide
  have key := keyLoop_ok mk
    ((List.range 4).map fun i => (((List.range 4).map (ldWord mk)).getD i 0) ^^^ fk.getD i 0)
    (by simp) (by
      intro i hi
      rw [Spec.K, if_pos hi, ← ldWord_eq mk i (by omega), ← fk_eq i hi]
      have : i = 0 ∨ i = 1 ∨ i = 2 ∨ i = 3 := by omega
      rcases this with rfl | rfl | rfl | rfl <;> simp [hr]) 32 (by omega)
  refine ⟨keyExp ((List.range 4).map (ldWord mk)), by simp [newCipher, h, blockSize], ?_, ?_⟩
  · simp only [keyExp, List.length_drop]; rw [key.1]
  · intro i hi
    have := key.2 (i + 4) (by omega)
    rw [Spec.rk, ← this]
    simp [keyExp, List.getD_eq_getElem?_getD, List.getElem?_drop, Nat.add_comm]

/-! ### the rounds -/

theorem X_succ (k : Nat → W32) (b : Bytes) (i : Nat) : Spec.X k b (i + 4) =
    Spec.X k b i ^^^ Spec.T (Spec.X k b (i+1) ^^^ Spec.X k b (i+2) ^^^ Spec.X k b (i+3) ^^^ k i) := by
  conv => lhs; rw [Spec.X, if_neg (by omega)]
  have e0 : i + 4 - 4 = i := by omega
  have e1 : i + 4 - 3 = i + 1 := by omega
  have e2 : i + 4 - 2 = i + 2 := by omega
  have e3 : i + 4 - 1 = i + 3 := by omega
  rw [e0, e1, e2, e3]

theorem quad_ok (k : Nat → W32) (b : Bytes) (i : Nat) :
    quad ⟨Spec.X k b (4*i), Spec.X k b (4*i+1), Spec.X k b (4*i+2), Spec.X k b (4*i+3)⟩
      (k (4*i)) (k (4*i+1)) (k (4*i+2)) (k (4*i+3)) =
    ⟨Spec.X k b (4*(i+1)), Spec.X k b (4*(i+1)+1), Spec.X k b (4*(i+1)+2), Spec.X k b (4*(i+1)+3)⟩ := by
  have h0 := X_succ k b (4*i)
  have h1 := X_succ k b (4*i+1)
  have h2 := X_succ k b (4*i+2)
  have h3 := X_succ k b (4*i+3)
  simp only [Nat.add_assoc, Nat.reduceAdd] at h0 h1 h2 h3
  have e0 : 4 * (i + 1) = 4 * i + 4 := by omega
  simp only [quad, tbl_eq, e0, Nat.add_assoc, Nat.reduceAdd]
  have r0 : Spec.X k b (4 * i) ^^^ Spec.T (Spec.X k b (4 * i + 1) ^^^ Spec.X k b (4 * i + 2) ^^^
      Spec.X k b (4 * i + 3) ^^^ k (4 * i)) = Spec.X k b (4 * i + 4) := h0.symm
  simp only [r0]
  have r1 : Spec.X k b (4 * i + 1) ^^^ Spec.T (Spec.X k b (4 * i + 4) ^^^ Spec.X k b (4 * i + 2) ^^^
      Spec.X k b (4 * i + 3) ^^^ k (4 * i + 1)) = Spec.X k b (4 * i + 5) := by
    rw [h1]; congr 2; ac_rfl
  simp only [r1]
  have r2 : Spec.X k b (4 * i + 2) ^^^ Spec.T (Spec.X k b (4 * i + 4) ^^^ Spec.X k b (4 * i + 5) ^^^
      Spec.X k b (4 * i + 3) ^^^ k (4 * i + 2)) = Spec.X k b (4 * i + 6) := by
    rw [h2]; congr 2; ac_rfl
  simp only [r2]
  have r3 : Spec.X k b (4 * i + 3) ^^^ Spec.T (Spec.X k b (4 * i + 5) ^^^ Spec.X k b (4 * i + 6) ^^^
      Spec.X k b (4 * i + 4) ^^^ k (4 * i + 3)) = Spec.X k b (4 * i + 7) := by
    rw [h3]; congr 2; ac_rfl
  simp only [r3]

theorem loop_ok (f : B4 → Nat → B4) (k : Nat → W32) (b : Bytes)
    (hf : ∀ s i, i < 8 → f s i = quad s (k (4*i)) (k (4*i+1)) (k (4*i+2)) (k (4*i+3))) (n : Nat)
    (hn : n ≤ 8) :
    (List.range n).foldl f ⟨Spec.X k b 0, Spec.X k b 1, Spec.X k b 2, Spec.X k b 3⟩ =
    ⟨Spec.X k b (4*n), Spec.X k b (4*n+1), Spec.X k b (4*n+2), Spec.X k b (4*n+3)⟩ := by
  induction n with
  | zero => rfl
  | succ n ih =>
    rw [List.range_succ, List.foldl_append, ih (by omega)]
    simp only [List.foldl_cons, List.foldl_nil]
    rw [hf _ n (by omega), quad_ok]

theorem X_lt (k : Nat → W32) (b : Bytes) (i : Nat) (h : i < 4) : Spec.X k b i = Spec.word b i := by
  rw [Spec.X, if_pos h]

theorem cryptWords_ok (c : List W32) (mk src : Bytes) (mode : Mode) (h : 16 ≤ src.length)
    (hc : ∀ i, i < 32 → c.getD i 0 = Spec.rk mk i) :
    cryptWords c src mode = match mode with
      | .enc => Spec.enc mk src
      | .dec => Spec.dec mk src := by
  have hw : ∀ i, i < 4 → ldWord src i = Spec.word src i := fun i hi => ldWord_eq src i (by omega)
  cases mode with
  | enc =>
    have := loop_ok (encIter c) (Spec.rk mk) src (by
      intro s i hi
      simp only [encIter]
      rw [hc _ (by omega), hc _ (by omega), hc _ (by omega), hc _ (by omega)]) 8 (by omega)
    simp only [X_lt _ _ 0 (by omega), X_lt _ _ 1 (by omega), X_lt _ _ 2 (by omega),
      X_lt _ _ 3 (by omega)] at this
    simp only [cryptWords, hw 0 (by omega), hw 1 (by omega), hw 2 (by omega), hw 3 (by omega), this,
      stWord_eq, Spec.enc, Spec.crypt, Nat.reduceMul, Nat.reduceAdd]
  | dec =>
    have := loop_ok (decIter c) (fun i => Spec.rk mk (31 - i)) src (by
      intro s i hi
      simp only [decIter]
      rw [hc _ (by omega), hc _ (by omega), hc _ (by omega), hc _ (by omega)]
      simp only [Nat.sub_sub]) 8 (by omega)
    simp only [X_lt _ _ 0 (by omega), X_lt _ _ 1 (by omega), X_lt _ _ 2 (by omega),
      X_lt _ _ 3 (by omega)] at this
    simp only [cryptWords, hw 0 (by omega), hw 1 (by omega), hw 2 (by omega), hw 3 (by omega), this,
      stWord_eq, Spec.dec, Spec.crypt, Nat.reduceMul, Nat.reduceAdd]

/-! ### inversion -/

theorem crypt_length (k : Nat → W32) (b : Bytes) : (Spec.crypt k b).length = 16 := by
  simp [Spec.crypt]

theorem word_crypt (k : Nat → W32) (b : Bytes) (i : Nat) (h : i < 4) :
    Spec.word (Spec.crypt k b) i = Spec.X k b (35 - i) := by
  have hw : ∀ w : W32, BitVec.ofNat 32 (beNat (beFixed 4 w.toNat)) = w := by
    intro w
    rw [beNat_beFixed_of_lt (by have := w.isLt; omega)]; simp
  have : i = 0 ∨ i = 1 ∨ i = 2 ∨ i = 3 := by omega
  rcases this with rfl | rfl | rfl | rfl
  · rw [← hw (Spec.X k b (35 - 0))]; rfl
  · rw [← hw (Spec.X k b (35 - 1))]; rfl
  · rw [← hw (Spec.X k b (35 - 2))]; rfl
  · rw [← hw (Spec.X k b (35 - 3))]; rfl

theorem X_reverse (k k' : Nat → W32) (b : Bytes) (hk : ∀ i, i < 32 → k' i = k (31 - i)) (i : Nat)
    (h : i ≤ 35) : Spec.X k' (Spec.crypt k b) i = Spec.X k b (35 - i) := by
  induction i using Nat.strongRecOn with
  | _ i ih =>
    by_cases hi : i < 4
    · rw [X_lt _ _ i hi, word_crypt k b i hi]
    · obtain ⟨j, rfl⟩ : ∃ j, i = j + 4 := ⟨i - 4, by omega⟩
      rw [X_succ, ih j (by omega) (by omega), ih (j+1) (by omega) (by omega),
        ih (j+2) (by omega) (by omega), ih (j+3) (by omega) (by omega), hk j (by omega)]
      have := X_succ k b (31 - j)
      have e0 : 31 - j + 4 = 35 - j := by omega
      have e1 : 31 - j + 3 = 35 - (j + 1) := by omega
      have e2 : 31 - j + 2 = 35 - (j + 2) := by omega
      have e3 : 31 - j + 1 = 35 - (j + 3) := by omega
      have e4 : 35 - (j + 4) = 31 - j := by omega
      rw [e0, e1, e2, e3] at this
      rw [this, e4, BitVec.xor_assoc]
      have : Spec.X k b (35 - (j + 1)) ^^^ Spec.X k b (35 - (j + 2)) ^^^ Spec.X k b (35 - (j + 3)) ^^^ k (31 - j)
        = Spec.X k b (35 - (j + 3)) ^^^ Spec.X k b (35 - (j + 2)) ^^^ Spec.X k b (35 - (j + 1)) ^^^ k (31 - j) := by
        ac_rfl
      rw [this, BitVec.xor_self, BitVec.xor_zero]

theorem words_join (b : Bytes) (h : b.length = 16) :
    beFixed 4 (Spec.word b 0).toNat ++ beFixed 4 (Spec.word b 1).toNat ++
    beFixed 4 (Spec.word b 2).toNat ++ beFixed 4 (Spec.word b 3).toNat = b := by
  have key : ∀ i, i < 4 → beFixed 4 (Spec.word b i).toNat = (b.drop (4 * i)).take 4 := by
    intro i hi
    have hl : ((b.drop (4 * i)).take 4).length = 4 := by simp; omega
    have hlt := beNat_lt ((b.drop (4 * i)).take 4)
    rw [hl] at hlt
    have := beFixed_beNat ((b.drop (4 * i)).take 4)
    rw [hl] at this
    rw [Spec.word, BitVec.toNat_ofNat, Nat.mod_eq_of_lt (by omega), this]
  rw [key 0 (by omega), key 1 (by omega), key 2 (by omega), key 3 (by omega)]
  match b, h with
  | [_, _, _, _, _, _, _, _, _, _, _, _, _, _, _, _], _ => rfl

theorem crypt_crypt (k k' : Nat → W32) (b : Bytes) (h : b.length = 16)
    (hk : ∀ i, i < 32 → k' i = k (31 - i)) : Spec.crypt k' (Spec.crypt k b) = b := by
  have e : ∀ c, Spec.crypt k' c = beFixed 4 (Spec.X k' c 35).toNat ++
      beFixed 4 (Spec.X k' c 34).toNat ++ beFixed 4 (Spec.X k' c 33).toNat ++
      beFixed 4 (Spec.X k' c 32).toNat := fun _ => rfl
  rw [e (Spec.crypt k b)]
  rw [X_reverse k k' b hk 35 (by omega), X_reverse k k' b hk 34 (by omega),
    X_reverse k k' b hk 33 (by omega), X_reverse k k' b hk 32 (by omega)]
  simp only [Nat.sub_self, Nat.reduceSub]
  rw [X_lt _ _ 0 (by omega), X_lt _ _ 1 (by omega), X_lt _ _ 2 (by omega), X_lt _ _ 3 (by omega)]
  exact words_join b h

theorem dec_enc (mk b : Bytes) (h : b.length = 16) : Spec.dec mk (Spec.enc mk b) = b :=
  crypt_crypt _ _ b h (fun _ _ => rfl)

theorem enc_dec (mk b : Bytes) (h : b.length = 16) : Spec.enc mk (Spec.dec mk b) = b :=
  crypt_crypt _ _ b h (fun i hi => by
    have : 31 - (31 - i) = i := by omega
    rw [this])

end Verif.Sm4
