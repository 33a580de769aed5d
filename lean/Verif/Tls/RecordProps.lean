import Verif.Tls.PaddingProps
import Mathlib.Tactic.Ring
/-!
C25: two half connections holding the same keys and sequence number stay synchronised, and what one encrypts
the other decrypts to the same payload.
-/
namespace Verif.Tls
open Verif Verif.Std

/-! ### sequence numbers -/

theorem incLE_spec (s : Bytes) :
    (∀ r, incLE s = some r → r.length = s.length ∧ beNat r.reverse = beNat s.reverse + 1) ∧
    (incLE s = none ↔ beNat s.reverse + 1 = 256 ^ s.length) := by
  induction s with
  | nil => refine ⟨fun r h => by simp [incLE] at h, by simp [incLE]⟩
  | cons x r ih =>
    unfold incLE
    have hx := x.isLt
    by_cases h : x + 1 ≠ 0
    · rw [if_pos h]
      have hx255 : x.toNat ≠ 255 := by
        intro hc
        apply h
        apply BitVec.eq_of_toNat_eq
        rw [BitVec.toNat_add, hc]; rfl
      have hv : (x + 1).toNat = x.toNat + 1 := by
        rw [BitVec.toNat_add]
        show (x.toNat + 1) % 256 = _
        omega
      constructor
      · intro r' hr
        have hr := Option.some.inj hr
        subst hr
        refine ⟨rfl, ?_⟩
        simp only [List.reverse_cons, beNat_append_single, hv]
        omega
      · constructor
        · intro hc; cases hc
        · intro hc
          exfalso
          simp only [List.reverse_cons, beNat_append_single, List.length_cons, Nat.pow_succ] at hc
          have := beNat_lt r.reverse
          rw [List.length_reverse] at this
          omega
    · rw [if_neg h]
      have hx255 : x.toNat = 255 := by
        have : (x + 1).toNat = 0 := by rw [not_not.1 h]; rfl
        rw [BitVec.toNat_add] at this
        have h1 : (1 : Byte).toNat = 1 := rfl
        rw [h1] at this
        omega
      constructor
      · intro r' hr
        obtain ⟨q, hq, rfl⟩ := Option.map_eq_some_iff.1 hr
        obtain ⟨h1, h2⟩ := ih.1 q hq
        refine ⟨by simp [h1], ?_⟩
        simp only [List.reverse_cons, beNat_append_single, h2, hx255]
        have : (0 : Byte).toNat = 0 := rfl
        rw [this]; omega
      · rw [Option.map_eq_none_iff, ih.2]
        simp only [List.reverse_cons, beNat_append_single, List.length_cons, Nat.pow_succ, hx255]
        omega

/-- incrementing an 8-byte sequence number: the next big-endian number, or a panic at 2^64 - 1 -/
theorem incSeq_eq (hc : HalfConn) (h8 : hc.seq.length = 8) :
    hc.incSeq = if beNat hc.seq + 1 < 2 ^ 64 then .ok { hc with seq := beFixed 8 (beNat hc.seq + 1) } else .panic := by
  unfold HalfConn.incSeq
  have hs := incLE_spec hc.seq.reverse
  have hlt := beNat_lt hc.seq
  rw [h8] at hlt
  have hp : (256 : Nat) ^ 8 = 2 ^ 64 := by norm_num
  rw [hp] at hlt
  rw [List.reverse_reverse, List.length_reverse, h8, hp] at hs
  cases h : incLE hc.seq.reverse with
  | none =>
    have := hs.2.1 h
    rw [if_neg (by omega)]
  | some r =>
    obtain ⟨h1, h2⟩ := hs.1 r h
    have hne : beNat hc.seq + 1 ≠ 2 ^ 64 := fun hc => by rw [hs.2.2 hc] at h; cases h
    rw [if_pos (by omega)]
    have : r.reverse = beFixed 8 (beNat hc.seq + 1) := by
      rw [← h2]
      have h8r : r.reverse.length = 8 := by rw [List.length_reverse, h1]
      have := beFixed_beNat r.reverse
      rw [h8r] at this
      exact this.symm
    simp only [this]

/-! ### laws of the parameters -/

/-- a MAC has its advertised size -/
def Mac.Lawful (m : Mac) : Prop := ∀ s h d, (m.mac s h d).length = m.size

/-- an AEAD opens what it sealed under the same nonce and additional data, and adds `overhead` bytes -/
structure RawAead.Lawful (a : RawAead) : Prop where
  sealLen : ∀ n p ad, (a.sealF n p ad).length = p.length + a.overhead
  openSeal : ∀ n p ad, a.openF n (a.sealF n p ad) ad = some p

/-- the two wrappers hold the same fixed nonce part (all 12 bytes for the XOR wrapper, the first 4 for the other) -/
def PairedWrap : Wrap → Wrap → Prop
  | .fixed f, .fixed f' => f.length = 12 ∧ f'.length = 12 ∧ f.take 4 = f'.take 4
  | .xored m, .xored m' => m.length = 12 ∧ m = m'
  | _, _ => False

/-- the sender's and the receiver's cipher objects belong together -/
def PairedCipher (version : Version) (mac : Option Mac) : Option Cipher → Option Cipher → Prop
  | none, none => True
  | some (.stream ks pos), some (.stream ks' pos') => ks = ks' ∧ pos = pos'
  | some (.aead a), some (.aead a') => a.raw = a'.raw ∧ a.raw.Lawful ∧ PairedWrap a.wrap a'.wrap
  | some (.cbc bs false E iv), some (.cbc bs' true D iv') =>
    bs' = bs ∧ 0 < bs ∧ bs ≤ 256 ∧ (∀ b, b.length = bs → (E b).length = bs) ∧ (∀ b, b.length = bs → D (E b) = b) ∧
      iv.length = bs ∧ iv'.length = bs ∧ (explicitIVVersion version = true ∨ iv = iv') ∧ mac.isSome
  | _, _ => False

/-- what the writer looks at in a cipher object: its kind, block size, explicit nonce length and overhead -/
inductive Shape where
  | none | stream | aead (explicitNonceLen overhead : Nat) | cbc (bs : Nat)

def shape : Option Cipher → Shape
  | Option.none => .none
  | some (.stream _ _) => .stream
  | some (.aead a) => .aead a.explicitNonceLen a.raw.overhead
  | some (.cbc bs _ _ _) => .cbc bs

theorem wrap_after_explicit (a : Aead) (n : Bytes) :
    ({ a with wrap := a.wrap.after n } : Aead).explicitNonceLen = a.explicitNonceLen := by
  unfold Aead.explicitNonceLen Wrap.after
  cases a.wrap <;> rfl

/-- sender and receiver hold the same version, MAC, cipher and sequence number -/
structure Paired (o i : HalfConn) : Prop where
  seqEq : o.seq = i.seq
  seq8 : o.seq.length = 8
  versionEq : o.version = i.version
  macEq : o.mac = i.mac
  macLawful : ∀ m, o.mac = some m → m.Lawful
  ciphers : PairedCipher o.version o.mac o.cipher i.cipher

/-! ### pieces -/

theorem xorStream_length (ks : Nat → Byte) (pos : Nat) (x : Bytes) : (xorStream ks pos x).length = x.length := by
  induction x generalizing pos with
  | nil => rfl
  | cons a x ih => simp [xorStream, ih]

theorem xorStream_invol (ks : Nat → Byte) (pos : Nat) (x : Bytes) : xorStream ks pos (xorStream ks pos x) = x := by
  induction x generalizing pos with
  | nil => rfl
  | cons a x ih => simp [xorStream, ih, BitVec.xor_assoc]

theorem copyAt4 (f nonce : Bytes) (hf : f.length = 12) (hn : nonce.length = 8) : copyAt f 4 nonce = f.take 4 ++ nonce := by
  unfold copyAt
  rw [hf, hn, List.take_of_length_le (l := nonce) (by omega), List.drop_of_length_le (by omega), List.append_nil]

theorem xorFrom4_length (m nonce : Bytes) (hm : m.length = 12) (hn : nonce.length = 8) : (xorFrom4 m nonce).length = 12 := by
  unfold xorFrom4
  rw [List.length_append, xorB_length, List.length_take, List.length_drop]; omega

theorem xorFrom4_invol (m nonce : Bytes) (hm : m.length = 12) (hn : nonce.length = 8) :
    xorFrom4 (xorFrom4 m nonce) nonce = m := by
  have h4 : (m.take 4).length = 4 := by rw [List.length_take]; omega
  unfold xorFrom4
  rw [List.take_left' h4, List.drop_left' h4, xorB_cancel _ _ (by rw [List.length_drop]; omega), List.take_append_drop]

theorem pairedWrap_nonce {w w' : Wrap} (h : PairedWrap w w') (nonce : Bytes) (hn : nonce.length = 8) :
    w.fullNonce nonce = w'.fullNonce nonce ∧ PairedWrap (w.after nonce) (w'.after nonce) := by
  cases w with
  | fixed f =>
    cases w' with
    | fixed f' =>
      obtain ⟨h1, h2, h3⟩ := h
      have l : (f.take 4).length = 4 := by rw [List.length_take]; omega
      simp only [Wrap.fullNonce, Wrap.after, copyAt4 f nonce h1 hn, copyAt4 f' nonce h2 hn, h3, PairedWrap]
      rw [h3] at l
      refine ⟨trivial, ?_, ?_, trivial⟩ <;> rw [List.length_append] <;> omega
    | xored m => exact h.elim
  | xored m =>
    cases w' with
    | fixed f' => exact h.elim
    | xored m' =>
      obtain ⟨h1, rfl⟩ := h
      refine ⟨rfl, ?_⟩
      simp only [Wrap.after, PairedWrap, xorFrom4_invol m nonce h1 hn]
      exact ⟨h1, trivial⟩

theorem cbcEnc_append (E : Bytes → Bytes) (bs n m : Nat) (iv a b : Bytes) (ha : a.length = n * bs) :
    cbcEnc E bs (n + m) iv (a ++ b) =
      ((cbcEnc E bs n iv a).1 ++ (cbcEnc E bs m (cbcEnc E bs n iv a).2 b).1, (cbcEnc E bs m (cbcEnc E bs n iv a).2 b).2) := by
  induction n generalizing iv a with
  | zero =>
    have : a = [] := List.eq_nil_of_length_eq_zero (by simpa using ha)
    subst this
    simp [cbcEnc]
  | succ n ih =>
    have hl : bs ≤ a.length := by rw [ha, Nat.succ_mul]; omega
    rw [Nat.succ_add]
    simp only [cbcEnc]
    rw [List.take_append_of_le_length hl, List.drop_append_of_le_length hl,
      ih _ (a.drop bs) (by rw [List.length_drop, ha, Nat.succ_mul]; omega)]
    simp

theorem padToBlockSize_spec (P : Bytes) (bs : Nat) (hb : 0 < bs) :
    (padToBlockSize P bs).1.length % bs = 0 ∧ (padToBlockSize P bs).2.length = bs ∧
    (padToBlockSize P bs).1 ++ (padToBlockSize P bs).2 =
      P ++ List.replicate (bs - P.length % bs) (BitVec.ofNat 8 (bs - P.length % bs - 1)) := by
  have hm := Nat.mod_lt P.length hb
  have hle := Nat.mod_le P.length bs
  unfold padToBlockSize
  refine ⟨?_, ?_, ?_⟩
  · simp only [List.length_take]
    rw [Nat.min_eq_left (by omega), show P.length - P.length % bs = bs * (P.length / bs) by
      have := Nat.div_add_mod P.length bs; omega]
    exact Nat.mul_mod_right _ _
  · simp only [List.length_append, List.length_drop, List.length_replicate]; omega
  · simp only
    rw [← List.append_assoc, List.take_append_drop]

theorem roundUp_le (a b t : Nat) (hb : 0 < b) (ht : t % b = 0) (h : a ≤ t) : roundUp a b ≤ t := by
  unfold roundUp
  have hm := Nat.mod_lt a hb
  obtain ⟨k, rfl⟩ := Nat.dvd_of_mod_eq_zero ht
  have hd := Nat.div_add_mod a b
  by_cases h0 : a % b = 0
  · rw [h0, Nat.sub_zero, Nat.mod_self]; omega
  · rw [Nat.mod_eq_of_lt (by omega)]
    have : a / b < k := by
      by_contra hn
      have : b * k ≤ b * (a / b) := Nat.mul_le_mul_left _ (by omega)
      omega
    have : b * (a / b + 1) ≤ b * k := Nat.mul_le_mul_left _ this
    rw [Nat.mul_add] at this
    omega

theorem selectNeg_eq (n : Int) (h : -(2 : Int) ^ 31 ≤ n) (h' : n < 2 ^ 31) : selectNeg n = n.toNat := by
  unfold selectNeg
  by_cases hn : n < 0
  · have : (BitVec.ofInt 32 n).msb = true := by
      rw [BitVec.msb_eq_toInt, BitVec.toInt_ofInt]
      simp only [decide_eq_true_eq]
      rw [Int.bmod_def]; omega
    rw [if_pos this]; omega
  · have : (BitVec.ofInt 32 n).msb = false := by
      rw [BitVec.msb_eq_toInt, BitVec.toInt_ofInt]
      simp only [decide_eq_false_iff_not]
      rw [Int.bmod_def]; omega
    rw [if_neg (by simp [this])]

@[simp] theorem len16_length (n : Int) : (len16 n).length = 2 := by unfold len16; simp

/-! ### the record as built by the writer -/

section
variable (hdr L ev P : Bytes) (h3 : hdr.length = 3) (h2 : L.length = 2)
include h3 h2

theorem rec_take3 : (hdr ++ L ++ ev ++ P).take 3 = hdr := by
  rw [List.append_assoc, List.append_assoc, List.take_left' h3]

theorem rec_take5 : (hdr ++ L ++ ev ++ P).take 5 = hdr ++ L := by
  have : (hdr ++ L).length = 5 := by rw [List.length_append]; omega
  rw [List.append_assoc, List.take_left' this]

theorem rec_drop5 : (hdr ++ L ++ ev ++ P).drop 5 = ev ++ P := by
  have : (hdr ++ L).length = 5 := by rw [List.length_append]; omega
  rw [List.append_assoc, List.drop_left' this]

theorem rec_dropE : (hdr ++ L ++ ev ++ P).drop (5 + ev.length) = P := by
  have : (hdr ++ L ++ ev).length = 5 + ev.length := by rw [List.length_append, List.length_append]; omega
  rw [List.drop_left' this]

theorem rec_takeE : (hdr ++ L ++ ev ++ P).take (5 + ev.length) = hdr ++ L ++ ev := by
  have : (hdr ++ L ++ ev).length = 5 + ev.length := by rw [List.length_append, List.length_append]; omega
  rw [List.take_left' this]
end

theorem extractPadding_replicate (P : Bytes) (k : Nat) (hk : 0 < k) (hk' : k ≤ 256) (hl : (P.length : Nat) + k < 2 ^ 31) :
    extractPadding (P ++ List.replicate k (BitVec.ofNat 8 (k - 1))) = (k, 255#8) := by
  have hv : (BitVec.ofNat 8 (k - 1)).toNat = k - 1 := by rw [BitVec.toNat_ofNat]; omega
  have hlen : (P ++ List.replicate k (BitVec.ofNat 8 (k - 1))).length = P.length + k := by simp
  obtain ⟨h1, _, h3⟩ := C27_extractPadding (P ++ List.replicate k (BitVec.ofNat 8 (k - 1))) (by omega)
  have hne : P ++ List.replicate k (BitVec.ofNat 8 (k - 1)) ≠ [] := by
    intro hc
    have := congrArg List.length hc
    rw [hlen] at this; simp at this; omega
  have hlast : (P ++ List.replicate k (BitVec.ofNat 8 (k - 1))).getD
      ((P ++ List.replicate k (BitVec.ofNat 8 (k - 1))).length - 1) 0 = BitVec.ofNat 8 (k - 1) := by
    rw [getD_append_right _ _ _ _ (by rw [hlen]; omega), hlen, List.getD_eq_getElem?_getD,
      List.getElem?_replicate, if_pos (by omega)]
    rfl
  have hg := h1.2 ⟨P, BitVec.ofNat 8 (k - 1), by rw [hv, show k - 1 + 1 = k by omega]⟩
  have hr := h3 hne
  rw [hlast, hv] at hr
  exact Prod.ext (by rw [hr]; omega) hg

theorem extractPaddingSSL30_replicate (P : Bytes) (k : Nat) (hk : 0 < k) (hk' : k ≤ 256) :
    extractPaddingSSL30 (P ++ List.replicate k (BitVec.ofNat 8 (k - 1))) = (k, 255#8) := by
  have hv : (BitVec.ofNat 8 (k - 1)).toNat = k - 1 := by rw [BitVec.toNat_ofNat]; omega
  have hlen : (P ++ List.replicate k (BitVec.ofNat 8 (k - 1))).length = P.length + k := by simp
  have hlast : (P ++ List.replicate k (BitVec.ofNat 8 (k - 1))).getD
      ((P ++ List.replicate k (BitVec.ofNat 8 (k - 1))).length - 1) 0 = BitVec.ofNat 8 (k - 1) := by
    rw [getD_append_right _ _ _ _ (by rw [hlen]; omega), hlen, List.getD_eq_getElem?_getD,
      List.getElem?_replicate, if_pos (by omega)]
    rfl
  unfold extractPaddingSSL30
  rw [if_neg (by rw [hlen]; omega)]
  simp only
  rw [hlast, hv, hlen, if_neg (by omega), show k - 1 + 1 = k by omega]
  rfl

/-- encryption of `hdr ++ L ++ ev ++ P` and decryption of the result (whatever the length field) give `P` back,
followed by `k` padding bytes in CBC mode, and leave paired cipher objects -/
theorem seal_open (o i : HalfConn) (hp : Paired o i) (hdr L ev P : Bytes) (h3 : hdr.length = 3) (h2 : L.length = 2)
    (hev : ev.length = o.writeIVLen) (hP : o.macSize ≤ P.length) (hl : P.length < 2 ^ 30) :
    ∃ body c, o.sealPayload (hdr ++ L ++ ev ++ P) ev.length = .ok (hdr ++ L ++ body, c) ∧
      P.length ≤ body.length ∧
      ∃ pad c', (∀ L' : Bytes, L'.length = 2 →
        i.openPayload (hdr ++ L' ++ body) = .ok (some ⟨P ++ pad, ev.length, pad.length, 255⟩, c')) ∧
        (o.mac = none → pad = []) ∧ pad.length ≤ 256 ∧ PairedCipher o.version o.mac c c' ∧ shape c = shape o.cipher := by
  have hc := hp.ciphers
  have htk : ∀ (L' body : Bytes), L'.length = 2 → (hdr ++ L' ++ body).take 3 = hdr := by
    intro L' body hL'
    rw [List.append_assoc, List.take_left' h3]
  have hdr5 : ∀ (L' body : Bytes), L'.length = 2 → (hdr ++ L' ++ body).drop 5 = body := by
    intro L' body hL'
    have : (hdr ++ L').length = 5 := by rw [List.length_append]; omega
    rw [List.drop_left' this]
  unfold HalfConn.sealPayload HalfConn.openPayload
  unfold HalfConn.writeIVLen at hev
  rw [rec_take5 hdr L ev P h3 h2, rec_drop5 hdr L ev P h3 h2, rec_dropE hdr L ev P h3 h2,
    rec_takeE hdr L ev P h3 h2, rec_take3 hdr L ev P h3 h2]
  cases ho : o.cipher with
  | none =>
    rw [ho] at hc hev
    cases hi : i.cipher with
    | some _ => rw [hi] at hc; exact hc.elim
    | none =>
      have hev0 : ev = [] := List.eq_nil_of_length_eq_zero hev
      subst hev0
      refine ⟨P, none, by simp, Nat.le_refl _, [], none, ?_, fun _ => rfl, by simp, trivial, rfl⟩
      intro L' hL'
      simp only [hdr5 L' P hL', List.append_nil, List.length_nil]
  | some co =>
    rw [ho] at hc hev
    cases co with
    | stream ks pos =>
      cases hi : i.cipher with
      | none => rw [hi] at hc; exact hc.elim
      | some ci =>
        rw [hi] at hc
        cases ci with
        | aead _ => exact hc.elim
        | cbc _ _ _ _ => exact hc.elim
        | stream ks' pos' =>
          obtain ⟨rfl, rfl⟩ := hc
          have hev0 : ev = [] := List.eq_nil_of_length_eq_zero hev
          subst hev0
          refine ⟨xorStream ks pos P, _, rfl, by rw [xorStream_length], [], some (.stream ks (pos + P.length)), ?_, fun _ => rfl,
            by simp, ?_⟩
          · intro L' hL'
            simp only [hdr5 L' _ hL', xorStream_invol, xorStream_length, List.append_nil, List.length_nil]
          · simp only [List.nil_append]
            exact ⟨⟨rfl, rfl⟩, rfl⟩
    | aead a =>
      cases hi : i.cipher with
      | none => rw [hi] at hc; exact hc.elim
      | some ci =>
        rw [hi] at hc
        cases ci with
        | stream _ _ => exact hc.elim
        | cbc _ _ _ _ => exact hc.elim
        | aead a' =>
          obtain ⟨hraw, hlaw, hw⟩ := hc
          have hexp : a.explicitNonceLen = a'.explicitNonceLen := by
            unfold Aead.explicitNonceLen
            cases ha : a.wrap <;> cases ha' : a'.wrap <;> rw [ha, ha'] at hw <;> first | rfl | exact hw.elim
          simp only at hev
          have h08 : ev.length = 0 ∨ ev.length = 8 := by
            rw [hev]; unfold Aead.explicitNonceLen
            cases a.wrap <;> simp
          have htake : (ev ++ P).take ev.length = ev := List.take_left' rfl
          have hnonce : (if ev.length = 0 then o.seq else ev).length = 8 := by
            split
            · exact hp.seq8
            · omega
          obtain ⟨hn1, hn2⟩ := pairedWrap_nonce hw _ hnonce
          have hblen : ((hdr ++ L ++ ev ++ P).length : Int) - 5 - ev.length = P.length := by
            rw [List.length_append, List.length_append, List.length_append]; omega
          refine ⟨ev ++ a.raw.sealF (a.wrap.fullNonce (if ev.length = 0 then o.seq else ev)) P
              (o.seq ++ hdr ++ len16 P.length),
            some (.aead { a with wrap := a.wrap.after (if ev.length = 0 then o.seq else ev) }), ?_, ?_, [],
            some (.aead { a' with wrap := a'.wrap.after (if ev.length = 0 then o.seq else ev) }), ?_, fun _ => rfl, by simp, ?_⟩
          · rw [htake, hblen]
            simp only [Aead.sealW, List.append_assoc]
          · rw [List.length_append, hlaw.sealLen]; omega
          · intro L' hL'
            simp only [hdr5 L' _ hL', htk L' _ hL', ← hexp, ← hev]
            rw [if_neg (by rw [List.length_append]; omega), List.take_left' rfl, List.drop_left' rfl]
            simp only [Aead.openW, ← hn1, ← hraw, ← hp.seqEq]
            have : ((a.raw.sealF (a.wrap.fullNonce (if ev.length = 0 then o.seq else ev)) P
              (o.seq ++ hdr ++ len16 P.length)).length : Int) - a.raw.overhead = P.length := by
              rw [hlaw.sealLen]; omega
            rw [this, hlaw.openSeal]
            simp
          · refine ⟨⟨hraw, hlaw, hn2⟩, ?_⟩
            simp only [shape, wrap_after_explicit]
    | cbc bs dec E iv =>
      cases hi : i.cipher with
      | none => cases dec <;> (rw [hi] at hc; exact hc.elim)
      | some ci =>
        rw [hi] at hc
        cases ci with
        | stream _ _ => cases dec <;> exact hc.elim
        | aead _ => cases dec <;> exact hc.elim
        | cbc bs' dec' D iv' =>
          cases dec with
          | true => exact hc.elim
          | false =>
          cases dec' with
          | false => exact hc.elim
          | true =>
          obtain ⟨rfl, hb, hb', hE, hDE, hiv, hiv', hsame, hmac⟩ := hc
          simp only at hev
          have hpos : ev.length > 0 ↔ explicitIVVersion o.version = true := by
            rw [hev]; split <;> simp_all
          have htake : (ev ++ P).take ev.length = ev := List.take_left' rfl
          rw [htake]
          -- the IV used by both sides
          have hivo : (if ev.length > 0 then ev else iv).length = bs' := by
            by_cases hx : explicitIVVersion o.version = true
            · rw [if_pos (hpos.2 hx), hev, if_pos hx]
            · rw [if_neg (fun h => hx (hpos.1 h)), hiv]
          generalize hIV : (if ev.length > 0 then ev else iv) = IV at hivo
          have hIV' : (if ev.length > 0 then ev else iv') = IV := by
            rw [← hIV]
            by_cases hx : explicitIVVersion o.version = true
            · rw [if_pos (hpos.2 hx), if_pos (hpos.2 hx)]
            · rw [if_neg (fun h => hx (hpos.1 h)), if_neg (fun h => hx (hpos.1 h))]
              rcases hsame with h | h
              · exact absurd h hx
              · exact h.symm
          obtain ⟨hp1, hp2, hp3⟩ := padToBlockSize_spec P bs' hb
          have hmlt := Nat.mod_lt P.length hb
          generalize hk : bs' - P.length % bs' = k at hp3
          have hk0 : 0 < k := by omega
          have hk1 : k ≤ bs' := by omega
          generalize hpre : (padToBlockSize P bs').1 = pre at hp1 hp3
          generalize hfin : (padToBlockSize P bs').2 = fin at hp2 hp3
          have hprelen : pre.length = pre.length / bs' * bs' := by
            have := Nat.div_add_mod pre.length bs'
            rw [Nat.mul_comm]; omega
          have henc := cbcEnc_append E bs' (pre.length / bs') 1 IV pre fin hprelen
          have htot : (P ++ List.replicate k (BitVec.ofNat 8 (k - 1))).length = (pre.length / bs' + 1) * bs' := by
            rw [← hp3, List.length_append, hp2, Nat.succ_mul]; omega
          have htot' : (pre.length / bs' + 1) * bs' = P.length + k := by rw [← htot]; simp
          rw [hp3] at henc
          have hdec := cbcDec_cbcEnc E D bs' (pre.length / bs' + 1) IV _ hE hDE hivo htot
          have hlens := cbcEnc_length E bs' (pre.length / bs' + 1) IV _ hE hivo htot
          have hml : (cbcEnc E bs' (pre.length / bs' + 1) IV (P ++ List.replicate k (BitVec.ofNat 8 (k - 1)))).1.length % bs' = 0 := by
            rw [hlens.1, Nat.mul_mod_left]
          have hmdiv : (cbcEnc E bs' (pre.length / bs' + 1) IV (P ++ List.replicate k (BitVec.ofNat 8 (k - 1)))).1.length / bs' =
              pre.length / bs' + 1 := by
            rw [hlens.1, Nat.mul_div_cancel _ hb]
          refine ⟨ev ++ (cbcEnc E bs' (pre.length / bs' + 1) IV (P ++ List.replicate k (BitVec.ofNat 8 (k - 1)))).1,
            some (.cbc bs' false E (cbcEnc E bs' (pre.length / bs' + 1) IV (P ++ List.replicate k (BitVec.ofNat 8 (k - 1)))).2), ?_, ?_,
            List.replicate k (BitVec.ofNat 8 (k - 1)),
            some (.cbc bs' true D (cbcEnc E bs' (pre.length / bs' + 1) IV (P ++ List.replicate k (BitVec.ofNat 8 (k - 1)))).2), ?_, ?_, ?_, ?_⟩
          · simp only [hpre, hfin]
            unfold cryptBlocks
            rw [if_neg (by omega), hIV]
            simp only [hp2, Nat.mod_self, Nat.div_self hb, Bool.false_eq_true, if_false, ne_eq, not_true_eq_false]
            rw [henc]
            simp
          · rw [List.length_append, hlens.1, htot']; omega
          · intro L' hL'
            simp only [hdr5 L' _ hL', ← hp.versionEq, ← hev]
            have hms : i.macSize = o.macSize := by unfold HalfConn.macSize; rw [hp.macEq]
            have hevmod : ev.length % bs' = 0 := by
              rw [hev]; split <;> simp
            rw [if_neg]
            · rw [List.take_left' rfl, List.drop_left' rfl, hIV']
              have hct : (if ev.length > 0 then
                    (cbcEnc E bs' (pre.length / bs' + 1) IV (P ++ List.replicate k (BitVec.ofNat 8 (k - 1)))).1
                  else ev ++ (cbcEnc E bs' (pre.length / bs' + 1) IV (P ++ List.replicate k (BitVec.ofNat 8 (k - 1)))).1) =
                  (cbcEnc E bs' (pre.length / bs' + 1) IV (P ++ List.replicate k (BitVec.ofNat 8 (k - 1)))).1 := by
                split
                · rfl
                · have : ev = [] := List.eq_nil_of_length_eq_zero (by omega)
                  rw [this, List.nil_append]
              rw [hct]
              unfold cryptBlocks
              rw [if_neg (by omega), hmdiv]
              simp only [if_true, hdec]
              by_cases hs : o.version = vSSL30
              · rw [if_pos hs, extractPaddingSSL30_replicate P k hk0 (by omega)]
                simp
              · rw [if_neg hs, extractPadding_replicate P k hk0 (by omega) (by omega)]
                simp
            · rw [List.length_append, hlens.1, htot']
              have hmod : (ev.length + (P.length + k)) % bs' = 0 := by
                rw [← htot', Nat.add_mul_mod_self_right]; exact hevmod
              have := roundUp_le (ev.length + i.macSize + 1) bs' (ev.length + (P.length + k)) hb hmod (by omega)
              omega
          · intro hn; rw [hn] at hmac; cases hmac
          · rw [List.length_replicate]; omega
          · exact ⟨⟨rfl, hb, hb', hE, hDE, hlens.2, hlens.2, .inr rfl, hmac⟩, rfl⟩

theorem writeIVLen_shape (o o' : HalfConn) (hv : o'.version = o.version) (hs : shape o'.cipher = shape o.cipher) :
    o'.writeIVLen = o.writeIVLen := by
  unfold HalfConn.writeIVLen
  rw [hv]
  cases ho : o.cipher with
  | none =>
    cases ho' : o'.cipher with
    | none => rfl
    | some c => rw [ho, ho'] at hs; cases c <;> cases hs
  | some c =>
    cases ho' : o'.cipher with
    | none => rw [ho, ho'] at hs; cases c <;> cases hs
    | some c' =>
      rw [ho, ho'] at hs
      cases c with
      | stream _ _ => cases c' <;> first | rfl | cases hs
      | aead a =>
        cases c' with
        | aead a' => simp only [shape, Shape.aead.injEq] at hs; exact hs.1
        | stream _ _ => cases hs
        | cbc _ _ _ _ => cases hs
      | cbc bs _ _ _ =>
        cases c' with
        | aead a' => cases hs
        | stream _ _ => cases hs
        | cbc bs' _ _ _ => simp only [shape, Shape.cbc.injEq] at hs; simp only [hs]

/-- C25, one record: `hdr` is the record type and version, `ev` the explicit IV or nonce. Encryption succeeds
(unless the sequence number is exhausted), the record keeps its type and version and carries its length, the peer
returns exactly the payload, and both sides are still paired. -/
theorem C25_record_round_trip (o i : HalfConn) (hp : Paired o i) (hdr ev payload : Bytes) (h3 : hdr.length = 3)
    (hev : ev.length = o.writeIVLen) (hl : payload.length < 2 ^ 29) (hms : o.macSize < 2 ^ 29)
    (hseq : beNat o.seq + 1 < 2 ^ 64) :
    ∃ body o' i', o.encrypt (hdr ++ len16 payload.length ++ ev ++ payload) ev.length =
        .ok (hdr ++ len16 body.length ++ body, o') ∧
      i.decrypt (hdr ++ len16 body.length ++ body) = .ok (some payload, i') ∧ Paired o' i' ∧
      beNat o'.seq = beNat o.seq + 1 ∧ o'.version = o.version ∧ o'.mac = o.mac ∧ shape o'.cipher = shape o.cipher := by
  -- the MAC
  generalize htag : (match o.mac with
    | none => []
    | some m => m.mac o.seq (hdr ++ len16 payload.length) payload) = tag
  have happ : o.appendMac (hdr ++ len16 payload.length ++ ev ++ payload) ev.length =
      hdr ++ len16 payload.length ++ ev ++ (payload ++ tag) := by
    unfold HalfConn.appendMac
    rw [rec_take5 _ _ _ _ h3 (len16_length _), rec_dropE _ _ _ _ h3 (len16_length _), ← htag]
    cases o.mac <;> simp
  have htl : tag.length = o.macSize := by
    rw [← htag]; unfold HalfConn.macSize
    cases hm : o.mac with
    | none => rfl
    | some m => exact hp.macLawful m hm _ _ _
  obtain ⟨body, c, hseal, hbl, pad, c', hopen, hnopad, hpad, hpc, hshape⟩ :=
    seal_open o i hp hdr (len16 payload.length) ev (payload ++ tag) h3 (len16_length _) hev
      (by rw [List.length_append]; omega) (by rw [List.length_append]; omega)
  have hopen := hopen (len16 body.length) (len16_length _)
  have hinc : ∀ cc : Option Cipher, ({ o with cipher := cc } : HalfConn).incSeq =
      .ok { o with cipher := cc, seq := beFixed 8 (beNat o.seq + 1) } := by
    intro cc; rw [incSeq_eq { o with cipher := cc } hp.seq8, if_pos hseq]
  have hinci : ∀ cc : Option Cipher, ({ i with cipher := cc } : HalfConn).incSeq =
      .ok { i with cipher := cc, seq := beFixed 8 (beNat o.seq + 1) } := by
    intro cc
    have h8 := hp.seq8
    rw [hp.seqEq] at h8
    rw [incSeq_eq { i with cipher := cc } h8]
    simp only [← hp.seqEq]
    rw [if_pos hseq]
  refine ⟨body, { o with cipher := c, seq := beFixed 8 (beNat o.seq + 1) },
    { i with cipher := c', seq := beFixed 8 (beNat o.seq + 1) }, ?_, ?_, ?_, ?_, ?_⟩
  · unfold HalfConn.encrypt
    rw [happ, hseal]
    simp only [hinc]
    have h5 : (hdr ++ len16 payload.length).length = 5 := by rw [List.length_append, len16_length]; omega
    have hlen : (((hdr ++ len16 payload.length ++ body).length : Nat) : Int) - 5 = body.length := by
      rw [List.length_append, h5]; omega
    have ht3 : (hdr ++ len16 payload.length ++ body).take 3 = hdr := by rw [List.append_assoc, List.take_left' h3]
    rw [hlen, List.drop_left' h5, ht3]
  · unfold HalfConn.decrypt
    rw [hopen]
    simp only
    have hchk : ({ i with cipher := c' } : HalfConn).checkMac (hdr ++ len16 body.length ++ body)
        ⟨payload ++ tag ++ pad, ev.length, pad.length, 255⟩ = some payload := by
      unfold HalfConn.checkMac
      simp only [← hp.macEq]
      cases hm : o.mac with
      | none =>
        rw [hm] at htag
        rw [hnopad hm, ← htag]
        simp
      | some m =>
        simp only
        have hsz : o.macSize = m.size := by unfold HalfConn.macSize; rw [hm]
        have hsel : selectNeg (((payload ++ tag ++ pad).length : Int) - m.size - pad.length) = payload.length := by
          rw [selectNeg_eq] <;> (rw [List.length_append, List.length_append]; omega)
        rw [if_neg (by rw [List.length_append, List.length_append]; omega), hsel]
        have htk : (hdr ++ len16 body.length ++ body).take 3 = hdr := by rw [List.append_assoc, List.take_left' h3]
        rw [htk, List.append_assoc, List.take_left' rfl, List.drop_left' rfl,
          List.take_left' (by rw [htl, hsz]), ← hp.seqEq]
        rw [hm] at htag
        rw [if_neg]
        rintro (h | h)
        · exact h htag
        · exact h rfl
    rw [hchk]
    simp only [hinci]
  · exact ⟨rfl, by simp, hp.versionEq, hp.macEq, hp.macLawful, hpc⟩
  · rw [beNat_beFixed_of_lt (by norm_num; omega)]
  · exact ⟨rfl, rfl, hshape⟩
  
end Verif.Tls
