import Verif.Tls.RecordProps
/-!
C24, C25, C26 over whole histories of records and key changes.
-/
namespace Verif.Tls
open Verif Verif.Std

/-! ### what one written record uses -/

/-- the explicit IV field of the record -/
def HalfConn.evOf (hc : HalfConn) (iv : Bytes) : Bytes :=
  if hc.writeIVLen = 0 then [] else if hc.ivIsSeq then copyAt (List.replicate hc.writeIVLen 0) 0 hc.seq else iv

theorem writeOne_eq (hc : HalfConn) (hdr iv data : Bytes) :
    hc.writeOne hdr iv data = hc.encrypt (hdr ++ len16 data.length ++ hc.evOf iv ++ data) hc.writeIVLen := rfl

/-- the 12-byte nonce an AEAD record is sealed under (see `sealed_under_nonce`) -/
def HalfConn.nonceUsed (hc : HalfConn) (iv : Bytes) : Option Bytes :=
  match hc.cipher with
  | some (.aead a) => some (a.wrap.fullNonce (if (hc.evOf iv).length = 0 then hc.seq else hc.evOf iv))
  | _ => none

theorem evOf_length_aead (hc : HalfConn) (iv : Bytes) (a : Aead) (hc' : hc.cipher = some (.aead a)) (h8 : hc.seq.length = 8) :
    (hc.evOf iv).length = hc.writeIVLen ∧ (hc.evOf iv = [] ∨ hc.evOf iv = hc.seq) := by
  unfold HalfConn.evOf HalfConn.writeIVLen HalfConn.ivIsSeq
  rw [hc']
  simp only
  unfold Aead.explicitNonceLen
  cases a.wrap with
  | xored m => simp
  | fixed f =>
    simp [copyAt, h8, List.take_of_length_le (l := hc.seq) (i := 8) (by omega)]

/-- `nonceUsed` is the nonce passed to the underlying AEAD. -/
theorem sealed_under_nonce (hc : HalfConn) (hdr iv data : Bytes) (a : Aead) (hca : hc.cipher = some (.aead a))
    (h8 : hc.seq.length = 8) (h3 : hdr.length = 3) (hm : hc.mac = none) (n : Bytes) (hn : hc.nonceUsed iv = some n) (r : Bytes)
    (hc' : HalfConn) (h : hc.writeOne hdr iv data = .ok (r, hc')) :
    r.drop (5 + hc.writeIVLen) = a.raw.sealF n data (hc.seq ++ hdr ++ len16 data.length) := by
  obtain ⟨he, _⟩ := evOf_length_aead hc iv a hca h8
  rw [writeOne_eq] at h
  unfold HalfConn.encrypt HalfConn.appendMac at h
  rw [hm] at h
  simp only at h
  unfold HalfConn.sealPayload at h
  rw [hca] at h
  simp only at h
  rw [← he] at h ⊢
  have h2 := len16_length data.length
  rw [rec_drop5 _ _ _ _ h3 h2, rec_dropE _ _ _ _ h3 h2, rec_takeE _ _ _ _ h3 h2, rec_take3 _ _ _ _ h3 h2,
    List.take_left' rfl] at h
  have hbl : ((hdr ++ len16 data.length ++ hc.evOf iv ++ data).length : Int) - 5 - (hc.evOf iv).length = data.length := by
    rw [List.length_append, List.length_append, List.length_append, len16_length]; omega
  rw [hbl] at h
  unfold HalfConn.nonceUsed at hn
  rw [hca] at hn
  have hn := Option.some.inj hn
  simp only [Aead.sealW, hn] at h
  split at h
  · rename_i hc'' _
    have h := Res.ok.inj h
    have h1 := congrArg Prod.fst h
    simp only at h1
    rw [← h1]
    have h5 : (hdr ++ len16 data.length).length = 5 := by rw [List.length_append, len16_length]; omega
    have e1 : (hdr ++ len16 data.length ++ hc.evOf iv ++ a.raw.sealF n data (hc.seq ++ hdr ++ len16 data.length)).drop 5 =
        hc.evOf iv ++ a.raw.sealF n data (hc.seq ++ hdr ++ len16 data.length) := by
      rw [List.append_assoc, List.drop_left' h5]
    have e2 : (hdr ++ len16 data.length ++ hc.evOf iv ++ a.raw.sealF n data (hc.seq ++ hdr ++ len16 data.length)).take 3 = hdr := by
      rw [List.append_assoc, List.append_assoc, List.take_left' h3]
    rw [e1, e2, ← List.append_assoc]
    apply List.drop_left'
    rw [List.length_append, List.length_append, len16_length]
    omega
  · cases h
  · cases h

/-! ### C24: no sequence number and no nonce twice under one key -/

/-- one step of the life of a sending half connection -/
inductive Op where
  | record (hdr iv data : Bytes)
  | prepare (version : Version) (cipher : Option Cipher) (mac : Option Mac)
  | changeKeys

/-- a record was protected in key period `epoch` with this sequence number and (for an AEAD) this nonce -/
structure Use where
  epoch : Nat
  seq : Bytes
  nonce : Option Bytes

/-- the records protected in a history; a panic ends it. `epoch` counts the successful key changes. -/
def runOps (hc : HalfConn) (epoch : Nat) : List Op → List Use
  | [] => []
  | .record hdr iv data :: ops =>
    match hc.writeOne hdr iv data with
    | .ok (_, hc') => ⟨epoch, hc.seq, hc.nonceUsed iv⟩ :: runOps hc' epoch ops
    | _ => [⟨epoch, hc.seq, hc.nonceUsed iv⟩]
  | .prepare v c m :: ops => runOps (hc.prepareCipherSpec v c m) epoch ops
  | .changeKeys :: ops =>
    match hc.changeCipherSpec with
    | some hc' => runOps hc' (epoch + 1) ops
    | none => runOps hc epoch ops

/-- the AEAD wrappers hold a 12-byte field -/
def CipherWF : Option Cipher → Prop
  | some (.aead a) => match a.wrap with
    | .fixed f => f.length = 12
    | .xored m => m.length = 12
  | _ => True

def OpWF : Op → Prop
  | .prepare _ c _ => CipherWF c
  | _ => True

structure HcWF (hc : HalfConn) : Prop where
  seq8 : hc.seq.length = 8
  cur : CipherWF hc.cipher
  next : CipherWF hc.nextCipher

/-- the nonce as a function of the sequence number, given the key material in the wrapper -/
def nonceOf : Option Cipher → Bytes → Option Bytes
  | some (.aead a), s => match a.wrap with
    | .fixed f => some (f.take 4 ++ s)
    | .xored m => some (xorFrom4 m s)
  | _, _ => none

theorem nonceUsed_eq (hc : HalfConn) (hw : HcWF hc) (iv : Bytes) : hc.nonceUsed iv = nonceOf hc.cipher hc.seq := by
  unfold HalfConn.nonceUsed
  cases hca : hc.cipher with
  | none => rfl
  | some c =>
    cases c with
    | stream _ _ => rfl
    | cbc _ _ _ _ => rfl
    | aead a =>
      obtain ⟨h1, h2⟩ := evOf_length_aead hc iv a hca hw.seq8
      have hn : (if (hc.evOf iv).length = 0 then hc.seq else hc.evOf iv) = hc.seq := by
        rcases h2 with h | h
        · rw [h]; rfl
        · rw [h]; split <;> rfl
      have := hw.cur
      rw [hca] at this
      simp only [hn, nonceOf]
      unfold Wrap.fullNonce
      simp only [CipherWF] at this
      cases hwr : a.wrap with
      | fixed f => rw [hwr] at this; simp only [copyAt4 f hc.seq this hw.seq8]
      | xored m => rfl

theorem nonceOf_injective (c : Option Cipher) (hw : CipherWF c) (s s' : Bytes) (h8 : s.length = 8) (h8' : s'.length = 8)
    (n : Bytes) (h : nonceOf c s = some n) (h' : nonceOf c s' = some n) : s = s' := by
  cases c with
  | none => cases h
  | some c =>
    cases c with
    | stream _ _ => cases h
    | cbc _ _ _ _ => cases h
    | aead a =>
      simp only [nonceOf, CipherWF] at h h' hw
      cases hwr : a.wrap with
      | fixed f =>
        rw [hwr] at h h'
        simp only at h h'
        have := Option.some.inj (h.trans h'.symm)
        exact List.append_cancel_left this
      | xored m =>
        rw [hwr] at h h' hw
        simp only at h h' hw
        have := Option.some.inj (h.trans h'.symm)
        unfold xorFrom4 at this
        have := List.append_cancel_left this
        have l : (m.drop 4).length = 8 := by rw [List.length_drop]; omega
        have hs : ∀ t : Bytes, t.length = 8 → xorB (xorB (m.drop 4) t) (m.drop 4) = t := by
          intro t ht
          have hcomm : xorB (m.drop 4) t = xorB t (m.drop 4) := by
            unfold xorB; rw [List.zipWith_comm]; congr 1; funext a b; exact BitVec.xor_comm _ _
          rw [hcomm, xorB_cancel _ _ (by omega)]
        rw [← hs s h8, this, hs s' h8']

/-- sealing leaves the key material of the wrapper alone -/
theorem sealPayload_cipher (hc : HalfConn) (b : Bytes) (e : Nat) (r : Bytes) (c : Option Cipher)
    (h : hc.sealPayload b e = .ok (r, c)) (hw : CipherWF hc.cipher)
    (hn : ∀ a, hc.cipher = some (.aead a) → (if ((b.drop 5).take e).length = 0 then hc.seq else (b.drop 5).take e).length = 8) :
    CipherWF c ∧ nonceOf c = nonceOf hc.cipher := by
  unfold HalfConn.sealPayload at h
  cases hca : hc.cipher with
  | none => rw [hca] at h; cases h; exact ⟨trivial, rfl⟩
  | some cc =>
    rw [hca] at h
    cases cc with
    | stream ks pos => cases h; exact ⟨trivial, rfl⟩
    | cbc bs dec f iv =>
      simp only at h
      split at h
      · split at h
        · cases h; exact ⟨trivial, rfl⟩
        · cases h
        · cases h
      · cases h
      · cases h
    | aead a =>
      simp only at h
      have h2 := congrArg Prod.snd (Res.ok.inj h)
      simp only [Aead.sealW] at h2
      subst h2
      have h8 := hn a hca
      generalize (if ((b.drop 5).take e).length = 0 then hc.seq else (b.drop 5).take e) = nn at h8
      rw [hca] at hw
      simp only [CipherWF] at hw ⊢
      constructor
      · simp only [Wrap.after]
        cases hwr : a.wrap with
        | fixed f =>
          rw [hwr] at hw
          simp only [copyAt4 f nn hw h8, List.length_append, List.length_take]; omega
        | xored m =>
          rw [hwr] at hw
          simp only [xorFrom4_invol m nn hw h8]; exact hw
      · funext s
        simp only [nonceOf, Wrap.after]
        cases hwr : a.wrap with
        | fixed f =>
          rw [hwr] at hw
          have l : (f.take 4).length = 4 := by rw [List.length_take]; simp only at hw; omega
          simp only [copyAt4 f nn hw h8, List.take_left' l]
        | xored m =>
          rw [hwr] at hw
          simp only [xorFrom4_invol m nn hw h8]

theorem writeOne_inv (hc : HalfConn) (hw : HcWF hc) (hdr iv data r : Bytes) (hc' : HalfConn) (h3 : hdr.length = 3)
    (h : hc.writeOne hdr iv data = .ok (r, hc')) :
    HcWF hc' ∧ beNat hc'.seq = beNat hc.seq + 1 ∧ nonceOf hc'.cipher = nonceOf hc.cipher := by
  rw [writeOne_eq] at h
  unfold HalfConn.encrypt at h
  cases hs : hc.sealPayload (hc.appendMac (hdr ++ len16 data.length ++ hc.evOf iv ++ data) hc.writeIVLen) hc.writeIVLen with
  | err m => rw [hs] at h; cases h
  | panic => rw [hs] at h; cases h
  | ok rc =>
    obtain ⟨r', c⟩ := rc
    rw [hs] at h
    simp only at h
    have hi := incSeq_eq { hc with cipher := c } hw.seq8
    rw [hi] at h
    by_cases hlt : beNat hc.seq + 1 < 2 ^ 64
    · rw [if_pos hlt] at h
      have h := congrArg Prod.snd (Res.ok.inj h)
      simp only at h
      obtain ⟨h1, h2⟩ := sealPayload_cipher hc _ _ _ _ hs hw.cur (by
        intro a ha
        obtain ⟨he, hor⟩ := evOf_length_aead hc iv a ha hw.seq8
        have hd : ((hc.appendMac (hdr ++ len16 data.length ++ hc.evOf iv ++ data) hc.writeIVLen).drop 5).take hc.writeIVLen = hc.evOf iv := by
          unfold HalfConn.appendMac
          cases hc.mac with
          | none =>
            simp only
            rw [rec_drop5 _ _ _ _ h3 (len16_length _)]
            exact List.take_left' he
          | some m =>
            simp only
            rw [List.append_assoc _ data, rec_drop5 _ _ _ _ h3 (len16_length _)]
            exact List.take_left' he
        rw [hd]
        rcases hor with h | h
        · rw [h]; exact hw.seq8
        · rw [h]; split <;> exact hw.seq8)
      subst h
      refine ⟨⟨by simp, h1, hw.next⟩, ?_, h2⟩
      simp only
      rw [beNat_beFixed_of_lt (by norm_num; omega)]
    · rw [if_neg hlt] at h; cases h

theorem changeCipherSpec_inv (hc hc' : HalfConn) (hw : HcWF hc) (h : hc.changeCipherSpec = some hc') :
    HcWF hc' ∧ beNat hc'.seq = 0 := by
  unfold HalfConn.changeCipherSpec at h
  cases hn : hc.nextCipher with
  | none => rw [hn] at h; cases h
  | some c =>
    rw [hn] at h
    have h := Option.some.inj h
    subst h
    have := hw.next
    rw [hn] at this
    exact ⟨⟨by simp, this, trivial⟩, (by decide : beNat (List.replicate 8 0) = 0)⟩

/-- header bytes of a record: type and version -/
def OpHdr : Op → Prop
  | .record hdr _ _ => hdr.length = 3
  | _ => True

theorem runOps_bounds (ops : List Op) : ∀ (hc : HalfConn) (ep : Nat), HcWF hc → (∀ o ∈ ops, OpWF o ∧ OpHdr o) →
    ∀ u ∈ runOps hc ep ops, ep ≤ u.epoch ∧ u.seq.length = 8 ∧
      (u.epoch = ep → beNat hc.seq ≤ beNat u.seq ∧ u.nonce = nonceOf hc.cipher u.seq) := by
  induction ops with
  | nil => intro hc ep _ _ u hu; cases hu
  | cons o ops ih =>
    intro hc ep hw hops u hu
    have hops' : ∀ o ∈ ops, OpWF o ∧ OpHdr o := fun o ho => hops o (List.mem_cons_of_mem _ ho)
    cases o with
    | record hdr iv data =>
      have h3 := (hops _ List.mem_cons_self).2
      simp only [runOps] at hu
      have hhead : ep ≤ (⟨ep, hc.seq, hc.nonceUsed iv⟩ : Use).epoch ∧ (⟨ep, hc.seq, hc.nonceUsed iv⟩ : Use).seq.length = 8 ∧
          ((⟨ep, hc.seq, hc.nonceUsed iv⟩ : Use).epoch = ep → beNat hc.seq ≤ beNat (⟨ep, hc.seq, hc.nonceUsed iv⟩ : Use).seq ∧
            (⟨ep, hc.seq, hc.nonceUsed iv⟩ : Use).nonce = nonceOf hc.cipher (⟨ep, hc.seq, hc.nonceUsed iv⟩ : Use).seq) :=
        ⟨Nat.le_refl _, hw.seq8, fun _ => ⟨Nat.le_refl _, nonceUsed_eq hc hw iv⟩⟩
      cases hx : hc.writeOne hdr iv data with
      | ok rc =>
        obtain ⟨r, hc'⟩ := rc
        rw [hx] at hu
        obtain ⟨i1, i2, i3⟩ := writeOne_inv hc hw hdr iv data r hc' h3 hx
        rcases List.mem_cons.1 hu with rfl | hu
        · exact hhead
        · obtain ⟨b1, b2, b3⟩ := ih hc' ep i1 hops' u hu
          refine ⟨b1, b2, fun he => ?_⟩
          obtain ⟨b4, b5⟩ := b3 he
          rw [i3] at b5
          exact ⟨by omega, b5⟩
      | err m => rw [hx] at hu; rcases List.mem_singleton.1 hu with rfl; exact hhead
      | panic => rw [hx] at hu; rcases List.mem_singleton.1 hu with rfl; exact hhead
    | prepare v c m =>
      have hc1 := (hops _ List.mem_cons_self).1
      exact ih (hc.prepareCipherSpec v c m) ep ⟨hw.seq8, hw.cur, hc1⟩ hops' u hu
    | changeKeys =>
      simp only [runOps] at hu
      cases hx : hc.changeCipherSpec with
      | none => rw [hx] at hu; exact ih hc ep hw hops' u hu
      | some hc' =>
        rw [hx] at hu
        obtain ⟨i1, _⟩ := changeCipherSpec_inv hc hc' hw hx
        obtain ⟨b1, b2, _⟩ := ih hc' (ep + 1) i1 hops' u hu
        exact ⟨by omega, b2, fun he => by omega⟩

/-- C24: in every history of records and key changes of a half connection, no two records protected in the same key
period carry the same sequence number, and if the period's cipher is an AEAD no two of them use the same nonce. -/
theorem C24_no_repeat (ops : List Op) (hc : HalfConn) (ep : Nat) (hw : HcWF hc) (hops : ∀ o ∈ ops, OpWF o ∧ OpHdr o) :
    (runOps hc ep ops).Pairwise (fun u v => u.epoch = v.epoch →
      u.seq ≠ v.seq ∧ ∀ n, u.nonce = some n → v.nonce ≠ some n) := by
  induction ops generalizing hc ep with
  | nil => exact List.Pairwise.nil
  | cons o ops ih =>
    have hops' : ∀ o ∈ ops, OpWF o ∧ OpHdr o := fun o ho => hops o (List.mem_cons_of_mem _ ho)
    cases o with
    | record hdr iv data =>
      have h3 := (hops _ List.mem_cons_self).2
      simp only [runOps]
      cases hx : hc.writeOne hdr iv data with
      | ok rc =>
        obtain ⟨r, hc'⟩ := rc
        obtain ⟨i1, i2, i3⟩ := writeOne_inv hc hw hdr iv data r hc' h3 hx
        refine List.Pairwise.cons ?_ (ih hc' ep i1 hops')
        intro v hv he
        obtain ⟨_, b2, b3⟩ := runOps_bounds ops hc' ep i1 hops' v hv
        obtain ⟨b4, b5⟩ := b3 he.symm
        have hne : hc.seq ≠ v.seq := by
          intro hc; rw [← hc] at b4; omega
        refine ⟨hne, fun n hn hn' => hne ?_⟩
        rw [nonceUsed_eq hc hw iv] at hn
        rw [b5, i3] at hn'
        exact nonceOf_injective hc.cipher hw.cur _ _ hw.seq8 b2 n hn hn'
      | err m => exact List.pairwise_singleton _ _
      | panic => exact List.pairwise_singleton _ _
    | prepare v c m =>
      exact ih (hc.prepareCipherSpec v c m) ep ⟨hw.seq8, hw.cur, (hops _ List.mem_cons_self).1⟩ hops'
    | changeKeys =>
      simp only [runOps]
      cases hx : hc.changeCipherSpec with
      | none => exact ih hc ep hw hops'
      | some hc' => exact ih hc' (ep + 1) (changeCipherSpec_inv hc hc' hw hx).1 hops'

/-- the sequence numbers used in key period `e`, in order -/
def seqsIn (e : Nat) (us : List Use) : List Nat := (us.filter (fun u => u.epoch = e)).map (fun u => beNat u.seq)

theorem runOps_seqs (ops : List Op) : ∀ (hc : HalfConn) (ep : Nat), HcWF hc → (∀ o ∈ ops, OpWF o ∧ OpHdr o) →
    (∃ k, seqsIn ep (runOps hc ep ops) = List.range' (beNat hc.seq) k) ∧
    ∀ e, ep < e → ∃ k, seqsIn e (runOps hc ep ops) = List.range' 0 k := by
  induction ops with
  | nil => intro hc ep _ _; exact ⟨⟨0, rfl⟩, fun e _ => ⟨0, rfl⟩⟩
  | cons o ops ih =>
    intro hc ep hw hops
    have hops' : ∀ o ∈ ops, OpWF o ∧ OpHdr o := fun o ho => hops o (List.mem_cons_of_mem _ ho)
    cases o with
    | record hdr iv data =>
      have h3 := (hops _ List.mem_cons_self).2
      simp only [runOps]
      cases hx : hc.writeOne hdr iv data with
      | ok rc =>
        obtain ⟨r, hc'⟩ := rc
        obtain ⟨i1, i2, i3⟩ := writeOne_inv hc hw hdr iv data r hc' h3 hx
        obtain ⟨⟨k, hk⟩, hgt⟩ := ih hc' ep i1 hops'
        refine ⟨⟨k + 1, ?_⟩, fun e he => ?_⟩
        · simp only [seqsIn, List.filter_cons, decide_true, if_true, List.map_cons] at hk ⊢
          rw [hk, i2, List.range'_succ]
        · obtain ⟨k, hk⟩ := hgt e he
          refine ⟨k, ?_⟩
          have : ¬ (ep = e) := by omega
          simp only [seqsIn, List.filter_cons, this, decide_false, Bool.false_eq_true, if_false] at hk ⊢
          exact hk
      | err m =>
        refine ⟨⟨1, by simp [seqsIn]⟩, fun e he => ⟨0, ?_⟩⟩
        have : ¬ (ep = e) := by omega
        simp [seqsIn, this]
      | panic =>
        refine ⟨⟨1, by simp [seqsIn]⟩, fun e he => ⟨0, ?_⟩⟩
        have : ¬ (ep = e) := by omega
        simp [seqsIn, this]
    | prepare v c m =>
      exact ih (hc.prepareCipherSpec v c m) ep ⟨hw.seq8, hw.cur, (hops _ List.mem_cons_self).1⟩ hops'
    | changeKeys =>
      simp only [runOps]
      cases hx : hc.changeCipherSpec with
      | none => exact ih hc ep hw hops'
      | some hc' =>
        obtain ⟨i1, i2⟩ := changeCipherSpec_inv hc hc' hw hx
        obtain ⟨⟨k, hk⟩, hgt⟩ := ih hc' (ep + 1) i1 hops'
        refine ⟨⟨0, ?_⟩, fun e he => ?_⟩
        · simp only [seqsIn, List.range'_zero, List.map_eq_nil_iff, List.filter_eq_nil_iff, decide_eq_true_eq]
          intro u hu he
          have := (runOps_bounds ops hc' (ep + 1) i1 hops' u hu).1
          omega
        · rcases Nat.lt_or_ge (ep + 1) e with h | h
          · exact hgt e h
          · have : e = ep + 1 := by omega
            subst this
            rw [i2] at hk
            exact ⟨k, hk⟩

/-- C24: the i-th record protected since the last key change carries sequence number i. -/
theorem C24_sequence_is_index (ops : List Op) (hc : HalfConn) (hw : HcWF hc) (h0 : hc.seq = List.replicate 8 0)
    (hops : ∀ o ∈ ops, OpWF o ∧ OpHdr o) (e : Nat) : ∃ k, seqsIn e (runOps hc 0 ops) = List.range k := by
  obtain ⟨h1, h2⟩ := runOps_seqs ops hc 0 hw hops
  rw [h0] at h1
  rcases Nat.eq_zero_or_pos e with rfl | he
  · obtain ⟨k, hk⟩ := h1
    exact ⟨k, by rw [hk, List.range_eq_range']; rfl⟩
  · obtain ⟨k, hk⟩ := h2 e he
    exact ⟨k, by rw [hk, List.range_eq_range']⟩

/-- C24: at the last sequence number the code panics instead of wrapping, when writing and when reading. -/
theorem C24_no_wrap (hc : HalfConn) (h : hc.seq = List.replicate 8 255) :
    hc.incSeq = .panic ∧ (∀ hdr iv data r, hc.writeOne hdr iv data ≠ .ok r) ∧ (∀ b d hc', hc.decrypt b ≠ .ok (some d, hc')) := by
  have h8 : hc.seq.length = 8 := by rw [h]; rfl
  have hv : ¬ (beNat hc.seq + 1 < 2 ^ 64) := by rw [h]; decide
  have hi : ∀ c : Option Cipher, ({ hc with cipher := c } : HalfConn).incSeq = .panic := by
    intro c; rw [incSeq_eq { hc with cipher := c } h8, if_neg hv]
  refine ⟨hi hc.cipher, ?_, ?_⟩
  · intro hdr iv data r hr
    rw [writeOne_eq] at hr
    unfold HalfConn.encrypt at hr
    split at hr
    · rw [hi] at hr; cases hr
    · cases hr
    · cases hr
  · intro b d hc' hr
    unfold HalfConn.decrypt at hr
    split at hr
    · have := congrArg Prod.fst (Res.ok.inj hr); cases this
    · split at hr
      · have := congrArg Prod.fst (Res.ok.inj hr); cases this
      · rw [hi] at hr; cases hr
    · cases hr
    · cases hr

/-- a key change installs the prepared cipher and the sequence number 0, and consumes it: it cannot be repeated
without preparing new keys -/
theorem C24_key_change (hc hc' : HalfConn) (h : hc.changeCipherSpec = some hc') :
    hc'.cipher = hc.nextCipher ∧ hc'.mac = hc.nextMac ∧ hc'.seq = List.replicate 8 0 ∧ hc'.changeCipherSpec = none ∧
      ∃ c, hc.nextCipher = some c := by
  unfold HalfConn.changeCipherSpec at h
  cases hn : hc.nextCipher with
  | none => rw [hn] at h; cases h
  | some c =>
    rw [hn] at h
    have h := Option.some.inj h
    subst h
    exact ⟨rfl, rfl, rfl, rfl, c, rfl⟩

/-! ### C25: whole histories -/

/-- send a list of (type and version, random bytes for the IV, payload) -/
def sendAll (o : HalfConn) : List (Bytes × Bytes × Bytes) → Res (List Bytes × HalfConn)
  | [] => .ok ([], o)
  | (hdr, iv, data) :: rest =>
    match o.writeOne hdr iv data with
    | .ok (r, o') =>
      match sendAll o' rest with
      | .ok (rs, o'') => .ok (r :: rs, o'')
      | .err m => .err m
      | .panic => .panic
    | .err m => .err m
    | .panic => .panic

/-- receive records until one is refused (tls/conn.go:640: the error is permanent): the accepted (type and version,
payload) pairs with the sequence number each was accepted under, and the final state -/
def recvAll (i : HalfConn) : List Bytes → List (Bytes × Bytes × Bytes) × HalfConn
  | [] => ([], i)
  | r :: rest =>
    match i.decrypt r with
    | .ok (some data, i') =>
      let (out, i'') := recvAll i' rest
      ((i.seq, r.take 3, data) :: out, i'')
    | .ok (none, i') => ([], i')
    | _ => ([], i)

theorem evOf_length (hc : HalfConn) (iv : Bytes) (h8 : hc.seq.length = 8)
    (hiv : ∀ bs d f v, hc.cipher = some (.cbc bs d f v) → iv.length = bs) : (hc.evOf iv).length = hc.writeIVLen := by
  cases hca : hc.cipher with
  | none => simp [HalfConn.evOf, HalfConn.writeIVLen, hca]
  | some c =>
    cases c with
    | stream _ _ => simp [HalfConn.evOf, HalfConn.writeIVLen, hca]
    | aead a => exact (evOf_length_aead hc iv a hca h8).1
    | cbc bs d f v =>
      have := hiv bs d f v hca
      unfold HalfConn.evOf HalfConn.writeIVLen HalfConn.ivIsSeq
      rw [hca]
      simp only
      by_cases hx : explicitIVVersion hc.version = true
      · rw [if_pos hx]; split
        · simp_all
        · simpa using this
      · rw [if_neg hx]; simp

/-- C25: two paired half connections; the sender protects any list of payloads, the receiver gets the records in
order. Every payload arrives with its type and version, and the two sides are still paired. (`hiv`: the random
source delivers as many IV bytes as asked.) -/
theorem C25_history_round_trip (items : List (Bytes × Bytes × Bytes)) (o i : HalfConn) (hp : Paired o i)
    (hitems : ∀ x ∈ items, x.1.length = 3 ∧ x.2.2.length < 2 ^ 29 ∧ (∀ bs, shape o.cipher = .cbc bs → x.2.1.length = bs))
    (hms : o.macSize < 2 ^ 29) (hroom : beNat o.seq + items.length < 2 ^ 64) :
    ∃ rs o', sendAll o items = .ok (rs, o') ∧ rs.length = items.length ∧
      (recvAll i rs).1.map (fun x => (x.2.1, x.2.2)) = items.map (fun x => (x.1, x.2.2)) ∧ Paired o' (recvAll i rs).2 := by
  induction items generalizing o i with
  | nil => exact ⟨[], o, rfl, rfl, rfl, hp⟩
  | cons x rest ih =>
    obtain ⟨hdr, iv, data⟩ := x
    obtain ⟨h3, hl, hiv⟩ := hitems _ List.mem_cons_self
    simp only at h3 hl hiv
    rw [List.length_cons] at hroom
    have hev := evOf_length o iv hp.seq8 (fun bs d f v hc => hiv bs (by rw [hc]; rfl))
    obtain ⟨body, o', i', he, hd, hp', hsq, hv, hm, hsh⟩ := C25_record_round_trip o i hp hdr (o.evOf iv) data h3 hev hl hms (by omega)
    have hw : o.writeOne hdr iv data = .ok (hdr ++ len16 body.length ++ body, o') := by
      rw [writeOne_eq, ← hev]; exact he
    obtain ⟨rs, o'', hs, hlen, hr, hp''⟩ := ih o' i' hp'
      (fun x hx => by rw [hsh]; exact hitems x (List.mem_cons_of_mem _ hx))
      (by unfold HalfConn.macSize at hms ⊢; rw [hm]; exact hms) (by omega)
    refine ⟨(hdr ++ len16 body.length ++ body) :: rs, o'', ?_, by simp [hlen], ?_, ?_⟩
    · simp only [sendAll, hw, hs]
    · simp only [recvAll, hd, List.map_cons, hr]
      rw [List.append_assoc, List.take_left' h3]
    · simp only [recvAll, hd]; exact hp''

/-! ### C26: what acceptance means -/

/-- C26 (MAC suites): a record is accepted only if the decrypted payload is `data ++ tag ++ pad` where `tag` is the
MAC of the receiver's current sequence number, the record's type and version, the data's length and the data, and
the padding was good; and then the sequence number advances by one. -/
theorem C26_accept_mac (i : HalfConn) (b : Bytes) (data : Bytes) (i' : HalfConn) (m : Mac) (hm : i.mac = some m) (h8 : i.seq.length = 8)
    (hb : b.length < 2 ^ 31)
    (h : i.decrypt b = .ok (some data, i')) :
    ∃ p c tag pad, i.openPayload b = .ok (some p, c) ∧ p.payload = data ++ tag ++ pad ∧ p.paddingGood = 255 ∧
      tag = m.mac i.seq (b.take 3 ++ len16 data.length) data ∧
      i' = { i with cipher := c, seq := beFixed 8 (beNat i.seq + 1) } ∧ beNat i.seq + 1 < 2 ^ 64 := by
  unfold HalfConn.decrypt at h
  cases ho : i.openPayload b with
  | err e => rw [ho] at h; cases h
  | panic => rw [ho] at h; cases h
  | ok oc =>
    obtain ⟨op, c⟩ := oc
    rw [ho] at h
    cases op with
    | none => have := congrArg Prod.fst (Res.ok.inj h); cases this
    | some p =>
      simp only at h
      unfold HalfConn.checkMac at h
      simp only [hm] at h
      by_cases hsz : p.payload.length < m.size
      · rw [if_pos hsz] at h; have := congrArg Prod.fst (Res.ok.inj h); cases this
      · rw [if_neg hsz] at h
        generalize hn : selectNeg ((p.payload.length : Int) - m.size - p.paddingLen) = n at h
        by_cases hbad : m.mac i.seq (b.take 3 ++ len16 n) (p.payload.take n) ≠ (p.payload.drop n).take m.size ∨ p.paddingGood ≠ 255
        · rw [if_pos hbad] at h; have := congrArg Prod.fst (Res.ok.inj h); cases this
        · rw [if_neg hbad] at h
          rw [not_or, not_not, not_not] at hbad
          simp only at h
          rw [incSeq_eq { i with cipher := c, mac := some m } h8] at h
          by_cases hlt : beNat i.seq + 1 < 2 ^ 64
          · simp only [hlt, if_true] at h
            have h := Res.ok.inj h
            have hd := Option.some.inj (congrArg Prod.fst h)
            have hi := congrArg Prod.snd h
            simp only at hd hi
            have hnle : n ≤ p.payload.length := by
              rw [← hn]; unfold selectNeg; split <;> omega
            have hlen : data.length = n := by rw [← hd, List.length_take]; omega
            refine ⟨p, c, (p.payload.drop n).take m.size, (p.payload.drop n).drop m.size, rfl, ?_, hbad.2, ?_, by rw [← hi, hm], hlt⟩
            · rw [← hd, List.append_assoc, List.take_append_drop, List.take_append_drop]
            · rw [← hbad.1, hlen, hd]
          · simp only [hlt, if_false] at h; cases h

/-- C26 (AEAD suites): a record is accepted only if the AEAD opens its ciphertext under the additional data made of the
receiver's current sequence number, the record's type and version and the plaintext length, and under the nonce given
by the record's explicit part (or by the sequence number if the cipher has no explicit part). -/
theorem C26_accept_aead (i : HalfConn) (b : Bytes) (data : Bytes) (i' : HalfConn) (a : Aead) (hc : i.cipher = some (.aead a))
    (hm : i.mac = none) (h8 : i.seq.length = 8)
    (hopen : ∀ n c ad p, a.raw.openF n c ad = some p → c.length = p.length + a.raw.overhead)
    (h : i.decrypt b = .ok (some data, i')) :
    ∃ c, a.raw.openF (a.wrap.fullNonce (if ((b.drop 5).take a.explicitNonceLen).length = 0 then i.seq else (b.drop 5).take a.explicitNonceLen))
        ((b.drop 5).drop a.explicitNonceLen) (i.seq ++ b.take 3 ++ len16 data.length) = some data ∧
      i' = { i with cipher := c, seq := beFixed 8 (beNat i.seq + 1) } ∧ beNat i.seq + 1 < 2 ^ 64 := by
  unfold HalfConn.decrypt HalfConn.openPayload at h
  simp only [hc] at h
  by_cases hl : (b.drop 5).length < a.explicitNonceLen
  · rw [if_pos hl] at h; simp only at h; have := congrArg Prod.fst (Res.ok.inj h); cases this
  · rw [if_neg hl] at h
    generalize (if ((b.drop 5).take a.explicitNonceLen).length = 0 then i.seq else (b.drop 5).take a.explicitNonceLen) = nonce at h ⊢
    generalize (b.drop 5).drop a.explicitNonceLen = ct at h ⊢
    simp only [Aead.openW] at h
    cases ho : a.raw.openF (a.wrap.fullNonce nonce) ct (i.seq ++ b.take 3 ++ len16 ((ct.length : Int) - a.raw.overhead)) with
    | none => simp only [ho] at h; have := congrArg Prod.fst (Res.ok.inj h); cases this
    | some p =>
      simp only [ho] at h
      unfold HalfConn.checkMac at h
      simp only [hm] at h
      rw [incSeq_eq { i with cipher := _, mac := none } h8] at h
      by_cases hlt : beNat i.seq + 1 < 2 ^ 64
      · simp only [hlt, if_true] at h
        have h := Res.ok.inj h
        have hd := Option.some.inj (congrArg Prod.fst h)
        have hi := congrArg Prod.snd h
        simp only at hd hi
        subst hd
        have hcl := hopen _ _ _ _ ho
        refine ⟨some (.aead { a with wrap := a.wrap.after nonce }), ?_, ?_, hlt⟩
        · rw [← ho]; congr 2; congr 1; omega
        · rw [← hi, hm]
      · simp only [hlt, if_false] at h; cases h

/-- the byte string authenticated for a record (the input of the TLS MAC, and for an AEAD the additional data
followed by the plaintext) -/
def authInput (seq hdr data : Bytes) : Bytes := seq ++ hdr ++ len16 data.length ++ data

/-- that is indeed what the sender's MAC is computed over -/
theorem sender_macs_authInput (o : HalfConn) (size : Nat) (hmac : Bytes → Bytes) (hm : o.mac = some (tls10MAC size hmac)) (hdr ev data : Bytes)
    (h3 : hdr.length = 3) :
    o.appendMac (hdr ++ len16 data.length ++ ev ++ data) ev.length =
      hdr ++ len16 data.length ++ ev ++ data ++ hmac (authInput o.seq hdr data) := by
  unfold HalfConn.appendMac
  rw [hm]
  simp only [tls10MAC]
  rw [rec_take5 _ _ _ _ h3 (len16_length _), rec_dropE _ _ _ _ h3 (len16_length _)]
  simp [authInput]

theorem authInput_injective {s s' h h' d d' : Bytes} (hs : s.length = 8) (hs' : s'.length = 8) (hh : h.length = 3) (hh' : h'.length = 3)
    (he : authInput s h d = authInput s' h' d') : s = s' ∧ h = h' ∧ d = d' := by
  unfold authInput at he
  rw [List.append_assoc, List.append_assoc, List.append_assoc, List.append_assoc] at he
  obtain ⟨e1, he⟩ := List.append_inj he (by omega)
  obtain ⟨e2, he⟩ := List.append_inj he (by omega)
  obtain ⟨_, e3⟩ := List.append_inj he (by simp)
  exact ⟨e1, e2, e3⟩

theorem decrypt_seq (i : HalfConn) (b data : Bytes) (i' : HalfConn) (h8 : i.seq.length = 8) (h : i.decrypt b = .ok (some data, i')) :
    i'.seq = beFixed 8 (beNat i.seq + 1) ∧ beNat i.seq + 1 < 2 ^ 64 := by
  unfold HalfConn.decrypt at h
  split at h
  · have := congrArg Prod.fst (Res.ok.inj h); cases this
  · rename_i p c _
    split at h
    · have := congrArg Prod.fst (Res.ok.inj h); cases this
    · rw [incSeq_eq { i with cipher := c } h8] at h
      by_cases hlt : beNat i.seq + 1 < 2 ^ 64
      · simp only [hlt, if_true] at h
        have hi := congrArg Prod.snd (Res.ok.inj h)
        simp only at hi
        rw [← hi]; exact ⟨rfl, hlt⟩
      · simp only [hlt, if_false] at h; cases h
  · cases h
  · cases h

theorem recvAll_prefix (rs : List Bytes) : ∀ (i : HalfConn) (k : Nat) (sent : List (Bytes × Bytes)),
    i.seq = beFixed 8 k → k < 2 ^ 64 →
    (∀ x ∈ sent, x.1.length = 3) → sent.length ≤ 2 ^ 64 → (∀ r ∈ rs, 3 ≤ r.length) →
    (∀ x ∈ (recvAll i rs).1, ∃ j, ∃ y, sent[j]? = some y ∧ authInput x.1 x.2.1 x.2.2 = authInput (beFixed 8 j) y.1 y.2) →
    (recvAll i rs).1.map (fun x => (x.2.1, x.2.2)) <+: sent.drop k := by
  induction rs with
  | nil => intro i k sent _ _ _ _ _ _; exact List.nil_prefix
  | cons r rest ih =>
    intro i k sent hk hk' h3 hlen hr hauth
    unfold recvAll at hauth ⊢
    cases hd : i.decrypt r with
    | err m => exact List.nil_prefix
    | panic => exact List.nil_prefix
    | ok oi =>
      obtain ⟨od, i'⟩ := oi
      cases od with
      | none => exact List.nil_prefix
      | some data =>
        rw [hd] at hauth
        simp only at hauth ⊢
        have h8 : i.seq.length = 8 := by rw [hk]; simp
        obtain ⟨hs1, hs2⟩ := decrypt_seq i r data i' h8 hd
        have hv : beNat i.seq = k := by rw [hk, beNat_beFixed_of_lt (by norm_num; omega)]
        rw [hv] at hs1 hs2
        obtain ⟨j, y, hj, he⟩ := hauth _ List.mem_cons_self
        simp only at he
        have hjl : j < sent.length := by
          by_contra hc
          rw [List.getElem?_eq_none (by omega)] at hj; cases hj
        have h3y : y.1.length = 3 := h3 y (List.mem_of_getElem? hj)
        have h3r : (r.take 3).length = 3 := by rw [List.length_take]; have := hr r List.mem_cons_self; omega
        obtain ⟨e1, e2, e3⟩ := authInput_injective h8 (by simp) h3r h3y he
        rw [hk] at e1
        have hkj : k = j := by
          have := congrArg beNat e1
          rw [beNat_beFixed_of_lt (by norm_num; omega), beNat_beFixed_of_lt (by norm_num; omega)] at this
          exact this
        subst hkj
        have hdrop : sent.drop k = y :: sent.drop (k + 1) := by
          rw [List.getElem?_eq_getElem hjl] at hj
          have := Option.some.inj hj
          rw [List.drop_eq_getElem_cons hjl, this]
        rw [hdrop]
        have hy : (r.take 3, data) = y := Prod.ext e2 e3
        simp only [List.map_cons]
        rw [hy]
        exact List.prefix_cons_inj y |>.2 (ih i' (k + 1) sent hs1 hs2 h3 hlen
          (fun r hr' => hr r (List.mem_cons_of_mem _ hr')) (fun x hx => hauth x (List.mem_cons_of_mem _ hx)))

/-- C26: let a receiver start a key period (sequence number 0) and be fed arbitrary byte strings `rs` by an
adversary, while the sender protected the records `sent` (type and version, payload), the j-th under sequence number
j. If every record the receiver accepted was authenticated over an input that the sender authenticated (what
unforgeability of the MAC or AEAD gives, by `C26_accept_mac` and `C26_accept_aead`), then the receiver delivers a
prefix of what was sent: nothing replayed, reordered, dropped in the middle, retyped or altered. -/
theorem C26_delivered_is_prefix (rs : List Bytes) (i : HalfConn) (sent : List (Bytes × Bytes))
    (h0 : i.seq = List.replicate 8 0) (h3 : ∀ x ∈ sent, x.1.length = 3) (hlen : sent.length ≤ 2 ^ 64) (hr : ∀ r ∈ rs, 3 ≤ r.length)
    (hauth : ∀ x ∈ (recvAll i rs).1, ∃ j, ∃ y, sent[j]? = some y ∧ authInput x.1 x.2.1 x.2.2 = authInput (beFixed 8 j) y.1 y.2) :
    (recvAll i rs).1.map (fun x => (x.2.1, x.2.2)) <+: sent := by
  have := recvAll_prefix rs i 0 sent (by rw [h0]; decide) (by decide) h3 hlen hr hauth
  rwa [List.drop_zero] at this

end Verif.Tls
