import Verif.Tls.ConnProps
/-!
C29 and C78: what one side writes, the other side reads: handshake messages and application data, independently of how they were
cut into records.
-/
namespace Verif.Tls
open Verif Verif.Std

/-! ### the length of a protected record -/

def Shape.extra : Shape → Nat
  | .none => 0
  | .stream => 0
  | .aead _ o => o
  | .cbc bs => bs

theorem sealPayload_length (o i : HalfConn) (hp : Paired o i) (hdr L ev P r : Bytes) (c : Option Cipher) (h3 : hdr.length = 3) (h2 : L.length = 2)
    (hev : ev.length = o.writeIVLen) (h : o.sealPayload (hdr ++ L ++ ev ++ P) ev.length = .ok (r, c)) :
    r.length ≤ 5 + ev.length + P.length + (shape o.cipher).extra := by
  have hc := hp.ciphers
  have t5 : (hdr ++ L ++ ev ++ P).take 5 = hdr ++ L := rec_take5 hdr L ev P h3 h2
  have d5 : (hdr ++ L ++ ev ++ P).drop 5 = ev ++ P := rec_drop5 hdr L ev P h3 h2
  have dE : (hdr ++ L ++ ev ++ P).drop (5 + ev.length) = P := rec_dropE hdr L ev P h3 h2
  have tE : (hdr ++ L ++ ev ++ P).take (5 + ev.length) = hdr ++ L ++ ev := rec_takeE hdr L ev P h3 h2
  unfold HalfConn.sealPayload at h
  cases hca : o.cipher with
  | none =>
    rw [hca] at h
    cases h
    simp only [List.length_append]; omega
  | some cc =>
    rw [hca] at h hc
    cases cc with
    | stream ks pos =>
      cases h
      rw [t5, d5]
      simp only [List.length_append, xorStream_length]; omega
    | aead a =>
      cases hci : i.cipher with
      | none => rw [hci] at hc; exact hc.elim
      | some ci =>
        rw [hci] at hc
        cases ci with
        | stream _ _ => exact hc.elim
        | cbc _ _ _ _ => exact hc.elim
        | aead a' =>
          obtain ⟨_, hl, _⟩ := hc
          have h1 := congrArg Prod.fst (Res.ok.inj h)
          dsimp only at h1
          rw [← h1, tE, List.length_append]
          simp only [Aead.sealW, hl.sealLen, dE, List.length_append, shape, Shape.extra]
          omega
    | cbc bs dec f iv =>
      cases hci : i.cipher with
      | none => rw [hci] at hc; cases dec <;> exact hc.elim
      | some ci =>
        rw [hci] at hc
        cases dec with
        | true => cases ci <;> exact hc.elim
        | false =>
          cases ci with
          | stream _ _ => exact hc.elim
          | aead _ => exact hc.elim
          | cbc bs' dec' D iv' =>
            cases dec' with
            | false => exact hc.elim
            | true =>
              obtain ⟨_, h0, _, hE, _, hiv, _, _, _⟩ := hc
              have hevbs : ev.length = bs ∨ ev.length = 0 := by
                rw [hev, writeIVLen_of_shape o (.cbc bs) (by rw [hca]; rfl)]
                simp only [Shape.ivLen]
                split <;> simp
              dsimp only at h
              rw [dE] at h
              obtain ⟨p1, p2, p3⟩ := padToBlockSize_spec P bs h0
              generalize hiv1 : (if ev.length > 0 then List.take ev.length (List.drop 5 (hdr ++ L ++ ev ++ P)) else iv) = iv1 at h
              have hl1 : iv1.length = bs := by
                rw [← hiv1, d5]
                split
                · rw [List.take_left' rfl]; rcases hevbs with hh | hh
                  · exact hh
                  · omega
                · exact hiv
              unfold cryptBlocks at h
              rw [if_neg (by simpa using p1)] at h
              dsimp only at h
              rw [if_neg (by rw [p2]; simp)] at h
              dsimp only at h
              simp only [Bool.false_eq_true, if_false] at h
              have h1 := congrArg Prod.fst (Res.ok.inj h)
              dsimp only at h1
              obtain ⟨k1, k2⟩ := cbcEnc_length f bs ((padToBlockSize P bs).1.length / bs) iv1 (padToBlockSize P bs).1 hE hl1
                (Nat.div_mul_cancel (Nat.dvd_of_mod_eq_zero p1)).symm
              obtain ⟨k3, _⟩ := cbcEnc_length f bs ((padToBlockSize P bs).2.length / bs)
                (cbcEnc f bs ((padToBlockSize P bs).1.length / bs) iv1 (padToBlockSize P bs).1).2 (padToBlockSize P bs).2 hE k2
                (by rw [p2, Nat.div_self h0, Nat.one_mul])
              have hsum := congrArg List.length p3
              rw [List.length_append, List.length_append, List.length_replicate] at hsum
              have k1' := k1.trans (Nat.div_mul_cancel (Nat.dvd_of_mod_eq_zero p1))
              have k3' := k3.trans (show (padToBlockSize P bs).2.length / bs * bs = bs by rw [p2, Nat.div_self h0, Nat.one_mul])
              rw [p2] at hsum
              have hA : (hdr ++ L ++ ev).length = 5 + ev.length := by rw [List.length_append, List.length_append]; omega
              rw [← h1, tE, List.length_append, List.length_append (as := Prod.fst _), hA]
              simp only [shape, Shape.extra]
              omega

theorem usesSuite_bounds (hc : HalfConn) (hu : Spec.UsesSuite hc) :
    hc.macSize ≤ 32 ∧ hc.writeIVLen ≤ 16 ∧ (shape hc.cipher).extra ≤ 16 := by
  rcases hu with ⟨h1, h2⟩ | ⟨s, hmem, hs, hm⟩
  · simp [HalfConn.macSize, HalfConn.writeIVLen, h1, h2, shape, Shape.extra]
  · have hmle : Spec.macSize s.mac ≤ 32 := by cases s.mac <;> decide
    refine ⟨by omega, ?_, ?_⟩
    · rw [writeIVLen_of_shape hc _ hs]
      cases s.cipher <;> simp only [Spec.cipherShape, Shape.ivLen] <;> (try split) <;> omega
    · rw [hs]
      cases s.cipher <;> simp [Spec.cipherShape, Shape.extra]

theorem evOf_length_explicit (hc : HalfConn) (iv : Bytes) (h8 : hc.seq.length = 8)
    (hiv : ∀ bs, shape hc.cipher = .cbc bs → explicitIVVersion hc.version = true → iv.length = bs) : (hc.evOf iv).length = hc.writeIVLen := by
  by_cases hx : explicitIVVersion hc.version = true
  · exact evOf_length hc iv h8 (fun bs d f v h => hiv bs (by rw [h]; rfl) hx)
  · cases hca : hc.cipher with
    | none => simp [HalfConn.evOf, HalfConn.writeIVLen, hca]
    | some c =>
      cases c with
      | stream _ _ => simp [HalfConn.evOf, HalfConn.writeIVLen, hca]
      | aead a => exact (evOf_length_aead hc iv a hca h8).1
      | cbc bs d f v => simp [HalfConn.evOf, HalfConn.writeIVLen, hca, hx]

theorem len16_nat (n : Nat) (h : n < 65536) : len16 (n : Int) = beFixed 2 n := by
  unfold len16
  congr 1
  omega

/-- the IV is as long as the cipher needs (the random source delivered) -/
def IvOk (o : HalfConn) (iv : Bytes) : Prop := ∀ bs, shape o.cipher = .cbc bs → explicitIVVersion o.version = true → iv.length = bs

/-- one record written with a suite of the tables: a frame of at most 18432 bytes that the paired receiver opens -/
theorem record_frame (o i o' : HalfConn) (hp : Paired o i) (hu : Spec.UsesSuite o) (typ : Byte) (v : Version) (iv p r : Bytes)
    (hl : p.length ≤ 16384) (hiv : IvOk o iv) (hw : o.writeOne [typ, (v >>> 8).truncate 8, v.truncate 8] iv p = .ok (r, o')) :
    ∃ body i', r = Spec.frame typ v body ∧ body.length ≤ 18432 ∧ i.decrypt (Spec.frame typ v body) = .ok (some p, i') ∧ Paired o' i' ∧
      Spec.UsesSuite o' ∧ o'.version = o.version ∧ shape o'.cipher = shape o.cipher := by
  obtain ⟨b1, b2, b3⟩ := usesSuite_bounds o hu
  have hev := evOf_length_explicit o iv hp.seq8 hiv
  have hseq : beNat o.seq + 1 < 2 ^ 64 := by
    rw [writeOne_eq] at hw
    unfold HalfConn.encrypt at hw
    split at hw
    · rename_i c _
      rw [incSeq_eq { o with cipher := c } hp.seq8] at hw
      by_contra hn
      rw [if_neg hn] at hw
      cases hw
    · cases hw
    · cases hw
  obtain ⟨body, o2, i', he, hd, hp', _, hv, hm, hs⟩ := C25_record_round_trip o i hp [typ, (v >>> 8).truncate 8, v.truncate 8] (o.evOf iv) p rfl hev
    (by omega) (by omega) hseq
  have hw2 := hw
  rw [writeOne_eq, ← hev, he] at hw
  obtain ⟨rfl, rfl⟩ := Prod.mk.inj (Res.ok.inj hw)
  have hbl : body.length ≤ 18432 := by
    rw [writeOne_eq] at hw2
    unfold HalfConn.encrypt at hw2
    have happ : ∃ tag : Bytes, tag.length ≤ 32 ∧ o.appendMac ([typ, (v >>> 8).truncate 8, v.truncate 8] ++ len16 p.length ++ o.evOf iv ++ p) o.writeIVLen =
        [typ, (v >>> 8).truncate 8, v.truncate 8] ++ len16 p.length ++ o.evOf iv ++ (p ++ tag) := by
      unfold HalfConn.appendMac
      cases hmac : o.mac with
      | none => exact ⟨[], by simp, by simp⟩
      | some m =>
        refine ⟨_, ?_, by dsimp only; rw [List.append_assoc _ p]⟩
        rw [hp.macLawful m hmac]
        unfold HalfConn.macSize at b1
        rw [hmac] at b1
        exact b1
    obtain ⟨tag, ht, happ⟩ := happ
    rw [happ] at hw2
    split at hw2
    · rename_i r' c hs'
      have hlen := sealPayload_length o i hp _ _ _ _ r' c rfl (len16_length _) hev (by rw [hev]; exact hs')
      split at hw2
      · have h1 := congrArg (fun x => List.length (Prod.fst x)) (Res.ok.inj hw2)
        dsimp only at h1
        simp only [List.length_append, List.length_take, List.length_drop, len16_length, List.length_cons, List.length_nil] at h1
        simp only [List.length_append] at hlen
        omega
      · cases hw2
      · cases hw2
    · cases hw2
    · cases hw2
  have hfr : [typ, (v >>> 8).truncate 8, v.truncate 8] ++ len16 body.length ++ body = Spec.frame typ v body := by
    rw [len16_nat _ (by omega)]; rfl
  rw [hfr] at hd
  exact ⟨body, i', hfr, hbl, hd, hp', usesSuite_writeOne _ _ _ _ _ _ hw2 hu, hv, hs⟩

/-! ### a reader with records on the way -/

/-- `c` is about to receive the records that the sending half `o` made of `items` (IV, payload), of type `typ` and version `v`;
then come the bytes `tail` -/
structure Sent (c : Conn) (o o' : HalfConn) (typ : Byte) (v : Version) (items : List (Bytes × Bytes)) (tail : Bytes) : Prop where
  paired : Paired o c.inp
  suite : Spec.UsesSuite o
  sizes : ∀ x ∈ items, x.2.length ≤ 16384 ∧ IvOk o x.1
  noErr : c.inp.err = none
  version : (c.haveVers = true → v = c.vers) ∧ (c.haveVers = false → v.toNat < 0x1000)
  bytes : ∃ rs, sendAll o (items.map (fun x => ([typ, (v >>> 8).truncate 8, v.truncate 8], x.1, x.2))) = .ok (rs, o') ∧
    c.stream = rs.flatten ++ tail

/-- all payload bytes on the way -/
def payloads (items : List (Bytes × Bytes)) : Bytes := (items.map (·.2)).flatten

theorem sent_step (c : Conn) (o o' : HalfConn) (typ : Byte) (v : Version) (iv p : Bytes) (items : List (Bytes × Bytes)) (tail : Bytes)
    (h : Sent c o o' typ v ((iv, p) :: items) tail) :
    ∃ o1 body rest inp', Spec.Opens c typ v body rest p inp' ∧ p.length ≤ 16384 ∧ rest.length + 5 ≤ c.stream.length ∧
      ∀ c' : Conn, c'.inp = inp' → c'.stream = rest → c'.haveVers = c.haveVers → c'.vers = c.vers →
        Sent c' o1 o' typ v items tail := by
  obtain ⟨rs, hs, hst⟩ := h.bytes
  obtain ⟨hl, hiv⟩ := h.sizes (iv, p) List.mem_cons_self
  simp only [List.map_cons, sendAll] at hs
  cases hw : o.writeOne [typ, (v >>> 8).truncate 8, v.truncate 8] iv p with
  | err x => rw [hw] at hs; cases hs
  | panic => rw [hw] at hs; cases hs
  | ok ro =>
    obtain ⟨r, o1⟩ := ro
    rw [hw] at hs
    dsimp only at hs
    cases hs2 : sendAll o1 (items.map (fun x => ([typ, (v >>> 8).truncate 8, v.truncate 8], x.1, x.2))) with
    | err x => rw [hs2] at hs; cases hs
    | panic => rw [hs2] at hs; cases hs
    | ok rs2 =>
      obtain ⟨rs', o2⟩ := rs2
      rw [hs2] at hs
      obtain ⟨rfl, rfl⟩ := Prod.mk.inj (Res.ok.inj hs)
      obtain ⟨body, i', hr, hb, hd, hp', hu', hv', hsh⟩ := record_frame o c.inp o1 h.paired h.suite typ v iv p r hl hiv hw
      have herr := (decrypt_nextCipher _ _ _ _ hd).2.2.1
      refine ⟨o1, body, rs'.flatten ++ tail, i', ⟨?_, hb, h.version.1, hd⟩, hl, ?_, ?_⟩
      · rw [hst, hr]; simp
      · rw [hst, hr]
        simp only [Spec.frame, List.flatten_cons, List.length_append, List.length_cons, List.length_nil, beFixed_length]
        omega
      · intro c' h1 h2 h3 h4
        refine ⟨by rw [h1]; exact hp', hu', ?_, by rw [h1, herr]; exact h.noErr, by rw [h3, h4]; exact h.version, rs', hs2, h2⟩
        intro x hx
        obtain ⟨a, b⟩ := h.sizes x (List.mem_cons_of_mem _ hx)
        refine ⟨a, ?_⟩
        intro bs hbs hex
        exact b bs (by rw [← hsh, hbs]) (by rw [← hv', hex])

/-- reading one handshake record -/
theorem readRecord_handshake (c : Conn) (o o' : HalfConn) (v : Version) (iv p : Bytes) (items : List (Bytes × Bytes)) (tail : Bytes)
    (h : Sent c o o' 22 v ((iv, p) :: items) tail) (hc : c.handshakeComplete = false) :
    ∃ c' o1, c.readRecord typHandshake = .ok (none, c') ∧ Sent c' o1 o' 22 v items tail ∧ c'.hand = c.hand ++ p ∧
      c'.handshakeComplete = false ∧ c'.out = c.out ∧ c'.stream.length + 5 ≤ c.stream.length := by
  obtain ⟨o1, body, rest, inp', hop, hl, hst, hnext⟩ := sent_step c o o' 22 v iv p items tail h
  have hro := readOnce_opens c typHandshake 22 v body rest p inp' hop (fun hf => ⟨.inr rfl, h.version.2 hf⟩) (by decide)
  have herr : inp'.err = none := by
    rw [(decrypt_nextCipher _ _ _ _ hop.opened).2.2.1]; exact h.noErr
  unfold Conn.processRecord at hro
  rw [if_neg (by omega)] at hro
  generalize hc1 : (if (22 : Byte) ≠ typAlert ∧ p.length > 0 then
      ({ c with stream := rest, inp := inp', warnCount := 0 } : Conn) else { c with stream := rest, inp := inp' }) = c1 at hro
  have f : c1.out = c.out ∧ c1.hand = c.hand ∧ c1.inp = inp' ∧ c1.stream = rest ∧ c1.haveVers = c.haveVers ∧ c1.vers = c.vers ∧
      c1.handshakeComplete = c.handshakeComplete := by
    rw [← hc1]; split <;> exact ⟨rfl, rfl, rfl, rfl, rfl, rfl, rfl⟩
  obtain ⟨f1, f2, f3, f4, f5, f6, f7⟩ := f
  dsimp only at hro
  rw [if_neg (by decide), if_neg (by decide), if_neg (by decide), if_pos (by decide), if_neg (by rintro ⟨hx, _⟩; exact hx (by decide)), f3, herr] at hro
  refine ⟨{ c1 with hand := c1.hand ++ p }, o1, ?_, hnext _ f3 f4 f5 f6, by simp only [f2], by simp only [f7, hc], by simp only [f1], by simp only [f4]; exact hst⟩
  unfold Conn.readRecord
  rw [if_pos (.inl rfl), if_neg (by simp [hc])]
  unfold Conn.readLoop
  rw [hro]
  simp only [f3, herr]

/-- reading handshake records until `k` bytes are there -/
theorem fillHand_reads (items : List (Bytes × Bytes)) : ∀ (fuel k : Nat) (c : Conn) (o o' : HalfConn) (v : Version) (tail : Bytes),
    Sent c o o' 22 v items tail → c.handshakeComplete = false → k ≤ (c.hand ++ payloads items).length → items.length ≤ fuel →
    ∃ c' o1 items', Conn.fillHand fuel c k = .ok (none, c') ∧ Sent c' o1 o' 22 v items' tail ∧ c'.handshakeComplete = false ∧
      c'.hand ++ payloads items' = c.hand ++ payloads items ∧ k ≤ c'.hand.length ∧ items' <:+ items ∧
      c.hand <+: c'.hand ∧ c'.out = c.out := by
  induction items with
  | nil =>
    intro fuel k c o o' v tail h hc hk hf
    unfold Conn.fillHand
    rw [if_pos (by simpa [payloads] using hk)]
    exact ⟨c, o, [], rfl, h, hc, rfl, by simpa [payloads] using hk, List.suffix_refl _, List.prefix_refl _, rfl⟩
  | cons x items ih =>
    intro fuel k c o o' v tail h hc hk hf
    by_cases hle : k ≤ c.hand.length
    · unfold Conn.fillHand
      rw [if_pos hle]
      exact ⟨c, o, x :: items, rfl, h, hc, rfl, hle, List.suffix_refl _, List.prefix_refl _, rfl⟩
    · obtain ⟨iv, p⟩ := x
      obtain ⟨c1, o1, hr, hs, hh, hc1, hout, _⟩ := readRecord_handshake c o o' v iv p items tail h hc
      cases fuel with
      | zero => simp at hf
      | succ fuel =>
        have hcat : c1.hand ++ payloads items = c.hand ++ payloads ((iv, p) :: items) := by
          rw [hh]; simp [payloads]
        obtain ⟨c', o2, items', e1, e2, e3, e4, e5, e6, e7, e8⟩ := ih fuel k c1 o1 o' v tail hs hc1 (by rw [hcat]; exact hk)
          (by simpa using hf)
        refine ⟨c', o2, items', ?_, e2, e3, by rw [e4, hcat], e5, e6.trans (List.suffix_cons _ _),
          (by rw [hh] at e7; exact (List.prefix_append _ _).trans e7), by rw [e8, hout]⟩
        unfold Conn.fillHand
        rw [if_neg hle, h.noErr]
        simp only [hr, e1]

theorem sent_items_le (items : List (Bytes × Bytes)) : ∀ (c : Conn) (o o' : HalfConn) (typ : Byte) (v : Version) (tail : Bytes),
    Sent c o o' typ v items tail → items.length ≤ c.stream.length := by
  induction items with
  | nil => intro c o o' typ v tail _; simp
  | cons x items ih =>
    intro c o o' typ v tail h
    obtain ⟨iv, p⟩ := x
    obtain ⟨o1, body, rest, inp', hop, hl, hst, hnext⟩ := sent_step c o o' typ v iv p items tail h
    have := ih { c with inp := inp', stream := rest } o1 o' typ v tail (hnext _ rfl rfl rfl rfl)
    simp only [List.length_cons] at this ⊢
    omega

namespace Spec
/-- a handshake message: one byte type, three bytes length, at most 65536 bytes of body -/
def IsMessage (m : Bytes) : Prop := ∃ (t : Byte) (body : Bytes), m = t :: (beFixed 3 body.length ++ body) ∧ body.length ≤ 65536 ∧
  t ∈ ([0, 1, 2, 4, 11, 12, 13, 14, 15, 16, 20, 22, 67] : List Byte)
end Spec

theorem knownType_iff (t : Byte) : knownType t = true ↔ t ∈ ([0, 1, 2, 4, 11, 12, 13, 14, 15, 16, 20, 22, 67] : List Byte) := by
  unfold knownType
  simp only [List.contains_iff_mem, List.mem_cons, List.not_mem_nil, or_false]
  tauto

theorem message_head (m rest h1 h2 : Bytes) (hm : Spec.IsMessage m) (hcat : h1 ++ h2 = m ++ rest) (h4 : 4 ≤ h1.length) :
    4 + beNat ((h1.drop 1).take 3) = m.length ∧ knownType (m.getD 0 0) = true ∧ beNat ((h1.drop 1).take 3) ≤ 65536 := by
  obtain ⟨t, body, rfl, hb, ht⟩ := hm
  have e : h1.take 4 = t :: beFixed 3 body.length := by
    have : h1.take 4 = (h1 ++ h2).take 4 := by rw [List.take_append_of_le_length h4]
    rw [this, hcat]
    simp only [List.cons_append, List.take_succ_cons, List.append_assoc]
    rw [List.take_left' (beFixed_length _ _)]
  have e2 : (h1.drop 1).take 3 = beFixed 3 body.length := by
    have := congrArg (List.drop 1) e
    rw [List.drop_take] at this
    exact this
  rw [e2, beNat_beFixed_of_lt (by norm_num; omega)]
  refine ⟨?_, (knownType_iff t).2 ht, hb⟩
  simp only [List.length_cons, List.length_append, beFixed_length]; omega

/-- one message -/
theorem readHandshake_reads (parses : Bytes → Bool) (c : Conn) (o o' : HalfConn) (v : Version) (items : List (Bytes × Bytes)) (tail : Bytes)
    (h : Sent c o o' 22 v items tail) (hc : c.handshakeComplete = false) (m rest : Bytes) (hm : Spec.IsMessage m) (hp : parses m = true)
    (hcat : c.hand ++ payloads items = m ++ rest) :
    ∃ c' o1 items', c.readHandshake parses = .ok (.ok m, c') ∧ Sent c' o1 o' 22 v items' tail ∧ c'.handshakeComplete = false ∧
      c'.hand ++ payloads items' = rest ∧ items' <:+ items := by
  have hml : 4 ≤ m.length := by
    obtain ⟨t, body, rfl, _⟩ := hm
    simp only [List.length_cons, List.length_append, beFixed_length]; omega
  obtain ⟨c1, o1, items1, e1, e2, e3, e4, e5, e6, _⟩ := fillHand_reads items (c.stream.length + 1) 4 c o o' v tail h hc
    (by rw [hcat, List.length_append]; omega) (by have := sent_items_le items c o o' 22 v tail h; omega)
  obtain ⟨g1, g2, g3⟩ := message_head m rest c1.hand (payloads items1) hm (e4.trans hcat) e5
  obtain ⟨c2, o2, items2, k1, k2, k3, k4, k5, k6, k7, _⟩ := fillHand_reads items1 (c1.stream.length + 1) (4 + beNat ((c1.hand.drop 1).take 3)) c1 o1 o' v tail e2 e3
    (by rw [e4, hcat, List.length_append]; omega) (by have := sent_items_le items1 c1 o1 o' 22 v tail e2; omega)
  have hcat2 : c2.hand ++ payloads items2 = m ++ rest := by rw [k4, e4, hcat]
  rw [g1] at k1 k5
  have htake : c2.hand.take m.length = m := by
    have := congrArg (List.take m.length) hcat2
    rwa [List.take_append_of_le_length k5, List.take_left' rfl] at this
  have hdrop : c2.hand.drop m.length ++ payloads items2 = rest := by
    have := congrArg (List.drop m.length) hcat2
    rwa [List.drop_append_of_le_length k5, List.drop_left' rfl] at this
  refine ⟨{ c2 with hand := c2.hand.drop m.length }, o2, items2, ?_, ⟨k2.paired, k2.suite, k2.sizes, k2.noErr, k2.version, k2.bytes⟩, k3, hdrop, k6.trans e6⟩
  unfold Conn.readHandshake
  rw [e1]
  dsimp only
  rw [if_neg (by omega), g1, k1]
  dsimp only
  rw [htake, g2, hp]
  rfl

/-- read `n` handshake messages one after the other -/
def readMessages (parses : Bytes → Bool) : Nat → Conn → Res (Except String (List Bytes) × Conn)
  | 0, c => .ok (.ok [], c)
  | n + 1, c =>
    match c.readHandshake parses with
    | .ok (.ok m, c) =>
      match readMessages parses n c with
      | .ok (.ok ms, c) => .ok (.ok (m :: ms), c)
      | .ok (.error e, c) => .ok (.error e, c)
      | .err x => .err x
      | .panic => .panic
    | .ok (.error e, c) => .ok (.error e, c)
    | .err x => .err x
    | .panic => .panic

/-- C29: however the concatenation of the messages is cut into records (empty records, several messages in a record, a message over
many records), the reader returns exactly the messages, in order, and is left with exactly the bytes that follow them. -/
theorem C29_reassembly (parses : Bytes → Bool) (msgs : List Bytes) : ∀ (c : Conn) (o o' : HalfConn) (v : Version) (items : List (Bytes × Bytes))
    (tail rest : Bytes), Sent c o o' 22 v items tail → c.handshakeComplete = false → (∀ m ∈ msgs, Spec.IsMessage m ∧ parses m = true) →
    c.hand ++ payloads items = msgs.flatten ++ rest →
    ∃ c' o1 items', readMessages parses msgs.length c = .ok (.ok msgs, c') ∧ Sent c' o1 o' 22 v items' tail ∧ c'.hand ++ payloads items' = rest ∧ items' <:+ items := by
  induction msgs with
  | nil =>
    intro c o o' v items tail rest h hc _ hcat
    exact ⟨c, o, items, rfl, h, by simpa using hcat, List.suffix_refl _⟩
  | cons m msgs ih =>
    intro c o o' v items tail rest h hc hm hcat
    obtain ⟨h1, h2⟩ := hm m List.mem_cons_self
    obtain ⟨c1, o1, items1, e1, e2, e3, e4, e5⟩ := readHandshake_reads parses c o o' v items tail h hc m (msgs.flatten ++ rest) h1 h2
      (by rw [hcat]; simp)
    obtain ⟨c2, o2, items2, k1, k2, k3, k4⟩ := ih c1 o1 o' v items1 tail rest e2 e3 (fun m hm' => hm m (List.mem_cons_of_mem _ hm')) e4
    refine ⟨c2, o2, items2, ?_, k2, k3, k4.trans e5⟩
    rw [List.length_cons, readMessages, e1]
    dsimp only
    rw [k1]

/-- C29: two readers whose peers cut the same bytes in different ways (under different keys, versions or IVs) return the same messages. -/
theorem C29_fragmentation_independent (parses : Bytes → Bool) (msgs : List Bytes) (c d : Conn) (oc oc' od od' : HalfConn) (v w : Version)
    (items jtems : List (Bytes × Bytes)) (t u rest : Bytes) (hc : Sent c oc oc' 22 v items t) (hd : Sent d od od' 22 w jtems u)
    (hcc : c.handshakeComplete = false) (hdc : d.handshakeComplete = false) (hm : ∀ m ∈ msgs, Spec.IsMessage m ∧ parses m = true)
    (h1 : c.hand ++ payloads items = msgs.flatten ++ rest) (h2 : d.hand ++ payloads jtems = c.hand ++ payloads items) :
    ∃ c' d', readMessages parses msgs.length c = .ok (.ok msgs, c') ∧ readMessages parses msgs.length d = .ok (.ok msgs, d') := by
  obtain ⟨c', _, _, e, _⟩ := C29_reassembly parses msgs c oc oc' v items t rest hc hcc hm h1
  obtain ⟨d', _, _, e', _⟩ := C29_reassembly parses msgs d od od' w jtems u rest hd hdc hm (h2.trans h1)
  exact ⟨c', d', e, e'⟩

/-- C29: a message that announces more than 65536 bytes is refused as soon as its four header bytes are there, and the reading
half has failed. -/
theorem C29_oversize (parses : Bytes → Bool) (c : Conn) (ho : CanSend c.out) (h4 : 4 ≤ c.hand.length)
    (hbig : 65536 < beNat ((c.hand.drop 1).take 3)) :
    ∃ c', c.readHandshake parses = .ok (.error "tls: handshake message exceeds maximum", c') ∧
      c'.inp.err = some "tls: handshake message exceeds maximum" := by
  unfold Conn.readHandshake
  have e1 : Conn.fillHand (c.stream.length + 1) c 4 = .ok (none, c) := by
    unfold Conn.fillHand; rw [if_pos h4]
  rw [e1]
  dsimp only
  rw [if_pos hbig]
  obtain ⟨e, c', h, h1, _⟩ := failMsg_fails c 80 "tls: handshake message exceeds maximum" ho
  obtain ⟨h2, h3⟩ := failMsg_res h
  rw [h]
  exact ⟨c', rfl, h3⟩

/-! ### from writer to reader -/

/-- the version in the records a connection writes -/
def Conn.wireVersion (a : Conn) : Version := if a.vers = 0 then vTLS10 else a.vers

/-- what a sequence of successful writes put on the wire: `items` are the records' IVs and payloads -/
structure Emits (a : Conn) (typ : Byte) (items : List (Bytes × Bytes)) (a' : Conn) (w : Bytes) : Prop where
  sizes : ∀ x ∈ items, x.2.length ≤ 16384 ∧ 1 ≤ x.2.length ∧ IvOk a.out x.1
  sent : ∃ rs, sendAll a.out (items.map (fun x => ([typ, (a.wireVersion >>> 8).truncate 8, a.wireVersion.truncate 8], x.1, x.2))) = .ok (rs, a'.out) ∧
    w = rs.flatten
  emitted : a'.emitted = a.emitted ++ w
  suite : Spec.UsesSuite a'.out
  vers : a'.vers = a.vers
  buf : a'.buffering = false → a'.sendBuf = []
  shapeEq : shape a'.out.cipher = shape a.out.cipher
  versionEq : a'.out.version = a.out.version

theorem sendAll_shape (items : List (Bytes × Bytes × Bytes)) : ∀ (o o' : HalfConn) (rs : List Bytes), sendAll o items = .ok (rs, o') →
    shape o'.cipher = shape o.cipher ∧ o'.version = o.version := by
  induction items with
  | nil => intro o o' rs h; cases h; exact ⟨rfl, rfl⟩
  | cons x items ih =>
    intro o o' rs h
    obtain ⟨hdr, iv, data⟩ := x
    simp only [sendAll] at h
    cases hw : o.writeOne hdr iv data with
    | err x => rw [hw] at h; cases h
    | panic => rw [hw] at h; cases h
    | ok ro =>
      obtain ⟨r, o1⟩ := ro
      rw [hw] at h
      dsimp only at h
      cases hs2 : sendAll o1 items with
      | err x => rw [hs2] at h; cases h
      | panic => rw [hs2] at h; cases h
      | ok rs2 =>
        obtain ⟨rs', o2⟩ := rs2
        rw [hs2] at h
        obtain ⟨rfl, rfl⟩ := Prod.mk.inj (Res.ok.inj h)
        obtain ⟨k1, k2⟩ := ih _ _ _ hs2
        obtain ⟨s1, _, s3, _⟩ := writeOne_shape _ _ _ _ _ _ hw
        exact ⟨k1.trans s1, k2.trans s3⟩

theorem sendAll_append (xs ys : List (Bytes × Bytes × Bytes)) : ∀ (o o1 o2 : HalfConn) (rs qs : List Bytes), sendAll o xs = .ok (rs, o1) →
    sendAll o1 ys = .ok (qs, o2) → sendAll o (xs ++ ys) = .ok (rs ++ qs, o2) := by
  induction xs with
  | nil => intro o o1 o2 rs qs h1 h2; cases h1; exact h2
  | cons x xs ih =>
    intro o o1 o2 rs qs h1 h2
    obtain ⟨hdr, iv, data⟩ := x
    simp only [List.cons_append, sendAll] at h1 ⊢
    cases hw : o.writeOne hdr iv data with
    | err x => rw [hw] at h1; cases h1
    | panic => rw [hw] at h1; cases h1
    | ok ro =>
      obtain ⟨r, o3⟩ := ro
      rw [hw] at h1
      dsimp only at h1 ⊢
      cases hs2 : sendAll o3 xs with
      | err x => rw [hs2] at h1; cases h1
      | panic => rw [hs2] at h1; cases h1
      | ok rs2 =>
        obtain ⟨rs', o4⟩ := rs2
        rw [hs2] at h1
        obtain ⟨rfl, rfl⟩ := Prod.mk.inj (Res.ok.inj h1)
        rw [ih _ _ _ _ _ hs2 h2]
        rfl

theorem Emits.refl (a : Conn) (typ : Byte) (hu : Spec.UsesSuite a.out) (hb : a.buffering = false → a.sendBuf = []) : Emits a typ [] a [] :=
  ⟨fun x hx => absurd hx List.not_mem_nil, ⟨[], rfl, rfl⟩, by simp, hu, rfl, hb, rfl, rfl⟩

theorem Emits.trans {a b c : Conn} {typ : Byte} {xs ys : List (Bytes × Bytes)} {w u : Bytes} (h : Emits a typ xs b w) (k : Emits b typ ys c u) :
    Emits a typ (xs ++ ys) c (w ++ u) := by
  obtain ⟨rs, h1, rfl⟩ := h.sent
  obtain ⟨qs, k1, rfl⟩ := k.sent
  have hv : b.wireVersion = a.wireVersion := by unfold Conn.wireVersion; rw [h.vers]
  rw [hv] at k1
  refine ⟨?_, ⟨rs ++ qs, ?_, by simp⟩, by rw [k.emitted, h.emitted, List.append_assoc], k.suite, k.vers.trans h.vers, k.buf,
    k.shapeEq.trans h.shapeEq, k.versionEq.trans h.versionEq⟩
  · intro x hx
    rcases List.mem_append.1 hx with hx | hx
    · exact h.sizes x hx
    · obtain ⟨p, q, r⟩ := k.sizes x hx
      refine ⟨p, q, fun bs hbs hex => r bs (by rw [h.shapeEq, hbs]) (by rw [h.versionEq, hex])⟩
  · rw [List.map_append]
    exact sendAll_append _ _ _ _ _ _ _ h1 k1

/-- one successful `writeRecord` -/
theorem writeRecord_emits (a : Conn) (typ : Byte) (data : Bytes) (n : Nat) (a' : Conn) (hu : Spec.UsesSuite a.out)
    (hsb : a.buffering = false → a.sendBuf = []) (htyp : typ ≠ typCCS) (h : a.writeRecord typ data = .ok (n, none, a')) :
    n = data.length ∧ ∃ items w, payloads items = data ∧ Emits a typ items a' w := by
  unfold Conn.writeRecord at h
  cases hw : Conn.writeLoop data.length a typ data 0 with
  | err x => rw [hw] at h; cases h
  | panic => rw [hw] at h; cases h
  | ok r =>
    obtain ⟨k, er, c2⟩ := r
    rw [hw] at h
    cases er with
    | some e => simp only at h; cases (Prod.mk.inj (Prod.mk.inj (Res.ok.inj h)).2).1
    | none =>
      simp only at h
      rw [if_neg htyp] at h
      simp only [Res.ok.injEq, Prod.mk.injEq, true_and] at h
      obtain ⟨rfl, rfl⟩ := h
      obtain ⟨hn, items, rs, i1, i2, i3, i4, i5, i6, i7, i8⟩ := writeLoop_spec _ _ _ _ _ _ _ hu hsb hw
      have hmap : (items.map (fun x => (x.2.1, x.2.2))).map (fun x => ([typ, (a.wireVersion >>> 8).truncate 8, a.wireVersion.truncate 8], x.1, x.2)) = items := by
        rw [List.map_map]
        conv => rhs; rw [← List.map_id items]
        apply List.map_congr_left
        intro x hx
        have := (i2 x hx).1
        simp only [Function.comp, id]
        rw [show ([typ, (a.wireVersion >>> 8).truncate 8, a.wireVersion.truncate 8] : Bytes) = x.1 from this.symm]
      obtain ⟨s1, s2⟩ := sendAll_shape _ _ _ _ i3
      refine ⟨by omega, items.map (fun x => (x.2.1, x.2.2)), rs.flatten, ?_, ?_, ⟨rs, ?_, rfl⟩, i4, i5, i6, i8, s1, s2⟩
      · unfold payloads
        rw [List.map_map]
        exact i1
      · intro x hx
        obtain ⟨y, hy, rfl⟩ := List.mem_map.1 hx
        obtain ⟨_, y1, y2, y3⟩ := i2 y hy
        exact ⟨y2, y1, y3⟩
      · rw [hmap]; exact i3

/-- a reader on the other end of the wire -/
theorem emits_sent (a a' b : Conn) (typ : Byte) (items : List (Bytes × Bytes)) (w tail : Bytes) (h : Emits a typ items a' w) (hu : Spec.UsesSuite a.out)
    (hp : Paired a.out b.inp) (he : b.inp.err = none) (hv : b.haveVers = true → b.vers = a.wireVersion) (hv' : b.haveVers = false → a.wireVersion.toNat < 0x1000)
    (hs : b.stream = w ++ tail) : Sent b a.out a'.out typ a.wireVersion items tail := by
  obtain ⟨rs, h1, rfl⟩ := h.sent
  exact ⟨hp, hu, fun x hx => ⟨(h.sizes x hx).1, (h.sizes x hx).2.2⟩, he, ⟨fun hh => (hv hh).symm, hv'⟩, rs, h1, hs⟩

/-- write each of `msgs` in order (one `writeRecord` per message, as the handshake code does) -/
def writeAll (typ : Byte) : List Bytes → Conn → Res (Option String × Conn)
  | [], a => .ok (none, a)
  | m :: ms, a =>
    match a.writeRecord typ m with
    | .ok (_, none, a) => writeAll typ ms a
    | .ok (_, some e, a) => .ok (some e, a)
    | .err x => .err x
    | .panic => .panic

theorem writeAll_emits (typ : Byte) (htyp : typ ≠ typCCS) (msgs : List Bytes) : ∀ (a a' : Conn), Spec.UsesSuite a.out →
    (a.buffering = false → a.sendBuf = []) → writeAll typ msgs a = .ok (none, a') →
    ∃ items w, payloads items = msgs.flatten ∧ Emits a typ items a' w := by
  induction msgs with
  | nil =>
    intro a a' hu hsb h
    cases h
    exact ⟨[], [], rfl, .refl a typ hu hsb⟩
  | cons m ms ih =>
    intro a a' hu hsb h
    unfold writeAll at h
    split at h
    · rename_i n a1 hw
      obtain ⟨_, items, w, h1, h2⟩ := writeRecord_emits a typ m n a1 hu hsb htyp hw
      obtain ⟨jtems, u, k1, k2⟩ := ih a1 a' h2.suite h2.buf h
      refine ⟨items ++ jtems, w ++ u, ?_, h2.trans k2⟩
      unfold payloads at h1 k1 ⊢
      rw [List.map_append, List.flatten_append, h1, k1, List.flatten_cons]
    · cases (Prod.mk.inj (Res.ok.inj h)).1
    · cases h
    · cases h

/-- C78, handshake messages: one side writes any handshake messages without error; the other side, holding the matching keys, reads
the bytes put on the wire: it gets exactly those messages in order, nothing more, and both sides are again in step. -/
theorem C78_handshake_delivery (parses : Bytes → Bool) (msgs : List Bytes) (a a' b : Conn) (w tail : Bytes)
    (hw : writeAll 22 msgs a = .ok (none, a')) (hwire : a'.emitted = a.emitted ++ w) (hs : b.stream = w ++ tail)
    (hm : ∀ m ∈ msgs, Spec.IsMessage m ∧ parses m = true)
    (hu : Spec.UsesSuite a.out) (hsb : a.buffering = false → a.sendBuf = []) (hp : Paired a.out b.inp)
    (he : b.inp.err = none) (hc : b.handshakeComplete = false) (hh : b.hand = [])
    (hv : b.haveVers = true → b.vers = a.wireVersion) (hv' : b.haveVers = false → a.wireVersion.toNat < 0x1000) :
    ∃ b', readMessages parses msgs.length b = .ok (.ok msgs, b') ∧ b'.hand = [] ∧ b'.stream = tail ∧ Paired a'.out b'.inp := by
  obtain ⟨items, u, hpay, hem⟩ := writeAll_emits 22 (by decide) msgs a a' hu hsb hw
  have huw : u = w := by
    have := hem.emitted.symm.trans hwire
    exact List.append_cancel_left this
  subst huw
  have hS := emits_sent a a' b 22 items u tail hem hu hp he hv hv' hs
  obtain ⟨b', o1, items', r1, r2, r3, r4⟩ := C29_reassembly parses msgs b a.out a'.out a.wireVersion items tail [] hS hc hm (by rw [hh, hpay]; simp)
  obtain ⟨hn1, hn2⟩ := List.append_eq_nil_iff.1 r3
  have hnil : items' = [] := by
    cases items' with
    | nil => rfl
    | cons x xs =>
      exfalso
      have hx := (hem.sizes x (r4.subset List.mem_cons_self)).2.1
      simp only [payloads, List.map_cons, List.flatten_cons, List.append_eq_nil_iff] at hn2
      rw [hn2.1] at hx
      simp at hx
  subst hnil
  obtain ⟨rs, q1, q2⟩ := r2.bytes
  simp only [List.map_nil, sendAll, Res.ok.injEq, Prod.mk.injEq] at q1
  obtain ⟨rfl, rfl⟩ := q1
  exact ⟨b', r1, hn1, by simpa using q2, r2.paired⟩

/-! ### application data -/

theorem readRecord_app (c : Conn) (o o' : HalfConn) (v : Version) (iv p : Bytes) (items : List (Bytes × Bytes)) (tail : Bytes)
    (h : Sent c o o' 23 v ((iv, p) :: items) tail) (hc : c.handshakeComplete = true) :
    ∃ c' o1, c.readRecord typAppData = .ok (none, c') ∧ Sent c' o1 o' 23 v items tail ∧ c'.hand = c.hand ∧ c'.input = some p ∧
      c'.handshakeComplete = true := by
  obtain ⟨o1, body, rest, inp', hop, hl, hst, hnext⟩ := sent_step c o o' 23 v iv p items tail h
  have hro := readOnce_opens c typAppData 23 v body rest p inp' hop (fun hf => ⟨.inr rfl, h.version.2 hf⟩) (by decide)
  have herr : inp'.err = none := by
    rw [(decrypt_nextCipher _ _ _ _ hop.opened).2.2.1]; exact h.noErr
  unfold Conn.processRecord at hro
  rw [if_neg (by omega)] at hro
  generalize hc1 : (if (23 : Byte) ≠ typAlert ∧ p.length > 0 then
      ({ c with stream := rest, inp := inp', warnCount := 0 } : Conn) else { c with stream := rest, inp := inp' }) = c1 at hro
  have f : c1.hand = c.hand ∧ c1.inp = inp' ∧ c1.stream = rest ∧ c1.haveVers = c.haveVers ∧ c1.vers = c.vers ∧
      c1.handshakeComplete = c.handshakeComplete := by
    rw [← hc1]; split <;> exact ⟨rfl, rfl, rfl, rfl, rfl, rfl⟩
  obtain ⟨f2, f3, f4, f5, f6, f7⟩ := f
  dsimp only at hro
  rw [if_neg (by decide), if_neg (by decide), if_pos (by decide), if_neg (by rintro hx; exact hx (by decide)), f3, herr] at hro
  refine ⟨{ c1 with input := some p }, o1, ?_, hnext _ f3 f4 f5 f6, f2, rfl, by simp only [f7, hc]⟩
  unfold Conn.readRecord
  rw [if_neg (by decide), if_pos rfl, if_neg (by simp [hc])]
  unfold Conn.readLoop
  rw [hro]
  simp only [f3, herr]

/-- the application data the reader has not returned yet -/
def pending (c : Conn) (items : List (Bytes × Bytes)) : Bytes := c.input.getD [] ++ payloads items

/-- a reader with application data on the way -/
structure DataSent (c : Conn) (o o' : HalfConn) (v : Version) (items : List (Bytes × Bytes)) (tail : Bytes) : Prop where
  sent : Sent c o o' 23 v items tail
  complete : c.handshakeComplete = true
  hand : c.hand = []
  nonempty : ∀ x ∈ items, 1 ≤ x.2.length
  input : ∀ d, c.input = some d → d ≠ []

theorem fillInput_reads (reneg : Conn → Res (Option String × Conn)) (c : Conn) (o o' : HalfConn) (v : Version) (items : List (Bytes × Bytes)) (tail : Bytes)
    (h : DataSent c o o' v items tail) (hp : pending c items ≠ []) :
    ∃ c' o1 items' d, Conn.fillInput reneg (c.stream.length + 1) c = .ok (none, c') ∧ DataSent c' o1 o' v items' tail ∧ c'.input = some d ∧
      pending c' items' = pending c items ∧ items' <:+ items := by
  cases hi : c.input with
  | some d =>
    refine ⟨c, o, items, d, ?_, h, hi, rfl, List.suffix_refl _⟩
    unfold Conn.fillInput
    rw [if_pos (by rw [hi]; rfl)]
  | none =>
    cases items with
    | nil => exfalso; apply hp; simp [pending, hi, payloads]
    | cons x items =>
      obtain ⟨iv, p⟩ := x
      obtain ⟨c1, o1, r1, r2, r3, r4, r5⟩ := readRecord_app c o o' v iv p items tail h.sent h.complete
      have hne := h.nonempty (iv, p) List.mem_cons_self
      refine ⟨c1, o1, items, p, ?_, ⟨r2, r5, by rw [r3, h.hand], fun x hx => h.nonempty x (List.mem_cons_of_mem _ hx), ?_⟩, r4, ?_, List.suffix_cons _ _⟩
      · unfold Conn.fillInput
        rw [if_neg (by rw [hi, h.sent.noErr]; simp)]
        simp only [r1]
        rw [if_neg (by rw [r3, h.hand]; simp)]
        have hlen := sent_items_le _ c o o' 23 v tail h.sent
        rw [List.length_cons] at hlen
        obtain ⟨k, hk⟩ : ∃ k, c.stream.length = k + 1 := ⟨c.stream.length - 1, by omega⟩
        rw [hk]
        unfold Conn.fillInput
        rw [if_pos (by rw [r4]; rfl)]
      · intro d hd
        rw [r4] at hd
        cases hd
        intro hx; rw [hx] at hne; simp at hne
      · simp [pending, hi, r4, payloads]

/-- one `Read`: it returns at least one byte of what is pending, and no error -/
theorem readApp_reads (reneg : Conn → Res (Option String × Conn)) (peek : Bool) (c : Conn) (o o' : HalfConn) (v : Version) (items : List (Bytes × Bytes)) (tail : Bytes)
    (h : DataSent c o o' v items tail) (hp : pending c items ≠ []) (cap : Nat) (hcap : 0 < cap) (htail : tail.head? ≠ some 21) :
    ∃ got c' o1 items', c.readApp reneg peek cap = .ok (got, none, c') ∧ DataSent c' o1 o' v items' tail ∧ 1 ≤ got.length ∧ got.length ≤ cap ∧
      got ++ pending c' items' = pending c items ∧ items' <:+ items := by
  obtain ⟨c1, o1, items1, d, e1, e2, e3, e4, e5⟩ := fillInput_reads reneg c o o' v items tail h hp
  have hd := e2.input d e3
  have hdl : 1 ≤ d.length := by
    rcases d with _ | ⟨x, d⟩
    · exact absurd rfl hd
    · simp
  unfold Conn.readApp
  rw [if_neg (by omega)]
  unfold Conn.readPass
  rw [e1]
  dsimp only
  rw [e2.sent.noErr]
  dsimp only
  rw [e3]
  simp only [Option.getD_some]
  generalize hc2 : ({ c1 with input := if (d.drop cap).length = 0 then none else some (d.drop cap) } : Conn) = c2
  have f : c2.inp = c1.inp ∧ c2.stream = c1.stream ∧ c2.haveVers = c1.haveVers ∧ c2.vers = c1.vers ∧ c2.handshakeComplete = c1.handshakeComplete ∧
      c2.hand = c1.hand ∧ c2.input = if (d.drop cap).length = 0 then none else some (d.drop cap) := by
    rw [← hc2]; exact ⟨rfl, rfl, rfl, rfl, rfl, rfl, rfl⟩
  obtain ⟨f1, f2, f3, f4, f5, f6, f7⟩ := f
  have hsent : DataSent c2 o1 o' v items1 tail := by
    refine ⟨⟨by rw [f1]; exact e2.sent.paired, e2.sent.suite, e2.sent.sizes, by rw [f1]; exact e2.sent.noErr, by rw [f3, f4]; exact e2.sent.version,
      by rw [f2]; exact e2.sent.bytes⟩, by rw [f5]; exact e2.complete, by rw [f6]; exact e2.hand, e2.nonempty, ?_⟩
    intro x hx
    rw [f7] at hx
    split at hx
    · cases hx
    · rename_i hne
      cases hx
      intro hn
      rw [hn] at hne
      simp at hne
  have hpend : pending c2 items1 = d.drop cap ++ payloads items1 := by
    unfold pending
    rw [f7]
    split
    · rename_i h0
      rw [List.eq_nil_of_length_eq_zero h0]; rfl
    · rfl
  have hgot : 1 ≤ (d.take cap).length := by rw [List.length_take]; omega
  have hnopeek : (peek && decide ((d.take cap).length ≠ 0) && c2.input.isNone && decide (0 < c2.stream.length) && (c2.stream.getD 0 0 == typAlert)) = false := by
    have : c2.stream.head? ≠ some 21 := by
      rw [f2]
      obtain ⟨rs, q1, q2⟩ := e2.sent.bytes
      cases items1 with
      | nil =>
        simp only [List.map_nil, sendAll, Res.ok.injEq, Prod.mk.injEq] at q1
        rw [q2, ← q1.1]
        simpa using htail
      | cons x xs =>
        obtain ⟨_, _, _, _, hop, _⟩ := sent_step c1 o1 o' 23 v x.1 x.2 xs tail e2.sent
        rw [hop.stream]
        intro hx
        have : (23 : Byte) = 21 := Option.some.inj hx
        exact absurd this (by decide)
    cases hst : c2.stream with
    | nil => simp
    | cons y ys =>
      rw [hst] at this
      have hy : ¬ y = 21 := fun hy => this (by rw [hy]; rfl)
      simp only [List.getD_cons_zero, Bool.and_eq_false_iff]
      right
      simpa [typAlert] using hy
  rw [f2, f7] at hnopeek
  rw [if_neg (by rw [hnopeek]; simp), if_pos (by omega)]
  refine ⟨d.take cap, c2, o1, items1, rfl, hsent, hgot, by rw [List.length_take]; omega, ?_, e5⟩
  rw [hpend, ← List.append_assoc, List.take_append_drop, ← e4]
  simp [pending, e3]

/-- repeated `Read`s, with whatever buffer sizes, until `n` bytes have arrived (`io.ReadFull`) -/
def readFull (reneg : Conn → Res (Option String × Conn)) (peek : Bool) (buf : Nat → Nat) : Nat → Nat → Conn → Res (Bytes × Option String × Conn)
  | _, 0, c => .ok ([], none, c)
  | 0, _ + 1, c => .ok ([], some "no progress", c)
  | fuel + 1, n + 1, c =>
    match c.readApp reneg peek (min (buf fuel + 1) (n + 1)) with
    | .ok (got, none, c) =>
      match readFull reneg peek buf fuel (n + 1 - got.length) c with
      | .ok (more, e, c) => .ok (got ++ more, e, c)
      | .err x => .err x
      | .panic => .panic
    | .ok (got, some e, c) => .ok (got, some e, c)
    | .err x => .err x
    | .panic => .panic

theorem readFull_reads (reneg : Conn → Res (Option String × Conn)) (peek : Bool) (buf : Nat → Nat) (fuel : Nat) :
    ∀ (n : Nat) (c : Conn) (o o' : HalfConn) (v : Version) (items : List (Bytes × Bytes)) (tail : Bytes),
    DataSent c o o' v items tail → tail.head? ≠ some 21 → n ≤ (pending c items).length → n ≤ fuel →
    ∃ got c' o1 items', readFull reneg peek buf fuel n c = .ok (got, none, c') ∧ DataSent c' o1 o' v items' tail ∧ got.length = n ∧
      got ++ pending c' items' = pending c items ∧ items' <:+ items := by
  induction fuel with
  | zero =>
    intro n c o o' v items tail h _ _ hf
    obtain rfl : n = 0 := by omega
    exact ⟨[], c, o, items, rfl, h, rfl, rfl, List.suffix_refl _⟩
  | succ fuel ih =>
    intro n c o o' v items tail h ht hn hf
    cases n with
    | zero => exact ⟨[], c, o, items, rfl, h, rfl, rfl, List.suffix_refl _⟩
    | succ n =>
      obtain ⟨got, c1, o1, items1, e1, e2, e3, e4, e5, e6⟩ := readApp_reads reneg peek c o o' v items tail h
        (by intro hx; rw [hx] at hn; simp at hn) (min (buf fuel + 1) (n + 1)) (by omega) ht
      have hlen := congrArg List.length e5
      rw [List.length_append] at hlen
      obtain ⟨more, c2, o2, items2, k1, k2, k3, k4, k5⟩ := ih (n + 1 - got.length) c1 o1 o' v items1 tail e2 ht (by omega) (by omega)
      refine ⟨got ++ more, c2, o2, items2, ?_, k2, by rw [List.length_append, k3]; omega, by rw [List.append_assoc, k4, e5], k5.trans e6⟩
      unfold readFull
      simp only [e1, k1]

theorem sendAll_err (items : List (Bytes × Bytes × Bytes)) : ∀ (o o' : HalfConn) (rs : List Bytes), sendAll o items = .ok (rs, o') → o'.err = o.err := by
  induction items with
  | nil => intro o o' rs h; cases h; rfl
  | cons x items ih =>
    intro o o' rs h
    obtain ⟨hdr, iv, data⟩ := x
    simp only [sendAll] at h
    cases hw : o.writeOne hdr iv data with
    | err x => rw [hw] at h; cases h
    | panic => rw [hw] at h; cases h
    | ok ro =>
      obtain ⟨r, o1⟩ := ro
      rw [hw] at h
      dsimp only at h
      cases hs2 : sendAll o1 items with
      | err x => rw [hs2] at h; cases h
      | panic => rw [hs2] at h; cases h
      | ok rs2 =>
        obtain ⟨rs', o2⟩ := rs2
        rw [hs2] at h
        obtain ⟨rfl, rfl⟩ := Prod.mk.inj (Res.ok.inj h)
        exact (ih _ _ _ hs2).trans (writeOne_shape _ _ _ _ _ _ hw).2.2.2.1

/-- one successful `Write` -/
theorem writeApp_emits (a : Conn) (b : Bytes) (n : Nat) (a' : Conn) (hu : Spec.UsesSuite a.out)
    (hsb : a.buffering = false → a.sendBuf = []) (h : a.writeApp b = .ok (n, none, a')) :
    n = b.length ∧ ∃ items w, payloads items = b ∧ Emits a 23 items a' w := by
  unfold Conn.writeApp at h
  split at h
  · cases (Prod.mk.inj (Prod.mk.inj (Res.ok.inj h)).2).1
  · rename_i herr
    split at h
    · cases (Prod.mk.inj (Prod.mk.inj (Res.ok.inj h)).2).1
    · split at h
      · cases (Prod.mk.inj (Prod.mk.inj (Res.ok.inj h)).2).1
      · have first : ∀ (m : Nat) (c1 : Conn), (if a.splits b = true then a.writeRecord typAppData (b.take 1) else .ok (0, none, a)) = .ok (m, none, c1) →
            m ≤ b.length ∧ ∃ items w, payloads items = b.take m ∧ Emits a 23 items c1 w := by
          intro m c1 hf
          split at hf
          · rename_i hsp
            have h1 : 1 < b.length := by
              unfold Conn.splits at hsp
              simp only [Bool.and_eq_true, decide_eq_true_eq] at hsp
              exact hsp.1.1.1
            obtain ⟨hm, items, w, k1, k2⟩ := writeRecord_emits a typAppData (b.take 1) m c1 hu hsb (by decide) hf
            have hm1 : m = 1 := by rw [hm, List.length_take]; omega
            exact ⟨by omega, items, w, by rw [k1, hm1], k2⟩
          · simp only [Res.ok.injEq, Prod.mk.injEq, true_and] at hf
            obtain ⟨rfl, rfl⟩ := hf
            exact ⟨by omega, [], [], rfl, .refl a 23 hu hsb⟩
        dsimp only at h
        split at h
        · cases (Prod.mk.inj (Prod.mk.inj (Res.ok.inj h)).2).1
        · rename_i m c1 hf
          obtain ⟨hm, items, w, k1, k2⟩ := first m c1 hf
          split at h
          · rename_i n2 e2 c2 hw
            simp only [Res.ok.injEq, Prod.mk.injEq] at h
            obtain ⟨rfl, rfl, h⟩ := h
            obtain ⟨hn2, items2, w2, q1, q2⟩ := writeRecord_emits c1 typAppData (b.drop m) n2 c2 k2.suite k2.buf (by decide) hw
            have t := k2.trans q2
            have herr2 : ∃ rs, sendAll a.out ((items ++ items2).map (fun x => (([23, (a.wireVersion >>> 8).truncate 8, a.wireVersion.truncate 8] : Bytes), x.1, x.2))) = .ok (rs, a'.out) ∧
                w ++ w2 = rs.flatten := by
              obtain ⟨rs, t1, t2⟩ := t.sent
              refine ⟨rs, ?_, t2⟩
              rw [t1, ← h]
              have : c2.out.err = none := by
                rw [sendAll_err _ _ _ _ t1, herr]
              congr 2
              simp only
              rw [← this]
            refine ⟨by rw [hn2, List.length_drop]; omega, items ++ items2, w ++ w2, ?_, ⟨t.sizes, herr2, ?_, ?_, ?_, ?_, ?_, ?_⟩⟩
            · unfold payloads at k1 q1 ⊢
              rw [List.map_append, List.flatten_append, k1, q1, List.take_append_drop]
            · rw [← h]; exact t.emitted
            · rw [← h]; exact t.suite
            · rw [← h]; exact t.vers
            · rw [← h]; exact t.buf
            · rw [← h]; exact t.shapeEq
            · rw [← h]; exact t.versionEq
          · cases h
          · cases h
        · cases h
        · cases h

/-- write each of `datas` with `Write` -/
def writeDatas : List Bytes → Conn → Res (Option String × Conn)
  | [], a => .ok (none, a)
  | m :: ms, a =>
    match a.writeApp m with
    | .ok (_, none, a) => writeDatas ms a
    | .ok (_, some e, a) => .ok (some e, a)
    | .err x => .err x
    | .panic => .panic

theorem writeDatas_emits (datas : List Bytes) : ∀ (a a' : Conn), Spec.UsesSuite a.out →
    (a.buffering = false → a.sendBuf = []) → writeDatas datas a = .ok (none, a') →
    ∃ items w, payloads items = datas.flatten ∧ Emits a 23 items a' w := by
  induction datas with
  | nil =>
    intro a a' hu hsb h
    cases h
    exact ⟨[], [], rfl, .refl a 23 hu hsb⟩
  | cons m ms ih =>
    intro a a' hu hsb h
    unfold writeDatas at h
    split at h
    · rename_i n a1 hw
      obtain ⟨_, items, w, h1, h2⟩ := writeApp_emits a m n a1 hu hsb hw
      obtain ⟨jtems, u, k1, k2⟩ := ih a1 a' h2.suite h2.buf h
      refine ⟨items ++ jtems, w ++ u, ?_, h2.trans k2⟩
      unfold payloads at h1 k1 ⊢
      rw [List.map_append, List.flatten_append, h1, k1, List.flatten_cons]
    · cases (Prod.mk.inj (Res.ok.inj h)).1
    · cases h
    · cases h

/-- C28 for `Write`, including the split of the first byte: when `Write` reports no error it reports `len(b)`, and the records put on the
wire carry nonempty payloads of at most 16384 bytes whose concatenation is `b`. -/
theorem C28_write (a : Conn) (b : Bytes) (n : Nat) (a' : Conn) (hu : Spec.UsesSuite a.out)
    (hsb : a.buffering = false → a.sendBuf = []) (h : a.writeApp b = .ok (n, none, a')) :
    n = b.length ∧ ∃ (items : List (Bytes × Bytes)) (rs : List Bytes), (items.map (·.2)).flatten = b ∧
      (∀ x ∈ items, 1 ≤ x.2.length ∧ x.2.length ≤ 16384) ∧
      sendAll a.out (items.map (fun x => ([23, (a.wireVersion >>> 8).truncate 8, a.wireVersion.truncate 8], x.1, x.2))) = .ok (rs, a'.out) ∧
      a'.emitted = a.emitted ++ rs.flatten := by
  obtain ⟨hn, items, w, h1, h2⟩ := writeApp_emits a b n a' hu hsb h
  obtain ⟨rs, h3, rfl⟩ := h2.sent
  exact ⟨hn, items, rs, h1, fun x hx => ⟨(h2.sizes x hx).2.1, (h2.sizes x hx).1⟩, h3, h2.emitted⟩

/-- C78, application data: one side calls `Write` any number of times without error; the other side, holding the matching keys, reads with
buffers of any sizes until as many bytes have arrived as were written: it gets exactly the bytes written, no error, and both sides
are again in step. -/
theorem C78_data_delivery (reneg : Conn → Res (Option String × Conn)) (peek : Bool) (buf : Nat → Nat) (datas : List Bytes) (a a' b : Conn) (w tail : Bytes)
    (hw : writeDatas datas a = .ok (none, a')) (hwire : a'.emitted = a.emitted ++ w) (hs : b.stream = w ++ tail) (ht : tail.head? ≠ some 21)
    (hu : Spec.UsesSuite a.out) (hsb : a.buffering = false → a.sendBuf = []) (hp : Paired a.out b.inp)
    (he : b.inp.err = none) (hc : b.handshakeComplete = true) (hh : b.hand = []) (hi : b.input = none)
    (hv : b.haveVers = true → b.vers = a.wireVersion) (hv' : b.haveVers = false → a.wireVersion.toNat < 0x1000) :
    ∃ b', readFull reneg peek buf datas.flatten.length datas.flatten.length b = .ok (datas.flatten, none, b') ∧ b'.input = none ∧ b'.stream = tail ∧
      Paired a'.out b'.inp := by
  obtain ⟨items, u, hpay, hem⟩ := writeDatas_emits datas a a' hu hsb hw
  have huw : u = w := List.append_cancel_left (hem.emitted.symm.trans hwire)
  subst huw
  have hS := emits_sent a a' b 23 items u tail hem hu hp he hv hv' hs
  have hD : DataSent b a.out a'.out a.wireVersion items tail :=
    ⟨hS, hc, hh, fun x hx => (hem.sizes x hx).2.1, fun d hd => by rw [hi] at hd; cases hd⟩
  have hpend : pending b items = datas.flatten := by simp [pending, hi, hpay]
  obtain ⟨got, b', o1, items', r1, r2, r3, r4, r5⟩ := readFull_reads reneg peek buf datas.flatten.length datas.flatten.length b a.out a'.out a.wireVersion items tail
    hD ht (by rw [hpend]) (Nat.le_refl _)
  rw [hpend] at r4
  have hrest : pending b' items' = [] := by
    have := congrArg List.length r4
    rw [List.length_append, r3] at this
    exact List.eq_nil_of_length_eq_zero (by omega)
  rw [hrest, List.append_nil] at r4
  subst r4
  unfold pending at hrest
  obtain ⟨hn1, hn2⟩ := List.append_eq_nil_iff.1 hrest
  have hnil : items' = [] := by
    cases items' with
    | nil => rfl
    | cons x xs =>
      exfalso
      have hx := r2.nonempty x List.mem_cons_self
      simp only [payloads, List.map_cons, List.flatten_cons, List.append_eq_nil_iff] at hn2
      rw [hn2.1] at hx
      simp at hx
  subst hnil
  obtain ⟨rs, q1, q2⟩ := r2.sent.bytes
  simp only [List.map_nil, sendAll, Res.ok.injEq, Prod.mk.injEq] at q1
  obtain ⟨rfl, rfl⟩ := q1
  refine ⟨b', r1, ?_, by simpa using q2, r2.sent.paired⟩
  cases hin : b'.input with
  | none => rfl
  | some d =>
    rw [hin] at hn1
    exact absurd hn1 (r2.input d hin)

end Verif.Tls
