import Verif.Tls.WriteProps
/-!
C30: what the record reader accepts and rejects.
-/
namespace Verif.Tls
open Verif Verif.Std

/-! ### sending an alert always returns -/

/-- the sending half is the initial one or one of a suite of the tables, and its sequence number is not exhausted -/
structure CanSend (hc : HalfConn) : Prop where
  suite : Spec.UsesSuite hc
  seq8 : hc.seq.length = 8
  room : beNat hc.seq + 1 < 2 ^ 64

theorem usesSuite_cbc (hc : HalfConn) (hu : Spec.UsesSuite hc) (bs : Nat) (h : shape hc.cipher = .cbc bs) : bs = 8 ∨ bs = 16 := by
  rcases hu with ⟨h1, _⟩ | ⟨s, _, hs, _⟩
  · rw [h1] at h; cases h
  · rw [h] at hs
    cases hk : s.cipher <;> rw [hk] at hs <;> simp only [Spec.cipherShape, Shape.cbc.injEq, reduceCtorEq] at hs
    · exact .inl hs
    · exact .inr hs
    · exact .inr hs

theorem sealPayload_total (hc : HalfConn) (b : Bytes) (e : Nat) (hb : ∀ bs, shape hc.cipher = .cbc bs → 0 < bs) :
    ∃ r c, hc.sealPayload b e = .ok (r, c) := by
  unfold HalfConn.sealPayload
  cases hca : hc.cipher with
  | none => exact ⟨_, _, rfl⟩
  | some cc =>
    cases cc with
    | stream ks pos => exact ⟨_, _, rfl⟩
    | aead a => exact ⟨_, _, rfl⟩
    | cbc bs dec f iv =>
      have h0 := hb bs (by rw [hca]; rfl)
      obtain ⟨p1, p2, _⟩ := padToBlockSize_spec (b.drop (5 + e)) bs h0
      simp only
      unfold cryptBlocks
      rw [if_neg (by simpa using p1)]
      simp only
      rw [if_neg (by rw [p2]; simp)]
      exact ⟨_, _, rfl⟩

theorem writeOne_total (hc : HalfConn) (hs : CanSend hc) (hdr iv data : Bytes) : ∃ r hc', hc.writeOne hdr iv data = .ok (r, hc') := by
  rw [writeOne_eq]
  unfold HalfConn.encrypt
  obtain ⟨r, c, h⟩ := sealPayload_total hc (hc.appendMac (hdr ++ len16 data.length ++ hc.evOf iv ++ data) hc.writeIVLen) hc.writeIVLen
    (fun bs h => by rcases usesSuite_cbc hc hs.suite bs h with rfl | rfl <;> omega)
  rw [h]
  simp only
  rw [incSeq_eq { hc with cipher := c } hs.seq8, if_pos hs.room]
  exact ⟨_, _, rfl⟩

/-- what sending an alert can change: the sending half, the transport, the counters, the randomness -/
structure SameReader (c c' : Conn) : Prop where
  inp : c'.inp = c.inp
  stream : c'.stream = c.stream
  streamErr : c'.streamErr = c.streamErr
  hand : c'.hand = c.hand
  input : c'.input = c.input
  vers : c'.vers = c.vers
  haveVers : c'.haveVers = c.haveVers
  isClient : c'.isClient = c.isClient
  renegotiation : c'.renegotiation = c.renegotiation
  handshakeComplete : c'.handshakeComplete = c.handshakeComplete
  warnCount : c'.warnCount = c.warnCount

theorem SameReader.refl (c : Conn) : SameReader c c := ⟨rfl, rfl, rfl, rfl, rfl, rfl, rfl, rfl, rfl, rfl, rfl⟩

theorem SameReader.trans {a b c : Conn} (h : SameReader a b) (k : SameReader b c) : SameReader a c :=
  ⟨k.inp.trans h.inp, k.stream.trans h.stream, k.streamErr.trans h.streamErr, k.hand.trans h.hand, k.input.trans h.input, k.vers.trans h.vers,
    k.haveVers.trans h.haveVers, k.isClient.trans h.isClient, k.renegotiation.trans h.renegotiation,
    k.handshakeComplete.trans h.handshakeComplete, k.warnCount.trans h.warnCount⟩

theorem write_same (c : Conn) (b : Bytes) : SameReader c (c.write b).2 := by
  unfold Conn.write Conn.netWrite
  split
  · exact ⟨rfl, rfl, rfl, rfl, rfl, rfl, rfl, rfl, rfl, rfl, rfl⟩
  · split <;> exact ⟨rfl, rfl, rfl, rfl, rfl, rfl, rfl, rfl, rfl, rfl, rfl⟩

theorem writeLoop_same (fuel : Nat) : ∀ (c : Conn) (typ : Byte) (data : Bytes) (n n' : Nat) (e : Option String) (c' : Conn),
    Conn.writeLoop fuel c typ data n = .ok (n', e, c') → SameReader c c' := by
  induction fuel with
  | zero =>
    intro c typ data n n' e c' h
    unfold Conn.writeLoop at h
    split at h
    · have := (Prod.mk.inj (Prod.mk.inj (Res.ok.inj h)).2).2
      subst this
      exact .refl c
    · cases h
  | succ fuel ih =>
    intro c typ data n n' e c' h
    unfold Conn.writeLoop at h
    split at h
    · have := (Prod.mk.inj (Prod.mk.inj (Res.ok.inj h)).2).2
      subst this
      exact .refl c
    · obtain ⟨p, hp⟩ := maxPayload_conn c typ c.out.writeIVLen
      simp only [hp] at h
      split at h
      · cases h
      · split at h
        · have := (Prod.mk.inj (Prod.mk.inj (Res.ok.inj h)).2).2
          subst this
          exact ⟨rfl, rfl, rfl, rfl, rfl, rfl, rfl, rfl, rfl, rfl, rfl⟩
        · generalize hc1 : (if (c.out.writeIVLen != 0 && !c.out.ivIsSeq) = true then
              ({ c with packetsSent := p, rand := c.rand.drop c.out.writeIVLen } : Conn) else { c with packetsSent := p }) = c1 at h
          have f1 : SameReader c c1 := by
            rw [← hc1]; split <;> exact ⟨rfl, rfl, rfl, rfl, rfl, rfl, rfl, rfl, rfl, rfl, rfl⟩
          split at h
          · rename_i b out' _
            have f2 : SameReader c ({ c1 with out := out' } : Conn) := by
              refine f1.trans ⟨rfl, rfl, rfl, rfl, rfl, rfl, rfl, rfl, rfl, rfl, rfl⟩
            have f3 := f2.trans (write_same { c1 with out := out' } b)
            split at h
            · rename_i er c2 hw
              rw [hw] at f3
              have := (Prod.mk.inj (Prod.mk.inj (Res.ok.inj h)).2).2
              subst this
              exact f3
            · rename_i c2 hw
              rw [hw] at f3
              exact f3.trans (ih _ _ _ _ _ _ _ h)
          · cases h
          · cases h

theorem writeLoop_nil (fuel : Nat) (c : Conn) (typ : Byte) (n : Nat) : Conn.writeLoop fuel c typ [] n = .ok (n, none, c) := by
  unfold Conn.writeLoop; simp

/-- sending an alert returns, with an error for every alert but close_notify, and leaves the reading side alone -/
theorem sendAlert_total (c : Conn) (a : Byte) (hs : CanSend c.out) :
    ∃ e c', c.sendAlert a = .ok (e, c') ∧ SameReader c c' ∧ (a ≠ 0 → e = some ("local error " ++ toString a.toNat) ∧ c'.out.err = e) := by
  have key : ∀ level : Byte, ∃ n e c', Conn.writeLoop 2 c typAlert [level, a] 0 = .ok (n, e, c') := by
    intro level
    unfold Conn.writeLoop
    rw [if_neg (by simp)]
    have hmax : c.maxPayloadSizeForWrite typAlert c.out.writeIVLen = (16384, c) := by
      unfold Conn.maxPayloadSizeForWrite
      rw [if_pos (by rw [show (typAlert != typAppData) = true from rfl]; simp)]
    simp only [hmax]
    rw [if_neg (by decide)]
    split
    · exact ⟨_, _, _, rfl⟩
    · generalize hc1 : (if (c.out.writeIVLen != 0 && !c.out.ivIsSeq) = true then
            ({ c with rand := c.rand.drop c.out.writeIVLen } : Conn) else c) = c1
      have f1 : c1.out = c.out := by rw [← hc1]; split <;> rfl
      rw [f1]
      obtain ⟨r, hc', hw⟩ := writeOne_total c.out hs (c1.recHdr typAlert) (c.rand.take c.out.writeIVLen)
        ([level, a].take (min [level, a].length (Int.toNat 16384)))
      rw [hw]
      simp only
      split
      · exact ⟨_, _, _, rfl⟩
      · rw [show List.drop (min [level, a].length (Int.toNat 16384)) [level, a] = [] from rfl, writeLoop_nil]
        exact ⟨_, _, _, rfl⟩
  unfold Conn.sendAlert
  simp only
  obtain ⟨n, e, c', h⟩ := key (if a = 100 ∨ a = 0 then 1 else 2)
  rw [h]
  simp only
  have hsame := writeLoop_same _ _ _ _ _ _ _ _ h
  by_cases h0 : a = 0
  · rw [if_pos h0]
    exact ⟨_, _, rfl, hsame, fun hn => absurd h0 hn⟩
  · rw [if_neg h0]
    refine ⟨_, _, rfl, hsame.trans ⟨rfl, rfl, rfl, rfl, rfl, rfl, rfl, rfl, rfl, rfl, rfl⟩, fun _ => ⟨rfl, rfl⟩⟩

/-! ### failures -/

/-- the reader failed for good: an error is returned, recorded as the error of the reading half, and nothing was
delivered (no handshake bytes, no application data) -/
def Fails (c : Conn) (r : Res (Option String × Conn)) : Prop :=
  ∃ e c', r = .ok (some e, c') ∧ c'.inp.err = some e ∧ c'.hand = c.hand ∧ c'.input = c.input

def FailsStep (c : Conn) (r : Res (Step × Conn)) : Prop :=
  ∃ e c', r = .ok (.done (some e), c') ∧ c'.inp.err = some e ∧ c'.hand = c.hand ∧ c'.input = c.input

theorem failAlert_fails (c : Conn) (a : Byte) (ha : a ≠ 0) (hs : CanSend c.out) : Fails c (c.failAlert a) := by
  obtain ⟨e, c', h, hsame, he⟩ := sendAlert_total c a hs
  obtain ⟨rfl, _⟩ := he ha
  unfold Conn.failAlert
  rw [h]
  exact ⟨_, _, rfl, rfl, hsame.hand, hsame.input⟩

theorem failMsg_fails (c : Conn) (a : Byte) (msg : String) (hs : CanSend c.out) : Fails c (c.failMsg a msg) := by
  obtain ⟨e, c', h, hsame, he⟩ := sendAlert_total c a hs
  unfold Conn.failMsg
  rw [h]
  exact ⟨_, _, rfl, rfl, hsame.hand, hsame.input⟩

theorem asDone_fails {c : Conn} {r : Res (Option String × Conn)} (h : Fails c r) : FailsStep c (asDone r) := by
  obtain ⟨e, c', rfl, h1, h2, h3⟩ := h
  exact ⟨e, c', rfl, h1, h2, h3⟩

theorem FailsStep.of_eq {c d : Conn} {r : Res (Step × Conn)} (h1 : d.hand = c.hand) (h2 : d.input = c.input) (h : FailsStep d r) : FailsStep c r := by
  obtain ⟨e, c', hr, a, b, k⟩ := h
  exact ⟨e, c', hr, a, b.trans h1, k.trans h2⟩

/-- a failing first pass makes `readLoop` fail -/
theorem readLoop_fails (k : Nat) (c : Conn) (want : Byte) (h : FailsStep c (c.readOnce want)) : Fails c (Conn.readLoop (k + 1) c want) := by
  obtain ⟨e, c', h1, h2, h3, h4⟩ := h
  unfold Conn.readLoop
  rw [h1]
  exact ⟨e, c', rfl, h2, h3, h4⟩

/-- if every pass from here fails or the state is wrong for the request, `readRecord` fails -/
theorem readRecord_fails (c : Conn) (want : Byte) (hs : CanSend c.out) (h : FailsStep c (c.readOnce want)) : Fails c (c.readRecord want) := by
  unfold Conn.readRecord
  split
  · split
    · exact failMsg_fails c _ _ hs
    · exact readLoop_fails 5 c want h
  · split
    · split
      · exact failMsg_fails c _ _ hs
      · exact readLoop_fails 5 c want h
    · exact failMsg_fails c _ _ hs

/-! ### framing -/

namespace Spec
/-- the record `typ, version, length, body` at the front of the peer's bytes, followed by `rest` -/
def frame (typ : Byte) (v : Version) (body : Bytes) : Bytes :=
  [typ, (v >>> 8).truncate 8, v.truncate 8] ++ beFixed 2 body.length ++ body

/-- the peer's next record has this type, version and body, and opens under the current keys to `data` -/
structure Opens (c : Conn) (typ : Byte) (v : Version) (body rest data : Bytes) (inp' : HalfConn) : Prop where
  stream : c.stream = frame typ v body ++ rest
  size : body.length ≤ 18432
  version : c.haveVers = true → v = c.vers
  opened : c.inp.decrypt (frame typ v body) = .ok (some data, inp')
end Spec

theorem frame_getters (typ : Byte) (v : Version) (body rest : Bytes) (hb : body.length < 65536) :
    (Spec.frame typ v body ++ rest).getD 0 0 = typ ∧
    (((Spec.frame typ v body ++ rest).getD 1 0).zeroExtend 16 <<< 8 ||| ((Spec.frame typ v body ++ rest).getD 2 0).zeroExtend 16) = v ∧
    beNat (((Spec.frame typ v body ++ rest).drop 3).take 2) = body.length ∧
    (Spec.frame typ v body).length = 5 + body.length ∧
    (Spec.frame typ v body ++ rest).take (5 + body.length) = Spec.frame typ v body ∧
    (Spec.frame typ v body ++ rest).drop (5 + body.length) = rest := by
  have hl : (Spec.frame typ v body).length = 5 + body.length := by
    unfold Spec.frame
    simp only [List.length_append, beFixed_length, List.length_cons, List.length_nil]
  refine ⟨rfl, ?_, ?_, hl, List.take_left' hl, List.drop_left' hl⟩
  · show BitVec.zeroExtend 16 (BitVec.truncate 8 (v >>> 8)) <<< 8 ||| BitVec.zeroExtend 16 (BitVec.truncate 8 v) = v
    apply BitVec.eq_of_toNat_eq
    have hv := v.isLt
    have h1 : BitVec.zeroExtend 16 (BitVec.truncate 8 (v >>> 8)) <<< 8 = BitVec.ofNat 16 (v.toNat / 256 * 256) := by
      apply BitVec.eq_of_toNat_eq
      simp [BitVec.toNat_shiftLeft, Nat.shiftLeft_eq, Nat.shiftRight_eq_div_pow]
      omega
    have h2 : BitVec.zeroExtend 16 (BitVec.truncate 8 v) = BitVec.ofNat 16 (v.toNat % 256) := by
      apply BitVec.eq_of_toNat_eq
      simp
    rw [h1, h2, BitVec.toNat_or, BitVec.toNat_ofNat, BitVec.toNat_ofNat, Nat.mod_eq_of_lt (by omega), Nat.mod_eq_of_lt (by omega),
      show v.toNat / 256 * 256 = 2 ^ 8 * (v.toNat / 256) by omega, ← Nat.two_pow_add_eq_or_of_lt (by omega : v.toNat % 256 < 2 ^ 8)]
    omega
  · unfold Spec.frame
    simp only [List.cons_append, List.nil_append, List.append_assoc, List.drop_succ_cons, List.drop_zero]
    rw [List.take_left' (beFixed_length _ _), beNat_beFixed]
    omega

/-- one pass over a record that opens -/
theorem readOnce_opens (c : Conn) (want typ : Byte) (v : Version) (body rest data : Bytes) (inp' : HalfConn)
    (h : Spec.Opens c typ v body rest data inp')
    (hf : c.haveVers = false → (typ = typAlert ∨ typ = want) ∧ v.toNat < 0x1000) (h80 : typ ≠ 0x80) :
    c.readOnce want = ({ c with stream := rest, inp := inp' } : Conn).processRecord want typ data := by
  obtain ⟨hs, hb, hv, hd⟩ := h
  obtain ⟨g1, g2, g3, g4, g5, g6⟩ := frame_getters typ v body rest (by omega)
  unfold Conn.readOnce
  rw [hs]
  simp only [g1, g2, g3, g5, g6]
  have hlen : (Spec.frame typ v body ++ rest).length = 5 + body.length + rest.length := by rw [List.length_append, g4]
  rw [if_neg (by rw [hlen]; omega), if_neg (by tauto), if_neg (by tauto), if_neg (by omega), if_neg, if_neg (by rw [hlen]; omega), hd]
  rintro ⟨h1, h2⟩
  obtain ⟨h3, h4⟩ := hf h1
  rcases h2 with h2 | h2
  · tauto
  · omega

/-- one pass over a record that does not authenticate -/
theorem readOnce_badMac (c : Conn) (want typ : Byte) (v : Version) (body rest : Bytes) (inp' : HalfConn) (hs : c.stream = Spec.frame typ v body ++ rest)
    (hb : body.length < 65536) (hd : c.inp.decrypt (Spec.frame typ v body) = .ok (none, inp')) (ho : CanSend c.out) :
    FailsStep c (c.readOnce want) := by
  obtain ⟨g1, g2, g3, g4, g5, g6⟩ := frame_getters typ v body rest hb
  unfold Conn.readOnce
  rw [hs]
  simp only [g1, g2, g3, g5, g6]
  have hlen : (Spec.frame typ v body ++ rest).length = 5 + body.length + rest.length := by rw [List.length_append, g4]
  rw [if_neg (by rw [hlen]; omega)]
  split
  · exact asDone_fails (failMsg_fails c _ _ ho)
  · split
    · exact asDone_fails (failMsg_fails c _ _ ho)
    · split
      · exact asDone_fails (failMsg_fails c _ _ ho)
      · split
        · exact asDone_fails (failMsg_fails c _ _ ho)
        · rw [if_neg (by rw [hlen]; omega), hd]
          exact (asDone_fails (failAlert_fails ({ c with stream := rest, inp := inp' } : Conn) 20 (by decide) ho)).of_eq rfl rfl

/-- one pass over a record that opens, without conditions on version and type: it is processed or refused -/
theorem readOnce_opens_or (c : Conn) (want typ : Byte) (v : Version) (body rest data : Bytes) (inp' : HalfConn)
    (h : Spec.Opens c typ v body rest data inp') (ho : CanSend c.out) :
    FailsStep c (c.readOnce want) ∨
      c.readOnce want = ({ c with stream := rest, inp := inp' } : Conn).processRecord want typ data := by
  obtain ⟨hs, hb, hv, hd⟩ := h
  obtain ⟨g1, g2, g3, g4, g5, g6⟩ := frame_getters typ v body rest (by omega)
  unfold Conn.readOnce
  rw [hs]
  simp only [g1, g2, g3, g5, g6]
  have hlen : (Spec.frame typ v body ++ rest).length = 5 + body.length + rest.length := by rw [List.length_append, g4]
  rw [if_neg (by rw [hlen]; omega)]
  split
  · exact .inl (asDone_fails (failMsg_fails c _ _ ho))
  · split
    · exact .inl (asDone_fails (failMsg_fails c _ _ ho))
    · split
      · exact .inl (asDone_fails (failMsg_fails c _ _ ho))
      · split
        · exact .inl (asDone_fails (failMsg_fails c _ _ ho))
        · right
          rw [if_neg (by rw [hlen]; omega), hd]

namespace Spec
/-- the ways in which the peer's next bytes are unacceptable to a reader waiting for a record of type `want` -/
inductive Malformed (c : Conn) (want : Byte) : Prop
  /-- the transport ends before a whole record header -/
  | noHeader (h : c.stream.length < 5)
  /-- the transport ends inside the record -/
  | truncated (typ : Byte) (v : Version) (len : Nat) (part : Bytes) (hl : len < 65536) (hp : part.length < len)
      (h : c.stream = [typ, (v >>> 8).truncate 8, v.truncate 8] ++ beFixed 2 len ++ part)
  /-- another version than the negotiated one -/
  | version (typ : Byte) (v : Version) (len : Nat) (rest : Bytes) (hl : len < 65536)
      (h : c.stream = [typ, (v >>> 8).truncate 8, v.truncate 8] ++ beFixed 2 len ++ rest) (hv : c.haveVers = true) (hne : v ≠ c.vers)
  /-- the length field is over 2^14 + 2048 -/
  | oversized (typ : Byte) (v : Version) (len : Nat) (rest : Bytes) (hl : len < 65536)
      (h : c.stream = [typ, (v >>> 8).truncate 8, v.truncate 8] ++ beFixed 2 len ++ rest) (hbig : 18432 < len)
  /-- before a version is known: neither an alert nor the wanted type, or a version of 0x1000 or more -/
  | notTLS (typ : Byte) (v : Version) (len : Nat) (rest : Bytes) (hl : len < 65536)
      (h : c.stream = [typ, (v >>> 8).truncate 8, v.truncate 8] ++ beFixed 2 len ++ rest) (hv : c.haveVers = false)
      (hbad : (typ ≠ 21 ∧ typ ≠ want) ∨ 0x1000 ≤ v.toNat)
  /-- the MAC, tag or padding is wrong -/
  | badMac (typ : Byte) (v : Version) (body rest : Bytes) (hb : body.length < 65536) (inp' : HalfConn)
      (h : c.stream = frame typ v body ++ rest) (hd : c.inp.decrypt (frame typ v body) = .ok (none, inp'))
  /-- the plaintext is over 2^14 bytes -/
  | overflow (typ : Byte) (v : Version) (body rest data : Bytes) (inp' : HalfConn) (h : Opens c typ v body rest data inp')
      (hd : 16384 < data.length)
  /-- neither an alert nor the wanted type; a client that allows renegotiation takes handshake records at any time -/
  | wrongType (typ : Byte) (v : Version) (body rest data : Bytes) (inp' : HalfConn) (h : Opens c typ v body rest data inp')
      (h1 : typ ≠ 21) (h2 : typ ≠ want) (h3 : ¬ (typ = 22 ∧ c.isClient = true ∧ c.renegotiation = true))
  /-- an alert that is not two bytes, or of a level other than warning and fatal -/
  | badAlert (v : Version) (body rest data : Bytes) (inp' : HalfConn) (h : Opens c 21 v body rest data inp')
      (hd : data.length ≠ 2 ∨ (data.getD 0 0 ≠ 1 ∧ data.getD 0 0 ≠ 2))
  /-- a fatal alert -/
  | fatal (v : Version) (body rest : Bytes) (d : Byte) (inp' : HalfConn) (h : Opens c 21 v body rest [2, d] inp')
  /-- close_notify -/
  | closed (v : Version) (body rest : Bytes) (l : Byte) (inp' : HalfConn) (h : Opens c 21 v body rest [l, 0] inp')
  /-- one more warning after five in a row -/
  | sixthWarning (v : Version) (body rest : Bytes) (d : Byte) (inp' : HalfConn) (h : Opens c 21 v body rest [1, d] inp')
      (hw : 5 ≤ c.warnCount)
  /-- a ChangeCipherSpec with another body than 1, inside a handshake message, or with no new keys ready -/
  | badCCS (v : Version) (body rest data : Bytes) (inp' : HalfConn) (h : Opens c 20 v body rest data inp')
      (hd : data ≠ [1] ∨ c.hand ≠ [] ∨ c.inp.nextCipher = none)
end Spec

theorem hdr_getters (typ : Byte) (v : Version) (len : Nat) (rest : Bytes) (hl : len < 65536) :
    let s := [typ, (v >>> 8).truncate 8, v.truncate 8] ++ beFixed 2 len ++ rest
    s.getD 0 0 = typ ∧ ((s.getD 1 0).zeroExtend 16 <<< 8 ||| (s.getD 2 0).zeroExtend 16) = v ∧
    beNat ((s.drop 3).take 2) = len ∧ s.length = 5 + rest.length := by
  have hg := frame_getters typ v [] rest (by simp)
  refine ⟨rfl, hg.2.1, ?_, ?_⟩
  · simp only [List.cons_append, List.nil_append, List.append_assoc, List.drop_succ_cons, List.drop_zero]
    rw [List.take_left' (beFixed_length _ _), beNat_beFixed]
    omega
  · simp only [List.length_append, beFixed_length, List.length_cons, List.length_nil]

theorem decrypt_nextCipher (hc : HalfConn) (b : Bytes) (d : Option Bytes) (hc' : HalfConn) (h : hc.decrypt b = .ok (d, hc')) :
    hc'.nextCipher = hc.nextCipher ∧ hc'.nextMac = hc.nextMac ∧ hc'.err = hc.err ∧ hc'.version = hc.version ∧ hc'.mac = hc.mac := by
  unfold HalfConn.decrypt at h
  split at h
  · have := (Prod.mk.inj (Res.ok.inj h)).2
    subst this
    exact ⟨rfl, rfl, rfl, rfl, rfl⟩
  · split at h
    · have := (Prod.mk.inj (Res.ok.inj h)).2
      subst this
      exact ⟨rfl, rfl, rfl, rfl, rfl⟩
    · unfold HalfConn.incSeq at h
      split at h
      · rename_i hc2 heq
        split at heq
        · cases heq
        · have := (Prod.mk.inj (Res.ok.inj h)).2
          have heq := Res.ok.inj heq
          subst this heq
          exact ⟨rfl, rfl, rfl, rfl, rfl⟩
      · cases h
      · cases h
  · cases h
  · cases h

/-- C30: on malformed input the read fails: an error is returned and recorded, and nothing is delivered. -/
theorem C30_malformed_fails (c : Conn) (want : Byte) (ho : CanSend c.out) (h : Spec.Malformed c want) : Fails c (c.readRecord want) := by
  apply readRecord_fails c want ho
  cases h with
  | noHeader h =>
    unfold Conn.readOnce
    rw [if_pos h]
    exact ⟨_, _, rfl, rfl, rfl, rfl⟩
  | truncated typ v len part hl hp h =>
    obtain ⟨g1, g2, g3, g4⟩ := hdr_getters typ v len part hl
    unfold Conn.readOnce
    rw [← h] at g1 g2 g3 g4
    simp only [g1, g2, g3, g4]
    rw [if_neg (by omega)]
    split
    · exact asDone_fails (failMsg_fails c _ _ ho)
    · split
      · exact asDone_fails (failMsg_fails c _ _ ho)
      · split
        · exact asDone_fails (failMsg_fails c _ _ ho)
        · split
          · exact asDone_fails (failMsg_fails c _ _ ho)
          · rw [if_pos (by omega)]
            exact ⟨_, _, rfl, rfl, rfl, rfl⟩
  | version typ v len rest hl h hv hne =>
    obtain ⟨g1, g2, g3, g4⟩ := hdr_getters typ v len rest hl
    unfold Conn.readOnce
    rw [← h] at g1 g2 g3 g4
    simp only [g1, g2, g3, g4]
    rw [if_neg (by omega)]
    split
    · exact asDone_fails (failMsg_fails c _ _ ho)
    · rw [if_pos ⟨hv, hne⟩]
      exact asDone_fails (failMsg_fails c _ _ ho)
  | oversized typ v len rest hl h hbig =>
    obtain ⟨g1, g2, g3, g4⟩ := hdr_getters typ v len rest hl
    unfold Conn.readOnce
    rw [← h] at g1 g2 g3 g4
    simp only [g1, g2, g3, g4]
    rw [if_neg (by omega)]
    split
    · exact asDone_fails (failMsg_fails c _ _ ho)
    · split
      · exact asDone_fails (failMsg_fails c _ _ ho)
      · exact asDone_fails (failMsg_fails c _ _ ho)
  | notTLS typ v len rest hl h hv hbad =>
    obtain ⟨g1, g2, g3, g4⟩ := hdr_getters typ v len rest hl
    unfold Conn.readOnce
    rw [← h] at g1 g2 g3 g4
    simp only [g1, g2, g3, g4]
    rw [if_neg (by omega)]
    split
    · exact asDone_fails (failMsg_fails c _ _ ho)
    · split
      · exact asDone_fails (failMsg_fails c _ _ ho)
      · split
        · exact asDone_fails (failMsg_fails c _ _ ho)
        · rw [if_pos ⟨hv, hbad⟩]
          exact asDone_fails (failMsg_fails c _ _ ho)
  | badMac typ v body rest hb inp' h hd => exact readOnce_badMac c want typ v body rest inp' h hb hd ho
  | overflow typ v body rest data inp' h hd =>
    rcases readOnce_opens_or c want typ v body rest data inp' h ho with hf | he
    · exact hf
    · rw [he]
      unfold Conn.processRecord
      rw [if_pos hd]
      exact (asDone_fails (failAlert_fails ({ c with stream := rest, inp := inp' } : Conn) _ (by decide) ho)).of_eq rfl rfl
  | wrongType typ v body rest data inp' h h1 h2 h3 =>
    rcases readOnce_opens_or c want typ v body rest data inp' h ho with hf | he
    · exact hf
    · rw [he]
      unfold Conn.processRecord
      split
      · exact (asDone_fails (failAlert_fails ({ c with stream := rest, inp := inp' } : Conn) _ (by decide) ho)).of_eq rfl rfl
      · generalize hc1 : (if typ ≠ typAlert ∧ data.length > 0 then
            ({ c with stream := rest, inp := inp', warnCount := 0 } : Conn) else { c with stream := rest, inp := inp' }) = c1
        have f : c1.out = c.out ∧ c1.hand = c.hand ∧ c1.input = c.input ∧ c1.isClient = c.isClient ∧ c1.renegotiation = c.renegotiation := by
          rw [← hc1]; split <;> exact ⟨rfl, rfl, rfl, rfl, rfl⟩
        obtain ⟨f1, f2, f3, f4, f5⟩ := f
        have ho1 : CanSend c1.out := by rw [f1]; exact ho
        dsimp only
        rw [if_neg (show ¬ typ = typAlert from h1)]
        split
        · rw [if_pos (.inl h2)]
          exact (asDone_fails (failAlert_fails c1 _ (by decide) ho1)).of_eq f2 f3
        · split
          · exact (asDone_fails (failAlert_fails c1 _ (by decide) ho1)).of_eq f2 f3
          · split
            · rename_i h22
              rw [if_pos ⟨h2, by rw [f4, f5]; exact fun hx => h3 ⟨h22, hx⟩⟩]
              exact (asDone_fails (failAlert_fails c1 _ (by decide) ho1)).of_eq f2 f3
            · exact (asDone_fails (failAlert_fails c1 _ (by decide) ho1)).of_eq f2 f3
  | badAlert v body rest data inp' h hd =>
    rcases readOnce_opens_or c want 21 v body rest data inp' h ho with hf | he
    · exact hf
    · rw [he]
      unfold Conn.processRecord
      split
      · exact (asDone_fails (failAlert_fails ({ c with stream := rest, inp := inp' } : Conn) _ (by decide) ho)).of_eq rfl rfl
      · simp only [show ((21 : Byte) = typAlert) = True from eq_true rfl, not_true_eq_false, ne_eq, false_and, if_false, if_true]
        split
        · exact (asDone_fails (failAlert_fails ({ c with stream := rest, inp := inp' } : Conn) _ (by decide) ho)).of_eq rfl rfl
        · split
          · exact ⟨_, _, rfl, rfl, rfl, rfl⟩
          · have hd' : ¬ data.getD 0 0 = 1 ∧ ¬ data.getD 0 0 = 2 := by tauto
            rw [if_neg hd'.1, if_neg hd'.2]
            exact (asDone_fails (failAlert_fails ({ c with stream := rest, inp := inp' } : Conn) _ (by decide) ho)).of_eq rfl rfl
  | fatal v body rest d inp' h =>
    rcases readOnce_opens_or c want 21 v body rest [2, d] inp' h ho with hf | he
    · exact hf
    · rw [he]
      unfold Conn.processRecord
      rw [if_neg (by simp)]
      simp only [show ((21 : Byte) = typAlert) = True from eq_true rfl, not_true_eq_false, ne_eq, false_and, if_false, if_true]
      rw [if_neg (by simp)]
      split
      · exact ⟨_, _, rfl, rfl, rfl, rfl⟩
      · exact ⟨_, _, rfl, rfl, rfl, rfl⟩
  | closed v body rest l inp' h =>
    rcases readOnce_opens_or c want 21 v body rest [l, 0] inp' h ho with hf | he
    · exact hf
    · rw [he]
      unfold Conn.processRecord
      rw [if_neg (by simp)]
      simp only [show ((21 : Byte) = typAlert) = True from eq_true rfl, not_true_eq_false, ne_eq, false_and, if_false, if_true]
      rw [if_neg (by simp)]
      exact ⟨_, _, rfl, rfl, rfl, rfl⟩
  | sixthWarning v body rest d inp' h hw =>
    rcases readOnce_opens_or c want 21 v body rest [1, d] inp' h ho with hf | he
    · exact hf
    · rw [he]
      unfold Conn.processRecord
      rw [if_neg (by simp)]
      simp only [show ((21 : Byte) = typAlert) = True from eq_true rfl, not_true_eq_false, ne_eq, false_and, if_false, if_true]
      rw [if_neg (by simp)]
      split
      · exact ⟨_, _, rfl, rfl, rfl, rfl⟩
      · simp only [List.getD_cons_zero, if_true]
        rw [if_pos (by omega)]
        exact (asDone_fails (failMsg_fails ({ c with stream := rest, inp := inp', warnCount := c.warnCount + 1 } : Conn) _ _ ho)).of_eq rfl rfl
  | badCCS v body rest data inp' h hd =>
    rcases readOnce_opens_or c want 20 v body rest data inp' h ho with hf | he
    · exact hf
    · rw [he]
      obtain ⟨d1, d2, _⟩ := decrypt_nextCipher _ _ _ _ h.opened
      unfold Conn.processRecord
      split
      · exact (asDone_fails (failAlert_fails ({ c with stream := rest, inp := inp' } : Conn) _ (by decide) ho)).of_eq rfl rfl
      · generalize hc1 : (if (20 : Byte) ≠ typAlert ∧ data.length > 0 then
            ({ c with stream := rest, inp := inp', warnCount := 0 } : Conn) else { c with stream := rest, inp := inp' }) = c1
        have f : c1.out = c.out ∧ c1.hand = c.hand ∧ c1.input = c.input ∧ c1.inp = inp' := by
          rw [← hc1]; split <;> exact ⟨rfl, rfl, rfl, rfl⟩
        obtain ⟨f1, f2, f3, f4⟩ := f
        have ho1 : CanSend c1.out := by rw [f1]; exact ho
        dsimp only
        rw [if_neg (by decide), if_pos (by decide)]
        split
        · exact (asDone_fails (failAlert_fails c1 _ (by decide) ho1)).of_eq f2 f3
        · rename_i hn
          have hd1 : data = [1] := by
            match data, hn with
            | [x], hn => simp at hn; rw [hn.2]; rfl
            | [], hn => simp at hn
            | x :: y :: r, hn => simp at hn
          split
          · exact (asDone_fails (failAlert_fails c1 _ (by decide) ho1)).of_eq f2 f3
          · rename_i hh
            rw [f2] at hh
            have hnil : c.hand = [] := List.eq_nil_of_length_eq_zero (by omega)
            have hnc : c.inp.nextCipher = none := by tauto
            unfold HalfConn.changeCipherSpec
            rw [f4, d1, hnc]
            exact (asDone_fails (failAlert_fails c1 _ (by decide) ho1)).of_eq f2 f3

/-! ### what is accepted -/

/-- splitting a stream into header, body and rest -/
theorem stream_frame (s : Bytes) (n : Nat) (hn : n = beNat ((s.drop 3).take 2)) (hl : 5 + n ≤ s.length) :
    ∃ body rest, s = Spec.frame (s.getD 0 0) (((s.getD 1 0).zeroExtend 16 <<< 8) ||| (s.getD 2 0).zeroExtend 16) body ++ rest ∧
      body.length = n ∧ s.take (5 + n) = Spec.frame (s.getD 0 0) (((s.getD 1 0).zeroExtend 16 <<< 8) ||| (s.getD 2 0).zeroExtend 16) body ∧
      s.drop (5 + n) = rest := by
  match s, hl with
  | a :: b :: x :: d :: e :: r, hl =>
    simp only [List.drop_succ_cons, List.drop_zero, List.take_succ_cons, List.take_zero] at hn
    simp only [List.length_cons] at hl
    have hde : beFixed 2 n = [d, e] := by
      have := beFixed_beNat [d, e]
      rw [← hn] at this
      exact this
    have h1 : BitVec.truncate 8 ((b.zeroExtend 16 <<< 8 ||| x.zeroExtend 16) >>> 8) = b := by
      apply BitVec.eq_of_getLsbD_eq
      intro i hi
      simp [BitVec.getLsbD_setWidth, hi]
      rw [decide_eq_true (show 8 + i < 16 by omega), decide_eq_true (show i < 16 by omega)]
      simp
    have h2 : BitVec.truncate 8 (b.zeroExtend 16 <<< 8 ||| x.zeroExtend 16) = x := by
      apply BitVec.eq_of_getLsbD_eq
      intro i hi
      simp [BitVec.getLsbD_setWidth, hi]
    have hlen : (r.take n).length = n := by rw [List.length_take]; omega
    have hf : Spec.frame a (b.zeroExtend 16 <<< 8 ||| x.zeroExtend 16) (r.take n) = a :: b :: x :: d :: e :: r.take n := by
      unfold Spec.frame
      rw [hlen, hde, h1, h2]
      rfl
    refine ⟨r.take n, r.drop n, ?_, hlen, ?_, ?_⟩
    · show _ = Spec.frame a (b.zeroExtend 16 <<< 8 ||| x.zeroExtend 16) (r.take n) ++ r.drop n
      rw [hf]
      simp
    · show _ = Spec.frame a (b.zeroExtend 16 <<< 8 ||| x.zeroExtend 16) (r.take n)
      rw [hf, show 5 + n = n + 1 + 1 + 1 + 1 + 1 by omega]
      rfl
    · rw [show 5 + n = n + 1 + 1 + 1 + 1 + 1 by omega]
      rfl
  | [], hl => simp at hl
  | [_], hl => simp at hl; omega
  | [_, _], hl => simp at hl; omega
  | [_, _, _], hl => simp at hl; omega
  | [_, _, _, _], hl => simp at hl; omega

theorem asDone_inv {r : Res (Option String × Conn)} {s : Step} {c' : Conn} (h : asDone r = .ok (s, c')) : ∃ e, s = .done e ∧ r = .ok (e, c') := by
  cases r with
  | ok x =>
    obtain ⟨e, d⟩ := x
    have := Prod.mk.inj (Res.ok.inj h)
    refine ⟨e, this.1.symm, ?_⟩
    rw [← this.2]
  | err x => cases h
  | panic => cases h

theorem failMsg_res {d : Conn} {a : Byte} {msg : String} {e : Option String} {c' : Conn} (h : d.failMsg a msg = .ok (e, c')) :
    e = some msg ∧ c'.inp.err = some msg := by
  unfold Conn.failMsg at h
  split at h
  · have := Prod.mk.inj (Res.ok.inj h)
    rw [← this.1, ← this.2]
    exact ⟨rfl, rfl⟩
  · cases h
  · cases h

theorem failAlert_res {d : Conn} {a : Byte} (ha : a ≠ 0) {e : Option String} {c' : Conn} (h : d.failAlert a = .ok (e, c')) :
    ∃ x, e = some x ∧ c'.inp.err = some x := by
  unfold Conn.failAlert at h
  split at h
  · rename_i e' d' hsa
    have := Prod.mk.inj (Res.ok.inj h)
    unfold Conn.sendAlert at hsa
    dsimp only at hsa
    split at hsa
    · rw [if_neg ha] at hsa
      have h2 := (Prod.mk.inj (Res.ok.inj hsa)).1
      refine ⟨"local error " ++ toString a.toNat, ?_, ?_⟩
      · rw [← this.1, ← h2]
      · rw [← this.2, ← h2]; rfl
    · cases hsa
    · cases hsa
  · cases h
  · cases h

/-- a pass that neither failed nor ended: the next record opened -/
theorem readOnce_inv (c : Conn) (want : Byte) (s : Step) (c' : Conn) (h : c.readOnce want = .ok (s, c')) (hs : ∀ e, s ≠ .done (some e)) :
    ∃ typ v body rest data inp', Spec.Opens c typ v body rest data inp' ∧
      (c.haveVers = false → (typ = 21 ∨ typ = want) ∧ v.toNat < 0x1000) ∧
      ({ c with stream := rest, inp := inp' } : Conn).processRecord want typ data = .ok (s, c') := by
  have bad : ∀ {d : Conn} {a : Byte} {msg : String}, asDone (d.failMsg a msg) ≠ .ok (s, c') := by
    intro d a msg hx
    obtain ⟨e, he⟩ := asDone_inv hx
    rw [(failMsg_res he.2).1] at he
    exact hs _ he.1
  unfold Conn.readOnce at h
  by_cases h5 : c.stream.length < 5
  · rw [if_pos h5] at h
    exact absurd (Prod.mk.inj (Res.ok.inj h)).1.symm (hs _)
  · rw [if_neg h5] at h
    simp only at h
    split at h
    · exact absurd h bad
    · split at h
      · exact absurd h bad
      · rename_i hv
        split at h
        · exact absurd h bad
        · rename_i hn
          split at h
          · exact absurd h bad
          · rename_i hnt
            split at h
            · exact absurd (Prod.mk.inj (Res.ok.inj h)).1.symm (hs _)
            · rename_i hlen
              obtain ⟨body, rest, hst, hbl, htk, hdp⟩ := stream_frame c.stream _ rfl (by omega)
              rw [htk, hdp] at h
              split at h
              · rename_i inp' hd
                exfalso
                obtain ⟨e, he⟩ := asDone_inv h
                obtain ⟨x, hx, _⟩ := failAlert_res (by decide) he.2
                rw [hx] at he
                exact hs _ he.1
              · rename_i data inp' hd
                refine ⟨_, _, body, rest, data, inp', ⟨hst, by omega, fun hh => ?_, hd⟩, fun hh => ?_, h⟩
                · by_contra hne
                  exact hv ⟨hh, hne⟩
                · constructor
                  · by_contra hne
                    apply hnt
                    refine ⟨hh, .inl ?_⟩
                    exact ⟨fun hx => hne (.inl hx), fun hx => hne (.inr hx)⟩
                  · by_contra hne
                    exact hnt ⟨hh, .inr (by omega)⟩
              · cases h
              · cases h

namespace Spec
/-- the peer's next `k` records are warnings (not close_notify), skipped without effect on what is delivered -/
inductive Warned : Nat → Conn → Conn → Prop
  | zero (c : Conn) : Warned 0 c c
  | succ {k : Nat} {c d : Conn} (v : Version) (body rest : Bytes) (desc : Byte) (inp' : HalfConn)
      (h : Opens c 21 v body rest [1, desc] inp') (hd : desc ≠ 0) (hw : c.warnCount < 5)
      (r : Warned k ({ c with stream := rest, inp := inp', warnCount := c.warnCount + 1 } : Conn) d) : Warned (k + 1) c d

/-- what accepting a record of type `typ` with plaintext `data` does: application data becomes the pending input,
handshake bytes are appended, ChangeCipherSpec installs the prepared keys -/
inductive Delivered (c : Conn) (want : Byte) (data : Bytes) (inp' : HalfConn) (rest : Bytes) : Byte → Conn → Prop
  | app (w : Nat) (hw : want = 23) : Delivered c want data inp' rest 23 { c with stream := rest, inp := inp', warnCount := w, input := some data }
  | handshake (w : Nat) (hw : want = 22 ∨ (c.isClient = true ∧ c.renegotiation = true)) :
      Delivered c want data inp' rest 22 { c with stream := rest, inp := inp', warnCount := w, hand := c.hand ++ data }
  | ccs (w : Nat) (hw : want = 20) (hd : data = [1]) (hh : c.hand = []) (inp'' : HalfConn) (hk : inp'.changeCipherSpec = some inp'') :
      Delivered c want data inp' rest 20 { c with stream := rest, inp := inp'', warnCount := w }
end Spec

theorem changeCipherSpec_err (hc hc' : HalfConn) (h : hc.changeCipherSpec = some hc') : hc'.err = hc.err := by
  unfold HalfConn.changeCipherSpec at h
  split at h
  · cases h
  · have := Option.some.inj h
    rw [← this]

/-- what a pass that did not fail did -/
theorem processRecord_inv (c : Conn) (want typ : Byte) (data : Bytes) (s : Step) (c' : Conn)
    (h : c.processRecord want typ data = .ok (s, c')) (hs : ∀ e, s ≠ .done (some e)) :
    (s = .again ∧ typ = 21 ∧ ∃ desc, data = [1, desc] ∧ desc ≠ 0 ∧ c.warnCount < 5 ∧ c' = { c with warnCount := c.warnCount + 1 }) ∨
    (s = .done none ∧ c.inp.err = none ∧ data.length ≤ 16384 ∧ Spec.Delivered c want data c.inp c.stream typ c') := by
  have badM : ∀ {d : Conn} {a : Byte} {msg : String}, asDone (d.failMsg a msg) ≠ .ok (s, c') := by
    intro d a msg hx
    obtain ⟨e, he⟩ := asDone_inv hx
    rw [(failMsg_res he.2).1] at he
    exact hs _ he.1
  have badA : ∀ {d : Conn} {a : Byte}, a ≠ 0 → asDone (d.failAlert a) ≠ .ok (s, c') := by
    intro d a ha hx
    obtain ⟨e, he⟩ := asDone_inv hx
    obtain ⟨x, hx, _⟩ := failAlert_res ha he.2
    rw [hx] at he
    exact hs _ he.1
  have fin : ∀ {e : Option String} {d : Conn}, (Res.ok (Step.done e, d) : Res (Step × Conn)) = .ok (s, c') → s = .done none ∧ e = none ∧ c' = d := by
    intro e d hx
    have := Prod.mk.inj (Res.ok.inj hx)
    cases e with
    | none => exact ⟨this.1.symm, rfl, this.2.symm⟩
    | some e => exact absurd this.1.symm (hs e)
  unfold Conn.processRecord at h
  split at h
  · exact absurd h (badA (by decide))
  · rename_i hlen
    generalize hc1 : (if typ ≠ typAlert ∧ data.length > 0 then ({ c with warnCount := 0 } : Conn) else c) = c1 at h
    have hw1 : ∃ w, c1 = { c with warnCount := w } := by
      rw [← hc1]; split
      · exact ⟨0, rfl⟩
      · exact ⟨c.warnCount, rfl⟩
    dsimp only at h
    by_cases ht : typ = typAlert
    · have hcc : c1 = c := by rw [← hc1, if_neg (by tauto)]
      subst hcc
      rw [if_pos ht] at h
      split at h
      · exact absurd h (badA (by decide))
      · rename_i h2
        split at h
        · exact absurd (Prod.mk.inj (Res.ok.inj h)).1.symm (hs _)
        · rename_i hd
          split at h
          · rename_i h1
            split at h
            · exact absurd h badM
            · rename_i hw
              have := Prod.mk.inj (Res.ok.inj h)
              left
              refine ⟨this.1.symm, ht, data.getD 1 0, ?_, hd, by omega, this.2.symm⟩
              match data, h2, h1 with
              | [x, y], _, h1 => simp at h1; rw [h1]; rfl
              | [], h2, _ => simp at h2
              | [_], h2, _ => simp at h2
              | _ :: _ :: _ :: _, h2, _ => simp at h2
          · split at h
            · exact absurd (Prod.mk.inj (Res.ok.inj h)).1.symm (hs _)
            · exact absurd h (badA (by decide))
    · obtain ⟨w, rfl⟩ := hw1
      rw [if_neg ht] at h
      right
      split at h
      · rename_i hccs
        split at h
        · exact absurd h (badA (by decide))
        · rename_i hn
          split at h
          · exact absurd h (badA (by decide))
          · rename_i hh
            split at h
            · rename_i inp' hk
              obtain ⟨f1, f2, f3⟩ := fin h
              have he := changeCipherSpec_err _ _ hk
              refine ⟨f1, by rw [← f2, he], by omega, ?_⟩
              rw [hccs, f3]
              refine .ccs w ?_ ?_ (List.eq_nil_of_length_eq_zero (by simp only at hh; omega)) inp' hk
              · by_contra hx; exact hn (.inl fun hy => hx (by rw [← hy, hccs]; rfl))
              · match data, hn with
                | [x], hn => simp at hn; rw [hn.2]; rfl
                | [], hn => simp at hn
                | _ :: _ :: _, hn => simp at hn
            · exact absurd h (badA (by decide))
      · split at h
        · rename_i happ
          split at h
          · exact absurd h (badA (by decide))
          · rename_i hw
            obtain ⟨f1, f2, f3⟩ := fin h
            refine ⟨f1, f2, by omega, ?_⟩
            rw [happ, f3]
            exact .app w (by simp only [ne_eq, Decidable.not_not] at hw; rw [← hw, happ]; rfl)
        · split at h
          · rename_i hhs
            split at h
            · exact absurd h (badA (by decide))
            · rename_i hw
              obtain ⟨f1, f2, f3⟩ := fin h
              refine ⟨f1, f2, by omega, ?_⟩
              rw [hhs, f3]
              refine .handshake w ?_
              by_contra hx
              apply hw
              refine ⟨fun hy => hx (.inl (by rw [← hy, hhs]; rfl)), fun hy => hx (.inr hy)⟩
          · exact absurd h (badA (by decide))

theorem readLoop_inv (k : Nat) : ∀ (c : Conn) (want : Byte) (c' : Conn), Conn.readLoop k c want = .ok (none, c') →
    ∃ n d typ v body rest data inp', n < k ∧ Spec.Warned n c d ∧ Spec.Opens d typ v body rest data inp' ∧ data.length ≤ 16384 ∧
      Spec.Delivered d want data inp' rest typ c' ∧ c'.inp.err = none := by
  induction k with
  | zero => intro c want c' h; cases h
  | succ k ih =>
    intro c want c' h
    unfold Conn.readLoop at h
    split at h
    · rename_i e d hr
      have := Prod.mk.inj (Res.ok.inj h)
      obtain ⟨rfl, rfl⟩ := this
      obtain ⟨typ, v, body, rest, data, inp', ho, _, hp⟩ := readOnce_inv c want _ _ hr (by intro e; simp)
      rcases processRecord_inv _ _ _ _ _ _ hp (by intro e; simp) with h1 | ⟨_, he, hl, hd⟩
      · cases h1.1
      · refine ⟨0, c, typ, v, body, rest, data, inp', by omega, .zero c, ho, hl, ?_, ?_⟩
        · cases hd with
          | app w hw => exact .app w hw
          | handshake w hw => exact .handshake w hw
          | ccs w hw hd hh inp'' hk => exact Spec.Delivered.ccs (c := c) w hw hd hh inp'' hk
        · cases hd with
          | app w hw => exact he
          | handshake w hw => exact he
          | ccs w hw hd hh inp'' hk => exact (changeCipherSpec_err _ _ hk).trans he
    · rename_i d hr
      obtain ⟨typ, v, body, rest, data, inp', ho, _, hp⟩ := readOnce_inv c want _ _ hr (by intro e; simp)
      rcases processRecord_inv _ _ _ _ _ _ hp (by intro e; simp) with ⟨_, rfl, desc, rfl, hdesc, hw, rfl⟩ | h1
      · obtain ⟨n, d, typ, v', body', rest', data, inp'', hn, hW, a, b, x, y⟩ := ih _ _ _ h
        exact ⟨n + 1, d, typ, v', body', rest', data, inp'', by omega, .succ v body rest desc inp' ho hdesc hw hW, a, b, x, y⟩
      · cases h1.1
    · cases h
    · cases h

/-- C30: the reader returns without error only after at most five warnings followed by one authentic record of the
negotiated version, of at most 18432 bytes with at most 16384 bytes of plaintext, and the type asked for (or a handshake
record, for a client that allows renegotiation); its plaintext is delivered and nothing else is. -/
theorem C30_accepted (c : Conn) (want : Byte) (c' : Conn) (h : c.readRecord want = .ok (none, c')) :
    ∃ n d typ v body rest data inp', n ≤ 5 ∧ Spec.Warned n c d ∧ Spec.Opens d typ v body rest data inp' ∧ data.length ≤ 16384 ∧
      Spec.Delivered d want data inp' rest typ c' ∧ c'.inp.err = none ∧ (c.handshakeComplete = true ↔ want = 23) := by
  have key : Conn.readLoop 6 c want = .ok (none, c') → (c.handshakeComplete = true ↔ want = 23) → ∃ n d typ v body rest data inp', n ≤ 5 ∧ Spec.Warned n c d ∧ Spec.Opens d typ v body rest data inp' ∧ data.length ≤ 16384 ∧
      Spec.Delivered d want data inp' rest typ c' ∧ c'.inp.err = none ∧ (c.handshakeComplete = true ↔ want = 23) := by
    intro hl hw
    obtain ⟨n, d, typ, v, body, rest, data, inp', h0, h1, h2, h3, h4, h5⟩ := readLoop_inv 6 c want c' hl
    exact ⟨n, d, typ, v, body, rest, data, inp', by omega, h1, h2, h3, h4, h5, hw⟩
  unfold Conn.readRecord at h
  split at h
  · rename_i hw
    split at h
    · cases (failMsg_res h).1
    · rename_i hc
      refine key h ⟨fun hx => absurd hx hc, fun hx => ?_⟩
      rw [hx] at hw; exact absurd hw (by decide)
  · split at h
    · rename_i hw
      split at h
      · cases (failMsg_res h).1
      · rename_i hc
        exact key h ⟨fun _ => hw, fun _ => by simpa using hc⟩
    · cases (failMsg_res h).1

/-! ### the reader always returns -/

/-- the receiving half: 8-byte sequence number with room for `k` more records, block size positive -/
structure CanReceive (k : Nat) (hc : HalfConn) : Prop where
  seq8 : hc.seq.length = 8
  room : beNat hc.seq + k < 2 ^ 64
  blocks : ∀ bs, shape hc.cipher = .cbc bs → 0 < bs

theorem openPayload_total (hc : HalfConn) (b : Bytes) (hb : ∀ bs, shape hc.cipher = .cbc bs → 0 < bs) :
    ∃ r c, hc.openPayload b = .ok (r, c) ∧ shape c = shape hc.cipher := by
  unfold HalfConn.openPayload
  cases hca : hc.cipher with
  | none => exact ⟨_, _, rfl, rfl⟩
  | some cc =>
    cases cc with
    | stream ks pos => exact ⟨_, _, rfl, rfl⟩
    | aead a =>
      dsimp only
      split
      · exact ⟨_, _, rfl, rfl⟩
      · generalize hw : a.openW _ _ _ = w
        have hs : shape (some (.aead w.2)) = shape (some (.aead a)) := by
          rw [← hw]
          simp only [Aead.openW, shape, wrap_after_explicit]
        obtain ⟨w1, w2⟩ := w
        cases w1 with
        | none => exact ⟨_, _, rfl, hs⟩
        | some p => exact ⟨_, _, rfl, hs⟩
    | cbc bs dec f iv =>
      have h0 := hb bs (by rw [hca]; rfl)
      dsimp only
      generalize he : (if explicitIVVersion hc.version = true then bs else 0) = e
      have he' : e = bs ∨ e = 0 := by rw [← he]; split <;> simp
      by_cases hn : (b.drop 5).length % bs ≠ 0 ∨ (b.drop 5).length < roundUp (e + hc.macSize + 1) bs
      · rw [if_pos hn]; exact ⟨_, _, rfl, rfl⟩
      · rw [if_neg hn]
        have hm : (b.drop 5).length % bs = 0 := by
          by_contra hx; exact hn (.inl hx)
        have hm2 : (if e > 0 then (b.drop 5).drop e else b.drop 5).length % bs = 0 := by
          split
          · rcases he' with rfl | rfl
            · rw [List.length_drop]
              by_cases hge : e ≤ (b.drop 5).length
              · rw [← Nat.mod_eq_sub_mod hge, hm]
              · rw [Nat.sub_eq_zero_of_le (by omega), Nat.zero_mod]
            · exact hm
          · exact hm
        unfold cryptBlocks
        rw [if_neg (by simpa using hm2)]
        exact ⟨_, _, rfl, rfl⟩

theorem decrypt_total (k : Nat) (hc : HalfConn) (b : Bytes) (h : CanReceive (k + 1) hc) :
    ∃ d hc', hc.decrypt b = .ok (d, hc') ∧ CanReceive k hc' := by
  obtain ⟨r, c, ho, hs⟩ := openPayload_total hc b h.blocks
  have hr := h.room
  unfold HalfConn.decrypt
  rw [ho]
  cases r with
  | none => exact ⟨_, _, rfl, h.seq8, by simp only; omega, fun bs hb => h.blocks bs (by rw [← hs, hb])⟩
  | some p =>
    dsimp only
    cases ({ hc with cipher := c } : HalfConn).checkMac b p with
    | none => exact ⟨_, _, rfl, h.seq8, by simp only; omega, fun bs hb => h.blocks bs (by rw [← hs, hb])⟩
    | some d =>
      dsimp only
      rw [incSeq_eq { hc with cipher := c } h.seq8, if_pos (by simp only; omega)]
      refine ⟨_, _, rfl, beFixed_length _ _, ?_, fun bs hb => h.blocks bs (by rw [← hs, hb])⟩
      simp only
      rw [beNat_beFixed_of_lt (by rw [show (256 : Nat) ^ 8 = 2 ^ 64 by norm_num]; omega)]
      omega

theorem fails_returns {c : Conn} {r : Res (Option String × Conn)} (h : Fails c r) : ∃ e c', r = .ok (e, c') := by
  obtain ⟨e, c', h, _⟩ := h; exact ⟨_, _, h⟩

theorem failsStep_returns {c : Conn} {r : Res (Step × Conn)} (h : FailsStep c r) : ∃ e c', r = .ok (.done e, c') := by
  obtain ⟨e, c', h, _⟩ := h; exact ⟨_, _, h⟩

theorem processRecord_total (c : Conn) (want typ : Byte) (data : Bytes) (ho : CanSend c.out) :
    (∃ e c', c.processRecord want typ data = .ok (.done e, c')) ∨
    (c.warnCount < 5 ∧ c.processRecord want typ data = .ok (.again, { c with warnCount := c.warnCount + 1 })) := by
  have fa : ∀ (d : Conn) (a : Byte), a ≠ 0 → d.out = c.out → ∃ e c', asDone (d.failAlert a) = .ok (.done e, c') := by
    intro d a ha hd
    exact failsStep_returns (asDone_fails (failAlert_fails d a ha (by rw [hd]; exact ho)))
  unfold Conn.processRecord
  split
  · exact .inl (fa _ _ (by decide) rfl)
  · generalize hc1 : (if typ ≠ typAlert ∧ data.length > 0 then ({ c with warnCount := 0 } : Conn) else c) = c1
    have f1 : c1.out = c.out := by rw [← hc1]; split <;> rfl
    dsimp only
    by_cases ht : typ = typAlert
    · have hcc : c1 = c := by rw [← hc1, if_neg (by tauto)]
      subst hcc
      rw [if_pos ht]
      split
      · exact .inl (fa _ _ (by decide) rfl)
      · split
        · exact .inl ⟨_, _, rfl⟩
        · split
          · split
            · exact .inl (failsStep_returns (asDone_fails (failMsg_fails _ _ _ ho)))
            · rename_i hw
              exact .inr ⟨by omega, rfl⟩
          · split
            · exact .inl ⟨_, _, rfl⟩
            · exact .inl (fa _ _ (by decide) rfl)
    · rw [if_neg ht]
      left
      split
      · split
        · exact fa _ _ (by decide) f1
        · split
          · exact fa _ _ (by decide) f1
          · split
            · exact ⟨_, _, rfl⟩
            · exact fa _ _ (by decide) f1
      · split
        · split
          · exact fa _ _ (by decide) f1
          · exact ⟨_, _, rfl⟩
        · split
          · split
            · exact fa _ _ (by decide) f1
            · exact ⟨_, _, rfl⟩
          · exact fa _ _ (by decide) f1

theorem readOnce_total (k : Nat) (c : Conn) (want : Byte) (ho : CanSend c.out) (hi : CanReceive (k + 1) c.inp) :
    (∃ e c', c.readOnce want = .ok (.done e, c')) ∨
    (∃ c', c.readOnce want = .ok (.again, c') ∧ c'.out = c.out ∧ CanReceive k c'.inp ∧ c.warnCount < 5 ∧ c'.warnCount = c.warnCount + 1) := by
  have fm : ∀ (a : Byte) (msg : String), ∃ e c', asDone (c.failMsg a msg) = .ok (.done e, c') := by
    intro a msg
    exact failsStep_returns (asDone_fails (failMsg_fails c a msg ho))
  unfold Conn.readOnce
  split
  · exact .inl ⟨_, _, rfl⟩
  · dsimp only
    split
    · exact .inl (fm _ _)
    · split
      · exact .inl (fm _ _)
      · split
        · exact .inl (fm _ _)
        · split
          · exact .inl (fm _ _)
          · split
            · exact .inl ⟨_, _, rfl⟩
            · obtain ⟨d, inp', hd, hr⟩ := decrypt_total k c.inp (c.stream.take (5 + beNat ((c.stream.drop 3).take 2))) hi
              rw [hd]
              cases d with
              | none => exact .inl (failsStep_returns (asDone_fails (failAlert_fails _ 20 (by decide) ho)))
              | some data =>
                dsimp only
                rcases processRecord_total ({ c with stream := c.stream.drop (5 + beNat ((c.stream.drop 3).take 2)), inp := inp' } : Conn)
                  want (c.stream.getD 0 0) data ho with h | ⟨hw, h⟩
                · exact .inl h
                · exact .inr ⟨_, h, rfl, hr, hw, rfl⟩

theorem readLoop_fuel (k : Nat) : ∀ (c : Conn) (want : Byte), CanSend c.out → CanReceive (k + 1) c.inp → 5 ≤ c.warnCount + k →
    ∃ e c', Conn.readLoop (k + 1) c want = .ok (e, c') := by
  induction k with
  | zero =>
    intro c want ho hi hw
    unfold Conn.readLoop
    rcases readOnce_total 0 c want ho hi with ⟨e, c', h⟩ | ⟨c', _, _, _, hlt, _⟩
    · rw [h]; exact ⟨_, _, rfl⟩
    · omega
  | succ k ih =>
    intro c want ho hi hw
    unfold Conn.readLoop
    rcases readOnce_total (k + 1) c want ho hi with ⟨e, c', h⟩ | ⟨c', h, hout, hr, hlt, hwc⟩
    · rw [h]; exact ⟨_, _, rfl⟩
    · rw [h]
      exact ih c' want (by rw [hout]; exact ho) hr (by omega)

/-- C30: whatever bytes the peer sends, reading a record returns (it neither panics nor loops), unless a sequence number
is within 6 of exhaustion. -/
theorem C30_always_returns (c : Conn) (want : Byte) (ho : CanSend c.out) (hi : CanReceive 6 c.inp) :
    ∃ e c', c.readRecord want = .ok (e, c') := by
  unfold Conn.readRecord
  split
  · split
    · exact fails_returns (failMsg_fails c _ _ ho)
    · exact readLoop_fuel 5 c want ho hi (by omega)
  · split
    · split
      · exact fails_returns (failMsg_fails c _ _ ho)
      · exact readLoop_fuel 5 c want ho hi (by omega)
    · exact fails_returns (failMsg_fails c _ _ ho)

/-! ### errors are sticky -/

/-- C30: once the reading half has failed, `Read` returns the error and no data, for ever. -/
theorem C30_read_sticky (reneg : Conn → Res (Option String × Conn)) (peek : Bool) (c : Conn) (cap : Nat) (e : String)
    (h : c.inp.err = some e) (hcap : 0 < cap) : c.readApp reneg peek cap = .ok ([], some e, c) := by
  unfold Conn.readApp
  rw [if_neg (by omega)]
  unfold Conn.readPass Conn.fillInput
  rw [if_pos (by rw [h]; simp)]
  dsimp only
  rw [h]

/-- C30: once the reading half has failed, no further record is taken for the handshake: either a message already
complete in the buffer is returned, or an error. -/
theorem C30_handshake_sticky (parses : Bytes → Bool) (c : Conn) (e : String) (h : c.inp.err = some e)
    (hshort : c.hand.length < 4 ∨ (beNat ((c.hand.drop 1).take 3) ≤ 65536 ∧ c.hand.length < 4 + beNat ((c.hand.drop 1).take 3))) :
    c.readHandshake parses = .ok (.error e, c) := by
  unfold Conn.readHandshake
  by_cases h4 : c.hand.length < 4
  · unfold Conn.fillHand
    rw [if_neg (by omega), h]
  · obtain ⟨h1, h2⟩ := hshort.resolve_left h4
    have e1 : Conn.fillHand (c.stream.length + 1) c 4 = .ok (none, c) := by
      unfold Conn.fillHand; rw [if_pos (by omega)]
    have e2 : Conn.fillHand (c.stream.length + 1) c (4 + beNat ((c.hand.drop 1).take 3)) = .ok (some e, c) := by
      unfold Conn.fillHand
      rw [if_neg (by omega), h]
    rw [e1]
    dsimp only
    rw [if_neg (by omega), e2]

theorem processRecord_err (c : Conn) (want typ : Byte) (data : Bytes) (s : Step) (c' : Conn) (h : c.processRecord want typ data = .ok (s, c')) :
    (∀ e, s = .done e → c'.inp.err = e) ∧ (s = .again → c'.inp.err = c.inp.err) := by
  have fa : ∀ {d : Conn} {a : Byte}, a ≠ 0 → asDone (d.failAlert a) = .ok (s, c') →
      (∀ e, s = .done e → c'.inp.err = e) ∧ (s = .again → c'.inp.err = c.inp.err) := by
    intro d a ha hx
    obtain ⟨e, he⟩ := asDone_inv hx
    obtain ⟨x, hx, hy⟩ := failAlert_res ha he.2
    rw [he.1]
    exact ⟨fun e' h' => by cases h'; rw [hx, hy], fun h' => by cases h'⟩
  have fm : ∀ {d : Conn} {a : Byte} {msg : String}, asDone (d.failMsg a msg) = .ok (s, c') →
      (∀ e, s = .done e → c'.inp.err = e) ∧ (s = .again → c'.inp.err = c.inp.err) := by
    intro d a msg hx
    obtain ⟨e, he⟩ := asDone_inv hx
    obtain ⟨hx, hy⟩ := failMsg_res he.2
    rw [he.1]
    exact ⟨fun e' h' => by cases h'; rw [hx, hy], fun h' => by cases h'⟩
  have fin : ∀ {e : Option String} {d : Conn}, (Res.ok (Step.done e, d) : Res (Step × Conn)) = .ok (s, c') → d.inp.err = e →
      (∀ e, s = .done e → c'.inp.err = e) ∧ (s = .again → c'.inp.err = c.inp.err) := by
    intro e d hx hd
    have := Prod.mk.inj (Res.ok.inj hx)
    rw [← this.1, ← this.2]
    exact ⟨fun e' h' => by cases h'; exact hd, fun h' => by cases h'⟩
  unfold Conn.processRecord at h
  split at h
  · exact fa (by decide) h
  · generalize hc1 : (if typ ≠ typAlert ∧ data.length > 0 then ({ c with warnCount := 0 } : Conn) else c) = c1 at h
    have f1 : c1.inp = c.inp := by rw [← hc1]; split <;> rfl
    dsimp only at h
    split at h
    · split at h
      · exact fa (by decide) h
      · split at h
        · exact fin h rfl
        · split at h
          · split at h
            · exact fm h
            · have := Prod.mk.inj (Res.ok.inj h)
              rw [← this.1, ← this.2]
              exact ⟨fun e' h' => (by cases h'), fun _ => by simp only; rw [f1]⟩
          · split at h
            · exact fin h rfl
            · exact fa (by decide) h
    · split at h
      · split at h
        · exact fa (by decide) h
        · split at h
          · exact fa (by decide) h
          · split at h
            · exact fin h rfl
            · exact fa (by decide) h
      · split at h
        · split at h
          · exact fa (by decide) h
          · exact fin h rfl
        · split at h
          · split at h
            · exact fa (by decide) h
            · exact fin h rfl
          · exact fa (by decide) h

theorem readOnce_err (c : Conn) (want : Byte) (s : Step) (c' : Conn) (h : c.readOnce want = .ok (s, c')) :
    ∀ e, s = .done e → c'.inp.err = e := by
  have fa : ∀ {d : Conn} {a : Byte}, a ≠ 0 → asDone (d.failAlert a) = .ok (s, c') → ∀ e, s = .done e → c'.inp.err = e := by
    intro d a ha hx
    obtain ⟨e, he⟩ := asDone_inv hx
    obtain ⟨x, hx, hy⟩ := failAlert_res ha he.2
    rw [he.1]
    exact fun e' h' => by cases h'; rw [hx, hy]
  have fm : ∀ {d : Conn} {a : Byte} {msg : String}, asDone (d.failMsg a msg) = .ok (s, c') → ∀ e, s = .done e → c'.inp.err = e := by
    intro d a msg hx
    obtain ⟨e, he⟩ := asDone_inv hx
    obtain ⟨hx, hy⟩ := failMsg_res he.2
    rw [he.1]
    exact fun e' h' => by cases h'; rw [hx, hy]
  unfold Conn.readOnce at h
  split at h
  · have := Prod.mk.inj (Res.ok.inj h)
    rw [← this.1, ← this.2]
    exact fun e' h' => by cases h'; rfl
  · dsimp only at h
    split at h
    · exact fm h
    · split at h
      · exact fm h
      · split at h
        · exact fm h
        · split at h
          · exact fm h
          · split at h
            · have := Prod.mk.inj (Res.ok.inj h)
              rw [← this.1, ← this.2]
              exact fun e' h' => by cases h'; rfl
            · split at h
              · exact fa (by decide) h
              · exact (processRecord_err _ _ _ _ _ _ h).1
              · cases h
              · cases h

theorem readLoop_err (k : Nat) : ∀ (c : Conn) (want : Byte) (e : Option String) (c' : Conn), Conn.readLoop k c want = .ok (e, c') → c'.inp.err = e := by
  induction k with
  | zero => intro c want e c' h; cases h
  | succ k ih =>
    intro c want e c' h
    unfold Conn.readLoop at h
    split at h
    · rename_i e1 d hr
      have := Prod.mk.inj (Res.ok.inj h)
      obtain ⟨rfl, rfl⟩ := this
      exact readOnce_err _ _ _ _ hr _ rfl
    · exact ih _ _ _ _ h
    · cases h
    · cases h

/-- C30: what reading a record returns is exactly the recorded error of the reading half: an error is always recorded
(so that the two theorems above apply), and success means that none is. -/
theorem C30_error_recorded (c : Conn) (want : Byte) (e : Option String) (c' : Conn) (h : c.readRecord want = .ok (e, c')) : c'.inp.err = e := by
  unfold Conn.readRecord at h
  split at h
  · split at h
    · rw [(failMsg_res h).1, (failMsg_res h).2]
    · exact readLoop_err _ _ _ _ _ h
  · split at h
    · split at h
      · rw [(failMsg_res h).1, (failMsg_res h).2]
      · exact readLoop_err _ _ _ _ _ h
    · rw [(failMsg_res h).1, (failMsg_res h).2]

end Verif.Tls
