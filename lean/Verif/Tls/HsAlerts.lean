import Verif.Tls.HsExamples
/-!
C134: a client handshake that fails tells the server why, or the server ended it.
-/
namespace Verif.Tls
open Verif Verif.Tls.Wire

/-- no write on the transport will fail, and nothing is kept back unless the connection is buffering -/
structure Conn.Quiet (c : Conn) : Prop where
  writes : ∀ w ∈ c.writes, w = none
  kept : c.buffering = false → c.sendBuf = []

/-- the sending side is the same -/
structure SameOut (c d : Conn) : Prop where
  out : d.out = c.out
  wire : d.wire = c.wire
  sendBuf : d.sendBuf = c.sendBuf
  buffering : d.buffering = c.buffering
  writes : d.writes = c.writes
  rand : d.rand = c.rand

theorem SameOut.refl (c : Conn) : SameOut c c := ⟨rfl, rfl, rfl, rfl, rfl, rfl⟩
theorem SameOut.trans {a b c : Conn} (h : SameOut a b) (k : SameOut b c) : SameOut a c :=
  ⟨k.out.trans h.out, k.wire.trans h.wire, k.sendBuf.trans h.sendBuf, k.buffering.trans h.buffering, k.writes.trans h.writes, k.rand.trans h.rand⟩
theorem SameOut.quiet {c d : Conn} (h : SameOut c d) (q : c.Quiet) : d.Quiet :=
  ⟨by rw [h.writes]; exact q.writes, by rw [h.buffering, h.sendBuf]; exact q.kept⟩

theorem netWrite_quiet {c : Conn} (hw : ∀ w ∈ c.writes, w = none) (b : Bytes) :
    ∃ c', c.netWrite b = (none, c') ∧ (∀ w ∈ c'.writes, w = none) ∧ c'.out = c.out ∧ c'.rand = c.rand ∧ c'.sendBuf = c.sendBuf ∧ c'.buffering = c.buffering ∧
      c'.wire = c.wire ++ b ∧ c'.streamErr = c.streamErr ∧ c'.inp = c.inp := by
  unfold Conn.netWrite
  split
  · rename_i k rest h
    have := hw (some k) (by rw [h]; exact List.mem_cons_self)
    cases this
  · rename_i rest h
    exact ⟨_, rfl, fun w hw' => hw w (by rw [h]; exact List.mem_cons_of_mem _ hw'), rfl, rfl, rfl, rfl, rfl, rfl, rfl⟩
  · rename_i h
    exact ⟨_, rfl, hw, rfl, rfl, rfl, rfl, rfl, rfl, rfl⟩

/-- one record written -/
theorem write_quiet {c : Conn} (q : c.Quiet) (b : Bytes) :
    ∃ c', c.write b = (none, c') ∧ c'.Quiet ∧ c'.out = c.out ∧ c'.rand = c.rand ∧ c'.wire ++ c'.sendBuf = c.wire ++ c.sendBuf ++ b ∧
      c'.streamErr = c.streamErr ∧ c'.inp = c.inp := by
  unfold Conn.write
  split
  · rename_i hb
    refine ⟨_, rfl, ⟨q.writes, ?_⟩, rfl, rfl, ?_, rfl, rfl⟩
    · intro h; dsimp only at h; rw [hb] at h; cases h
    · simp
  · rename_i hb
    obtain ⟨c', h, h1, h2, h3, h4, h5, h6, h7, h8⟩ := netWrite_quiet q.writes b
    have hk := q.kept (by simpa using hb)
    refine ⟨c', h, ⟨h1, fun _ => h4.trans hk⟩, h2, h3, ?_, h7, h8⟩
    rw [h6, h4, hk]; simp

theorem flush_quiet {c : Conn} (q : c.Quiet) :
    ∃ c', c.flush = (none, c') ∧ c'.Quiet ∧ c'.out = c.out ∧ c'.rand = c.rand ∧ c'.sendBuf = [] ∧ c'.wire = c.wire ++ c.sendBuf ∧
      c'.streamErr = c.streamErr ∧ c'.inp = c.inp := by
  unfold Conn.flush
  split
  · rename_i h
    have h := List.eq_nil_of_length_eq_zero h
    exact ⟨c, rfl, q, rfl, rfl, h, by rw [h]; simp, rfl, rfl⟩
  · obtain ⟨c', h, h1, h2, h3, h4, h5, h6, h7, h8⟩ := netWrite_quiet q.writes c.sendBuf
    rw [h]
    exact ⟨_, rfl, ⟨h1, fun _ => rfl⟩, h2, h3, rfl, h6, h7, h8⟩

/-- the randomness for the next record is missing -/
def Conn.starved (c : Conn) : Prop := c.out.ivIsSeq = false ∧ c.rand.length < c.out.writeIVLen

theorem maxPayload_out (c : Conn) (typ : Byte) (e : Nat) : SameOut c (c.maxPayloadSizeForWrite typ e).2 ∧ (c.maxPayloadSizeForWrite typ e).2.streamErr = c.streamErr ∧
    (c.maxPayloadSizeForWrite typ e).2.inp = c.inp := by
  unfold Conn.maxPayloadSizeForWrite
  dsimp only
  repeat' split
  all_goals exact ⟨⟨rfl, rfl, rfl, rfl, rfl, rfl⟩, rfl, rfl⟩

/-- records written: all of them, or the randomness ran out -/
theorem writeLoop_quiet (fuel : Nat) : ∀ {c : Conn} {typ : Byte} {data : Bytes} {n n' : Nat} {r : Option String} {c' : Conn}, c.Quiet →
    Conn.writeLoop fuel c typ data n = .ok (n', r, c') → c'.Quiet ∧ (r = none ∨ c'.starved) ∧ c'.streamErr = c.streamErr ∧ c'.inp = c.inp := by
  induction fuel with
  | zero =>
    intro c typ data n n' r c' q h
    unfold Conn.writeLoop at h
    split at h
    · simp only [Res.ok.injEq, Prod.mk.injEq] at h
      obtain ⟨_, rfl, rfl⟩ := h
      exact ⟨q, Or.inl rfl, rfl, rfl⟩
    · cases h
  | succ fuel ih =>
    intro c typ data n n' r c' q h
    unfold Conn.writeLoop at h
    split at h
    · simp only [Res.ok.injEq, Prod.mk.injEq] at h
      obtain ⟨_, rfl, rfl⟩ := h
      exact ⟨q, Or.inl rfl, rfl, rfl⟩
    · dsimp only at h
      obtain ⟨s, s1, s2⟩ := maxPayload_out c typ c.out.writeIVLen
      generalize c.maxPayloadSizeForWrite typ c.out.writeIVLen = mp at h s s1 s2
      obtain ⟨mx, d⟩ := mp
      dsimp only at h s s1 s2
      split at h
      · cases h
      · split at h
        · rename_i hn
          simp only [Res.ok.injEq, Prod.mk.injEq] at h
          obtain ⟨_, _, rfl⟩ := h
          refine ⟨s.quiet q, Or.inr ?_, s1, s2⟩
          unfold Conn.starved
          rw [s.out]
          simp only [Bool.and_eq_true, decide_eq_true_eq, Bool.not_eq_true', s.out] at hn
          exact ⟨hn.1.2, hn.2⟩
        · generalize hd' : (if (c.out.writeIVLen != 0 && !d.out.ivIsSeq) = true then ({ d with rand := d.rand.drop c.out.writeIVLen } : Conn) else d) = d' at h
          have k : d'.Quiet ∧ d'.streamErr = d.streamErr ∧ d'.inp = d.inp := by
            rw [← hd']
            split
            · exact ⟨⟨(s.quiet q).writes, (s.quiet q).kept⟩, rfl, rfl⟩
            · exact ⟨s.quiet q, rfl, rfl⟩
          split at h
          · rename_i b out' hwo
            obtain ⟨c2, w0, w1, w2, w3, w4, w5, w6⟩ := write_quiet (c := { d' with out := out' }) ⟨k.1.writes, k.1.kept⟩ b
            rw [w0] at h
            dsimp only at h
            obtain ⟨g1, g2, g3, g4⟩ := ih w1 h
            exact ⟨g1, g2, by rw [g3, w5, ← s1, ← k.2.1], by rw [g4, w6, ← s2, ← k.2.2]⟩
          · cases h
          · cases h

/-- an alert `a` was handed to `sendAlert` in a state with sending side `d`, and nothing was sent after it -/
def Told (A : Byte → Prop) (c : Conn) : Prop :=
  ∃ (d d' : Conn) (a : Byte) (x : Option String), A a ∧ d.Quiet ∧ d.sendAlert a = .ok (x, d') ∧ SameOut d' c

theorem Told.same {A : Byte → Prop} {c c' : Conn} (h : Told A c) (s : SameOut c c') : Told A c' := by
  obtain ⟨d, d', a, x, h1, h2, h3, h4⟩ := h
  exact ⟨d, d', a, x, h1, h2, h3, h4.trans s⟩

theorem sendAlert_quiet {c c' : Conn} {a : Byte} {x : Option String} (q : c.Quiet) (h : c.sendAlert a = .ok (x, c')) : c'.Quiet ∧ c'.streamErr = c.streamErr := by
  unfold Conn.sendAlert at h
  dsimp only at h
  split at h
  · rename_i n we d hl
    obtain ⟨g1, g2, g3, g4⟩ := writeLoop_quiet 2 q hl
    split at h
    · simp only [Res.ok.injEq, Prod.mk.injEq] at h
      rw [← h.2]; exact ⟨g1, g3⟩
    · simp only [Res.ok.injEq, Prod.mk.injEq] at h
      rw [← h.2]; exact ⟨⟨g1.writes, g1.kept⟩, g3⟩
  · cases h
  · cases h

/-- **What an alert leaves behind**: its record is the last of the bytes written or kept for writing -/
theorem sendAlert_record {c c' : Conn} {a : Byte} {x : Option String} (ha : a ≠ 0) (q : c.Quiet) (h : c.sendAlert a = .ok (x, c')) :
    c'.starved ∨ ∃ (hdr iv rec : Bytes) (hc hc' : HalfConn), hdr.length = 3 ∧ hdr[0]? = some 21 ∧ hc.writeOne hdr iv [if a = 100 then 1 else 2, a] = .ok (rec, hc') ∧
      c'.wire ++ c'.sendBuf = c.wire ++ c.sendBuf ++ rec ∧ c'.out.err.isSome = true := by
  unfold Conn.sendAlert at h
  dsimp only at h
  have hlev : (if a = 100 ∨ a = 0 then (1 : Byte) else 2) = if a = 100 then 1 else 2 := by
    by_cases h1 : a = 100
    · simp [h1]
    · rw [if_neg (by rintro (h | h); exacts [h1 h, ha h]), if_neg h1]
  rw [hlev] at h
  split at h
  · rename_i n we d hl
    rw [if_neg ha] at h
    simp only [Res.ok.injEq, Prod.mk.injEq] at h
    obtain ⟨_, rfl⟩ := h
    unfold Conn.writeLoop at hl
    rw [if_neg (by simp)] at hl
    dsimp only at hl
    have hm : c.maxPayloadSizeForWrite typAlert c.out.writeIVLen = (16384, c) := by
      unfold Conn.maxPayloadSizeForWrite
      rw [if_pos]
      simp [typAlert, typAppData]
    rw [hm] at hl
    dsimp only at hl
    rw [if_neg (by decide)] at hl
    split at hl
    · rename_i hn
      left
      simp only [Res.ok.injEq, Prod.mk.injEq] at hl
      obtain ⟨_, _, rfl⟩ := hl
      simp only [Bool.and_eq_true, decide_eq_true_eq, Bool.not_eq_true'] at hn
      exact ⟨hn.1.2, hn.2⟩
    · right
      generalize hd' : (if (c.out.writeIVLen != 0 && !c.out.ivIsSeq) = true then ({ c with rand := c.rand.drop c.out.writeIVLen } : Conn) else c) = d' at hl
      have k : d'.Quiet ∧ d'.wire = c.wire ∧ d'.sendBuf = c.sendBuf := by
        rw [← hd']
        split
        · exact ⟨⟨q.writes, q.kept⟩, rfl, rfl⟩
        · exact ⟨q, rfl, rfl⟩
      split at hl
      · rename_i b out' hwo
        obtain ⟨c2, w0, w1, w2, w3, w4, w5, w6⟩ := write_quiet (c := { d' with out := out' }) ⟨k.1.writes, k.1.kept⟩ b
        rw [w0] at hl
        dsimp only at hl
        unfold Conn.writeLoop at hl
        rw [if_pos (by simp)] at hl
        simp only [Res.ok.injEq, Prod.mk.injEq] at hl
        obtain ⟨_, _, rfl⟩ := hl
        refine ⟨d'.recHdr typAlert, c.rand.take c.out.writeIVLen, b, d'.out, out', rfl, rfl, ?_, ?_, rfl⟩
        · exact hwo
        · dsimp only at w4 ⊢
          rw [w4, k.2.1, k.2.2]
      · cases hl
      · cases hl
  · cases h
  · cases h

/-! ### reading -/

/-- the alerts of the reader: unexpected_message, bad_record_mac, record_overflow, protocol_version, internal_error, no_renegotiation -/
def readAlerts : List Byte := [10, 20, 22, 70, 80, 100]

namespace Spec
/-- the transport ended or failed with `s`, or the server sent close_notify or a fatal alert: how reading fails without an alert -/
inductive PeerEnded (s : String) : String → Prop
  | transport : PeerEnded s s
  | cut (h : s = "EOF") : PeerEnded s "unexpected EOF"
  | closed : PeerEnded s "EOF"
  | alert (a : Byte) (h : a ≠ 0) : PeerEnded s ("remote error " ++ toString a.toNat)
end Spec

theorem failAlert_told {A : Byte → Prop} {c c' : Conn} {a : Byte} {x : Option String} (hA : A a) (ha : a ≠ 0) (q : c.Quiet) (h : c.failAlert a = .ok (x, c')) :
    Told A c' ∧ x.isSome = true := by
  unfold Conn.failAlert at h
  split at h
  · rename_i e d hs
    simp only [Res.ok.injEq, Prod.mk.injEq] at h
    rw [← h.1, ← h.2]
    refine ⟨⟨c, d, a, _, hA, q, hs, ⟨rfl, rfl, rfl, rfl, rfl, rfl⟩⟩, ?_⟩
    have := sendAlert_some ha hs
    rw [this.1]; rfl
  · cases h
  · cases h

theorem failMsg_told {A : Byte → Prop} {c c' : Conn} {a : Byte} {msg : String} {x : Option String} (hA : A a) (q : c.Quiet) (h : c.failMsg a msg = .ok (x, c')) :
    Told A c' ∧ x.isSome = true := by
  unfold Conn.failMsg at h
  split at h
  · rename_i e d hs
    simp only [Res.ok.injEq, Prod.mk.injEq] at h
    rw [← h.1, ← h.2]
    exact ⟨⟨c, d, a, _, hA, q, hs, ⟨rfl, rfl, rfl, rfl, rfl, rfl⟩⟩, rfl⟩
  · cases h
  · cases h

/-- one pass of the reader -/
def StepEnd (A : Byte → Prop) (c : Conn) (st : Step) (c' : Conn) : Prop :=
  (Told A c' ∧ ∃ e, st = .done (some e)) ∨ (SameOut c c' ∧ c'.streamErr = c.streamErr ∧ (∀ e, st = .done (some e) → Spec.PeerEnded c.streamErr e) ∧ (st = .again → c'.inp.err = none))

theorem told_alert {A : Byte → Prop} {c d c' : Conn} {a : Byte} {st : Step} (hA : A a) (q : d.Quiet) (h : asDone (d.failAlert a) = .ok (st, c'))
    (ha : a ≠ 0 := by decide) : StepEnd A c st c' := by
  obtain ⟨x, hst, hx⟩ := asDone_inv h
  obtain ⟨t, hs⟩ := failAlert_told hA ha q hx
  obtain ⟨e, rfl⟩ := Option.isSome_iff_exists.1 hs
  exact Or.inl ⟨t, e, hst⟩

theorem told_msg {A : Byte → Prop} {c d c' : Conn} {a : Byte} {msg : String} {st : Step} (hA : A a) (q : d.Quiet) (h : asDone (d.failMsg a msg) = .ok (st, c')) :
    StepEnd A c st c' := by
  obtain ⟨x, hst, hx⟩ := asDone_inv h
  obtain ⟨t, hs⟩ := failMsg_told hA q hx
  obtain ⟨e, rfl⟩ := Option.isSome_iff_exists.1 hs
  exact Or.inl ⟨t, e, hst⟩

theorem processRecord_end {A : Byte → Prop} (hA : ∀ a ∈ readAlerts, A a) {c c' : Conn} {want typ : Byte} {data : Bytes} {st : Step} (q : c.Quiet) (hi : c.inp.err = none)
    (h : c.processRecord want typ data = .ok (st, c')) : StepEnd A c st c' := by
  unfold Conn.processRecord at h
  split at h
  · exact told_alert (hA _ (by decide)) q h
  · dsimp only at h
    generalize hd : (if typ ≠ typAlert ∧ data.length > 0 then ({ c with warnCount := 0 } : Conn) else c) = d at h
    have k : SameOut c d ∧ d.streamErr = c.streamErr ∧ d.inp = c.inp := by
      rw [← hd]; split <;> exact ⟨⟨rfl, rfl, rfl, rfl, rfl, rfl⟩, rfl, rfl⟩
    have kq := k.1.quiet q
    have ki : d.inp.err = none := by rw [k.2.2]; exact hi
    split at h
    · split at h
      · exact told_alert (hA _ (by decide)) kq h
      · split at h
        · simp only [Res.ok.injEq, Prod.mk.injEq] at h
          obtain ⟨rfl, rfl⟩ := h
          exact Or.inr ⟨k.1.trans ⟨rfl, rfl, rfl, rfl, rfl, rfl⟩, k.2.1, fun e he => (by cases he; exact .closed), fun h => by cases h⟩
        · rename_i hz
          split at h
          · split at h
            · refine told_msg (hA _ ?_) ?_ h
              · decide
              · exact ⟨kq.writes, kq.kept⟩
            · simp only [Res.ok.injEq, Prod.mk.injEq] at h
              obtain ⟨rfl, rfl⟩ := h
              exact Or.inr ⟨k.1.trans ⟨rfl, rfl, rfl, rfl, rfl, rfl⟩, k.2.1, fun e he => (by cases he), fun _ => ki⟩
          · split at h
            · simp only [Res.ok.injEq, Prod.mk.injEq] at h
              obtain ⟨rfl, rfl⟩ := h
              exact Or.inr ⟨k.1.trans ⟨rfl, rfl, rfl, rfl, rfl, rfl⟩, k.2.1, fun e he => (by cases he; exact .alert _ hz), fun h => by cases h⟩
            · exact told_alert (hA _ (by decide)) kq h
    · split at h
      · split at h
        · exact told_alert (hA _ (by decide)) kq h
        · split at h
          · exact told_alert (hA _ (by decide)) kq h
          · split at h
            · rename_i inp' hcc
              simp only [Res.ok.injEq, Prod.mk.injEq] at h
              obtain ⟨rfl, rfl⟩ := h
              refine Or.inr ⟨k.1.trans ⟨rfl, rfl, rfl, rfl, rfl, rfl⟩, k.2.1, fun e he => ?_, fun h => by cases h⟩
              rw [changeCipherSpec_err _ _ hcc, ki] at he
              cases he
            · exact told_alert (hA _ (by decide)) kq h
      · split at h
        · split at h
          · exact told_alert (hA _ (by decide)) kq h
          · simp only [Res.ok.injEq, Prod.mk.injEq] at h
            obtain ⟨rfl, rfl⟩ := h
            exact Or.inr ⟨k.1.trans ⟨rfl, rfl, rfl, rfl, rfl, rfl⟩, k.2.1, fun e he => (by rw [ki] at he; cases he), fun h => by cases h⟩
        · split at h
          · split at h
            · exact told_alert (hA _ (by decide)) kq h
            · simp only [Res.ok.injEq, Prod.mk.injEq] at h
              obtain ⟨rfl, rfl⟩ := h
              exact Or.inr ⟨k.1.trans ⟨rfl, rfl, rfl, rfl, rfl, rfl⟩, k.2.1, fun e he => (by rw [ki] at he; cases he), fun h => by cases h⟩
          · exact told_alert (hA _ (by decide)) kq h

theorem readOnce_end {A : Byte → Prop} (hA : ∀ a ∈ readAlerts, A a) {c c' : Conn} {want : Byte} {st : Step} (q : c.Quiet) (hi : c.inp.err = none)
    (h : c.readOnce want = .ok (st, c')) : StepEnd A c st c' := by
  unfold Conn.readOnce at h
  split at h
  · simp only [Res.ok.injEq, Prod.mk.injEq] at h
    obtain ⟨rfl, rfl⟩ := h
    exact Or.inr ⟨⟨rfl, rfl, rfl, rfl, rfl, rfl⟩, rfl, fun e he => (by cases he; exact .transport), fun h => by cases h⟩
  · dsimp only at h
    split at h
    · exact told_msg (hA _ (by decide)) q h
    · split at h
      · exact told_msg (hA _ (by decide)) q h
      · split at h
        · exact told_msg (hA _ (by decide)) q h
        · split at h
          · exact told_msg (hA _ (by decide)) q h
          · split at h
            · simp only [Res.ok.injEq, Prod.mk.injEq] at h
              obtain ⟨rfl, rfl⟩ := h
              refine Or.inr ⟨⟨rfl, rfl, rfl, rfl, rfl, rfl⟩, rfl, fun e he => ?_, fun h => by cases h⟩
              simp only [Step.done.injEq, Option.some.injEq] at he
              rw [← he]
              split
              · rename_i hs; exact .cut hs
              · exact .transport
            · split at h
              · refine told_alert (hA _ ?_) ?_ h
                · decide
                · exact ⟨q.writes, q.kept⟩
              · rename_i data inp' hdec
                have he : inp'.err = none := by
                  rw [(decrypt_nextCipher _ _ _ _ hdec).2.2.1]; exact hi
                rcases processRecord_end hA (c := { c with stream := c.stream.drop (5 + beNat ((c.stream.drop 3).take 2)), inp := inp' }) ⟨q.writes, q.kept⟩ he h with h | ⟨s, h1, h2, h3⟩
                · exact Or.inl h
                · refine Or.inr ⟨SameOut.trans ?_ s, h1, h2, h3⟩
                  exact ⟨rfl, rfl, rfl, rfl, rfl, rfl⟩
              · cases h
              · cases h

theorem readLoop_end {A : Byte → Prop} (hA : ∀ a ∈ readAlerts, A a) (want : Byte) : ∀ (k : Nat) {c c' : Conn} {r : Option String}, c.Quiet → c.inp.err = none →
    Conn.readLoop k c want = .ok (r, c') → (Told A c' ∧ r.isSome = true) ∨ (SameOut c c' ∧ c'.streamErr = c.streamErr ∧ ∀ e, r = some e → Spec.PeerEnded c.streamErr e) := by
  intro k
  induction k with
  | zero => intro c c' r _ _ h; cases h
  | succ k ih =>
    intro c c' r q hi h
    unfold Conn.readLoop at h
    split at h
    · rename_i e d ho
      simp only [Res.ok.injEq, Prod.mk.injEq] at h
      obtain ⟨rfl, rfl⟩ := h
      rcases readOnce_end hA q hi ho with ⟨t, e', he⟩ | ⟨s, s1, s2, s3⟩
      · left; refine ⟨t, ?_⟩
        rw [Step.done.inj he]; rfl
      · exact Or.inr ⟨s, s1, fun e' he => s2 e' (by rw [he])⟩
    · rename_i d ho
      rcases readOnce_end hA q hi ho with ⟨t, e', he⟩ | ⟨s, s1, s2, s3⟩
      · cases he
      · rcases ih (s.quiet q) (s3 rfl) h with t | ⟨g, g1, g2⟩
        · exact Or.inl t
        · exact Or.inr ⟨s.trans g, g1.trans s1, fun e he => by rw [← s1]; exact g2 e he⟩
    · cases h
    · cases h

/-- **The reader**: it leaves the sending side alone, or it fails and the last thing sent is an alert -/
theorem readRecord_end {A : Byte → Prop} (hA : ∀ a ∈ readAlerts, A a) {want : Byte} {c c' : Conn} {r : Option String} (q : c.Quiet) (hi : c.inp.err = none)
    (h : c.readRecord want = .ok (r, c')) :
    (Told A c' ∧ r.isSome = true) ∨ (SameOut c c' ∧ c'.streamErr = c.streamErr ∧ ∀ e, r = some e → Spec.PeerEnded c.streamErr e) := by
  unfold Conn.readRecord at h
  split at h
  · split at h
    · exact Or.inl (failMsg_told (hA _ (by decide)) q h)
    · exact readLoop_end hA want 6 q hi h
  · split at h
    · split at h
      · exact Or.inl (failMsg_told (hA _ (by decide)) q h)
      · exact readLoop_end hA want 6 q hi h
    · exact Or.inl (failMsg_told (hA _ (by decide)) q h)

theorem fillHand_end {A : Byte → Prop} (hA : ∀ a ∈ readAlerts, A a) : ∀ (fuel : Nat) {c c' : Conn} {k : Nat} {r : Option String}, c.Quiet → c.inp.err = none →
    Conn.fillHand fuel c k = .ok (r, c') →
    (Told A c' ∧ r.isSome = true) ∨ (SameOut c c' ∧ c'.streamErr = c.streamErr ∧ (∀ e, r = some e → Spec.PeerEnded c.streamErr e) ∧ (r = none → c'.inp.err = none)) := by
  intro fuel
  induction fuel with
  | zero =>
    intro c c' k r q hi h
    unfold Conn.fillHand at h
    split at h
    · simp only [Res.ok.injEq, Prod.mk.injEq] at h
      obtain ⟨rfl, rfl⟩ := h
      exact Or.inr ⟨.refl _, rfl, fun e he => (by cases he), fun _ => hi⟩
    · rw [hi] at h; cases h
  | succ n ih =>
    intro c c' k r q hi h
    unfold Conn.fillHand at h
    split at h
    · simp only [Res.ok.injEq, Prod.mk.injEq] at h
      obtain ⟨rfl, rfl⟩ := h
      exact Or.inr ⟨.refl _, rfl, fun e he => (by cases he), fun _ => hi⟩
    · rw [hi] at h
      dsimp only at h
      split at h
      · rename_i e d hr
        simp only [Res.ok.injEq, Prod.mk.injEq] at h
        obtain ⟨rfl, rfl⟩ := h
        rcases readRecord_end hA q hi hr with t | ⟨s, s1, s2⟩
        · exact Or.inl t
        · exact Or.inr ⟨s, s1, s2, fun h => by cases h⟩
      · rename_i d hr
        rcases readRecord_end hA q hi hr with ⟨_, t⟩ | ⟨s, s1, s2⟩
        · cases t
        · rcases ih (s.quiet q) (C30_error_recorded _ _ _ _ hr) h with t | ⟨g, g1, g2, g3⟩
          · exact Or.inl t
          · exact Or.inr ⟨s.trans g, g1.trans s1, fun e he => (by rw [← s1]; exact g2 e he), g3⟩
      · cases h
      · cases h

theorem readHandshake_end {A : Byte → Prop} (hA : ∀ a ∈ readAlerts, A a) {parses : Bytes → Bool} {c c' : Conn} {r : Except String Bytes} (q : c.Quiet) (hi : c.inp.err = none)
    (h : c.readHandshake parses = .ok (r, c')) :
    (Told A c' ∧ ∃ e, r = .error e) ∨ (SameOut c c' ∧ c'.streamErr = c.streamErr ∧ (∀ e, r = .error e → Spec.PeerEnded c.streamErr e) ∧ (∀ b, r = .ok b → c'.inp.err = none)) := by
  unfold Conn.readHandshake at h
  split at h
  · rename_i e d hf
    simp only [Res.ok.injEq, Prod.mk.injEq] at h
    obtain ⟨rfl, rfl⟩ := h
    rcases fillHand_end hA _ q hi hf with ⟨t, _⟩ | ⟨s, s1, s2, s3⟩
    · exact Or.inl ⟨t, e, rfl⟩
    · exact Or.inr ⟨s, s1, fun e' he => (by cases he; exact s2 _ rfl), fun b hb => by cases hb⟩
  · rename_i d hf
    rcases fillHand_end hA _ q hi hf with ⟨_, t⟩ | ⟨s, s1, s2, s3⟩
    · cases t
    · have sq := s.quiet q
      have si := s3 rfl
      dsimp only at h
      split at h
      · split at h
        · rename_i x d' hm
          simp only [Res.ok.injEq, Prod.mk.injEq] at h
          obtain ⟨rfl, rfl⟩ := h
          exact Or.inl ⟨(failMsg_told (hA _ (by decide)) sq hm).1, _, rfl⟩
        · cases h
        · cases h
      · split at h
        · rename_i e d' hf'
          simp only [Res.ok.injEq, Prod.mk.injEq] at h
          obtain ⟨rfl, rfl⟩ := h
          rcases fillHand_end hA _ sq si hf' with ⟨t, _⟩ | ⟨g, g1, g2, g3⟩
          · exact Or.inl ⟨t, e, rfl⟩
          · exact Or.inr ⟨s.trans g, g1.trans s1, fun e' he => (by cases he; rw [← s1]; exact g2 _ rfl), fun b hb => by cases hb⟩
        · rename_i d' hf'
          rcases fillHand_end hA _ sq si hf' with ⟨_, t⟩ | ⟨g, g1, g2, g3⟩
          · cases t
          · split at h
            · simp only [Res.ok.injEq, Prod.mk.injEq] at h
              obtain ⟨rfl, rfl⟩ := h
              exact Or.inr ⟨(s.trans g).trans ⟨rfl, rfl, rfl, rfl, rfl, rfl⟩, g1.trans s1, fun e he => (by cases he), fun _ _ => g3 rfl⟩
            · have gq := g.quiet sq
              split at h
              · rename_i x d2 hm
                simp only [Res.ok.injEq, Prod.mk.injEq] at h
                obtain ⟨rfl, rfl⟩ := h
                refine Or.inl ⟨(failAlert_told (hA _ ?_) ?_ ?_ hm).1, _, rfl⟩
                · decide
                · decide
                · exact ⟨gq.writes, gq.kept⟩
              · cases h
              · cases h
        · cases h
        · cases h
  · cases h
  · cases h

theorem readMessage_end {A : Byte → Prop} (hA : ∀ a ∈ readAlerts, A a) {gm : Bool} {c c' : Conn} {r : Except String Message} (q : c.Quiet) (hi : c.inp.err = none)
    (h : c.readMessage gm = .ok (r, c')) :
    (Told A c' ∧ ∃ e, r = .error e) ∨ (SameOut c c' ∧ c'.streamErr = c.streamErr ∧ (∀ e, r = .error e → Spec.PeerEnded c.streamErr e) ∧ (∀ b, r = .ok b → c'.inp.err = none)) := by
  unfold Conn.readMessage at h
  dsimp only at h
  split at h
  · rename_i e d hr
    simp only [Res.ok.injEq, Prod.mk.injEq] at h
    obtain ⟨rfl, rfl⟩ := h
    rcases readHandshake_end hA q hi hr with ⟨t, _⟩ | ⟨s, s1, s2, s3⟩
    · exact Or.inl ⟨t, e, rfl⟩
    · exact Or.inr ⟨s, s1, fun e' he => (by cases he; exact s2 _ rfl), fun b hb => by cases hb⟩
  · rename_i data d hr
    split at h
    · simp only [Res.ok.injEq, Prod.mk.injEq] at h
      obtain ⟨rfl, rfl⟩ := h
      rcases readHandshake_end hA q hi hr with ⟨_, t, ht⟩ | ⟨s, s1, s2, s3⟩
      · cases ht
      · exact Or.inr ⟨s, s1, fun e' he => (by cases he), fun b hb => s3 _ rfl⟩
    · cases h
  · cases h
  · cases h

/-! ### a whole run -/

/-- how a handshake program fails: the peer or the transport ended it, the randomness ran out, or an alert is the last thing sent -/
def FailEnd (A : Byte → Prop) (s : String) (r : HsEnd α) (c : Conn) : Prop :=
  (c.Quiet ∧ c.starved) ∨ Told A c ∨ (c.Quiet ∧ ∃ e, r = .failed e ∧ Spec.PeerEnded s e)

theorem writeRecord_end {A : Byte → Prop} (hA : A 80) {c c' : Conn} {typ : Byte} {b : Bytes} {n : Nat} {r : Option String} (q : c.Quiet)
    (h : c.writeRecord typ b = .ok (n, r, c')) :
    (r = none ∧ c'.Quiet ∧ c'.streamErr = c.streamErr ∧ c'.inp = c.inp) ∨ (r.isSome = true ∧ ((c'.Quiet ∧ c'.starved) ∨ Told A c')) := by
  unfold Conn.writeRecord at h
  split at h
  · rename_i e d hl
    simp only [Res.ok.injEq, Prod.mk.injEq] at h
    obtain ⟨_, rfl, rfl⟩ := h
    obtain ⟨g1, g2, g3, g4⟩ := writeLoop_quiet _ q hl
    rcases g2 with g2 | g2
    · cases g2
    · exact Or.inr ⟨rfl, Or.inl ⟨g1, g2⟩⟩
  · rename_i d hl
    obtain ⟨g1, _, g3, g4⟩ := writeLoop_quiet _ q hl
    split at h
    · split at h
      · rename_i out' hcc
        simp only [Res.ok.injEq, Prod.mk.injEq] at h
        obtain ⟨_, rfl, rfl⟩ := h
        exact Or.inl ⟨rfl, ⟨g1.writes, g1.kept⟩, g3, g4⟩
      · split at h
        · rename_i e d' hs
          simp only [Res.ok.injEq, Prod.mk.injEq] at h
          obtain ⟨_, rfl, rfl⟩ := h
          refine Or.inr ⟨?_, Or.inr ⟨d, d', 80, _, hA, g1, hs, .refl _⟩⟩
          rw [(sendAlert_some (by decide) hs).1]; rfl
        · cases h
        · cases h
    · simp only [Res.ok.injEq, Prod.mk.injEq] at h
      obtain ⟨_, rfl, rfl⟩ := h
      exact Or.inl ⟨rfl, g1, g3, g4⟩
  · cases h
  · cases h

theorem keyHalf_err {P : Prims} {v : Version} {s : Suite} {k : DirKeys} {rd : Bool} {hc hc' : HalfConn} (h : keyHalf P v s k rd hc = .ok hc') : hc'.err = hc.err := by
  unfold keyHalf at h
  repeat' split at h
  all_goals first | (have := Res.ok.inj h; rw [← this]; rfl) | cases h

theorem HsUpd.apply_quiet {P : Prims} {u : HsUpd} {c c' : Conn} (h : u.apply P c = .ok c') (q : c.Quiet) (hi : c.inp.err = none) :
    c'.Quiet ∧ c'.streamErr = c.streamErr ∧ c'.inp.err = none := by
  cases u with
  | setVers v => have := Res.ok.inj h; rw [← this]; exact ⟨⟨q.writes, q.kept⟩, rfl, hi⟩
  | pinVers v => have := Res.ok.inj h; rw [← this]; exact ⟨⟨q.writes, q.kept⟩, rfl, hi⟩
  | buffer => have := Res.ok.inj h; rw [← this]; exact ⟨⟨q.writes, fun h => by cases h⟩, rfl, hi⟩
  | clientKeys s m cr sr =>
    simp only [HsUpd.apply, Conn.clientEstablish] at h
    split at h
    · split at h
      · rename_i i o' hk _
        have := Res.ok.inj h; rw [← this]
        refine ⟨⟨q.writes, q.kept⟩, rfl, ?_⟩
        show i.err = none
        rw [keyHalf_err hk]; exact hi
      · cases h
    · cases h
  | serverKeys s m cr sr =>
    simp only [HsUpd.apply, Conn.serverEstablish] at h
    split at h
    · split at h
      · rename_i i o' hk _
        have := Res.ok.inj h; rw [← this]
        refine ⟨⟨q.writes, q.kept⟩, rfl, ?_⟩
        show i.err = none
        rw [keyHalf_err hk]; exact hi
      · cases h
    · cases h

/-- **Any handshake program whose refusals all have alerts** -/
theorem run_end {α : Type} {A : Byte → Prop} (hA : ∀ a ∈ readAlerts, A a) {R : α → Prop} (P : Prims) (gm : Bool) (p : Hs α) :
    p.Safe (fun x => ∃ a, A a ∧ x = some a) R → ∀ (c : Conn) (o : HsOut α), c.Quiet → c.inp.err = none → p.run P gm c = .ok o →
    (∃ a, o.result = .done a) ∨ FailEnd A c.streamErr o.result o.conn := by
  induction p with
  | ret a => intro _ c o _ _ h; have := Res.ok.inj h; subst this; exact Or.inl ⟨a, rfl⟩
  | fail al e0 =>
    intro hp c o q hi h
    obtain ⟨a, ha, rfl⟩ := hp
    simp only [Hs.run] at h
    split at h
    · rename_i x d hs
      have := Res.ok.inj h; subst this
      exact Or.inr (Or.inr (Or.inl ⟨c, d, a, _, ha, q, hs, .refl _⟩))
    · cases h
    · cases h
  | panic => intro _ c o _ _ h; cases h
  | read k ih =>
    intro hp c o q hi h
    simp only [Hs.run] at h
    split at h
    · rename_i e d hr
      have := Res.ok.inj h; subst this
      rcases readMessage_end hA q hi hr with ⟨t, _⟩ | ⟨s, s1, s2, s3⟩
      · exact Or.inr (Or.inr (Or.inl t))
      · exact Or.inr (Or.inr (Or.inr ⟨s.quiet q, e, rfl, s2 e rfl⟩))
    · rename_i m c1 hr
      obtain ⟨o', h1, rfl⟩ := saw_inv h
      rcases readMessage_end hA q hi hr with ⟨_, e, he⟩ | ⟨s, s1, s2, s3⟩
      · cases he
      · have := ih m (hp m) c1 o' (s.quiet q) (s3 _ rfl) h1
        rw [s1] at this
        exact this
    · cases h
    · cases h
  | readSwitch k ih =>
    intro hp c o q hi h
    simp only [Hs.run] at h
    split at h
    · rename_i e0 c1 hr
      have he0 := C30_error_recorded _ _ _ _ hr
      split at h
      · rename_i e he
        have := Res.ok.inj h; subst this
        rcases readRecord_end hA q hi hr with ⟨t, _⟩ | ⟨s, s1, s2⟩
        · exact Or.inr (Or.inr (Or.inl t))
        · exact Or.inr (Or.inr (Or.inr ⟨s.quiet q, e, rfl, s2 e (he0.symm.trans he)⟩))
      · rename_i he
        rcases readRecord_end hA q hi hr with ⟨_, t⟩ | ⟨s, s1, _⟩
        · rw [← he0, he] at t; cases t
        · split at h
          · rename_i e c2 hm
            have := Res.ok.inj h; subst this
            rcases readMessage_end hA (s.quiet q) he hm with ⟨t, _⟩ | ⟨g, g1, g2, g3⟩
            · exact Or.inr (Or.inr (Or.inl t))
            · exact Or.inr (Or.inr (Or.inr ⟨g.quiet (s.quiet q), e, rfl, by rw [← s1]; exact g2 e rfl⟩))
          · rename_i m c2 hm
            obtain ⟨o', h1, rfl⟩ := saw_inv h
            rcases readMessage_end hA (s.quiet q) he hm with ⟨_, e, he'⟩ | ⟨g, g1, g2, g3⟩
            · cases he'
            · have := ih _ m (hp _ m) c2 o' (g.quiet (s.quiet q)) (g3 _ rfl) h1
              rw [g1, s1] at this
              exact this
          · cases h
          · cases h
    · cases h
    · cases h
  | write b m k ih =>
    intro hp c o q hi h
    simp only [Hs.run] at h
    split at h
    · rename_i e d hw
      have := Res.ok.inj h; subst this
      rcases writeRecord_end (hA 80 (by decide)) q hw with ⟨hn, _⟩ | ⟨_, t⟩
      · cases hn
      · exact Or.inr (t.elim Or.inl fun t => Or.inr (Or.inl t))
    · rename_i d hw
      obtain ⟨o', h1, rfl⟩ := put_inv h
      rcases writeRecord_end (hA 80 (by decide)) q hw with ⟨_, w1, w2, w3⟩ | ⟨hn, _⟩
      · have := ih hp _ o' w1 (by rw [w3]; exact hi) h1
        rw [w2] at this
        exact this
      · cases hn
    · cases h
    · cases h
  | writeCCS k ih =>
    intro hp c o q hi h
    simp only [Hs.run] at h
    split at h
    · rename_i e d hw
      have := Res.ok.inj h; subst this
      rcases writeRecord_end (hA 80 (by decide)) q hw with ⟨hn, _⟩ | ⟨_, t⟩
      · cases hn
      · exact Or.inr (t.elim Or.inl fun t => Or.inr (Or.inl t))
    · rename_i d hw
      obtain ⟨o', h1, rfl⟩ := put_inv h
      rcases writeRecord_end (hA 80 (by decide)) q hw with ⟨_, w1, w2, w3⟩ | ⟨hn, _⟩
      · have := ih hp _ o' w1 (by rw [w3]; exact hi) h1
        rw [w2] at this
        exact this
      · cases hn
    · cases h
    · cases h
  | flush k ih =>
    intro hp c o q hi h
    obtain ⟨c1, hf, w1, w2, w3, w4, w5, w6, w7⟩ := flush_quiet q
    simp only [Hs.run, hf] at h
    have := ih hp c1 o w1 (by rw [w7]; exact hi) h
    rw [w6] at this
    exact this
  | upd u k ih =>
    intro hp c o q hi h
    simp only [Hs.run] at h
    split at h
    · rename_i c1 hw
      obtain ⟨w1, w2, w3⟩ := HsUpd.apply_quiet hw q hi
      have := ih hp c1 o w1 w3 h
      rw [w2] at this
      exact this
    · cases h
    · cases h

theorem Hs.Safe.alerts {α : Type} {A B : Option Byte → Prop} {R : α → Prop} {p : Hs α} (hp : p.Safe A R) (h : ∀ a, A a → B a) : p.Safe B R := by
  induction p with
  | ret a => exact hp
  | fail a e => exact h a hp
  | panic => trivial
  | read k ih => intro m; exact ih m (hp m)
  | readSwitch k ih => intro b m; exact ih b m (hp b m)
  | write b m k ih => exact ih hp
  | writeCCS k ih => exact ih hp
  | flush k ih => exact ih hp
  | upd u k ih => exact ih hp

/-! ### C134 -/

namespace Spec
/-- the last bytes handed to the transport are a record of type 21 (alert) made of level and description `a` under keys `hc`; level 1 (warning) only for no_renegotiation -/
def EndsWithAlert (a : Byte) (c : Conn) : Prop :=
  ∃ (before hdr iv rec : Bytes) (hc hc' : HalfConn), hdr.length = 3 ∧ hdr[0]? = some 21 ∧ hc.writeOne hdr iv [if a = 100 then 1 else 2, a] = .ok (rec, hc') ∧
    c.wire = before ++ rec

/-- unexpected_message, bad_record_mac, record_overflow, handshake_failure, bad_certificate, unsupported_certificate, protocol_version, insufficient_security,
internal_error, no_renegotiation -/
def clientAlerts : List Byte := [10, 20, 22, 40, 42, 43, 70, 71, 80, 100]
end Spec

/-- a handshake that fails, for any program whose refusals have alerts of a list -/
theorem alert_sent_any {α : Type} {L : List Byte} (hA : ∀ a ∈ readAlerts, a ∈ L) (h0 : (0 : Byte) ∉ L) {R : α → Prop} (P : Prims) (gm : Bool) (p : Hs α)
    (hsafe : p.Safe (fun x => ∃ a, a ∈ L ∧ x = some a) R) (c c' : Conn) (e : String) (h1 : c.handshakeErr = none) (h2 : c.handshakeComplete = false)
    (hw : ∀ w ∈ c.writes, w = none) (hb : c.sendBuf = []) (hi : c.inp.err = none) (h : c.handshake (p.asHandshake P gm) = .ok (some e, c'))
    (hrand : c'.out.ivIsSeq = true ∨ c'.out.writeIVLen ≤ c'.rand.length) :
    c'.sendBuf = [] ∧ c'.handshakeErr = some e ∧ c'.handshakeComplete = false ∧
    (Spec.PeerEnded c.streamErr e ∨ (c'.out.err.isSome = true ∧ ∃ a ∈ L, Spec.EndsWithAlert a c')) := by
  have hc : ({ c with handshakeComplete := false } : Conn) = c := by rw [← h2]
  have q : c.Quiet := ⟨hw, fun _ => hb⟩
  unfold Conn.handshake at h
  rw [h1] at h
  dsimp only at h
  rw [if_neg (by rw [h2]; decide)] at h
  unfold Conn.runHandshake at h
  rw [hc] at h
  unfold Hs.asHandshake at h
  cases hr : p.run P gm c with
  | ok o =>
    rw [hr] at h
    simp only [Res.map] at h
    have hend := run_end hA P gm _ hsafe c o q hi hr
    cases herr : o.result.err with
    | none => rw [herr] at h; simp at h
    | some e' =>
      rw [herr] at h
      simp only [Res.ok.injEq, Prod.mk.injEq, Option.some.injEq] at h
      obtain ⟨rfl, hc'⟩ := h
      have fin : ∀ (d : Conn), d.Quiet → d.flush.2 = c' → c'.sendBuf = [] ∧ c'.out = d.out ∧ c'.rand = d.rand ∧ c'.wire = d.wire ++ d.sendBuf := by
        intro d qd hd
        obtain ⟨f, hf, f1, f2, f3, f4, f5, _, _⟩ := flush_quiet qd
        rw [hf] at hd
        subst hd
        exact ⟨f4, f2, f3, f5⟩
      simp only [Option.isNone_some, Bool.false_eq_true, if_false] at hc'
      generalize hd : ({ o.conn with isClient := c.isClient, policy := c.policy, starts := c.starts + 1, handshakeErr := some e', handshakes := c.handshakes, handshakeComplete := false } : Conn) = d at hc'
      have so : SameOut o.conn d := by rw [← hd]; exact ⟨rfl, rfl, rfl, rfl, rfl, rfl⟩
      have hbk : c'.handshakeErr = some e' ∧ c'.handshakeComplete = false := by
        have := flush_book d
        rw [hc', ← hd] at this
        simp only [Conn.book, Prod.mk.injEq] at this
        exact ⟨this.2.2.2.1, this.2.2.2.2.2⟩
      have hns : ∀ x : Conn, c'.out = x.out → c'.rand = x.rand → ¬ x.starved := by
        rintro x k1 k2 ⟨k3, k4⟩
        rw [k1, k2] at hrand
        rcases hrand with hrand | hrand
        · rw [k3] at hrand; cases hrand
        · omega
      rcases hend with ⟨a, ha⟩ | hend
      · rw [ha] at herr; cases herr
      · rcases hend with ⟨hq, hs⟩ | ⟨d0, d1, a, x, ha, q0, hs, so1⟩ | ⟨hq, e2, he2, hp⟩
        · obtain ⟨f1, f2, f3, f4⟩ := fin d (so.quiet hq) hc'
          exact absurd hs (hns o.conn (f2.trans so.out) (f3.trans so.rand))
        · have so2 := so1.trans so
          obtain ⟨f1, f2, f3, f4⟩ := fin d (so2.quiet (sendAlert_quiet q0 hs).1) hc'
          refine ⟨f1, hbk.1, hbk.2, Or.inr ?_⟩
          have ha0 : a ≠ 0 := by rintro rfl; exact h0 ha
          rcases sendAlert_record ha0 q0 hs with st | ⟨hdr, iv, rec, hc0, hc1, r1, r2, r3, r4, r5⟩
          · exact absurd st (hns d1 (f2.trans so2.out) (f3.trans so2.rand))
          · refine ⟨by rw [f2, so2.out]; exact r5, a, ha, d0.wire ++ d0.sendBuf, hdr, iv, rec, hc0, hc1, r1, r2, r3, ?_⟩
            rw [f4, so2.wire, so2.sendBuf, r4]
        · obtain ⟨f1, f2, f3, f4⟩ := fin d (so.quiet hq) hc'
          refine ⟨f1, hbk.1, hbk.2, Or.inl ?_⟩
          rw [he2] at herr
          have : e2 = e' := Option.some.inj herr
          rw [← this]; exact hp
  | err x => rw [hr] at h; simp [Res.map] at h
  | panic => rw [hr] at h; simp [Res.map] at h

/-- **C134.** Whatever the server sends: if `Handshake` of a client fails (with a transport whose writes succeed and enough randomness for the records), then either the
transport ended or the server gave up, or the last bytes on the wire when `Handshake` returns are an alert record. Nothing is left unsent, nothing can be sent any more, and
`Handshake` returns the same error from now on. -/
theorem C134_alert_sent (P : Prims) (K : KaEnv) (Z : ClientStart) (rk rs : Bytes) (c c' : Conn) (e : String) (h1 : c.handshakeErr = none) (h2 : c.handshakeComplete = false)
    (hw : ∀ w ∈ c.writes, w = none) (hb : c.sendBuf = []) (hi : c.inp.err = none)
    (h : c.handshake ((clientProg K Z rk rs).asHandshake P Z.S.gm) = .ok (some e, c')) (hrand : c'.out.ivIsSeq = true ∨ c'.out.writeIVLen ≤ c'.rand.length) :
    c'.sendBuf = [] ∧ c'.handshakeErr = some e ∧ c'.handshakeComplete = false ∧
    (Spec.PeerEnded c.streamErr e ∨ (c'.out.err.isSome = true ∧ ∃ a ∈ Spec.clientAlerts, Spec.EndsWithAlert a c')) := by
  refine alert_sent_any (R := fun _ => True) ?_ (by decide) P Z.S.gm _ ?_ c c' e h1 h2 hw hb hi h hrand
  · intro a ha
    simp only [readAlerts, List.mem_cons, List.not_mem_nil, or_false] at ha
    rcases ha with rfl | rfl | rfl | rfl | rfl | rfl <;> decide
  · refine (clientProg_safe K Z rk rs).alerts ?_
    rintro x ⟨b, hb, rfl⟩
    refine ⟨b, ?_, rfl⟩
    simp only [clientAlerts, List.mem_cons, List.not_mem_nil, or_false] at hb
    rcases hb with rfl | rfl | rfl | rfl | rfl | rfl | rfl <;> decide

/-! ### a renegotiation that fails -/

/-- the client allows renegotiation -/
def toyStart3 : ClientStart := { toyStart with S := { toyClient with renegotiation := true } }
/-- the second handshake: the identity of the first is known -/
def toyStart4 : ClientStart :=
  { toyStart3 with S := { toyStart3.S with previous := some ([toyCert 1 (.ecdsa [9]) 0], []) }, conn := ⟨1, false, [], []⟩ }

/-- a record of the toy server under the first keys -/
def toySealed (typ : Byte) (b : Bytes) : Bytes := toyRecord typ (List.replicate 8 0 ++ b ++ List.replicate 16 0)

/-- a first handshake, a HelloRequest, a ServerHello and a Certificate with another key -/
def toyStream3 (vd : Bytes) : Bytes :=
  toyRecord 22 (bytesOfMsg (.serverHello { toyServerHello with secureRenegotiationSupported := false })) ++
  (toyFlight.flatMap fun i => match i with | .msg m => toyRecord 22 (bytesOfMsg m) | .ccs => toyRecord 20 [1]) ++
  toyRecord 22 (bytesOfMsg (.newSessionTicket { raw := none, ticket := [42] })) ++
  toyRecord 20 [1] ++ toySealed 22 (bytesOfMsg (.finished { raw := none, verifyData := vd })) ++
  toySealed 22 [0, 0, 0, 0] ++
  toySealed 22 (bytesOfMsg (.serverHello { toyServerHello with secureRenegotiationSupported := false })) ++
  toySealed 22 (bytesOfMsg (.certificate { raw := none, certificates := [[2]] }))

def toyLife : Life where
  parses := parses false true
  hs := fun c => if c.handshakes = 0 then (clientProg toyK toyStart3 [5] [6]).asHandshake toyPrims false c
    else (clientProg toyK toyStart4 [5] [6]).asHandshake toyPrims false c

def toyConn3 (vd : Bytes) : Conn := { isClient := true, policy := 2, stream := toyStream3 vd, rand := List.replicate 64 0 }

/-- the error of a call, the number of bytes written so far, the bytes kept back, and whether sending is over -/
def toySeen3 (r : Res ((Bytes × Nat × Option String) × Conn)) : Option (Option String × Nat × Bytes × Bool) :=
  match r with | .ok ((_, _, e), c) => some (e, c.wire.length, c.sendBuf, c.out.err.isSome) | _ => none

/-- the connection after `Read` -/
def toyFailed : Option Conn := match (toyConn3 (108 :: List.replicate 11 0)).call toyLife (.read false 10) with | .ok (_, c) => some c | _ => none

/-- the alert that was not sent: bad_certificate under the keys of the first handshake -/
def toyUnsent : Bytes := toyRecord 21 ([0, 0, 0, 0, 0, 0, 0, 2] ++ [2, 42] ++ List.replicate 16 0)

/-- a connection whose last handshake failed does nothing any more, whatever is called -/
theorem calls_dead (L : Life) : ∀ (ops : List ConnOp) (c : Conn) (e : String), c.handshakeErr = some e → c.handshakeComplete = false → Conn.calls L ops c = .ok c := by
  intro ops
  induction ops with
  | nil => intro c e _ _; rfl
  | cons op ops ih =>
    intro c e h1 h2
    have hh : c.handshake L.hs = .ok (some e, c) := by unfold Conn.handshake; rw [h1]
    have hop : ∃ x, c.call L op = .ok (x, c) := by
      cases op with
      | handshake => exact ⟨_, by unfold Conn.call; dsimp only; rw [hh]⟩
      | read p n => exact ⟨_, by unfold Conn.call; dsimp only; rw [hh]⟩
      | write b => exact ⟨_, by unfold Conn.call; dsimp only; rw [hh]⟩
      | closeWrite => exact ⟨_, by unfold Conn.call Conn.closeWrite; dsimp only; rw [if_pos (by rw [h2]; rfl)]⟩
      | close => exact ⟨_, by unfold Conn.call; dsimp only; rw [if_neg (by rw [h2]; decide)]⟩
    obtain ⟨x, hx⟩ := hop
    unfold Conn.calls
    rw [hx]
    exact ih c e h1 h2

/-- **C134 is violated by renegotiations**: a `Read` that runs into a renegotiation with another certificate fails, the alert stays in the buffer of the connection, and no
sequence of calls, `Close` included, sends it (or anything else). -/
theorem C134_renegotiation_violated :
    toySeen3 ((toyConn3 (108 :: List.replicate 11 0)).call toyLife (.read false 10)) = some (some "tls: server's identity changed during renegotiation", 293, toyUnsent, true) ∧
    ∃ c, toyFailed = some c ∧ c.sendBuf = toyUnsent ∧ ∀ ops, Conn.calls toyLife ops c = .ok c := by
  have h : (toyFailed.map fun c => (c.sendBuf, c.handshakeErr, c.handshakeComplete)) =
      some (toyUnsent, some "tls: server's identity changed during renegotiation", false) := by decide +kernel
  refine ⟨by decide +kernel, ?_⟩
  cases hf : toyFailed with
  | none => rw [hf] at h; cases h
  | some c =>
    rw [hf] at h
    simp only [Option.map_some, Option.some.injEq, Prod.mk.injEq] at h
    exact ⟨c, rfl, h.1, fun ops => calls_dead toyLife ops c _ h.2.1 h.2.2⟩

/-- what the hypotheses and the conclusion of `C134_alert_sent` are in the run of `toyRun_refused` -/
example : (toyConn []).sendBuf = [] ∧ (toyConn []).inp.err = none ∧ (toyConn []).writes = [] ∧
    (match toyRun (175 :: List.replicate 11 0) with
     | .ok (some _, c) => c.out.ivIsSeq && c.out.err.isSome && (c.wire.drop 184 == toyRecord 21 ([0, 0, 0, 0, 0, 0, 0, 1] ++ [2, 40] ++ List.replicate 16 0))
     | _ => false) = true := by
  refine ⟨rfl, rfl, rfl, ?_⟩
  decide +kernel

end Verif.Tls
