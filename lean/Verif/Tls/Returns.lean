import Verif.Tls.Renegotiation
/-!
C143: on a connection whose handshake is done, every call returns, whatever bytes the peer sends and whatever the transport does with ours.
-/
namespace Verif.Tls
open Verif Verif.Std

/-! ### the sending half -/

/-- a sending half of a suite of the tables whose sequence number has room for `k` more records -/
structure OutRoom (k : Nat) (hc : HalfConn) : Prop where
  suite : Spec.UsesSuite hc
  seq8 : hc.seq.length = 8
  room : beNat hc.seq + k < 2 ^ 64

theorem OutRoom.mono {k j : Nat} {hc : HalfConn} (h : OutRoom k hc) (hj : j ≤ k) : OutRoom j hc :=
  ⟨h.suite, h.seq8, by have := h.room; omega⟩

theorem OutRoom.setErr {k : Nat} {hc : HalfConn} (h : OutRoom k hc) (e : Option String) : OutRoom k { hc with err := e } :=
  ⟨h.suite, h.seq8, h.room⟩

theorem write_out (c : Conn) (b : Bytes) : (c.write b).2.out = c.out := by
  unfold Conn.write Conn.netWrite
  split
  · rfl
  · split <;> rfl

theorem writeLoop_returns (fuel : Nat) : ∀ (c : Conn) (typ : Byte) (data : Bytes) (n k : Nat), data.length ≤ fuel → OutRoom (data.length + k) c.out →
    ∃ n' e c', Conn.writeLoop fuel c typ data n = .ok (n', e, c') ∧ OutRoom k c'.out := by
  induction fuel with
  | zero =>
    intro c typ data n k hf hw
    have h0 : data = [] := List.eq_nil_of_length_eq_zero (by omega)
    subst h0
    exact ⟨_, _, c, writeLoop_nil _ _ _ _, by simpa using hw⟩
  | succ fuel ih =>
    intro c typ data n k hf hw
    by_cases hl : data.length = 0
    · have h0 : data = [] := List.eq_nil_of_length_eq_zero hl
      subst h0
      exact ⟨_, _, c, writeLoop_nil _ _ _ _, by simpa using hw⟩
    unfold Conn.writeLoop
    rw [if_neg hl]
    obtain ⟨hm1, hm2⟩ := C28_max_payload c typ hw.suite
    obtain ⟨p, hp⟩ := maxPayload_conn c typ c.out.writeIVLen
    dsimp only
    rw [hp]
    generalize hmax : (c.maxPayloadSizeForWrite typ c.out.writeIVLen).1 = mx at hm1 hm2 ⊢
    rw [if_neg (by omega)]
    generalize hmm : min data.length mx.toNat = m
    have hm0 : 1 ≤ m := by omega
    have hmle : m ≤ data.length := by omega
    dsimp only
    split
    · exact ⟨_, _, _, rfl, hw.mono (by omega)⟩
    · generalize hc1 : (if (c.out.writeIVLen != 0 && !c.out.ivIsSeq) = true then
            ({ c with packetsSent := p, rand := c.rand.drop c.out.writeIVLen } : Conn) else { c with packetsSent := p }) = c1
      have f1 : c1.out = c.out := by rw [← hc1]; split <;> rfl
      rw [f1]
      have hroom := hw.room
      obtain ⟨r, o', hone⟩ := writeOne_total c.out ⟨hw.suite, hw.seq8, by omega⟩ (c1.recHdr typ) (c.rand.take c.out.writeIVLen) (data.take m)
      rw [hone]
      obtain ⟨q1, q2⟩ := writeOne_seq _ _ _ _ _ _ hw.seq8 hone
      have hnext : OutRoom ((data.drop m).length + k) o' := by
        refine ⟨usesSuite_writeOne _ _ _ _ _ _ hone hw.suite, by rw [q1, beFixed_length], ?_⟩
        rw [q1, beNat_beFixed, Nat.mod_eq_of_lt (by rw [show (256 : Nat) ^ 8 = 2 ^ 64 by norm_num]; exact q2), List.length_drop]
        omega
      have hwo := write_out ({ c1 with out := o' } : Conn) r
      dsimp only
      generalize ({ c1 with out := o' } : Conn).write r = w at hwo ⊢
      obtain ⟨we, c2⟩ := w
      cases we with
      | some err =>
        refine ⟨_, _, _, rfl, ?_⟩
        simp only at hwo
        rw [hwo]
        exact hnext.mono (by omega)
      | none =>
        simp only at hwo ⊢
        exact ih c2 typ (data.drop m) (n + m) k (by rw [List.length_drop]; omega) (by rw [hwo]; exact hnext)

theorem sendAlert_returns (c : Conn) (a : Byte) (k : Nat) (h : OutRoom (2 + k) c.out) :
    ∃ e c', c.sendAlert a = .ok (e, c') ∧ OutRoom k c'.out ∧ SameReader c c' ∧ (a ≠ 0 → e ≠ none) := by
  unfold Conn.sendAlert
  dsimp only
  obtain ⟨n, e, c', hw, ho⟩ := writeLoop_returns 2 c typAlert [if a = 100 ∨ a = 0 then 1 else 2, a] 0 k (by simp) (by simpa using h)
  rw [hw]
  have hsame := writeLoop_same _ _ _ _ _ _ _ _ hw
  dsimp only
  split
  · rename_i h0
    exact ⟨_, _, rfl, ho, hsame, fun hn => absurd h0 hn⟩
  · exact ⟨_, _, rfl, ho.setErr _, hsame.trans ⟨rfl, rfl, rfl, rfl, rfl, rfl, rfl, rfl, rfl, rfl, rfl⟩, fun _ => by simp⟩

theorem writeRecord_returns (c : Conn) (typ : Byte) (data : Bytes) (k : Nat) (ht : typ ≠ typCCS) (h : OutRoom (data.length + k) c.out) :
    ∃ n e c', c.writeRecord typ data = .ok (n, e, c') ∧ OutRoom k c'.out ∧ SameReader c c' ∧ n ≤ data.length ∧ (e = none → n = data.length) := by
  obtain ⟨n, e, c', hw, ho⟩ := writeLoop_returns data.length c typ data 0 k (Nat.le_refl _) h
  have hsame := writeLoop_same _ _ _ _ _ _ _ _ hw
  have hn : n ≤ data.length ∧ (e = none → n = data.length) := by
    have key : ∀ (fuel : Nat) (c : Conn) (data : Bytes) (n0 n : Nat) (e : Option String) (c' : Conn), Conn.writeLoop fuel c typ data n0 = .ok (n, e, c') →
        n ≤ n0 + data.length ∧ (e = none → n = n0 + data.length) := by
      intro fuel
      induction fuel with
      | zero =>
        intro c data n0 n e c' h
        unfold Conn.writeLoop at h
        split at h
        · rename_i hl
          have := Prod.mk.inj (Res.ok.inj h)
          obtain ⟨rfl, _⟩ := this
          exact ⟨by omega, fun _ => by omega⟩
        · cases h
      | succ fuel ih =>
        intro c data n0 n e c' h
        unfold Conn.writeLoop at h
        split at h
        · rename_i hl
          have := Prod.mk.inj (Res.ok.inj h)
          obtain ⟨rfl, _⟩ := this
          exact ⟨by omega, fun _ => by omega⟩
        · dsimp only at h
          split at h
          · cases h
          · split at h
            · obtain ⟨rfl, h2⟩ := Prod.mk.inj (Res.ok.inj h)
              obtain ⟨rfl, _⟩ := Prod.mk.inj h2
              exact ⟨by omega, (fun x => by cases x)⟩
            · split at h
              · split at h
                · obtain ⟨rfl, h2⟩ := Prod.mk.inj (Res.ok.inj h)
                  obtain ⟨rfl, _⟩ := Prod.mk.inj h2
                  exact ⟨by omega, (fun x => by cases x)⟩
                · have := ih _ _ _ _ _ _ h
                  rw [List.length_drop] at this
                  refine ⟨by omega, fun x => ?_⟩
                  have := this.2 x
                  omega
              · cases h
              · cases h
    simpa using key _ _ _ _ _ _ _ hw
  unfold Conn.writeRecord
  rw [hw]
  cases e with
  | some e => exact ⟨_, _, _, rfl, ho, hsame, hn⟩
  | none =>
    dsimp only
    rw [if_neg ht]
    exact ⟨_, _, _, rfl, ho, hsame, hn⟩

theorem writeApp_returns (c : Conn) (b : Bytes) (k : Nat) (h : OutRoom (b.length + k) c.out) :
    ∃ n e c', c.writeApp b = .ok (n, e, c') ∧ OutRoom k c'.out ∧ SameReader c c' ∧ n ≤ b.length ∧ (e = none → n = b.length) := by
  unfold Conn.writeApp
  cases he : c.out.err with
  | some e => exact ⟨_, _, _, rfl, h.mono (by omega), SameReader.refl c, by omega, (fun x => by cases x)⟩
  | none =>
    dsimp only
    split
    · exact ⟨_, _, _, rfl, h.mono (by omega), SameReader.refl c, by omega, (fun x => by cases x)⟩
    · split
      · exact ⟨_, _, _, rfl, h.mono (by omega), SameReader.refl c, by omega, (fun x => by cases x)⟩
      · by_cases hs : c.splits b = true
        · rw [if_pos hs]
          have hb : 1 < b.length := by
            simp only [Conn.splits, Bool.and_eq_true, decide_eq_true_eq] at hs
            exact hs.1.1.1
          have hl1 : (b.take 1).length = 1 := by rw [List.length_take]; omega
          obtain ⟨n1, e1, c1, w1, o1, s1, l1, m1⟩ := writeRecord_returns c typAppData (b.take 1) (b.length - 1 + k) (by decide)
            (by rw [show (b.take 1).length + (b.length - 1 + k) = b.length + k by rw [hl1]; omega]; exact h)
          rw [w1]
          cases e1 with
          | some e =>
            exact ⟨_, _, _, rfl, (o1.mono (by omega)).setErr _, s1.trans ⟨rfl, rfl, rfl, rfl, rfl, rfl, rfl, rfl, rfl, rfl, rfl⟩, by omega, (fun x => by cases x)⟩
          | none =>
            have hn1 : n1 = 1 := by rw [m1 rfl, hl1]
            subst hn1
            dsimp only
            obtain ⟨n2, e2, c2, w2, o2, s2, l2, m2⟩ := writeRecord_returns c1 typAppData (b.drop 1) k (by decide) (by rw [List.length_drop]; exact o1)
            rw [w2]
            rw [List.length_drop] at l2 m2
            exact ⟨_, _, _, rfl, o2.setErr _, s1.trans (s2.trans ⟨rfl, rfl, rfl, rfl, rfl, rfl, rfl, rfl, rfl, rfl, rfl⟩), by omega,
              fun x => by have := m2 x; omega⟩
        · rw [if_neg hs]
          dsimp only
          rw [List.drop_zero]
          obtain ⟨n2, e2, c2, w2, o2, s2, l2, m2⟩ := writeRecord_returns c typAppData b k (by decide) h
          rw [w2]
          exact ⟨_, _, _, rfl, o2.setErr _, s2.trans ⟨rfl, rfl, rfl, rfl, rfl, rfl, rfl, rfl, rfl, rfl, rfl⟩, by omega, fun x => by have := m2 x; omega⟩

/-! ### the receiving half -/

/-- the receiving half can take every record that may still arrive: a record is at least five bytes, and there is a sequence number for each byte -/
def InRoom (c : Conn) : Prop := CanReceive c.stream.length c.inp

theorem CanReceive.mono {k j : Nat} {hc : HalfConn} (h : CanReceive k hc) (hj : j ≤ k) : CanReceive j hc :=
  ⟨h.seq8, by have := h.room; omega, h.blocks⟩

theorem CanReceive.setErr {k : Nat} {hc : HalfConn} (h : CanReceive k hc) (e : Option String) : CanReceive k { hc with err := e } :=
  ⟨h.seq8, h.room, h.blocks⟩

/-- one pass of the reader came back: it still can receive what is left, and it sent nothing unless it failed -/
structure Came (k : Nat) (c : Conn) (s : Step) (c' : Conn) : Prop where
  inRoom : InRoom c'
  outRoom : OutRoom k c'.out
  stream : c'.stream.length ≤ c.stream.length
  quiet : s = .again ∨ s = .done none → c'.out = c.out
  warn : s = .again → c.warnCount < 5 ∧ c'.warnCount = c.warnCount + 1

theorem failAlert_came (c : Conn) (a : Byte) (ha : a ≠ 0) (k : Nat) (ho : OutRoom (2 + k) c.out) (hi : InRoom c) :
    ∃ e c', asDone (c.failAlert a) = .ok (.done (some e), c') ∧ Came k c (.done (some e)) c' := by
  obtain ⟨e, c', h, h1, h2, h3⟩ := sendAlert_returns c a k ho
  cases e with
  | none => exact absurd rfl (h3 ha)
  | some e =>
    refine ⟨e, c'.setInErr (some e), by unfold Conn.failAlert; rw [h]; rfl, ⟨?_, h1, ?_, (fun x => by rcases x with x | x <;> cases x), (fun x => by cases x)⟩⟩
    · have : CanReceive c'.stream.length c'.inp := by rw [h2.stream, h2.inp]; exact hi
      exact this.setErr _
    · exact Nat.le_of_eq (congrArg List.length h2.stream)

theorem failMsg_came (c : Conn) (a : Byte) (m : String) (k : Nat) (ho : OutRoom (2 + k) c.out) (hi : InRoom c) :
    ∃ c', c.failMsg a m = .ok (some m, c') ∧ Came k c (.done (some m)) c' := by
  obtain ⟨e, c', h, h1, h2, h3⟩ := sendAlert_returns c a k ho
  refine ⟨c'.setInErr (some m), by unfold Conn.failMsg; rw [h], ⟨?_, h1, ?_, (fun x => by rcases x with x | x <;> cases x), (fun x => by cases x)⟩⟩
  · have : CanReceive c'.stream.length c'.inp := by rw [h2.stream, h2.inp]; exact hi
    exact this.setErr _
  · exact Nat.le_of_eq (congrArg List.length h2.stream)

theorem processRecord_came (c : Conn) (want typ : Byte) (data : Bytes) (k : Nat) (hw : want ≠ typCCS) (ho : OutRoom (2 + k) c.out) (hi : InRoom c) :
    ∃ s c', c.processRecord want typ data = .ok (s, c') ∧ Came k c s c' := by
  have fa : ∀ (d : Conn) (a : Byte), a ≠ 0 → d.out = c.out → d.inp = c.inp → d.stream = c.stream →
      ∃ s c', asDone (d.failAlert a) = .ok (s, c') ∧ Came k c s c' := by
    intro d a ha h1 h2 h3
    obtain ⟨e, c', r, hc⟩ := failAlert_came d a ha k (by rw [h1]; exact ho) (by unfold InRoom; rw [h2, h3]; exact hi)
    exact ⟨_, _, r, ⟨hc.inRoom, hc.outRoom, by rw [← h3]; exact hc.stream, (fun x => by rcases x with x | x <;> cases x), (fun x => by cases x)⟩⟩
  have ho' : OutRoom k c.out := ho.mono (by omega)
  unfold Conn.processRecord
  split
  · exact fa c _ (by decide) rfl rfl rfl
  · generalize hc1 : (if typ ≠ typAlert ∧ data.length > 0 then ({ c with warnCount := 0 } : Conn) else c) = c1
    have g1 : c1.out = c.out := by rw [← hc1]; split <;> rfl
    have g2 : c1.inp = c.inp := by rw [← hc1]; split <;> rfl
    have g3 : c1.stream = c.stream := by rw [← hc1]; split <;> rfl
    have hi1 : InRoom c1 := by unfold InRoom; rw [g2, g3]; exact hi
    dsimp only
    by_cases ht : typ = typAlert
    · have hcc : c1 = c := by rw [← hc1, if_neg (by tauto)]
      subst hcc
      rw [if_pos ht]
      split
      · exact fa _ _ (by decide) rfl rfl rfl
      · split
        · exact ⟨_, _, rfl, ⟨CanReceive.setErr hi1 _, ho', Nat.le_refl _, (fun x => by rcases x with x | x <;> cases x), (fun x => by cases x)⟩⟩
        · split
          · split
            · obtain ⟨c', r, hc⟩ := failMsg_came { c1 with warnCount := c1.warnCount + 1 } 10 "tls: too many warn alerts" k ho hi
              refine ⟨_, c', by rw [r]; rfl, ⟨hc.inRoom, hc.outRoom, hc.stream, (fun x => by rcases x with x | x <;> cases x), (fun x => by cases x)⟩⟩
            · rename_i hwc
              exact ⟨_, _, rfl, ⟨hi, ho', Nat.le_refl _, fun _ => rfl, fun _ => ⟨by omega, rfl⟩⟩⟩
          · split
            · exact ⟨_, _, rfl, ⟨CanReceive.setErr hi1 _, ho', Nat.le_refl _, (fun x => by rcases x with x | x <;> cases x), (fun x => by cases x)⟩⟩
            · exact fa _ _ (by decide) rfl rfl rfl
    · rw [if_neg ht]
      split
      · rename_i hccs
        rw [if_pos (.inl (by rw [hccs]; exact fun x => hw x.symm))]
        exact fa _ _ (by decide) g1 g2 g3
      · split
        · split
          · exact fa _ _ (by decide) g1 g2 g3
          · exact ⟨_, _, rfl, ⟨hi1, by simp only; rw [g1]; exact ho', by simp only; rw [g3], fun _ => g1, (fun x => by cases x)⟩⟩
        · split
          · split
            · exact fa _ _ (by decide) g1 g2 g3
            · exact ⟨_, _, rfl, ⟨hi1, by simp only; rw [g1]; exact ho', by simp only; rw [g3], fun _ => g1, (fun x => by cases x)⟩⟩
          · exact fa _ _ (by decide) g1 g2 g3

theorem readOnce_came (c : Conn) (want : Byte) (k : Nat) (hw : want ≠ typCCS) (ho : OutRoom (2 + k) c.out) (hi : InRoom c) :
    ∃ s c', c.readOnce want = .ok (s, c') ∧ Came k c s c' ∧ (s = .again ∨ s = .done none → c'.stream.length < c.stream.length) := by
  have fm : ∀ (a : Byte) (m : String), ∃ s c', asDone (c.failMsg a m) = .ok (s, c') ∧ Came k c s c' ∧
      (s = .again ∨ s = .done none → c'.stream.length < c.stream.length) := by
    intro a m
    obtain ⟨c', r, hc⟩ := failMsg_came c a m k ho hi
    exact ⟨_, c', by rw [r]; rfl, hc, (fun x => by rcases x with x | x <;> cases x)⟩
  have ho' : OutRoom k c.out := ho.mono (by omega)
  unfold Conn.readOnce
  split
  · exact ⟨_, _, rfl, ⟨CanReceive.setErr (CanReceive.mono hi (Nat.zero_le _)) _, ho', Nat.zero_le _, (fun x => by rcases x with x | x <;> cases x), (fun x => by cases x)⟩,
      (fun x => by rcases x with x | x <;> cases x)⟩
  · rename_i h5
    dsimp only
    split
    · exact fm _ _
    · split
      · exact fm _ _
      · split
        · exact fm _ _
        · split
          · exact fm _ _
          · split
            · exact ⟨_, _, rfl, ⟨CanReceive.setErr (CanReceive.mono hi (Nat.zero_le _)) _, ho', Nat.zero_le _, (fun x => by rcases x with x | x <;> cases x), (fun x => by cases x)⟩,
                (fun x => by rcases x with x | x <;> cases x)⟩
            · have hlt : (c.stream.drop (5 + beNat ((c.stream.drop 3).take 2))).length < c.stream.length := by rw [List.length_drop]; omega
              obtain ⟨d, inp', hd, hr⟩ := decrypt_total (c.stream.drop (5 + beNat ((c.stream.drop 3).take 2))).length c.inp
                (c.stream.take (5 + beNat ((c.stream.drop 3).take 2))) (CanReceive.mono hi hlt)
              rw [hd]
              cases d with
              | none =>
                dsimp only
                obtain ⟨e, c', r, hc⟩ := failAlert_came ({ c with stream := c.stream.drop (5 + beNat ((c.stream.drop 3).take 2)), inp := inp' } : Conn) 20 (by decide) k ho hr
                refine ⟨_, c', r, ⟨hc.inRoom, hc.outRoom, Nat.le_trans hc.stream (Nat.le_of_lt hlt), (fun x => by rcases x with x | x <;> cases x), (fun x => by cases x)⟩,
                  (fun x => by rcases x with x | x <;> cases x)⟩
              | some data =>
                dsimp only
                obtain ⟨s, c', r, hc⟩ := processRecord_came ({ c with stream := c.stream.drop (5 + beNat ((c.stream.drop 3).take 2)), inp := inp' } : Conn)
                  want (c.stream.getD 0 0) data k hw ho hr
                exact ⟨s, c', r, ⟨hc.inRoom, hc.outRoom, Nat.le_trans hc.stream (Nat.le_of_lt hlt), hc.quiet, hc.warn⟩, fun _ => Nat.lt_of_le_of_lt hc.stream hlt⟩

/-- a record was read, or reading failed -/
structure ReadBack (k : Nat) (c : Conn) (e : Option String) (c' : Conn) : Prop where
  inRoom : InRoom c'
  outRoom : OutRoom k c'.out
  stream : c'.stream.length ≤ c.stream.length
  quiet : e = none → c'.out = c.out ∧ c'.stream.length < c.stream.length

theorem readLoop_returns (n : Nat) : ∀ (c : Conn) (want : Byte) (k : Nat), want ≠ typCCS → OutRoom (2 + k) c.out → InRoom c → 5 ≤ c.warnCount + n →
    ∃ e c', Conn.readLoop (n + 1) c want = .ok (e, c') ∧ ReadBack k c e c' := by
  induction n with
  | zero =>
    intro c want k hw ho hi hn
    obtain ⟨s, c', r, hc, hs⟩ := readOnce_came c want k hw ho hi
    unfold Conn.readLoop
    rw [r]
    cases s with
    | done e => exact ⟨e, c', rfl, ⟨hc.inRoom, hc.outRoom, hc.stream, (fun h => by subst h; exact ⟨hc.quiet (.inr rfl), hs (.inr rfl)⟩)⟩⟩
    | again => have := (hc.warn rfl).1; omega
  | succ n ih =>
    intro c want k hw ho hi hn
    obtain ⟨s, c', r, hc, hs⟩ := readOnce_came c want k hw ho hi
    unfold Conn.readLoop
    rw [r]
    cases s with
    | done e => exact ⟨e, c', rfl, ⟨hc.inRoom, hc.outRoom, hc.stream, (fun h => by subst h; exact ⟨hc.quiet (.inr rfl), hs (.inr rfl)⟩)⟩⟩
    | again =>
      dsimp only
      have hq := hc.quiet (.inl rfl)
      obtain ⟨hw5, hw1⟩ := hc.warn rfl
      obtain ⟨e, c2, r2, b2⟩ := ih c' want k hw (by rw [hq]; exact ho) hc.inRoom (by omega)
      refine ⟨e, c2, r2, ⟨b2.inRoom, b2.outRoom, Nat.le_trans b2.stream hc.stream, fun h => ?_⟩⟩
      · obtain ⟨q1, q2⟩ := b2.quiet h
        exact ⟨q1.trans hq, Nat.lt_of_lt_of_le q2 hc.stream⟩

theorem readRecord_returns (c : Conn) (want : Byte) (k : Nat) (hw : want ≠ typCCS) (ho : OutRoom (2 + k) c.out) (hi : InRoom c) :
    ∃ e c', c.readRecord want = .ok (e, c') ∧ ReadBack k c e c' := by
  have fm : ∀ (a : Byte) (m : String), ∃ e c', c.failMsg a m = .ok (e, c') ∧ ReadBack k c e c' := by
    intro a m
    obtain ⟨c', r, hc⟩ := failMsg_came c a m k ho hi
    exact ⟨_, c', r, ⟨hc.inRoom, hc.outRoom, hc.stream, (fun x => by cases x)⟩⟩
  unfold Conn.readRecord
  split
  · split
    · exact fm _ _
    · exact readLoop_returns 5 c want k hw ho hi (by omega)
  · split
    · split
      · exact fm _ _
      · exact readLoop_returns 5 c want k hw ho hi (by omega)
    · exact fm _ _

/-! ### handshake messages -/

theorem fillHand_returns (fuel : Nat) : ∀ (c : Conn) (n k : Nat), OutRoom (2 + k) c.out → InRoom c → c.stream.length < fuel →
    ∃ e c', Conn.fillHand fuel c n = .ok (e, c') ∧ InRoom c' ∧ OutRoom k c'.out ∧ c'.stream.length ≤ c.stream.length ∧
      (e = none → c'.out = c.out ∧ n ≤ c'.hand.length) := by
  induction fuel with
  | zero => intro c n k _ _ h; omega
  | succ fuel ih =>
    intro c n k ho hi hf
    unfold Conn.fillHand
    split
    · rename_i hn
      exact ⟨_, _, rfl, hi, ho.mono (by omega), Nat.le_refl _, fun _ => ⟨rfl, hn⟩⟩
    · cases he : c.inp.err with
      | some e => exact ⟨_, _, rfl, hi, ho.mono (by omega), Nat.le_refl _, (fun x => by cases x)⟩
      | none =>
        dsimp only
        obtain ⟨e, c1, r, b⟩ := readRecord_returns c typHandshake k (by decide) ho hi
        rw [r]
        cases e with
        | some e => exact ⟨_, _, rfl, b.inRoom, b.outRoom, b.stream, (fun x => by cases x)⟩
        | none =>
          dsimp only
          obtain ⟨q1, q2⟩ := b.quiet rfl
          obtain ⟨e2, c2, r2, i2, o2, s2, h2⟩ := ih c1 n k (by rw [q1]; exact ho) b.inRoom (by omega)
          exact ⟨e2, c2, r2, i2, o2, by omega, fun x => ⟨(h2 x).1.trans q1, (h2 x).2⟩⟩

theorem readHandshake_returns (parses : Bytes → Bool) (c : Conn) (k : Nat) (ho : OutRoom (2 + k) c.out) (hi : InRoom c) :
    ∃ r c', c.readHandshake parses = .ok (r, c') ∧ InRoom c' ∧ OutRoom k c'.out ∧ (∀ m, r = .ok m → c'.out = c.out) := by
  unfold Conn.readHandshake
  obtain ⟨e1, c1, r1, i1, o1, s1, q1⟩ := fillHand_returns (c.stream.length + 1) c 4 k ho hi (by omega)
  rw [r1]
  cases e1 with
  | some e => exact ⟨_, _, rfl, i1, o1, (fun _ x => by cases x)⟩
  | none =>
    dsimp only
    have ho1 : OutRoom (2 + k) c1.out := by rw [(q1 rfl).1]; exact ho
    split
    · obtain ⟨c2, r2, h2⟩ := failMsg_came c1 80 "tls: handshake message exceeds maximum" k ho1 i1
      rw [r2]
      exact ⟨_, _, rfl, h2.inRoom, h2.outRoom, (fun _ x => by cases x)⟩
    · obtain ⟨e2, c2, r2, i2, o2, s2, q2⟩ := fillHand_returns (c1.stream.length + 1) c1 (4 + beNat ((c1.hand.drop 1).take 3)) k ho1 i1 (by omega)
      rw [r2]
      cases e2 with
      | some e => exact ⟨_, _, rfl, i2, o2, (fun _ x => by cases x)⟩
      | none =>
        dsimp only
        split
        · exact ⟨_, _, rfl, i2, o2, fun _ _ => (q2 rfl).1.trans (q1 rfl).1⟩
        · obtain ⟨e3, c3, r3, h3⟩ := failAlert_came ({ c2 with hand := c2.hand.drop (4 + beNat ((c1.hand.drop 1).take 3)) } : Conn) 10 (by decide) k
            (by simp only; rw [(q2 rfl).1]; exact ho1) i2
          obtain ⟨e3', hx, hy⟩ := asDone_inv r3
          rw [hy]
          exact ⟨_, _, rfl, h3.inRoom, h3.outRoom, (fun _ x => by cases x)⟩

/-! ### Read -/

namespace Spec
/-- the connection is in use: the handshake is done, the peer cannot start another (this end is a server, or its policy is RenegotiateNever, the
default), the sending half is that of a suite of the tables and has sequence numbers for `k` more records, the
receiving half has one for every byte the peer will ever send. Nothing is said about errors, the transport, the random source, counters, versions. -/
structure Running (k : Nat) (c : Conn) : Prop where
  complete : c.handshakeComplete = true
  noErr : c.handshakeErr = none
  passive : c.isClient = false ∨ c.policy = 0
  outSuite : UsesSuite c.out
  outSeq : c.out.seq.length = 8
  outRoom : beNat c.out.seq + k < 2 ^ 64
  inBlocks : ∀ bs, shape c.inp.cipher = .cbc bs → 0 < bs
  inSeq : c.inp.seq.length = 8
  inRoom : beNat c.inp.seq + c.stream.length < 2 ^ 64

/-- the records a call may send: one for each byte written, two for an alert -/
def cost : ConnOp → Nat
  | .handshake => 0
  | .read _ _ => 2
  | .write b => b.length
  | .closeWrite => 2
  | .close => 2
end Spec

theorem Spec.Running.out {k : Nat} {c : Conn} (h : Spec.Running k c) : OutRoom k c.out := ⟨h.outSuite, h.outSeq, h.outRoom⟩
theorem Spec.Running.inp {k : Nat} {c : Conn} (h : Spec.Running k c) : InRoom c := ⟨h.inSeq, h.inRoom, h.inBlocks⟩
theorem Spec.Running.of {k j : Nat} {c c' : Conn} (h : Spec.Running k c) (hb : c'.book = c.book) (ho : OutRoom j c'.out) (hi : InRoom c') :
    Spec.Running j c' := by
  unfold Conn.book at hb
  simp only [Prod.mk.injEq] at hb
  obtain ⟨b1, b2, _, b4, _, b6⟩ := hb
  exact ⟨by rw [b6]; exact h.complete, by rw [b4]; exact h.noErr, by rw [b1, b2]; exact h.passive, ho.suite, ho.seq8, ho.room,
    hi.blocks, hi.seq8, hi.room⟩

theorem Spec.Running.mono {k j : Nat} {c : Conn} (h : Spec.Running k c) (hj : j ≤ k) : Spec.Running j c :=
  h.of rfl (h.out.mono hj) h.inp

/-- extra handshake bytes at an end that does not renegotiate: an error is returned, and no handshake is run -/
theorem handleRenegotiation_returns (L : Life) (k : Nat) (c : Conn) (hr : Spec.Running (2 + k) c) :
    ∃ e c', Conn.handleRenegotiation L.parses L.hs c = .ok (some e, c') ∧ Spec.Running k c' := by
  obtain ⟨r, c1, h, hi, ho, hq⟩ := readHandshake_returns L.parses c k hr.out hr.inp
  have hb := readHandshake_book h
  have alert : ∀ a : Byte, a ≠ 0 → c1.out = c.out → ∃ e c', c1.sendAlert a = .ok (some e, c') ∧ Spec.Running k c' := by
    intro a ha ho1
    obtain ⟨e, c2, s1, s2, s3, s4⟩ := sendAlert_returns c1 a k (by rw [ho1]; exact hr.out)
    cases e with
    | none => exact absurd rfl (s4 ha)
    | some e =>
      exact ⟨e, c2, s1, hr.of ((sendAlert_book s1).trans hb) s2 (by unfold InRoom; rw [s3.stream, s3.inp]; exact hi)⟩
  have hp := hr.passive
  rw [← (book_policy hb).1, ← (book_policy hb).2] at hp
  unfold Conn.handleRenegotiation
  rw [h]
  cases r with
  | error e => exact ⟨_, _, rfl, hr.of hb ho hi⟩
  | ok data =>
    dsimp only
    have ho1 := hq data rfl
    split
    · obtain ⟨e, c2, s1, s2⟩ := alert 10 (by decide) ho1
      rw [s1]
      exact ⟨_, _, rfl, s2⟩
    · split
      · exact alert 100 (by decide) ho1
      · rename_i hcl
        split
        · exact alert 100 (by decide) ho1
        · rename_i hpo
          rcases hp with p | p
          · exact absurd p hcl
          · exact absurd p hpo

theorem fillInput_returns (L : Life) (k : Nat) (fuel : Nat) : ∀ (c : Conn), Spec.Running (2 + k) c → c.stream.length < fuel →
    ∃ e c', Conn.fillInput (Conn.handleRenegotiation L.parses L.hs) fuel c = .ok (e, c') ∧ Spec.Running k c' ∧ (e = none → Spec.Running (2 + k) c') := by
  induction fuel with
  | zero => intro c _ h; omega
  | succ fuel ih =>
    intro c hr hf
    unfold Conn.fillInput
    split
    · exact ⟨_, _, rfl, hr.mono (by omega), fun _ => hr⟩
    · dsimp only
      obtain ⟨e, c1, r, b⟩ := readRecord_returns c typAppData k (by decide) hr.out hr.inp
      have hb := readRecord_book r
      rw [r]
      cases e with
      | some e => exact ⟨_, _, rfl, hr.of hb b.outRoom b.inRoom, (fun x => by cases x)⟩
      | none =>
        dsimp only
        obtain ⟨q1, q2⟩ := b.quiet rfl
        have hr1 : Spec.Running (2 + k) c1 := hr.of hb (by rw [q1]; exact hr.out) b.inRoom
        split
        · obtain ⟨e2, c2, r2, h2⟩ := handleRenegotiation_returns L k c1 hr1
          rw [r2]
          exact ⟨_, _, rfl, h2, (fun x => by cases x)⟩
        · exact ih c1 hr1 (by omega)

theorem readPass_returns (L : Life) (peek : Bool) (k cap n : Nat) : ∀ (c : Conn), Spec.Running (2 + k) c →
    ∃ b e c', Conn.readPass (Conn.handleRenegotiation L.parses L.hs) peek n c cap = .ok (b, e, c') ∧ Spec.Running k c' ∧ b.length ≤ cap := by
  induction n with
  | zero => intro c hr; exact ⟨_, _, _, rfl, hr.mono (by omega), Nat.zero_le _⟩
  | succ n ih =>
    intro c hr
    unfold Conn.readPass
    obtain ⟨e, c1, r, h1, h2⟩ := fillInput_returns L k (c.stream.length + 1) c hr (by omega)
    rw [r]
    cases e with
    | some e => exact ⟨_, _, _, rfl, h1, Nat.zero_le _⟩
    | none =>
      dsimp only
      have hr1 := h2 rfl
      cases he : c1.inp.err with
      | some e => exact ⟨_, _, _, rfl, h1, Nat.zero_le _⟩
      | none =>
        dsimp only
        generalize hx : (if (List.drop cap (c1.input.getD [])).length = 0 then none else some (List.drop cap (c1.input.getD []))) = x
        have hr2 : Spec.Running (2 + k) ({ c1 with input := x } : Conn) := hr1.of rfl hr1.out hr1.inp
        have hl : (List.take cap (c1.input.getD [])).length ≤ cap := by rw [List.length_take]; omega
        split
        · obtain ⟨e3, c3, r3, b3⟩ := readRecord_returns ({ c1 with input := x } : Conn) typAppData k (by decide) hr2.out hr2.inp
          rw [r3]
          exact ⟨_, _, _, rfl, hr2.of (readRecord_book r3) b3.outRoom b3.inRoom, hl⟩
        · split
          · exact ⟨_, _, _, rfl, hr2.mono (by omega), hl⟩
          · exact ih _ hr2

theorem readApp_returns (L : Life) (peek : Bool) (k cap : Nat) (c : Conn) (hr : Spec.Running (2 + k) c) :
    ∃ b e c', c.readApp (Conn.handleRenegotiation L.parses L.hs) peek cap = .ok (b, e, c') ∧ Spec.Running k c' ∧ b.length ≤ cap := by
  unfold Conn.readApp
  split
  · exact ⟨_, _, _, rfl, hr.mono (by omega), Nat.zero_le _⟩
  · exact readPass_returns L peek k cap 101 c hr

theorem closeNotify_returns (c : Conn) (k : Nat) (hr : Spec.Running (2 + k) c) : ∃ e c', c.closeNotify = .ok (e, c') ∧ Spec.Running k c' := by
  have key : ∃ e c', c.closeNotify = .ok (e, c') ∧ OutRoom k c'.out ∧ SameReader c c' := by
    unfold Conn.closeNotify
    split
    · exact ⟨_, _, rfl, hr.out.mono (by omega), SameReader.refl c⟩
    · obtain ⟨e, c', h, h1, h2, _⟩ := sendAlert_returns c 0 k hr.out
      rw [h]
      exact ⟨_, _, rfl, h1, h2.trans ⟨rfl, rfl, rfl, rfl, rfl, rfl, rfl, rfl, rfl, rfl, rfl⟩⟩
  obtain ⟨e, c', h, ho, hs⟩ := key
  exact ⟨e, c', h, hr.of (closeNotify_book h) ho (by unfold InRoom; rw [hs.stream, hs.inp]; exact hr.inp)⟩

/-- **C143.** On a connection in use every call returns a result, whatever the arguments, whatever the peer sends and however the transport and the
random source fail, and leaves the connection in use. `Read` never returns more bytes than fit in the buffer, `Write` never reports more bytes than
it was given, and reports all of them when it returns no error. -/
theorem C143_call_returns (L : Life) (op : ConnOp) (c : Conn) (k : Nat) (hr : Spec.Running (Spec.cost op + k) c) :
    ∃ b n e c', c.call L op = .ok ((b, n, e), c') ∧ Spec.Running k c' ∧
      (∀ peek cap, op = .read peek cap → b.length ≤ cap) ∧ (∀ d, op = .write d → n ≤ d.length ∧ (e = none → n = d.length)) := by
  have hh : c.handshake L.hs = .ok (none, c) := by
    unfold Conn.handshake
    rw [hr.noErr]
    dsimp only
    rw [if_pos hr.complete]
  cases op with
  | handshake =>
    unfold Conn.call
    dsimp only
    rw [hh]
    exact ⟨_, _, _, _, rfl, hr.mono (by omega), (fun _ _ x => by cases x), (fun _ x => by cases x)⟩
  | read peek cap =>
    unfold Conn.call
    dsimp only
    rw [hh]
    obtain ⟨b, e, c', r, h1, h2⟩ := readApp_returns L peek k cap c hr
    dsimp only
    rw [r]
    exact ⟨_, _, _, _, rfl, h1, (fun _ _ x => by cases x; exact h2), (fun _ x => by cases x)⟩
  | write d =>
    unfold Conn.call
    dsimp only
    rw [hh]
    obtain ⟨n, e, c', r, ho, hs, h1, h2⟩ := writeApp_returns c d k hr.out
    dsimp only
    rw [r]
    exact ⟨_, _, _, _, rfl, hr.of (writeApp_book r) ho (by unfold InRoom; rw [hs.stream, hs.inp]; exact hr.inp), (fun _ _ x => by cases x),
      (fun _ x => by cases x; exact ⟨h1, h2⟩)⟩
  | closeWrite =>
    unfold Conn.call Conn.closeWrite
    dsimp only
    rw [hr.complete]
    obtain ⟨e, c', r, h1⟩ := closeNotify_returns c k hr
    simp only [Bool.not_true, Bool.false_eq_true, if_false]
    rw [r]
    exact ⟨_, _, _, _, rfl, h1, (fun _ _ x => by cases x), (fun _ x => by cases x)⟩
  | close =>
    unfold Conn.call
    dsimp only
    rw [hr.complete]
    obtain ⟨e, c', r, h1⟩ := closeNotify_returns c k hr
    rw [if_pos rfl, r]
    exact ⟨_, _, _, _, rfl, h1, (fun _ _ x => by cases x), (fun _ x => by cases x)⟩

/-- **C143, histories.** Any sequence of calls runs to its end, as long as the sequence numbers last for the records it may send. -/
theorem C143_history (L : Life) (ops : List ConnOp) : ∀ (c : Conn) (k : Nat), Spec.Running ((ops.map Spec.cost).sum + k) c →
    ∃ c', Conn.calls L ops c = .ok c' ∧ Spec.Running k c' := by
  induction ops with
  | nil => intro c k h; exact ⟨c, rfl, by simpa using h⟩
  | cons op ops ih =>
    intro c k h
    rw [List.map_cons, List.sum_cons, Nat.add_assoc] at h
    obtain ⟨b, n, e, c1, r, h1, _⟩ := C143_call_returns L op c _ h
    unfold Conn.calls
    rw [r]
    exact ih c1 k h1

/-- **C143, handshake messages.** Reading a handshake message returns the message or an error, whatever the peer sends and whatever the state of the
handshake, before and after the key changes. -/
theorem C143_message_returns (parses : Bytes → Bool) (c : Conn) (k : Nat) (ho : OutRoom (2 + k) c.out) (hi : CanReceive c.stream.length c.inp) :
    ∃ r c', c.readHandshake parses = .ok (r, c') ∧ OutRoom k c'.out ∧ CanReceive c'.stream.length c'.inp := by
  obtain ⟨r, c', h, h1, h2, _⟩ := readHandshake_returns parses c k ho hi
  exact ⟨r, c', h, h2, h1⟩

theorem usesSuite_blocks {hc : HalfConn} (h : Spec.UsesSuite hc) : ∀ bs, shape hc.cipher = .cbc bs → 0 < bs := by
  intro bs hb
  rcases usesSuite_cbc hc h bs hb with rfl | rfl <;> omega

/-- **C143, a new connection.** After the keys were derived with a suite usable at the version and both directions changed to them, the connection is in use:
there are sequence numbers for `k` records out, for every `k < 2^64`, and for any stream of fewer than `2^64` bytes in. -/
theorem C143_from_keys (P : Prims) (hP : P.Lawful) (s : Suite) (master cr sr : Bytes) (a b : Conn) (hv : a.vers = b.vers) (hu : Spec.Usable a.vers s)
    (ea : a.handshakeErr = none) (eb : b.handshakeErr = none) (pa : a.policy = 0) (sb : b.isClient = false) :
    ∃ a1 b1 ao ai bo bi, a.clientEstablish P s master cr sr = .ok a1 ∧ b.serverEstablish P s master cr sr = .ok b1 ∧
      a1.out.changeCipherSpec = some ao ∧ a1.inp.changeCipherSpec = some ai ∧ b1.out.changeCipherSpec = some bo ∧ b1.inp.changeCipherSpec = some bi ∧
      ∀ (k : Nat) (stream : Bytes), k < 2 ^ 64 → stream.length < 2 ^ 64 →
        Spec.Running k { a1 with out := ao, inp := ai, handshakeComplete := true, stream := stream } ∧
        Spec.Running k { b1 with out := bo, inp := bi, handshakeComplete := true, stream := stream } := by
  obtain ⟨kc, ks, h1, h2, h3, h4, h5⟩ := C41_endpoints_agree P.hashes a.vers s hu master cr sr
  have hm := usable_mem hu
  obtain ⟨o1, i1, o2, i2, p1, p2, p3, p4, p5, p6, p7, p8, p9, p10⟩ := keyHalf_pair P hP a.vers s hm kc.out (h5 _ (by simp)).2 a.out b.inp
  obtain ⟨q1, j1, q2, j2, r1, r2, r3, r4, r5, r6, r7, r8, r9, r10⟩ := keyHalf_pair P hP a.vers s hm kc.inp (h5 _ (by simp)).2 b.out a.inp
  have zero8 : beNat (List.replicate 8 (0 : Byte)) = 0 := by decide
  refine ⟨{ a with inp := j1, out := o1 }, { b with inp := i1, out := q1 }, o2, j2, q2, i2, ?_, ?_, p3, r4, r3, p4, ?_⟩
  · simp only [Conn.clientEstablish, h1, r2, p1]
  · rw [h3] at p1 p2
    rw [h4] at r1 r2
    simp only [Conn.serverEstablish, ← hv, h2, p2, r1]
  · intro k stream hk hs
    have i8 : i2.seq = List.replicate 8 0 := p5.seqEq.symm.trans p8
    have j8 : j2.seq = List.replicate 8 0 := r5.seqEq.symm.trans r8
    exact ⟨⟨rfl, ea, .inr pa, p6, by simp [p8], by simp only [p8, zero8]; omega, usesSuite_blocks r7, by simp [j8], by simp only [j8, zero8]; omega⟩,
      ⟨rfl, eb, .inl sb, r6, by simp [r8], by simp only [r8, zero8]; omega, usesSuite_blocks p7, by simp [i8], by simp only [i8, zero8]; omega⟩⟩

/-! ### the hypotheses are met -/

/-- a GM connection (SM4-CBC with HMAC-SM3 of this repository), client and server: in use for every `k` and every stream -/
example (master cr sr : Bytes) := C143_from_keys Example.prims Example.prims_lawful
  ⟨0xe013, 16, 32, 16, .eccGM, false, true, false, false, false, .sm4CBC, .sm3⟩ master cr sr
  { vers := vGMSSL, isClient := true, rand := List.replicate 4096 7 } { vers := vGMSSL, haveVers := true, rand := List.replicate 4096 9 }
  rfl (.inr ⟨by simp [gmCipherSuites], rfl⟩) rfl rfl rfl rfl

/-- a server connection with the block size of 3DES, about to read eleven bytes of rubbish; the transport fails after three bytes -/
def rubbish : Conn :=
  { isClient := false, handshakeComplete := true, handshakes := 1, haveVers := true, vers := 0x0303, writes := [some 3],
    out := { version := 0x0303, cipher := some (.stream (fun _ => 1) 0), mac := some (tls10MAC 20 (fun _ => List.replicate 20 0)) },
    inp := { version := 0x0303, cipher := some (.cbc 8 true id (List.replicate 8 0)), mac := some (tls10MAC 20 (fun _ => List.replicate 20 0)) },
    stream := [23, 3, 3, 0, 6, 1, 2, 3, 4, 5, 6] }

theorem rubbish_running (k : Nat) (hk : k < 2 ^ 64) : Spec.Running k rubbish := by
  refine ⟨rfl, rfl, .inl rfl, .inr ⟨⟨0x0005, 16, 20, 0, .rsa, false, false, false, false, true, .rc4, .sha1⟩, .inl ?_, rfl, rfl⟩, rfl, ?_, ?_, rfl, ?_⟩
  · simp [cipherSuites]
  · have : beNat rubbish.out.seq = 0 := by decide
    omega
  · intro bs h
    have : bs = 8 := by
      have h' : Shape.cbc 8 = Shape.cbc bs := h
      cases h'; rfl
    omega
  · have : beNat rubbish.inp.seq = 0 := by decide
    have : rubbish.stream.length = 11 := rfl
    omega

/-- reading fails with an alert, which the transport does not take; reading again gives the same error, closing reports the failed write -/
example : (match Conn.calls easyLife [.read false 10, .read true 10, .write [1, 2, 3], .close, .closeWrite] rubbish with
    | .ok c => some (c.inp.err, c.wire.length)
    | _ => none) = some (some "local error 20", 3 + 27) := by decide +kernel

end Verif.Tls
