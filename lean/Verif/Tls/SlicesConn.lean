import Verif.Tls.Slices
import Verif.Tls.Returns
/-!
C144, continued: the record reader and the handshake message reader (tls/conn.go:567-735, 950-1035) with checked indexes.
-/
namespace Verif.Tls
open Verif Verif.Std

/-- `c.in.setErrorLocked(c.sendAlert(alertUnexpectedMessage))` and on to the end of the function -/
def Conn.refuse (c : Conn) (a : Byte) : Res (Step × Conn) := asDone (c.failAlert a)

/-- tls/conn.go:664-690: an alert record. `data[1]` is read before `data[0]`. -/
def Conn.alertGo (c : Conn) (data : Bytes) : Res (Step × Conn) :=
  if data.length ≠ 2 then c.refuse 10
  else do
    let d1 ← goAt data 1
    if d1 = 0 then .ok (.done (some "EOF"), c.setInErr (some "EOF"))
    else do
      let d0 ← goAt data 0
      if d0 = 1 then
        let c := { c with warnCount := c.warnCount + 1 }
        if c.warnCount > 5 then asDone (c.failMsg 10 "tls: too many warn alerts")
        else .ok (.again, c)
      else if d0 = 2 then
        let e := "remote error " ++ toString d1.toNat
        .ok (.done (some e), c.setInErr (some e))
      else c.refuse 10

/-- tls/conn.go:692-705: a ChangeCipherSpec record; `data[0]` is read only if `len(data) == 1` -/
def Conn.ccsGo (c : Conn) (want : Byte) (data : Bytes) : Res (Step × Conn) :=
  if typCCS ≠ want ∨ data.length ≠ 1 then c.refuse 10
  else do
    let d0 ← goAt data 0
    if d0 ≠ 1 then c.refuse 10
    else if c.hand.length > 0 then c.refuse 10
    else match c.inp.changeCipherSpec with
      | some inp' => .ok (.done inp'.err, { c with inp := inp' })
      | none => c.refuse 80

/-- tls/conn.go:646-735 -/
def Conn.processRecordGo (c : Conn) (want typ : Byte) (data : Bytes) : Res (Step × Conn) :=
  if data.length > 16384 then c.refuse 22
  else
    let c := if typ ≠ typAlert ∧ data.length > 0 then { c with warnCount := 0 } else c
    if typ = typAlert then c.alertGo data
    else if typ = typCCS then c.ccsGo want data
    else if typ = typAppData then
      if typ ≠ want then c.refuse 10
      else .ok (.done c.inp.err, { c with input := some data })
    else if typ = typHandshake then
      if typ ≠ want ∧ ¬ (c.isClient = true ∧ c.renegotiation = true) then c.refuse 100
      else .ok (.done c.inp.err, { c with hand := c.hand ++ data })
    else c.refuse 10

/-- tls/conn.go:607-645: one pass of `readRecord`. `stale` and `ad0`: see `decryptGo`. -/
def Conn.readOnceGo (stale : Nat → Byte) (ad0 : Bytes) (c : Conn) (want : Byte) : Res (Step × Conn) :=
  if c.stream.length < 5 then .ok (.done (some c.streamErr), { c with stream := [] }.setInErr (some c.streamErr))
  else do
    let typ ← goAt c.stream 0
    if want = typHandshake ∧ typ = 0x80 then asDone (c.failMsg 70 "unsupported SSLv2 handshake received")
    else do
      let d1 ← goAt c.stream 1
      let d2 ← goAt c.stream 2
      let vers : Version := (d1.zeroExtend 16 <<< 8) ||| d2.zeroExtend 16
      let d3 ← goAt c.stream 3
      let d4 ← goAt c.stream 4
      let n := d3.toNat <<< 8 ||| d4.toNat
      if c.haveVers = true ∧ vers ≠ c.vers then asDone (c.failMsg 70 "received record with wrong version")
      else if n > 16384 + 2048 then asDone (c.failMsg 22 "oversized record received")
      else if c.haveVers = false ∧ ((typ ≠ typAlert ∧ typ ≠ want) ∨ 0x1000 ≤ vers.toNat) then
        asDone (c.failMsg 10 "first record does not look like a TLS handshake")
      else if c.stream.length < 5 + n then
        let e := if c.streamErr = "EOF" then "unexpected EOF" else c.streamErr
        .ok (.done (some e), { c with stream := [] }.setInErr (some e))
      else do
        let b ← goTo c.stream (5 + n : Nat)
        let rest ← goFrom c.stream (5 + n : Nat)
        let c := { c with stream := rest }
        let (d, inp') ← c.inp.decryptGo stale ad0 b
        match d with
        | none => asDone (({ c with inp := inp' } : Conn).failAlert 20)
        | some data => ({ c with inp := inp' } : Conn).processRecordGo want typ data

/-- tls/conn.go:587-735: `goto Again` -/
def Conn.readLoopGo (stale : Nat → Byte) (ad0 : Bytes) : Nat → Conn → Byte → Res (Option String × Conn)
  | 0, _, _ => .panic
  | k + 1, c, want => do
    let (s, c) ← c.readOnceGo stale ad0 want
    match s with
    | .done e => .ok (e, c)
    | .again => Conn.readLoopGo stale ad0 k c want

/-- tls/conn.go:567-735 `readRecord` -/
def Conn.readRecordGo (stale : Nat → Byte) (ad0 : Bytes) (c : Conn) (want : Byte) : Res (Option String × Conn) :=
  if want = typHandshake ∨ want = typCCS then
    if c.handshakeComplete then c.failMsg 80 "tls: handshake or ChangeCipherSpec requested while not in handshake"
    else Conn.readLoopGo stale ad0 6 c want
  else if want = typAppData then
    if !c.handshakeComplete then c.failMsg 80 "tls: application data record requested while in handshake"
    else Conn.readLoopGo stale ad0 6 c want
  else c.failMsg 80 "tls: unknown record type requested"

/-- tls/conn.go:952-959, 967-974 -/
def Conn.fillHandGo (stale : Nat → Byte) (ad0 : Bytes) : Nat → Conn → Nat → Res (Option String × Conn)
  | fuel, c, k =>
    if k ≤ c.hand.length then .ok (none, c)
    else match c.inp.err with
      | some e => .ok (some e, c)
      | none =>
        match fuel with
        | 0 => .panic
        | fuel + 1 => do
          let (e, c) ← c.readRecordGo stale ad0 typHandshake
          match e with
          | some e => .ok (some e, c)
          | none => Conn.fillHandGo stale ad0 fuel c k

/-- tls/conn.go:961-962: `data[1], data[2], data[3]` -/
def headerLenGo (hand : Bytes) : Res Nat := do
  let d1 ← goAt hand 1
  let d2 ← goAt hand 2
  let d3 ← goAt hand 3
  .ok (d1.toNat <<< 16 ||| d2.toNat <<< 8 ||| d3.toNat)

/-- tls/conn.go:951-1025 `readHandshake` -/
def Conn.readHandshakeGo (stale : Nat → Byte) (ad0 : Bytes) (parses : Bytes → Bool) (c : Conn) : Res (Except String Bytes × Conn) := do
  let (e, c) ← Conn.fillHandGo stale ad0 (c.stream.length + 1) c 4
  match e with
  | some e => .ok (.error e, c)
  | none => do
    let n ← headerLenGo c.hand
    if n > 65536 then do
      let (_, c) ← c.failMsg 80 "tls: handshake message exceeds maximum"
      .ok (.error "tls: handshake message exceeds maximum", c)
    else do
      let (e, c) ← Conn.fillHandGo stale ad0 (c.stream.length + 1) c (4 + n)
      match e with
      | some e => .ok (.error e, c)
      | none => do
        let data ← goTo c.hand (4 + n : Nat)
        let rest ← goFrom c.hand (4 + n : Nat)
        let c := { c with hand := rest }
        let d0 ← goAt data 0
        if knownType d0 && parses data then .ok (.ok data, c)
        else do
          let (e, c) ← c.failAlert 10
          .ok (.error (e.getD ""), c)

/-! ### equality -/

theorem shift_or (b : Byte) (m : Nat) : (m <<< 8 ||| b.toNat) = m * 256 + b.toNat := by
  rw [← Nat.shiftLeft_add_eq_or_of_lt b.isLt m, Nat.shiftLeft_eq]

theorem alertGo_eq (c : Conn) (data : Bytes) : c.alertGo data =
    (if data.length ≠ 2 then asDone (c.failAlert 10)
      else if data.getD 1 0 = 0 then .ok (.done (some "EOF"), c.setInErr (some "EOF"))
      else if data.getD 0 0 = 1 then
        let c := { c with warnCount := c.warnCount + 1 }
        if c.warnCount > 5 then asDone (c.failMsg 10 "tls: too many warn alerts")
        else .ok (.again, c)
      else if data.getD 0 0 = 2 then
        let e := "remote error " ++ toString (data.getD 1 0).toNat
        .ok (.done (some e), c.setInErr (some e))
      else asDone (c.failAlert 10)) := by
  unfold Conn.alertGo
  split
  · rfl
  · rw [goAt_ok data 1 1 rfl (by omega), Res.ok_bind]
    split
    · rfl
    · rw [goAt_ok data 0 0 rfl (by omega), Res.ok_bind]
      rfl

theorem ccsGo_eq (c : Conn) (want : Byte) (data : Bytes) : c.ccsGo want data =
    (if typCCS ≠ want ∨ data.length ≠ 1 ∨ data.getD 0 0 ≠ 1 then asDone (c.failAlert 10)
      else if c.hand.length > 0 then asDone (c.failAlert 10)
      else match c.inp.changeCipherSpec with
        | some inp' => .ok (.done inp'.err, { c with inp := inp' })
        | none => asDone (c.failAlert 80)) := by
  unfold Conn.ccsGo
  by_cases h : typCCS ≠ want ∨ data.length ≠ 1
  · rw [if_pos h, if_pos (by rcases h with h | h; exacts [.inl h, .inr (.inl h)])]
    rfl
  · have hl : data.length = 1 := by
      by_contra hx; exact h (.inr hx)
    rw [if_neg h, goAt_ok data 0 0 rfl (by omega), Res.ok_bind]
    by_cases h1 : data.getD 0 0 ≠ 1
    · rw [if_pos h1, if_pos (.inr (.inr h1))]
      rfl
    · have hx : ¬ (typCCS ≠ want ∨ data.length ≠ 1 ∨ data.getD 0 0 ≠ 1) := by
        rintro (x | x | x)
        exacts [h (.inl x), h (.inr x), h1 x]
      rw [if_neg h1, if_neg hx]
      rfl

theorem processRecordGo_eq (c : Conn) (want typ : Byte) (data : Bytes) : c.processRecordGo want typ data = c.processRecord want typ data := by
  unfold Conn.processRecordGo Conn.processRecord
  split
  · rfl
  · dsimp only
    rw [alertGo_eq, ccsGo_eq]
    split
    · rfl
    · split
      · rename_i h
        subst h
        rfl
      · rfl

theorem readOnceGo_eq (stale : Nat → Byte) (ad0 : Bytes) (h13 : ad0.length = 13) (c : Conn) (want : Byte) (h8 : c.inp.seq.length = 8)
    (hbs : ∀ bs, shape c.inp.cipher = .cbc bs → 0 < bs) : Conn.readOnceGo stale ad0 c want = c.readOnce want := by
  unfold Conn.readOnceGo Conn.readOnce
  by_cases h5 : c.stream.length < 5
  · rw [if_pos h5, if_pos h5]
  · rw [if_neg h5, if_neg h5]
    rw [goAt_ok c.stream 0 0 rfl (by omega), Res.ok_bind]
    dsimp only
    split
    · rfl
    · rw [goAt_ok c.stream 1 1 rfl (by omega), Res.ok_bind, goAt_ok c.stream 2 2 rfl (by omega), Res.ok_bind, goAt_ok c.stream 3 3 rfl (by omega), Res.ok_bind,
        goAt_ok c.stream 4 4 rfl (by omega), Res.ok_bind]
      have hn : ((c.stream.getD 3 0).toNat <<< 8 ||| (c.stream.getD 4 0).toNat) = beNat ((c.stream.drop 3).take 2) := by
        match hs : c.stream, h5 with
        | x0 :: x1 :: x2 :: x3 :: x4 :: r, _ =>
          rw [shift_or]
          simp [beNat]
        | [], h | [_], h | [_, _], h | [_, _, _], h | [_, _, _, _], h => simp at h
      rw [hn]
      split
      · rfl
      · split
        · rfl
        · split
          · rfl
          · split
            · rfl
            · rename_i hlen
              rw [goTo_ok _ _ (by omega), Res.ok_bind, goFrom_ok _ _ (by omega), Res.ok_bind]
              rw [decryptGo_eq _ _ _ _ h13 h8 (by rw [List.length_take]; omega) hbs]
              cases c.inp.decrypt (c.stream.take (5 + beNat ((c.stream.drop 3).take 2))) with
              | err m => rfl
              | panic => rfl
              | ok r =>
                obtain ⟨d, inp'⟩ := r
                cases d with
                | none => rfl
                | some data => exact processRecordGo_eq _ _ _ _

theorem readLoopGo_eq (stale : Nat → Byte) (ad0 : Bytes) (h13 : ad0.length = 13) (n : Nat) : ∀ (c : Conn) (want : Byte), CanSend c.out →
    CanReceive n c.inp → Conn.readLoopGo stale ad0 n c want = Conn.readLoop n c want := by
  induction n with
  | zero => intro c want _ _; rfl
  | succ n ih =>
    intro c want ho hi
    unfold Conn.readLoopGo Conn.readLoop
    rw [readOnceGo_eq stale ad0 h13 c want hi.seq8 hi.blocks]
    rcases readOnce_total n c want ho hi with ⟨e, c', h⟩ | ⟨c', h, hout, hr, _, _⟩
    · rw [h]; rfl
    · rw [h]
      simp only [Res.ok_bind]
      exact ih c' want (by rw [hout]; exact ho) hr

theorem readRecordGo_eq (stale : Nat → Byte) (ad0 : Bytes) (h13 : ad0.length = 13) (c : Conn) (want : Byte) (ho : CanSend c.out)
    (hi : CanReceive 6 c.inp) : Conn.readRecordGo stale ad0 c want = c.readRecord want := by
  unfold Conn.readRecordGo Conn.readRecord
  rw [readLoopGo_eq stale ad0 h13 6 c want ho hi]

/-! the same, when the receiving half has a sequence number for every byte to come -/

theorem readLoopGo_in (stale : Nat → Byte) (ad0 : Bytes) (h13 : ad0.length = 13) (n : Nat) : ∀ (c : Conn) (want : Byte) (k : Nat), want ≠ typCCS →
    OutRoom (2 + k) c.out → InRoom c → Conn.readLoopGo stale ad0 n c want = Conn.readLoop n c want := by
  induction n with
  | zero => intro c want k _ _ _; rfl
  | succ n ih =>
    intro c want k hw ho hi
    unfold Conn.readLoopGo Conn.readLoop
    rw [readOnceGo_eq stale ad0 h13 c want hi.seq8 hi.blocks]
    obtain ⟨s, c', h, hc, _⟩ := readOnce_came c want k hw ho hi
    rw [h]
    simp only [Res.ok_bind]
    cases s with
    | done e => rfl
    | again => exact ih c' want k hw (by rw [hc.quiet (.inl rfl)]; exact ho) hc.inRoom

theorem readRecordGo_in (stale : Nat → Byte) (ad0 : Bytes) (h13 : ad0.length = 13) (c : Conn) (want : Byte) (k : Nat) (hw : want ≠ typCCS)
    (ho : OutRoom (2 + k) c.out) (hi : InRoom c) : Conn.readRecordGo stale ad0 c want = c.readRecord want := by
  unfold Conn.readRecordGo Conn.readRecord
  rw [readLoopGo_in stale ad0 h13 6 c want k hw ho hi]

theorem fillHandGo_in (stale : Nat → Byte) (ad0 : Bytes) (h13 : ad0.length = 13) (fuel : Nat) : ∀ (c : Conn) (n k : Nat), OutRoom (2 + k) c.out →
    InRoom c → Conn.fillHandGo stale ad0 fuel c n = Conn.fillHand fuel c n := by
  induction fuel with
  | zero =>
    intro c n k _ _
    unfold Conn.fillHandGo Conn.fillHand
    rfl
  | succ fuel ih =>
    intro c n k ho hi
    unfold Conn.fillHandGo Conn.fillHand
    split
    · rfl
    · cases he : c.inp.err with
      | some e => rfl
      | none =>
        dsimp only
        rw [readRecordGo_in stale ad0 h13 c typHandshake k (by decide) ho hi]
        obtain ⟨e, c1, r, b⟩ := readRecord_returns c typHandshake k (by decide) ho hi
        rw [r]
        simp only [Res.ok_bind]
        cases e with
        | some e => rfl
        | none => exact ih c1 n k (by rw [(b.quiet rfl).1]; exact ho) b.inRoom

theorem headerLenGo_ok (hand : Bytes) (h : 4 ≤ hand.length) : headerLenGo hand = .ok (beNat ((hand.drop 1).take 3)) := by
  unfold headerLenGo
  rw [goAt_ok hand 1 1 rfl (by omega), Res.ok_bind, goAt_ok hand 2 2 rfl (by omega), Res.ok_bind, goAt_ok hand 3 3 rfl (by omega), Res.ok_bind]
  congr 1
  match hand, h with
  | x0 :: x1 :: x2 :: x3 :: r, _ =>
    simp only [List.getD_cons_succ, List.getD_cons_zero]
    have h1 : (x1.toNat <<< 16 ||| x2.toNat <<< 8) = (x1.toNat <<< 8 ||| x2.toNat) <<< 8 := by
      rw [Nat.shiftLeft_or_distrib, ← Nat.shiftLeft_add]
    rw [h1, shift_or, shift_or]
    simp [beNat]

/-- **C144 (records).** Whatever the transport delivers, reading a record with every index and slice checked returns, with the result of the
model: no panic inside the reader. `CanReceive 6`, `CanSend`: 8-byte sequence numbers that are not about to wrap, a block size that is not 0. -/
theorem C144_record (stale : Nat → Byte) (ad0 : Bytes) (h13 : ad0.length = 13) (c : Conn) (want : Byte) (ho : CanSend c.out)
    (hi : CanReceive 6 c.inp) : ∃ e c', Conn.readRecordGo stale ad0 c want = .ok (e, c') ∧ c.readRecord want = .ok (e, c') := by
  obtain ⟨e, c', h⟩ := C30_always_returns c want ho hi
  exact ⟨e, c', (readRecordGo_eq stale ad0 h13 c want ho hi).trans h, h⟩

/-- **C144 (handshake messages).** The same for reading the next handshake message, fragmented over records in any way. -/
theorem C144_message (stale : Nat → Byte) (ad0 : Bytes) (h13 : ad0.length = 13) (parses : Bytes → Bool) (c : Conn) (k : Nat)
    (ho : OutRoom (2 + k) c.out) (hi : CanReceive c.stream.length c.inp) :
    ∃ r c', Conn.readHandshakeGo stale ad0 parses c = .ok (r, c') ∧ c.readHandshake parses = .ok (r, c') := by
  obtain ⟨r0, c0, h0, _⟩ := readHandshake_returns parses c k ho hi
  refine ⟨r0, c0, ?_, h0⟩
  rw [← h0]
  unfold Conn.readHandshakeGo Conn.readHandshake
  rw [fillHandGo_in stale ad0 h13 _ c 4 k ho hi]
  obtain ⟨e1, c1, r1, i1, o1, s1, q1⟩ := fillHand_returns (c.stream.length + 1) c 4 k ho hi (by omega)
  rw [r1]
  simp only [Res.ok_bind]
  cases e1 with
  | some e => rfl
  | none =>
    dsimp only
    have ho1 : OutRoom (2 + k) c1.out := by rw [(q1 rfl).1]; exact ho
    rw [headerLenGo_ok _ (q1 rfl).2, Res.ok_bind]
    split
    · obtain ⟨c2, r2, _⟩ := failMsg_came c1 80 "tls: handshake message exceeds maximum" k ho1 i1
      rw [r2]
      rfl
    · rw [fillHandGo_in stale ad0 h13 _ c1 _ k ho1 i1]
      obtain ⟨e2, c2, r2, i2, o2, s2, q2⟩ := fillHand_returns (c1.stream.length + 1) c1 (4 + beNat ((c1.hand.drop 1).take 3)) k ho1 i1 (by omega)
      rw [r2]
      simp only [Res.ok_bind]
      cases e2 with
      | some e => rfl
      | none =>
        dsimp only
        have hl := (q2 rfl).2
        rw [goTo_ok _ _ hl, Res.ok_bind, goFrom_ok _ _ hl, Res.ok_bind, goAt_ok _ 0 0 rfl (by rw [List.length_take]; omega), Res.ok_bind]
        split
        · rfl
        · cases (({ c2 with hand := c2.hand.drop (4 + beNat ((c1.hand.drop 1).take 3)) } : Conn).failAlert 10) <;> rfl

/-! ### examples -/

/-- a plaintext connection on which an empty handshake record, a three-byte alert and rubbish arrive -/
def toyRubbish : Conn := { isClient := true, stream := [22, 3, 1, 0, 0, 21, 3, 1, 0, 3, 1, 2, 3, 9, 9] }

example : CanSend toyRubbish.out ∧ CanReceive 6 toyRubbish.inp ∧ CanReceive toyRubbish.stream.length toyRubbish.inp ∧ OutRoom (2 + 0) toyRubbish.out := by
  have hb : ∀ bs, shape toyRubbish.inp.cipher = .cbc bs → 0 < bs := fun bs h => by cases h
  exact ⟨⟨.inl ⟨rfl, rfl⟩, rfl, by decide⟩, ⟨rfl, by decide, hb⟩, ⟨rfl, by decide, hb⟩, ⟨.inl ⟨rfl, rfl⟩, rfl, by decide⟩⟩

example : (Conn.readHandshakeGo (fun _ => 5) (List.replicate 13 1) (fun _ => true) toyRubbish).map
    (fun r => (r.1.toOption, r.2.wire.length)) = .ok (none, 7) := by decide +kernel

/-- two fragments of an (empty) server_hello_done -/
def toyFragments : Conn := { isClient := true, stream := [22, 3, 1, 0, 3, 14, 0, 0, 22, 3, 1, 0, 1, 0] }

example : (Conn.readHandshakeGo (fun _ => 5) (List.replicate 13 1) (fun _ => true) toyFragments).map
    (fun r => (r.1.toOption, r.2.wire.length)) = .ok (some [14, 0, 0, 0], 0) := by decide +kernel

end Verif.Tls
