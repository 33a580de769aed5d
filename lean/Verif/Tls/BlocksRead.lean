import Verif.Tls.BlocksProps
import Verif.Tls.Reassembly
/-!
C130: what `Read` returns does not depend on how the transport cuts the stream, on timeouts, or on the sizes of the buffers.
-/
namespace Verif.Tls.Blocks
open Verif Verif.Tls

/-! ### the data in a stream -/

/-- the application data of the records of the stream, up to the first error, and that error; `k` bounds the number of records -/
def records : Nat → Conn → Bytes × Option String
  | 0, _ => ([], none)
  | k + 1, c =>
    match c.readOnce typAppData with
    | .ok (.again, c') => records k c'
    | .ok (.done none, c') => (c'.input.getD [] ++ (records k { c' with input := none }).1, (records k { c' with input := none }).2)
    | .ok (.done (some e), _) => ([], some e)
    | _ => ([], none)

def content (c : Conn) : Bytes × Option String :=
  match c.inp.err with
  | some e => ([], some e)
  | none => (c.input.getD [] ++ (records (c.stream.length + 1) { c with input := none }).1, (records (c.stream.length + 1) { c with input := none }).2)

/-- what a record that neither fails nor ends does -/
theorem readOnce_ok (c : Conn) (s : Step) (c' : Conn) (hr : ¬ (c.isClient = true ∧ c.renegotiation = true)) (h : c.readOnce typAppData = .ok (s, c')) (hs : ∀ e, s ≠ .done (some e)) :
    ∃ rest inp' w i, c' = { c with stream := rest, inp := inp', warnCount := w, input := i } ∧ rest.length < c.stream.length ∧ inp'.err = c.inp.err ∧ (∃ x d, c.inp.decrypt x = .ok (d, inp')) ∧
      (s = .again → i = c.input) ∧ (s = .done none → inp'.err = none ∧ ∃ d, i = some d) := by
  obtain ⟨typ, v, body, rest, data, inp', ho, _, hp⟩ := readOnce_inv c _ s c' h hs
  have hlen : rest.length < c.stream.length := by
    rw [ho.stream]
    simp [Spec.frame]
    omega
  have herr := (decrypt_nextCipher _ _ _ _ ho.opened).2.2.1
  rcases processRecord_inv _ _ _ _ _ _ hp hs with ⟨e, _, desc, _, _, _, hc⟩ | ⟨e, herr0, _, hd⟩
  · subst e
    exact ⟨rest, inp', c.warnCount + 1, c.input, hc, hlen, herr, ⟨_, _, ho.opened⟩, fun _ => rfl, by simp⟩
  · subst e
    cases hd with
    | app w hw => exact ⟨rest, inp', w, some data, rfl, hlen, herr, ⟨_, _, ho.opened⟩, by simp, fun _ => ⟨herr0, data, rfl⟩⟩
    | handshake w hw =>
      rcases hw with hw | hw
      · simp [typAppData] at hw
      · exact absurd hw hr
    | ccs w hw => simp [typAppData] at hw

theorem records_stable (k : Nat) : ∀ (c : Conn) (j : Nat), ¬ (c.isClient = true ∧ c.renegotiation = true) → c.stream.length < k → k ≤ j → records j c = records k c := by
  induction k with
  | zero => intro c j _ h; omega
  | succ k ih =>
    intro c j hr hl hj
    obtain ⟨j, rfl⟩ : ∃ i, j = i + 1 := ⟨j - 1, by omega⟩
    unfold records
    split
    · rename_i c' h
      obtain ⟨rest, inp', w, i, rfl, hlt, _⟩ := readOnce_ok c _ _ hr h (by simp)
      exact ih _ j hr (by show rest.length < k; omega) (by omega)
    · rename_i c' h
      obtain ⟨rest, inp', w, i, rfl, hlt, _⟩ := readOnce_ok c _ _ hr h (by simp)
      rw [ih ({ ({ c with stream := rest, inp := inp', warnCount := w, input := i } : Conn) with input := none } : Conn) j hr (by show rest.length < k; omega) (by omega)]
    · rfl
    · rfl

def Quiet (c : Conn) : Prop := ¬ (c.isClient = true ∧ c.renegotiation = true)

theorem content_err {c : Conn} {e : String} (h : c.inp.err = some e) : content c = ([], some e) := by
  unfold content
  rw [h]

/-- a record read leaves the data that are still to come, with those it brought -/
theorem content_once (c : Conn) (s : Step) (c' : Conn) (hr : Quiet c) (he : c.inp.err = none) (hi : c.input = none) (h : c.readOnce typAppData = .ok (s, c')) :
    content c' = content c := by
  have hc : ({ c with input := none } : Conn) = c := by rw [← hi]
  have e0 : content c = records (c.stream.length + 1) c := by
    unfold content
    rw [he, hi]
    simp [hc]
  rw [e0]
  unfold records
  rw [h]
  cases s with
  | again =>
    simp only
    obtain ⟨rest, inp', w, i, rfl, hlt, hie, _, hii, _⟩ := readOnce_ok c _ _ hr h (by simp)
    have : i = none := (hii rfl).trans hi
    subst this
    unfold content
    simp only [hie, he, Option.getD_none, List.nil_append]
    rw [records_stable (rest.length + 1) ({ c with stream := rest, inp := inp', warnCount := w, input := none } : Conn) c.stream.length hr (by simp) (by omega)]
  | done e =>
    cases e with
    | none =>
      simp only
      obtain ⟨rest, inp', w, i, rfl, hlt, hie, _, _, hii⟩ := readOnce_ok c _ _ hr h (by simp)
      unfold content
      simp only [hie, he]
      rw [records_stable (rest.length + 1) ({ c with stream := rest, inp := inp', warnCount := w, input := none } : Conn) c.stream.length hr (by simp) (by omega)]
    | some e =>
      simp only
      exact content_err (readOnce_err c _ _ _ h e rfl)

/-! ### the script is only used up -/

theorem read_script (t : Net) (room : Nat) : (t.read room).2.2.script.length ≤ t.script.length ∧
    ∀ e, (t.read room).2.1 = some (.temporary e) → (t.read room).2.2.script.length < t.script.length := by
  unfold Net.read
  cases hs : t.script with
  | nil =>
    simp only
    split
    · exact ⟨by simp [hs], by simp⟩
    · exact ⟨by simp, by simp⟩
  | cons m l => exact ⟨by simp, by simp⟩

theorem fillLoop_script (k : Nat) : ∀ (h : Heap) (t : Net) (b n : Nat) (err : Option NetErr) (h' : Heap) (t' : Net), fillLoop k h t b n = .ok (err, h', t') →
    t'.script.length ≤ t.script.length ∧ ∀ e, err = some (.temporary e) → t'.script.length < t.script.length := by
  induction k with
  | zero => intro h t b n err h' t' e; cases e
  | succ k ih =>
    intro h t b n err h' t' e
    rw [fillLoop] at e
    have hs := read_script t ((h.blocks b).cap - (h.blocks b).len)
    generalize t.read ((h.blocks b).cap - (h.blocks b).len) = r at e hs
    obtain ⟨got, er, t1⟩ := r
    simp only at e hs
    split at e
    · cases e
      exact ⟨hs.1, by simp⟩
    · cases er with
      | some x =>
        cases e
        exact hs
      | none =>
        have := ih _ _ _ _ _ _ _ e
        exact ⟨by omega, fun x hx => by have := this.2 x hx; omega⟩

theorem readFromUntil_script (h : Heap) (t : Net) (b n : Nat) (err : Option NetErr) (h' : Heap) (t' : Net) (e : readFromUntil h t b n = .ok (err, h', t')) :
    t'.script.length ≤ t.script.length ∧ ∀ e, err = some (.temporary e) → t'.script.length < t.script.length := by
  unfold readFromUntil at e
  split at e
  · cases e
    exact ⟨Nat.le_refl _, by simp⟩
  · exact fillLoop_script _ _ _ _ _ _ _ _ e

theorem asBDone_inv {s : BConn} {x : Res (Option String × Conn)} {r : BStep} {s' : BConn} (h : asBDone s x = .ok (r, s')) :
    s'.net = s.net ∧ ∀ e, r ≠ .temporary e := by
  rcases x with ⟨e, c⟩ | x | _
  · cases h
    exact ⟨rfl, by simp⟩
  · cases h
  · cases h

theorem process_script {s : BConn} {want typ : Byte} {b : Nat} {r : BStep} {s' : BConn} (h : s.process want typ b = .ok (r, s')) :
    s'.net = s.net ∧ ∀ e, r ≠ .temporary e := by
  unfold BConn.process at h
  simp only at h
  split at h
  · cases h
    exact ⟨rfl, by simp⟩
  · split at h
    · rename_i q _ _
      cases h
      cases q <;> exact ⟨rfl, by simp [BStep.of]⟩
    · cases h
    · cases h

theorem readOnce_script {s : BConn} {want : Byte} {r : BStep} {s' : BConn} (h : s.readOnce want = .ok (r, s')) :
    s'.net.script.length ≤ s.net.script.length ∧ ∀ e, r = .temporary e → s'.net.script.length < s.net.script.length := by
  unfold BConn.readOnce at h
  have hr : s.getRaw.2.net = s.net := by
    unfold BConn.getRaw
    split <;> rfl
  generalize s.getRaw = q at h hr
  obtain ⟨b, s1⟩ := q
  simp only at h hr
  have same : s'.net = s.net ∧ (∀ e, r ≠ .temporary e) → s'.net.script.length ≤ s.net.script.length ∧ ∀ e, r = .temporary e → s'.net.script.length < s.net.script.length := by
    rintro ⟨a, c⟩
    exact ⟨by rw [a], fun e he => absurd he (c e)⟩
  split at h
  · cases h
  · cases h
  · rename_i e h1 t1 h5
    have k := readFromUntil_script _ _ _ _ _ _ _ h5
    rw [hr] at k
    unfold BConn.netFails at h
    cases e with
    | temporary e =>
      cases h
      exact ⟨k.1, fun x hx => k.2 e rfl⟩
    | final =>
      cases h
      exact ⟨k.1, by simp⟩
  · rename_i h1 t1 h5
    have k := readFromUntil_script _ _ _ _ _ _ _ h5
    rw [hr] at k
    have fail : ∀ {x}, asBDone { s1 with h := h1, net := t1 } x = .ok (r, s') → s'.net.script.length ≤ s.net.script.length ∧ ∀ e, r = .temporary e → s'.net.script.length < s.net.script.length := by
      intro x hx
      obtain ⟨a, c⟩ := asBDone_inv hx
      exact ⟨by rw [a]; exact k.1, fun e he => absurd he (c e)⟩
    split at h
    · exact fail h
    split at h
    · exact fail h
    split at h
    · exact fail h
    split at h
    · exact fail h
    split at h
    · cases h
    · cases h
    · rename_i e h2 t2 h6
      have k2 := readFromUntil_script _ _ _ _ _ _ _ h6
      unfold BConn.netFails at h
      cases e with
      | temporary e =>
        cases h
        have := k2.2 e rfl
        exact ⟨by simp only; omega, fun x hx => by simp only; omega⟩
      | final =>
        cases h
        exact ⟨by simp only; omega, by simp⟩
    · rename_i h2 t2 h6
      have k2 := readFromUntil_script _ _ _ _ _ _ _ h6
      have fin : s'.net = t2 ∧ (∀ e, r ≠ .temporary e) := by
        unfold BConn.openRecord at h
        generalize splitBlock _ _ _ _ = q at h
        obtain ⟨tail, h3, free⟩ := q
        simp only at h
        split at h
        · exact asBDone_inv h
        · exact process_script h
        · cases h
        · cases h
      exact ⟨by rw [fin.1]; omega, fun e he => absurd he (fin.2 e)⟩

/-! ### one record -/

/-- the buffers are in order, and as long as reading has not failed, the handshake is over, no handshake bytes are pending and none are accepted -/
structure Ready (s : BConn) : Prop where
  good : s.Good
  state : s.c.inp.err = none → s.c.handshakeComplete = true ∧ Quiet s.c ∧ s.c.hand = []

structure After (s : BConn) (r : BStep) (s' : BConn) : Prop where
  ready : Ready s'
  same : content s'.abs = content s.abs
  script : s'.net.script.length ≤ s.net.script.length
  temp : ∀ e, r = .temporary e → s'.net.script.length < s.net.script.length ∧ s'.c.inp.err = none ∧ s'.input = none
  fail : ∀ e, r = .done (some e) → s'.c.inp.err = some e
  stream : (∀ e, r ≠ .done (some e)) → s'.abs.stream.length ≤ s.abs.stream.length
  ok : r = .done none → s'.c.inp.err = none ∧ s'.input.isSome = true ∧ s'.abs.stream.length < s.abs.stream.length
  again : r = .again → s'.c.inp.err = none ∧ s'.input = none

theorem input_none {s : BConn} (h : s.abs.input = none) : s.input = none := by
  have : s.input.map s.h.unread = none := h
  simpa using this

theorem once_after (s s' : BConn) (r : BStep) (i : Ready s) (he : s.c.inp.err = none) (hn : s.input = none) (h : s.readOnce typAppData = .ok (r, s')) : After s r s' := by
  obtain ⟨hsc, hq, hh⟩ := i.state he
  have m := readOnce_matches s typAppData i.good
  have sc := readOnce_script h
  rw [h] at m
  have hq' : Quiet s.abs := hq
  have hn' : s.abs.input = none := by
    show s.input.map _ = none
    rw [hn]
    rfl
  cases r with
  | temporary e =>
    obtain ⟨g, ha⟩ := m
    have hc : s'.c.inp.err = none ∧ s'.c.handshakeComplete = s.c.handshakeComplete ∧ Quiet s'.c ∧ s'.c.hand = s.c.hand :=
      ⟨(congrArg (fun c => c.inp.err) ha).trans he, (congrArg (fun c => c.handshakeComplete) ha), (by show Quiet s'.abs; rw [ha]; exact hq), (congrArg (fun c => c.hand) ha)⟩
    exact ⟨⟨g, fun _ => ⟨hc.2.1.trans hsc, hc.2.2.1, hc.2.2.2.trans hh⟩⟩, by rw [ha], sc.1, fun x _ => ⟨sc.2 e rfl, hc.1, input_none (by rw [ha]; exact hn')⟩, by simp,
      fun _ => by rw [ha], by simp, by simp⟩
  | again =>
    obtain ⟨g, ha⟩ := m
    have hco := content_once s.abs _ _ hq' he hn' ha
    obtain ⟨rest, inp', w, j, hx, hlt, hie, hdec, hj, _⟩ := readOnce_ok s.abs _ _ hq' ha (by simp)
    have hst : s'.abs.stream.length < s.abs.stream.length := by rw [hx]; exact hlt
    have herr : s'.c.inp.err = none := by
      show s'.abs.inp.err = none
      rw [hx]
      exact hie.trans he
    refine ⟨⟨g, fun _ => ⟨?_, ?_, ?_⟩⟩, hco, sc.1, by simp, by simp, fun _ => by omega, by simp, fun _ => ⟨herr, input_none ?_⟩⟩
    · show s'.abs.handshakeComplete = true
      rw [hx]
      exact hsc
    · show Quiet s'.abs
      rw [hx]
      exact hq
    · show s'.abs.hand = []
      rw [hx]
      exact hh
    · rw [hx]
      exact (hj rfl).trans hn'
  | done e =>
    obtain ⟨g, ha⟩ := m
    cases e with
    | none =>
      have ha := ha.resolve_right (fun hx => hx.1 rfl)
      have hco := content_once s.abs _ _ hq' he hn' ha
      obtain ⟨rest, inp', w, j, hx, hlt, hie, hdec, _, hj⟩ := readOnce_ok s.abs _ _ hq' ha (by simp)
      have hst : s'.abs.stream.length < s.abs.stream.length := by rw [hx]; exact hlt
      have herr : s'.c.inp.err = none := by
        show s'.abs.inp.err = none
        rw [hx]
        exact hie.trans he
      refine ⟨⟨g, fun _ => ⟨?_, ?_, ?_⟩⟩, hco, sc.1, by simp, by simp, fun _ => by omega, fun _ => ⟨herr, ?_, hst⟩, by simp⟩
      · show s'.abs.handshakeComplete = true
        rw [hx]
        exact hsc
      · show Quiet s'.abs
        rw [hx]
        exact hq
      · show s'.abs.hand = []
        rw [hx]
        exact hh
      · obtain ⟨_, d, hd⟩ := hj rfl
        have : s'.abs.input = some d := by rw [hx]; exact hd
        have : s'.input.map s'.h.unread = some d := this
        cases hq : s'.input with
        | none => rw [hq] at this; cases this
        | some x => rfl
    | some e =>
      have hall : ∃ c', s.abs.readOnce typAppData = .ok (.done (some e), c') ∧ c'.inp = s'.c.inp := by
        rcases ha with ha | ⟨_, ha⟩
        · exact ⟨_, ha, rfl⟩
        · exact ⟨_, ha, rfl⟩
      obtain ⟨c', hc, hinp⟩ := hall
      have herr := readOnce_err _ _ _ _ hc e rfl
      have hco := content_once s.abs _ _ hq' he hn' hc
      rw [hinp] at herr
      refine ⟨⟨g, fun hx => by rw [herr] at hx; cases hx⟩, ?_, sc.1, by simp, fun x hx => ?_, fun hx => absurd rfl (hx e), by simp, by simp⟩
      · rw [← hco, content_err (c := s'.abs) herr, content_err (c := c') (by rw [hinp]; exact herr)]
      · cases hx
        exact herr

theorem After.trans {s s1 s2 : BConn} {r : BStep} (a : After s .again s1) (b : After s1 r s2) : After s r s2 :=
  ⟨b.ready, b.same.trans a.same, b.script.trans a.script, fun e he => ⟨Nat.lt_of_lt_of_le (b.temp e he).1 a.script, (b.temp e he).2⟩, b.fail,
    fun h => (b.stream h).trans (a.stream (by simp)), fun h => ⟨(b.ok h).1, (b.ok h).2.1, Nat.lt_of_lt_of_le (b.ok h).2.2 (a.stream (by simp))⟩, b.again⟩

theorem loop_after (k : Nat) : ∀ (s s' : BConn) (r : BStep), Ready s → s.c.inp.err = none → s.input = none → BConn.readLoop k s typAppData = .ok (r, s') → After s r s' ∧ r ≠ .again := by
  induction k with
  | zero => intro s s' r _ _ _ h; cases h
  | succ k ih =>
    intro s s' r i he hn h
    unfold BConn.readLoop at h
    split at h
    · rename_i s1 h1
      have a := once_after s s1 _ i he hn h1
      obtain ⟨e1, n1⟩ := a.again rfl
      obtain ⟨b, hb⟩ := ih s1 s' r a.ready e1 n1 h
      exact ⟨a.trans b, hb⟩
    · rename_i h2
      have a := once_after s s' r i he hn h
      refine ⟨a, ?_⟩
      rintro rfl
      exact h2 _ h

theorem record_after (s s' : BConn) (r : BStep) (i : Ready s) (he : s.c.inp.err = none) (hn : s.input = none) (h : s.readRecord typAppData = .ok (r, s')) :
    After s r s' ∧ r ≠ .again := by
  unfold BConn.readRecord at h
  rw [if_neg (by decide), if_pos rfl, (i.state he).1] at h
  exact loop_after 6 s s' r i he hn h

/-! ### Read -/

structure Filled (s : BConn) (e : Option BErr) (s' : BConn) : Prop where
  ready : Ready s'
  same : content s'.abs = content s.abs
  script : s'.net.script.length ≤ s.net.script.length
  full : e = none → s'.input.isSome = true ∨ s'.c.inp.err.isSome = true
  stream : s'.c.inp.err = none → s'.abs.stream.length ≤ s.abs.stream.length
  less : s'.c.inp.err = none → s.input = none → e = none → s'.abs.stream.length < s.abs.stream.length
  temp : ∀ x, e = some (.temporary x) → s'.net.script.length < s.net.script.length ∧ s'.c.inp.err = none
  fail : ∀ x, e = some (.permanent x) → s'.c.inp.err = some x
  progress : e ≠ some .noProgress

theorem fillInput_filled (reneg : BConn → Res (Option BErr × BConn)) (fuel : Nat) (s s' : BConn) (e : Option BErr) (i : Ready s)
    (h : BConn.fillInput reneg fuel s = .ok (e, s')) : Filled s e s' := by
  unfold BConn.fillInput at h
  by_cases hfull : (s.input.isSome || s.c.inp.err.isSome) = true
  · rw [if_pos hfull] at h
    cases h
    have hf : s.input.isSome = true ∨ s.c.inp.err.isSome = true := by simpa using hfull
    exact ⟨i, rfl, Nat.le_refl _, fun _ => hf, fun _ => Nat.le_refl _, fun a b _ => by rw [a, b] at hf; simp at hf, by simp, by simp, by simp⟩
  rw [if_neg hfull] at h
  have hn : s.input = none := by
    cases hx : s.input with
    | none => rfl
    | some _ => rw [hx] at hfull; simp at hfull
  have he : s.c.inp.err = none := by
    cases hx : s.c.inp.err with
    | none => rfl
    | some _ => rw [hx] at hfull; simp at hfull
  cases fuel with
  | zero => cases h
  | succ fuel =>
    simp only at h
    split at h
    · rename_i r s1 h1
      obtain ⟨a, hr⟩ := record_after s s1 r i he hn h1
      cases r with
      | again => exact absurd rfl hr
      | temporary x =>
        simp only [BStep.error] at h
        cases h
        have := a.temp x rfl
        exact ⟨a.ready, a.same, a.script, by simp, fun _ => a.stream (by simp), by simp, fun y _ => ⟨this.1, this.2.1⟩, by simp, by simp⟩
      | done x =>
        cases x with
        | some x =>
          simp only [BStep.error] at h
          cases h
          have := a.fail x rfl
          refine ⟨a.ready, a.same, a.script, by simp, (fun hx => by rw [this] at hx; cases hx), by simp, by simp, fun y hy => ?_, by simp⟩
          cases hy
          exact this
        | none =>
          simp only [BStep.error] at h
          obtain ⟨e1, n1, l1⟩ := a.ok rfl
          rw [if_neg (by rw [(a.ready.state e1).2.2]; simp)] at h
          unfold BConn.fillInput at h
          rw [if_pos (by rw [n1]; rfl)] at h
          cases h
          exact ⟨a.ready, a.same, a.script, fun _ => Or.inl n1, fun _ => by omega, fun _ _ _ => l1, by simp, by simp, by simp⟩
    · cases h
    · cases h

theorem content_take (c : Conn) (d : Bytes) (cap : Nat) (he : c.inp.err = none) (hi : c.input = some d) :
    content c = (d.take cap ++ (content { c with input := if d.drop cap = [] then none else some (d.drop cap) }).1,
      (content { c with input := if d.drop cap = [] then none else some (d.drop cap) }).2) := by
  unfold content
  simp only [he, hi]
  congr 1
  simp only [Option.getD_some]
  rw [← List.append_assoc]
  congr 1
  split
  · rename_i hd
    have : d.take cap ++ d.drop cap = d := List.take_append_drop _ _
    rw [hd] at this
    simpa using this.symm
  · simp

theorem consume_spec (s : BConn) (b cap : Nat) (g : s.Good) (hi : s.input = some b) :
    (s.consume b cap).1 = (s.h.unread b).take cap ∧ (s.consume b cap).2.Good ∧ (s.consume b cap).2.c = s.c ∧ (s.consume b cap).2.net = s.net ∧
      (s.consume b cap).2.abs = { s.abs with input := if (s.h.unread b).drop cap = [] then none else some ((s.h.unread b).drop cap) } := by
  unfold BConn.Good at g
  rw [hi] at g
  have hb : b ∈ s.raw.toList ++ (some b).toList ++ s.free := by simp
  obtain ⟨w1, f1⟩ := setBlk_wf g hb (s.h.blocks b).len ((s.h.blocks b).off + ((s.h.unread b).take cap).length) (g.len b hb)
  have w1 : WF (s.h.setBlk b { s.h.blocks b with off := (s.h.blocks b).off + ((s.h.unread b).take cap).length }) (s.raw.toList ++ (some b).toList ++ s.free) := w1
  have f1 : Frame s.h (s.h.setBlk b { s.h.blocks b with off := (s.h.blocks b).off + ((s.h.unread b).take cap).length }) (s.raw.toList ++ (some b).toList ++ s.free) b := f1
  unfold BConn.consume
  simp only
  generalize hh : s.h.setBlk b { s.h.blocks b with off := (s.h.blocks b).off + ((s.h.unread b).take cap).length } = h' at w1 f1
  have hbl : h'.blocks b = { s.h.blocks b with off := (s.h.blocks b).off + ((s.h.unread b).take cap).length } := by
    rw [← hh]
    simp [Heap.setBlk]
  have hdata : h'.data b = s.h.data b := by
    refine Eq.trans (b := slice (s.h.mem (s.h.blocks b).arr) 0 (s.h.blocks b).len) ?_ rfl
    unfold Heap.data
    rw [hbl, ← hh]
    rfl
  have hul : (s.h.unread b).length = (s.h.blocks b).len - (s.h.blocks b).off := by
    unfold Heap.unread
    rw [List.length_drop, data_length]
  have hunread : h'.unread b = (s.h.unread b).drop cap := by
    conv_lhs => unfold Heap.unread
    rw [hdata, hbl]
    show (s.h.data b).drop ((s.h.blocks b).off + ((s.h.unread b).take cap).length) = _
    rw [← List.drop_drop]
    show (s.h.unread b).drop ((s.h.unread b).take cap).length = _
    rw [List.length_take]
    by_cases hc : cap ≤ (s.h.unread b).length
    · rw [Nat.min_eq_left hc]
    · rw [Nat.min_eq_right (by omega), List.drop_of_length_le (Nat.le_refl _), List.drop_of_length_le (by omega)]
  have hempty : ((h'.blocks b).len ≤ (h'.blocks b).off) ↔ (s.h.unread b).drop cap = [] := by
    rw [hbl, List.drop_eq_nil_iff]
    simp only [List.length_take]
    omega
  have hraw : tailData h' s.raw = tailData s.h s.raw := by
    cases hr : s.raw with
    | none => rfl
    | some r =>
      rw [hr] at f1 g
      refine (f1 r (by simp) ?_).2
      rintro rfl
      have := g.nodup
      simp at this
  by_cases hc : (h'.blocks b).len ≤ (h'.blocks b).off
  · rw [if_pos hc]
    refine ⟨rfl, ?_, rfl, rfl, ?_⟩
    · unfold BConn.Good
      refine w1.perm ?_
      simp
    · show plug (tailData h' s.raw ++ s.net.remaining) s.net.final none s.c = _
      rw [hraw, if_pos (hempty.1 hc)]
      rfl
  · rw [if_neg hc]
    refine ⟨rfl, ?_, rfl, rfl, ?_⟩
    · unfold BConn.Good
      rw [hi]
      exact w1
    · show plug (tailData h' s.raw ++ s.net.remaining) s.net.final (s.input.map h'.unread) s.c = _
      rw [hraw, if_neg (fun hx => hc (hempty.2 hx)), hi, Option.map_some, hunread]
      rfl

def weight (s : BConn) : Nat := s.net.script.length + s.abs.stream.length + (content s.abs).1.length

/-- what one `Read` does -/
structure Returned (s : BConn) (cap : Nat) (got : Bytes) (e : Option BErr) (s' : BConn) : Prop where
  ready : Ready s'
  same : content s.abs = (got ++ (content s'.abs).1, (content s'.abs).2)
  perm : ∀ x, e = some (.permanent x) → s'.c.inp.err = some x
  size : got.length ≤ cap
  less : (∀ x, e ≠ some (.permanent x)) → weight s' < weight s
  some_data : e = none → got ≠ []

structure Passed (k : Nat) (s : BConn) (cap : Nat) (got : Bytes) (e : Option BErr) (s' : BConn) : Prop where
  ready : Ready s'
  same : content s.abs = (got ++ (content s'.abs).1, (content s'.abs).2)
  perm : ∀ x, e = some (.permanent x) → s'.c.inp.err = some x
  size : got.length ≤ cap
  le : (∀ x, e ≠ some (.permanent x)) → weight s' ≤ weight s
  less : (∀ x, e ≠ some (.permanent x)) → (e ≠ some .noProgress ∨ (s.input = none ∧ 0 < k) ∨ 2 ≤ k) → weight s' < weight s
  some_data : e = none → got ≠ []

theorem readPass_passed (reneg : BConn → Res (Option BErr × BConn)) (k : Nat) : ∀ (s s' : BConn) (cap : Nat) (got : Bytes) (e : Option BErr), Ready s → 0 < cap →
    BConn.readPass reneg k s cap = .ok (got, e, s') → Passed k s cap got e s' := by
  induction k with
  | zero =>
    intro s s' cap got e i hcap h
    cases h
    exact ⟨i, by simp, by simp, by simp, fun _ => Nat.le_refl _, fun _ hx => by simp at hx, by simp⟩
  | succ k ih =>
    intro s s' cap got e i hcap h
    unfold BConn.readPass at h
    split at h
    · -- an error while filling
      rename_i x s1 h1
      have f := fillInput_filled reneg _ s s1 _ i h1
      cases h
      have hlt : (∀ y, some x ≠ some (BErr.permanent y)) → weight s' < weight s := by
        intro hx
        cases x with
        | permanent y => exact absurd rfl (hx y)
        | noProgress => exact absurd rfl f.progress
        | temporary y =>
          obtain ⟨t1, t2⟩ := f.temp y rfl
          have := f.stream t2
          unfold weight
          rw [f.same]
          omega
      exact ⟨f.ready, by rw [f.same]; simp, f.fail, by simp, fun hx => Nat.le_of_lt (hlt hx), fun hx _ => hlt hx, by simp⟩
    · rename_i s1 h1
      have f := fillInput_filled reneg _ s s1 _ i h1
      cases he : s1.c.inp.err with
      | some x =>
        rw [he] at h
        simp only at h
        cases h
        refine ⟨f.ready, by rw [f.same]; simp, fun y hy => ?_, by simp, fun hx => absurd rfl (hx x), fun hx _ => absurd rfl (hx x), by simp⟩
        cases hy
        exact he
      | none =>
        cases hb : s1.input with
        | none =>
          have := f.full rfl
          rw [hb, he] at this
          simp at this
        | some b =>
          rw [he, hb] at h
          simp only at h
          obtain ⟨c1, c2, c3, c4, c5⟩ := consume_spec s1 b cap f.ready.good hb
          have hct := content_take s1.abs (s1.h.unread b) cap he (by show s1.input.map _ = _; rw [hb]; rfl)
          rw [← c5, ← c1] at hct
          have hst : s1.net.script.length ≤ s.net.script.length ∧ s1.abs.stream.length ≤ s.abs.stream.length := ⟨f.script, f.stream he⟩
          have hlen : (s1.consume b cap).1.length ≤ cap := by rw [c1]; simp
          have hnone : (s1.consume b cap).1 = [] → (s1.consume b cap).2.abs.input = none := by
            intro hx
            rw [c1] at hx
            have : s1.h.unread b = [] := by
              cases hu : s1.h.unread b with
              | nil => rfl
              | cons x l =>
                rw [hu] at hx
                obtain ⟨cap, rfl⟩ : ∃ j, cap = j + 1 := ⟨cap - 1, by omega⟩
                simp at hx
            rw [c5, this]
            simp
          generalize hq : s1.consume b cap = q at h c1 c2 c3 c4 c5 hct hlen hnone
          obtain ⟨got1, s2⟩ := q
          simp only at h c1 c2 c3 c4 c5 hct hlen hnone
          have r2 : Ready s2 := ⟨c2, by rw [c3]; exact f.ready.state⟩
          have st2 : s2.abs.stream = s1.abs.stream := by rw [c5]
          have hcl : (content s1.abs).1.length = got1.length + (content s2.abs).1.length := by
            have := congrArg (fun z => z.1.length) hct
            simpa using this
          have hw2 : weight s2 + got1.length ≤ weight s := by
            unfold weight
            rw [st2, c4, ← f.same, hcl]
            omega
          split at h
          · rename_i hcond
            have hgot : got1 ≠ [] := by
              intro hx
              rw [hx] at hcond
              simp at hcond
            have hgl : 0 < got1.length := List.length_pos_iff.2 hgot
            have hin : s2.input = none := by
              cases hx : s2.input with
              | none => rfl
              | some _ => rw [hx] at hcond; simp at hcond
            split at h
            · rename_i r s3 h3
              obtain ⟨a, hr⟩ := record_after s2 s3 r r2 (by rw [c3]; exact he) hin h3
              cases h
              have hnp : ∀ y, r = .done (some y) → r.error = some (.permanent y) := by
                rintro y rfl
                rfl
              have hlt : (∀ y, r.error ≠ some (.permanent y)) → weight s' < weight s := by
                intro hx
                have h1 := a.stream (fun y hy => hx y (hnp y hy))
                have h2 := a.script
                have : weight s' ≤ weight s2 := by
                  unfold weight
                  rw [a.same]
                  omega
                omega
              refine ⟨a.ready, ?_, ?_, hlen, fun hx => Nat.le_of_lt (hlt hx), fun hx _ => hlt hx, fun _ => hgot⟩
              · rw [a.same, ← f.same, hct]
              · intro y hy
                cases r with
                | again => exact absurd rfl hr
                | temporary z => simp [BStep.error] at hy
                | done z =>
                  cases z with
                  | none => simp [BStep.error] at hy
                  | some z =>
                    have := a.fail z rfl
                    simp only [BStep.error, Option.some.injEq, BErr.permanent.injEq] at hy
                    rw [this, hy]
            · cases h
            · cases h
          · split at h
            · rename_i hgot
              cases h
              have hlt : weight s' < weight s := by omega
              exact ⟨r2, by rw [← f.same, hct], by simp, hlen, fun _ => by omega, fun _ _ => hlt, fun _ hx => by rw [hx] at hgot; simp at hgot⟩
            · rename_i hgot
              have hg0 : got1 = [] := by
                cases got1 with
                | nil => rfl
                | cons _ _ => simp at hgot
              have hin := input_none (hnone hg0)
              have p := ih s2 s' cap got e r2 hcap h
              have hle : weight s2 ≤ weight s := by omega
              have hless : s.input = none → weight s2 < weight s := by
                intro hx
                have := f.less he hx rfl
                unfold weight
                rw [st2, c4, ← f.same, hcl]
                omega
              refine ⟨p.ready, ?_, p.perm, p.size, fun hx => (p.le hx).trans hle, ?_, p.some_data⟩
              · rw [← f.same, hct, hg0, ← p.same]
                simp
              · intro hx hy
                by_cases hnp : e = some .noProgress
                · rcases hy with hy | ⟨hy, _⟩ | hy
                  · exact absurd hnp hy
                  · exact Nat.lt_of_le_of_lt (p.le hx) (hless hy)
                  · exact Nat.lt_of_lt_of_le (p.less hx (Or.inr (Or.inl ⟨hin, by omega⟩))) hle
                · exact Nat.lt_of_lt_of_le (p.less hx (Or.inl hnp)) hle
    · cases h
    · cases h

theorem readApp_returned (reneg : BConn → Res (Option BErr × BConn)) (s s' : BConn) (cap : Nat) (got : Bytes) (e : Option BErr) (i : Ready s) (hcap : 0 < cap)
    (h : s.readApp reneg cap = .ok (got, e, s')) : Returned s cap got e s' := by
  unfold BConn.readApp at h
  rw [if_neg (by omega)] at h
  have p := readPass_passed reneg 101 s s' cap got e i hcap h
  exact ⟨p.ready, p.same, p.perm, p.size, fun hx => p.less hx (Or.inr (Or.inr (by omega))), p.some_data⟩

/-! ### Read always returns -/

/-- the sending half can send an alert, the receiving half has sequence numbers for all that is to come -/
def Live (s : BConn) : Prop := s.c.inp.err = none → CanSend s.c.out ∧ CanReceive (s.abs.stream.length + 1) s.c.inp

theorem canReceive_mono {j k : Nat} {hc : HalfConn} (h : CanReceive k hc) (hj : j ≤ k) : CanReceive j hc := ⟨h.seq8, by have := h.room; omega, h.blocks⟩

theorem once_total (s : BConn) (i : Ready s) (l : Live s) (he : s.c.inp.err = none) (hn : s.input = none) : ∃ r s', s.readOnce typAppData = .ok (r, s') ∧ Live s' ∧
    (r = .again → s.c.warnCount < 5 ∧ s'.c.warnCount = s.c.warnCount + 1) := by
  obtain ⟨hsc, hq, hh⟩ := i.state he
  obtain ⟨lo, li⟩ := l he
  have m := readOnce_matches s typAppData i.good
  have tot := readOnce_total s.abs.stream.length s.abs typAppData lo li
  have next : ∀ {c' : Conn} {st : Step}, s.abs.readOnce typAppData = .ok (st, c') → (∀ e, st ≠ .done (some e)) → CanSend c'.out ∧ CanReceive (c'.stream.length + 1) c'.inp := by
    intro c' st hx hs
    obtain ⟨rest, inp', w, j, rfl, hlt, hie, ⟨x, d, hdec⟩, _⟩ := readOnce_ok s.abs _ _ hq hx hs
    refine ⟨lo, ?_⟩
    obtain ⟨d', hc', h1, h2⟩ := decrypt_total _ s.abs.inp x li
    rw [hdec] at h1
    cases h1
    exact canReceive_mono h2 (by show rest.length + 1 ≤ _; omega)
  have hret : ∃ st c', s.abs.readOnce typAppData = .ok (st, c') := by
    rcases tot with ⟨e, c', h⟩ | ⟨c', h, _⟩
    · exact ⟨_, _, h⟩
    · exact ⟨_, _, h⟩
  obtain ⟨st, c', hret⟩ := hret
  cases hr : s.readOnce typAppData with
  | panic => rw [hr] at m; rw [hret] at m; cases m
  | err x => rw [hr] at m; rw [hret] at m; cases m
  | ok q =>
    obtain ⟨r, s'⟩ := q
    rw [hr] at m
    refine ⟨r, s', rfl, ?_⟩
    have aft := once_after s s' r i he hn hr
    cases r with
    | temporary e =>
      have ha := m.2
      refine ⟨fun _ => ?_, by simp⟩
      have h1 : s'.c.out = s.c.out := congrArg (fun c => c.out) ha
      have h2 : s'.c.inp = s.c.inp := congrArg (fun c => c.inp) ha
      rw [h1, h2, ha]
      exact ⟨lo, li⟩
    | again =>
      have ha := m.2
      refine ⟨fun _ => next ha (by simp), fun _ => ?_⟩
      rcases tot with ⟨e, c', h⟩ | ⟨c', h, _, _, h1, h2⟩
      · rw [ha] at h; cases h
      · rw [ha] at h
        cases h
        exact ⟨h1, h2⟩
    | done e =>
      refine ⟨fun hx => ?_, by simp⟩
      cases e with
      | some e => rw [aft.fail e rfl] at hx; cases hx
      | none => exact next (m.2.resolve_right (fun hx => hx.1 rfl)) (by simp)

theorem loop_total (k : Nat) : ∀ (s : BConn), Ready s → Live s → s.c.inp.err = none → s.input = none → 5 ≤ s.c.warnCount + k →
    ∃ r s', BConn.readLoop (k + 1) s typAppData = .ok (r, s') ∧ Live s' := by
  induction k with
  | zero =>
    intro s i l he hn hw
    obtain ⟨r, s', h, l', ha⟩ := once_total s i l he hn
    unfold BConn.readLoop
    rw [h]
    cases r with
    | again => have := ha rfl; omega
    | done e => exact ⟨_, _, rfl, l'⟩
    | temporary e => exact ⟨_, _, rfl, l'⟩
  | succ k ih =>
    intro s i l he hn hw
    obtain ⟨r, s', h, l', ha⟩ := once_total s i l he hn
    have a := once_after s s' r i he hn h
    unfold BConn.readLoop
    rw [h]
    cases r with
    | again =>
      have := ha rfl
      obtain ⟨e1, n1⟩ := a.again rfl
      exact ih s' a.ready l' e1 n1 (by omega)
    | done e => exact ⟨_, _, rfl, l'⟩
    | temporary e => exact ⟨_, _, rfl, l'⟩

theorem record_total (s : BConn) (i : Ready s) (l : Live s) (he : s.c.inp.err = none) (hn : s.input = none) : ∃ r s', s.readRecord typAppData = .ok (r, s') ∧ Live s' := by
  unfold BConn.readRecord
  rw [if_neg (by decide), if_pos rfl, (i.state he).1]
  exact loop_total 5 s i l he hn (by omega)

theorem fillInput_total (reneg : BConn → Res (Option BErr × BConn)) (fuel : Nat) (s : BConn) (i : Ready s) (l : Live s) :
    ∃ e s', BConn.fillInput reneg (fuel + 1) s = .ok (e, s') ∧ Live s' := by
  unfold BConn.fillInput
  by_cases hfull : (s.input.isSome || s.c.inp.err.isSome) = true
  · rw [if_pos hfull]
    exact ⟨_, _, rfl, l⟩
  rw [if_neg hfull]
  have hn : s.input = none := by
    cases hx : s.input with
    | none => rfl
    | some _ => rw [hx] at hfull; simp at hfull
  have he : s.c.inp.err = none := by
    cases hx : s.c.inp.err with
    | none => rfl
    | some _ => rw [hx] at hfull; simp at hfull
  obtain ⟨r, s1, h1, l1⟩ := record_total s i l he hn
  obtain ⟨a, hr⟩ := record_after s s1 r i he hn h1
  rw [h1]
  simp only
  cases r with
  | again => exact absurd rfl hr
  | temporary x => exact ⟨_, _, rfl, l1⟩
  | done x =>
    cases x with
    | some x => exact ⟨_, _, rfl, l1⟩
    | none =>
      obtain ⟨e1, n1, _⟩ := a.ok rfl
      simp only [BStep.error]
      rw [if_neg (by rw [(a.ready.state e1).2.2]; simp)]
      unfold BConn.fillInput
      rw [if_pos (by rw [n1]; rfl)]
      exact ⟨_, _, rfl, l1⟩

theorem readPass_total (reneg : BConn → Res (Option BErr × BConn)) (k : Nat) : ∀ (s : BConn) (cap : Nat), Ready s → Live s → ∃ got e s', BConn.readPass reneg k s cap = .ok (got, e, s') ∧ Live s' := by
  induction k with
  | zero => intro s cap _ l; exact ⟨_, _, _, rfl, l⟩
  | succ k ih =>
    intro s cap i l
    unfold BConn.readPass
    obtain ⟨e, s1, h1, l1⟩ := fillInput_total reneg (s.rawBytes.length + s.net.remaining.length) s i l
    have f := fillInput_filled reneg _ s s1 _ i h1
    rw [h1]
    cases e with
    | some e => exact ⟨_, _, _, rfl, l1⟩
    | none =>
      simp only
      cases he : s1.c.inp.err with
      | some x => exact ⟨_, _, _, rfl, l1⟩
      | none =>
        cases hb : s1.input with
        | none =>
          have := f.full rfl
          rw [hb, he] at this
          simp at this
        | some b =>
          simp only
          obtain ⟨c1, c2, c3, c4, c5⟩ := consume_spec s1 b cap f.ready.good hb
          generalize s1.consume b cap = q at c1 c2 c3 c4 c5
          obtain ⟨got1, s2⟩ := q
          simp only at c1 c2 c3 c4 c5 ⊢
          have r2 : Ready s2 := ⟨c2, by rw [c3]; exact f.ready.state⟩
          have l2 : Live s2 := by
            have : s2.abs.stream = s1.abs.stream := by rw [c5]
            unfold Live
            rw [this, c3]
            exact l1
          split
          · rename_i hcond
            have hin : s2.input = none := by
              cases hx : s2.input with
              | none => rfl
              | some _ => rw [hx] at hcond; simp at hcond
            obtain ⟨r, s3, h3, l3⟩ := record_total s2 r2 l2 (by rw [c3]; exact he) hin
            rw [h3]
            exact ⟨_, _, _, rfl, l3⟩
          · split
            · exact ⟨_, _, _, rfl, l2⟩
            · exact ih s2 cap r2 l2

theorem readApp_total (reneg : BConn → Res (Option BErr × BConn)) (s : BConn) (cap : Nat) (i : Ready s) (l : Live s) :
    ∃ got e s', s.readApp reneg cap = .ok (got, e, s') ∧ Live s' := by
  unfold BConn.readApp
  split
  · exact ⟨_, _, _, rfl, l⟩
  · exact readPass_total reneg 101 s cap i l

/-! ### C130 -/

namespace Spec
/-- the same connection with the same bytes to come, whether already buffered or not, and however they are or will be cut -/
structure SameBytes (s t : BConn) : Prop where
  conn : s.c = t.c
  bytes : s.rawBytes ++ s.net.remaining = t.rawBytes ++ t.net.remaining
  final : s.net.final = t.net.final
  pending : s.input.map s.h.unread = t.input.map t.h.unread

/-- all the data a sequence of `Read`s returned -/
def data (rs : List (Bytes × Option BErr)) : Bytes := (rs.map (·.1)).flatten

/-- one of them reported the end of the stream, or a failure -/
def Ended (rs : List (Bytes × Option BErr)) (e : String) : Prop := ∃ got, (got, some (BErr.permanent e)) ∈ rs
end Spec

theorem abs_eq {s t : BConn} (h : Spec.SameBytes s t) : s.abs = t.abs := by
  unfold BConn.abs
  rw [h.conn, h.bytes, h.final, h.pending]

theorem reads_content (reneg : BConn → Res (Option BErr × BConn)) (caps : List Nat) : ∀ (s s' : BConn) (rs : List (Bytes × Option BErr)), Ready s →
    BConn.reads reneg s caps = .ok (rs, s') → Ready s' ∧ content s.abs = (Spec.data rs ++ (content s'.abs).1, (content s'.abs).2) ∧
      ∀ e, Spec.Ended rs e → content s'.abs = ([], some e) := by
  induction caps with
  | nil =>
    intro s s' rs i h
    cases h
    exact ⟨i, by simp [Spec.data], fun e ⟨g, hg⟩ => by simp at hg⟩
  | cons cap caps ih =>
    intro s s' rs i h
    unfold BConn.reads at h
    split at h
    · rename_i got x s1 h1
      split at h
      · rename_i rs' s2 h2
        cases h
        have one : Ready s1 ∧ content s.abs = (got ++ (content s1.abs).1, (content s1.abs).2) ∧ ∀ e, x = some (.permanent e) → s1.c.inp.err = some e := by
          by_cases hcap : cap = 0
          · subst hcap
            unfold BConn.readApp at h1
            rw [if_pos rfl] at h1
            cases h1
            exact ⟨i, by simp, by simp⟩
          · have r := readApp_returned reneg s s1 cap got x i (by omega) h1
            exact ⟨r.ready, r.same, r.perm⟩
        obtain ⟨i1, c1, p1⟩ := one
        obtain ⟨i2, c2, p2⟩ := ih s1 s' rs' i1 h2
        refine ⟨i2, ?_, ?_⟩
        · rw [c1, c2]
          simp [Spec.data]
        · rintro e ⟨g, hg⟩
          rcases List.mem_cons.1 hg with hg | hg
          · cases hg
            have := content_err (c := s1.abs) (p1 e rfl)
            rw [c2, Prod.mk.injEq, List.append_eq_nil_iff] at this
            exact Prod.ext this.1.2 this.2
          · exact p2 e ⟨g, hg⟩
      · cases h
      · cases h
    · cases h
    · cases h

/-- C130: two connections in the same state, whose peers sent the same bytes, read with any buffer sizes, over transports that cut the bytes anywhere and return
temporary errors at any time: what one has read is the beginning of what the other has read or the other way round; one that has seen the end has read everything the
other has; and if both have, they have read the same and got the same error. -/
theorem C130_segmentation (reneg reneg' : BConn → Res (Option BErr × BConn)) (s t s' t' : BConn) (caps caps' : List Nat) (rs rs' : List (Bytes × Option BErr))
    (i : Ready s) (j : Ready t) (same : Spec.SameBytes s t) (h : BConn.reads reneg s caps = .ok (rs, s')) (h' : BConn.reads reneg' t caps' = .ok (rs', t')) :
    (Spec.data rs <+: Spec.data rs' ∨ Spec.data rs' <+: Spec.data rs) ∧ (∀ e, Spec.Ended rs e → Spec.data rs' <+: Spec.data rs) ∧
      ∀ e e', Spec.Ended rs e → Spec.Ended rs' e' → Spec.data rs = Spec.data rs' ∧ e = e' := by
  obtain ⟨_, a, b⟩ := reads_content reneg caps s s' rs i h
  obtain ⟨_, a', b'⟩ := reads_content reneg' caps' t t' rs' j h'
  rw [abs_eq same, a', Prod.mk.injEq] at a
  refine ⟨?_, ?_, ?_⟩
  · exact List.prefix_or_prefix_of_prefix (l₃ := Spec.data rs ++ (content s'.abs).1) ⟨_, rfl⟩ ⟨_, a.1⟩
  · intro e he
    rw [b e he] at a
    simp only [List.append_nil] at a
    exact ⟨_, a.1⟩
  · intro e e' he he'
    rw [b e he, b' e' he'] at a
    simp only [List.append_nil, Option.some.injEq] at a
    exact ⟨a.1.symm, a.2.symm⟩

theorem reads_end (reneg : BConn → Res (Option BErr × BConn)) (caps : List Nat) : ∀ (s : BConn), Ready s → Live s → (∀ c ∈ caps, 0 < c) →
    ∃ rs s', BConn.reads reneg s caps = .ok (rs, s') ∧ ((∃ e, Spec.Ended rs e) ∨ weight s' + caps.length ≤ weight s) := by
  induction caps with
  | nil => intro s i l _; exact ⟨_, _, rfl, Or.inr (by simp)⟩
  | cons cap caps ih =>
    intro s i l hc
    obtain ⟨got, e, s1, h1, l1⟩ := readApp_total reneg s cap i l
    have r := readApp_returned reneg s s1 cap got e i (hc cap (by simp)) h1
    obtain ⟨rs, s2, h2, hw⟩ := ih s1 r.ready l1 (fun c hx => hc c (by simp [hx]))
    refine ⟨(got, e) :: rs, s2, ?_, ?_⟩
    · unfold BConn.reads
      rw [h1]
      simp only
      rw [h2]
    · rcases hw with ⟨x, g, hg⟩ | hw
      · exact Or.inl ⟨x, g, List.mem_cons_of_mem _ hg⟩
      · by_cases hp : ∃ x, e = some (.permanent x)
        · obtain ⟨x, rfl⟩ := hp
          exact Or.inl ⟨x, got, by simp⟩
        · right
          have := r.less (fun x hx => hp ⟨x, hx⟩)
          simp only [List.length_cons]
          omega

/-- C130: nothing is lost and nothing blocks for ever: whatever the transport does (it ends after finitely many bytes and temporary errors), after some number of
`Read`s with buffers of any sizes the end is reached; no `Read` panics. -/
theorem C130_complete (reneg : BConn → Res (Option BErr × BConn)) (s : BConn) (i : Ready s) (l : Live s) :
    ∃ N, ∀ caps : List Nat, N ≤ caps.length → (∀ c ∈ caps, 0 < c) → ∃ rs s' e, BConn.reads reneg s caps = .ok (rs, s') ∧ Spec.Ended rs e := by
  refine ⟨weight s + 1, fun caps hl hc => ?_⟩
  obtain ⟨rs, s', h, hw⟩ := reads_end reneg caps s i l hc
  rcases hw with ⟨e, he⟩ | hw
  · exact ⟨rs, s', e, h, he⟩
  · omega

/-- C130: each `Read` returns at most as many bytes as were asked for, and at least one if it reports no error. -/
theorem C130_read (reneg : BConn → Res (Option BErr × BConn)) (s : BConn) (cap : Nat) (i : Ready s) (l : Live s) (hcap : 0 < cap) :
    ∃ got e s', s.readApp reneg cap = .ok (got, e, s') ∧ Ready s' ∧ Live s' ∧ got.length ≤ cap ∧ (e = none → got ≠ []) ∧
      ∀ x, e = some (.permanent x) → ∀ cap', 0 < cap' → s'.readApp reneg cap' = .ok ([], some (.permanent x), s') := by
  obtain ⟨got, e, s', h, l'⟩ := readApp_total reneg s cap i l
  have r := readApp_returned reneg s s' cap got e i hcap h
  refine ⟨got, e, s', h, r.ready, l', r.size, r.some_data, fun x hx cap' hc => ?_⟩
  have he := r.perm x hx
  unfold BConn.readApp
  rw [if_neg (by omega)]
  unfold BConn.readPass BConn.fillInput
  rw [if_pos (by rw [he]; simp)]
  simp only [he]

/-! #### what the peer wrote -/

theorem content_sent (items : List (Bytes × Bytes)) : ∀ (c : Conn) (o o' : HalfConn) (v : Version) (tail : Bytes), Sent c o o' 23 v items tail → Quiet c → c.input = none →
    payloads items <+: (content c).1 := by
  induction items with
  | nil => intro c o o' v tail _ _ _; simp [payloads]
  | cons x items ih =>
    intro c o o' v tail h hq hi
    obtain ⟨iv, p⟩ := x
    obtain ⟨o1, body, rest, inp', hop, hl, hst, hnext⟩ := sent_step c o o' 23 v iv p items tail h
    have hro := readOnce_opens c typAppData 23 v body rest p inp' hop (fun hf => ⟨.inr rfl, h.version.2 hf⟩) (by decide)
    have herr : inp'.err = none := by
      rw [(decrypt_nextCipher _ _ _ _ hop.opened).2.2.1]; exact h.noErr
    rw [show (23 : Byte) = typAppData from rfl, processRecord_app _ p hl] at hro
    have hro : c.readOnce typAppData = .ok (.done none, { (if p.length > 0 then ({ c with stream := rest, inp := inp', warnCount := 0 } : Conn) else { c with stream := rest, inp := inp' }) with input := some p }) := by
      rw [hro]
      congr 2
      show Step.done inp'.err = _
      rw [herr]
    generalize hc1 : (if p.length > 0 then ({ c with stream := rest, inp := inp', warnCount := 0 } : Conn) else { c with stream := rest, inp := inp' }) = c1 at hro
    have f : c1.inp = inp' ∧ c1.stream = rest ∧ c1.haveVers = c.haveVers ∧ c1.vers = c.vers ∧ c1.isClient = c.isClient ∧ c1.renegotiation = c.renegotiation := by
      rw [← hc1]; split <;> exact ⟨rfl, rfl, rfl, rfl, rfl, rfl⟩
    obtain ⟨f1, f2, f3, f4, f5, f6⟩ := f
    rw [← content_once c _ _ hq h.noErr hi hro, content_take ({ c1 with input := some p } : Conn) p p.length (by show c1.inp.err = none; rw [f1]; exact herr) rfl]
    simp only [List.take_length, List.drop_length, if_true]
    have := ih ({ c1 with input := none } : Conn) o1 o' v tail (hnext _ f1 f2 f3 f4) (by unfold Quiet; show ¬ (c1.isClient = true ∧ c1.renegotiation = true); rw [f5, f6]; exact hq) rfl
    obtain ⟨z, hz⟩ := this
    refine ⟨z, ?_⟩
    rw [← hz]
    simp [payloads]

/-- C130: one side calls `Write` any number of times without error; the other side holds the matching keys. However the transport cuts and delays the bytes, and
whatever buffers are used: what has been read is at each moment the beginning of what was written (followed, possibly, by what came after it), and once the end was
seen all of it has been read. -/
theorem C130_written (reneg : BConn → Res (Option BErr × BConn)) (datas : List Bytes) (a a' : Conn) (s s' : BConn) (w tail : Bytes) (caps : List Nat)
    (rs : List (Bytes × Option BErr))
    (hw : writeDatas datas a = .ok (none, a')) (hwire : a'.emitted = a.emitted ++ w) (hs : s.rawBytes ++ s.net.remaining = w ++ tail)
    (hu : Tls.Spec.UsesSuite a.out) (hsb : a.buffering = false → a.sendBuf = []) (hp : Paired a.out s.c.inp)
    (he : s.c.inp.err = none) (i : Ready s) (hi : s.input = none)
    (hv : s.c.haveVers = true → s.c.vers = a.wireVersion) (hv' : s.c.haveVers = false → a.wireVersion.toNat < 0x1000)
    (h : BConn.reads reneg s caps = .ok (rs, s')) :
    (Spec.data rs <+: datas.flatten ∨ datas.flatten <+: Spec.data rs) ∧ ∀ e, Spec.Ended rs e → datas.flatten <+: Spec.data rs := by
  obtain ⟨items, u, hpay, hem⟩ := writeDatas_emits datas a a' hu hsb hw
  have huw : u = w := List.append_cancel_left (hem.emitted.symm.trans hwire)
  subst huw
  have hS := emits_sent a a' s.abs 23 items u tail hem hu hp he hv hv' hs
  have hpre := content_sent items s.abs _ _ _ tail hS (i.state he).2.1 (by show s.input.map _ = none; rw [hi]; rfl)
  rw [hpay] at hpre
  obtain ⟨_, hc, hend⟩ := reads_content reneg caps s s' rs i h
  rw [hc] at hpre
  refine ⟨List.prefix_or_prefix_of_prefix ⟨_, rfl⟩ hpre, fun e hx => ?_⟩
  rw [hend e hx] at hpre
  simpa using hpre

/-! #### one record, in the handshake or after it -/

theorem loop_matches (want : Byte) (k : Nat) : ∀ s : BConn, s.Good →
    match BConn.readLoop k s want with
    | .ok (.done e, s') => s'.Good ∧ ∃ c', Conn.readLoop k s.abs want = .ok (e, c') ∧ { c' with stream := [] } = { s'.abs with stream := [] } ∧ (e = none → c' = s'.abs)
    | .ok (.temporary _, s') => s'.Good ∧ ∃ j, Tls.Spec.Warned j s.abs s'.abs
    | .ok (.again, _) => False
    | .err x => Conn.readLoop k s.abs want = .err x
    | .panic => Conn.readLoop k s.abs want = .panic := by
  induction k with
  | zero => intro s _; rfl
  | succ k ih =>
    intro s g
    have m := readOnce_matches s want g
    unfold BConn.readLoop Conn.readLoop
    cases hr : s.readOnce want with
    | panic => rw [hr] at m; rw [show s.abs.readOnce want = .panic from m]
    | err x => rw [hr] at m; rw [show s.abs.readOnce want = .err x from m]
    | ok q =>
      obtain ⟨r, s1⟩ := q
      rw [hr] at m
      cases r with
      | temporary e =>
        refine ⟨m.1, 0, ?_⟩
        rw [m.2]
        exact .zero _
      | done e =>
        refine ⟨m.1, ?_⟩
        rcases m.2 with ha | ⟨hne, ha⟩
        · rw [ha]
          exact ⟨_, rfl, rfl, fun _ => rfl⟩
        · rw [ha]
          exact ⟨_, rfl, rfl, fun hx => absurd hx hne⟩
      | again =>
        have ha := m.2
        have key := ih s1 m.1
        rw [ha]
        simp only
        cases hl : BConn.readLoop k s1 want with
        | panic => rw [hl] at key; exact key
        | err x => rw [hl] at key; exact key
        | ok q =>
          obtain ⟨r, s2⟩ := q
          rw [hl] at key
          cases r with
          | again => exact key
          | done e => exact key
          | temporary e =>
            obtain ⟨g2, j, hj⟩ := key
            refine ⟨g2, j + 1, ?_⟩
            obtain ⟨typ, v, body, rest, data, inp', ho, _, hp⟩ := readOnce_inv s.abs _ _ _ ha (by simp)
            rcases processRecord_inv _ _ _ _ _ _ hp (by simp) with ⟨_, ht, desc, hd, hne, hwc, hc⟩ | ⟨hx, _⟩
            · subst ht hd
              refine .succ v body rest desc inp' ho hne hwc ?_
              rw [hc] at hj
              exact hj
            · cases hx

/-- C130: `readRecord` on the buffers, at any time (before, in or after the handshake), against the whole stream: it returns the same error or none, and the same
state; or a temporary error, and then the state is that before the call, but for warning alerts that came in between. -/
theorem C130_record (s : BConn) (want : Byte) (g : s.Good) :
    match s.readRecord want with
    | .ok (.done e, s') => s'.Good ∧ ∃ c', s.abs.readRecord want = .ok (e, c') ∧ { c' with stream := [] } = { s'.abs with stream := [] } ∧ (e = none → c' = s'.abs)
    | .ok (.temporary _, s') => s'.Good ∧ ∃ j, Tls.Spec.Warned j s.abs s'.abs
    | .ok (.again, _) => False
    | .err x => s.abs.readRecord want = .err x
    | .panic => s.abs.readRecord want = .panic := by
  have fail : ∀ (a : Byte) (msg : String),
      match asBDone s (s.c.failMsg a msg) with
      | .ok (.done e, s') => s'.Good ∧ ∃ c', s.abs.failMsg a msg = .ok (e, c') ∧ { c' with stream := [] } = { s'.abs with stream := [] } ∧ (e = none → c' = s'.abs)
      | .ok (.temporary _, s') => s'.Good ∧ ∃ j, Tls.Spec.Warned j s.abs s'.abs
      | .ok (.again, _) => False
      | .err x => s.abs.failMsg a msg = .err x
      | .panic => s.abs.failMsg a msg = .panic := by
    intro a msg
    have := failMsg_plug (s.rawBytes ++ s.net.remaining) s.net.final (s.input.map s.h.unread) s.c a msg
    rw [show s.abs = plug (s.rawBytes ++ s.net.remaining) s.net.final (s.input.map s.h.unread) s.c from rfl, this]
    rcases s.c.failMsg a msg with ⟨e, c⟩ | x | _
    · exact ⟨g, _, rfl, rfl, fun _ => rfl⟩
    · rfl
    · rfl
  unfold BConn.readRecord Conn.readRecord
  rw [show s.abs.handshakeComplete = s.c.handshakeComplete from rfl]
  by_cases q1 : want = typHandshake ∨ want = typCCS
  · rw [if_pos q1, if_pos q1]
    cases s.c.handshakeComplete with
    | true => exact fail _ _
    | false => exact loop_matches want 6 s g
  · rw [if_neg q1, if_neg q1]
    by_cases q2 : want = typAppData
    · rw [if_pos q2, if_pos q2]
      cases s.c.handshakeComplete with
      | false => exact fail _ _
      | true => exact loop_matches want 6 s g
    · rw [if_neg q2, if_neg q2]
      exact fail _ _

/-! #### a case -/

/-- a connection without keys after the handshake, on which the peer sends "hi" and close_notify -/
def exampleConn (script : List Move) : BConn :=
  { c := { handshakeComplete := true, haveVers := true, vers := 0x0303 }
    h := ⟨fun _ => ⟨0, 0, 0, 0⟩, fun _ _ => 0, 0, 0⟩
    free := [], raw := none, input := none
    net := ⟨[23, 3, 3, 0, 2, 104, 105, 21, 3, 3, 0, 2, 1, 0], "EOF", script⟩ }

def exampleScript : List Move := [⟨1, none, false⟩, ⟨0, some "timeout", false⟩, ⟨3, none, false⟩, ⟨2, some "timeout", false⟩, ⟨9, none, true⟩]

theorem example_ready (script : List Move) : Ready (exampleConn script) :=
  ⟨⟨by simp [exampleConn], by simp [exampleConn], by simp [exampleConn], by simp [exampleConn], by simp [exampleConn]⟩,
    fun _ => ⟨rfl, by simp [Quiet, exampleConn], rfl⟩⟩

theorem example_live (script : List Move) : Live (exampleConn script) :=
  fun _ => ⟨⟨Or.inl ⟨rfl, rfl⟩, rfl, by
      show beNat (List.replicate 8 (0 : Byte)) + 1 < 2 ^ 64
      decide +kernel⟩, ⟨rfl, by
      show beNat (List.replicate 8 (0 : Byte)) + (14 + 1) < 2 ^ 64
      decide +kernel, fun bs h => by cases h⟩⟩

theorem example_same : Spec.SameBytes (exampleConn exampleScript) (exampleConn []) := ⟨rfl, rfl, rfl, rfl⟩

/-- cut in two by a timeout or not, the same is read -/
example (reneg : BConn → Res (Option BErr × BConn)) : ∃ caps rs s' rs' t' e, BConn.reads reneg (exampleConn exampleScript) caps = .ok (rs, s') ∧
    BConn.reads reneg (exampleConn []) caps = .ok (rs', t') ∧ Spec.Ended rs e ∧ Spec.Ended rs' e ∧ Spec.data rs = Spec.data rs' := by
  obtain ⟨N, hN⟩ := C130_complete reneg (exampleConn exampleScript) (example_ready _) (example_live _)
  obtain ⟨M, hM⟩ := C130_complete reneg (exampleConn []) (example_ready _) (example_live _)
  have hpos : ∀ c ∈ List.replicate (N + M) 1, 0 < c := fun c hc => by rw [(List.mem_replicate.1 hc).2]; omega
  obtain ⟨rs, s', e, h1, h2⟩ := hN (List.replicate (N + M) 1) (by simp) hpos
  obtain ⟨rs', t', e', h3, h4⟩ := hM (List.replicate (N + M) 1) (by simp) hpos
  obtain ⟨_, _, k⟩ := C130_segmentation reneg reneg _ _ _ _ _ _ _ _ (example_ready _) (example_ready _) example_same h1 h3
  obtain ⟨k1, rfl⟩ := k e e' h2 h4
  exact ⟨_, rs, s', rs', t', e, h1, h3, h2, h4, k1⟩

end Verif.Tls.Blocks
