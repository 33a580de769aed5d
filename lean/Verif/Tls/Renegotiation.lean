import Verif.Tls.Live
/-!
`Handshake`, `handleRenegotiation` and the methods of a connection over a whole life (tls/conn.go:1034-1300): how often the handshake is
run, for every policy and whatever the peer sends.
-/
namespace Verif.Tls
open Verif

/-- one run of the handshake of this side (`clientHandshake`, `serverHandshake`, `serverHandshakeGM`), called with `c.handshakeErr = …` and
`c.handshakes++` on success: tls/conn.go:1124-1126, 1276-1287. `hs` is any function at all: it stands for what the peer sends and what the
handshake makes of it. The handshakes assign none of the fields restored here (the only assignments in the package are the lines cited), and
their last statement before returning nil is `atomic.StoreUint32(&c.handshakeStatus, 1)` (tls/handshake_client.go:291,
tls/handshake_server.go:108, tls/gm_handshake_client_double.go:156, tls/gm_handshake_server_double.go:106), which nothing else sets. -/
def Conn.runHandshake (hs : Conn → Res (Option String × Conn)) (c : Conn) : Res (Option String × Conn) :=
  match hs { c with handshakeComplete := false } with
  | .ok (e, c') =>
    .ok (e, { c' with isClient := c.isClient, policy := c.policy, starts := c.starts + 1, handshakeErr := e,
                      handshakes := if e.isNone then c.handshakes + 1 else c.handshakes, handshakeComplete := e.isNone })
  | .err x => .err x
  | .panic => .panic

/-- tls/conn.go:1263-1300 `Handshake`. (The handshake is only run when `handshakeComplete` is already false.) -/
def Conn.handshake (hs : Conn → Res (Option String × Conn)) (c : Conn) : Res (Option String × Conn) :=
  match c.handshakeErr with
  | some e => .ok (some e, c)
  | none =>
    if c.handshakeComplete then .ok (none, c)
    else
      match c.runHandshake hs with
      | .ok (some e, c') => .ok (some e, c'.flush.2)
      | .ok (none, c') => if c'.handshakeComplete then .ok (none, c') else .panic
      | .err x => .err x
      | .panic => .panic

/-- tls/conn.go:1089-1128 `handleRenegotiation`; `parses` as in `readHandshake`. A helloRequest has type 0. -/
def Conn.handleRenegotiation (parses : Bytes → Bool) (hs : Conn → Res (Option String × Conn)) (c : Conn) : Res (Option String × Conn) :=
  match c.readHandshake parses with
  | .ok (.error e, c) => .ok (some e, c)
  | .ok (.ok data, c) =>
    if data.getD 0 0 ≠ 0 then
      match c.sendAlert 10 with
      | .ok (_, c) => .ok (some "tls: unexpected message", c)
      | .err x => .err x
      | .panic => .panic
    else if c.isClient = false then c.sendAlert 100
    else if c.policy = 0 then c.sendAlert 100
    else if c.policy = 1 then
      if 1 < c.handshakes then c.sendAlert 100 else c.runHandshake hs
    else if c.policy = 2 then c.runHandshake hs
    else
      match c.sendAlert 80 with
      | .ok (_, c) => .ok (some "tls: unknown Renegotiation value", c)
      | .err x => .err x
      | .panic => .panic
  | .err x => .err x
  | .panic => .panic

/-- the environment of a connection: what the unmarshallers accept, and the `i`-th run of the handshake -/
structure Life where
  parses : Bytes → Bool
  hs : Conn → Res (Option String × Conn)

/-- a call on the connection; `peek` as in `readPass` -/
inductive ConnOp where
  | handshake
  | read (peek : Bool) (cap : Nat)
  | write (b : Bytes)
  | closeWrite
  | close

/-- tls/conn.go:1034-1087, 1133-1300: `Handshake`, `Read`, `Write`, `CloseWrite` and `Close` by one goroutine (the interlock with other
goroutines is Verif/Tls/CloseInterlock.lean; a `Write` after `Close` returns errClosed and has no effect, and is left to the transport here).
The results are the bytes read, the count written and the error. -/
def Conn.call (L : Life) (op : ConnOp) (c : Conn) : Res ((Bytes × Nat × Option String) × Conn) :=
  match op with
  | .handshake =>
    match c.handshake L.hs with
    | .ok (e, c) => .ok (([], 0, e), c)
    | .err x => .err x
    | .panic => .panic
  | .read peek cap =>
    match c.handshake L.hs with
    | .ok (some e, c) => .ok (([], 0, some e), c)
    | .ok (none, c) =>
      match c.readApp (Conn.handleRenegotiation L.parses L.hs) peek cap with
      | .ok (b, e, c) => .ok ((b, 0, e), c)
      | .err x => .err x
      | .panic => .panic
    | .err x => .err x
    | .panic => .panic
  | .write b =>
    match c.handshake L.hs with
    | .ok (some e, c) => .ok (([], 0, some e), c)
    | .ok (none, c) =>
      match c.writeApp b with
      | .ok (n, e, c) => .ok (([], n, e), c)
      | .err x => .err x
      | .panic => .panic
    | .err x => .err x
    | .panic => .panic
  | .closeWrite =>
    match c.closeWrite with
    | .ok (e, c) => .ok (([], 0, e), c)
    | .err x => .err x
    | .panic => .panic
  | .close =>
    if c.handshakeComplete then
      match c.closeNotify with
      | .ok (e, c) => .ok (([], 0, e), c)
      | .err x => .err x
      | .panic => .panic
    else .ok (([], 0, none), c)

/-- a history: the calls one after another. A run that panics ends there. -/
def Conn.calls (L : Life) : List ConnOp → Conn → Res Conn
  | [], c => .ok c
  | op :: ops, c =>
    match c.call L op with
    | .ok (_, c) => Conn.calls L ops c
    | .err x => .err x
    | .panic => .panic

/-! ### What the record layer leaves alone -/

/-- the fields of the handshake bookkeeping -/
def Conn.book (c : Conn) : Bool × Int × Nat × Option String × Nat × Bool :=
  (c.isClient, c.policy, c.handshakes, c.handshakeErr, c.starts, c.handshakeComplete)

theorem netWrite_book (c : Conn) (b : Bytes) : (c.netWrite b).2.book = c.book := by
  unfold Conn.netWrite
  split <;> rfl

theorem write_book (c : Conn) (b : Bytes) : (c.write b).2.book = c.book := by
  unfold Conn.write Conn.netWrite
  split
  · rfl
  · split <;> rfl

theorem flush_book (c : Conn) : c.flush.2.book = c.book := by
  unfold Conn.flush
  split
  · rfl
  · have h := netWrite_book c c.sendBuf
    split
    rename_i hw
    rw [hw] at h
    exact h

theorem writeLoop_book (fuel : Nat) : ∀ (c : Conn) (typ : Byte) (data : Bytes) (n n' : Nat) (e : Option String) (c' : Conn),
    Conn.writeLoop fuel c typ data n = .ok (n', e, c') → c'.book = c.book := by
  induction fuel with
  | zero =>
    intro c typ data n n' e c' h
    unfold Conn.writeLoop at h
    split at h
    · have := (Prod.mk.inj (Prod.mk.inj (Res.ok.inj h)).2).2
      subst this
      rfl
    · cases h
  | succ fuel ih =>
    intro c typ data n n' e c' h
    unfold Conn.writeLoop at h
    split at h
    · have := (Prod.mk.inj (Prod.mk.inj (Res.ok.inj h)).2).2
      subst this
      rfl
    · obtain ⟨p, hp⟩ := maxPayload_conn c typ c.out.writeIVLen
      simp only [hp] at h
      split at h
      · cases h
      · split at h
        · have := (Prod.mk.inj (Prod.mk.inj (Res.ok.inj h)).2).2
          subst this
          rfl
        · generalize hc1 : (if (c.out.writeIVLen != 0 && !c.out.ivIsSeq) = true then
              ({ c with packetsSent := p, rand := c.rand.drop c.out.writeIVLen } : Conn) else { c with packetsSent := p }) = c1 at h
          have f1 : c1.book = c.book := by rw [← hc1]; split <;> rfl
          split at h
          · rename_i b out' _
            have f3 := write_book { c1 with out := out' } b
            have f2 : ({ c1 with out := out' } : Conn).book = c1.book := rfl
            rw [f2, f1] at f3
            split at h
            · rename_i er c2 hw
              rw [hw] at f3
              have := (Prod.mk.inj (Prod.mk.inj (Res.ok.inj h)).2).2
              subst this
              exact f3
            · rename_i c2 hw
              rw [hw] at f3
              exact (ih _ _ _ _ _ _ _ h).trans f3
          · cases h
          · cases h

theorem sendAlert_book {c : Conn} {a : Byte} {e : Option String} {c' : Conn} (h : c.sendAlert a = .ok (e, c')) : c'.book = c.book := by
  unfold Conn.sendAlert at h
  dsimp only at h
  generalize hw : Conn.writeLoop 2 c typAlert [if a = 100 ∨ a = 0 then 1 else 2, a] 0 = r at h
  match r, hw with
  | .ok (n, we, c1), hw =>
    have hb := writeLoop_book _ _ _ _ _ _ _ _ hw
    dsimp only at h
    split at h
    · obtain ⟨-, rfl⟩ := Prod.mk.inj (Res.ok.inj h)
      exact hb
    · obtain ⟨-, rfl⟩ := Prod.mk.inj (Res.ok.inj h)
      exact hb
  | .err x, _ => cases h
  | .panic, _ => cases h

theorem sendAlert_some {c : Conn} {a : Byte} (ha : a ≠ 0) {e : Option String} {c' : Conn} (h : c.sendAlert a = .ok (e, c')) :
    e = some ("local error " ++ toString a.toNat) ∧ c'.out.err = e := by
  unfold Conn.sendAlert at h
  dsimp only at h
  generalize hw : Conn.writeLoop 2 c typAlert [if a = 100 ∨ a = 0 then 1 else 2, a] 0 = r at h
  match r, hw with
  | .ok (n, we, c1), hw =>
    dsimp only at h
    rw [if_neg ha] at h
    obtain ⟨rfl, rfl⟩ := Prod.mk.inj (Res.ok.inj h)
    exact ⟨rfl, rfl⟩
  | .err x, _ => cases h
  | .panic, _ => cases h

theorem failAlert_book {c : Conn} {a : Byte} {e : Option String} {c' : Conn} (h : c.failAlert a = .ok (e, c')) : c'.book = c.book := by
  unfold Conn.failAlert at h
  split at h
  · rename_i e1 c1 hs
    obtain ⟨-, rfl⟩ := Prod.mk.inj (Res.ok.inj h)
    have k := sendAlert_book hs
    exact k
  · cases h
  · cases h

theorem failMsg_book {c : Conn} {a : Byte} {m : String} {e : Option String} {c' : Conn} (h : c.failMsg a m = .ok (e, c')) : c'.book = c.book := by
  unfold Conn.failMsg at h
  split at h
  · rename_i e1 c1 hs
    obtain ⟨-, rfl⟩ := Prod.mk.inj (Res.ok.inj h)
    have k := sendAlert_book hs
    exact k
  · cases h
  · cases h

theorem asDone_alert {c : Conn} {a : Byte} {s : Step} {c' : Conn} (h : asDone (c.failAlert a) = .ok (s, c')) : c'.book = c.book := by
  obtain ⟨e, -, h⟩ := asDone_inv h
  exact failAlert_book h

theorem asDone_msg {c : Conn} {a : Byte} {m : String} {s : Step} {c' : Conn} (h : asDone (c.failMsg a m) = .ok (s, c')) : c'.book = c.book := by
  obtain ⟨e, -, h⟩ := asDone_inv h
  exact failMsg_book h

theorem processRecord_book {c : Conn} {want typ : Byte} {data : Bytes} {s : Step} {c' : Conn} (h : c.processRecord want typ data = .ok (s, c')) :
    c'.book = c.book := by
  unfold Conn.processRecord at h
  split at h
  · exact asDone_alert h
  dsimp only at h
  generalize hc1 : (if typ ≠ typAlert ∧ data.length > 0 then ({ c with warnCount := 0 } : Conn) else c) = c1 at h
  have f1 : c1.book = c.book := by rw [← hc1]; split <;> rfl
  rw [← f1]
  split at h
  · split at h
    · exact asDone_alert h
    split at h
    · obtain ⟨-, rfl⟩ := Prod.mk.inj (Res.ok.inj h); rfl
    split at h
    · split at h
      · have := asDone_msg h
        exact this
      · obtain ⟨-, rfl⟩ := Prod.mk.inj (Res.ok.inj h); rfl
    split at h
    · obtain ⟨-, rfl⟩ := Prod.mk.inj (Res.ok.inj h); rfl
    · exact asDone_alert h
  split at h
  · split at h
    · exact asDone_alert h
    split at h
    · exact asDone_alert h
    split at h
    · obtain ⟨-, rfl⟩ := Prod.mk.inj (Res.ok.inj h); rfl
    · exact asDone_alert h
  split at h
  · split at h
    · exact asDone_alert h
    · obtain ⟨-, rfl⟩ := Prod.mk.inj (Res.ok.inj h); rfl
  split at h
  · split at h
    · exact asDone_alert h
    · obtain ⟨-, rfl⟩ := Prod.mk.inj (Res.ok.inj h); rfl
  · exact asDone_alert h

theorem readOnce_book {c : Conn} {want : Byte} {s : Step} {c' : Conn} (h : c.readOnce want = .ok (s, c')) : c'.book = c.book := by
  unfold Conn.readOnce at h
  split at h
  · obtain ⟨-, rfl⟩ := Prod.mk.inj (Res.ok.inj h); rfl
  dsimp only at h
  split at h
  · exact asDone_msg h
  split at h
  · exact asDone_msg h
  split at h
  · exact asDone_msg h
  split at h
  · exact asDone_msg h
  split at h
  · obtain ⟨-, rfl⟩ := Prod.mk.inj (Res.ok.inj h); rfl
  split at h
  · have k := asDone_alert h
    exact k
  · have k := processRecord_book h
    exact k
  · cases h
  · cases h

theorem readLoop_book (k : Nat) : ∀ {c : Conn} {want : Byte} {e : Option String} {c' : Conn}, Conn.readLoop k c want = .ok (e, c') → c'.book = c.book := by
  induction k with
  | zero => intro c want e c' h; cases h
  | succ k ih =>
    intro c want e c' h
    unfold Conn.readLoop at h
    split at h
    · rename_i e1 c1 hr
      obtain ⟨-, rfl⟩ := Prod.mk.inj (Res.ok.inj h)
      exact readOnce_book hr
    · rename_i c1 hr
      exact (ih h).trans (readOnce_book hr)
    · cases h
    · cases h

theorem readRecord_book {c : Conn} {want : Byte} {e : Option String} {c' : Conn} (h : c.readRecord want = .ok (e, c')) : c'.book = c.book := by
  unfold Conn.readRecord at h
  split at h
  · split at h
    · exact failMsg_book h
    · exact readLoop_book _ h
  · split at h
    · split at h
      · exact failMsg_book h
      · exact readLoop_book _ h
    · exact failMsg_book h

theorem fillHand_book (fuel : Nat) : ∀ {c : Conn} {k : Nat} {e : Option String} {c' : Conn}, Conn.fillHand fuel c k = .ok (e, c') → c'.book = c.book := by
  induction fuel with
  | zero =>
    intro c k e c' h
    unfold Conn.fillHand at h
    split at h
    · obtain ⟨-, rfl⟩ := Prod.mk.inj (Res.ok.inj h); rfl
    · split at h
      · obtain ⟨-, rfl⟩ := Prod.mk.inj (Res.ok.inj h); rfl
      · cases h
  | succ fuel ih =>
    intro c k e c' h
    unfold Conn.fillHand at h
    split at h
    · obtain ⟨-, rfl⟩ := Prod.mk.inj (Res.ok.inj h); rfl
    · split at h
      · obtain ⟨-, rfl⟩ := Prod.mk.inj (Res.ok.inj h); rfl
      · dsimp only at h
        split at h
        · rename_i hr
          obtain ⟨-, rfl⟩ := Prod.mk.inj (Res.ok.inj h)
          exact readRecord_book hr
        · rename_i hr
          exact (ih h).trans (readRecord_book hr)
        · cases h
        · cases h

theorem readHandshake_book {parses : Bytes → Bool} {c : Conn} {r : Except String Bytes} {c' : Conn} (h : c.readHandshake parses = .ok (r, c')) :
    c'.book = c.book := by
  unfold Conn.readHandshake at h
  split at h
  · rename_i h1
    obtain ⟨-, rfl⟩ := Prod.mk.inj (Res.ok.inj h)
    exact fillHand_book _ h1
  · rename_i c1 h1
    have f1 := fillHand_book _ h1
    dsimp only at h
    split at h
    · split at h
      · rename_i h2
        obtain ⟨-, rfl⟩ := Prod.mk.inj (Res.ok.inj h)
        exact (failMsg_book h2).trans f1
      · cases h
      · cases h
    · split at h
      · rename_i h2
        obtain ⟨-, rfl⟩ := Prod.mk.inj (Res.ok.inj h)
        exact (fillHand_book _ h2).trans f1
      · rename_i c2 h2
        have f2 := (fillHand_book _ h2).trans f1
        split at h
        · obtain ⟨-, rfl⟩ := Prod.mk.inj (Res.ok.inj h)
          exact f2
        · split at h
          · rename_i h3
            obtain ⟨-, rfl⟩ := Prod.mk.inj (Res.ok.inj h)
            have k := failAlert_book h3
            exact k.trans f2
          · cases h
          · cases h
      · cases h
      · cases h
  · cases h
  · cases h

theorem writeRecord_book {c : Conn} {typ : Byte} {data : Bytes} {n : Nat} {e : Option String} {c' : Conn} (h : c.writeRecord typ data = .ok (n, e, c')) :
    c'.book = c.book := by
  unfold Conn.writeRecord at h
  split at h
  · rename_i h1
    obtain ⟨-, h⟩ := Prod.mk.inj (Res.ok.inj h)
    obtain ⟨-, rfl⟩ := Prod.mk.inj h
    exact writeLoop_book _ _ _ _ _ _ _ _ h1
  · rename_i h1
    have f1 := writeLoop_book _ _ _ _ _ _ _ _ h1
    split at h
    · split at h
      · obtain ⟨-, h⟩ := Prod.mk.inj (Res.ok.inj h)
        obtain ⟨-, rfl⟩ := Prod.mk.inj h
        exact f1
      · split at h
        · rename_i h2
          obtain ⟨-, h⟩ := Prod.mk.inj (Res.ok.inj h)
          obtain ⟨-, rfl⟩ := Prod.mk.inj h
          exact (sendAlert_book h2).trans f1
        · cases h
        · cases h
    · obtain ⟨-, h⟩ := Prod.mk.inj (Res.ok.inj h)
      obtain ⟨-, rfl⟩ := Prod.mk.inj h
      exact f1
  · cases h
  · cases h

theorem writeApp_book {c : Conn} {b : Bytes} {n : Nat} {e : Option String} {c' : Conn} (h : c.writeApp b = .ok (n, e, c')) : c'.book = c.book := by
  unfold Conn.writeApp at h
  split at h
  · obtain ⟨-, h⟩ := Prod.mk.inj (Res.ok.inj h)
    obtain ⟨-, rfl⟩ := Prod.mk.inj h
    rfl
  split at h
  · obtain ⟨-, h⟩ := Prod.mk.inj (Res.ok.inj h)
    obtain ⟨-, rfl⟩ := Prod.mk.inj h
    rfl
  split at h
  · obtain ⟨-, h⟩ := Prod.mk.inj (Res.ok.inj h)
    obtain ⟨-, rfl⟩ := Prod.mk.inj h
    rfl
  dsimp only at h
  have first : ∀ {m e1 c1}, (if c.splits b = true then c.writeRecord typAppData (b.take 1) else .ok (0, none, c)) = .ok (m, e1, c1) → c1.book = c.book := by
    intro m e1 c1 h1
    split at h1
    · exact writeRecord_book h1
    · obtain ⟨-, h1⟩ := Prod.mk.inj (Res.ok.inj h1)
      obtain ⟨-, rfl⟩ := Prod.mk.inj h1
      rfl
  split at h
  · rename_i h1
    obtain ⟨-, h⟩ := Prod.mk.inj (Res.ok.inj h)
    obtain ⟨-, rfl⟩ := Prod.mk.inj h
    have k := first h1
    exact k
  · rename_i h1
    have f1 := first h1
    split at h
    · rename_i h2
      obtain ⟨-, h⟩ := Prod.mk.inj (Res.ok.inj h)
      obtain ⟨-, rfl⟩ := Prod.mk.inj h
      have k := writeRecord_book h2
      exact k.trans f1
    · cases h
    · cases h
  · cases h
  · cases h

theorem closeNotify_book {c : Conn} {e : Option String} {c' : Conn} (h : c.closeNotify = .ok (e, c')) : c'.book = c.book := by
  unfold Conn.closeNotify at h
  split at h
  · obtain ⟨-, rfl⟩ := Prod.mk.inj (Res.ok.inj h); rfl
  · split at h
    · rename_i h1
      obtain ⟨-, rfl⟩ := Prod.mk.inj (Res.ok.inj h)
      have k := sendAlert_book h1
      exact k
    · cases h
    · cases h

theorem closeWrite_book {c : Conn} {e : Option String} {c' : Conn} (h : c.closeWrite = .ok (e, c')) : c'.book = c.book := by
  unfold Conn.closeWrite at h
  split at h
  · obtain ⟨-, rfl⟩ := Prod.mk.inj (Res.ok.inj h); rfl
  · exact closeNotify_book h

/-! ### The count of handshakes -/

namespace Spec

/-- how many handshakes a connection may start in its life -/
def allowed (isClient : Bool) (policy : Int) : Option Nat :=
  if isClient = true ∧ policy = 1 then some 2
  else if isClient = true ∧ policy = 2 then none
  else some 1

end Spec

/-- invariant of a connection between two calls: the handshakes completed are the handshakes started but for the last one, which failed if there
is an error; complete means that one was completed; and no more were started than allowed -/
structure Booked (c : Conn) : Prop where
  count : c.starts = c.handshakes + (if c.handshakeErr.isSome then 1 else 0)
  complete : c.handshakeErr = none → (c.handshakeComplete = true ↔ 0 < c.handshakes)
  failed : c.handshakeErr.isSome → c.handshakeComplete = false
  bound : ∀ k, Spec.allowed c.isClient c.policy = some k → c.starts ≤ k

theorem Booked.of_book {c c' : Conn} (h : c'.book = c.book) (b : Booked c) : Booked c' := by
  unfold Conn.book at h
  simp only [Prod.mk.injEq] at h
  obtain ⟨h1, h2, h3, h4, h5, h6⟩ := h
  exact ⟨by rw [h5, h3, h4]; exact b.count, by rw [h4, h6, h3]; exact b.complete, by rw [h4, h6]; exact b.failed, by rw [h1, h2, h5]; exact b.bound⟩

theorem book_err {c c' : Conn} (h : c'.book = c.book) : c'.handshakeErr = c.handshakeErr := by
  unfold Conn.book at h
  simp only [Prod.mk.injEq] at h
  exact h.2.2.2.1

theorem book_policy {c c' : Conn} (h : c'.book = c.book) : c'.isClient = c.isClient ∧ c'.policy = c.policy := by
  unfold Conn.book at h
  simp only [Prod.mk.injEq] at h
  exact ⟨h.1, h.2.1⟩

/-- a run of the handshake from a state in which one more is allowed -/
theorem runHandshake_booked {hs : Conn → Res (Option String × Conn)} {c : Conn} {e : Option String} {c' : Conn} (h : c.runHandshake hs = .ok (e, c'))
    (b : Booked c) (hn : c.handshakeErr = none) (ha : ∀ k, Spec.allowed c.isClient c.policy = some k → c.starts + 1 ≤ k) :
    Booked c' ∧ c'.handshakeErr = e ∧ c'.handshakeComplete = e.isNone ∧ c'.isClient = c.isClient ∧ c'.policy = c.policy := by
  have hc := b.count
  rw [hn] at hc
  simp only [Option.isSome_none, Bool.false_eq_true, if_false, Nat.add_zero] at hc
  unfold Conn.runHandshake at h
  split at h
  · obtain ⟨rfl, rfl⟩ := Prod.mk.inj (Res.ok.inj h)
    refine ⟨⟨?_, ?_, ?_, ha⟩, rfl, rfl, rfl, rfl⟩
    · dsimp only
      rename_i e c1 _
      cases e <;> simp [hc]
    · dsimp only
      rename_i e c1 _
      intro he
      subst he
      simp
    · dsimp only
      rename_i e c1 _
      cases e <;> simp
  · cases h
  · cases h

theorem handshake_booked {hs : Conn → Res (Option String × Conn)} {c : Conn} {e : Option String} {c' : Conn} (h : c.handshake hs = .ok (e, c'))
    (b : Booked c) : Booked c' ∧ (e = none → c'.handshakeErr = none) ∧ c'.isClient = c.isClient ∧ c'.policy = c.policy := by
  unfold Conn.handshake at h
  split at h
  · obtain ⟨rfl, rfl⟩ := Prod.mk.inj (Res.ok.inj h)
    exact ⟨b, nofun, rfl, rfl⟩
  rename_i hn
  split at h
  · obtain ⟨rfl, rfl⟩ := Prod.mk.inj (Res.ok.inj h)
    exact ⟨b, fun _ => hn, rfl, rfl⟩
  rename_i hcomp
  have h0 : c.starts = 0 := by
    have hc := b.count
    rw [hn] at hc
    simp only [Option.isSome_none, Bool.false_eq_true, if_false, Nat.add_zero] at hc
    have := (b.complete hn).not.1 hcomp
    omega
  have ha : ∀ k, Spec.allowed c.isClient c.policy = some k → c.starts + 1 ≤ k := by
    intro k hk
    unfold Spec.allowed at hk
    split at hk
    · cases hk; omega
    split at hk
    · cases hk
    · cases hk; omega
  split at h
  · rename_i e1 c1 hr
    obtain ⟨rfl, rfl⟩ := Prod.mk.inj (Res.ok.inj h)
    obtain ⟨b1, -, -, h4, h5⟩ := runHandshake_booked hr b hn ha
    have fb := flush_book c1
    exact ⟨b1.of_book fb, nofun, (book_policy fb).1.trans h4, (book_policy fb).2.trans h5⟩
  · rename_i c1 hr
    obtain ⟨b1, h2, -, h4, h5⟩ := runHandshake_booked hr b hn ha
    split at h
    · obtain ⟨rfl, rfl⟩ := Prod.mk.inj (Res.ok.inj h)
      exact ⟨b1, fun _ => h2, h4, h5⟩
    · cases h
  · cases h
  · cases h

theorem sendAlert_booked {c : Conn} {a : Byte} (ha : a ≠ 0) {e : Option String} {c' : Conn} (h : c.sendAlert a = .ok (e, c')) (b : Booked c) :
    Booked c' ∧ (e = none → c'.handshakeErr = none) ∧ c'.isClient = c.isClient ∧ c'.policy = c.policy := by
  have f := sendAlert_book h
  refine ⟨b.of_book f, fun he => ?_, book_policy f⟩
  have := (sendAlert_some ha h).1
  rw [he] at this
  cases this

theorem handleRenegotiation_booked {parses : Bytes → Bool} {hs : Conn → Res (Option String × Conn)} {c : Conn} {e : Option String} {c' : Conn}
    (h : c.handleRenegotiation parses hs = .ok (e, c')) (b : Booked c) (hn : c.handshakeErr = none) :
    Booked c' ∧ (e = none → c'.handshakeErr = none) ∧ c'.isClient = c.isClient ∧ c'.policy = c.policy := by
  unfold Conn.handleRenegotiation at h
  split at h
  · rename_i hr
    obtain ⟨rfl, rfl⟩ := Prod.mk.inj (Res.ok.inj h)
    have f := readHandshake_book hr
    exact ⟨b.of_book f, nofun, book_policy f⟩
  · rename_i data c1 hr
    have f := readHandshake_book hr
    have b1 := b.of_book f
    have hn1 : c1.handshakeErr = none := (book_err f).trans hn
    have hp := book_policy f
    have fin : ∀ {e c'}, (Booked c' ∧ (e = none → c'.handshakeErr = none) ∧ c'.isClient = c1.isClient ∧ c'.policy = c1.policy) →
        (Booked c' ∧ ((e : Option String) = none → c'.handshakeErr = none) ∧ c'.isClient = c.isClient ∧ c'.policy = c.policy) :=
      fun ⟨k1, k2, k3, k4⟩ => ⟨k1, k2, k3.trans hp.1, k4.trans hp.2⟩
    apply fin
    have hc := b1.count
    rw [hn1] at hc
    simp only [Option.isSome_none, Bool.false_eq_true, if_false, Nat.add_zero] at hc
    split at h
    · split at h
      · rename_i hs1
        obtain ⟨rfl, rfl⟩ := Prod.mk.inj (Res.ok.inj h)
        have k := sendAlert_booked (by decide) hs1 b1
        exact ⟨k.1, nofun, k.2.2⟩
      · cases h
      · cases h
    split at h
    · exact sendAlert_booked (by decide) h b1
    split at h
    · exact sendAlert_booked (by decide) h b1
    rename_i hcl _
    have hcl : c1.isClient = true := by simpa using hcl
    split at h
    · rename_i hpol
      split at h
      · exact sendAlert_booked (by decide) h b1
      · rename_i hh
        obtain ⟨k1, k2, -, k3, k4⟩ := runHandshake_booked h b1 hn1 (by
          intro k hk
          unfold Spec.allowed at hk
          rw [if_pos ⟨hcl, hpol⟩] at hk
          cases hk
          omega)
        exact ⟨k1, fun he => k2.trans he, k3, k4⟩
    split at h
    · rename_i hpol
      obtain ⟨k1, k2, -, k3, k4⟩ := runHandshake_booked h b1 hn1 (by
          intro k hk
          unfold Spec.allowed at hk
          rw [if_neg (by rintro ⟨_, h⟩; rw [hpol] at h; cases h), if_pos ⟨hcl, hpol⟩] at hk
          cases hk)
      exact ⟨k1, fun he => k2.trans he, k3, k4⟩
    · split at h
      · rename_i hs1
        obtain ⟨rfl, rfl⟩ := Prod.mk.inj (Res.ok.inj h)
        have k := sendAlert_booked (by decide) hs1 b1
        exact ⟨k.1, nofun, k.2.2⟩
      · cases h
      · cases h
  · cases h
  · cases h

theorem fillInput_booked (L : Life) (fuel : Nat) : ∀ {c : Conn} {e : Option String} {c' : Conn},
    Conn.fillInput (Conn.handleRenegotiation L.parses L.hs) fuel c = .ok (e, c') → Booked c → c.handshakeErr = none →
    Booked c' ∧ (e = none → c'.handshakeErr = none) ∧ c'.isClient = c.isClient ∧ c'.policy = c.policy := by
  induction fuel with
  | zero =>
    intro c e c' h b hn
    unfold Conn.fillInput at h
    split at h
    · obtain ⟨rfl, rfl⟩ := Prod.mk.inj (Res.ok.inj h)
      exact ⟨b, fun _ => hn, rfl, rfl⟩
    · cases h
  | succ fuel ih =>
    intro c e c' h b hn
    unfold Conn.fillInput at h
    split at h
    · obtain ⟨rfl, rfl⟩ := Prod.mk.inj (Res.ok.inj h)
      exact ⟨b, fun _ => hn, rfl, rfl⟩
    dsimp only at h
    split at h
    · rename_i hr
      obtain ⟨rfl, rfl⟩ := Prod.mk.inj (Res.ok.inj h)
      have f := readRecord_book hr
      exact ⟨b.of_book f, nofun, book_policy f⟩
    · rename_i c1 hr
      have f := readRecord_book hr
      have b1 := b.of_book f
      have hn1 : c1.handshakeErr = none := (book_err f).trans hn
      have hp := book_policy f
      split at h
      · split at h
        · rename_i e2 c2 h2
          obtain ⟨rfl, rfl⟩ := Prod.mk.inj (Res.ok.inj h)
          have k := handleRenegotiation_booked h2 b1 hn1
          exact ⟨k.1, nofun, k.2.2.1.trans hp.1, k.2.2.2.trans hp.2⟩
        · rename_i c2 h2
          have k := handleRenegotiation_booked h2 b1 hn1
          have k' := ih h k.1 (k.2.1 rfl)
          exact ⟨k'.1, k'.2.1, k'.2.2.1.trans (k.2.2.1.trans hp.1), k'.2.2.2.trans (k.2.2.2.trans hp.2)⟩
        · cases h
        · cases h
      · have k' := ih h b1 hn1
        exact ⟨k'.1, k'.2.1, k'.2.2.1.trans hp.1, k'.2.2.2.trans hp.2⟩
    · cases h
    · cases h

theorem readPass_booked (L : Life) (peek : Bool) (k : Nat) : ∀ {c : Conn} {cap : Nat} {b : Bytes} {e : Option String} {c' : Conn},
    Conn.readPass (Conn.handleRenegotiation L.parses L.hs) peek k c cap = .ok (b, e, c') → Booked c → c.handshakeErr = none →
    Booked c' ∧ c'.isClient = c.isClient ∧ c'.policy = c.policy := by
  induction k with
  | zero =>
    intro c cap b e c' h bk hn
    unfold Conn.readPass at h
    obtain ⟨-, h⟩ := Prod.mk.inj (Res.ok.inj h)
    obtain ⟨-, rfl⟩ := Prod.mk.inj h
    exact ⟨bk, rfl, rfl⟩
  | succ k ih =>
    intro c cap b e c' h bk hn
    unfold Conn.readPass at h
    split at h
    · rename_i e1 c1 h1
      obtain ⟨-, h⟩ := Prod.mk.inj (Res.ok.inj h)
      obtain ⟨-, rfl⟩ := Prod.mk.inj h
      have k := fillInput_booked L _ h1 bk hn
      exact ⟨k.1, k.2.2⟩
    · rename_i c1 h1
      obtain ⟨b1, n1, p1, p2⟩ := fillInput_booked L _ h1 bk hn
      have n1 := n1 rfl
      split at h
      · obtain ⟨-, h⟩ := Prod.mk.inj (Res.ok.inj h)
        obtain ⟨-, rfl⟩ := Prod.mk.inj h
        exact ⟨b1, p1, p2⟩
      · dsimp only at h
        generalize (if ((c1.input.getD []).drop cap).length = 0 then none else some ((c1.input.getD []).drop cap)) = inp at h
        split at h
        · split at h
          · rename_i h3
            obtain ⟨-, h⟩ := Prod.mk.inj (Res.ok.inj h)
            obtain ⟨-, rfl⟩ := Prod.mk.inj h
            have f3 := readRecord_book h3
            have f4 : _ = c1.book := f3
            exact ⟨b1.of_book f4, (book_policy f4).1.trans p1, (book_policy f4).2.trans p2⟩
          · cases h
          · cases h
        · split at h
          · obtain ⟨-, h⟩ := Prod.mk.inj (Res.ok.inj h)
            obtain ⟨-, rfl⟩ := Prod.mk.inj h
            exact ⟨Booked.of_book (c := c1) rfl b1, p1, p2⟩
          · have k := ih h (Booked.of_book (c := c1) rfl b1) n1
            exact ⟨k.1, k.2.1.trans p1, k.2.2.trans p2⟩
    · cases h
    · cases h

theorem call_booked (L : Life) (op : ConnOp) {c : Conn} {r : Bytes × Nat × Option String} {c' : Conn} (h : c.call L op = .ok (r, c')) (b : Booked c) :
    Booked c' ∧ c'.isClient = c.isClient ∧ c'.policy = c.policy := by
  cases op with
  | handshake =>
    unfold Conn.call at h
    dsimp only at h
    split at h
    · rename_i h1
      obtain ⟨-, rfl⟩ := Prod.mk.inj (Res.ok.inj h)
      have k := handshake_booked h1 b
      exact ⟨k.1, k.2.2⟩
    · cases h
    · cases h
  | read peek cap =>
    unfold Conn.call at h
    dsimp only at h
    split at h
    · rename_i h1
      obtain ⟨-, rfl⟩ := Prod.mk.inj (Res.ok.inj h)
      have k := handshake_booked h1 b
      exact ⟨k.1, k.2.2⟩
    · rename_i c1 h1
      obtain ⟨b1, n1, p⟩ := handshake_booked h1 b
      split at h
      · rename_i h2
        obtain ⟨-, rfl⟩ := Prod.mk.inj (Res.ok.inj h)
        unfold Conn.readApp at h2
        split at h2
        · obtain ⟨-, h2⟩ := Prod.mk.inj (Res.ok.inj h2)
          obtain ⟨-, rfl⟩ := Prod.mk.inj h2
          exact ⟨b1, p⟩
        · have k := readPass_booked L _ _ h2 b1 (n1 rfl)
          exact ⟨k.1, k.2.1.trans p.1, k.2.2.trans p.2⟩
      · cases h
      · cases h
    · cases h
    · cases h
  | write d =>
    unfold Conn.call at h
    dsimp only at h
    split at h
    · rename_i h1
      obtain ⟨-, rfl⟩ := Prod.mk.inj (Res.ok.inj h)
      have k := handshake_booked h1 b
      exact ⟨k.1, k.2.2⟩
    · rename_i c1 h1
      obtain ⟨b1, n1, p⟩ := handshake_booked h1 b
      split at h
      · rename_i h2
        obtain ⟨-, rfl⟩ := Prod.mk.inj (Res.ok.inj h)
        have f := writeApp_book h2
        exact ⟨b1.of_book f, (book_policy f).1.trans p.1, (book_policy f).2.trans p.2⟩
      · cases h
      · cases h
    · cases h
    · cases h
  | closeWrite =>
    unfold Conn.call at h
    dsimp only at h
    split at h
    · rename_i h1
      obtain ⟨-, rfl⟩ := Prod.mk.inj (Res.ok.inj h)
      have f := closeWrite_book h1
      exact ⟨b.of_book f, book_policy f⟩
    · cases h
    · cases h
  | close =>
    unfold Conn.call at h
    dsimp only at h
    split at h
    · split at h
      · rename_i h1
        obtain ⟨-, rfl⟩ := Prod.mk.inj (Res.ok.inj h)
        have f := closeNotify_book h1
        exact ⟨b.of_book f, book_policy f⟩
      · cases h
      · cases h
    · obtain ⟨-, rfl⟩ := Prod.mk.inj (Res.ok.inj h)
      exact ⟨b, rfl, rfl⟩

theorem calls_booked (L : Life) (ops : List ConnOp) : ∀ {c c' : Conn}, Conn.calls L ops c = .ok c' → Booked c →
    Booked c' ∧ c'.isClient = c.isClient ∧ c'.policy = c.policy := by
  induction ops with
  | nil => intro c c' h b; cases h; exact ⟨b, rfl, rfl⟩
  | cons op ops ih =>
    intro c c' h b
    unfold Conn.calls at h
    split at h
    · rename_i h1
      obtain ⟨b1, p⟩ := call_booked L op h1 b
      obtain ⟨b2, q⟩ := ih h b1
      exact ⟨b2, q.1.trans p.1, q.2.trans p.2⟩
    · cases h
    · cases h

/-- a connection on which nothing has happened yet -/
structure Conn.Fresh (c : Conn) : Prop where
  starts : c.starts = 0
  handshakes : c.handshakes = 0
  err : c.handshakeErr = none
  complete : c.handshakeComplete = false

theorem Conn.Fresh.booked {c : Conn} (h : c.Fresh) : Booked c := by
  refine ⟨?_, fun _ => ?_, ?_, fun k _ => ?_⟩
  · rw [h.starts, h.handshakes, h.err]; rfl
  · rw [h.complete, h.handshakes]; simp
  · rw [h.err]; simp
  · rw [h.starts]; exact Nat.zero_le k

/-- **C54, policy.** In the whole life of a connection - any calls in any order, any bytes from the peer, any behaviour of the handshake code - a
server, a client that never renegotiates and a client with an unknown policy run the handshake at most once, and a client that renegotiates once
at most twice. -/
theorem C54_policy (L : Life) (ops : List ConnOp) (c c' : Conn) (hf : c.Fresh) (h : Conn.calls L ops c = .ok c') :
    (c.isClient = false → c'.starts ≤ 1) ∧ (c.policy = 0 → c'.starts ≤ 1) ∧ (c.policy = 1 → c'.starts ≤ 2) ∧
    (c.policy ≠ 2 → c'.starts ≤ 2) ∧ (c.policy ≠ 1 → c.policy ≠ 2 → c'.starts ≤ 1) := by
  obtain ⟨b, p1, p2⟩ := calls_booked L ops h hf.booked
  have hb := b.bound
  rw [p1, p2] at hb
  unfold Spec.allowed at hb
  refine ⟨fun hc => ?_, fun hp => ?_, fun hp => ?_, fun hp => ?_, fun hp hq => ?_⟩
  · exact hb 1 (by simp [hc])
  · exact hb 1 (by simp [hp])
  · by_cases hc : c.isClient = true
    · exact hb 2 (by simp [hc, hp])
    · have := hb 1 (by simp [hc]); omega
  · by_cases hc : c.isClient = true ∧ c.policy = 1
    · exact hb 2 (by rw [if_pos hc])
    · have := hb 1 (by rw [if_neg hc, if_neg (fun h => hp h.2)]); omega
  · exact hb 1 (by rw [if_neg (fun h => hp h.2), if_neg (fun h => hq h.2)])

/-- the next handshake message is a HelloRequest, complete in the buffer -/
def Conn.helloRequested (c : Conn) : Prop := c.hand.take 4 = [0, 0, 0, 0]

theorem readHandshake_helloRequest (parses : Bytes → Bool) (c : Conn) (h : c.helloRequested) (hp : parses [0, 0, 0, 0] = true) :
    c.readHandshake parses = .ok (.ok [0, 0, 0, 0], { c with hand := c.hand.drop 4 }) := by
  unfold Conn.helloRequested at h
  have hl : 4 ≤ c.hand.length := by
    have := congrArg List.length h
    rw [List.length_take] at this
    simp only [List.length_cons, List.length_nil] at this
    omega
  have hf : ∀ n, Conn.fillHand n c 4 = .ok (none, c) := by
    intro n
    unfold Conn.fillHand
    rw [if_pos hl]
  have hn : beNat ((c.hand.drop 1).take 3) = 0 := by
    have : (c.hand.drop 1).take 3 = (c.hand.take 4).drop 1 := by rw [List.drop_take]
    rw [this, h]
    rfl
  unfold Conn.readHandshake
  rw [hf]
  dsimp only
  rw [hn, if_neg (by decide), Nat.add_zero, hf]
  dsimp only
  rw [h, if_pos]
  simp only [List.getD_cons_zero, hp, Bool.and_true]
  decide

/-- **C54.** A HelloRequest the policy permits is honoured: the handshake is run once more, and if it succeeds the connection goes on. -/
theorem C54_honoured (parses : Bytes → Bool) (hs : Conn → Res (Option String × Conn)) (c d : Conn) (h : c.helloRequested)
    (hp : parses [0, 0, 0, 0] = true) (hcl : c.isClient = true) (hpol : c.policy = 2 ∨ (c.policy = 1 ∧ c.handshakes ≤ 1))
    (hok : hs { c with hand := c.hand.drop 4, handshakeComplete := false } = .ok (none, d)) :
    ∃ c', c.handleRenegotiation parses hs = .ok (none, c') ∧ c'.starts = c.starts + 1 ∧ c'.handshakes = c.handshakes + 1 ∧
      c'.handshakeComplete = true ∧ c'.inp = d.inp ∧ c'.out = d.out ∧ c'.stream = d.stream := by
  have run : ∃ c', ({ c with hand := c.hand.drop 4 } : Conn).runHandshake hs = .ok (none, c') ∧ c'.starts = c.starts + 1 ∧
      c'.handshakes = c.handshakes + 1 ∧ c'.handshakeComplete = true ∧ c'.inp = d.inp ∧ c'.out = d.out ∧ c'.stream = d.stream := by
    unfold Conn.runHandshake
    dsimp only
    rw [hok]
    exact ⟨_, rfl, rfl, rfl, rfl, rfl, rfl, rfl⟩
  unfold Conn.handleRenegotiation
  rw [readHandshake_helloRequest parses c h hp]
  dsimp only
  rw [if_neg (by simp), if_neg (by simp [hcl]), if_neg (by omega)]
  rcases hpol with hpol | ⟨hpol, hh⟩
  · rw [if_neg (by omega), if_pos hpol]
    exact run
  · rw [if_pos hpol, if_neg (by omega)]
    exact run

/-- **C54.** A HelloRequest the policy does not permit is answered by an error; no handshake is run, and from then on every `Write` fails with that
error. -/
theorem C54_refused (parses : Bytes → Bool) (hs : Conn → Res (Option String × Conn)) (c : Conn) (h : c.helloRequested)
    (hp : parses [0, 0, 0, 0] = true) (ho : CanSend c.out) (hpol : c.isClient = false ∨ c.policy = 0 ∨ (c.policy = 1 ∧ 1 < c.handshakes)) :
    ∃ e c', c.handleRenegotiation parses hs = .ok (some e, c') ∧ c'.starts = c.starts ∧ ∀ b, c'.writeApp b = .ok (0, some e, c') := by
  have run : ∃ e c', ({ c with hand := c.hand.drop 4 } : Conn).sendAlert 100 = .ok (some e, c') ∧ c'.starts = c.starts ∧
      ∀ b, c'.writeApp b = .ok (0, some e, c') := by
    obtain ⟨e, c', h1, h2, h3⟩ := sendAlert_total ({ c with hand := c.hand.drop 4 } : Conn) 100 ho
    obtain ⟨rfl, h5⟩ := h3 (by decide)
    refine ⟨_, c', h1, ?_, fun b => ?_⟩
    · have k := sendAlert_book h1
      unfold Conn.book at k
      simp only [Prod.mk.injEq] at k
      exact k.2.2.2.2.1
    · unfold Conn.writeApp
      rw [h5]
  unfold Conn.handleRenegotiation
  rw [readHandshake_helloRequest parses c h hp]
  dsimp only
  rw [if_neg (by simp)]
  by_cases hcl : c.isClient = false
  · rw [if_pos hcl]
    exact run
  · rw [if_neg hcl]
    rcases hpol with hpol | hpol | ⟨hpol, hh⟩
    · exact absurd hpol hcl
    · rw [if_pos hpol]
      exact run
    · rw [if_neg (by omega), if_pos hpol, if_pos hh]
      exact run

/-! ### The hypotheses are met -/

/-- a peer whose handshakes succeed at once -/
def easyLife : Life := { parses := fun _ => true, hs := fun c => .ok (none, { c with vers := 0x0303, haveVers := true }) }

/-- a client to which the peer sends three HelloRequests, a byte of data after each -/
def nagged (policy : Int) (isClient : Bool) : Conn :=
  { isClient := isClient, policy := policy,
    stream := [22, 3, 3, 0, 4, 0, 0, 0, 0, 23, 3, 3, 0, 1, 7, 22, 3, 3, 0, 4, 0, 0, 0, 0, 23, 3, 3, 0, 1, 8, 22, 3, 3, 0, 4, 0, 0, 0, 0, 23, 3, 3, 0, 1, 9] }

def startsOf (r : Res Conn) : Option (Nat × Option String × Option String) :=
  match r with
  | .ok c => some (c.starts, c.inp.err, c.out.err)
  | _ => none

example (p : Int) (b : Bool) : (nagged p b).Fresh := ⟨rfl, rfl, rfl, rfl⟩

/-- freely: four handshakes; once: two, and the second request kills the connection; never, unknown or server: one -/
example :
    startsOf (Conn.calls easyLife [.handshake, .read false 10, .read false 10, .read false 10] (nagged 2 true)) = some (4, none, none) ∧
    startsOf (Conn.calls easyLife [.handshake, .read false 10, .read false 10, .read false 10] (nagged 1 true)) = some (2, none, some "local error 100") ∧
    startsOf (Conn.calls easyLife [.handshake, .read false 10, .read false 10, .read false 10] (nagged 0 true)) =
      some (1, some "local error 100", some "local error 100") ∧
    startsOf (Conn.calls easyLife [.handshake, .read false 10, .read false 10, .read false 10] (nagged 3 true)) = some (1, none, some "local error 80") ∧
    startsOf (Conn.calls easyLife [.handshake, .read false 10, .read false 10, .read false 10] (nagged 2 false)) =
      some (1, some "local error 100", some "local error 100") := by
  decide +kernel

example : ({ hand := [0, 0, 0, 0, 5] } : Conn).helloRequested := rfl

end Verif.Tls
