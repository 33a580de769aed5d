import Verif.Tls.HsKeys
import Verif.Tls.WriteProps
import Verif.Tls.SrvKeys
/-!
C141, C142: what a handshake puts on the wire, and that it never waits for the peer with messages of its own held back.
-/
namespace Verif.Tls
open Verif Verif.Tls.Wire

/-! ### specification -/

namespace Spec
/-- the version in the header of a record of a connection whose version is `v` (0: none chosen yet) -/
def hdrVersion (v : Version) : Version := if v = 0 then 0x0301 else v

/-- `w` is a sequence of records of type `typ` and version `v` whose contents, put together, are `data`; they were protected with `a`, which is left as `b` -/
def Recs (typ : Byte) (v : Version) (a : HalfConn) (data w : Bytes) (b : HalfConn) : Prop :=
  ∃ (items : List (Bytes × Bytes)) (rs : List Bytes), (items.map (·.2)).flatten = data ∧ (∀ x ∈ items, 1 ≤ x.2.length ∧ x.2.length ≤ 16384) ∧
    sendAll a (items.map fun x => ([typ, (v >>> 8).truncate 8, v.truncate 8], x.1, x.2)) = .ok (rs, b) ∧ w = rs.flatten

/-- the handshake messages `ms`, in the clear: each is cut into pieces, and each piece is the body of a record of type 22 (handshake) -/
inductive InClear : List Message → Bytes → Prop
  | nil : InClear [] []
  | cons {ms : List Message} {w : Bytes} (m : Message) (x : Bytes) (v : Version) (pieces : List Bytes) (e : Encodes m x) (h : pieces.flatten = x)
      (hp : ∀ p ∈ pieces, 1 ≤ p.length ∧ p.length ≤ 16384) (r : InClear ms w) : InClear (m :: ms) ((pieces.map (frame 22 v)).flatten ++ w)

/-- the handshake messages `ms`, protected with `a`, which is left as `b`; the records have version `v` -/
inductive Protected (v : Version) : HalfConn → List Message → Bytes → HalfConn → Prop
  | nil (a : HalfConn) : Protected v a [] [] a
  | cons {a b d : HalfConn} {ms : List Message} {w w' : Bytes} (m : Message) (x : Bytes) (e : Encodes m x) (h : Recs 22 v a x w b) (r : Protected v b ms w' d) :
      Protected v a (m :: ms) (w ++ w') d
end Spec

/-! ### programs: a calculus of preconditions -/

/-- what is known of a run so far: the assignments made, whether the connection may be buffering, whether something may be held back, whether something surely is, how many ChangeCipherSpecs were sent -/
structure HsSt where
  upds : List HsUpd := []
  buf : Bool := false
  held : Bool := false
  /-- if it buffers then surely something is held back -/
  full : Bool := false
  ccs : Nat := 0

def HsSt.wrote (s : HsSt) : HsSt := { s with held := s.held || s.buf }
def HsSt.flushed (s : HsSt) : HsSt := { s with held := false, buf := s.buf && !s.full, full := false }
def HsSt.switch (s : HsSt) : HsSt := { s with ccs := s.ccs + 1, full := true }
def HsSt.did (s : HsSt) (u : HsUpd) : HsSt := { s with upds := s.upds ++ [u], buf := s.buf || (match u with | .buffer => true | _ => false), full := s.full && (match u with | .buffer => false | _ => true) }

/-- from `s` on the program reads only when nothing is held back and writes only encodings of messages; if it completes then with a result and a state in `Φ` -/
def Hs.Wp {α : Type} : Hs α → HsSt → (α → HsSt → Prop) → Prop
  | .ret a, s, Φ => Φ a s
  | .fail _ _, _, _ => True
  | .panic, _, _ => True
  | .read k, s, Φ => s.held = false ∧ ∀ m, (k m).Wp s Φ
  | .readSwitch k, s, Φ => s.held = false ∧ ∀ b m, (k b m).Wp s Φ
  | .write b m k, s, Φ => Spec.Encodes m b ∧ k.Wp s.wrote Φ
  | .writeCCS k, s, Φ => k.Wp s.wrote.switch Φ
  | .flush k, s, Φ => k.Wp s.flushed Φ
  | .upd u k, s, Φ => k.Wp (s.did u) Φ

theorem Hs.Wp.bind {α β : Type} {p : Hs α} {f : α → Hs β} {Φ : β → HsSt → Prop} : ∀ {s : HsSt}, p.Wp s (fun a s => (f a).Wp s Φ) → (p >>= f).Wp s Φ := by
  change ∀ {s : HsSt}, _ → (p.bind f).Wp s Φ
  induction p with
  | ret a => intro s h; exact h
  | fail a e => intro s _; trivial
  | panic => intro s _; trivial
  | read k ih => intro s h; exact ⟨h.1, fun m => ih m (h.2 m)⟩
  | readSwitch k ih => intro s h; exact ⟨h.1, fun b m => ih b m (h.2 b m)⟩
  | write b m k ih => intro s h; exact ⟨h.1, ih h.2⟩
  | writeCCS k ih => intro s h; exact ih h
  | flush k ih => intro s h; exact ih h
  | upd u k ih => intro s h; exact ih h

/-- a program that only reads -/
def Hs.Reads {α : Type} : Hs α → Prop
  | .ret _ => True
  | .fail _ _ => True
  | .panic => True
  | .read k => ∀ m, (k m).Reads
  | .readSwitch k => ∀ b m, (k b m).Reads
  | _ => False

/-- a program that only writes messages -/
def Hs.Writes {α : Type} : Hs α → Prop
  | .ret _ => True
  | .fail _ _ => True
  | .panic => True
  | .write b m k => Spec.Encodes m b ∧ k.Writes
  | _ => False

theorem Hs.Reads.bind {α β : Type} {p : Hs α} {f : α → Hs β} (hp : p.Reads) (hf : ∀ a, (f a).Reads) : (p >>= f).Reads := by
  change (p.bind f).Reads
  induction p with
  | ret a => exact hf a
  | fail a e => trivial
  | panic => trivial
  | read k ih => intro m; exact ih m (hp m)
  | readSwitch k ih => intro b m; exact ih b m (hp b m)
  | write b m k ih => exact hp.elim
  | writeCCS k ih => exact hp.elim
  | flush k ih => exact hp.elim
  | upd u k ih => exact hp.elim

theorem Hs.Writes.bind {α β : Type} {p : Hs α} {f : α → Hs β} (hp : p.Writes) (hf : ∀ a, (f a).Writes) : (p >>= f).Writes := by
  change (p.bind f).Writes
  induction p with
  | ret a => exact hf a
  | fail a e => trivial
  | panic => trivial
  | read k ih => exact hp.elim
  | readSwitch k ih => exact hp.elim
  | write b m k ih => exact ⟨hp.1, ih hp.2⟩
  | writeCCS k ih => exact hp.elim
  | flush k ih => exact hp.elim
  | upd u k ih => exact hp.elim

theorem Hs.Reads.wp {α : Type} {p : Hs α} {s : HsSt} {Φ : α → HsSt → Prop} (hp : p.Reads) (hs : s.held = false) (h : ∀ a, Φ a s) : p.Wp s Φ := by
  induction p with
  | ret a => exact h a
  | fail a e => trivial
  | panic => trivial
  | read k ih => exact ⟨hs, fun m => ih m (hp m)⟩
  | readSwitch k ih => exact ⟨hs, fun b m => ih b m (hp b m)⟩
  | write b m k ih => exact hp.elim
  | writeCCS k ih => exact hp.elim
  | flush k ih => exact hp.elim
  | upd u k ih => exact hp.elim

theorem Hs.Writes.wp {α : Type} {p : Hs α} {Φ : α → HsSt → Prop} (hp : p.Writes) : ∀ {s : HsSt}, (∀ a d, Φ a { s with held := d }) → p.Wp s Φ := by
  induction p with
  | ret a => intro s h; exact h a s.held
  | fail a e => intro s _; trivial
  | panic => intro s _; trivial
  | read k ih => exact hp.elim
  | readSwitch k ih => exact hp.elim
  | write b m k ih => intro s h; exact ⟨hp.1, ih hp.2 fun a d => h a d⟩
  | writeCCS k ih => exact hp.elim
  | flush k ih => exact hp.elim
  | upd u k ih => exact hp.elim

/-- the end of a program that only reads or only writes -/
theorem Hs.Reads.then {α β : Type} {p : Hs α} {f : α → Hs β} {s : HsSt} {Φ : β → HsSt → Prop} (hp : p.Reads) (hs : s.held = false) (h : ∀ a, (f a).Wp s Φ) : (p >>= f).Wp s Φ :=
  .bind (hp.wp hs h)
theorem Hs.Writes.then {α β : Type} {p : Hs α} {f : α → Hs β} {s : HsSt} {Φ : β → HsSt → Prop} (hp : p.Writes) (h : ∀ a d, (f a).Wp { s with held := d } Φ) : (p >>= f).Wp s Φ :=
  .bind (hp.wp h)

theorem reads_lift {α : Type} (al : Option Byte) (x : Res α) : (Hs.lift al x).Reads := by cases x <;> trivial
theorem reads_check (al : Byte) (e : String) (b : Bool) : (Hs.check al e b).Reads := by unfold Hs.check; split <;> trivial
theorem writes_lift {α : Type} (al : Option Byte) (x : Res α) : (Hs.lift al x).Writes := by cases x <;> trivial
theorem writes_check (al : Byte) (e : String) (b : Bool) : (Hs.check al e b).Writes := by unfold Hs.check; split <;> trivial
theorem liftReads {α β : Type} {al : Option Byte} {x : Res α} {f : α → Hs β} (h : ∀ a, (f a).Reads) : (Hs.lift al x >>= f).Reads := .bind (reads_lift _ _) h
theorem checkReads {β : Type} {al : Byte} {e : String} {b : Bool} {f : Unit → Hs β} (h : ∀ a, (f a).Reads) : (Hs.check al e b >>= f).Reads := .bind (reads_check _ _ _) h
theorem liftWrites {α β : Type} {al : Option Byte} {x : Res α} {f : α → Hs β} (h : ∀ a, (f a).Writes) : (Hs.lift al x >>= f).Writes := .bind (writes_lift _ _) h
theorem liftWp {α β : Type} {al : Option Byte} {x : Res α} {f : α → Hs β} {s : HsSt} {Φ : β → HsSt → Prop} (h : ∀ a, x = .ok a → (f a).Wp s Φ) :
    (Hs.lift al x >>= f).Wp s Φ := by
  cases x with
  | ok a => exact h a rfl
  | err e => trivial
  | panic => trivial

theorem emitProg_writes (fh : FinishedHash) (m : Message) : (emitProg fh m).Writes := by
  unfold emitProg
  cases hm : m.marshal with
  | ok x =>
    change (Hs.lift none (fh.write x.1) >>= fun fh => .write x.1 x.2 (.ret fh)).Writes
    exact liftWrites fun _ => ⟨⟨x.2, marshal_cached hm⟩, trivial⟩
  | err e => trivial
  | panic => trivial

/-! ### runs -/

/-- reading: nothing about sending changes -/
structure Quiet (c d : Conn) : Prop where
  out : d.out = c.out
  vers : d.vers = c.vers
  wire : d.wire = c.wire
  sendBuf : d.sendBuf = c.sendBuf
  buffering : d.buffering = c.buffering

theorem Quiet.refl (c : Conn) : Quiet c c := ⟨rfl, rfl, rfl, rfl, rfl⟩
theorem Quiet.trans {a b c : Conn} (h : Quiet a b) (k : Quiet b c) : Quiet a c :=
  ⟨k.out.trans h.out, k.vers.trans h.vers, k.wire.trans h.wire, k.sendBuf.trans h.sendBuf, k.buffering.trans h.buffering⟩
theorem Quiet.emitted {c d : Conn} (h : Quiet c d) : d.emitted = c.emitted := by simp only [Conn.emitted, h.wire, h.sendBuf]

theorem Warned_quiet {n : Nat} {c d : Conn} (h : Spec.Warned n c d) : Quiet c d := by
  induction h with
  | zero => exact .refl _
  | succ v body rest desc inp' ho hd hw r ih =>
    refine Quiet.trans ?_ ih
    exact ⟨rfl, rfl, rfl, rfl, rfl⟩

theorem readRecord_quiet {c c' : Conn} {want : Byte} (h : c.readRecord want = .ok (none, c')) : Quiet c c' := by
  obtain ⟨n, d, typ, v, body, rest, data, inp', hn, hW, ho, hl, hD, _, _⟩ := C30_accepted c want c' h
  refine (Warned_quiet hW).trans ?_
  cases hD with
  | app w hw => exact ⟨rfl, rfl, rfl, rfl, rfl⟩
  | handshake w hw => exact ⟨rfl, rfl, rfl, rfl, rfl⟩
  | ccs w hw => exact ⟨rfl, rfl, rfl, rfl, rfl⟩

theorem readSwitch_quiet {c c1 : Conn} {e : Option String} (h : c.readRecord typCCS = .ok (e, c1)) (he : c1.inp.err = none) : Quiet c c1 := by
  have e0 := C30_error_recorded c typCCS e c1 h
  rw [he] at e0
  subst e0
  exact readRecord_quiet h

theorem fillHand_quiet : ∀ (fuel : Nat) {c c' : Conn} {k : Nat}, Conn.fillHand fuel c k = .ok (none, c') → Quiet c c' := by
  intro fuel
  induction fuel with
  | zero =>
    intro c c' k h
    unfold Conn.fillHand at h
    split at h
    · simp only [Res.ok.injEq, Prod.mk.injEq] at h; rw [← h.2]; exact .refl _
    · split at h
      · cases h
      · cases h
  | succ n ih =>
    intro c c' k h
    unfold Conn.fillHand at h
    split at h
    · simp only [Res.ok.injEq, Prod.mk.injEq] at h; rw [← h.2]; exact .refl _
    · split at h
      · cases h
      · dsimp only at h
        split at h
        · cases h
        · rename_i d hr; exact (readRecord_quiet hr).trans (ih h)
        · cases h
        · cases h

theorem readMessage_quiet {gm : Bool} {c c' : Conn} {m : Message} (h : c.readMessage gm = .ok (.ok m, c')) : Quiet c c' := by
  unfold Conn.readMessage at h
  dsimp only at h
  split at h
  · cases h
  · rename_i data d hr
    have hd : Quiet c d := by
      unfold Conn.readHandshake at hr
      split at hr
      · cases hr
      · rename_i d1 hf
        dsimp only at hr
        split at hr
        · split at hr <;> cases hr
        · split at hr
          · cases hr
          · rename_i d2 hf2
            split at hr
            · simp only [Res.ok.injEq, Prod.mk.injEq] at hr
              rw [← hr.2]
              exact ((fillHand_quiet _ hf).trans (fillHand_quiet _ hf2)).trans ⟨rfl, rfl, rfl, rfl, rfl⟩
            · split at hr <;> cases hr
          · cases hr
          · cases hr
      · cases hr
      · cases hr
    split at h
    · simp only [Res.ok.injEq, Prod.mk.injEq] at h; rw [← h.2]; exact hd
    · cases h
  · cases h
  · cases h

/-- what the state says of the connection -/
structure HsRel (s : HsSt) (c : Conn) : Prop where
  buf : c.buffering = true → s.buf = true
  held : s.held = false → c.sendBuf = []
  tidy : c.buffering = false → c.sendBuf = []
  full : s.full = true → c.buffering = true → c.sendBuf ≠ []

theorem HsRel.quiet {s : HsSt} {c d : Conn} (h : HsRel s c) (q : Quiet c d) : HsRel s d :=
  ⟨fun x => h.buf (q.buffering ▸ x), fun x => q.sendBuf.trans (h.held x), fun x => q.sendBuf.trans (h.tidy (q.buffering ▸ x)),
    fun x y => by rw [q.sendBuf]; exact h.full x (q.buffering ▸ y)⟩

theorem maxPayload_quiet (c : Conn) (typ : Byte) (e : Nat) : Quiet c (c.maxPayloadSizeForWrite typ e).2 ∧ (c.maxPayloadSizeForWrite typ e).1 ≤ 16384 := by
  unfold Conn.maxPayloadSizeForWrite
  dsimp only
  repeat' split
  all_goals exact ⟨⟨rfl, rfl, rfl, rfl, rfl⟩, by omega⟩

theorem writeLoop_recs (fuel : Nat) : ∀ {c c' : Conn} {typ : Byte} {data : Bytes} {n n' : Nat}, (c.buffering = false → c.sendBuf = []) →
    Conn.writeLoop fuel c typ data n = .ok (n', none, c') →
    ∃ w, Spec.Recs typ (Spec.hdrVersion c.vers) c.out data w c'.out ∧ c'.emitted = c.emitted ++ w ∧ c'.vers = c.vers ∧ c'.buffering = c.buffering ∧
      (c'.buffering = false → c'.sendBuf = []) ∧ (c.buffering = true → c'.wire = c.wire) := by
  have done : ∀ {c : Conn} {typ : Byte} {data : Bytes}, (c.buffering = false → c.sendBuf = []) → data.length = 0 →
      ∃ w, Spec.Recs typ (Spec.hdrVersion c.vers) c.out data w c.out ∧ c.emitted = c.emitted ++ w ∧ c.vers = c.vers ∧ c.buffering = c.buffering ∧
      (c.buffering = false → c.sendBuf = []) ∧ (c.buffering = true → c.wire = c.wire) := by
    intro c typ data ht h0
    have := List.length_eq_zero_iff.1 h0
    subst this
    exact ⟨[], ⟨[], [], rfl, (by intro x hx; cases hx), rfl, rfl⟩, (List.append_nil _).symm, rfl, rfl, ht, fun _ => rfl⟩
  induction fuel with
  | zero =>
    intro c c' typ data n n' ht h
    unfold Conn.writeLoop at h
    split at h
    · rename_i h0
      simp only [Res.ok.injEq, Prod.mk.injEq] at h; rw [← h.2.2]; exact done ht h0
    · cases h
  | succ fuel ih =>
    intro c c' typ data n n' ht h
    unfold Conn.writeLoop at h
    split at h
    · rename_i h0
      simp only [Res.ok.injEq, Prod.mk.injEq] at h; rw [← h.2.2]; exact done ht h0
    · rename_i hne
      dsimp only at h
      obtain ⟨s, s1⟩ := maxPayload_quiet c typ c.out.writeIVLen
      generalize c.maxPayloadSizeForWrite typ c.out.writeIVLen = mp at h s s1
      obtain ⟨mx, d⟩ := mp
      dsimp only at h s s1
      split at h
      · cases h
      · rename_i hmx
        split at h
        · cases h
        · generalize hd' : (if (c.out.writeIVLen != 0 && !d.out.ivIsSeq) = true then ({ d with rand := d.rand.drop c.out.writeIVLen } : Conn) else d) = d' at h
          have k : Quiet c d' := by
            refine s.trans ?_
            rw [← hd']
            split <;> exact ⟨rfl, rfl, rfl, rfl, rfl⟩
          split at h
          · rename_i b out' hwo
            have ht' : ({ d' with out := out' } : Conn).buffering = false → ({ d' with out := out' } : Conn).sendBuf = [] :=
              fun x => k.sendBuf.trans (ht (k.buffering ▸ x))
            cases hw : ({ d' with out := out' } : Conn).write b with
            | mk e c2 =>
              rw [hw] at h
              cases e with
              | some e => cases h
              | none =>
                dsimp only at h
                obtain ⟨w1, w2, w3, w4, w5, w6, w7⟩ := write_ok _ _ _ ht' hw
                obtain ⟨w, ⟨items, rs, i1, i2, i3, i4⟩, e1, e2, e3, e4, e5⟩ := ih w5 h
                have hv2 : c2.vers = c.vers := w3.trans k.vers
                have hhdr : d'.recHdr typ = [typ, (Spec.hdrVersion c.vers >>> 8).truncate 8, (Spec.hdrVersion c.vers).truncate 8] := by
                  unfold Conn.recHdr Spec.hdrVersion
                  rw [k.vers]
                  rfl
                rw [hhdr, k.out] at hwo
                rw [w2, hv2] at i3
                dsimp only at i3
                refine ⟨b ++ w, ⟨(d.rand.take c.out.writeIVLen, data.take (min data.length mx.toNat)) :: items, b :: rs, ?_, ?_, ?_, ?_⟩, ?_, e2.trans hv2,
                  e3.trans (w6.trans k.buffering), e4, fun x => ?_⟩
                · rw [List.map_cons, List.flatten_cons, i1]; exact List.take_append_drop _ _
                · intro x hx
                  rcases List.mem_cons.1 hx with rfl | hx
                  · simp only [List.length_take]; omega
                  · exact i2 x hx
                · rw [List.map_cons]
                  unfold sendAll
                  rw [hwo]
                  dsimp only
                  rw [i3]
                · rw [i4]; rfl
                · rw [e1, w1, ← List.append_assoc]
                  congr 1
                  show ({ d' with out := out' } : Conn).emitted ++ b = _
                  have : ({ d' with out := out' } : Conn).emitted = c.emitted := by
                    show d'.emitted = _
                    exact k.emitted
                  rw [this]
                · have x' : ({ d' with out := out' } : Conn).buffering = true := k.buffering.trans x
                  have hwire := congrArg (·.2.wire) hw
                  unfold Conn.write at hwire
                  rw [if_pos x'] at hwire
                  exact (e5 (w6.trans x')).trans (hwire.symm.trans k.wire)
          · cases h
          · cases h

/-- what was buffered stays there -/
theorem emitted_grows {c c' : Conn} {w : Bytes} (e : c'.emitted = c.emitted ++ w) (h : c'.wire = c.wire) : c'.sendBuf = c.sendBuf ++ w := by
  unfold Conn.emitted at e
  rw [h, List.append_assoc] at e
  exact List.append_cancel_left e

theorem sendAll_nonempty : ∀ (l : List (Bytes × Bytes × Bytes)) {a b : HalfConn} {rs : List Bytes}, sendAll a l = .ok (rs, b) → l ≠ [] → rs.flatten ≠ [] := by
  intro l a b rs h hl
  cases l with
  | nil => exact absurd rfl hl
  | cons x l =>
    obtain ⟨hdr, iv, data⟩ := x
    unfold sendAll at h
    split at h
    · rename_i r o' hw
      split at h
      · simp only [Res.ok.injEq, Prod.mk.injEq] at h
        rw [← h.1, List.flatten_cons]
        intro h0
        have h0 := (List.append_eq_nil_iff.1 h0).1
        subst h0
        unfold HalfConn.writeOne HalfConn.encrypt at hw
        dsimp only at hw
        split at hw
        · split at hw
          · simp only [Res.ok.injEq, Prod.mk.injEq] at hw
            have hl := congrArg List.length hw.1
            simp only [List.length_append, len16, beFixed_length, List.length_nil] at hl
            omega
          · cases hw
          · cases hw
        · cases hw
        · cases hw
      · cases h
      · cases h
    · cases h
    · cases h

theorem Recs_nonempty {typ : Byte} {v : Version} {a b : HalfConn} {data w : Bytes} (h : Spec.Recs typ v a data w b) (hd : data ≠ []) : w ≠ [] := by
  obtain ⟨items, rs, i1, i2, i3, i4⟩ := h
  rw [i4]
  refine sendAll_nonempty _ i3 ?_
  intro h0
  rw [List.map_eq_nil_iff] at h0
  subst h0
  exact hd i1.symm

/-- one successful `writeRecord` of handshake data -/
theorem writeMsg_recs {s : HsSt} {c c' : Conn} {b : Bytes} {n : Nat} (r : HsRel s c) (h : c.writeRecord typHandshake b = .ok (n, none, c')) :
    ∃ w, Spec.Recs 22 (Spec.hdrVersion c.vers) c.out b w c'.out ∧ c'.emitted = c.emitted ++ w ∧ c'.vers = c.vers ∧ HsRel s.wrote c' := by
  unfold Conn.writeRecord at h
  split at h
  · cases h
  · rename_i k d hl
    rw [if_neg (by decide)] at h
    simp only [Res.ok.injEq, Prod.mk.injEq] at h
    rw [← h.2.2]
    obtain ⟨w, h1, h2, h3, h4, h5, h6⟩ := writeLoop_recs _ r.tidy hl
    refine ⟨w, h1, h2, h3, ⟨fun x => r.buf (h4 ▸ x), fun x => h5 ?_, h5, fun x y => ?_⟩⟩
    simp only [HsSt.wrote, Bool.or_eq_false_iff] at x
    cases hb : d.buffering with
    | false => rfl
    | true => rw [r.buf (h4 ▸ hb)] at x; cases x.2
    · rw [emitted_grows h2 (h6 (h4 ▸ y))]
      exact fun h0 => r.full x (h4 ▸ y) (List.append_eq_nil_iff.1 h0).1
  · cases h
  · cases h

theorem writeCCS_recs {s : HsSt} {c c' : Conn} {n : Nat} (r : HsRel s c) (h : c.writeRecord typCCS [1] = .ok (n, none, c')) :
    ∃ w b, Spec.Recs 20 (Spec.hdrVersion c.vers) c.out [1] w b ∧ b.changeCipherSpec = some c'.out ∧ c'.emitted = c.emitted ++ w ∧ c'.vers = c.vers ∧ HsRel s.wrote.switch c' := by
  unfold Conn.writeRecord at h
  split at h
  · cases h
  · rename_i k d hl
    rw [if_pos rfl] at h
    obtain ⟨w, h1, h2, h3, h4, h5, h6⟩ := writeLoop_recs _ r.tidy hl
    split at h
    · rename_i out' hcc
      simp only [Res.ok.injEq, Prod.mk.injEq] at h
      rw [← h.2.2]
      refine ⟨w, d.out, h1, hcc, h2, h3, ⟨fun x => r.buf (h4 ▸ x), fun x => h5 ?_, h5, fun x y => ?_⟩⟩
      simp only [HsSt.switch, HsSt.wrote, Bool.or_eq_false_iff] at x
      cases hb : d.buffering with
      | false => rfl
      | true => rw [r.buf (h4 ▸ hb)] at x; cases x.2
      · have := emitted_grows h2 (h6 (h4 ▸ y))
        show d.sendBuf ≠ []
        rw [this]
        exact fun h0 => Recs_nonempty h1 (by intro h; cases h) (List.append_eq_nil_iff.1 h0).2
    · split at h
      · rename_i e d' hs
        simp only [Res.ok.injEq, Prod.mk.injEq] at h
        rw [(sendAlert_some (by decide) hs).1] at h
        cases h.2.1
      · cases h
      · cases h
  · cases h
  · cases h

theorem flush_recs {s : HsSt} {c c' : Conn} (h : c.flush = (none, c')) : HsRel s c → c'.out = c.out ∧ c'.emitted = c.emitted ∧ c'.vers = c.vers ∧ HsRel s.flushed c' := by
  intro r
  unfold Conn.flush at h
  split at h
  · rename_i h0
    simp only [Prod.mk.injEq, true_and] at h
    subst h
    refine ⟨rfl, rfl, rfl, ⟨fun x => ?_, fun _ => List.length_eq_zero_iff.1 h0, r.tidy, fun x => by cases x⟩⟩
    show (s.buf && !s.full) = true
    rw [r.buf x]
    cases hf : s.full with
    | false => rfl
    | true => exact absurd (List.length_eq_zero_iff.1 h0) (r.full hf x)
  · cases hw : c.netWrite c.sendBuf with
    | mk e d =>
      rw [hw] at h
      simp only [Prod.mk.injEq] at h
      obtain ⟨rfl, rfl⟩ := h
      unfold Conn.netWrite at hw
      split at hw
      · cases congrArg Prod.fst hw
      · have hw := congrArg Prod.snd hw
        dsimp only at hw
        subst hw
        exact ⟨rfl, by simp [Conn.emitted], rfl, ⟨(fun x => by cases x), fun _ => rfl, fun _ => rfl, fun x => by cases x⟩⟩
      · have hw := congrArg Prod.snd hw
        dsimp only at hw
        subst hw
        exact ⟨rfl, by simp [Conn.emitted], rfl, ⟨(fun x => by cases x), fun _ => rfl, fun _ => rfl, fun x => by cases x⟩⟩

/-- an assignment, as far as sending is concerned -/
inductive UpdOut (P : Prims) : HsUpd → Version → HalfConn → Version → HalfConn → Prop
  | setVers (v w : Version) (a : HalfConn) : UpdOut P (.setVers w) v a w a
  | pinVers (v w : Version) (a : HalfConn) : UpdOut P (.pinVers w) v a w a
  | buffer (v : Version) (a : HalfConn) : UpdOut P .buffer v a v a
  | clientKeys (s : Suite) (ms cr sr : Bytes) (v : Version) (a b : HalfConn) (k : ConnKeys) (hk : clientEstablishKeys P.hashes v s ms cr sr = .ok k)
      (h : keyHalf P v s k.out false a = .ok b) : UpdOut P (.clientKeys s ms cr sr) v a v b
  | serverKeys (s : Suite) (ms cr sr : Bytes) (v : Version) (a b : HalfConn) (k : ConnKeys) (hk : serverEstablishKeys P.hashes v s ms cr sr = .ok k)
      (h : keyHalf P v s k.out false a = .ok b) : UpdOut P (.serverKeys s ms cr sr) v a v b

theorem upd_recs {P : Prims} {s : HsSt} {u : HsUpd} {c c' : Conn} (h : u.apply P c = .ok c') (r : HsRel s c) :
    UpdOut P u c.vers c.out c'.vers c'.out ∧ c'.emitted = c.emitted ∧ HsRel (s.did u) c' := by
  cases u with
  | setVers v => have := Res.ok.inj h; subst this; exact ⟨.setVers _ _ _, rfl, ⟨(fun x => by simp only [HsSt.did, Bool.or_false]; exact r.buf x), r.held, r.tidy, fun x => r.full (by simpa [HsSt.did] using x)⟩⟩
  | pinVers v => have := Res.ok.inj h; subst this; exact ⟨.pinVers _ _ _, rfl, ⟨(fun x => by simp only [HsSt.did, Bool.or_false]; exact r.buf x), r.held, r.tidy, fun x => r.full (by simpa [HsSt.did] using x)⟩⟩
  | buffer => have := Res.ok.inj h; subst this; exact ⟨.buffer _ _, rfl, ⟨(fun x => by simp only [HsSt.did, Bool.or_true]), r.held, (fun x => by cases x), fun x => by simp [HsSt.did] at x⟩⟩
  | clientKeys su ms cr sr =>
    simp only [HsUpd.apply, Conn.clientEstablish] at h
    split at h
    · rename_i k hk
      split at h
      · rename_i i o hi ho
        have := Res.ok.inj h; subst this
        exact ⟨.clientKeys _ _ _ _ _ _ _ k hk ho, rfl, ⟨(fun x => by simp only [HsSt.did, Bool.or_false]; exact r.buf x), r.held, r.tidy, fun x => r.full (by simpa [HsSt.did] using x)⟩⟩
      · cases h
    · cases h
  | serverKeys su ms cr sr =>
    simp only [HsUpd.apply, Conn.serverEstablish] at h
    split at h
    · rename_i k hk
      split at h
      · rename_i i o hi ho
        have := Res.ok.inj h; subst this
        exact ⟨.serverKeys _ _ _ _ _ _ _ k hk ho, rfl, ⟨(fun x => by simp only [HsSt.did, Bool.or_false]; exact r.buf x), r.held, r.tidy, fun x => r.full (by simpa [HsSt.did] using x)⟩⟩
      · cases h
    · cases h

/-- what is sent by a run that makes the assignments `us` and sends `items` -/
inductive Wired (P : Prims) : Version → HalfConn → List HsUpd → List Item → Bytes → Version → HalfConn → Prop
  | nil (v : Version) (a : HalfConn) : Wired P v a [] [] [] v a
  | msg {v v' : Version} {a b d : HalfConn} {us : List HsUpd} {l : List Item} {w w' : Bytes} (m : Message) (x : Bytes) (e : Spec.Encodes m x)
      (h : Spec.Recs 22 (Spec.hdrVersion v) a x w b) (r : Wired P v b us l w' v' d) : Wired P v a us (.msg m :: l) (w ++ w') v' d
  | ccs {v v' : Version} {a b b' d : HalfConn} {us : List HsUpd} {l : List Item} {w w' : Bytes} (h : Spec.Recs 20 (Spec.hdrVersion v) a [1] w b)
      (hc : b.changeCipherSpec = some b') (r : Wired P v b' us l w' v' d) : Wired P v a us (.ccs :: l) (w ++ w') v' d
  | upd {v v1 v' : Version} {a b d : HalfConn} {us : List HsUpd} {l : List Item} {w : Bytes} (u : HsUpd) (h : UpdOut P u v a v1 b)
      (r : Wired P v1 b us l w v' d) : Wired P v a (u :: us) l w v' d

/-- **the calculus is sound** -/
theorem run_wp {α : Type} (P : Prims) (gm : Bool) (p : Hs α) : ∀ (s : HsSt) (Φ : α → HsSt → Prop) (c : Conn) (o : HsOut α) (a : α), p.Wp s Φ → HsRel s c →
    p.run P gm c = .ok o → o.result = .done a →
    ∃ s' us w, Φ a s' ∧ HsRel s' o.conn ∧ s'.upds = s.upds ++ us ∧ s'.ccs = s.ccs + o.sent.count .ccs ∧ Wired P c.vers c.out us o.sent w o.conn.vers o.conn.out ∧
      o.conn.emitted = c.emitted ++ w := by
  induction p with
  | ret a =>
    intro s Φ c o a' hp r h hd
    have := Res.ok.inj h; subst this
    cases hd
    exact ⟨s, [], [], hp, r, (List.append_nil _).symm, by simp, .nil _ _, (List.append_nil _).symm⟩
  | fail al e0 =>
    intro s Φ c o a hp r h hd
    cases al with
    | none => have := Res.ok.inj h; subst this; cases hd
    | some al =>
      simp only [Hs.run] at h
      split at h
      · have := Res.ok.inj h; subst this; cases hd
      · cases h
      · cases h
  | panic => intro s Φ c o a hp r h; cases h
  | read k ih =>
    intro s Φ c o a hp r h hd
    simp only [Hs.run] at h
    split at h
    · have := Res.ok.inj h; subst this; cases hd
    · rename_i m c1 hr
      obtain ⟨o', h1, rfl⟩ := saw_inv h
      have q := readMessage_quiet hr
      obtain ⟨s', us, w, g1, g2, g3, g4, g5, g6⟩ := ih m s Φ c1 o' a (hp.2 m) (r.quiet q) h1 hd
      rw [q.out, q.vers] at g5
      rw [q.emitted] at g6
      exact ⟨s', us, w, g1, g2, g3, g4, g5, g6⟩
    · cases h
    · cases h
  | readSwitch k ih =>
    intro s Φ c o a hp r h hd
    simp only [Hs.run] at h
    split at h
    · rename_i e0 c1 hr
      split at h
      · have := Res.ok.inj h; subst this; cases hd
      · rename_i he
        split at h
        · have := Res.ok.inj h; subst this; cases hd
        · rename_i m c2 hm
          obtain ⟨o', h1, rfl⟩ := saw_inv h
          have q := (readSwitch_quiet hr he).trans (readMessage_quiet hm)
          obtain ⟨s', us, w, g1, g2, g3, g4, g5, g6⟩ := ih _ m s Φ c2 o' a (hp.2 _ m) (r.quiet q) h1 hd
          rw [q.out, q.vers] at g5
          rw [q.emitted] at g6
          exact ⟨s', us, w, g1, g2, g3, g4, g5, g6⟩
        · cases h
        · cases h
    · cases h
    · cases h
  | write b m k ih =>
    intro s Φ c o a hp r h hd
    simp only [Hs.run] at h
    split at h
    · have := Res.ok.inj h; subst this; cases hd
    · rename_i n c1 hw
      obtain ⟨o', h1, rfl⟩ := put_inv h
      obtain ⟨w1, q1, q2, q3, q4⟩ := writeMsg_recs r hw
      obtain ⟨s', us, w, g1, g2, g3, g4, g5, g6⟩ := ih s.wrote Φ c1 o' a hp.2 q4 h1 hd
      rw [q3] at g5
      refine ⟨s', us, w1 ++ w, g1, g2, g3, ?_, .msg m b hp.1 q1 g5, by rw [g6, q2, List.append_assoc]⟩
      rw [g4]; simp [HsSt.wrote]
    · cases h
    · cases h
  | writeCCS k ih =>
    intro s Φ c o a hp r h hd
    simp only [Hs.run] at h
    split at h
    · have := Res.ok.inj h; subst this; cases hd
    · rename_i n c1 hw
      obtain ⟨o', h1, rfl⟩ := put_inv h
      obtain ⟨w1, d, q1, q2, q3, q4, q5⟩ := writeCCS_recs r hw
      obtain ⟨s', us, w, g1, g2, g3, g4, g5, g6⟩ := ih s.wrote.switch Φ c1 o' a hp q5 h1 hd
      rw [q4] at g5
      refine ⟨s', us, w1 ++ w, g1, g2, g3, ?_, .ccs q1 q2 g5, by rw [g6, q3, List.append_assoc]⟩
      rw [g4]; simp [HsSt.wrote, HsSt.switch]; omega
    · cases h
    · cases h
  | flush k ih =>
    intro s Φ c o a hp r h hd
    simp only [Hs.run] at h
    split at h
    · have := Res.ok.inj h; subst this; cases hd
    · rename_i c1 hf
      obtain ⟨q1, q2, q3, q4⟩ := flush_recs hf r
      obtain ⟨s', us, w, g1, g2, g3, g4, g5, g6⟩ := ih s.flushed Φ c1 o a hp q4 h hd
      rw [q1, q3] at g5
      exact ⟨s', us, w, g1, g2, g3, g4, g5, by rw [g6, q2]⟩
  | upd u k ih =>
    intro s Φ c o a hp r h hd
    simp only [Hs.run] at h
    split at h
    · rename_i c1 hu
      obtain ⟨q1, q2, q3⟩ := upd_recs hu r
      obtain ⟨s', us, w, g1, g2, g3, g4, g5, g6⟩ := ih (s.did u) Φ c1 o a hp q3 h hd
      refine ⟨s', u :: us, w, g1, g2, ?_, g4, .upd u q1 g5, by rw [g6, q2]⟩
      rw [g3]; simp [HsSt.did]
    · cases h
    · cases h

end Verif.Tls
