import Verif.Tls.HsAlerts
/-!
C136: the keys and the version in use after a client handshake.
-/
namespace Verif.Tls
open Verif Verif.Tls.Wire

/-! ### what reading and writing do to the two halves -/

namespace Spec
/-- records were written with `a`, leaving `b` -/
inductive Wrote : HalfConn → HalfConn → Prop
  | refl (a : HalfConn) : Wrote a a
  | step {a b d : HalfConn} (hdr iv data rec : Bytes) (h : Wrote a b) (w : b.writeOne hdr iv data = .ok (rec, d)) : Wrote a d

/-- records were opened with `a`, leaving `b` -/
inductive Opened : HalfConn → HalfConn → Prop
  | refl (a : HalfConn) : Opened a a
  | step {a b d : HalfConn} (rec data : Bytes) (h : Opened a b) (w : b.decrypt rec = .ok (some data, d)) : Opened a d
end Spec

theorem Wrote_trans {a b c : HalfConn} (h : Spec.Wrote a b) (k : Spec.Wrote b c) : Spec.Wrote a c := by
  induction k with
  | refl => exact h
  | step hdr iv data rec _ w ih => exact .step hdr iv data rec ih w

theorem Opened_trans {a b c : HalfConn} (h : Spec.Opened a b) (k : Spec.Opened b c) : Spec.Opened a c := by
  induction k with
  | refl => exact h
  | step rec data _ w ih => exact .step rec data ih w

theorem Opened_next {a b : HalfConn} (h : Spec.Opened a b) : b.nextCipher = a.nextCipher ∧ b.nextMac = a.nextMac ∧ b.version = a.version := by
  induction h with
  | refl => exact ⟨rfl, rfl, rfl⟩
  | step rec data _ w ih =>
    obtain ⟨k1, k2, _, k4, _⟩ := decrypt_nextCipher _ _ _ _ w
    exact ⟨k1.trans ih.1, k2.trans ih.2.1, k4.trans ih.2.2⟩

theorem incSeq_keeps {hc hc' : HalfConn} (h : hc.incSeq = .ok hc') : hc'.nextCipher = hc.nextCipher ∧ hc'.nextMac = hc.nextMac ∧ hc'.version = hc.version ∧
    hc'.cipher = hc.cipher ∧ hc'.err = hc.err := by
  unfold HalfConn.incSeq at h
  split at h
  · cases h
  · rw [← Res.ok.inj h]; exact ⟨rfl, rfl, rfl, rfl, rfl⟩

theorem sealPayload_some {hc : HalfConn} {b r : Bytes} {e : Nat} {c : Option Cipher} (h : hc.sealPayload b e = .ok (r, c)) : c.isSome = hc.cipher.isSome := by
  unfold HalfConn.sealPayload at h
  split at h
  · rename_i hn; simp only [Res.ok.injEq, Prod.mk.injEq] at h; rw [← h.2, hn]
  · rename_i hn; simp only [Res.ok.injEq, Prod.mk.injEq] at h; rw [← h.2, hn]; rfl
  · rename_i hn; simp only [Res.ok.injEq, Prod.mk.injEq] at h; rw [← h.2, hn]; rfl
  · rename_i hn
    dsimp only at h
    split at h
    · split at h
      · simp only [Res.ok.injEq, Prod.mk.injEq] at h; rw [← h.2, hn]; rfl
      · cases h
      · cases h
    · cases h
    · cases h

theorem writeOne_keeps {hc hc' : HalfConn} {hdr iv data r : Bytes} (h : hc.writeOne hdr iv data = .ok (r, hc')) :
    hc'.nextCipher = hc.nextCipher ∧ hc'.nextMac = hc.nextMac ∧ hc'.version = hc.version ∧ hc'.cipher.isSome = hc.cipher.isSome ∧ hc'.err = hc.err := by
  unfold HalfConn.writeOne HalfConn.encrypt at h
  dsimp only at h
  split at h
  · rename_i r' ci hs
    split at h
    · rename_i hc2 hi
      simp only [Res.ok.injEq, Prod.mk.injEq] at h
      obtain ⟨k1, k2, k3, k4, k5⟩ := incSeq_keeps hi
      rw [← h.2]
      exact ⟨k1, k2, k3, by rw [k4]; exact sealPayload_some hs, k5⟩
    · cases h
    · cases h
  · cases h
  · cases h

theorem Wrote_keeps {a b : HalfConn} (h : Spec.Wrote a b) :
    b.nextCipher = a.nextCipher ∧ b.nextMac = a.nextMac ∧ b.version = a.version ∧ b.cipher.isSome = a.cipher.isSome ∧ b.err = a.err := by
  induction h with
  | refl => exact ⟨rfl, rfl, rfl, rfl, rfl⟩
  | step hdr iv data rec _ w ih =>
    obtain ⟨k1, k2, k3, k4, k5⟩ := writeOne_keeps w
    exact ⟨k1.trans ih.1, k2.trans ih.2.1, k3.trans ih.2.2.1, k4.trans ih.2.2.2.1, k5.trans ih.2.2.2.2⟩

/-- reading and writing without a change of keys -/
structure Keep (c d : Conn) : Prop where
  out : Spec.Wrote c.out d.out
  inp : Spec.Opened c.inp d.inp
  vers : d.vers = c.vers
  haveVers : d.haveVers = c.haveVers
  isClient : d.isClient = c.isClient
  policy : d.policy = c.policy

theorem Keep.refl (c : Conn) : Keep c c := ⟨.refl _, .refl _, rfl, rfl, rfl, rfl⟩
theorem Keep.trans {a b c : Conn} (h : Keep a b) (k : Keep b c) : Keep a c :=
  ⟨Wrote_trans h.out k.out, Opened_trans h.inp k.inp, k.vers.trans h.vers, k.haveVers.trans h.haveVers, k.isClient.trans h.isClient, k.policy.trans h.policy⟩

theorem Warned_keep {n : Nat} {c d : Conn} (h : Spec.Warned n c d) : Keep c d := by
  induction h with
  | zero => exact .refl _
  | @succ k c d v body rest desc inp' ho hd hw r ih =>
    refine Keep.trans ?_ ih
    exact ⟨.refl _, .step _ _ (.refl _) ho.opened, rfl, rfl, rfl, rfl⟩

theorem Warned_out {n : Nat} {c d : Conn} (h : Spec.Warned n c d) : d.out = c.out := by
  induction h with
  | zero => rfl
  | succ v body rest desc inp' ho hd hw r ih => exact ih

/-- a handshake record read -/
theorem readRecord_keep {c c' : Conn} (h : c.readRecord typHandshake = .ok (none, c')) : Keep c c' := by
  obtain ⟨n, d, typ, v, body, rest, data, inp', hn, hW, ho, hl, hD, _, _⟩ := C30_accepted c typHandshake c' h
  refine (Warned_keep hW).trans ?_
  have hi : Spec.Opened d.inp inp' := .step _ _ (.refl _) ho.opened
  cases hD with
  | app w hw => exact absurd hw (by decide)
  | handshake w hw => exact ⟨.refl _, hi, rfl, rfl, rfl, rfl⟩
  | ccs w hw => exact absurd hw (by decide)

theorem fillHand_keep : ∀ (fuel : Nat) {c c' : Conn} {k : Nat}, Conn.fillHand fuel c k = .ok (none, c') → Keep c c' := by
  intro fuel
  induction fuel with
  | zero =>
    intro c c' k h
    unfold Conn.fillHand at h
    split at h
    · simp only [Res.ok.injEq, Prod.mk.injEq] at h; rw [← h.2]; exact .refl _
    · split at h
      · cases h
      · cases h
  | succ n ih =>
    intro c c' k h
    unfold Conn.fillHand at h
    split at h
    · simp only [Res.ok.injEq, Prod.mk.injEq] at h; rw [← h.2]; exact .refl _
    · split at h
      · cases h
      · dsimp only at h
        split at h
        · cases h
        · rename_i d hr; exact (readRecord_keep hr).trans (ih h)
        · cases h
        · cases h

theorem readMessage_keep {gm : Bool} {c c' : Conn} {m : Message} (h : c.readMessage gm = .ok (.ok m, c')) : Keep c c' := by
  unfold Conn.readMessage at h
  dsimp only at h
  split at h
  · cases h
  · rename_i data d hr
    have hd : Keep c d := by
      unfold Conn.readHandshake at hr
      split at hr
      · cases hr
      · rename_i d1 hf
        dsimp only at hr
        split at hr
        · split at hr <;> cases hr
        · split at hr
          · cases hr
          · rename_i d2 hf2
            split at hr
            · simp only [Res.ok.injEq, Prod.mk.injEq] at hr
              rw [← hr.2]
              exact ((fillHand_keep _ hf).trans (fillHand_keep _ hf2)).trans ⟨.refl _, .refl _, rfl, rfl, rfl, rfl⟩
            · split at hr <;> cases hr
          · cases hr
          · cases hr
      · cases hr
      · cases hr
    split at h
    · simp only [Res.ok.injEq, Prod.mk.injEq] at h; rw [← h.2]; exact hd
    · cases h
  · cases h
  · cases h

theorem write_keep (c : Conn) (b : Bytes) : (c.write b).2.out = c.out ∧ (c.write b).2.inp = c.inp ∧ (c.write b).2.vers = c.vers ∧ (c.write b).2.haveVers = c.haveVers ∧
    (c.write b).2.isClient = c.isClient ∧ (c.write b).2.policy = c.policy := by
  unfold Conn.write Conn.netWrite
  split
  · exact ⟨rfl, rfl, rfl, rfl, rfl, rfl⟩
  · split <;> exact ⟨rfl, rfl, rfl, rfl, rfl, rfl⟩

theorem maxPayload_keep (c : Conn) (typ : Byte) (e : Nat) : Keep c (c.maxPayloadSizeForWrite typ e).2 ∧ (c.maxPayloadSizeForWrite typ e).2.out = c.out := by
  unfold Conn.maxPayloadSizeForWrite
  dsimp only
  repeat' split
  all_goals exact ⟨⟨.refl _, .refl _, rfl, rfl, rfl, rfl⟩, rfl⟩

theorem writeLoop_keep (fuel : Nat) : ∀ {c c' : Conn} {typ : Byte} {data : Bytes} {n n' : Nat}, Conn.writeLoop fuel c typ data n = .ok (n', none, c') → Keep c c' := by
  induction fuel with
  | zero =>
    intro c c' typ data n n' h
    unfold Conn.writeLoop at h
    split at h
    · simp only [Res.ok.injEq, Prod.mk.injEq] at h; rw [← h.2.2]; exact .refl _
    · cases h
  | succ fuel ih =>
    intro c c' typ data n n' h
    unfold Conn.writeLoop at h
    split at h
    · simp only [Res.ok.injEq, Prod.mk.injEq] at h; rw [← h.2.2]; exact .refl _
    · dsimp only at h
      obtain ⟨s, s1⟩ := maxPayload_keep c typ c.out.writeIVLen
      generalize c.maxPayloadSizeForWrite typ c.out.writeIVLen = mp at h s s1
      obtain ⟨mx, d⟩ := mp
      dsimp only at h s s1
      split at h
      · cases h
      · split at h
        · cases h
        · generalize hd' : (if (c.out.writeIVLen != 0 && !d.out.ivIsSeq) = true then ({ d with rand := d.rand.drop c.out.writeIVLen } : Conn) else d) = d' at h
          have k : Keep d d' := by
            rw [← hd']
            split <;> exact ⟨.refl _, .refl _, rfl, rfl, rfl, rfl⟩
          split at h
          · rename_i b out' hwo
            obtain ⟨w1, w2, w3, w4, w5, w6⟩ := write_keep { d' with out := out' } b
            generalize ({ d' with out := out' } : Conn).write b = r at h w1 w2 w3 w4 w5 w6
            obtain ⟨e, c2⟩ := r
            cases e with
            | some e => cases h
            | none =>
              dsimp only at h w1 w2 w3 w4 w5 w6
              refine ((s.trans k).trans ?_).trans (ih h)
              exact ⟨by rw [w1]; exact .step _ _ _ _ (.refl _) hwo, by rw [w2]; exact .refl _, w3, w4, w5, w6⟩
          · cases h
          · cases h

theorem writeRecord_keep {c c' : Conn} {typ : Byte} {b : Bytes} {n : Nat} (ht : typ ≠ typCCS) (h : c.writeRecord typ b = .ok (n, none, c')) : Keep c c' := by
  unfold Conn.writeRecord at h
  split at h
  · cases h
  · rename_i d hl
    rw [if_neg ht] at h
    simp only [Res.ok.injEq, Prod.mk.injEq] at h
    rw [← h.2.2]; exact writeLoop_keep _ hl
  · cases h
  · cases h

/-- a ChangeCipherSpec written: the prepared keys are in use -/
theorem writeCCS_keep {c c' : Conn} {b : Bytes} {n : Nat} (h : c.writeRecord typCCS b = .ok (n, none, c')) :
    ∃ (d : Conn) (ci : Cipher), Keep c d ∧ c.out.nextCipher = some ci ∧
      c' = { d with out := { d.out with cipher := some ci, mac := c.out.nextMac, nextCipher := none, nextMac := none, seq := List.replicate 8 0 } } := by
  unfold Conn.writeRecord at h
  split at h
  · cases h
  · rename_i n d hl
    rw [if_pos rfl] at h
    have k := writeLoop_keep _ hl
    obtain ⟨k1, k2, _⟩ := Wrote_keeps k.out
    split at h
    · rename_i out' hcc
      simp only [Res.ok.injEq, Prod.mk.injEq] at h
      unfold HalfConn.changeCipherSpec at hcc
      split at hcc
      · cases hcc
      · rename_i ci hci
        refine ⟨d, ci, k, by rw [← k1]; exact hci, ?_⟩
        rw [← h.2.2, ← Option.some.inj hcc, k2]
    · split at h
      · rename_i e d' hs
        simp only [Res.ok.injEq, Prod.mk.injEq] at h
        rw [(sendAlert_some (by decide) hs).1] at h
        cases h.2.1
      · cases h
      · cases h
  · cases h
  · cases h

theorem flush_keep (c : Conn) : Keep c c.flush.2 ∧ c.flush.2.out = c.out ∧ c.flush.2.inp = c.inp := by
  unfold Conn.flush
  split
  · exact ⟨.refl _, rfl, rfl⟩
  · have h : Keep c (c.netWrite c.sendBuf).2 ∧ (c.netWrite c.sendBuf).2.out = c.out ∧ (c.netWrite c.sendBuf).2.inp = c.inp := by
      unfold Conn.netWrite
      split <;> exact ⟨⟨.refl _, .refl _, rfl, rfl, rfl, rfl⟩, rfl, rfl⟩
    exact ⟨h.1.trans ⟨.refl _, .refl _, rfl, rfl, rfl, rfl⟩, h.2⟩

/-- reading for a ChangeCipherSpec: the prepared keys are in use, or (if renegotiation is allowed) a handshake record was read under the old ones -/
theorem readSwitch_keep {c c1 : Conn} {e : Option String} (h : c.readRecord typCCS = .ok (e, c1)) (he : c1.inp.err = none) :
    ((c.inp.nextCipher.isSome && c1.inp.nextCipher.isNone) = true ∧ ∃ (d : HalfConn) (ci : Cipher), Spec.Opened c.inp d ∧ c.inp.nextCipher = some ci ∧ Keep { c with inp := c1.inp } c1 ∧
        c1.out = c.out ∧ c1.inp = { d with cipher := some ci, mac := c.inp.nextMac, nextCipher := none, nextMac := none, seq := List.replicate 8 0 }) ∨
    ((c.inp.nextCipher.isSome && c1.inp.nextCipher.isNone) = false ∧ c.ren = true ∧ Keep c c1 ∧ c1.out = c.out) := by
  have e0 := C30_error_recorded c typCCS e c1 h
  rw [he] at e0
  subst e0
  obtain ⟨n, d, typ, v, body, rest, data, inp', hn, hW, ho, hl, hD, _, _⟩ := C30_accepted c typCCS c1 h
  have kw := Warned_keep hW
  have hi : Spec.Opened d.inp inp' := .step _ _ (.refl _) ho.opened
  obtain ⟨k1, k2, k3⟩ := Warned_keeps hW
  have hout := Warned_out hW
  cases hD with
  | app w hw => exact absurd hw (by decide)
  | handshake w hw =>
    have k : Keep c { d with stream := rest, inp := inp', warnCount := w, hand := d.hand ++ data } := kw.trans ⟨.refl _, hi, rfl, rfl, rfl, rfl⟩
    right
    refine ⟨?_, ?_, k, hout⟩
    · have := (Opened_next k.inp).1
      dsimp only at this
      dsimp only
      rw [this]
      cases c.inp.nextCipher <;> rfl
    · rcases hw with hw | hw
      · exact absurd hw (by decide)
      · simp only [Conn.ren, Conn.renegotiation, ← k2, ← k3]
        simpa [Conn.renegotiation] using hw
  | ccs w hw hd hh inp'' hk =>
    left
    unfold HalfConn.changeCipherSpec at hk
    split at hk
    · cases hk
    · rename_i ci hci
      have := Option.some.inj hk
      subst this
      have ko := Opened_trans kw.inp hi
      obtain ⟨j1, j2, j3⟩ := Opened_next ko
      rw [j1] at hci
      refine ⟨by rw [hci]; rfl, inp', ci, ko, hci, ?_, hout, by rw [j2]⟩
      exact ⟨by dsimp only; rw [hout]; exact .refl _, .refl _, kw.vers, kw.haveVers, kw.isClient, kw.policy⟩

theorem asDone_none {r : Res (Option String × Conn)} {c' : Conn} (h : asDone r = .ok (.done none, c')) : r = .ok (none, c') := by
  unfold asDone at h
  split at h
  · simp only [Res.ok.injEq, Prod.mk.injEq, Step.done.injEq] at h; rw [h.1, h.2]
  · cases h
  · cases h

theorem asDone_again {r : Res (Option String × Conn)} {c' : Conn} (h : asDone r = .ok (.again, c')) : False := by
  unfold asDone at h
  split at h
  · simp only [Res.ok.injEq, Prod.mk.injEq] at h; cases h.1
  · cases h
  · cases h

/-- while the version is not pinned, only the type asked for is accepted: no handshake record in place of another -/
theorem readLoop_unpinned (k : Nat) : ∀ {c c' : Conn} {want : Byte}, c.haveVers = false → Conn.readLoop k c want = .ok (none, c') →
    ∃ d data inp' rest, Spec.Delivered d want data inp' rest want c' ∧ d.hand = c.hand := by
  have fa : ∀ {c c' : Conn} {a : Byte}, a ≠ 0 → asDone (c.failAlert a) = .ok (.done none, c') → False := fun ha h => by
    obtain ⟨x, hx, _⟩ := failAlert_res ha (asDone_none h)
    cases hx
  have fm : ∀ {c c' : Conn} {a : Byte} {s : String}, asDone (c.failMsg a s) = .ok (.done none, c') → False := fun h => by cases (failMsg_res (asDone_none h)).1
  induction k with
  | zero => intro c c' want hv h; cases h
  | succ k ih =>
    intro c c' want hv h
    unfold Conn.readLoop at h
    have once : ∀ {st : Step} {d : Conn}, c.readOnce want = .ok (st, d) → (st = .done none → ∃ d' data inp' rest, Spec.Delivered d' want data inp' rest want d ∧ d'.hand = c.hand) ∧
        (st = .again → d.haveVers = false ∧ d.hand = c.hand) := by
      intro st d ho
      unfold Conn.readOnce at ho
      dsimp only at ho
      split at ho
      · simp only [Res.ok.injEq, Prod.mk.injEq] at ho; rw [← ho.1]; exact ⟨(by intro h; cases h), (by intro h; cases h)⟩
      · split at ho
        · exact ⟨fun e => (fm (e ▸ ho)).elim, fun e => (asDone_again (e ▸ ho)).elim⟩
        · split at ho
          · rename_i hx; rw [hv] at hx; exact absurd hx.1 (by decide)
          · split at ho
            · exact ⟨fun e => (fm (e ▸ ho)).elim, fun e => (asDone_again (e ▸ ho)).elim⟩
            · split at ho
              · exact ⟨fun e => (fm (e ▸ ho)).elim, fun e => (asDone_again (e ▸ ho)).elim⟩
              · rename_i hfirst
                have ht : c.stream.getD 0 0 = typAlert ∨ c.stream.getD 0 0 = want := by
                  by_contra hn
                  push Not at hn
                  exact hfirst ⟨hv, .inl hn⟩
                split at ho
                · simp only [Res.ok.injEq, Prod.mk.injEq] at ho; rw [← ho.1]; exact ⟨(by intro h; cases h), (by intro h; cases h)⟩
                · split at ho
                  · exact ⟨fun e => (fa (by decide) (e ▸ ho)).elim, fun e => (asDone_again (e ▸ ho)).elim⟩
                  · rename_i data inp' hdec
                    have hp := fun hs => processRecord_inv _ _ _ _ _ _ ho hs
                    constructor
                    · intro e
                      subst e
                      rcases hp (by intro e h; cases h) with ⟨h1, _⟩ | ⟨_, _, _, hD⟩
                      · cases h1
                      · rcases ht with ht | ht
                        · rw [ht] at hD; cases hD
                        · rw [ht] at hD; exact ⟨_, data, _, _, hD, rfl⟩
                    · intro e
                      subst e
                      rcases hp (by intro e h; cases h) with ⟨_, _, desc, _, _, _, rfl⟩ | ⟨h1, _⟩
                      · exact ⟨hv, rfl⟩
                      · cases h1
                  · cases ho
                  · cases ho
    split at h
    · rename_i e d ho
      simp only [Res.ok.injEq, Prod.mk.injEq] at h
      rw [← h.2]
      exact (once ho).1 (by rw [h.1])
    · rename_i d ho
      obtain ⟨o1, o2⟩ := (once ho).2 rfl
      rw [← o2]
      exact ih o1 h
    · cases h
    · cases h

/-- so the second case of `readSwitch_keep` needs a pinned version -/
theorem readSwitch_unpinned {c c1 : Conn} {e : Option String} (hv : c.haveVers = false) (hn : c.inp.nextCipher.isSome = true) (h : c.readRecord typCCS = .ok (e, c1))
    (he : c1.inp.err = none) : (c.inp.nextCipher.isSome && c1.inp.nextCipher.isNone) = true := by
  have e0 := C30_error_recorded c typCCS e c1 h
  rw [he] at e0
  subst e0
  unfold Conn.readRecord at h
  rw [if_pos (.inr rfl)] at h
  split at h
  · cases (failMsg_res h).1
  · obtain ⟨d, data, inp', rest, hD, _⟩ := readLoop_unpinned 6 hv h
    cases hD with
    | ccs w hw hd hh inp'' hk =>
      unfold HalfConn.changeCipherSpec at hk
      split at hk
      · cases hk
      · rw [hn, ← Option.some.inj hk]; rfl

/-! ### programs that change no keys -/

/-- no change of keys or version in the program -/
def Hs.Plain {α : Type} : Hs α → Prop
  | .ret _ => True
  | .fail _ _ => True
  | .panic => True
  | .read k => ∀ m, (k m).Plain
  | .readSwitch _ => False
  | .write _ _ k => k.Plain
  | .writeCCS _ => False
  | .flush k => k.Plain
  | .upd u k => u = .buffer ∧ k.Plain

theorem Hs.Plain.bind {α β : Type} {p : Hs α} {f : α → Hs β} (hp : p.Plain) (hf : ∀ a, (f a).Plain) : (p >>= f).Plain := by
  change (p.bind f).Plain
  induction p with
  | ret a => exact hf a
  | fail a e => trivial
  | panic => trivial
  | read k ih => intro m; exact ih m (hp m)
  | readSwitch k ih => exact hp.elim
  | write b m k ih => exact ih hp
  | writeCCS k ih => exact hp.elim
  | flush k ih => exact ih hp
  | upd u k ih => exact ⟨hp.1, ih hp.2⟩

theorem run_plain {α : Type} (P : Prims) (gm : Bool) (p : Hs α) : p.Plain → ∀ (c : Conn) (o : HsOut α) (a : α), p.run P gm c = .ok o → o.result = .done a → Keep c o.conn := by
  induction p with
  | ret a => intro _ c o a' h hd; have := Res.ok.inj h; subst this; exact .refl _
  | fail al e0 =>
    intro _ c o a h hd
    cases al with
    | none => have := Res.ok.inj h; subst this; cases hd
    | some al =>
      simp only [Hs.run] at h
      split at h
      · have := Res.ok.inj h; subst this; cases hd
      · cases h
      · cases h
  | panic => intro _ c o a h; cases h
  | read k ih =>
    intro hp c o a h hd
    simp only [Hs.run] at h
    split at h
    · have := Res.ok.inj h; subst this; cases hd
    · rename_i m c1 hr
      obtain ⟨o', h1, rfl⟩ := saw_inv h
      exact (readMessage_keep hr).trans (ih m (hp m) c1 o' a h1 hd)
    · cases h
    · cases h
  | readSwitch k ih => intro hp; exact hp.elim
  | write b m k ih =>
    intro hp c o a h hd
    simp only [Hs.run] at h
    split at h
    · have := Res.ok.inj h; subst this; cases hd
    · rename_i d hw
      obtain ⟨o', h1, rfl⟩ := put_inv h
      exact (writeRecord_keep (by decide) hw).trans (ih hp _ o' a h1 hd)
    · cases h
    · cases h
  | writeCCS k ih => intro hp; exact hp.elim
  | flush k ih =>
    intro hp c o a h hd
    simp only [Hs.run] at h
    split at h
    · have := Res.ok.inj h; subst this; cases hd
    · rename_i c1 hf
      have := (flush_keep c).1
      rw [hf] at this
      exact this.trans (ih hp c1 o a h hd)
  | upd u k ih =>
    intro hp c o a h hd
    obtain ⟨rfl, hk⟩ := hp
    simp only [Hs.run, HsUpd.apply] at h
    exact Keep.trans (b := { c with buffering := true }) ⟨.refl _, .refl _, rfl, rfl, rfl, rfl⟩ (ih hk _ o a h hd)

/-- a sequence that completes: both parts do -/
theorem run_bind {α β : Type} (P : Prims) (gm : Bool) (p : Hs α) : ∀ (f : α → Hs β) (c : Conn) (o : HsOut β) (b : β), (p >>= f).run P gm c = .ok o → o.result = .done b →
    ∃ (o1 : HsOut α) (a : α) (o2 : HsOut β), p.run P gm c = .ok o1 ∧ o1.result = .done a ∧ (f a).run P gm o1.conn = .ok o2 ∧ o2.result = .done b ∧ o2.conn = o.conn := by
  intro f
  change ∀ (c : Conn) (o : HsOut β) (b : β), (p.bind f).run P gm c = .ok o → _
  induction p with
  | ret a => intro c o b h hd; exact ⟨⟨.done a, [], [], c⟩, a, o, rfl, rfl, h, hd, rfl⟩
  | fail al e0 =>
    intro c o b h hd
    simp only [Hs.bind] at h
    cases al with
    | none => have := Res.ok.inj h; subst this; cases hd
    | some al =>
      simp only [Hs.run] at h
      split at h
      · have := Res.ok.inj h; subst this; cases hd
      · cases h
      · cases h
  | panic => intro c o b h; cases h
  | read k ih =>
    intro c o b h hd
    simp only [Hs.bind, Hs.run] at h
    split at h
    · have := Res.ok.inj h; subst this; cases hd
    · rename_i m c1 hr
      obtain ⟨o', h1, rfl⟩ := saw_inv h
      obtain ⟨o1, a, o2, g1, g2, g3, g4, g5⟩ := ih m c1 o' b h1 hd
      refine ⟨{ o1 with got := [.msg m] ++ o1.got }, a, o2, ?_, g2, g3, g4, g5⟩
      simp only [Hs.run, hr, g1, HsOut.saw, Res.map]
    · cases h
    · cases h
  | readSwitch k ih =>
    intro c o b h hd
    simp only [Hs.bind, Hs.run] at h
    split at h
    · rename_i e0 c1 hr
      split at h
      · have := Res.ok.inj h; subst this; cases hd
      · rename_i he
        split at h
        · have := Res.ok.inj h; subst this; cases hd
        · rename_i m c2 hm
          obtain ⟨o', h1, rfl⟩ := saw_inv h
          obtain ⟨o1, a, o2, g1, g2, g3, g4, g5⟩ := ih _ m c2 o' b h1 hd
          refine ⟨{ o1 with got := (if (c.inp.nextCipher.isSome && c1.inp.nextCipher.isNone) = true then [.ccs, .msg m] else [.msg m]) ++ o1.got }, a, o2, ?_, g2, g3, g4, g5⟩
          simp only [Hs.run, hr, he, hm, g1, HsOut.saw, Res.map]
        · cases h
        · cases h
    · cases h
    · cases h
  | write bb m k ih =>
    intro c o b h hd
    simp only [Hs.bind, Hs.run] at h
    split at h
    · have := Res.ok.inj h; subst this; cases hd
    · rename_i c1 hw
      obtain ⟨o', h1, rfl⟩ := put_inv h
      obtain ⟨o1, a, o2, g1, g2, g3, g4, g5⟩ := ih c1 o' b h1 hd
      refine ⟨{ o1 with sent := [.msg m] ++ o1.sent }, a, o2, ?_, g2, g3, g4, g5⟩
      simp only [Hs.run, hw, g1, HsOut.put, Res.map]
    · cases h
    · cases h
  | writeCCS k ih =>
    intro c o b h hd
    simp only [Hs.bind, Hs.run] at h
    split at h
    · have := Res.ok.inj h; subst this; cases hd
    · rename_i c1 hw
      obtain ⟨o', h1, rfl⟩ := put_inv h
      obtain ⟨o1, a, o2, g1, g2, g3, g4, g5⟩ := ih c1 o' b h1 hd
      refine ⟨{ o1 with sent := [.ccs] ++ o1.sent }, a, o2, ?_, g2, g3, g4, g5⟩
      simp only [Hs.run, hw, g1, HsOut.put, Res.map]
    · cases h
    · cases h
  | flush k ih =>
    intro c o b h hd
    simp only [Hs.bind, Hs.run] at h
    split at h
    · have := Res.ok.inj h; subst this; cases hd
    · rename_i c1 hw
      obtain ⟨o1, a, o2, g1, g2, g3, g4, g5⟩ := ih c1 o b h hd
      exact ⟨o1, a, o2, by simp only [Hs.run, hw, g1], g2, g3, g4, g5⟩
  | upd u k ih =>
    intro c o b h hd
    simp only [Hs.bind, Hs.run] at h
    split at h
    · rename_i c1 hw
      obtain ⟨o1, a, o2, g1, g2, g3, g4, g5⟩ := ih c1 o b h hd
      exact ⟨o1, a, o2, by simp only [Hs.run, hw, g1], g2, g3, g4, g5⟩
    · cases h
    · cases h

/-! ### the client -/

theorem plain_lift {α : Type} (al : Option Byte) (x : Res α) : (Hs.lift al x).Plain := by cases x <;> trivial
theorem plain_check (al : Byte) (e : String) (b : Bool) : (Hs.check al e b).Plain := by unfold Hs.check; split <;> trivial

theorem liftPlain {α β : Type} {al : Option Byte} {x : Res α} {f : α → Hs β} (h : ∀ a, (f a).Plain) : (Hs.lift al x >>= f).Plain := .bind (plain_lift _ _) h
theorem checkPlain {β : Type} {al : Byte} {e : String} {b : Bool} {f : Unit → Hs β} (h : ∀ a, (f a).Plain) : (Hs.check al e b >>= f).Plain := .bind (plain_check _ _ _) h

theorem emitProg_plain (fh : FinishedHash) (m : Message) : (emitProg fh m).Plain := by
  unfold emitProg
  exact liftPlain fun x => liftPlain fun y => trivial

theorem stdCertsProg_plain (E : AuthEnv) (S : ClientHs) (cs : List Bytes) : (stdCertsProg E S cs).Plain := by
  unfold stdCertsProg
  split
  · trivial
  · refine liftPlain fun x => checkPlain fun _ => ?_
    repeat' split
    all_goals trivial

theorem singleCertsProg_plain (E : AuthEnv) (S : ClientHs) (cs : List Bytes) : (singleCertsProg E S cs).Plain := by
  unfold singleCertsProg
  split
  · trivial
  · refine liftPlain fun x => checkPlain fun _ => ?_
    repeat' split
    all_goals trivial

theorem gmParseProg_plain (parse : Bytes → Option X509.Cert) : ∀ (cs : List Bytes) (i : Nat), (gmParseProg parse i cs).Plain := by
  intro cs
  induction cs with
  | nil => intro i; trivial
  | cons b cs ih =>
    intro i
    unfold gmParseProg
    split
    · trivial
    · exact checkPlain fun _ => checkPlain fun _ => .bind (ih _) fun _ => trivial

theorem identityProg_plain (E : AuthEnv) (S : ClientHs) (cs : List Bytes) : (identityProg E S cs).Plain := by
  unfold identityProg
  split
  · exact plain_lift _ _
  · split
    · unfold gmCertsProg
      exact .bind (gmParseProg_plain _ _ _) fun _ => liftPlain fun _ => checkPlain fun _ => trivial
    · split
      · exact singleCertsProg_plain _ _ _
      · exact stdCertsProg_plain _ _ _

theorem certProg_plain (E : AuthEnv) (S : ClientHs) (fh : FinishedHash) : (certProg E S fh).Plain := by
  unfold certProg
  intro m
  beta_reduce
  split
  · split
    · trivial
    · split
      · trivial
      · exact liftPlain fun x => liftPlain fun f => .bind (identityProg_plain _ _ _) fun _ => trivial
  · trivial

theorem statusProg_plain (S : ClientHs) (fh : FinishedHash) : (statusProg S fh).Plain := by
  unfold statusProg
  intro m
  beta_reduce
  split
  · split
    · trivial
    · split
      · trivial
      · exact liftPlain fun x => liftPlain fun f m => trivial
  · trivial

theorem skxProg_plain (K : KaEnv) (S : ClientHs) (leaf enc : X509.Cert) (fh : FinishedHash) (m : Message) : (skxProg K S leaf enc fh m).Plain := by
  unfold skxProg
  split
  · exact liftPlain fun x => liftPlain fun f => liftPlain fun st m => trivial
  · trivial

theorem reqProg_plain (E : AuthEnv) (S : ClientHs) (fh : FinishedHash) (m : Message) : (reqProg E S fh m).Plain := by
  unfold reqProg
  split
  · split
    · trivial
    · exact liftPlain fun x => liftPlain fun f => liftPlain fun st m => trivial
  · split
    · trivial
    · exact liftPlain fun x => liftPlain fun f => liftPlain fun st m => trivial
  · trivial

theorem doneProg_plain (fh : FinishedHash) (m : Message) : (doneProg fh m).Plain := by
  unfold doneProg
  split
  · exact plain_lift _ _
  · trivial

theorem sendCertProg_plain (req : Option Requested) (fh : FinishedHash) : (sendCertProg req fh).Plain := by
  unfold sendCertProg
  split
  · trivial
  · trivial
  · exact emitProg_plain _ _

theorem sendCertVerifyProg_plain (E : AuthEnv) (S : ClientHs) (req : Option Requested) (rand : Bytes) (fh : FinishedHash) : (sendCertVerifyProg E S req rand fh).Plain := by
  unfold sendCertVerifyProg
  split
  · split
    · split
      · trivial
      · exact liftPlain fun _ => emitProg_plain _ _
    · trivial
  · trivial

theorem fullProg_plain (K : KaEnv) (S : ClientHs) (rk rs : Bytes) (fh : FinishedHash) : (fullProg K S rk rs fh).Plain := by
  unfold fullProg
  exact .bind (certProg_plain _ _ _) fun x => .bind (statusProg_plain _ _) fun y => liftPlain fun ka =>
    .bind (skxProg_plain _ _ _ _ _ _) fun z => .bind (reqProg_plain _ _ _ _) fun w => .bind (doneProg_plain _ _) fun f1 =>
    .bind (sendCertProg_plain _ _) fun f2 => liftPlain fun pc => .bind (emitProg_plain _ _) fun f3 => .bind (sendCertVerifyProg_plain _ _ _ _ _) fun f4 =>
    liftPlain fun ms => checkPlain fun _ => trivial

theorem ticketProg_plain (S : ClientHs) (fh : FinishedHash) : (ticketProg S fh).Plain := by
  unfold ticketProg
  split
  · intro m
    beta_reduce
    split
    · exact liftPlain fun x => liftPlain fun f => trivial
    · trivial
  · trivial

theorem afterCCS_plain (S : ClientHs) (ms : Bytes) (fh : FinishedHash) : (nextProtoProg S fh >>= fun fh => Hs.lift none (fh.clientSum ms) >>= fun x =>
    emitProg x.2 (.finished { raw := none, verifyData := x.1 })).Plain := by
  refine .bind ?_ fun f => liftPlain fun x => emitProg_plain _ _
  unfold nextProtoProg
  split
  · trivial
  · exact emitProg_plain _ _

/-! ### C136 -/

namespace Spec
/-- keys just put in use: sequence number 0 -/
structure Fresh (hc : HalfConn) (v : Version) (ci : Cipher) (mac : Option Mac) : Prop where
  version : hc.version = v
  cipher : hc.cipher = some ci
  mac : hc.mac = mac
  seq : hc.seq = List.replicate 8 0

/-- the connection writes with the keys of the master secret `ms` (suite, version and randoms of `S`): its sending half is what writing some records leaves of the fresh
keys -/
def SendsWith (P : Prims) (S : ClientHs) (ms : Bytes) (out : HalfConn) : Prop :=
  ∃ k co hc, clientEstablishKeys P.hashes S.vers S.suite ms S.clientRandom S.serverRandom = .ok k ∧ newCipherFor P S.suite.cipher k.out.key k.out.iv false = .ok co ∧
    Fresh hc S.vers co (newMacFor P S.suite.mac S.vers k.out.mac) ∧ Wrote hc out

/-- the same for reading -/
def ReadsWith (P : Prims) (S : ClientHs) (ms : Bytes) (inp : HalfConn) : Prop :=
  ∃ k ci hc, clientEstablishKeys P.hashes S.vers S.suite ms S.clientRandom S.serverRandom = .ok k ∧ newCipherFor P S.suite.cipher k.inp.key k.inp.iv true = .ok ci ∧
    Fresh hc S.vers ci (newMacFor P S.suite.mac S.vers k.inp.mac) ∧ Opened hc inp
end Spec

/-- the keys of `ms` are prepared for this half -/
structure Prepared (hc : HalfConn) (v : Version) (ci : Cipher) (mac : Option Mac) : Prop where
  version : hc.version = v
  cipher : hc.nextCipher = some ci
  mac : hc.nextMac = mac

theorem keyHalf_prepared {P : Prims} {v : Version} {s : Suite} {k : DirKeys} {rd : Bool} {hc hc' : HalfConn} (h : keyHalf P v s k rd hc = .ok hc') :
    ∃ ci, newCipherFor P s.cipher k.key k.iv rd = .ok ci ∧ Prepared hc' v ci (newMacFor P s.mac v k.mac) := by
  unfold keyHalf at h
  split at h
  · rename_i ci hci
    rw [← Res.ok.inj h]
    exact ⟨ci, hci, ⟨rfl, rfl, rfl⟩⟩
  · cases h
  · cases h

theorem establish_prepared {P : Prims} {s : Suite} {ms cr sr : Bytes} {c c' : Conn} (h : c.clientEstablish P s ms cr sr = .ok c') :
    ∃ k ci co, clientEstablishKeys P.hashes c.vers s ms cr sr = .ok k ∧ newCipherFor P s.cipher k.inp.key k.inp.iv true = .ok ci ∧
      newCipherFor P s.cipher k.out.key k.out.iv false = .ok co ∧ Prepared c'.inp c.vers ci (newMacFor P s.mac c.vers k.inp.mac) ∧
      Prepared c'.out c.vers co (newMacFor P s.mac c.vers k.out.mac) ∧ c'.vers = c.vers ∧ c'.haveVers = c.haveVers ∧ c'.isClient = c.isClient ∧ c'.policy = c.policy := by
  unfold Conn.clientEstablish at h
  split at h
  · rename_i k hk
    split at h
    · rename_i i o hi ho
      have := Res.ok.inj h; subst this
      obtain ⟨ci, h1, h2⟩ := keyHalf_prepared hi
      obtain ⟨co, h3, h4⟩ := keyHalf_prepared ho
      exact ⟨k, ci, co, hk, h1, h3, h2, h4, rfl, rfl, rfl, rfl⟩
    · cases h
  · cases h

theorem Prepared.wrote {a b : HalfConn} {v : Version} {ci : Cipher} {m : Option Mac} (h : Prepared a v ci m) (w : Spec.Wrote a b) : Prepared b v ci m := by
  obtain ⟨k1, k2, k3, _⟩ := Wrote_keeps w
  exact ⟨k3.trans h.version, k1.trans h.cipher, k2.trans h.mac⟩

theorem Prepared.opened {a b : HalfConn} {v : Version} {ci : Cipher} {m : Option Mac} (h : Prepared a v ci m) (w : Spec.Opened a b) : Prepared b v ci m := by
  obtain ⟨k1, k2, k3⟩ := Opened_next w
  exact ⟨k3.trans h.version, k1.trans h.cipher, k2.trans h.mac⟩

/-- what the two exchanges of Finished do not touch -/
structure Same (c d : Conn) : Prop where
  vers : d.vers = c.vers
  haveVers : d.haveVers = c.haveVers
  isClient : d.isClient = c.isClient
  policy : d.policy = c.policy

theorem Keep.same {c d : Conn} (h : Keep c d) : Same c d := ⟨h.vers, h.haveVers, h.isClient, h.policy⟩
theorem Same.trans {a b c : Conn} (h : Same a b) (k : Same b c) : Same a c :=
  ⟨k.vers.trans h.vers, k.haveVers.trans h.haveVers, k.isClient.trans h.isClient, k.policy.trans h.policy⟩
theorem Same.ren {c d : Conn} (h : Same c d) : d.ren = c.ren := by simp only [Conn.ren, Conn.renegotiation, h.isClient, h.policy]

/-- after `sendFinished`: the prepared keys are in use for sending; the receiving half has at most opened records -/
theorem finishedProg_keys {P : Prims} {gm : Bool} {S : ClientHs} {ms : Bytes} {fh : FinishedHash} {c : Conn} {o : HsOut FinishedHash} {a : FinishedHash}
    {v : Version} {co : Cipher} {m : Option Mac} (hp : Prepared c.out v co m) (h : (finishedProg S ms fh).run P gm c = .ok o) (hd : o.result = .done a) :
    (∃ hc, Spec.Fresh hc v co m ∧ Spec.Wrote hc o.conn.out) ∧ Spec.Opened c.inp o.conn.inp ∧ Same c o.conn := by
  unfold finishedProg at h
  simp only [Hs.run] at h
  split at h
  · have := Res.ok.inj h; subst this; cases hd
  · rename_i n c1 hw
    obtain ⟨o', h1, rfl⟩ := put_inv h
    obtain ⟨d, ci, kd, hci, rfl⟩ := writeCCS_keep hw
    have kp := run_plain P gm _ (afterCCS_plain S ms fh) _ o' a h1 hd
    rw [hp.cipher] at hci
    have := Option.some.inj hci
    subst this
    refine ⟨⟨_, ⟨?_, rfl, ?_, rfl⟩, kp.out⟩, Opened_trans kd.inp kp.inp, kd.same.trans (Same.trans ?_ kp.same)⟩
    · exact (Wrote_keeps kd.out).2.2.1.trans hp.version
    · exact hp.mac
    · exact ⟨rfl, rfl, rfl, rfl⟩
  · cases h
  · cases h

/-- after `readFinished`: the prepared keys are in use for receiving, or there was no ChangeCipherSpec, which needs renegotiation to be allowed -/
theorem readFinishedProg_keys {P : Prims} {gm : Bool} {ms : Bytes} {fh : FinishedHash} {c : Conn} {o : HsOut (Bool × FinishedHash)} {a : Bool × FinishedHash}
    {v : Version} {ci : Cipher} {m : Option Mac} (hp : Prepared c.inp v ci m) (h : (readFinishedProg ms fh).run P gm c = .ok o) (hd : o.result = .done a) :
    ((a.1 = true ∧ ∃ hc, Spec.Fresh hc v ci m ∧ Spec.Opened hc o.conn.inp) ∨ (a.1 = false ∧ c.ren = true ∧ c.haveVers = true ∧ Spec.Opened c.inp o.conn.inp)) ∧
    Spec.Wrote c.out o.conn.out ∧ Same c o.conn := by
  unfold readFinishedProg at h
  simp only [Hs.run] at h
  split at h
  · rename_i e0 c1 hr
    split at h
    · have := Res.ok.inj h; subst this; cases hd
    · rename_i he
      split at h
      · have := Res.ok.inj h; subst this; cases hd
      · rename_i msg c2 hm
        obtain ⟨o', h1, rfl⟩ := saw_inv h
        have k2 := readMessage_keep hm
        generalize hsw : (c.inp.nextCipher.isSome && c1.inp.nextCipher.isNone) = sw at h1
        have tail : a.1 = sw ∧ Keep c2 o'.conn := by
          clear h hm hr
          split at h1
          · rename_i fin
            cases hs : fh.serverSum ms with
            | ok x =>
              rw [hs] at h1
              change (if x.1.length ≠ fin.verifyData.length ∨ x.1 ≠ fin.verifyData then _ else _ : Hs _).run P gm c2 = .ok o' at h1
              split at h1
              · simp only [Hs.run] at h1
                split at h1
                · have := Res.ok.inj h1; subst this; cases hd
                · cases h1
                · cases h1
              · cases hf : fin.marshal with
                | ok y =>
                  rw [hf] at h1
                  cases hw : x.2.write y.1 with
                  | ok f =>
                    change (Hs.lift none (x.2.write y.1) >>= fun fh => Hs.ret (sw, fh)).run P gm c2 = .ok o' at h1
                    rw [hw] at h1
                    have := Res.ok.inj h1; subst this
                    cases hd
                    exact ⟨rfl, .refl _⟩
                  | err e =>
                    change (Hs.lift none (x.2.write y.1) >>= fun fh => Hs.ret (sw, fh)).run P gm c2 = .ok o' at h1
                    rw [hw] at h1
                    have := Res.ok.inj h1; subst this; cases hd
                  | panic =>
                    change (Hs.lift none (x.2.write y.1) >>= fun fh => Hs.ret (sw, fh)).run P gm c2 = .ok o' at h1
                    rw [hw] at h1; cases h1
                | err e => rw [hf] at h1; have := Res.ok.inj h1; subst this; cases hd
                | panic => rw [hf] at h1; cases h1
            | err e => rw [hs] at h1; have := Res.ok.inj h1; subst this; cases hd
            | panic => rw [hs] at h1; cases h1
          · simp only [Hs.run] at h1
            split at h1
            · have := Res.ok.inj h1; subst this; cases hd
            · cases h1
            · cases h1
        have kk := k2.trans tail.2
        have hun := fun hv => readSwitch_unpinned (c := c) (c1 := c1) hv (by rw [hp.cipher]; rfl) hr he
        rcases readSwitch_keep hr he with ⟨s1, d, cj, g1, g2, g3, g4, g5⟩ | ⟨s1, s2, s3, s4⟩
        · rw [hp.cipher] at g2
          have := Option.some.inj g2
          subst this
          refine ⟨.inl ⟨tail.1.trans (hsw.symm.trans s1), c1.inp, ?_, kk.inp⟩, ?_, ?_⟩
          · rw [g5]
            exact ⟨(Opened_next g1).2.2.trans hp.version, rfl, hp.mac, rfl⟩
          · have := kk.out; rw [g4] at this; exact this
          · refine Same.trans ?_ kk.same
            exact ⟨g3.vers, g3.haveVers, g3.isClient, g3.policy⟩
        · have hvv : c.haveVers = true := by
            cases hv : c.haveVers with
            | true => rfl
            | false => rw [hun hv] at s1; cases s1
          exact ⟨.inr ⟨tail.1.trans (hsw.symm.trans s1), s2, hvv, Opened_trans s3.inp kk.inp⟩, Wrote_trans s3.out kk.out, s3.same.trans kk.same⟩
      · cases h
      · cases h
  · cases h
  · cases h

/-- after the ServerHello: the version -/
theorem helloProg_keys {P : Prims} {Z : ClientStart} {c : Conn} {o : HsOut (ClientHs × List Bytes × Bool)} {x : ClientHs × List Bytes × Bool}
    (h : (helloProg Z).run P Z.S.gm c = .ok o) (hd : o.result = .done x) :
    ∃ sh ch, Z.react sh = .ok ch ∧ x.1 = Z.knows sh ch ∧ x.2.2 = ch.resume.isSome ∧ o.conn.isClient = c.isClient ∧ o.conn.policy = c.policy ∧
      (if Z.S.gm then o.conn.vers = c.vers ∧ o.conn.haveVers = c.haveVers else o.conn.vers = ch.vers ∧ o.conn.haveVers = true) := by
  unfold helloProg at h
  obtain ⟨o1, mb, o2, h1, h2, h3, h4, h5⟩ := run_bind P _ _ _ _ _ _ h hd
  have k1 := run_plain P _ _ (plain_lift _ _) _ _ _ h1 h2
  rw [← h5]
  clear h h5 hd
  simp only [Hs.run] at h3
  split at h3
  · have := Res.ok.inj h3; subst this; cases h4
  · rename_i n c1 hw
    have k2 := k1.trans (writeRecord_keep (by decide) hw)
    obtain ⟨o', g1, rfl⟩ := put_inv h3
    clear h3
    split at g1
    · have := Res.ok.inj g1; subst this; cases h4
    · rename_i m c2 hr
      have k3 := k2.trans (readMessage_keep hr)
      obtain ⟨o3, g2, rfl⟩ := saw_inv g1
      clear g1
      dsimp only at h4 ⊢
      split at g2
      · rename_i sh
        obtain ⟨p1, u, p2, q1, q2, q3, q4, q5⟩ := run_bind P _ _ _ _ _ _ g2 h4
        rw [← q5]
        split at q3
        · rename_i a ha
          cases hac : a.code with
          | none => rw [hac] at q3; have := Res.ok.inj q3; subst this; cases q4
          | some al =>
            rw [hac] at q3
            simp only [Hs.run] at q3
            split at q3
            · have := Res.ok.inj q3; subst this; cases q4
            · cases q3
            · cases q3
        · rename_i ch hch
          refine ⟨sh, ch, hch, ?_⟩
          have e : x.1 = Z.knows sh ch ∧ x.2.2 = ch.resume.isSome ∧ p2.conn = p1.conn := by
            cases hm : sh.marshal with
            | ok y =>
              rw [hm] at q3
              have := Res.ok.inj q3; subst this
              cases q4
              exact ⟨rfl, rfl, rfl⟩
            | err e => rw [hm] at q3; have := Res.ok.inj q3; subst this; cases q4
            | panic => rw [hm] at q3; cases q3
          rw [e.2.2]
          refine ⟨e.1, e.2.1, ?_⟩
          unfold pinProg at q1
          unfold ClientStart.react at hch
          split at q1
          · rename_i hg
            have := Res.ok.inj q1; subst this
            rw [if_pos hg]
            exact ⟨k3.isClient, k3.policy, k3.vers, k3.haveVers⟩
          · rename_i hg
            rw [if_neg hg]
            rw [if_neg hg] at hch
            unfold readServerHello at hch
            split at q1
            · rename_i v hv
              rw [hv] at hch
              have := Res.ok.inj q1; subst this
              refine ⟨k3.isClient, k3.policy, ?_, rfl⟩
              dsimp only at hch ⊢
              split at hch
              · cases hch
              · split at hch
                · cases hch
                · rw [← Except.ok.inj hch]
            · rename_i a ha
              rw [ha] at hch; cases hch
      · simp only [Hs.run] at g2
        split at g2
        · have := Res.ok.inj g2; subst this; cases h4
        · cases g2
        · cases g2
    · cases g1
    · cases g1
  · cases h3
  · cases h3

/-- what a completed handshake leaves -/
structure Keyed (P : Prims) (c d : Conn) (r : ClientEnd) : Prop where
  sends : Spec.SendsWith P r.S r.master d.out
  reads : (r.switched = true ∧ Spec.ReadsWith P r.S r.master d.inp) ∨ (r.switched = false ∧ c.ren = true ∧ c.haveVers = true)
  same : Same c d

theorem resumeProg_keys {P : Prims} {gm : Bool} {E : AuthEnv} {S : ClientHs} {hellos : List Bytes} {s : SavedSession} {c : Conn} {o : HsOut ClientEnd} {r : ClientEnd}
    (hv : c.vers = S.vers) (h : (resumeProg E S hellos s).run P gm c = .ok o) (hd : o.result = .done r) : Keyed P c o.conn r ∧ r.S = S := by
  unfold resumeProg at h
  obtain ⟨o1, f1, o2, h1, h2, h3, h4, h5⟩ := run_bind P _ _ _ _ _ _ h hd
  have k1 := run_plain P _ _ (plain_lift _ _) _ _ _ h1 h2
  obtain ⟨o3, f2, o4, g1, g2, g3, g4, g5⟩ := run_bind P _ _ _ _ _ _ h3 h4
  have k2 := k1.trans (run_plain P _ _ (plain_lift _ _) _ _ _ g1 g2)
  rw [← h5, ← g5]
  clear h h1 h2 h3 h4 h5 hd g1 g2 g5 k1
  simp only [Hs.run] at g3
  split at g3
  · rename_i c1 hb
    have e1 := Res.ok.inj hb
    split at g3
    · rename_i c2 hk
      obtain ⟨k, ci, co, p1, p2, p3, p4, p5, p6⟩ := establish_prepared hk
      have hv1 : c1.vers = S.vers := by rw [← e1]; exact k2.vers.trans hv
      rw [hv1] at p1 p4 p5
      have s1 : Same c c1 := by rw [← e1]; exact k2.same.trans ⟨rfl, rfl, rfl, rfl⟩
      have s2 : Same c c2 := s1.trans ⟨p6.1, p6.2.1, p6.2.2.1, p6.2.2.2⟩
      obtain ⟨t1, t, t2, a1, a2, a3, a4, a5⟩ := run_bind P _ _ _ _ _ _ g3 g4
      have kt := run_plain P _ _ (ticketProg_plain _ _) _ _ _ a1 a2
      obtain ⟨u1, f, u2, b1, b2, b3, b4, b5⟩ := run_bind P _ _ _ _ _ _ a3 a4
      obtain ⟨kf1, kf2, kf3⟩ := readFinishedProg_keys (p4.opened kt.inp) b1 b2
      obtain ⟨v1, fh, v2, d1, d2, d3, d4, d5⟩ := run_bind P _ _ _ _ _ _ b3 b4
      obtain ⟨kg1, kg2, kg3⟩ := finishedProg_keys ((p5.wrote kt.out).wrote kf2) d1 d2
      rw [← a5, ← b5, ← d5]
      have s3 := s2.trans kt.same
      have s4 := (s3.trans kf3).trans kg3
      simp only [Hs.run] at d3
      split at d3
      · have := Res.ok.inj d3; subst this; cases d4
      · rename_i c3 hf
        have kfl := flush_keep v1.conn
        rw [hf] at kfl
        dsimp only at kfl
        have := Res.ok.inj d3; subst this
        cases d4
        refine ⟨⟨?_, ?_, s4.trans kfl.1.same⟩, rfl⟩
        · obtain ⟨hc, q1, q2⟩ := kg1
          exact ⟨k, co, hc, p1, p3, q1, by dsimp only; rw [kfl.2.1]; exact q2⟩
        · rcases kf1 with ⟨y1, hc, q1, q2⟩ | ⟨y1, y2, y3, _⟩
          · exact .inl ⟨y1, k, ci, hc, p1, p2, q1, by dsimp only; rw [kfl.2.2]; exact Opened_trans q2 kg2⟩
          · exact .inr ⟨y1, by rw [← y2]; exact s3.ren.symm, by rw [← y3]; exact s3.haveVers.symm⟩
    · cases g3
    · cases g3
  · cases g3
  · cases g3

theorem newSessionProg_keys {P : Prims} {gm : Bool} {K : KaEnv} {S : ClientHs} {hellos : List Bytes} {rk rs : Bytes} {c : Conn} {o : HsOut ClientEnd} {r : ClientEnd}
    (hv : c.vers = S.vers) (h : (newSessionProg K S hellos rk rs).run P gm c = .ok o) (hd : o.result = .done r) : Keyed P c o.conn r ∧ r.S = S := by
  unfold newSessionProg at h
  obtain ⟨o1, f1, o2, h1, h2, h3, h4, h5⟩ := run_bind P _ _ _ _ _ _ h hd
  have k1 := run_plain P _ _ (plain_lift _ _) _ _ _ h1 h2
  obtain ⟨o3, f2, o4, g1, g2, g3, g4, g5⟩ := run_bind P _ _ _ _ _ _ h3 h4
  have k2 := k1.trans (run_plain P _ _ (plain_lift _ _) _ _ _ g1 g2)
  rw [← h5, ← g5]
  clear h h1 h2 h3 h4 h5 hd g1 g2 g5 k1
  simp only [Hs.run] at g3
  split at g3
  · rename_i c1 hb
    have e1 := Res.ok.inj hb
    have s1 : Same c c1 := by rw [← e1]; exact k2.same.trans ⟨rfl, rfl, rfl, rfl⟩
    have hv1 : c1.vers = S.vers := s1.vers.trans hv
    obtain ⟨w1, fs, w2, i1, i2, i3, i4, i5⟩ := run_bind P _ _ _ _ _ _ g3 g4
    have kw := run_plain P _ _ (fullProg_plain _ _ _ _ _) _ _ _ i1 i2
    simp only [Hs.run] at i3
    split at i3
    · rename_i c2 hk
      obtain ⟨k, ci, co, p1, p2, p3, p4, p5, p6⟩ := establish_prepared hk
      rw [kw.vers, hv1] at p1 p4 p5
      have s2 : Same c c2 := (s1.trans kw.same).trans ⟨p6.1, p6.2.1, p6.2.2.1, p6.2.2.2⟩
      obtain ⟨v1, fh, v2, d1, d2, d3, d4, d5⟩ := run_bind P _ _ _ _ _ _ i3 i4
      obtain ⟨kg1, kg2, kg3⟩ := finishedProg_keys p5 d1 d2
      rw [← i5, ← d5]
      have s3 := s2.trans kg3
      simp only [Hs.run] at d3
      split at d3
      · have := Res.ok.inj d3; subst this; cases d4
      · rename_i c3 hf
        have kfl := flush_keep v1.conn
        rw [hf] at kfl
        dsimp only at kfl
        have s4 := s3.trans kfl.1.same
        obtain ⟨t1, t, t2, a1, a2, a3, a4, a5⟩ := run_bind P _ _ _ _ _ _ d3 d4
        have kt := run_plain P _ _ (ticketProg_plain _ _) _ _ _ a1 a2
        have s5 := s4.trans kt.same
        obtain ⟨u1, f, u2, b1, b2, b3, b4, b5⟩ := run_bind P _ _ _ _ _ _ a3 a4
        have pin : Prepared c3.inp S.vers ci (newMacFor P S.suite.mac S.vers k.inp.mac) := by rw [kfl.2.2]; exact p4.opened kg2
        obtain ⟨kf1, kf2, kf3⟩ := readFinishedProg_keys (pin.opened kt.inp) b1 b2
        rw [← a5, ← b5]
        have := Res.ok.inj b3; subst this
        cases b4
        refine ⟨⟨?_, ?_, s5.trans kf3⟩, rfl⟩
        · obtain ⟨hc, q1, q2⟩ := kg1
          have := kt.out
          rw [kfl.2.1] at this
          exact ⟨k, co, hc, p1, p3, q1, Wrote_trans (Wrote_trans q2 this) kf2⟩
        · rcases kf1 with ⟨y1, hc, q1, q2⟩ | ⟨y1, y2, y3, _⟩
          · exact .inl ⟨y1, k, ci, hc, p1, p2, q1, q2⟩
          · exact .inr ⟨y1, by rw [← y2]; exact s5.ren.symm, by rw [← y3]; exact s5.haveVers.symm⟩
    · cases i3
    · cases i3
  · cases g3
  · cases g3

/-- the whole handshake -/
theorem clientProg_keys {P : Prims} {K : KaEnv} {Z : ClientStart} {rk rs : Bytes} {c : Conn} {o : HsOut ClientEnd} {r : ClientEnd}
    (h : (clientProg K Z rk rs).run P Z.S.gm c = .ok o) (hd : o.result = .done r) :
    Spec.SendsWith P r.S r.master o.conn.out ∧ ((r.switched = true ∧ Spec.ReadsWith P r.S r.master o.conn.inp) ∨ (r.switched = false ∧ c.ren = true ∧ (Z.S.gm = false ∨ c.haveVers = true))) ∧
      o.conn.vers = r.S.vers ∧ o.conn.haveVers = (!Z.S.gm || c.haveVers) ∧ (Z.S.gm = true → r.S.vers = vGMSSL) ∧ o.conn.isClient = c.isClient ∧ o.conn.policy = c.policy := by
  unfold clientProg at h
  obtain ⟨o1, u, o2, h1, h2, h3, h4, h5⟩ := run_bind P _ _ _ _ _ _ h hd
  obtain ⟨o3, x, o4, g1, g2, g3, g4, g5⟩ := run_bind P _ _ _ _ _ _ h3 h4
  rw [← h5, ← g5]
  obtain ⟨sh, ch, e1, e2, e3, e4, e5, e6⟩ := helloProg_keys g1 g2
  have v1 : o1.conn.isClient = c.isClient ∧ o1.conn.policy = c.policy ∧ o1.conn.haveVers = c.haveVers ∧ (Z.S.gm = true → o1.conn.vers = vGMSSL) := by
    unfold versProg at h1
    split at h1
    · have := Res.ok.inj h1; subst this; exact ⟨rfl, rfl, rfl, fun _ => rfl⟩
    · rename_i hg; have := Res.ok.inj h1; subst this; exact ⟨rfl, rfl, rfl, fun h => absurd h hg⟩
  have hv : o3.conn.vers = x.1.vers ∧ o3.conn.haveVers = (!Z.S.gm || c.haveVers) ∧ (Z.S.gm = true → x.1.vers = vGMSSL) := by
    rw [e2]
    show o3.conn.vers = ch.vers ∧ _ ∧ (_ → ch.vers = _)
    cases hg : Z.S.gm with
    | false =>
      rw [if_neg (by rw [hg]; decide)] at e6
      exact ⟨e6.1, by rw [e6.2]; rfl, by intro h; cases h⟩
    | true =>
      rw [if_pos hg] at e6
      have hc : ch.vers = vGMSSL := by
        unfold ClientStart.react at e1
        rw [if_pos hg] at e1
        unfold readServerHelloGM at e1
        split at e1
        · cases e1
        · split at e1
          · cases e1
          · split at e1
            · cases e1
            · rw [← Except.ok.inj e1]
      exact ⟨by rw [e6.1, hc]; exact v1.2.2.2 hg, by rw [e6.2, v1.2.2.1]; rfl, fun _ => hc⟩
  have fin : ∀ {d : Conn}, Keyed P o3.conn d r ∧ r.S = x.1 → Spec.SendsWith P r.S r.master d.out ∧
      ((r.switched = true ∧ Spec.ReadsWith P r.S r.master d.inp) ∨ (r.switched = false ∧ c.ren = true ∧ (Z.S.gm = false ∨ c.haveVers = true))) ∧
      d.vers = r.S.vers ∧ d.haveVers = (!Z.S.gm || c.haveVers) ∧ (Z.S.gm = true → r.S.vers = vGMSSL) ∧ d.isClient = c.isClient ∧ d.policy = c.policy := by
    rintro d ⟨k, ks⟩
    have hren : o3.conn.ren = c.ren := by simp only [Conn.ren, Conn.renegotiation, e4, e5, v1.1, v1.2.1]
    refine ⟨k.sends, ?_, ?_, k.same.haveVers.trans hv.2.1, ?_, k.same.isClient.trans (e4.trans v1.1), k.same.policy.trans (e5.trans v1.2.1)⟩
    · rcases k.reads with y | ⟨y1, y2, y3⟩
      · exact .inl y
      · refine .inr ⟨y1, by rw [← hren]; exact y2, ?_⟩
        rw [hv.2.1] at y3
        cases hg : Z.S.gm with
        | false => exact .inl rfl
        | true => rw [hg] at y3; exact .inr y3
    · rw [ks]; exact k.same.vers.trans hv.1
    · rw [ks]; exact hv.2.2
  split at g3
  · exact fin (resumeProg_keys hv.1 g3 g4)
  · exact fin (newSessionProg_keys hv.1 g3 g4)

/-- the connection a completed call of `Handshake` leaves -/
theorem handshake_conn {P : Prims} {K : KaEnv} {Z : ClientStart} {rk rs : Bytes} {c c' : Conn} (h1 : c.handshakeErr = none) (h2 : c.handshakeComplete = false)
    (h : c.handshake ((clientProg K Z rk rs).asHandshake P Z.S.gm) = .ok (none, c')) :
    ∃ (o : HsOut ClientEnd) (r : ClientEnd), (clientProg K Z rk rs).run P Z.S.gm c = .ok o ∧ o.result = .done r ∧ c'.out = o.conn.out ∧ c'.inp = o.conn.inp ∧
      c'.vers = o.conn.vers ∧ c'.haveVers = o.conn.haveVers ∧ c'.handshakeComplete = true := by
  obtain ⟨o, r, hr, hd⟩ := handshake_ran h1 h2 h
  refine ⟨o, r, hr, hd, ?_⟩
  have hc : ({ c with handshakeComplete := false } : Conn) = c := by rw [← h2]
  unfold Conn.handshake at h
  rw [h1] at h
  dsimp only at h
  rw [if_neg (by rw [h2]; decide)] at h
  unfold Conn.runHandshake at h
  rw [hc] at h
  unfold Hs.asHandshake at h
  rw [hr] at h
  simp only [Res.map, hd, HsEnd.err, Option.isNone_none, if_true, Res.ok.injEq, Prod.mk.injEq, true_and] at h
  rw [← h]
  exact ⟨rfl, rfl, rfl, rfl, rfl⟩

/-- **C136.** If `Handshake` of a client returns nil on a new connection, then, with `r` the state in which its run ended (the one of C135: the master secret of the key
exchange or of the resumed session, the suite, version and randoms of the hellos): what the connection sends from then on is protected with the client's keys of
that master secret, its records carry the version of the ServerHello, and what it accepts is opened with the server's keys of that master secret, each from sequence number
0 at the ChangeCipherSpec on, unless the configuration allows renegotiation and the client is a standard one. -/
theorem C136_keys_partial (P : Prims) (K : KaEnv) (Z : ClientStart) (rk rs : Bytes) (c c' : Conn) (hren : Z.S.renegotiation = c.ren)
    (h1 : c.handshakeErr = none) (h2 : c.handshakeComplete = false) (h3 : c.haveVers = false)
    (h : c.handshake ((clientProg K Z rk rs).asHandshake P Z.S.gm) = .ok (none, c')) :
    ∃ (r : ClientEnd) (sh : ServerHelloMsg) (ch : ClientChoice) (items sent : List Item), Spec.ClientRan P K Z rk rs c sh ch r.hellos items sent r ∧ r.S = Z.knows sh ch ∧
      Spec.SendsWith P r.S r.master c'.out ∧ c'.out.cipher.isSome = true ∧ c'.vers = ch.vers ∧
      (Z.S.gm = true ∨ c.ren = false → Spec.ReadsWith P r.S r.master c'.inp) := by
  obtain ⟨o, r, hr, hd, e1, e2, e3, e4, _⟩ := handshake_conn h1 h2 h
  obtain ⟨sh, ch, items, sent, hran, hS, _⟩ := ran_items hren hr hd
  obtain ⟨g1, g2, g3, g4, g5, _⟩ := clientProg_keys hr hd
  refine ⟨r, sh, ch, items, sent, hran, hS, by rw [e1]; exact g1, ?_, ?_, ?_⟩
  · obtain ⟨k, co, hc, _, _, hf, hw⟩ := g1
    rw [e1, (Wrote_keeps hw).2.2.2.1, hf.cipher]; rfl
  · rw [e3, g3, hS]; rfl
  · intro hx
    rw [e2]
    rcases g2 with ⟨_, y⟩ | ⟨_, y2, y3⟩
    · exact y
    · rw [h3] at y3
      rcases hx with hx | hx
      · rw [hx] at y3; rcases y3 with y3 | y3 <;> cases y3
      · rw [hx] at y2; cases y2

/-! ### C137: the version of the records -/

/-- **C137, standard client.** After a handshake the version is pinned: every record that is accepted carries the version of the ServerHello. -/
theorem C137_standard (P : Prims) (K : KaEnv) (Z : ClientStart) (rk rs : Bytes) (c c' : Conn) (hg : Z.S.gm = false) (hren : Z.S.renegotiation = c.ren)
    (h1 : c.handshakeErr = none) (h2 : c.handshakeComplete = false) (h : c.handshake ((clientProg K Z rk rs).asHandshake P Z.S.gm) = .ok (none, c')) :
    ∃ (r : ClientEnd) (sh : ServerHelloMsg) (ch : ClientChoice) (items sent : List Item), Spec.ClientRan P K Z rk rs c sh ch r.hellos items sent r ∧
      readServerHello Z.cfg Z.conn (clientHelloOf Z.hello) (Z.session.map sessionOf) (serverHelloOf sh) = .ok ch ∧ c'.haveVers = true ∧ c'.vers = ch.vers ∧
      ∀ d, c'.readRecord typAppData = .ok (none, d) → ∃ (n : Nat) (b : Conn) (typ : Byte) (body rest data : Bytes) (inp' : HalfConn), n ≤ 5 ∧ Spec.Warned n c' b ∧
        Spec.Opens b typ ch.vers body rest data inp' ∧ Spec.Delivered b typAppData data inp' rest typ d := by
  obtain ⟨o, r, hr, hd, e1, e2, e3, e4, _⟩ := handshake_conn h1 h2 h
  obtain ⟨sh, ch, items, sent, hran, hS, _⟩ := ran_items hren hr hd
  obtain ⟨g1, g2, g3, g4, g5, _⟩ := clientProg_keys hr hd
  have hv : c'.haveVers = true := by rw [e4, g4, hg]; rfl
  have hvv : c'.vers = ch.vers := by rw [e3, g3, hS]; rfl
  refine ⟨r, sh, ch, items, sent, hran, ?_, hv, hvv, ?_⟩
  · have := hran.choice
    unfold ClientStart.react at this
    rwa [if_neg (by rw [hg]; decide)] at this
  · intro d hd'
    obtain ⟨n, b, typ, v, body, rest, data, inp', a1, a2, a3, a4, a5, _⟩ := C30_accepted c' typAppData d hd'
    have k := Warned_keep a2
    have : v = ch.vers := (a3.version (k.haveVers.trans hv)).trans (k.vers.trans hvv)
    subst this
    exact ⟨n, b, typ, body, rest, data, inp', a1, a2, a3, a5⟩

/-- **C137 is violated by the GM client**: after the ServerHello (`o.conn`) a handshake record with any version below 0x1000 is accepted while nothing is encrypted yet. -/
theorem C137_gm_version_violated (P : Prims) (Z : ClientStart) (c : Conn) (hg : Z.S.gm = true) (h3 : c.haveVers = false) (o : HsOut (ClientHs × List Bytes × Bool))
    (x : ClientHs × List Bytes × Bool) (h : (helloProg Z).run P Z.S.gm c = .ok o) (hd : o.result = .done x) :
    o.conn.haveVers = false ∧
    ∀ (d : Conn) (v : Version) (body rest : Bytes) (i : HalfConn), d.haveVers = false → d.handshakeComplete = false → d.inp.cipher = none → d.inp.mac = none → d.inp.err = none →
      d.inp.incSeq = .ok i → d.stream = Spec.frame typHandshake v body ++ rest → 0 < body.length → body.length ≤ 16384 → v.toNat < 0x1000 →
      d.readRecord typHandshake = .ok (none, { d with stream := rest, inp := i, warnCount := 0, hand := d.hand ++ body }) := by
  obtain ⟨sh, ch, _, _, _, _, _, e6⟩ := helloProg_keys h hd
  rw [if_pos hg] at e6
  refine ⟨e6.2.trans h3, ?_⟩
  intro d v body rest i d1 d2 d3 d4 d5 hi hs hl0 hl hv
  have hdec : d.inp.decrypt (Spec.frame typHandshake v body) = .ok (some body, i) := by
    have hm : ({ d.inp with cipher := none } : HalfConn) = d.inp := by rw [← d3]
    unfold HalfConn.decrypt HalfConn.openPayload
    rw [d3]
    dsimp only
    rw [hm]
    unfold HalfConn.checkMac
    rw [d4]
    dsimp only
    rw [hi]
    rfl
  have hie : i.err = none := by
    unfold HalfConn.incSeq at hi
    split at hi
    · cases hi
    · rw [← Res.ok.inj hi]; exact d5
  have ho : Spec.Opens d typHandshake v body rest body i := ⟨hs, by omega, fun hx => (by rw [d1] at hx; cases hx), hdec⟩
  unfold Conn.readRecord
  rw [if_pos (.inl rfl), if_neg (by rw [d2]; decide)]
  unfold Conn.readLoop
  rw [readOnce_opens d typHandshake typHandshake v body rest body i ho (fun _ => ⟨.inr rfl, hv⟩) (by decide)]
  unfold Conn.processRecord
  rw [if_neg (by omega)]
  dsimp only
  simp only [if_pos (show typHandshake ≠ typAlert ∧ body.length > 0 from ⟨by decide, hl0⟩), if_neg (show ¬ typHandshake = typAlert by decide),
    if_neg (show ¬ typHandshake = typCCS by decide), if_neg (show ¬ typHandshake = typAppData by decide)]
  rw [if_pos trivial, if_neg (fun hx => hx.1 rfl)]
  dsimp only
  rw [hie]

/-- **C137**: the GM client never pins the version, so after its handshake the connection is still treated as one on which nothing has been received. -/
theorem C137_gm_unpinned (P : Prims) (K : KaEnv) (Z : ClientStart) (rk rs : Bytes) (c c' : Conn) (hg : Z.S.gm = true)
    (h1 : c.handshakeErr = none) (h2 : c.handshakeComplete = false) (h3 : c.haveVers = false)
    (h : c.handshake ((clientProg K Z rk rs).asHandshake P Z.S.gm) = .ok (none, c')) : c'.haveVers = false ∧ c'.handshakeComplete = true ∧ c'.vers = vGMSSL := by
  obtain ⟨o, r, hrun, hd, e1, e2, e3, e4, e5⟩ := handshake_conn h1 h2 h
  obtain ⟨g1, g2, g3, g4, g5, _⟩ := clientProg_keys hrun hd
  exact ⟨by rw [e4, g4, hg, h3]; rfl, e5, by rw [e3, g3, g5 hg]⟩

/-- **C137 is violated by the GM client, second**: on such a connection a handshake record (a HelloRequest, say) makes `Read` fail as if it were the first record of
the connection, whatever the policy for renegotiation (`reneg` is not called). -/
theorem C137_gm_helloRequest_violated (c' : Conn) (hv : c'.haveVers = false) (e5 : c'.handshakeComplete = true)
    (reneg : Conn → Res (Option String × Conn)) (peek : Bool) (cap : Nat) (v : Version) (body rest b : Bytes) (e : Option String) (d : Conn)
    (hs : c'.stream = Spec.frame typHandshake v body ++ rest) (hl : body.length ≤ 18432) (hin : c'.input = none) (hie : c'.inp.err = none) (hcap : 0 < cap)
    (hr : c'.readApp reneg peek cap = .ok (b, e, d)) : b = [] ∧ e = some "first record does not look like a TLS handshake" := by
  obtain ⟨t1, t2, t3, t4, t5, t6⟩ := frame_getters typHandshake v body rest (by omega)
  have hlen : (Spec.frame typHandshake v body ++ rest).length = 5 + body.length + rest.length := by rw [List.length_append, t4]
  have once : c'.readOnce typAppData = asDone (c'.failMsg 10 "first record does not look like a TLS handshake") := by
    unfold Conn.readOnce
    rw [hs]
    simp only [t1, t2, t3]
    rw [if_neg (by rw [hlen]; omega), if_neg (by decide), if_neg (by rw [hv]; intro hx; cases hx.1), if_neg (by omega), if_pos ⟨hv, .inl (by decide)⟩]
  have hrec : c'.readRecord typAppData = match asDone (c'.failMsg 10 "first record does not look like a TLS handshake") with
      | .ok (.done e, c) => .ok (e, c)
      | .ok (.again, c) => Conn.readLoop 5 c typAppData
      | .err x => .err x
      | .panic => .panic := by
    unfold Conn.readRecord
    rw [if_neg (by decide), if_pos rfl, if_neg (by rw [e5]; decide)]
    unfold Conn.readLoop
    rw [once]
    rfl
  unfold Conn.readApp at hr
  rw [if_neg (by omega)] at hr
  unfold Conn.readPass Conn.fillInput at hr
  rw [hin, hie, if_neg (by decide)] at hr
  dsimp only at hr
  rw [hrec] at hr
  cases hf : c'.failMsg 10 "first record does not look like a TLS handshake" with
  | ok y =>
    obtain ⟨e', d'⟩ := y
    have := (failMsg_res hf).1
    subst this
    rw [hf] at hr
    simp [asDone] at hr
    exact ⟨hr.1, hr.2.1.symm⟩
  | err y => rw [hf] at hr; simp [asDone] at hr
  | panic => rw [hf] at hr; simp [asDone] at hr

/-- a GM client after its handshake, which allows renegotiation, and a HelloRequest -/
example : ({ isClient := true, policy := 2, vers := vGMSSL, handshakeComplete := true, stream := Spec.frame typHandshake vGMSSL [0, 0, 0, 0] } : Conn).readApp
      (fun c => .ok (none, c)) false 10 matches .ok ([], some "first record does not look like a TLS handshake", _) := by decide +kernel

/-- a GM client reads the ServerHello in a record of version 0x0303, and is ready for a Certificate in one of version 0x0abc -/
def toyGmStart : ClientStart :=
  { toyStart with S := toyGmClient, hello := { toyHello with vers := vGMSSL, cipherSuites := [0xe013] } }
def toyGmHello : Bytes :=
  Spec.frame 22 0x0303 (bytesOfMsg (.serverHello { toyServerHello with vers := vGMSSL, cipherSuite := 0xe013, ticketSupported := false })) ++ Spec.frame 22 0x0abc [11, 0, 0, 3, 0, 0, 0]

example :
    (match (helloProg toyGmStart).run toyPrims true { isClient := true, stream := toyGmHello } with
     | .ok ⟨.done _, _, _, c⟩ =>
       match c.readRecord typHandshake with
       | .ok (none, d) => some (d.hand, d.haveVers, d.stream)
       | _ => none
     | _ => none) = some ([11, 0, 0, 3, 0, 0, 0], false, []) := by decide +kernel

/-! ### a Finished in the clear -/

/-- the server of `toyStream3` leaves out the ChangeCipherSpec, sends its Finished in the clear and then two bytes of application data in the clear -/
def toyStream5 (vd : Bytes) : Bytes :=
  toyRecord 22 (bytesOfMsg (.serverHello { toyServerHello with secureRenegotiationSupported := false })) ++
  (toyFlight.flatMap fun i => match i with | .msg m => toyRecord 22 (bytesOfMsg m) | .ccs => toyRecord 20 [1]) ++
  toyRecord 22 (bytesOfMsg (.newSessionTicket { raw := none, ticket := [42] })) ++
  toyRecord 22 (bytesOfMsg (.finished { raw := none, verifyData := vd })) ++ toyRecord 23 [104, 105]

/-- **C136 is violated where renegotiation is allowed**: a handshake completes although the server never changed to the new keys, and `Read` returns application data that
came in the clear. -/
theorem C136_clear_violated :
    (match ({ isClient := true, policy := 2, stream := toyStream5 (108 :: List.replicate 11 0), rand := List.replicate 64 0 } : Conn).call toyLife (.read false 10) with
     | .ok ((b, _, e), c) => some (b, e, c.handshakeComplete, c.inp.cipher.isSome, c.out.cipher.isSome)
     | _ => none) = some ([104, 105], none, true, false, true) := by
  decide +kernel

end Verif.Tls
