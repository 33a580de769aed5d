import Verif.Tls.Renegotiation
import Verif.Tls.IvProps
/-!
C90: `CloseWrite` on one connection: exactly one close_notify, and nothing after it.
-/
namespace Verif.Tls
open Verif Verif.Std

/-- C90: once `CloseWrite` has returned after a completed handshake, whatever it reported: calling it again sends
nothing, changes nothing and reports the same; and every later `Write` is refused without sending anything. -/
theorem C90_close_write_final (c c' : Conn) (e : Option String) (hc : c.handshakeComplete = true)
    (h : c.closeWrite = .ok (e, c')) :
    c'.closeWrite = .ok (e, c') ∧ ∀ b, ∃ err, c'.writeApp b = .ok (0, some err, c') := by
  have hb := closeWrite_book h
  have hc' : c'.handshakeComplete = true := by
    rw [← hc]; exact congrArg (fun x => x.2.2.2.2.2) hb
  have hs : c'.closeNotifySent = true ∧ c'.closeNotifyErr = e := by
    unfold Conn.closeWrite at h
    rw [hc] at h
    simp only [Bool.not_true, Bool.false_eq_true, if_false] at h
    unfold Conn.closeNotify at h
    split at h
    · rename_i hx
      simp only [Res.ok.injEq, Prod.mk.injEq] at h
      obtain ⟨rfl, rfl⟩ := h
      exact ⟨hx, rfl⟩
    · split at h
      · simp only [Res.ok.injEq, Prod.mk.injEq] at h
        obtain ⟨rfl, rfl⟩ := h
        exact ⟨rfl, rfl⟩
      · cases h
      · cases h
  refine ⟨?_, fun b => ?_⟩
  · unfold Conn.closeWrite Conn.closeNotify
    rw [hc', hs.1]
    simp [hs.2]
  · unfold Conn.writeApp
    cases c'.out.err with
    | some x => exact ⟨x, rfl⟩
    | none => simp only [hc', hs.1]; exact ⟨_, rfl⟩

/-- C90: before the handshake is complete `CloseWrite` is refused and sends nothing. -/
theorem C90_close_write_early (c : Conn) (hc : c.handshakeComplete = false) : ∃ e, c.closeWrite = .ok (some e, c) := by
  unfold Conn.closeWrite
  rw [hc]
  exact ⟨_, rfl⟩

/-- C90: the first `CloseWrite` that reports no error puts on the wire exactly one alert: the records of the two bytes
warning (1), close_notify (0). -/
theorem C90_close_write_sends (c c' : Conn) (hc : c.handshakeComplete = true) (hn : c.closeNotifySent = false)
    (hu : Spec.UsesSuite c.out) (hsb : c.buffering = false → c.sendBuf = [])
    (h : c.closeWrite = .ok (none, c')) :
    ∃ (items : List (Bytes × Bytes × Bytes)) (rs : List Bytes),
      (items.map (fun x => x.2.2)).flatten = [1, 0] ∧ (∀ x ∈ items, x.1 = c.recHdr 21) ∧
      sendAll c.out items = .ok (rs, c'.out) ∧ c'.emitted = c.emitted ++ rs.flatten := by
  unfold Conn.closeWrite at h
  rw [hc] at h
  simp only [Bool.not_true, Bool.false_eq_true, if_false] at h
  unfold Conn.closeNotify at h
  rw [hn] at h
  simp only [Bool.false_eq_true, if_false] at h
  split at h
  · rename_i e1 c1 h1
    simp only [Res.ok.injEq, Prod.mk.injEq] at h
    obtain ⟨rfl, rfl⟩ := h
    unfold Conn.sendAlert at h1
    rw [if_pos (.inr rfl)] at h1
    cases h2 : Conn.writeLoop 2 c typAlert [1, 0] 0 with
    | err x => simp only [h2] at h1; cases h1
    | panic => simp only [h2] at h1; cases h1
    | ok r =>
      obtain ⟨n1, e2, c2⟩ := r
      simp only [h2] at h1
      rw [if_pos trivial] at h1
      simp only [Res.ok.injEq, Prod.mk.injEq] at h1
      obtain ⟨rfl, rfl⟩ := h1
      obtain ⟨_, items, rs, i1, i2, i3, i4, _⟩ := writeLoop_spec _ _ _ _ _ _ _ hu hsb h2
      exact ⟨items, rs, i1, fun x hx => (i2 x hx).1, i3, i4⟩
  · cases h
  · cases h

/-- the hypotheses are met: an open connection closes its writing side with one 5+2 byte record in the clear -/
example : (match ({ handshakeComplete := true, vers := 0x0303 } : Conn).closeWrite with
     | .ok (none, c') => decide (c'.wire = [21, 3, 3, 0, 2, 1, 0] ∧ c'.closeNotifySent = true)
     | _ => false) = true := by decide +kernel

end Verif.Tls
