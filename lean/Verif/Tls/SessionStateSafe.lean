import Verif.Tls.MessagesSafe
import Verif.Tls.TicketProps
/-!
C33 for `sessionState.unmarshal`: the model of Verif.Tls.Ticket uses `take` and `drop`, which cannot
fail; here the same code is modelled with Go's indexing and slicing, which panic out of range, and the
two are shown to agree.
-/
namespace Verif.Tls.Wire
open Verif Verif.Tls

/-- `int(d[0])<<24 | int(d[1])<<16 | int(d[2])<<8 | int(d[3])`, tls/ticket.go:120 -/
def int32 (d : Bytes) : Res Nat := do
  let a ← idx d 0
  let b ← idx d 1
  let c ← idx d 2
  let e ← idx d 3
  pure (((a.toNat * 256 + b.toNat) * 256 + c.toNat) * 256 + e.toNat)

/-- the loop, tls/ticket.go:115-129. `certLen < 0` cannot hold for a 64-bit `int`. -/
def parseCertsIdx : Nat → Bytes → Res (List Bytes × Bytes)
  | 0, d => .ok ([], d)
  | n + 1, d =>
    if d.length < 4 then no else do
    let certLen ← int32 d
    let d ← sfrom d 4
    if d.length < certLen then no else
    let c ← sl d 0 certLen
    let d ← sfrom d certLen
    let p ← parseCertsIdx n d
    pure (c :: p.1, p.2)

/-- tls/ticket.go:90-132 -/
def sessionStateUnmarshal (usedOldKey : Bool) (data : Bytes) : Res SessionState :=
  if data.length < 8 then no else do
  let vers ← u16 data 0
  let suite ← u16 data 2
  let msLen ← int16 data 4
  let data ← sfrom data 6
  if data.length < msLen then no else
  let ms ← sl data 0 msLen
  let data ← sfrom data msLen
  if data.length < 2 then no else
  let numCerts ← int16 data 0
  let data ← sfrom data 2
  let p ← parseCertsIdx numCerts data
  if p.2.length = 0 then
    pure { vers := vers, cipherSuite := suite, masterSecret := ms, certificates := p.1, usedOldKey := usedOldKey }
  else no

/-- `true` with the value, or `false` -/
def ofOption {α : Type} : Option α → Res α
  | some a => .ok a
  | none => no

theorem int16_ok (d : Bytes) (i : Nat) (h : i + 2 ≤ d.length) : int16 d i = .ok (beNat ((d.drop i).take 2)) := by
  unfold int16 idx
  have e : (d.drop i).take 2 = [d[i], d[i + 1]] := by
    rw [List.drop_eq_getElem_cons (by omega), List.drop_eq_getElem_cons (by omega : i + 1 < d.length)]; rfl
  rw [dif_pos (by omega), dif_pos (by omega), e]
  simp [beNat, Res.ok_bind]

theorem int32_ok (d : Bytes) (h : 4 ≤ d.length) : int32 d = .ok (beNat (d.take 4)) := by
  match d, h with
  | a :: b :: c :: e :: r, _ =>
    simp [int32, idx, beNat, Res.ok_bind]

theorem sfrom_ok (d : Bytes) (a : Nat) (h : a ≤ d.length) : sfrom d a = .ok (d.drop a) := if_pos h
theorem sl_ok (d : Bytes) (b : Nat) (h : b ≤ d.length) : sl d 0 b = .ok (d.take b) := by
  unfold sl; rw [if_pos ⟨Nat.zero_le _, h⟩]; simp

theorem parseCertsIdx_eq (n : Nat) : ∀ d, parseCertsIdx n d = ofOption (parseCerts n d) := by
  induction n with
  | zero => intro d; rfl
  | succ n ih =>
    intro d
    unfold parseCertsIdx parseCerts
    by_cases h : d.length < 4
    · rw [if_pos h, if_pos h]; rfl
    · rw [if_neg h, if_neg h, int32_ok d (by omega), Res.ok_bind, sfrom_ok d 4 (by omega), Res.ok_bind]
      dsimp only
      by_cases h2 : (d.drop 4).length < beNat (d.take 4)
      · rw [if_pos h2, if_pos h2]; rfl
      · rw [if_neg h2, if_neg h2, sl_ok _ _ (by omega), Res.ok_bind, sfrom_ok _ _ (by omega), Res.ok_bind, ih]
        cases parseCerts n ((d.drop 4).drop (beNat (d.take 4))) <;> rfl

/-- the indexed model and the one of Verif.Tls.Ticket are the same function -/
theorem sessionStateUnmarshal_eq (old : Bool) (data : Bytes) :
    sessionStateUnmarshal old data = ofOption (SessionState.unmarshal old data) := by
  unfold sessionStateUnmarshal SessionState.unmarshal
  by_cases h : data.length < 8
  · rw [if_pos h, if_pos h]; rfl
  · rw [if_neg h, if_neg h]
    unfold u16
    rw [int16_ok data 0 (by omega), int16_ok data 2 (by omega), int16_ok data 4 (by omega), sfrom_ok _ 6 (by omega)]
    simp only [Res.ok_bind, Res.pure_eq, List.drop_zero]
    by_cases h2 : (data.drop 6).length < beNat ((data.drop 4).take 2)
    · rw [if_pos h2, if_pos h2]; rfl
    · rw [if_neg h2, if_neg h2, sl_ok _ _ (by omega), Res.ok_bind, sfrom_ok _ _ (by omega), Res.ok_bind]
      by_cases h3 : ((data.drop 6).drop (beNat ((data.drop 4).take 2))).length < 2
      · rw [if_pos h3, if_pos h3]; rfl
      · rw [if_neg h3, if_neg h3, int16_ok _ 0 (by omega), Res.ok_bind, sfrom_ok _ 2 (by omega), Res.ok_bind, parseCertsIdx_eq,
          List.drop_zero]
        cases parseCerts (beNat (((data.drop 6).drop (beNat ((data.drop 4).take 2))).take 2))
          (((data.drop 6).drop (beNat ((data.drop 4).take 2))).drop 2) with
        | none => rfl
        | some p =>
          obtain ⟨l, r⟩ := p
          simp only [ofOption, Res.ok_bind]
          by_cases h4 : r.length = 0
          · rw [if_pos h4, if_pos h4]
          · rw [if_neg h4, if_neg h4]

/-- C33: no ticket plaintext makes `sessionState.unmarshal` panic. -/
theorem C33_session_state (old : Bool) (data : Bytes) : (sessionStateUnmarshal old data).returns := by
  rw [sessionStateUnmarshal_eq]
  cases SessionState.unmarshal old data <;> trivial

/-- C32 for session states: what `marshal` writes is read back, and nothing else is read as that state. -/
theorem C32_session_state (s : SessionState) (h : s.Fits) (old : Bool) :
    sessionStateUnmarshal old s.marshal = .ok { s with usedOldKey := old } := by
  rw [sessionStateUnmarshal_eq, C34_state_roundtrip s h old]; rfl

end Verif.Tls.Wire
