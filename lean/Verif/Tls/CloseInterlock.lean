import Mathlib.Algebra.BigOperators.Fin
import Mathlib.Data.Fintype.BigOperators
import Mathlib.Logic.Function.Basic
import Verif.Go
/-!
The interlock of concurrent `Write`, `Close` and `CloseWrite` (tls/conn.go:1034-1087, 1201-1262): any number of goroutines call these
methods on one connection, in any order and any number of times; every atomic operation, lock operation and transport write is a step of
its own.

Simplifications: `Handshake` inside `Write` is one step that fails or succeeds; the handshake status may change at any time (the
environment step: handshakes and renegotiations in other goroutines). The alerts other goroutines send (`sendAlert`, tls/conn.go:761-765)
are a fourth kind of call. What is checked under the lock `out` is one step, since every access is under that lock. A call to
`writeRecordLocked` emits any number of records, and fails whenever the transport is closed, or at any time.
-/
namespace Verif.Tls.Interlock

inductive Call where
  | write | close | closeWrite | alert
deriving DecidableEq

/-- what a call returned -/
inductive Ret where
  | ok            -- no error (for `Close`, `CloseWrite` and alerts: whatever the transport said)
  | errClosed     -- tls: use of closed connection
  | errShutdown   -- tls: protocol is shutdown
  | failed        -- any other error
deriving DecidableEq

/-- what the transport sees: an application data record, a close_notify alert, another alert, the underlying `Close` -/
inductive Ev where
  | data | notify | alert | shut
deriving DecidableEq

/-- program counters -/
inductive PC where
  | idle
  /-- `Write`: at the top of the loop; before the compare-and-swap with the value loaded; before `Handshake`; waiting for `out`;
  holding it; writing records; before unlocking; before the deferred decrement -/
  | wTry | wCas (x : BitVec 32) | wHs | wWant | wIn | wGo | wOut (r : Ret) | wDec (r : Ret)
  /-- `Close`: top of the loop; before the compare-and-swap; after it with the value swapped out; before the underlying `Close` -/
  | cTry | cCas (x : BitVec 32) | cMode (x : BitVec 32) | cShut
  /-- `closeNotify`, called by `Close` or by `CloseWrite`: waiting for `out`, holding it, before unlocking -/
  | nWant (fromClose : Bool) | nIn (fromClose : Bool) | nOut (fromClose : Bool)
  /-- `CloseWrite`: top -/
  | sTop
  /-- an alert sent by another goroutine -/
  | aWant | aIn | aOut
deriving DecidableEq

structure St (n : Nat) where
  /-- `c.activeCall` -/
  active : BitVec 32 := 0
  /-- the goroutine holding `c.out` -/
  lock : Option (Fin n) := none
  /-- `c.closeNotifySent` -/
  notified : Bool := false
  /-- `c.out.err != nil` -/
  outErr : Bool := false
  /-- `c.handshakeComplete()` -/
  complete : Bool := false
  /-- the transport was closed -/
  netClosed : Bool := false
  /-- what reached the transport, in order, with the goroutine that did it -/
  log : List (Ev × Fin n) := []
  /-- what was returned by completed calls, in order -/
  rets : List (Fin n × Call × Ret) := []
  pc : Fin n → PC := fun _ => .idle

variable {n : Nat}

/-- goroutine `t` moves to `p` -/
def St.goto (s : St n) (t : Fin n) (p : PC) : St n := { s with pc := Function.update s.pc t p }

/-- goroutine `t` returns `r` from call `c` -/
def St.ret (s : St n) (t : Fin n) (c : Call) (r : Ret) : St n :=
  { s with pc := Function.update s.pc t .idle, rets := s.rets ++ [(t, c, r)] }

/-- goroutine `t` puts an event on the transport -/
def St.emit (s : St n) (t : Fin n) (e : Ev) : St n := { s with log := s.log ++ [(e, t)] }

/-- tls/conn.go:1035-1087 (`w…`), 1203-1232 (`c…`), 1240-1262 (`s…`, `n…`), 761-765 (`a…`) -/
inductive Step : St n → St n → Prop
  | env (s : St n) (b : Bool) : Step s { s with complete := b }
  -- Write
  | wStart (s : St n) (t) (h : s.pc t = .idle) : Step s (s.goto t .wTry)
  | wLoadClosed (s : St n) (t) (h : s.pc t = .wTry) (hx : s.active &&& 1 ≠ 0) : Step s (s.ret t .write .errClosed)
  | wLoad (s : St n) (t) (h : s.pc t = .wTry) (hx : s.active &&& 1 = 0) : Step s (s.goto t (.wCas s.active))
  | wCasFail (s : St n) (t) (x) (h : s.pc t = .wCas x) (hx : s.active ≠ x) : Step s (s.goto t .wTry)
  | wCasOk (s : St n) (t) (x) (h : s.pc t = .wCas x) (hx : s.active = x) : Step s { s.goto t .wHs with active := x + 2 }
  | wHsFail (s : St n) (t) (h : s.pc t = .wHs) : Step s (s.goto t (.wDec .failed))
  | wHsOk (s : St n) (t) (h : s.pc t = .wHs) : Step s (s.goto t .wWant)
  | wLock (s : St n) (t) (h : s.pc t = .wWant) (hl : s.lock = none) : Step s { s.goto t .wIn with lock := some t }
  | wErr (s : St n) (t) (h : s.pc t = .wIn) (hb : s.outErr = true ∨ s.complete = false) : Step s (s.goto t (.wOut .failed))
  | wShut (s : St n) (t) (h : s.pc t = .wIn) (he : s.outErr = false) (hc : s.complete = true) (hn : s.notified = true) :
      Step s (s.goto t (.wOut .errShutdown))
  | wPass (s : St n) (t) (h : s.pc t = .wIn) (he : s.outErr = false) (hc : s.complete = true) (hn : s.notified = false) : Step s (s.goto t .wGo)
  | wEmit (s : St n) (t) (h : s.pc t = .wGo) (ho : s.netClosed = false) : Step s (s.emit t .data)
  | wFail (s : St n) (t) (h : s.pc t = .wGo) : Step s { s.goto t (.wOut .failed) with outErr := true }
  | wDone (s : St n) (t) (h : s.pc t = .wGo) : Step s { s.goto t (.wOut .ok) with outErr := false }
  | wUnlock (s : St n) (t) (r) (h : s.pc t = .wOut r) : Step s { s.goto t (.wDec r) with lock := none }
  | wDec (s : St n) (t) (r) (h : s.pc t = .wDec r) : Step s { s.ret t .write r with active := s.active - 2 }
  -- Close
  | cStart (s : St n) (t) (h : s.pc t = .idle) : Step s (s.goto t .cTry)
  | cLoadClosed (s : St n) (t) (h : s.pc t = .cTry) (hx : s.active &&& 1 ≠ 0) : Step s (s.ret t .close .errClosed)
  | cLoad (s : St n) (t) (h : s.pc t = .cTry) (hx : s.active &&& 1 = 0) : Step s (s.goto t (.cCas s.active))
  | cCasFail (s : St n) (t) (x) (h : s.pc t = .cCas x) (hx : s.active ≠ x) : Step s (s.goto t .cTry)
  | cCasOk (s : St n) (t) (x) (h : s.pc t = .cCas x) (hx : s.active = x) : Step s { s.goto t (.cMode x) with active := x ||| 1 }
  | cBusy (s : St n) (t) (x) (h : s.pc t = .cMode x) (hx : x ≠ 0) : Step s (s.goto t .cShut)
  | cEarly (s : St n) (t) (x) (h : s.pc t = .cMode x) (hx : x = 0) (hc : s.complete = false) : Step s (s.goto t .cShut)
  | cNotify (s : St n) (t) (x) (h : s.pc t = .cMode x) (hx : x = 0) (hc : s.complete = true) : Step s (s.goto t (.nWant true))
  | cShut (s : St n) (t) (h : s.pc t = .cShut) : Step s { (s.emit t .shut).ret t .close .ok with netClosed := true }
  -- closeNotify
  | nLock (s : St n) (t) (f) (h : s.pc t = .nWant f) (hl : s.lock = none) : Step s { s.goto t (.nIn f) with lock := some t }
  | nAlready (s : St n) (t) (f) (h : s.pc t = .nIn f) (hn : s.notified = true) : Step s (s.goto t (.nOut f))
  | nSend (s : St n) (t) (f) (h : s.pc t = .nIn f) (hn : s.notified = false) (ho : s.netClosed = false) :
      Step s { (s.emit t .notify).goto t (.nOut f) with notified := true }
  | nSendFail (s : St n) (t) (f) (h : s.pc t = .nIn f) (hn : s.notified = false) : Step s { s.goto t (.nOut f) with notified := true }
  | nUnlockClose (s : St n) (t) (h : s.pc t = .nOut true) : Step s { s.goto t .cShut with lock := none }
  | nUnlock (s : St n) (t) (h : s.pc t = .nOut false) : Step s { s.ret t .closeWrite .ok with lock := none }
  -- CloseWrite
  | sStart (s : St n) (t) (h : s.pc t = .idle) : Step s (s.goto t .sTop)
  | sEarly (s : St n) (t) (h : s.pc t = .sTop) (hc : s.complete = false) : Step s (s.ret t .closeWrite .failed)
  | sNotify (s : St n) (t) (h : s.pc t = .sTop) (hc : s.complete = true) : Step s (s.goto t (.nWant false))
  -- sendAlert from other goroutines
  | aStart (s : St n) (t) (h : s.pc t = .idle) : Step s (s.goto t .aWant)
  | aLock (s : St n) (t) (h : s.pc t = .aWant) (hl : s.lock = none) : Step s { s.goto t .aIn with lock := some t }
  | aSend (s : St n) (t) (h : s.pc t = .aIn) (ho : s.netClosed = false) : Step s { (s.emit t .alert).goto t .aOut with outErr := true }
  | aSendFail (s : St n) (t) (h : s.pc t = .aIn) : Step s { s.goto t .aOut with outErr := true }
  | aUnlock (s : St n) (t) (h : s.pc t = .aOut) : Step s { s.ret t .alert .ok with lock := none }

/-- executions -/
inductive Steps : St n → St n → Prop
  | refl (s : St n) : Steps s s
  | tail {a b c : St n} (h : Steps a b) (k : Step b c) : Steps a c

/-- a fresh connection, all goroutines outside -/
def init (n : Nat) : St n := {}

def Reachable (s : St n) : Prop := Steps (init n) s

theorem Steps.trans {a b c : St n} (h : Steps a b) (k : Steps b c) : Steps a c := by
  induction k with
  | refl => exact h
  | tail _ k ih => exact ih.tail k

end Verif.Tls.Interlock
