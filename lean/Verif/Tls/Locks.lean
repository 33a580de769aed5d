import Mathlib.Logic.Relation
import Mathlib.Data.List.Nodup
import Verif.Go
/-!
The three locks of a connection (tls/conn.go): `handshakeMutex`, `in` and `out`. Any number of goroutines call `Handshake`, `Read`,
`Write`, `Close`, `CloseWrite` and `ConnectionState` (or `OCSPResponse`, `VerifyHostname`) on one connection, in any order and any number of
times. Every lock operation, every access to `handshakeStatus` and `handshakeErr`, and the two halves of protecting a record (taking the
sequence number, storing its successor) are steps of their own. Reading from and writing to the transport may take any time and may fail.

`Handshake` takes `handshakeMutex`, then `in` (tls/conn.go:1263-1299); a renegotiation found by `Read` holds `in` and then takes `handshakeMutex`
(tls/conn.go:1120). The order is reversed, so nothing but the checks in between prevents a deadlock.

Simplifications: the interlock of `Close` and `Write` on `activeCall` is C31 (CloseInterlock.lean); here `Close` takes either of its paths and
`Write` may be refused. The contents of messages, and why a handshake fails, are left open: a handshake sends any number of records and
alerts (each under `out`) and ends with or without an error at any time. The callbacks of a `Config` do not call methods of the connection.
-/
namespace Verif.Tls.Locks

/-- who called `Handshake`: the user, `Read` or `Write` -/
inductive Cont where
  | ret | read | write
deriving DecidableEq

/-- the sections that run with `in` held: a handshake started by `Handshake`, the loop of `Read`, a renegotiation started by that loop -/
inductive Sec where
  | hs (k : Cont) | read | reneg
deriving DecidableEq

/-- who sends a record under `out`: one of the sections, `Write`, or `closeNotify` for `Close` / `CloseWrite` -/
inductive Snd where
  | sec (s : Sec) | write | notify (fromClose : Bool)
deriving DecidableEq

inductive Call where
  | handshake | read | write | close | closeWrite | state
deriving DecidableEq

inductive Ret where
  | ok
  /-- any error but the next ones -/
  | failed
  /-- `alertInternalError` of `Write` (tls/conn.go:1057-1059) -/
  | internal
deriving DecidableEq

inductive PC where
  | idle
  /-- `Handshake`: waiting for `handshakeMutex`; holding it, before the checks; waiting for `in`; before unlocking `in`; before
  unlocking `handshakeMutex` -/
  | hWant (k : Cont) | hCheck (k : Cont) | hWantIn (k : Cont) | hRel2 (k : Cont) (ok : Bool) | hRel1 (k : Cont) (ok : Bool)
  /-- a section between two records sent -/
  | run (s : Sec)
  /-- `Read`: waiting for `in`; waiting for `handshakeMutex` to renegotiate; before `handshakeStatus` is cleared; after the renegotiation,
  before unlocking `handshakeMutex`; before unlocking `in` -/
  | rWant | rWantHm | rReset | rEnd (ok : Bool) | rRel (ok : Bool)
  /-- sending: waiting for `out`; holding it; holding it with epoch and sequence number taken; before unlocking it -/
  | outWant (d : Snd) | outIn (d : Snd) | outMid (d : Snd) (e q : Nat) | outRel (d : Snd) (r : Ret)
  /-- `Write`: holding `out`, before the checks -/
  | wChk
  /-- the alert of tls/conn.go:964, sent without `out`: epoch and sequence number taken -/
  | rawMid (s : Sec) (e q : Nat)
  /-- `Close` after its interlock; before the transport is closed; `CloseWrite` -/
  | cTop | cShut | nTop
  /-- `ConnectionState`: waiting for `handshakeMutex`; holding it -/
  | sWant | sIn
deriving DecidableEq

structure St (n : Nat) where
  /-- who holds `handshakeMutex`, `in`, `out` -/
  hm : Option (Fin n) := none
  inp : Option (Fin n) := none
  out : Option (Fin n) := none
  /-- `handshakeStatus = 1` -/
  complete : Bool := false
  /-- `handshakeErr != nil` -/
  err : Bool := false
  /-- not in the code: some handshake was completed -/
  once : Bool := false
  /-- not in the code: how many first handshakes and renegotiations were started -/
  inits : Nat := 0
  renegs : Nat := 0
  /-- the key period of the sending half (not in the code) and its sequence number -/
  epoch : Nat := 0
  seq : Nat := 0
  /-- epoch and sequence number of every record sent, in order -/
  sent : List (Nat × Nat) := []
  /-- what completed calls returned, in order -/
  rets : List (Fin n × Call × Ret) := []
  pc : Fin n → PC := fun _ => .idle

variable {n : Nat}

/-- goroutine `t` moves to `p` -/
def St.goto (s : St n) (t : Fin n) (p : PC) : St n := { s with pc := fun u => if u = t then p else s.pc u }
/-- goroutine `t` returns `r` from call `c` -/
def St.ret (s : St n) (t : Fin n) (c : Call) (r : Ret) : St n :=
  { s with pc := fun u => if u = t then .idle else s.pc u, rets := s.rets ++ [(t, c, r)] }

def Cont.call : Cont → Call
  | .ret => .handshake | .read => .read | .write => .write
def Snd.call : Snd → Call
  | .write => .write | .notify true => .close | .notify false => .closeWrite | .sec _ => .read

/-- One step of goroutine `t`. `raw` says whether the peer may send a handshake message that announces more than 65536 bytes. -/
inductive Step (raw : Bool) : Fin n → St n → St n → Prop
  -- Handshake (tls/conn.go:1262-1299), by itself, in Read (1134) and in Write (1046)
  | call (s : St n) (t) (k) (h : s.pc t = .idle) : Step raw t s (s.goto t (.hWant k))
  | hLock (s : St n) (t) (k) (h : s.pc t = .hWant k) (hl : s.hm = none) : Step raw t s { s.goto t (.hCheck k) with hm := some t }
  | hErr (s : St n) (t) (k) (h : s.pc t = .hCheck k) (he : s.err = true) : Step raw t s (s.goto t (.hRel1 k false))
  | hDone (s : St n) (t) (k) (h : s.pc t = .hCheck k) (he : s.err = false) (hc : s.complete = true) : Step raw t s (s.goto t (.hRel1 k true))
  | hNeed (s : St n) (t) (k) (h : s.pc t = .hCheck k) (he : s.err = false) (hc : s.complete = false) : Step raw t s (s.goto t (.hWantIn k))
  | hLockIn (s : St n) (t) (k) (h : s.pc t = .hWantIn k) (hl : s.inp = none) :
      Step raw t s { s.goto t (.run (.hs k)) with inp := some t, inits := s.inits + 1 }
  | hOk (s : St n) (t) (k) (h : s.pc t = .run (.hs k)) : Step raw t s { s.goto t (.hRel2 k true) with complete := true, once := true }
  | hFail (s : St n) (t) (k) (h : s.pc t = .run (.hs k)) : Step raw t s { s.goto t (.hRel2 k false) with err := true }
  | hUnlockIn (s : St n) (t) (k) (b) (h : s.pc t = .hRel2 k b) : Step raw t s { s.goto t (.hRel1 k b) with inp := none }
  | hUnlockFail (s : St n) (t) (k) (h : s.pc t = .hRel1 k false) : Step raw t s { s.ret t k.call .failed with hm := none }
  | hUnlock (s : St n) (t) (h : s.pc t = .hRel1 .ret true) : Step raw t s { s.ret t .handshake .ok with hm := none }
  | hUnlockRead (s : St n) (t) (h : s.pc t = .hRel1 .read true) : Step raw t s { s.goto t .rWant with hm := none }
  | hUnlockEmpty (s : St n) (t) (h : s.pc t = .hRel1 .read true) : Step raw t s { s.ret t .read .ok with hm := none }
  | hUnlockWrite (s : St n) (t) (h : s.pc t = .hRel1 .write true) : Step raw t s { s.goto t (.outWant .write) with hm := none }
  -- Read (tls/conn.go:1142-1198); a record of handshake bytes is accepted only with `handshakeStatus = 1` (tls/conn.go:577-581)
  | rLock (s : St n) (t) (h : s.pc t = .rWant) (hl : s.inp = none) : Step raw t s { s.goto t (.run .read) with inp := some t }
  | rEnd (s : St n) (t) (b) (h : s.pc t = .run .read) : Step raw t s (s.goto t (.rRel b))
  | rUnlock (s : St n) (t) (b : Bool) (h : s.pc t = .rRel b) :
      Step raw t s { s.ret t .read (if b then .ok else .failed) with inp := none }
  -- handleRenegotiation (tls/conn.go:1092-1128)
  | rReneg (s : St n) (t) (h : s.pc t = .run .read) (hc : s.complete = true) : Step raw t s (s.goto t .rWantHm)
  | rLockHm (s : St n) (t) (h : s.pc t = .rWantHm) (hl : s.hm = none) : Step raw t s { s.goto t .rReset with hm := some t }
  | rReset (s : St n) (t) (h : s.pc t = .rReset) : Step raw t s { s.goto t (.run .reneg) with complete := false, renegs := s.renegs + 1 }
  | gOk (s : St n) (t) (h : s.pc t = .run .reneg) : Step raw t s { s.goto t (.rEnd true) with complete := true, err := false }
  | gFail (s : St n) (t) (h : s.pc t = .run .reneg) : Step raw t s { s.goto t (.rEnd false) with err := true }
  | rUnlockHm (s : St n) (t) (h : s.pc t = .rEnd true) : Step raw t s { s.goto t (.run .read) with hm := none }
  | rUnlockHmFail (s : St n) (t) (h : s.pc t = .rEnd false) : Step raw t s { s.goto t (.rRel false) with hm := none }
  -- writeRecord and sendAlert in a section (tls/conn.go:757-761, 942-947)
  | oStart (s : St n) (t) (x) (h : s.pc t = .run x) : Step raw t s (s.goto t (.outWant (.sec x)))
  | oLock (s : St n) (t) (d) (h : s.pc t = .outWant d) (hd : d ≠ .write) (hl : s.out = none) : Step raw t s { s.goto t (.outIn d) with out := some t }
  | oTake (s : St n) (t) (d) (h : s.pc t = .outIn d) : Step raw t s (s.goto t (.outMid d s.epoch s.seq))
  | oPut (s : St n) (t) (d) (e q) (h : s.pc t = .outMid d e q) :
      Step raw t s { s.goto t (.outIn d) with sent := s.sent ++ [(e, q)], seq := q + 1 }
  -- ChangeCipherSpec: the record is sent, then the keys change (tls/conn.go:931-935)
  | oCcs (s : St n) (t) (x) (e q) (h : s.pc t = .outMid (.sec x) e q) (hx : x ≠ .read) :
      Step raw t s { s.goto t (.outIn (.sec x)) with sent := s.sent ++ [(e, q)], epoch := s.epoch + 1, seq := 0 }
  | oDone (s : St n) (t) (d) (r : Ret) (h : s.pc t = .outIn d) (hr : r ≠ .internal) : Step raw t s (s.goto t (.outRel d r))
  | oUnlockSec (s : St n) (t) (x) (r) (h : s.pc t = .outRel (.sec x) r) : Step raw t s { s.goto t (.run x) with out := none }
  | oUnlockWrite (s : St n) (t) (r) (h : s.pc t = .outRel .write r) : Step raw t s { s.ret t .write r with out := none }
  | oUnlockNotify (s : St n) (t) (r) (h : s.pc t = .outRel (.notify false) r) : Step raw t s { s.ret t .closeWrite r with out := none }
  | oUnlockClose (s : St n) (t) (r) (h : s.pc t = .outRel (.notify true) r) : Step raw t s { s.goto t .cShut with out := none }
  -- the alert for an oversized message, sent by readHandshake without the lock (tls/conn.go:963-967)
  | rawTake (s : St n) (t) (x) (h : s.pc t = .run x) (hr : raw = true) : Step raw t s (s.goto t (.rawMid x s.epoch s.seq))
  | rawPut (s : St n) (t) (x) (e q) (h : s.pc t = .rawMid x e q) :
      Step raw t s { s.goto t (.run x) with sent := s.sent ++ [(e, q)], seq := q + 1 }
  -- Write (tls/conn.go:1050-1087)
  | wRefused (s : St n) (t) (h : s.pc t = .idle) : Step raw t s (s.ret t .write .failed)
  | wLock (s : St n) (t) (h : s.pc t = .outWant .write) (hl : s.out = none) : Step raw t s { s.goto t .wChk with out := some t }
  | wErr (s : St n) (t) (h : s.pc t = .wChk) : Step raw t s (s.goto t (.outRel .write .failed))
  | wInternal (s : St n) (t) (h : s.pc t = .wChk) (hc : s.complete = false) : Step raw t s (s.goto t (.outRel .write .internal))
  | wPass (s : St n) (t) (h : s.pc t = .wChk) (hc : s.complete = true) : Step raw t s (s.goto t (.outIn .write))
  -- Close (tls/conn.go:1201-1232), CloseWrite (1239-1245), closeNotify (1247-1256)
  | cRefused (s : St n) (t) (h : s.pc t = .idle) : Step raw t s (s.ret t .close .failed)
  | cStart (s : St n) (t) (h : s.pc t = .idle) : Step raw t s (s.goto t .cTop)
  | cBusy (s : St n) (t) (h : s.pc t = .cTop) : Step raw t s (s.goto t .cShut)
  | cNotify (s : St n) (t) (h : s.pc t = .cTop) (hc : s.complete = true) : Step raw t s (s.goto t (.outWant (.notify true)))
  | cShut (s : St n) (t) (h : s.pc t = .cShut) : Step raw t s (s.ret t .close .ok)
  | nStart (s : St n) (t) (h : s.pc t = .idle) : Step raw t s (s.goto t .nTop)
  | nEarly (s : St n) (t) (h : s.pc t = .nTop) (hc : s.complete = false) : Step raw t s (s.ret t .closeWrite .failed)
  | nNotify (s : St n) (t) (h : s.pc t = .nTop) (hc : s.complete = true) : Step raw t s (s.goto t (.outWant (.notify false)))
  -- ConnectionState, OCSPResponse, VerifyHostname (tls/conn.go:1302-1362)
  | sStart (s : St n) (t) (h : s.pc t = .idle) : Step raw t s (s.goto t .sWant)
  | sLock (s : St n) (t) (h : s.pc t = .sWant) (hl : s.hm = none) : Step raw t s { s.goto t .sIn with hm := some t }
  | sUnlock (s : St n) (t) (h : s.pc t = .sIn) : Step raw t s { s.ret t .state .ok with hm := none }

/-- executions -/
inductive Steps (raw : Bool) : St n → St n → Prop
  | refl (s : St n) : Steps raw s s
  | tail {a b c : St n} {t : Fin n} (h : Steps raw a b) (k : Step raw t b c) : Steps raw a c

/-- a fresh connection, all goroutines outside -/
def init (n : Nat) : St n := {}

/-- the states of a connection used by `n` goroutines -/
def Reachable (raw : Bool) (s : St n) : Prop := Steps raw (init n) s

/-- goroutine `t` is waiting for a lock that goroutine `u` holds -/
def Waits (s : St n) (t u : Fin n) : Prop :=
  (((∃ k, s.pc t = .hWant k) ∨ s.pc t = .rWantHm ∨ s.pc t = .sWant) ∧ s.hm = some u) ∨
  (((∃ k, s.pc t = .hWantIn k) ∨ s.pc t = .rWant) ∧ s.inp = some u) ∨
  ((∃ d, s.pc t = .outWant d) ∧ s.out = some u)

/-- goroutine `t` is running a handshake: a first one (`hs`) or a renegotiation; it may be sending a record -/
def Handshaking (s : St n) (t : Fin n) : Prop := ∃ x : Sec, x ≠ .read ∧
  (s.pc t = .run x ∨ s.pc t = .outWant (.sec x) ∨ s.pc t = .outIn (.sec x) ∨ (∃ e q, s.pc t = .outMid (.sec x) e q) ∨
    (∃ r, s.pc t = .outRel (.sec x) r) ∨ ∃ e q, s.pc t = .rawMid x e q)

end Verif.Tls.Locks
