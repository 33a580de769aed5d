import Verif.Tls.Ticket
import Verif.Tls.Negotiation
/-!
tls/tls.go:72-160 (`Listen`, `DialWithDialer`) and tls/common.go:558-599 (`Clone`).

`DialWithDialer` runs up to three threads: the caller, the goroutine that performs the handshake, and the timer. They share a channel of capacity 2 and the network connection. The model is the transition
system of the three with every interleaving; `dialer.Dial` and `conn.Handshake` end with an arbitrary result or not at all, and the timer may fire at any moment after it was started (real time is not
represented). A panic in `Handshake` is not represented.
-/
namespace Verif.Tls.Dial
open Verif

/-- the errors the caller can see -/
inductive Err where
  /-- of `dialer.Dial` -/
  | dial (m : String)
  /-- `timeoutError` -/
  | timeout
  /-- of `conn.Handshake` -/
  | handshake (m : String)
deriving DecidableEq

/-- the caller: where it is in tls/tls.go:96-160 -/
inductive Main where
  /-- 117: in `dialer.Dial` -/
  | dialing
  /-- 122-139: `dialer.Dial` has returned a connection -/
  | connected
  /-- 142: in `conn.Handshake`, without a timeout -/
  | handshaking
  /-- 148: waiting at the channel -/
  | waiting
  /-- 151: `err` is set; `none` is nil -/
  | got (e : Option Err)
  /-- `DialWithDialer` has returned: `none` is the TLS connection with a nil error -/
  | returned (r : Option Err)
deriving DecidableEq

/-- `conn.Handshake`, in its goroutine or in the caller -/
inductive Hs where
  | idle
  | running
  | ended (e : Option Err)
  /-- the result has been handed over -/
  | sent (e : Option Err)
deriving DecidableEq

inductive Timer where
  | off
  | armed
  | sent
deriving DecidableEq

/-- the network connection -/
inductive Raw where
  | none
  | opened
  | closed
deriving DecidableEq

structure St where
  /-- `timeout != 0` -/
  timed : Bool
  main : Main
  hs : Hs
  timer : Timer
  /-- the contents of `errChannel` -/
  chan : List (Option Err)
  raw : Raw
deriving DecidableEq

/-- tls/tls.go:96-115: at the call of `dialer.Dial` -/
def St.start (timed : Bool) : St :=
  { timed := timed, main := .dialing, hs := .idle, timer := if timed then .armed else .off, chan := [], raw := .none }

inductive Step : St → St → Prop
  /-- 112: the timer; a send to a full channel would block -/
  | fire (s : St) : s.timer = .armed → s.chan.length < 2 → Step s { s with timer := .sent, chan := s.chan ++ [some .timeout] }
  /-- 117-120 -/
  | dialFails (s : St) (m : String) : s.main = .dialing → Step s { s with main := .returned (some (.dial m)) }
  | dialOk (s : St) : s.main = .dialing → Step s { s with main := .connected, raw := .opened }
  /-- 141-142 -/
  | call (s : St) : s.main = .connected → s.timed = false → Step s { s with main := .handshaking, hs := .running }
  /-- 144-148 -/
  | spawn (s : St) : s.main = .connected → s.timed = true → Step s { s with main := .waiting, hs := .running }
  /-- `conn.Handshake` returns -/
  | hsOk (s : St) : s.hs = .running → Step s { s with hs := .ended none }
  | hsFails (s : St) (m : String) : s.hs = .running → Step s { s with hs := .ended (some (.handshake m)) }
  /-- 142 -/
  | hsReturns (s : St) (e : Option Err) : s.main = .handshaking → s.hs = .ended e → Step s { s with main := .got e, hs := .sent e }
  /-- 145 -/
  | hsSends (s : St) (e : Option Err) : s.timed = true → s.hs = .ended e → s.chan.length < 2 → Step s { s with hs := .sent e, chan := s.chan ++ [e] }
  /-- 148 -/
  | recv (s : St) (e : Option Err) (r : List (Option Err)) : s.main = .waiting → s.chan = e :: r → Step s { s with main := .got e, chan := r }
  /-- 151-154 -/
  | fail (s : St) (e : Err) : s.main = .got (some e) → Step s { s with main := .returned (some e), raw := .closed }
  /-- 156 -/
  | succeed (s : St) : s.main = .got none → Step s { s with main := .returned none }

inductive Steps : St → St → Prop
  | refl (s : St) : Steps s s
  | tail {a b c : St} : Steps a b → Step b c → Steps a c

/-- reachable from a call of `DialWithDialer` -/
def Reach (s : St) : Prop := ∃ timed, Steps (St.start timed) s

/-- tls/tls.go:100-107: `timeout` after the deadline was taken into account; the times are nanoseconds and `deadline` is none if `dialer.Deadline.IsZero()` -/
def effTimeout (timeout : Int) (deadline : Option Int) (now : Int) : Int :=
  match deadline with
  | none => timeout
  | some d => if timeout = 0 ∨ d - now < timeout then d - now else timeout

/-- the part of `addr` before the last colon, if there is one: `strings.LastIndex(addr, ":")` -/
def beforeLastColon : Bytes → Option Bytes
  | [] => none
  | b :: r =>
    match beforeLastColon r with
    | some h => some (b :: h)
    | none => if b = 0x3a then some [] else none

/-- tls/tls.go:122-126 `hostname` -/
def hostname (addr : Bytes) : Bytes := (beforeLastColon addr).getD addr

/-- tls/tls.go:128-137: the name verified; `configured` is `config.ServerName`, empty for a nil config -/
def serverName (configured addr : Bytes) : Bytes := if configured.length = 0 then hostname addr else configured

/-- tls/common.go:558-599 `Clone` and what it does to its receiver. A `Config` is split into the fields that `Clone` copies unchanged (`pub`, of any type: they are copied by assignment), and the ticket part.
`initDone` is the receiver's `serverInitOnce`; that of the copy is fresh. -/
structure Cfg (Pub : Type) where
  pub : Pub
  tickets : TicketConfig
  initDone : Bool

/-- `c.serverInitOnce.Do(func() { c.serverInit(nil) })` -/
def Cfg.init {Pub : Type} (C : TicketCrypto) (c : Cfg Pub) (rand : Bytes) : Cfg Pub :=
  if c.initDone then c else { c with tickets := c.tickets.serverInit C rand none, initDone := true }

/-- the receiver afterwards, and the copy -/
def Cfg.clone {Pub : Type} (C : TicketCrypto) (c : Cfg Pub) (rand : Bytes) : Cfg Pub × Cfg Pub :=
  let c := c.init C rand
  (c, { pub := c.pub, tickets := c.tickets, initDone := false })

/-- tls/tls.go:128-137: the caller's configuration afterwards, and the one used. `name` and `setName` access `ServerName`. -/
def dialConfig {Pub : Type} (C : TicketCrypto) (name : Pub → Bytes) (setName : Bytes → Pub → Pub) (addr : Bytes) (c : Cfg Pub) (rand : Bytes) : Cfg Pub × Cfg Pub :=
  if (name c.pub).length = 0 then
    let (c, d) := c.clone C rand
    (c, { d with pub := setName (hostname addr) d.pub })
  else (c, c)

/-- tls/tls.go:72-82 `Listen`: is the configuration accepted? -/
def listenAccepts (c : Option Config) : Bool :=
  match c with
  | none => false
  | some c => !(c.certificates.length == 0 && c.getCertificate.isNone)

end Verif.Tls.Dial
