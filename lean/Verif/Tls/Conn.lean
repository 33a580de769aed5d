import Verif.Tls.Record
/-!
The TLS connection (tls/conn.go): writing and reading records, alerts, handshake messages, application data.

Simplifications: one goroutine at a time holds each half (the mutexes `in` and `out`); the interlock of concurrent
`Write` and `Close` is modelled in Verif/Tls/CloseInterlock.lean. The bytes the peer will ever send are a list
`stream`, after which the transport returns the permanent error `streamErr` (the chunking of `net.Conn.Read`,
temporary errors such as timeouts, and the input buffers in memory are in Verif/Tls/Blocks.lean, which refines this
model: C130). Underlying writes succeed or fail after some bytes as `writes`
says. Error values are strings.
-/
namespace Verif.Tls
open Verif

structure Conn where
  isClient : Bool := false
  /-- `c.config.Renegotiation`: 0 never, 1 once as client, 2 freely as client; the field is an `int`, so any other value is possible -/
  policy : Int := 0
  /-- `c.handshakes`: completed handshakes -/
  handshakes : Nat := 0
  /-- `c.handshakeErr` -/
  handshakeErr : Option String := none
  /-- not in the code: how many handshakes were started (completed or not); see Renegotiation.lean -/
  starts : Nat := 0
  /-- `c.config.DynamicRecordSizingDisabled` -/
  sizingDisabled : Bool := false
  handshakeComplete : Bool := false
  vers : Version := 0
  haveVers : Bool := false
  inp : HalfConn := {}
  out : HalfConn := {}
  /-- bytes from the peer not yet consumed: `rawInput` followed by what the transport will deliver -/
  stream : Bytes := []
  streamErr : String := "EOF"
  /-- handshake bytes not yet consumed -/
  hand : Bytes := []
  /-- application data of the current record not yet returned by Read -/
  input : Option Bytes := none
  warnCount : Nat := 0
  buffering : Bool := false
  sendBuf : Bytes := []
  /-- bytes handed to the transport so far -/
  wire : Bytes := []
  /-- outcomes of the next underlying writes: `some k` fails after `k` bytes; when exhausted, success -/
  writes : List (Option Nat) := []
  bytesSent : Nat := 0
  packetsSent : Nat := 0
  /-- `c.config.rand()` -/
  rand : Bytes := []
  closeNotifySent : Bool := false
  closeNotifyErr : Option String := none

/-- `c.config.Renegotiation != RenegotiateNever` -/
def Conn.renegotiation (c : Conn) : Bool := c.policy != 0

def typCCS : Byte := 20
def typAlert : Byte := 21
def typHandshake : Byte := 22
def typAppData : Byte := 23

/-- tls/conn.go:807-826: the payload that fits in one TCP segment; `1208 - 5 - explicitIVLen` less the overheads -/
def HalfConn.segmentPayload (hc : HalfConn) (e : Nat) : Int :=
  let payloadBytes : Int := 1208 - 5 - e
  match hc.cipher with
  | none => payloadBytes
  | some (.stream _ _) => payloadBytes - hc.macSize
  | some (.aead a) => payloadBytes - a.raw.overhead
  | some (.cbc bs _ _ _) =>
    (BitVec.ofInt 64 payloadBytes &&& ~~~ (BitVec.ofInt 64 ((bs : Int) - 1))).toInt - 1 - hc.macSize

/-- tls/conn.go:793-840 `maxPayloadSizeForWrite` -/
def Conn.maxPayloadSizeForWrite (c : Conn) (typ : Byte) (e : Nat) : Int × Conn :=
  if c.sizingDisabled || typ != typAppData then (16384, c)
  else if 128 * 1024 ≤ c.bytesSent then (16384, c)
  else
    let pkt := c.packetsSent
    let c := { c with packetsSent := c.packetsSent + 1 }
    if pkt > 1000 then (16384, c)
    else
      let n := c.out.segmentPayload e * (pkt + 1)
      (if n > 16384 then 16384 else n, c)

/-- `c.conn.Write(data)` with the byte count, tls/conn.go:848-849, 858-859 -/
def Conn.netWrite (c : Conn) (data : Bytes) : Option String × Conn :=
  match c.writes with
  | some k :: rest =>
    (some "write error", { c with wire := c.wire ++ data.take k, bytesSent := c.bytesSent + (data.take k).length, writes := rest })
  | none :: rest => (none, { c with wire := c.wire ++ data, bytesSent := c.bytesSent + data.length, writes := rest })
  | [] => (none, { c with wire := c.wire ++ data, bytesSent := c.bytesSent + data.length })

/-- tls/conn.go:842-851 `write` -/
def Conn.write (c : Conn) (data : Bytes) : Option String × Conn :=
  if c.buffering then (none, { c with sendBuf := c.sendBuf ++ data }) else c.netWrite data

/-- tls/conn.go:853-863 `flush` -/
def Conn.flush (c : Conn) : Option String × Conn :=
  if c.sendBuf.length = 0 then (none, c)
  else
    let (e, c) := c.netWrite c.sendBuf
    (e, { c with sendBuf := [], buffering := false })

/-- tls/conn.go:901-909: record type and version as written -/
def Conn.recHdr (c : Conn) (typ : Byte) : Bytes :=
  let vers := if c.vers = 0 then vTLS10 else c.vers
  [typ, (vers >>> 8).truncate 8, vers.truncate 8]

/-- tls/conn.go:868-929: the loop of `writeRecordLocked`; `fuel` is the number of bytes still to write. A
non-positive payload size makes the Go code panic or loop for ever; it is a `panic` here and excluded by
`C28_max_payload`. Result: bytes written, error, connection. -/
def Conn.writeLoop : Nat → Conn → Byte → Bytes → Nat → Res (Nat × Option String × Conn)
  | fuel, c, typ, data, n =>
    if data.length = 0 then .ok (n, none, c)
    else match fuel with
    | 0 => .panic
    | fuel + 1 =>
      let e := c.out.writeIVLen
      let r := c.maxPayloadSizeForWrite typ e
      let c := r.2
      if r.1 ≤ 0 then .panic
      else
        let m := min data.length r.1.toNat
        let needRand := e != 0 && !c.out.ivIsSeq
        if needRand && decide (c.rand.length < e) then .ok (n, some "rand error", c)
        else
          let iv := c.rand.take e
          let c := if needRand then { c with rand := c.rand.drop e } else c
          match c.out.writeOne (c.recHdr typ) iv (data.take m) with
          | .ok (b, out') =>
            match ({ c with out := out' } : Conn).write b with
            | (some err, c) => .ok (n, some err, c)
            | (none, c) => Conn.writeLoop fuel c typ (data.drop m) (n + m)
          | .err x => .err x
          | .panic => .panic

/-- tls/conn.go:738-754 `sendAlertLocked`: the error it returns and the connection. (`writeRecordLocked` of an
alert is just the loop.) -/
def Conn.sendAlert (c : Conn) (a : Byte) : Res (Option String × Conn) :=
  let level : Byte := if a = 100 ∨ a = 0 then 1 else 2
  match Conn.writeLoop 2 c typAlert [level, a] 0 with
  | .ok (_, writeErr, c) =>
    if a = 0 then .ok (writeErr, c)
    else
      let e := "local error " ++ toString a.toNat
      .ok (some e, { c with out := { c.out with err := some e } })
  | .err x => .err x
  | .panic => .panic

/-- tls/conn.go:867-938 `writeRecordLocked` -/
def Conn.writeRecord (c : Conn) (typ : Byte) (data : Bytes) : Res (Nat × Option String × Conn) :=
  match Conn.writeLoop data.length c typ data 0 with
  | .ok (n, some e, c) => .ok (n, some e, c)
  | .ok (n, none, c) =>
    if typ = typCCS then
      match c.out.changeCipherSpec with
      | some out' => .ok (n, none, { c with out := out' })
      | none =>
        match c.sendAlert 80 with
        | .ok (e, c) => .ok (n, e, c)
        | .err x => .err x
        | .panic => .panic
    else .ok (n, none, c)
  | .err x => .err x
  | .panic => .panic

/-- `c.in.setErrorLocked(e)`, tls/conn.go:163-166 -/
def Conn.setInErr (c : Conn) (e : Option String) : Conn := { c with inp := { c.inp with err := e } }

/-- `c.in.setErrorLocked(c.sendAlert(a))` -/
def Conn.failAlert (c : Conn) (a : Byte) : Res (Option String × Conn) :=
  match c.sendAlert a with
  | .ok (e, c) => .ok (e, c.setInErr e)
  | .err x => .err x
  | .panic => .panic

/-- `c.sendAlert(a); return c.in.setErrorLocked(errors.New(msg))` -/
def Conn.failMsg (c : Conn) (a : Byte) (msg : String) : Res (Option String × Conn) :=
  match c.sendAlert a with
  | .ok (_, c) => .ok (some msg, c.setInErr (some msg))
  | .err x => .err x
  | .panic => .panic

/-- what one pass of the loop of `readRecord` decides: return this error (or nil), or read another record -/
inductive Step where
  | done (err : Option String)
  | again
deriving DecidableEq

def asDone (r : Res (Option String × Conn)) : Res (Step × Conn) :=
  match r with
  | .ok (e, c) => .ok (.done e, c)
  | .err x => .err x
  | .panic => .panic

/-- tls/conn.go:645-735: what is done with a decrypted record -/
def Conn.processRecord (c : Conn) (want typ : Byte) (data : Bytes) : Res (Step × Conn) :=
  if data.length > 16384 then asDone (c.failAlert 22)
  else
    let c := if typ ≠ typAlert ∧ data.length > 0 then { c with warnCount := 0 } else c
    if typ = typAlert then
      if data.length ≠ 2 then asDone (c.failAlert 10)
      else if data.getD 1 0 = 0 then .ok (.done (some "EOF"), c.setInErr (some "EOF"))
      else if data.getD 0 0 = 1 then
        let c := { c with warnCount := c.warnCount + 1 }
        if c.warnCount > 5 then asDone (c.failMsg 10 "tls: too many warn alerts")
        else .ok (.again, c)
      else if data.getD 0 0 = 2 then
        let e := "remote error " ++ toString (data.getD 1 0).toNat
        .ok (.done (some e), c.setInErr (some e))
      else asDone (c.failAlert 10)
    else if typ = typCCS then
      if typ ≠ want ∨ data.length ≠ 1 ∨ data.getD 0 0 ≠ 1 then asDone (c.failAlert 10)
      else if c.hand.length > 0 then asDone (c.failAlert 10)
      else match c.inp.changeCipherSpec with
        | some inp' => .ok (.done inp'.err, { c with inp := inp' })
        | none => asDone (c.failAlert 80)
    else if typ = typAppData then
      if typ ≠ want then asDone (c.failAlert 10)
      else .ok (.done c.inp.err, { c with input := some data })
    else if typ = typHandshake then
      if typ ≠ want ∧ ¬ (c.isClient = true ∧ c.renegotiation = true) then asDone (c.failAlert 100)
      else .ok (.done c.inp.err, { c with hand := c.hand ++ data })
    else asDone (c.failAlert 10)

/-- tls/conn.go:587-645: one pass, from the label `Again` on -/
def Conn.readOnce (c : Conn) (want : Byte) : Res (Step × Conn) :=
  if c.stream.length < 5 then .ok (.done (some c.streamErr), { c with stream := [] }.setInErr (some c.streamErr))
  else
    let typ := c.stream.getD 0 0
    if want = typHandshake ∧ typ = 0x80 then asDone (c.failMsg 70 "unsupported SSLv2 handshake received")
    else
      let vers : Version := ((c.stream.getD 1 0).zeroExtend 16 <<< 8) ||| (c.stream.getD 2 0).zeroExtend 16
      let n := beNat ((c.stream.drop 3).take 2)
      if c.haveVers = true ∧ vers ≠ c.vers then asDone (c.failMsg 70 "received record with wrong version")
      else if n > 16384 + 2048 then asDone (c.failMsg 22 "oversized record received")
      else if c.haveVers = false ∧ ((typ ≠ typAlert ∧ typ ≠ want) ∨ 0x1000 ≤ vers.toNat) then
        asDone (c.failMsg 10 "first record does not look like a TLS handshake")
      else if c.stream.length < 5 + n then
        let e := if c.streamErr = "EOF" then "unexpected EOF" else c.streamErr
        .ok (.done (some e), { c with stream := [] }.setInErr (some e))
      else
        let b := c.stream.take (5 + n)
        let c := { c with stream := c.stream.drop (5 + n) }
        match c.inp.decrypt b with
        | .ok (none, inp') => asDone (({ c with inp := inp' } : Conn).failAlert 20)
        | .ok (some data, inp') => ({ c with inp := inp' } : Conn).processRecord want typ data
        | .err x => .err x
        | .panic => .panic

/-- tls/conn.go:587-735: the `goto Again` loop. A pass that goes again has raised `warnCount`, and more than 5
warnings end it, so 6 passes are enough (`readLoop_fuel`). -/
def Conn.readLoop : Nat → Conn → Byte → Res (Option String × Conn)
  | 0, _, _ => .panic
  | k + 1, c, want =>
    match c.readOnce want with
    | .ok (.done e, c) => .ok (e, c)
    | .ok (.again, c) => Conn.readLoop k c want
    | .err x => .err x
    | .panic => .panic

/-- tls/conn.go:567-735 `readRecord` -/
def Conn.readRecord (c : Conn) (want : Byte) : Res (Option String × Conn) :=
  if want = typHandshake ∨ want = typCCS then
    if c.handshakeComplete then c.failMsg 80 "tls: handshake or ChangeCipherSpec requested while not in handshake"
    else Conn.readLoop 6 c want
  else if want = typAppData then
    if !c.handshakeComplete then c.failMsg 80 "tls: application data record requested while in handshake"
    else Conn.readLoop 6 c want
  else c.failMsg 80 "tls: unknown record type requested"

/-- tls/conn.go:952-959, 967-974: read handshake records until `k` bytes are there; `fuel` bounds the number of
records by the bytes left in the stream -/
def Conn.fillHand : Nat → Conn → Nat → Res (Option String × Conn)
  | fuel, c, k =>
    if k ≤ c.hand.length then .ok (none, c)
    else match c.inp.err with
      | some e => .ok (some e, c)
      | none =>
        match fuel with
        | 0 => .panic
        | fuel + 1 =>
          match c.readRecord typHandshake with
          | .ok (some e, c) => .ok (some e, c)
          | .ok (none, c) => Conn.fillHand fuel c k
          | .err x => .err x
          | .panic => .panic

/-- the message types with an unmarshaller, tls/conn.go:977-1014 -/
def knownType (t : Byte) : Bool := [0, 1, 2, 4, 11, 13, 22, 12, 14, 16, 15, 67, 20].contains t

/-- tls/conn.go:950-1026 `readHandshake`: the raw bytes of the next message. `parses` says whether the unmarshaller
of its type accepts it. -/
def Conn.readHandshake (parses : Bytes → Bool) (c : Conn) : Res (Except String Bytes × Conn) :=
  match Conn.fillHand (c.stream.length + 1) c 4 with
  | .ok (some e, c) => .ok (.error e, c)
  | .ok (none, c) =>
    let n := beNat ((c.hand.drop 1).take 3)
    if n > 65536 then
      match c.failMsg 80 "tls: handshake message exceeds maximum" with
      | .ok (_, c) => .ok (.error "tls: handshake message exceeds maximum", c)
      | .err x => .err x
      | .panic => .panic
    else
      match Conn.fillHand (c.stream.length + 1) c (4 + n) with
      | .ok (some e, c) => .ok (.error e, c)
      | .ok (none, c) =>
        let data := c.hand.take (4 + n)
        let c := { c with hand := c.hand.drop (4 + n) }
        if knownType (data.getD 0 0) && parses data then .ok (.ok data, c)
        else match c.failAlert 10 with
          | .ok (e, c) => .ok (.error (e.getD ""), c)
          | .err x => .err x
          | .panic => .panic
      | .err x => .err x
      | .panic => .panic
  | .err x => .err x
  | .panic => .panic

/-- tls/conn.go:1073-1084: is the 1/n-1 split used (`len > 1`, version at most TLS 1.0 but not GMSSL, block mode)? -/
def Conn.splits (c : Conn) (b : Bytes) : Bool :=
  decide (1 < b.length) && decide (c.vers.toNat ≤ 0x0301) && c.vers != vGMSSL &&
    (match c.out.cipher with
     | some (.cbc _ _ _ _) => true
     | _ => false)

/-- tls/conn.go:1047-1087 `Write` after the handshake has succeeded and the interlock was passed -/
def Conn.writeApp (c : Conn) (b : Bytes) : Res (Nat × Option String × Conn) :=
  match c.out.err with
  | some e => .ok (0, some e, c)
  | none =>
    if !c.handshakeComplete then .ok (0, some "tls: internal error", c)
    else if c.closeNotifySent then .ok (0, some "tls: protocol is shutdown", c)
    else
      let first : Res (Nat × Option String × Conn) :=
        if c.splits b then c.writeRecord typAppData (b.take 1) else .ok (0, none, c)
      match first with
      | .ok (n, some e, c) => .ok (n, some e, { c with out := { c.out with err := some e } })
      | .ok (m, none, c) =>
        match c.writeRecord typAppData (b.drop m) with
        | .ok (n, e, c) => .ok (n + m, e, { c with out := { c.out with err := e } })
        | .err x => .err x
        | .panic => .panic
      | .err x => .err x
      | .panic => .panic

/-- tls/conn.go:1149-1161: read records until application data or an error is there. `reneg` stands for
`handleRenegotiation`, called when handshake bytes arrived. -/
def Conn.fillInput (reneg : Conn → Res (Option String × Conn)) : Nat → Conn → Res (Option String × Conn)
  | fuel, c =>
    if c.input.isSome || c.inp.err.isSome then .ok (none, c)
    else match fuel with
      | 0 => .panic
      | fuel + 1 =>
        match c.readRecord typAppData with
        | .ok (some e, c) => .ok (some e, c)
        | .ok (none, c) =>
          if c.hand.length > 0 then
            match reneg c with
            | .ok (some e, c) => .ok (some e, c)
            | .ok (none, c) => Conn.fillInput reneg fuel c
            | .err x => .err x
            | .panic => .panic
          else Conn.fillInput reneg fuel c
        | .err x => .err x
        | .panic => .panic

/-- tls/conn.go:1148-1197: the loop of `Read` over empty records; `k` counts the passes left. `peek` says whether
the next byte of the stream is already buffered in `rawInput` (the environment's choice). -/
def Conn.readPass (reneg : Conn → Res (Option String × Conn)) (peek : Bool) : Nat → Conn → Nat → Res (Bytes × Option String × Conn)
  | 0, c, _ => .ok ([], some "multiple Read calls return no data or error", c)
  | k + 1, c, cap =>
    match Conn.fillInput reneg (c.stream.length + 1) c with
    | .ok (some e, c) => .ok ([], some e, c)
    | .ok (none, c) =>
      match c.inp.err with
      | some e => .ok ([], some e, c)
      | none =>
        let data := c.input.getD []
        let got := data.take cap
        let rest := data.drop cap
        let c := { c with input := if rest.length = 0 then none else some rest }
        if peek && decide (got.length ≠ 0) && c.input.isNone && decide (0 < c.stream.length) && (c.stream.getD 0 0 == typAlert) then
          match c.readRecord typAppData with
          | .ok (e, c) => .ok (got, e, c)
          | .err x => .err x
          | .panic => .panic
        else if got.length ≠ 0 then .ok (got, none, c)
        else Conn.readPass reneg peek k c cap
    | .err x => .err x
    | .panic => .panic

/-- tls/conn.go:1132-1197 `Read` with a buffer of `cap` bytes, after the handshake succeeded -/
def Conn.readApp (reneg : Conn → Res (Option String × Conn)) (peek : Bool) (c : Conn) (cap : Nat) : Res (Bytes × Option String × Conn) :=
  if cap = 0 then .ok ([], none, c) else Conn.readPass reneg peek 101 c cap

/-- tls/conn.go:1247-1256 `closeNotify` -/
def Conn.closeNotify (c : Conn) : Res (Option String × Conn) :=
  if c.closeNotifySent then .ok (c.closeNotifyErr, c)
  else match c.sendAlert 0 with
    | .ok (e, c) => .ok (e, { c with closeNotifyErr := e, closeNotifySent := true })
    | .err x => .err x
    | .panic => .panic

/-- tls/conn.go:1239-1245 `CloseWrite` -/
def Conn.closeWrite (c : Conn) : Res (Option String × Conn) :=
  if !c.handshakeComplete then .ok (some "tls: CloseWrite called before handshake complete", c) else c.closeNotify

end Verif.Tls
