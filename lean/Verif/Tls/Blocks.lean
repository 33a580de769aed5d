import Verif.Tls.ConnProps
/-!
The input buffers of a connection, in memory: tls/conn.go:450-547 (`block`, `resize`, `reserve`, `readFromUntil`, `newBlock`, `freeBlock`, `splitBlock`) and
their use in `readRecord` (567-735) and `Read` (1132-1200), over a transport that cuts the byte stream anywhere and may return temporary errors (timeouts) at
any time.

Here blocks are objects with an identity, each a slice (array, length, capacity) into arrays that have an identity too; the free list holds identities. A block
used twice, or two blocks that share an array, would overwrite each other. `Verif/Tls/Conn.lean` has none of that: its connection has one list of bytes. C130
is the refinement between the two.

Simplification: a nil slice is an array of capacity 0 of its own (it is replaced by a new array before anything is written to it).
-/
namespace Verif.Tls.Blocks
open Verif Verif.Tls

/-! ### the transport -/

/-- the errors of `Read`: one for which `Temporary()` holds, or the one that ends the stream -/
inductive NetErr where
  | temporary (e : String)
  | final
deriving DecidableEq

/-- what one `net.Conn.Read` will do: return at most `count` bytes, with this temporary error if any; or, if `last`, with the final error in case the bytes
returned are the last ones (`io.Reader` allows both) -/
structure Move where
  count : Nat
  err : Option String := none
  last : Bool := false

/-- `remaining` are the bytes the peer has sent or will send; when `script` has ended, each call returns as much as it can -/
structure Net where
  remaining : Bytes
  final : String
  script : List Move

/-- `c.conn.Read(p)` with `len(p) = room` -/
def Net.read (t : Net) (room : Nat) : Bytes × Option NetErr × Net :=
  match t.script with
  | [] =>
    if t.remaining = [] then ([], some .final, t)
    else (t.remaining.take room, none, { t with remaining := t.remaining.drop room })
  | m :: s =>
    let k := min m.count room
    let rest := t.remaining.drop k
    (t.remaining.take k,
      match m.err with
      | some e => some (.temporary e)
      | none => if m.last ∧ rest = [] then some .final else none,
      { t with remaining := rest, script := s })

/-! ### blocks -/

/-- tls/conn.go:449-454 `block`; `link` is the free list -/
structure Blk where
  arr : Nat
  cap : Nat
  len : Nat
  off : Nat

structure Heap where
  blocks : Nat → Blk
  mem : Nat → Nat → Byte
  nextB : Nat
  nextA : Nat

/-- `n` bytes of an array from `a` on -/
def slice (f : Nat → Byte) (a n : Nat) : Bytes := (List.range n).map fun i => f (a + i)

/-- `b.data` -/
def Heap.data (h : Heap) (b : Nat) : Bytes := slice (h.mem (h.blocks b).arr) 0 (h.blocks b).len

/-- `b.data[b.off:]` -/
def Heap.unread (h : Heap) (b : Nat) : Bytes := (h.data b).drop (h.blocks b).off

def Heap.setBlk (h : Heap) (b : Nat) (v : Blk) : Heap := { h with blocks := fun i => if i = b then v else h.blocks i }

/-- `copy(array[pos:], bytes)` -/
def Heap.store (h : Heap) (arr pos : Nat) (bytes : Bytes) : Heap :=
  { h with mem := fun a i => if a = arr ∧ pos ≤ i ∧ i < pos + bytes.length then bytes.getD (i - pos) 0 else h.mem a i }

/-- the loop `for m < n { m *= 2 }`; `n` passes are enough -/
def grow : Nat → Nat → Nat → Nat
  | 0, m, _ => m
  | k + 1, m, n => if m < n then grow k (m * 2) n else m

/-- tls/conn.go:466-480 `reserve` -/
def Heap.reserve (h : Heap) (b n : Nat) : Heap :=
  let v := h.blocks b
  if n ≤ v.cap then h
  else
    let m := grow n (if v.cap = 0 then 1024 else v.cap) n
    let h' : Heap := { h with nextA := h.nextA + 1 }
    (h'.store h.nextA 0 (h.data b)).setBlk b { v with arr := h.nextA, cap := m }

/-- tls/conn.go:458-463 `resize` -/
def Heap.resize (h : Heap) (b n : Nat) : Heap :=
  let h := if (h.blocks b).cap < n then h.reserve b n else h
  h.setBlk b { h.blocks b with len := n }

/-- `new(block)` -/
def Heap.alloc (h : Heap) : Nat × Heap :=
  (h.nextB, { h with blocks := fun i => if i = h.nextB then ⟨h.nextA, 0, 0, 0⟩ else h.blocks i, nextB := h.nextB + 1, nextA := h.nextA + 1 })

/-- tls/conn.go:492-506, the loop of `readFromUntil`; `k` bounds the passes -/
def fillLoop : Nat → Heap → Net → Nat → Nat → Res (Option NetErr × Heap × Net)
  | 0, _, _, _, _ => .panic
  | k + 1, h, t, b, n =>
    let v := h.blocks b
    let (got, err, t) := t.read (v.cap - v.len)
    let h := (h.store v.arr v.len got).setBlk b { v with len := v.len + got.length }
    if n ≤ (h.blocks b).len then .ok (none, h, t)
    else match err with
      | some e => .ok (some e, h, t)
      | none => fillLoop k h t b n

/-- tls/conn.go:484-506 `readFromUntil` -/
def readFromUntil (h : Heap) (t : Net) (b n : Nat) : Res (Option NetErr × Heap × Net) :=
  if n ≤ (h.blocks b).len then .ok (none, h, t)
  else fillLoop (t.script.length + 2) (h.reserve b n) t b n

/-- tls/conn.go:514-524 `newBlock` -/
def newBlock (h : Heap) (free : List Nat) : Nat × Heap × List Nat :=
  match free with
  | [] => let (b, h) := h.alloc; (b, h, [])
  | b :: r => (b, h.resize b 0, r)

/-- tls/conn.go:537-546 `splitBlock`, of the block with the rest if there is any -/
def splitBlock (h : Heap) (free : List Nat) (b n : Nat) : Option Nat × Heap × List Nat :=
  if (h.blocks b).len ≤ n then (none, h, free)
  else
    let tail := (h.data b).drop n
    let (bb, h, free) := newBlock h free
    let h := h.resize bb tail.length
    let h := h.store (h.blocks bb).arr 0 tail
    (some bb, h.setBlk b { h.blocks b with len := n }, free)

/-! ### the connection -/

/-- the connection with its buffers. `c` has everything else; its fields `stream`, `streamErr` and `input` are not used. -/
structure BConn where
  c : Conn
  h : Heap
  free : List Nat
  raw : Option Nat
  input : Option Nat
  net : Net

/-- `explicitIVLen` of `decrypt`, tls/conn.go:288-324 -/
def ivLen (hc : HalfConn) : Nat :=
  match hc.cipher with
  | some (.aead a) => a.explicitNonceLen
  | some (.cbc bs _ _ _) => if explicitIVVersion hc.version then bs else 0
  | _ => 0

/-- what `decrypt` leaves in the block: the payload, in place, after the header and the explicit IV; `b.off` there. (With ciphers that make a plaintext no longer
than the ciphertext, `resize` only shortens.) -/
def Heap.decrypted (h : Heap) (b off : Nat) (data : Bytes) : Heap :=
  let h := h.resize b (off + data.length)
  (h.store (h.blocks b).arr off data).setBlk b { h.blocks b with off := off }

inductive BStep where
  | done (err : Option String)
  | again
  /-- a temporary error, not recorded in `c.in.err` -/
  | temporary (err : String)
deriving DecidableEq

def BStep.of : Step → BStep
  | .done e => .done e
  | .again => .again

/-- tls/conn.go:656-735: what is done with the decrypted record in block `b` -/
def BConn.process (s : BConn) (want typ : Byte) (b : Nat) : Res (BStep × BConn) :=
  let data := s.h.unread b
  if data.length ≤ 16384 ∧ typ = typAppData ∧ typ = want then
    .ok (.done s.c.inp.err, { s with c := if data.length > 0 then { s.c with warnCount := 0 } else s.c, input := some b })
  else
    -- a refused handshake record is the only one whose block is not freed
    let free := if data.length ≤ 16384 ∧ typ = typHandshake ∧ typ ≠ want ∧ ¬ (s.c.isClient = true ∧ s.c.renegotiation = true) then s.free else b :: s.free
    match s.c.processRecord want typ data with
    | .ok (r, c) => .ok (BStep.of r, { s with c := c, free := free })
    | .err x => .err x
    | .panic => .panic

/-- an error of the transport, tls/conn.go:594-605, 639-647 -/
def BConn.netFails (s : BConn) (e : NetErr) (eofAs : String) : Res (BStep × BConn) :=
  match e with
  | .temporary e => .ok (.temporary e, s)
  | .final =>
    let e := if s.net.final = "EOF" then eofAs else s.net.final
    .ok (.done (some e), { s with c := s.c.setInErr (some e) })

def asBDone (s : BConn) (r : Res (Option String × Conn)) : Res (BStep × BConn) :=
  match r with
  | .ok (e, c) => .ok (.done e, { s with c := c })
  | .err x => .err x
  | .panic => .panic

/-- tls/conn.go:587-591 -/
def BConn.getRaw (s : BConn) : Nat × BConn :=
  match s.raw with
  | some b => (b, s)
  | none => let (b, h, f) := newBlock s.h s.free; (b, { s with h := h, free := f, raw := some b })

/-- tls/conn.go:650-657, after the record has arrived in block `b` -/
def BConn.openRecord (s : BConn) (want typ : Byte) (b n : Nat) : Res (BStep × BConn) :=
  let (tail, h, free) := splitBlock s.h s.free b n
  match s.c.inp.decrypt (h.data b) with
  | .ok (none, inp') => asBDone { s with h := h, raw := tail, free := b :: free } (({ s.c with inp := inp' } : Conn).failAlert 20)
  | .ok (some data, inp') =>
    BConn.process { s with c := { s.c with inp := inp' }, h := h.decrypted b (5 + ivLen s.c.inp) data, raw := tail, free := free } want typ b
  | .err x => .err x
  | .panic => .panic

/-- tls/conn.go:587-735: one pass -/
def BConn.readOnce (s : BConn) (want : Byte) : Res (BStep × BConn) :=
  let (b, s) := s.getRaw
  match readFromUntil s.h s.net b 5 with
  | .err x => .err x
  | .panic => .panic
  | .ok (some e, h, t) => BConn.netFails { s with h := h, net := t } e "EOF"
  | .ok (none, h, t) =>
    let s := { s with h := h, net := t }
    let d := h.data b
    let typ := d.getD 0 0
    if want = typHandshake ∧ typ = 0x80 then asBDone s (s.c.failMsg 70 "unsupported SSLv2 handshake received")
    else
      let vers : Version := ((d.getD 1 0).zeroExtend 16 <<< 8) ||| (d.getD 2 0).zeroExtend 16
      let n := beNat ((d.drop 3).take 2)
      if s.c.haveVers = true ∧ vers ≠ s.c.vers then asBDone s (s.c.failMsg 70 "received record with wrong version")
      else if n > 16384 + 2048 then asBDone s (s.c.failMsg 22 "oversized record received")
      else if s.c.haveVers = false ∧ ((typ ≠ typAlert ∧ typ ≠ want) ∨ 0x1000 ≤ vers.toNat) then
        asBDone s (s.c.failMsg 10 "first record does not look like a TLS handshake")
      else
        match readFromUntil s.h s.net b (5 + n) with
        | .err x => .err x
        | .panic => .panic
        | .ok (some e, h, t) => BConn.netFails { s with h := h, net := t } e "unexpected EOF"
        | .ok (none, h, t) => BConn.openRecord { s with h := h, net := t } want typ b (5 + n)

/-- the `goto Again` loop, as `Conn.readLoop` -/
def BConn.readLoop : Nat → BConn → Byte → Res (BStep × BConn)
  | 0, _, _ => .panic
  | k + 1, s, want =>
    match s.readOnce want with
    | .ok (.again, s) => BConn.readLoop k s want
    | r => r

/-- tls/conn.go:567-735 `readRecord` -/
def BConn.readRecord (s : BConn) (want : Byte) : Res (BStep × BConn) :=
  if want = typHandshake ∨ want = typCCS then
    if s.c.handshakeComplete then asBDone s (s.c.failMsg 80 "tls: handshake or ChangeCipherSpec requested while not in handshake")
    else BConn.readLoop 6 s want
  else if want = typAppData then
    if !s.c.handshakeComplete then asBDone s (s.c.failMsg 80 "tls: application data record requested while in handshake")
    else BConn.readLoop 6 s want
  else asBDone s (s.c.failMsg 80 "tls: unknown record type requested")

/-! ### Read -/

/-- the bytes in an optional block -/
def tailData (h : Heap) : Option Nat → Bytes
  | some t => h.data t
  | none => []

/-- the bytes read from the transport and not yet used -/
def BConn.rawBytes (s : BConn) : Bytes := tailData s.h s.raw

/-- the errors of `Read` -/
inductive BErr where
  /-- recorded in `c.in.err`: every later `Read` returns it -/
  | permanent (e : String)
  | temporary (e : String)
  /-- `io.ErrNoProgress`, after 101 empty records -/
  | noProgress
deriving DecidableEq

/-- what `readRecord` returned; `again` is not returned by `readLoop` -/
def BStep.error : BStep → Option BErr
  | .done none => none
  | .done (some e) => some (.permanent e)
  | .again => none
  | .temporary e => some (.temporary e)

/-- tls/conn.go:1149-1161, as `Conn.fillInput` -/
def BConn.fillInput (reneg : BConn → Res (Option BErr × BConn)) : Nat → BConn → Res (Option BErr × BConn)
  | fuel, s =>
    if s.input.isSome || s.c.inp.err.isSome then .ok (none, s)
    else match fuel with
      | 0 => .panic
      | fuel + 1 =>
        match s.readRecord typAppData with
        | .ok (r, s) =>
          match r.error with
          | some e => .ok (some e, s)
          | none =>
            if s.c.hand.length > 0 then
              match reneg s with
              | .ok (some e, s) => .ok (some e, s)
              | .ok (none, s) => BConn.fillInput reneg fuel s
              | .err x => .err x
              | .panic => .panic
            else BConn.fillInput reneg fuel s
        | .err x => .err x
        | .panic => .panic

/-- tls/conn.go:1166-1170: `c.input.Read(b)`, and the block is freed when it is used up -/
def BConn.consume (s : BConn) (b cap : Nat) : Bytes × BConn :=
  let got := (s.h.unread b).take cap
  let h := s.h.setBlk b { s.h.blocks b with off := (s.h.blocks b).off + got.length }
  if (h.blocks b).len ≤ (h.blocks b).off then (got, { s with h := h, input := none, free := b :: s.free })
  else (got, { s with h := h })

/-- tls/conn.go:1148-1197, as `Conn.readPass`: but whether the next record's first byte is already there is read off `c.rawInput` -/
def BConn.readPass (reneg : BConn → Res (Option BErr × BConn)) : Nat → BConn → Nat → Res (Bytes × Option BErr × BConn)
  | 0, s, _ => .ok ([], some .noProgress, s)
  | k + 1, s, cap =>
    match BConn.fillInput reneg (s.rawBytes.length + s.net.remaining.length + 1) s with
    | .ok (some e, s) => .ok ([], some e, s)
    | .ok (none, s) =>
      match s.c.inp.err, s.input with
      | some e, _ => .ok ([], some (.permanent e), s)
      | none, none => .panic
      | none, some b =>
        let (got, s) := s.consume b cap
        let alert := decide (0 < s.rawBytes.length) && (s.rawBytes.getD 0 0 == typAlert)
        if alert && decide (got.length ≠ 0) && s.input.isNone then
          match s.readRecord typAppData with
          | .ok (r, s) => .ok (got, r.error, s)
          | .err x => .err x
          | .panic => .panic
        else if got.length ≠ 0 then .ok (got, none, s)
        else BConn.readPass reneg k s cap
    | .err x => .err x
    | .panic => .panic

/-- tls/conn.go:1132-1197 `Read` with a buffer of `cap` bytes, after the handshake succeeded -/
def BConn.readApp (reneg : BConn → Res (Option BErr × BConn)) (s : BConn) (cap : Nat) : Res (Bytes × Option BErr × BConn) :=
  if cap = 0 then .ok ([], none, s) else BConn.readPass reneg 101 s cap

/-- one `Read` after another -/
def BConn.reads (reneg : BConn → Res (Option BErr × BConn)) : BConn → List Nat → Res (List (Bytes × Option BErr) × BConn)
  | s, [] => .ok ([], s)
  | s, cap :: caps =>
    match s.readApp reneg cap with
    | .ok (got, e, s) =>
      match BConn.reads reneg s caps with
      | .ok (rs, s) => .ok ((got, e) :: rs, s)
      | .err x => .err x
      | .panic => .panic
    | .err x => .err x
    | .panic => .panic

end Verif.Tls.Blocks
