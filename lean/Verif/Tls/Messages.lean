import Verif.Go
/-!
Model of the handshake message codecs, tls/handshake_messages.go and tls/gm_handshake_messages.go.

* Parsers: `unmarshal` takes the receiver (Go parses into an existing value and leaves the fields it
  does not mention) and the message. `.ok m` is `return true` with the receiver now `m`, `.err` is
  `return false` (every caller then discards the receiver), `.panic` is a run-time panic: an index or
  slice expression out of range. Slice bounds are checked against the *length* (Go checks the
  capacity, which is at least the length), so "does not panic" here implies it in Go. A `for` loop
  takes a step budget and panics when it runs out, so "does not panic" includes "terminates".
* Writers: Go allocates the exact size, then writes through advancing sub-slices. The model
  concatenates the written pieces; where the sum of the pieces can be smaller than the allocation
  (`serverHelloMsg`) the zero tail is explicit. `byte(n >> 16), byte(n >> 8), byte(n)` is
  `beFixed 3 n`.
* `raw` caches the encoding, as in Go: `none` is nil. Strings are byte lists.
-/
namespace Verif.Tls.Wire
open Verif

abbrev U16 := BitVec 16

/-- `d[i]` -/
def idx (d : Bytes) (i : Nat) : Res Byte := if h : i < d.length then .ok d[i] else .panic
/-- `d[a:b]` -/
def sl (d : Bytes) (a b : Nat) : Res Bytes := if a ≤ b ∧ b ≤ d.length then .ok ((d.drop a).take (b - a)) else .panic
/-- `d[a:]` -/
def sfrom (d : Bytes) (a : Nat) : Res Bytes := if a ≤ d.length then .ok (d.drop a) else .panic
/-- `int(d[i])<<8 | int(d[i+1])` -/
def int16 (d : Bytes) (i : Nat) : Res Nat := do
  let a ← idx d i
  let b ← idx d (i + 1)
  pure (a.toNat * 256 + b.toNat)
/-- `uint16(d[i])<<8 | uint16(d[i+1])` -/
def u16 (d : Bytes) (i : Nat) : Res U16 := do
  let n ← int16 d i
  pure (BitVec.ofNat 16 n)
/-- `uint32(d[i])<<16 | uint32(d[i+1])<<8 | uint32(d[i+2])` -/
def u24 (d : Bytes) (i : Nat) : Res Nat := do
  let a ← idx d i
  let b ← idx d (i + 1)
  let c ← idx d (i + 2)
  pure ((a.toNat * 256 + b.toNat) * 256 + c.toNat)

/-- `uint32(len(data)) - 4` in `uint32` arithmetic -/
@[irreducible] def lenMinus4 (data : Bytes) : Nat := (data.length % 2^32 + 2^32 - 4) % 2^32

/-- `return false` -/
def no {α : Type} : Res α := .err "malformed"

/-- the loops `for i := range x { x[i] = uint16(d[0])<<8 | uint16(d[1]); d = d[2:] }`: values and the
rest of `d` (tls/handshake_messages.go:428-431, 459-462, 1316-1319) -/
def readU16s : Nat → Bytes → Res (List U16 × Bytes)
  | 0, d => .ok ([], d)
  | n + 1, d => do
    let v ← u16 d 0
    let d ← sfrom d 2
    let (l, r) ← readU16s n d
    pure (v :: l, r)

/-- `byte(v >> 8), byte(v)` for each element -/
def putU16s (l : List U16) : Bytes := l.flatMap (fun v => beFixed 2 v.toNat)

/-- `copy(x[6:38], m.random)` into a zeroed buffer -/
def pad32 (r : Bytes) : Bytes := r.take 32 ++ List.replicate (32 - r.length) 0

/-- message header: type and 24-bit length -/
def header (ty : Byte) (length : Nat) : Bytes := ty :: beFixed 3 length

/-- an extension: type, 16-bit length, body -/
def extension (ty : Nat) (body : Bytes) : Bytes := beFixed 2 ty ++ beFixed 2 body.length ++ body

/-- tls/common.go:75-84 -/
def extServerName : Nat := 0
def extStatusRequest : Nat := 5
def extSupportedCurves : Nat := 10
def extSupportedPoints : Nat := 11
def extSignatureAlgorithms : Nat := 13
def extALPN : Nat := 16
def extSCT : Nat := 18
def extSessionTicket : Nat := 35
def extNextProtoNeg : Nat := 13172
def extRenegotiationInfo : Nat := 0xff01
/-- tls/common.go:89 `scsvRenegotiation` -/
def scsvRenegotiation : U16 := 0x00ff

/-! ## ClientHello -/

/-- tls/handshake_messages.go:12-31 -/
structure ClientHelloMsg where
  raw : Option Bytes
  vers : U16
  random : Bytes
  sessionId : Bytes
  cipherSuites : List U16
  compressionMethods : Bytes
  nextProtoNeg : Bool
  serverName : Bytes
  ocspStapling : Bool
  scts : Bool
  supportedCurves : List U16
  supportedPoints : Bytes
  ticketSupported : Bool
  sessionTicket : Bytes
  supportedSignatureAlgorithms : List U16
  secureRenegotiation : Bytes
  secureRenegotiationSupported : Bool
  alpnProtocols : List Bytes
deriving DecidableEq, Repr

/-- `new(clientHelloMsg)` -/
def ClientHelloMsg.zero : ClientHelloMsg :=
  ⟨none, 0, [], [], [], [], false, [], false, false, [], [], false, [], [], [], false, []⟩

/-- tls/handshake_messages.go:144-149 (NPN) -/
def chNpn (m : ClientHelloMsg) : Bytes := if m.nextProtoNeg then extension extNextProtoNeg [] else []
/-- tls/handshake_messages.go:150-183 (SNI): list length, type 0, name length, name -/
def chSni (m : ClientHelloMsg) : Bytes :=
  if m.serverName.length > 0 then
    extension extServerName (beFixed 2 (m.serverName.length + 3) ++ (0 : Byte) :: beFixed 2 m.serverName.length ++ m.serverName)
  else []
/-- tls/handshake_messages.go:184-193 -/
def chStatus (m : ClientHelloMsg) : Bytes := if m.ocspStapling then extension extStatusRequest [1, 0, 0, 0, 0] else []
/-- tls/handshake_messages.go:194-210 -/
def chCurves (m : ClientHelloMsg) : Bytes :=
  if m.supportedCurves.length > 0 then
    extension extSupportedCurves (beFixed 2 (2 * m.supportedCurves.length) ++ putU16s m.supportedCurves)
  else []
/-- tls/handshake_messages.go:211-225 -/
def chPoints (m : ClientHelloMsg) : Bytes :=
  if m.supportedPoints.length > 0 then
    extension extSupportedPoints (beFixed 1 m.supportedPoints.length ++ m.supportedPoints)
  else []
/-- tls/handshake_messages.go:226-236 -/
def chTicket (m : ClientHelloMsg) : Bytes := if m.ticketSupported then extension extSessionTicket m.sessionTicket else []
/-- tls/handshake_messages.go:237-255 -/
def chSigAlgs (m : ClientHelloMsg) : Bytes :=
  if m.supportedSignatureAlgorithms.length > 0 then
    extension extSignatureAlgorithms
      (beFixed 2 (2 * m.supportedSignatureAlgorithms.length) ++ putU16s m.supportedSignatureAlgorithms)
  else []
/-- tls/handshake_messages.go:256-265, 650-659: the high length byte is the constant 0 -/
def renegExt (sr : Bytes) : Bytes :=
  beFixed 2 extRenegotiationInfo ++ (0 : Byte) :: beFixed 1 (sr.length + 1) ++ beFixed 1 sr.length ++ sr
def chReneg (m : ClientHelloMsg) : Bytes :=
  if m.secureRenegotiationSupported then renegExt m.secureRenegotiation else []
/-- a list of length-prefixed strings, tls/handshake_messages.go:273-279 -/
def putStrings (l : List Bytes) : Bytes := l.flatMap (fun s => beFixed 1 s.length ++ s)
/-- tls/handshake_messages.go:266-286 -/
def chAlpn (m : ClientHelloMsg) : Bytes :=
  if m.alpnProtocols.length > 0 then
    extension extALPN (beFixed 2 (putStrings m.alpnProtocols).length ++ putStrings m.alpnProtocols)
  else []
/-- tls/handshake_messages.go:287-292 -/
def chSct (m : ClientHelloMsg) : Bytes := if m.scts then extension extSCT [] else []

/-- the extensions in the order they are written -/
def chExts (m : ClientHelloMsg) : Bytes :=
  chNpn m ++ chSni m ++ chStatus m ++ chCurves m ++ chPoints m ++ chTicket m ++ chSigAlgs m ++ chReneg m ++ chAlpn m ++ chSct m

/-- the size Go computes before allocating, tls/handshake_messages.go:65-114: `extensionsLength`,
including the 4 bytes per extension -/
def chExtensionsLength (m : ClientHelloMsg) : Nat :=
  (if m.nextProtoNeg then 4 else 0) +
  (if m.ocspStapling then 4 + (1 + 2 + 2) else 0) +
  (if m.serverName.length > 0 then 4 + (5 + m.serverName.length) else 0) +
  (if m.supportedCurves.length > 0 then 4 + (2 + 2 * m.supportedCurves.length) else 0) +
  (if m.supportedPoints.length > 0 then 4 + (1 + m.supportedPoints.length) else 0) +
  (if m.ticketSupported then 4 + m.sessionTicket.length else 0) +
  (if m.supportedSignatureAlgorithms.length > 0 then 4 + (2 + 2 * m.supportedSignatureAlgorithms.length) else 0) +
  (if m.secureRenegotiationSupported then 4 + (1 + m.secureRenegotiation.length) else 0) +
  (if m.alpnProtocols.length > 0 then 4 + (2 + (m.alpnProtocols.map (fun s => 1 + s.length)).sum) else 0) +
  (if m.scts then 4 else 0)

/-- the extension block: absent if there are none (`numExtensions > 0` iff one is written),
tls/handshake_messages.go:112-115, 139-143 -/
def extBlock (e : Bytes) : Bytes := if e.length > 0 then beFixed 2 e.length ++ e else []

/-- the message body, tls/handshake_messages.go:117-292 -/
def chBody (m : ClientHelloMsg) : Bytes :=
  beFixed 2 m.vers.toNat ++ pad32 m.random ++ beFixed 1 m.sessionId.length ++ m.sessionId ++
    beFixed 2 (2 * m.cipherSuites.length) ++ putU16s m.cipherSuites ++
    beFixed 1 m.compressionMethods.length ++ m.compressionMethods ++ extBlock (chExts m)

/-- tls/handshake_messages.go:59-298 `clientHelloMsg.marshal`: the bytes and the receiver afterwards.
Lines 98-108: an ALPN name that is empty or longer than 255 bytes panics. -/
def ClientHelloMsg.marshal (m : ClientHelloMsg) : Res (Bytes × ClientHelloMsg) :=
  match m.raw with
  | some r => .ok (r, m)
  | none =>
    if m.alpnProtocols.any (fun s => s.length == 0 || decide (s.length > 255)) then .panic else
    let x := header 1 (chBody m).length ++ chBody m
    .ok (x, { m with raw := some x })

/-- the cipher suite loop, tls/handshake_messages.go:324-329: from index `i`, `n` more to read -/
def readSuites (data : Bytes) : Nat → Nat → ClientHelloMsg → Res ClientHelloMsg
  | _, 0, m => .ok m
  | i, n + 1, m => do
    let v ← u16 data (2 + 2 * i)
    let m := { m with
      cipherSuites := m.cipherSuites ++ [v],
      secureRenegotiationSupported := m.secureRenegotiationSupported || decide (v = scsvRenegotiation) }
    readSuites data (i + 1) n m

/-- the host name loop, tls/handshake_messages.go:387-408. `break` leaves the loop. -/
def sniLoop : Nat → Bytes → ClientHelloMsg → Res ClientHelloMsg
  | 0, _, _ => .panic
  | fuel + 1, d, m =>
    if d.length > 0 then
      if d.length < 3 then no else do
      let nameType ← idx d 0
      let nameLen ← int16 d 1
      let d ← sfrom d 3
      if d.length < nameLen then no else
      if nameType = 0 then do
        let name ← sl d 0 nameLen
        if name.getLast? = some (0x2e : Byte) then no else
        pure { m with serverName := name }
      else do
        let d ← sfrom d nameLen
        sniLoop fuel d m
    else .ok m

/-- the string list loops, tls/handshake_messages.go:485-493, 753-761: the strings read -/
def stringsLoop : Nat → Bytes → List Bytes → Res (List Bytes)
  | 0, _, _ => .panic
  | fuel + 1, d, acc =>
    if d.length ≠ 0 then do
      let l ← idx d 0
      let d ← sfrom d 1
      if l.toNat = 0 ∨ l.toNat > d.length then no else
      let s ← sl d 0 l.toNat
      let d ← sfrom d l.toNat
      stringsLoop fuel d (acc ++ [s])
    else .ok acc

/-- the `switch` on the extension type, tls/handshake_messages.go:376-499. `data` is everything after
the extension's header, `length` its declared length. -/
def chExtension (m : ClientHelloMsg) (ext : Nat) (data : Bytes) (length : Nat) : Res ClientHelloMsg :=
  if ext = extServerName then do
    let d ← sl data 0 length
    if d.length < 2 then no else
    let namesLen ← int16 d 0
    let d ← sfrom d 2
    if d.length ≠ namesLen then no else
    sniLoop (d.length + 1) d m
  else if ext = extNextProtoNeg then
    if length > 0 then no else .ok { m with nextProtoNeg := true }
  else if ext = extStatusRequest then
    if length > 0 then do
      let b ← idx data 0
      pure { m with ocspStapling := decide (b = 1) }
    else .ok { m with ocspStapling := false }
  else if ext = extSupportedCurves then
    if length < 2 then no else do
    let l ← int16 data 0
    if l % 2 = 1 ∨ length ≠ l + 2 then no else
    let d ← sfrom data 2
    let (cs, _) ← readU16s (l / 2) d
    pure { m with supportedCurves := cs }
  else if ext = extSupportedPoints then
    if length < 1 then no else do
    let l ← idx data 0
    if length ≠ l.toNat + 1 then no else
    let d ← sfrom data 1
    pure { m with supportedPoints := d.take l.toNat }
  else if ext = extSessionTicket then do
    let t ← sl data 0 length
    pure { m with ticketSupported := true, sessionTicket := t }
  else if ext = extSignatureAlgorithms then
    if length < 2 ∨ length % 2 ≠ 0 then no else do
    let l ← int16 data 0
    if l + 2 ≠ length then no else
    let d ← sfrom data 2
    let (as, _) ← readU16s (l / 2) d
    pure { m with supportedSignatureAlgorithms := as }
  else if ext = extRenegotiationInfo then
    if length = 0 then no else do
    let d ← sl data 0 length
    let l ← idx d 0
    let d ← sfrom d 1
    if l.toNat ≠ d.length then no else
    pure { m with secureRenegotiation := d, secureRenegotiationSupported := true }
  else if ext = extALPN then
    if length < 2 then no else do
    let l ← int16 data 0
    if l + 2 ≠ length then no else
    let d ← sl data 2 length
    let ps ← stringsLoop (d.length + 1) d m.alpnProtocols
    pure { m with alpnProtocols := ps }
  else if ext = extSCT then
    if length ≠ 0 then no else .ok { m with scts := true }
  else .ok m

/-- the extension loop, tls/handshake_messages.go:365-501 and 738-832, over the `switch` of the
message type -/
def extLoop {M : Type} (sw : M → Nat → Bytes → Nat → Res M) : Nat → Bytes → M → Res M
  | 0, _, _ => .panic
  | fuel + 1, data, m =>
    if data.length ≠ 0 then
      if data.length < 4 then no else do
      let ext ← int16 data 0
      let length ← int16 data 2
      let data ← sfrom data 4
      if data.length < length then no else
      let m ← sw m ext data length
      let data ← sfrom data length
      extLoop sw fuel data m
    else .ok m

/-- the optional extension block, tls/handshake_messages.go:351-503, 724-834 -/
def extBlockLoop {M : Type} (sw : M → Nat → Bytes → Nat → Res M) (data : Bytes) (m : M) : Res M :=
  if data.length = 0 then .ok m
  else if data.length < 2 then no
  else do
    let el ← int16 data 0
    let data ← sfrom data 2
    if el ≠ data.length then no else
    extLoop sw (data.length + 1) data m

/-- tls/handshake_messages.go:300-504 `clientHelloMsg.unmarshal`. `supportedCurves`,
`supportedPoints`, `secureRenegotiation` and `secureRenegotiationSupported` are not reset. -/
def ClientHelloMsg.unmarshal (m : ClientHelloMsg) (data : Bytes) : Res ClientHelloMsg :=
  if data.length < 42 then no else do
  let vers ← u16 data 4
  let random ← sl data 6 38
  let sidLen ← idx data 38
  if sidLen.toNat > 32 ∨ data.length < 39 + sidLen.toNat then no else
  let sid ← sl data 39 (39 + sidLen.toNat)
  let m := { m with raw := some data, vers := vers, random := random, sessionId := sid }
  let data ← sfrom data (39 + sidLen.toNat)
  if data.length < 2 then no else
  let csLen ← int16 data 0
  if csLen % 2 = 1 ∨ data.length < 2 + csLen then no else
  let m ← readSuites data 0 (csLen / 2) { m with cipherSuites := [] }
  let data ← sfrom data (2 + csLen)
  if data.length < 1 then no else
  let cmLen ← idx data 0
  if data.length < 1 + cmLen.toNat then no else
  let cms ← sl data 1 (1 + cmLen.toNat)
  let data ← sfrom data (1 + cmLen.toNat)
  extBlockLoop chExtension data { m with
    compressionMethods := cms, nextProtoNeg := false, serverName := [], ocspStapling := false, ticketSupported := false,
    sessionTicket := [], supportedSignatureAlgorithms := [], alpnProtocols := [], scts := false }

/-! ## ServerHello -/

/-- tls/handshake_messages.go:506-521 -/
structure ServerHelloMsg where
  raw : Option Bytes
  vers : U16
  random : Bytes
  sessionId : Bytes
  cipherSuite : U16
  compressionMethod : Byte
  nextProtoNeg : Bool
  nextProtos : List Bytes
  ocspStapling : Bool
  scts : List Bytes
  ticketSupported : Bool
  secureRenegotiation : Bytes
  secureRenegotiationSupported : Bool
  alpnProtocol : Bytes
deriving DecidableEq, Repr

/-- `new(serverHelloMsg)` -/
def ServerHelloMsg.zero : ServerHelloMsg := ⟨none, 0, [], [], 0, 0, false, [], false, [], false, [], false, []⟩

/-- tls/handshake_messages.go:562-570: the length counts every name in full, … -/
def npnLen (l : List Bytes) : Nat := (l.map List.length).sum + l.length
/-- tls/handshake_messages.go:630-638: … but at most 255 bytes of each are written -/
def putNpn (l : List Bytes) : Bytes := l.flatMap (fun s => beFixed 1 (min s.length 255) ++ s.take 255)
def shNpn (m : ServerHelloMsg) : Bytes :=
  if m.nextProtoNeg then beFixed 2 extNextProtoNeg ++ beFixed 2 (npnLen m.nextProtos) ++ putNpn m.nextProtos else []
/-- tls/handshake_messages.go:640-644 -/
def shStatus (m : ServerHelloMsg) : Bytes := if m.ocspStapling then extension extStatusRequest [] else []
/-- tls/handshake_messages.go:645-649 -/
def shTicket (m : ServerHelloMsg) : Bytes := if m.ticketSupported then extension extSessionTicket [] else []
/-- tls/handshake_messages.go:650-659 -/
def shReneg (m : ServerHelloMsg) : Bytes :=
  if m.secureRenegotiationSupported then renegExt m.secureRenegotiation else []
/-- tls/handshake_messages.go:660-674 -/
def shAlpn (m : ServerHelloMsg) : Bytes :=
  if m.alpnProtocol.length > 0 then
    extension extALPN (beFixed 2 (1 + m.alpnProtocol.length) ++ beFixed 1 m.alpnProtocol.length ++ m.alpnProtocol)
  else []
/-- tls/handshake_messages.go:685-690: two-byte length, SCT -/
def putScts (l : List Bytes) : Bytes := l.flatMap (fun s => beFixed 2 s.length ++ s)
/-- tls/handshake_messages.go:675-691 (`sctLen > 0` iff there is an SCT) -/
def shSct (m : ServerHelloMsg) : Bytes :=
  if m.scts.length > 0 then extension extSCT (beFixed 2 (putScts m.scts).length ++ putScts m.scts) else []

def shExts (m : ServerHelloMsg) : Bytes :=
  shNpn m ++ shStatus m ++ shTicket m ++ shReneg m ++ shAlpn m ++ shSct m

/-- the size Go computes before allocating, tls/handshake_messages.go:558-599 -/
def shExtensionsLength (m : ServerHelloMsg) : Nat :=
  (if m.nextProtoNeg then 4 + npnLen m.nextProtos else 0) +
  (if m.ocspStapling then 4 else 0) +
  (if m.ticketSupported then 4 else 0) +
  (if m.secureRenegotiationSupported then 4 + (1 + m.secureRenegotiation.length) else 0) +
  (if m.alpnProtocol.length > 0 then 4 + (2 + 1 + m.alpnProtocol.length) else 0) +
  (if m.scts.length > 0 then 4 + (2 + (m.scts.map (fun s => s.length + 2)).sum) else 0)

/-- bytes of NPN names counted in the lengths but not written, tls/handshake_messages.go:631-638 -/
def npnShort (m : ServerHelloMsg) : Nat := if m.nextProtoNeg then npnLen m.nextProtos - (putNpn m.nextProtos).length else 0

/-- the extension block: the declared length includes the unwritten bytes, which are left zero at the
end of the buffer (tls/handshake_messages.go:597-622) -/
def shExtBlock (m : ServerHelloMsg) : Bytes :=
  if (shExts m).length > 0 then
    beFixed 2 ((shExts m).length + npnShort m) ++ shExts m ++ List.replicate (npnShort m) 0
  else []

/-- tls/handshake_messages.go:602-691 -/
def shBody (m : ServerHelloMsg) : Bytes :=
  beFixed 2 m.vers.toNat ++ pad32 m.random ++ beFixed 1 m.sessionId.length ++ m.sessionId ++
    beFixed 2 m.cipherSuite.toNat ++ [m.compressionMethod] ++ shExtBlock m

/-- tls/handshake_messages.go:553-695; lines 581-587: an ALPN name of 256 bytes or more panics -/
def ServerHelloMsg.marshal (m : ServerHelloMsg) : Res (Bytes × ServerHelloMsg) :=
  match m.raw with
  | some r => .ok (r, m)
  | none =>
    if m.alpnProtocol.length ≥ 256 then .panic else
    let x := header 2 (shBody m).length ++ shBody m
    .ok (x, { m with raw := some x })

/-- the SCT loop, tls/handshake_messages.go:818-828 -/
def sctLoop : Nat → Bytes → List Bytes → Res (List Bytes)
  | 0, _, _ => .panic
  | fuel + 1, d, acc =>
    if d.length ≠ 0 then
      if d.length < 2 then no else do
      let l ← int16 d 0
      let d ← sfrom d 2
      if l = 0 ∨ d.length < l then no else
      let s ← sl d 0 l
      let d ← sfrom d l
      sctLoop fuel d (acc ++ [s])
    else .ok acc

/-- the `switch`, tls/handshake_messages.go:749-829 -/
def shExtension (m : ServerHelloMsg) (ext : Nat) (data : Bytes) (length : Nat) : Res ServerHelloMsg :=
  if ext = extNextProtoNeg then do
    let d ← sl data 0 length
    let ps ← stringsLoop (d.length + 1) d m.nextProtos
    pure { m with nextProtoNeg := true, nextProtos := ps }
  else if ext = extStatusRequest then
    if length > 0 then no else .ok { m with ocspStapling := true }
  else if ext = extSessionTicket then
    if length > 0 then no else .ok { m with ticketSupported := true }
  else if ext = extRenegotiationInfo then
    if length = 0 then no else do
    let d ← sl data 0 length
    let l ← idx d 0
    let d ← sfrom d 1
    if l.toNat ≠ d.length then no else
    pure { m with secureRenegotiation := d, secureRenegotiationSupported := true }
  else if ext = extALPN then do
    let d ← sl data 0 length
    if d.length < 3 then no else
    let l ← int16 d 0
    if l + 2 ≠ d.length then no else
    let d ← sfrom d 2
    let l ← idx d 0
    if l.toNat + 1 ≠ d.length then no else
    let d ← sfrom d 1
    if d.length = 0 then no else
    pure { m with alpnProtocol := d }
  else if ext = extSCT then do
    let d ← sl data 0 length
    if d.length < 2 then no else
    let l ← int16 d 0
    let d ← sfrom d 2
    if d.length ≠ l ∨ l = 0 then no else
    let ss ← sctLoop (d.length + 1) d []
    pure { m with scts := ss }
  else .ok m

/-- tls/handshake_messages.go:697-835; the two renegotiation fields are not reset -/
def ServerHelloMsg.unmarshal (m : ServerHelloMsg) (data : Bytes) : Res ServerHelloMsg :=
  if data.length < 42 then no else do
  let vers ← u16 data 4
  let random ← sl data 6 38
  let sidLen ← idx data 38
  if sidLen.toNat > 32 ∨ data.length < 39 + sidLen.toNat then no else
  let sid ← sl data 39 (39 + sidLen.toNat)
  let m := { m with raw := some data, vers := vers, random := random, sessionId := sid }
  let data ← sfrom data (39 + sidLen.toNat)
  if data.length < 3 then no else
  let cs ← u16 data 0
  let cm ← idx data 2
  let data ← sfrom data 3
  extBlockLoop shExtension data { m with
    cipherSuite := cs, compressionMethod := cm, nextProtoNeg := false, nextProtos := [], ocspStapling := false, scts := [],
    ticketSupported := false, alpnProtocol := [] }

/-! ## Certificate -/

/-- tls/handshake_messages.go:837-840 -/
structure CertificateMsg where
  raw : Option Bytes
  certificates : List Bytes
deriving DecidableEq, Repr

/-- tls/handshake_messages.go:875-881 -/
def putCerts (l : List Bytes) : Bytes := l.flatMap (fun s => beFixed 3 s.length ++ s)

/-- tls/handshake_messages.go:852-885 -/
def CertificateMsg.marshal (m : CertificateMsg) : Res (Bytes × CertificateMsg) :=
  match m.raw with
  | some r => .ok (r, m)
  | none =>
    let b := putCerts m.certificates
    let x := header 11 (3 + b.length) ++ (beFixed 3 b.length ++ b)
    .ok (x, { m with raw := some x })

/-- the counting loop, tls/handshake_messages.go:900-911. `certsLen` is a `uint32`. -/
def countCerts : Nat → Nat → Bytes → Nat → Res Nat
  | 0, _, _, _ => .panic
  | fuel + 1, certsLen, d, n =>
    if certsLen > 0 then
      if d.length < 4 then no else do
      let certLen ← u24 d 0
      if d.length % 2^32 < 3 + certLen then no else
      let d ← sfrom d (3 + certLen)
      countCerts fuel ((certsLen + 2^32 - (3 + certLen)) % 2^32) d (n + 1)
    else .ok n

/-- the second loop, tls/handshake_messages.go:915-919 -/
def takeCerts : Nat → Bytes → Res (List Bytes)
  | 0, _ => .ok []
  | n + 1, d => do
    let certLen ← u24 d 0
    let c ← sl d 3 (3 + certLen)
    let d ← sfrom d (3 + certLen)
    let l ← takeCerts n d
    pure (c :: l)

/-- tls/handshake_messages.go:887-922 -/
def CertificateMsg.unmarshal (_m : CertificateMsg) (data : Bytes) : Res CertificateMsg :=
  if data.length < 7 then no else do
  let certsLen ← u24 data 4
  if data.length % 2^32 ≠ (certsLen + 7) % 2^32 then no else
  let d ← sfrom data 7
  let n ← countCerts (certsLen + 1) certsLen d 0
  let d ← sfrom data 7
  let cs ← takeCerts n d
  pure { raw := some data, certificates := cs }

/-! ## ServerKeyExchange, ClientKeyExchange, Finished: an opaque body -/

/-- tls/handshake_messages.go:924-927 -/
structure ServerKeyExchangeMsg where
  raw : Option Bytes
  key : Bytes
deriving DecidableEq, Repr

/-- tls/handshake_messages.go:939-953 -/
def ServerKeyExchangeMsg.marshal (m : ServerKeyExchangeMsg) : Res (Bytes × ServerKeyExchangeMsg) :=
  match m.raw with
  | some r => .ok (r, m)
  | none =>
    let x := header 12 m.key.length ++ m.key
    .ok (x, { m with raw := some x })

/-- tls/handshake_messages.go:955-962 -/
def ServerKeyExchangeMsg.unmarshal (_m : ServerKeyExchangeMsg) (data : Bytes) : Res ServerKeyExchangeMsg :=
  if data.length < 4 then no else do
  let k ← sfrom data 4
  pure { raw := some data, key := k }

/-- tls/handshake_messages.go:1047-1050 -/
structure ClientKeyExchangeMsg where
  raw : Option Bytes
  ciphertext : Bytes
deriving DecidableEq, Repr

/-- tls/handshake_messages.go:1062-1076 -/
def ClientKeyExchangeMsg.marshal (m : ClientKeyExchangeMsg) : Res (Bytes × ClientKeyExchangeMsg) :=
  match m.raw with
  | some r => .ok (r, m)
  | none =>
    let x := header 16 m.ciphertext.length ++ m.ciphertext
    .ok (x, { m with raw := some x })

/-- tls/handshake_messages.go:1078-1089 -/
def ClientKeyExchangeMsg.unmarshal (_m : ClientKeyExchangeMsg) (data : Bytes) : Res ClientKeyExchangeMsg :=
  if data.length < 4 then no else do
  let l ← u24 data 1
  if l ≠ data.length - 4 then no else
  let c ← sfrom data 4
  pure { raw := some data, ciphertext := c }

/-- tls/handshake_messages.go:1091-1094 -/
structure FinishedMsg where
  raw : Option Bytes
  verifyData : Bytes
deriving DecidableEq, Repr

/-- tls/handshake_messages.go:1106-1117: only the low length byte is written -/
def FinishedMsg.marshal (m : FinishedMsg) : Res (Bytes × FinishedMsg) :=
  match m.raw with
  | some r => .ok (r, m)
  | none =>
    let x := [20, 0, 0] ++ beFixed 1 m.verifyData.length ++ m.verifyData
    .ok (x, { m with raw := some x })

/-- tls/handshake_messages.go:1119-1126 -/
def FinishedMsg.unmarshal (_m : FinishedMsg) (data : Bytes) : Res FinishedMsg :=
  if data.length < 4 then no else do
  let v ← sfrom data 4
  pure { raw := some data, verifyData := v }

/-! ## CertificateStatus -/

/-- tls/handshake_messages.go:964-968 -/
structure CertificateStatusMsg where
  raw : Option Bytes
  statusType : Byte
  response : Bytes
deriving DecidableEq, Repr

/-- tls/handshake_messages.go:981-1007 (`statusTypeOCSP = 1`) -/
def CertificateStatusMsg.marshal (m : CertificateStatusMsg) : Res (Bytes × CertificateStatusMsg) :=
  match m.raw with
  | some r => .ok (r, m)
  | none =>
    let x := if m.statusType = 1 then
        header 22 (m.response.length + 4) ++ ((1 : Byte) :: beFixed 3 m.response.length ++ m.response)
      else [22, 0, 0, 1, m.statusType]
    .ok (x, { m with raw := some x })

/-- tls/handshake_messages.go:1009-1028 -/
def CertificateStatusMsg.unmarshal (_m : CertificateStatusMsg) (data : Bytes) : Res CertificateStatusMsg :=
  if data.length < 5 then no else do
  let ty ← idx data 4
  if ty = 1 then
    if data.length < 8 then no else do
    let respLen ← u24 data 5
    if data.length % 2^32 ≠ (8 + respLen) % 2^32 then no else
    let r ← sfrom data 8
    pure { raw := some data, statusType := ty, response := r }
  else pure { raw := some data, statusType := ty, response := [] }

/-! ## ServerHelloDone, HelloRequest: no body, no `raw` -/

/-- tls/handshake_messages.go:1037-1041 -/
def serverHelloDoneMarshal : Bytes := [14, 0, 0, 0]
/-- tls/handshake_messages.go:1043-1045 -/
def serverHelloDoneUnmarshal (data : Bytes) : Res Unit := if data.length = 4 then .ok () else no
/-- tls/handshake_messages.go:1497-1499 -/
def helloRequestMarshal : Bytes := [0, 0, 0, 0]
/-- tls/handshake_messages.go:1501-1503 -/
def helloRequestUnmarshal (data : Bytes) : Res Unit := if data.length = 4 then .ok () else no

/-! ## NextProtocol -/

/-- tls/handshake_messages.go:1128-1131 -/
structure NextProtoMsg where
  raw : Option Bytes
  proto : Bytes
deriving DecidableEq, Repr

/-- tls/handshake_messages.go:1143-1169 -/
def NextProtoMsg.marshal (m : NextProtoMsg) : Res (Bytes × NextProtoMsg) :=
  match m.raw with
  | some r => .ok (r, m)
  | none =>
    let l := min m.proto.length 255
    let padding := 32 - (l + 2) % 32
    let x := header 67 (l + padding + 2) ++
      (beFixed 1 l ++ m.proto.take l ++ beFixed 1 padding ++ List.replicate padding 0)
    .ok (x, { m with raw := some x })

/-- tls/handshake_messages.go:1171-1196 -/
def NextProtoMsg.unmarshal (_m : NextProtoMsg) (data : Bytes) : Res NextProtoMsg :=
  if data.length < 5 then no else do
  let raw := data
  let data ← sfrom data 4
  let protoLen ← idx data 0
  let data ← sfrom data 1
  if data.length < protoLen.toNat then no else
  let proto ← sl data 0 protoLen.toNat
  let data ← sfrom data protoLen.toNat
  if data.length < 1 then no else
  let padLen ← idx data 0
  let data ← sfrom data 1
  if data.length ≠ padLen.toNat then no else
  pure { raw := some raw, proto := proto }

/-! ## CertificateRequest -/

/-- tls/handshake_messages.go:1198-1208 -/
structure CertificateRequestMsg where
  raw : Option Bytes
  hasSignatureAndHash : Bool
  certificateTypes : Bytes
  supportedSignatureAlgorithms : List U16
  certificateAuthorities : List Bytes
deriving DecidableEq, Repr

/-- tls/handshake_messages.go:1222-1275; the authority list has the layout of `putScts` -/
def CertificateRequestMsg.marshal (m : CertificateRequestMsg) : Res (Bytes × CertificateRequestMsg) :=
  match m.raw with
  | some r => .ok (r, m)
  | none =>
    let cas := putScts m.certificateAuthorities
    let sigs := if m.hasSignatureAndHash then
        beFixed 2 (2 * m.supportedSignatureAlgorithms.length) ++ putU16s m.supportedSignatureAlgorithms
      else []
    let b := beFixed 1 m.certificateTypes.length ++ m.certificateTypes ++ sigs ++ beFixed 2 cas.length ++ cas
    let x := header 13 b.length ++ b
    .ok (x, { m with raw := some x })

/-- the authority loop, tls/handshake_messages.go:1334-1348, tls/gm_handshake_messages.go:104-118 -/
def casLoop : Nat → Bytes → List Bytes → Res (List Bytes)
  | 0, _, _ => .panic
  | fuel + 1, cas, acc =>
    if cas.length > 0 then
      if cas.length < 2 then no else do
      let caLen ← int16 cas 0
      let cas ← sfrom cas 2
      if cas.length < caLen then no else
      let c ← sl cas 0 caLen
      let cas ← sfrom cas caLen
      casLoop fuel cas (acc ++ [c])
    else .ok acc

/-- the end of the message, tls/handshake_messages.go:1322-1350, tls/gm_handshake_messages.go:92-120 -/
def casTail (data : Bytes) : Res (List Bytes) :=
  if data.length < 2 then no else do
  let casLength ← int16 data 0
  let data ← sfrom data 2
  if data.length < casLength then no else
  let cas ← sl data 0 casLength
  let data ← sfrom data casLength
  let l ← casLoop (cas.length + 1) cas []
  if data.length = 0 then pure l else no

/-- the certificate type list, tls/handshake_messages.go:1277-1300, tls/gm_handshake_messages.go:67-90: the types and what follows.
`uint32(len(data))-4` wraps in `uint32`; `len(data) ≥ 5` here. -/
def certTypes (data : Bytes) : Res (Bytes × Bytes) :=
  if data.length < 5 then no else do
  let length ← u24 data 1
  if lenMinus4 data ≠ length then no else
  let numCertTypes ← idx data 4
  let data ← sfrom data 5
  if numCertTypes.toNat = 0 ∨ data.length ≤ numCertTypes.toNat then no else
  let tys := data.take numCertTypes.toNat
  if tys.length ≠ numCertTypes.toNat then no else
  let data ← sfrom data numCertTypes.toNat
  pure (tys, data)

/-- the signature algorithms, tls/handshake_messages.go:1302-1320: the algorithms and what follows -/
def certReqSigAlgs (data : Bytes) : Res (List U16 × Bytes) :=
  if data.length < 2 then no else do
  let n ← int16 data 0
  let data ← sfrom data 2
  if n % 2 ≠ 0 then no else
  if data.length < n then no else
  readU16s (n / 2) data

/-- tls/handshake_messages.go:1277-1351. The flag is set by the caller from the protocol version
(tls/handshake_client.go, tls/conn.go:1010-1013). -/
def CertificateRequestMsg.unmarshal (m : CertificateRequestMsg) (data : Bytes) : Res CertificateRequestMsg := do
  let (tys, rest) ← certTypes data
  if m.hasSignatureAndHash then do
    let (as, rest) ← certReqSigAlgs rest
    let l ← casTail rest
    pure { m with raw := some data, certificateTypes := tys, supportedSignatureAlgorithms := as, certificateAuthorities := l }
  else do
    let l ← casTail rest
    pure { m with raw := some data, certificateTypes := tys, certificateAuthorities := l }

/-- tls/gm_handshake_messages.go:10-15 -/
structure CertificateRequestMsgGM where
  raw : Option Bytes
  certificateTypes : Bytes
  certificateAuthorities : List Bytes
deriving DecidableEq, Repr

/-- tls/gm_handshake_messages.go:28-65 -/
def CertificateRequestMsgGM.marshal (m : CertificateRequestMsgGM) : Res (Bytes × CertificateRequestMsgGM) :=
  match m.raw with
  | some r => .ok (r, m)
  | none =>
    let cas := putScts m.certificateAuthorities
    let b := beFixed 1 m.certificateTypes.length ++ m.certificateTypes ++ beFixed 2 cas.length ++ cas
    let x := header 13 b.length ++ b
    .ok (x, { m with raw := some x })

/-- tls/gm_handshake_messages.go:67-121 -/
def CertificateRequestMsgGM.unmarshal (_m : CertificateRequestMsgGM) (data : Bytes) : Res CertificateRequestMsgGM := do
  let (tys, rest) ← certTypes data
  let l ← casTail rest
  pure { raw := some data, certificateTypes := tys, certificateAuthorities := l }

/-! ## CertificateVerify -/

/-- tls/handshake_messages.go:1353-1358 -/
structure CertificateVerifyMsg where
  raw : Option Bytes
  hasSignatureAndHash : Bool
  signatureAlgorithm : U16
  signature : Bytes
deriving DecidableEq, Repr

/-- tls/handshake_messages.go:1372-1401 -/
def CertificateVerifyMsg.marshal (m : CertificateVerifyMsg) : Res (Bytes × CertificateVerifyMsg) :=
  match m.raw with
  | some r => .ok (r, m)
  | none =>
    let b := (if m.hasSignatureAndHash then beFixed 2 m.signatureAlgorithm.toNat else []) ++
      beFixed 2 m.signature.length ++ m.signature
    let x := header 15 b.length ++ b
    .ok (x, { m with raw := some x })

/-- tls/handshake_messages.go:1421-1432: what follows the optional algorithm -/
def certVerifySig (data : Bytes) : Res Bytes :=
  if data.length < 2 then no else do
  let n ← int16 data 0
  let data ← sfrom data 2
  if data.length ≠ n then no else pure data

/-- tls/handshake_messages.go:1403-1433 -/
def CertificateVerifyMsg.unmarshal (m : CertificateVerifyMsg) (data : Bytes) : Res CertificateVerifyMsg :=
  if data.length < 6 then no else do
  let length ← u24 data 1
  if lenMinus4 data ≠ length then no else
  let raw := data
  let data ← sfrom data 4
  if m.hasSignatureAndHash then do
    let a ← u16 data 0
    let data ← sfrom data 2
    let s ← certVerifySig data
    pure { m with raw := some raw, signatureAlgorithm := a, signature := s }
  else do
    let s ← certVerifySig data
    pure { m with raw := some raw, signature := s }

/-! ## NewSessionTicket -/

/-- tls/handshake_messages.go:1435-1438 -/
structure NewSessionTicketMsg where
  raw : Option Bytes
  ticket : Bytes
deriving DecidableEq, Repr

/-- tls/handshake_messages.go:1450-1470: the lifetime hint stays zero -/
def NewSessionTicketMsg.marshal (m : NewSessionTicketMsg) : Res (Bytes × NewSessionTicketMsg) :=
  match m.raw with
  | some r => .ok (r, m)
  | none =>
    let x := header 4 (6 + m.ticket.length) ++ ([0, 0, 0, 0] ++ beFixed 2 m.ticket.length ++ m.ticket)
    .ok (x, { m with raw := some x })

/-- tls/handshake_messages.go:1472-1492 -/
def NewSessionTicketMsg.unmarshal (_m : NewSessionTicketMsg) (data : Bytes) : Res NewSessionTicketMsg :=
  if data.length < 10 then no else do
  let length ← u24 data 1
  if lenMinus4 data ≠ length then no else
  let ticketLen ← int16 data 8
  if data.length - 10 ≠ ticketLen then no else
  let t ← sfrom data 10
  pure { raw := some data, ticket := t }

end Verif.Tls.Wire
