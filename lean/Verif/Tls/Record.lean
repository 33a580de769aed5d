import Verif.Std.Cbc
import Verif.Tls.Suites
/-!
One direction of the TLS record layer (tls/conn.go:143-445) with the cipher wrappers of
tls/cipher_suites.go:105-326.

Outside the model: the block ciphers, RC4, the AEADs and the hash functions themselves. A record cipher is
an arbitrary key stream, an arbitrary AEAD or an arbitrary block function, so that every theorem holds for
all keys and for all of the suites in the tables. Buffer reuse (`block`, `bfree`, `inDigestBuf`) is not
modelled: a record is the list of its bytes.
-/
namespace Verif.Tls
open Verif Verif.Std

/-- tls/cipher_suites.go:145-148 `macFunction`: output size, and the MAC of (seq, header, data).
The argument `extra` never reaches the result (tls/cipher_suites.go:321-325: it is written after `Sum`). -/
structure Mac where
  size : Nat
  mac : Bytes → Bytes → Bytes → Bytes

/-- tls/cipher_suites.go:304-326 `tls10MAC`, over an arbitrary keyed hash -/
def tls10MAC (size : Nat) (hmac : Bytes → Bytes) : Mac := ⟨size, fun seq header data => hmac (seq ++ header ++ data)⟩

/-- tls/cipher_suites.go:242-281 `ssl30MAC`, over an arbitrary hash -/
def ssl30MAC (size : Nat) (h : Bytes → Bytes) (key : Bytes) : Mac :=
  ⟨size, fun seq header data =>
    let padLength := if size = 20 then 40 else 48
    h (key ++ List.replicate padLength 0x5c ++
      h (key ++ List.replicate padLength 0x36 ++ seq ++ header.take 1 ++ (header.drop 3).take 2 ++ data))⟩

/-- an AEAD of the standard library with a 12-byte nonce: `Seal` and `Open` (nonce, text, additional data) -/
structure RawAead where
  overhead : Nat
  sealF : Bytes → Bytes → Bytes → Bytes
  openF : Bytes → Bytes → Bytes → Option Bytes

/-- the two wrappers with their mutable 12-byte field, tls/cipher_suites.go:159-214 -/
inductive Wrap where
  | fixed (nonce : Bytes)
  | xored (mask : Bytes)

structure Aead where
  raw : RawAead
  wrap : Wrap

/-- tls/cipher_suites.go:169, 190 -/
def Aead.explicitNonceLen (a : Aead) : Nat :=
  match a.wrap with
  | .fixed _ => 8
  | .xored _ => 0

/-- tls/cipher_suites.go:193-195: XOR `nonce` into the field from index 4 on (the field has 12 bytes and the
nonce 8) -/
def xorFrom4 (mask nonce : Bytes) : Bytes := mask.take 4 ++ xorB (mask.drop 4) nonce

/-- the 12 bytes given to the underlying AEAD, tls/cipher_suites.go:172-173, 193-196 -/
def Wrap.fullNonce (w : Wrap) (nonce : Bytes) : Bytes :=
  match w with
  | .fixed f => copyAt f 4 nonce
  | .xored m => xorFrom4 m nonce

/-- the wrapper's field after a call: the fixed-nonce wrapper keeps the explicit part, the XOR wrapper undoes
the XOR (tls/cipher_suites.go:197-199) -/
def Wrap.after (w : Wrap) (nonce : Bytes) : Wrap :=
  match w with
  | .fixed f => .fixed (copyAt f 4 nonce)
  | .xored m => .xored (xorFrom4 (xorFrom4 m nonce) nonce)

/-- tls/cipher_suites.go:171-174, 192-202 `Seal` -/
def Aead.sealW (a : Aead) (nonce text ad : Bytes) : Bytes × Aead :=
  (a.raw.sealF (a.wrap.fullNonce nonce) text ad, { a with wrap := a.wrap.after nonce })

/-- tls/cipher_suites.go:176-179, 204-214 `Open` -/
def Aead.openW (a : Aead) (nonce text ad : Bytes) : Option Bytes × Aead :=
  (a.raw.openF (a.wrap.fullNonce nonce) text ad, { a with wrap := a.wrap.after nonce })

/-- what `halfConn.cipher` can hold: a key stream with its position, an AEAD, or a CBC encrypter (`decrypter =
false`) or decrypter with block size, block function and chaining value -/
inductive Cipher where
  | stream (ks : Nat → Byte) (pos : Nat)
  | aead (a : Aead)
  | cbc (bs : Nat) (decrypter : Bool) (f : Bytes → Bytes) (iv : Bytes)

/-- `cipher.Stream.XORKeyStream` at position `pos` -/
def xorStream (ks : Nat → Byte) (pos : Nat) : Bytes → Bytes
  | [] => []
  | x :: r => (x ^^^ ks pos) :: xorStream ks (pos + 1) r

/-- `cipher.BlockMode.CryptBlocks` of the standard library: panics unless the input is full blocks -/
def cryptBlocks (bs : Nat) (decrypter : Bool) (f : Bytes → Bytes) (iv src : Bytes) : Res (Bytes × Bytes) :=
  if src.length % bs ≠ 0 then .panic
  else .ok (if decrypter then cbcDec f bs (src.length / bs) iv src else cbcEnc f bs (src.length / bs) iv src)

/-- tls/conn.go:143-161 `halfConn` -/
structure HalfConn where
  err : Option String := none
  version : Version := 0
  cipher : Option Cipher := none
  mac : Option Mac := none
  seq : Bytes := List.replicate 8 0
  nextCipher : Option Cipher := none
  nextMac : Option Mac := none

/-- tls/conn.go:168-174 -/
def HalfConn.prepareCipherSpec (hc : HalfConn) (version : Version) (cipher : Option Cipher) (mac : Option Mac) : HalfConn :=
  { hc with version := version, nextCipher := cipher, nextMac := mac }

/-- tls/conn.go:176-190; `none` is `alertInternalError` -/
def HalfConn.changeCipherSpec (hc : HalfConn) : Option HalfConn :=
  match hc.nextCipher with
  | none => none
  | some c => some { hc with cipher := some c, mac := hc.nextMac, nextCipher := none, nextMac := none, seq := List.replicate 8 0 }

/-- tls/conn.go:194-199, least significant byte first; `none` when every byte wrapped -/
def incLE : Bytes → Option Bytes
  | [] => none
  | x :: r => if x + 1 ≠ 0 then some ((x + 1) :: r) else (incLE r).map ((0 : Byte) :: ·)

/-- tls/conn.go:192-205 `incSeq`; panics on wrap-around -/
def HalfConn.incSeq (hc : HalfConn) : Res HalfConn :=
  match incLE hc.seq.reverse with
  | none => .panic
  | some r => .ok { hc with seq := r.reverse }

/-- `byte(int32(^t) >> 31)` for a 64-bit `t`, tls/conn.go:218, 230 -/
def maskOf (t : BitVec 64) : Byte := (((~~~ t).truncate 32).sshiftRight 31).truncate 8

/-- the loop body, tls/conn.go:227-233 -/
def paddingStep (payload : Bytes) (paddingLen : Byte) (good : Byte) (i : Nat) : Byte :=
  let t : BitVec 64 := paddingLen.zeroExtend 64 - BitVec.ofNat 64 i
  let mask := maskOf t
  let b := payload.getD (payload.length - 1 - i) 0
  good &&& ~~~ ((mask &&& paddingLen) ^^^ (mask &&& b))

/-- tls/conn.go:235-240 -/
def foldBits (good : Byte) : Byte :=
  let g := good &&& (good <<< 4)
  let g := g &&& (g <<< 2)
  let g := g &&& (g <<< 1)
  g.sshiftRight 7

/-- tls/conn.go:207-244 `extractPadding` -/
def extractPadding (payload : Bytes) : Nat × Byte :=
  if payload.length < 1 then (0, 0)
  else
    let paddingLen := payload.getD (payload.length - 1) 0
    let t : BitVec 64 := BitVec.ofNat 64 (payload.length - 1) - paddingLen.zeroExtend 64
    let good := maskOf t
    let toCheck := if 256 > payload.length then payload.length else 256
    let good := (List.range toCheck).foldl (paddingStep payload paddingLen) good
    (paddingLen.toNat + 1, foldBits good)

/-- tls/conn.go:246-260 `extractPaddingSSL30` -/
def extractPaddingSSL30 (payload : Bytes) : Nat × Byte :=
  if payload.length < 1 then (0, 0)
  else
    let paddingLen := (payload.getD (payload.length - 1) 0).toNat + 1
    if paddingLen > payload.length then (0, 0) else (paddingLen, 255)

/-- tls/conn.go:262-264 -/
def roundUp (a b : Nat) : Nat := a + (b - a % b) % b

/-- `byte(n >> 8), byte(n)` of a (possibly negative) int -/
def len16 (n : Int) : Bytes := beFixed 2 (n % 65536).toNat

/-- tls/conn.go:318, 877: versions with an explicit CBC IV in each record -/
def explicitIVVersion (v : Version) : Bool := 0x0302 ≤ v.toNat || v == vGMSSL

/-- `subtle.ConstantTimeSelect(int(uint32(n)>>31), 0, n)`, tls/conn.go:356, for an int `n`; the result is used
as an index, so a negative result (impossible below 2^31, see `selectNeg_eq`) is cut to 0 -/
def selectNeg (n : Int) : Nat := if (BitVec.ofInt 32 n).msb then 0 else n.toNat

/-- what the first half of `decrypt` leaves: the decrypted payload, the explicit IV length, padding length and verdict -/
structure Opened where
  payload : Bytes
  explicitIVLen : Nat
  paddingLen : Nat
  paddingGood : Byte

def HalfConn.macSize (hc : HalfConn) : Nat :=
  match hc.mac with
  | none => 0
  | some m => m.size

/-- tls/conn.go:277-345: the decryption step of `decrypt`; `none` is `alertBadRecordMAC`; the second component
is the cipher object afterwards -/
def HalfConn.openPayload (hc : HalfConn) (b : Bytes) : Res (Option Opened × Option Cipher) :=
  let payload := b.drop 5
  match hc.cipher with
  | none => .ok (some ⟨payload, 0, 0, 255⟩, none)
  | some (.stream ks pos) =>
    .ok (some ⟨xorStream ks pos payload, 0, 0, 255⟩, some (.stream ks (pos + payload.length)))
  | some (.aead a) =>
    let e := a.explicitNonceLen
    if payload.length < e then .ok (none, some (.aead a))
    else
      let nonce := payload.take e
      let ct := payload.drop e
      let nonce := if nonce.length = 0 then hc.seq else nonce
      let n : Int := ct.length - a.raw.overhead
      match a.openW nonce ct (hc.seq ++ b.take 3 ++ len16 n) with
      | (none, a') => .ok (none, some (.aead a'))
      | (some p, a') => .ok (some ⟨p, e, 0, 255⟩, some (.aead a'))
  | some (.cbc bs dec f iv) =>
    let e := if explicitIVVersion hc.version then bs else 0
    if payload.length % bs ≠ 0 ∨ payload.length < roundUp (e + hc.macSize + 1) bs then .ok (none, some (.cbc bs dec f iv))
    else
      let iv' := if e > 0 then payload.take e else iv
      let ct := if e > 0 then payload.drop e else payload
      match cryptBlocks bs dec f iv' ct with
      | .ok (p, iv'') =>
        let pad := if hc.version = vSSL30 then extractPaddingSSL30 p else extractPadding p
        .ok (some ⟨p, e, pad.1, pad.2⟩, some (.cbc bs dec f iv''))
      | .err m => .err m
      | .panic => .panic

/-- tls/conn.go:347-369: check and strip the MAC; the result is `b.data[prefixLen:]` -/
def HalfConn.checkMac (hc : HalfConn) (b : Bytes) (p : Opened) : Option Bytes :=
  match hc.mac with
  | none => some p.payload
  | some m =>
    if p.payload.length < m.size then none
    else
      let n := selectNeg ((p.payload.length : Int) - m.size - p.paddingLen)
      let remoteMAC := (p.payload.drop n).take m.size
      let localMAC := m.mac hc.seq (b.take 3 ++ len16 n) (p.payload.take n)
      if localMAC ≠ remoteMAC ∨ p.paddingGood ≠ 255 then none else some (p.payload.take n)

/-- tls/conn.go:275-372 `decrypt` of a whole record (5 header bytes first): `none` is `alertBadRecordMAC` -/
def HalfConn.decrypt (hc : HalfConn) (b : Bytes) : Res (Option Bytes × HalfConn) :=
  match hc.openPayload b with
  | .ok (none, c) => .ok (none, { hc with cipher := c })
  | .ok (some p, c) =>
    match ({ hc with cipher := c } : HalfConn).checkMac b p with
    | none => .ok (none, { hc with cipher := c })
    | some data =>
      match ({ hc with cipher := c } : HalfConn).incSeq with
      | .ok hc' => .ok (some data, hc')
      | .err m => .err m
      | .panic => .panic
  | .err m => .err m
  | .panic => .panic

/-- tls/conn.go:379-389 `padToBlockSize` -/
def padToBlockSize (payload : Bytes) (bs : Nat) : Bytes × Bytes :=
  let overrun := payload.length % bs
  let paddingLen := bs - overrun
  (payload.take (payload.length - overrun),
   payload.drop (payload.length - overrun) ++ List.replicate (bs - overrun) (BitVec.ofNat 8 (paddingLen - 1)))

/-- tls/conn.go:404-447: the part of `encrypt` after the MAC was appended: new record bytes (length field not
yet updated) and cipher object -/
def HalfConn.sealPayload (hc : HalfConn) (b : Bytes) (e : Nat) : Res (Bytes × Option Cipher) :=
  match hc.cipher with
  | none => .ok (b, none)
  | some (.stream ks pos) =>
    .ok (b.take 5 ++ xorStream ks pos (b.drop 5), some (.stream ks (pos + (b.drop 5).length)))
  | some (.aead a) =>
    let payloadLen : Int := (b.length : Int) - 5 - e
    let nonce := (b.drop 5).take e
    let nonce := if nonce.length = 0 then hc.seq else nonce
    let r := a.sealW nonce (b.drop (5 + e)) (hc.seq ++ b.take 3 ++ len16 payloadLen)
    .ok (b.take (5 + e) ++ r.1, some (.aead r.2))
  | some (.cbc bs dec f iv) =>
    let iv' := if e > 0 then (b.drop 5).take e else iv
    let (prefix', final) := padToBlockSize (b.drop (5 + e)) bs
    match cryptBlocks bs dec f iv' prefix' with
    | .ok (c1, iv1) =>
      match cryptBlocks bs dec f iv1 final with
      | .ok (c2, iv2) => .ok (b.take (5 + e) ++ (c1 ++ c2), some (.cbc bs dec f iv2))
      | .err m => .err m
      | .panic => .panic
    | .err m => .err m
    | .panic => .panic

/-- tls/conn.go:393-402: append the MAC -/
def HalfConn.appendMac (hc : HalfConn) (b : Bytes) (e : Nat) : Bytes :=
  match hc.mac with
  | none => b
  | some m => b ++ m.mac hc.seq (b.take 5) (b.drop (5 + e))

/-- tls/conn.go:391-448 `encrypt` -/
def HalfConn.encrypt (hc : HalfConn) (b : Bytes) (e : Nat) : Res (Bytes × HalfConn) :=
  match hc.sealPayload (hc.appendMac b e) e with
  | .ok (r, c) =>
    match ({ hc with cipher := c } : HalfConn).incSeq with
    | .ok hc' => .ok (r.take 3 ++ len16 ((r.length : Int) - 5) ++ r.drop 5, hc')
    | .err m => .err m
    | .panic => .panic
  | .err m => .err m
  | .panic => .panic

/-- tls/conn.go:873-895: the explicit IV length used when writing with this half connection -/
def HalfConn.writeIVLen (hc : HalfConn) : Nat :=
  match hc.cipher with
  | some (.cbc bs _ _ _) => if explicitIVVersion hc.version then bs else 0
  | some (.aead a) => a.explicitNonceLen
  | _ => 0

/-- tls/conn.go:893: the explicit IV is the sequence number (AEAD with explicit nonce) -/
def HalfConn.ivIsSeq (hc : HalfConn) : Bool :=
  match hc.cipher with
  | some (.aead a) => decide (a.explicitNonceLen > 0)
  | _ => false

/-- tls/conn.go:900-923: the bytes written for one record: header `typ, version, length`, explicit IV (the sequence
number for an AEAD with explicit nonce, else the random bytes `iv`), data; then `encrypt`. `hdr` is record type and
version. -/
def HalfConn.writeOne (hc : HalfConn) (hdr iv data : Bytes) : Res (Bytes × HalfConn) :=
  let e := hc.writeIVLen
  let ev := if e = 0 then [] else if hc.ivIsSeq then copyAt (List.replicate e 0) 0 hc.seq else iv
  hc.encrypt (hdr ++ len16 data.length ++ ev ++ data) e

end Verif.Tls
