import Verif.Std.Cbc
/-!
Model of tls/ticket.go and of the ticket-key handling of tls/common.go.
AES-CTR, HMAC-SHA256 and SHA-512 are parameters.
-/
namespace Verif.Tls
open Verif

/-- crypto/aes + crypto/cipher CTR, crypto/hmac with SHA-256, crypto/sha512 -/
structure TicketCrypto where
  /-- the CTR key stream of the given length for key and IV -/
  ctr : Bytes → Bytes → Nat → Bytes
  ctr_len : ∀ k iv n, (ctr k iv n).length = n
  mac : Bytes → Bytes → Bytes
  mac_len : ∀ k m, (mac k m).length = 32
  sha512 : Bytes → Bytes
  sha512_len : ∀ m, (sha512 m).length = 64

/-- tls/ticket.go:21-29 (`usedOldKey` is not serialized) -/
structure SessionState where
  vers : BitVec 16
  cipherSuite : BitVec 16
  masterSecret : Bytes
  certificates : List Bytes
  usedOldKey : Bool
deriving DecidableEq

/-- tls/ticket.go:77-84: one certificate -/
def marshalCert (c : Bytes) : Bytes := beFixed 4 c.length ++ c

/-- tls/ticket.go:56-88 `sessionState.marshal` (the `byte(len >> ..)` conversions keep the low bits,
which is `beFixed`) -/
def SessionState.marshal (s : SessionState) : Bytes :=
  beFixed 2 s.vers.toNat ++ beFixed 2 s.cipherSuite.toNat ++ beFixed 2 s.masterSecret.length ++ s.masterSecret ++
    beFixed 2 s.certificates.length ++ s.certificates.flatMap marshalCert

/-- the certificate loop, tls/ticket.go:113-127: the certificates and the remaining bytes -/
def parseCerts : Nat → Bytes → Option (List Bytes × Bytes)
  | 0, d => some ([], d)
  | n+1, d =>
    if d.length < 4 then none else
    let certLen := beNat (d.take 4)
    let d := d.drop 4
    if d.length < certLen then none else
    match parseCerts n (d.drop certLen) with
    | none => none
    | some (l, r) => some (d.take certLen :: l, r)

/-- tls/ticket.go:89-130 `sessionState.unmarshal`; `none` is `false` (the partly filled receiver is
discarded by every caller). `certLen < 0` cannot happen for a 64-bit `int`. -/
def SessionState.unmarshal (usedOldKey : Bool) (data : Bytes) : Option SessionState :=
  if data.length < 8 then none else
  let vers := BitVec.ofNat 16 (beNat (data.take 2))
  let suite := BitVec.ofNat 16 (beNat ((data.drop 2).take 2))
  let msLen := beNat ((data.drop 4).take 2)
  let data := data.drop 6
  if data.length < msLen then none else
  let ms := data.take msLen
  let data := data.drop msLen
  if data.length < 2 then none else
  let numCerts := beNat (data.take 2)
  match parseCerts numCerts (data.drop 2) with
  | none => none
  | some (certs, rest) =>
    if rest.length = 0 then
      some { vers := vers, cipherSuite := suite, masterSecret := ms, certificates := certs, usedOldKey := usedOldKey }
    else none

/-- tls/common.go:539-545 -/
structure TicketKey where
  keyName : Bytes
  aesKey : Bytes
  hmacKey : Bytes
deriving DecidableEq

/-- tls/common.go:550-556 `ticketKeyFromBytes` -/
def ticketKeyFromBytes (C : TicketCrypto) (b : Bytes) : TicketKey :=
  let hashed := C.sha512 b
  { keyName := hashed.take 16, aesKey := (hashed.drop 16).take 16, hmacKey := (hashed.drop 32).take 16 }

/-- the ticket-related part of `Config` -/
structure TicketConfig where
  disabled : Bool
  ticketKey : Bytes
  keys : List TicketKey

/-- tls/common.go:604-633 `serverInit`; `rand` is what `c.rand()` delivers. -/
def TicketConfig.serverInit (C : TicketCrypto) (c : TicketConfig) (rand : Bytes) (original : Option TicketConfig) : TicketConfig :=
  if c.disabled ∨ c.keys.length ≠ 0 then c else
  let alreadySet := c.ticketKey.any (fun b => b != 0)
  match original with
  | some o =>
    let c := if alreadySet then c else { c with ticketKey := o.ticketKey }
    { c with keys := o.keys }
  | none =>
    if alreadySet then { c with keys := [ticketKeyFromBytes C c.ticketKey] }
    else if rand.length < 32 then { c with disabled := true }
    else
      let c := { c with ticketKey := rand.take 32 }
      { c with keys := [ticketKeyFromBytes C c.ticketKey] }

/-- tls/common.go:649-662 `SetSessionTicketKeys` -/
def TicketConfig.setKeys (C : TicketCrypto) (c : TicketConfig) (keys : List Bytes) : Res TicketConfig :=
  if keys.length = 0 then .panic
  else .ok { c with keys := keys.map (ticketKeyFromBytes C) }

/-- tls/common.go:560-599 `Clone`, ticket part -/
def TicketConfig.clone (C : TicketCrypto) (c : TicketConfig) (rand : Bytes) : TicketConfig :=
  let c := c.serverInit C rand none
  { disabled := c.disabled, ticketKey := c.ticketKey, keys := c.keys }

/-- `XORKeyStream` -/
def xorCtr (C : TicketCrypto) (key iv data : Bytes) : Bytes := Std.xorB data (C.ctr key iv data.length)

/-- tls/ticket.go:132-155 `encryptTicket`; indexing an empty key list panics. -/
def encryptTicket (C : TicketCrypto) (c : TicketConfig) (rand : Bytes) (s : SessionState) : Res Bytes :=
  if rand.length < 16 then .err "rand"
  else
    let iv := rand.take 16
    match c.keys with
    | [] => .panic
    | key :: _ =>
      let body := key.keyName ++ iv ++ xorCtr C key.aesKey iv s.marshal
      .ok (body ++ C.mac key.hmacKey body)

/-- the key search of tls/ticket.go:168-174, with its index -/
def findKey (name : Bytes) : List TicketKey → Nat → Option (Nat × TicketKey)
  | [], _ => none
  | k :: t, i => if name = k.keyName then some (i, k) else findKey name t (i + 1)

/-- tls/ticket.go:157-200 `decryptTicket`: `none` is `ok = false`. -/
def decryptTicket (C : TicketCrypto) (c : TicketConfig) (enc : Bytes) : Option SessionState :=
  if c.disabled ∨ enc.length < 16 + 16 + 32 then none else
  let keyName := enc.take 16
  let iv := (enc.drop 16).take 16
  let macBytes := enc.drop (enc.length - 32)
  match findKey keyName c.keys 0 with
  | none => none
  | some (keyIndex, key) =>
    let expected := C.mac key.hmacKey (enc.take (enc.length - 32))
    if macBytes ≠ expected then none else
    let ciphertext := (enc.take (enc.length - 32)).drop 32
    SessionState.unmarshal (decide (0 < keyIndex)) (xorCtr C key.aesKey iv ciphertext)

end Verif.Tls
