import Verif.Std.Cbc
import Verif.Sm3.Spec
import Verif.Tls.Suites
/-!
Model of tls/prf.go and of the key-block handling of the handshakes. Hash functions other than SM3
are parameters; SM3 is the standard's function, which the code computes (C01-C03). A Go `hash.Hash`
object is represented by the bytes written to it since its last `Reset`.
-/
namespace Verif.Tls
open Verif

structure HashFn where
  sum : Bytes → Bytes
  size : Nat
  block : Nat
  len : ∀ m, (sum m).length = size
  pos : 0 < size

/-- crypto/md5, crypto/sha1, crypto/sha256, crypto/sha512 -/
structure Hashes where
  md5 : HashFn
  md5_size : md5.size = 16
  sha1 : HashFn
  sha1_size : sha1.size = 20
  sha256 : HashFn
  sha384 : HashFn

/-- sm3/sm3.go (`Size` 32, `BlockSize` 64) -/
def sm3 : HashFn :=
  { sum := Sm3.Spec.hash, size := 32, block := 64,
    len := by intro m; simp [Sm3.Spec.hash, List.range, List.range.loop], pos := by decide }

/-- crypto/hmac (standard library) -/
def hmac (H : HashFn) (key m : Bytes) : Bytes :=
  let k := if H.block < key.length then H.sum key else key
  let k := k ++ List.replicate (H.block - k.length) 0
  H.sum (k.map (· ^^^ 0x5c) ++ H.sum (k.map (· ^^^ 0x36) ++ m))

theorem hmac_length (H : HashFn) (key m : Bytes) : (hmac H key m).length = H.size := by
  simp only [hmac, H.len]

/-- tls/prf.go:21-25 -/
def splitPreMasterSecret (secret : Bytes) : Bytes × Bytes :=
  (secret.take ((secret.length + 1) / 2), secret.drop (secret.length / 2))

/-- the loop of tls/prf.go:34-45. The fuel is never exhausted: `b` is not empty. -/
def pHashLoop (mac : Bytes → Bytes) (seed : Bytes) : Nat → Bytes → Nat → Bytes → Bytes
  | 0, _, _, result => result
  | fuel+1, a, j, result =>
    if j < result.length then
      let b := mac (a ++ seed)
      pHashLoop mac seed fuel (mac a) (j + b.length) (copyAt result j b)
    else result

/-- tls/prf.go:28-46; the `result` buffer is passed and its new content returned. -/
def pHash (H : HashFn) (result secret seed : Bytes) : Bytes :=
  let a := hmac H secret seed
  pHashLoop (hmac H secret) seed result.length a 0 result

/-- tls/prf.go:49-64 -/
def prf10 (hs : Hashes) (result secret label seed : Bytes) : Bytes :=
  let labelAndSeed := label ++ seed
  let (s1, s2) := splitPreMasterSecret secret
  let result := pHash hs.md5 result s1 labelAndSeed
  let result2 := pHash hs.sha1 (List.replicate result.length 0) s2 labelAndSeed
  Std.xorB result result2

/-- tls/prf.go:67-76 -/
def prf12 (H : HashFn) (result secret label seed : Bytes) : Bytes :=
  pHash H result secret (label ++ seed)

/-- the loop of tls/prf.go:91-108; writing `b[j]` with `j = 11` panics (`b` has 11 bytes, and after
the inner loop its first `i+1` bytes all are `'A' + i`). -/
def prf30Loop (hs : Hashes) (secret seed : Bytes) : Nat → Nat → Nat → Bytes → Res Bytes
  | 0, _, _, result => .ok result
  | fuel+1, i, done, result =>
    if done < result.length then
      if 11 ≤ i then .panic
      else
        let b := List.replicate (i + 1) (BitVec.ofNat 8 (0x41 + i))
        let digest := hs.sha1.sum (b ++ secret ++ seed)
        let d := hs.md5.sum (secret ++ digest)
        prf30Loop hs secret seed fuel (i + 1) (done + copyCount result done d) (copyAt result done d)
    else .ok result

/-- tls/prf.go:80-109 (the label is not used) -/
def prf30 (hs : Hashes) (result secret _label seed : Bytes) : Res Bytes :=
  prf30Loop hs secret seed result.length 0 0 result

/-- tls/prf.go:123-138: the PRF half of `prfAndHashForVersion`; an unknown version panics. -/
def prfForVersion (hs : Hashes) (v : Version) (s : Suite) : Res (Bytes → Bytes → Bytes → Bytes → Res Bytes) :=
  if v = vSSL30 then .ok (prf30 hs)
  else if v = vTLS10 ∨ v = vTLS11 then .ok fun r sec l sd => .ok (prf10 hs r sec l sd)
  else if v = vTLS12 then
    if s.sha384 then .ok fun r sec l sd => .ok (prf12 hs.sha384 r sec l sd)
    else .ok fun r sec l sd => .ok (prf12 hs.sha256 r sec l sd)
  else if v = vGMSSL then .ok fun r sec l sd => .ok (prf12 sm3 r sec l sd)
  else .panic

/-- the hash half of `prfAndHashForVersion`; `none` is `crypto.Hash(0)` -/
def hashForVersion (hs : Hashes) (v : Version) (s : Suite) : Option HashFn :=
  if v = vTLS12 then (if s.sha384 then some hs.sha384 else some hs.sha256) else none

/-- Go string literals as bytes -/
def str (s : String) : Bytes := s.toUTF8.data.toList.map fun c => BitVec.ofNat 8 c.toNat

/-- "master secret", tls/prf.go:117 -/
def masterSecretLabel : Bytes := [0x6d, 0x61, 0x73, 0x74, 0x65, 0x72, 0x20, 0x73, 0x65, 0x63, 0x72, 0x65, 0x74]
/-- "key expansion", tls/prf.go:118 -/
def keyExpansionLabel : Bytes := [0x6b, 0x65, 0x79, 0x20, 0x65, 0x78, 0x70, 0x61, 0x6e, 0x73, 0x69, 0x6f, 0x6e]
/-- "client finished", tls/prf.go:119 -/
def clientFinishedLabel : Bytes := [0x63, 0x6c, 0x69, 0x65, 0x6e, 0x74, 0x20, 0x66, 0x69, 0x6e, 0x69, 0x73, 0x68, 0x65, 0x64]
/-- "server finished", tls/prf.go:120 -/
def serverFinishedLabel : Bytes := [0x73, 0x65, 0x72, 0x76, 0x65, 0x72, 0x20, 0x66, 0x69, 0x6e, 0x69, 0x73, 0x68, 0x65, 0x64]

example : masterSecretLabel = str "master secret" ∧ keyExpansionLabel = str "key expansion" ∧
    clientFinishedLabel = str "client finished" ∧ serverFinishedLabel = str "server finished" := by decide +kernel

/-- `make([]byte, n)` -/
def zeros (n : Nat) : Bytes := List.replicate n 0

/-- tls/prf.go:147-155 -/
def masterFromPreMasterSecret (hs : Hashes) (v : Version) (s : Suite) (pre clientRandom serverRandom : Bytes) : Res Bytes := do
  let seed := clientRandom ++ serverRandom
  let prf ← prfForVersion hs v s
  prf (zeros 48) pre masterSecretLabel seed

/-- the six pieces, in the order the Go function returns them -/
structure KeyBlock where
  clientMAC : Bytes
  serverMAC : Bytes
  clientKey : Bytes
  serverKey : Bytes
  clientIV : Bytes
  serverIV : Bytes
deriving DecidableEq, Repr

/-- tls/prf.go:160-181 -/
def keysFromMasterSecret (hs : Hashes) (v : Version) (s : Suite) (master clientRandom serverRandom : Bytes)
    (macLen keyLen ivLen : Nat) : Res KeyBlock := do
  let seed := serverRandom ++ clientRandom
  let n := 2 * macLen + 2 * keyLen + 2 * ivLen
  let prf ← prfForVersion hs v s
  let km ← prf (zeros n) master keyExpansionLabel seed
  let clientMAC := km.take macLen
  let km := km.drop macLen
  let serverMAC := km.take macLen
  let km := km.drop macLen
  let clientKey := km.take keyLen
  let km := km.drop keyLen
  let serverKey := km.take keyLen
  let km := km.drop keyLen
  let clientIV := km.take ivLen
  let km := km.drop ivLen
  let serverIV := km.take ivLen
  .ok { clientMAC, serverMAC, clientKey, serverKey, clientIV, serverIV }

/-- what one direction of a connection is keyed with -/
structure DirKeys where
  mac : Bytes
  key : Bytes
  iv : Bytes
deriving DecidableEq, Repr

/-- the two half connections of an endpoint -/
structure ConnKeys where
  inp : DirKeys
  out : DirKeys

/-- tls/handshake_client.go:545-565 (and tls/gm_handshake_client.go:401-424, tls/gm_handshake_client_double.go:392-415)
`clientHandshakeState.establishKeys`. For AEAD suites the MAC key is not used (it has length 0). -/
def clientEstablishKeys (hs : Hashes) (v : Version) (s : Suite) (master clientRandom serverRandom : Bytes) : Res ConnKeys := do
  let kb ← keysFromMasterSecret hs v s master clientRandom serverRandom s.macLen s.keyLen s.ivLen
  .ok { inp := ⟨kb.serverMAC, kb.serverKey, kb.serverIV⟩, out := ⟨kb.clientMAC, kb.clientKey, kb.clientIV⟩ }

/-- tls/handshake_server.go:547-571 (and tls/gm_handshake_server.go:535-559, tls/gm_handshake_server_double.go:512-536)
`serverHandshakeState.establishKeys` -/
def serverEstablishKeys (hs : Hashes) (v : Version) (s : Suite) (master clientRandom serverRandom : Bytes) : Res ConnKeys := do
  let kb ← keysFromMasterSecret hs v s master clientRandom serverRandom s.macLen s.keyLen s.ivLen
  .ok { inp := ⟨kb.clientMAC, kb.clientKey, kb.clientIV⟩, out := ⟨kb.serverMAC, kb.serverKey, kb.serverIV⟩ }

/-- tls/prf.go:361-390: the closure of `ekmFromMasterSecret`. `context = none` is a nil slice; a
negative `length` panics in `make`. -/
def ekm (hs : Hashes) (v : Version) (s : Suite) (master clientRandom serverRandom : Bytes)
    (label : Bytes) (context : Option Bytes) (length : Int) : Res Bytes :=
  if label = clientFinishedLabel ∨ label = serverFinishedLabel ∨ label = masterSecretLabel ∨ label = keyExpansionLabel then
    .err "reserved ExportKeyingMaterial label"
  else
    let seed := clientRandom ++ serverRandom
    match context with
    | some c =>
      if 65536 ≤ c.length then .err "ExportKeyingMaterial context too long"
      else if length < 0 then .panic
      else do
        let seed := seed ++ beFixed 2 c.length ++ c
        let prf ← prfForVersion hs v s
        prf (zeros length.toNat) master label seed
    | none =>
      if length < 0 then .panic
      else do
        let prf ← prfForVersion hs v s
        prf (zeros length.toNat) master label seed

/-- the parts of a connection that decide `ConnectionState().ExportKeyingMaterial`:
tls/conn.go:1306-1334. -/
structure EkmConn where
  handshakeComplete : Bool
  renegotiation : Bool
  vers : Version
  suite : Suite
  master : Bytes
  clientRandom : Bytes
  serverRandom : Bytes

/-- tls/common.go:183-185 `ExportKeyingMaterial` on the state returned by tls/conn.go:1303-1336: before
the handshake is complete the closure is nil and calling it panics; with renegotiation it is
`noExportedKeyingMaterial` (tls/prf.go:355-357). -/
def exportKeyingMaterial (hs : Hashes) (c : EkmConn) (label : Bytes) (context : Option Bytes) (length : Int) : Res Bytes :=
  if c.handshakeComplete then
    if c.renegotiation then .err "ExportKeyingMaterial is unavailable when renegotiation is enabled"
    else ekm hs c.vers c.suite c.master c.clientRandom c.serverRandom label context length
  else .panic

/-! ### Finished hash -/

/-- tls/prf.go:215-229. Each hash object is its function and the bytes it holds; `md5` objects are
`none` when nil. `nilMD5Hash` (tls/gm_support.go:143-165) ignores its input. -/
structure FinishedHash where
  hash : HashFn
  client : Bytes
  server : Bytes
  clientMD5 : Option (HashFn × Bytes)
  serverMD5 : Option (HashFn × Bytes)
  buffer : Option Bytes
  version : Version
  prf : Bytes → Bytes → Bytes → Bytes → Res Bytes

/-- tls/prf.go:199-211 -/
def newFinishedHash (hs : Hashes) (v : Version) (s : Suite) : Res FinishedHash := do
  let buffer := if v = vSSL30 ∨ vTLS12.toNat ≤ v.toNat then some [] else none
  let prf ← prfForVersion hs v s
  match hashForVersion hs v s with
  | some h => .ok { hash := h, client := [], server := [], clientMD5 := none, serverMD5 := none, buffer := buffer, version := v, prf := prf }
  | none => .ok { hash := hs.sha1, client := [], server := [], clientMD5 := some (hs.md5, []), serverMD5 := some (hs.md5, []),
                  buffer := buffer, version := v, prf := prf }

/-- tls/gm_support.go:167-170. The `nilMD5Hash` objects are non-nil but hold nothing; they are
represented by the SM3 function with no bytes and are never read, see `sum`. -/
def newFinishedHashGM : FinishedHash :=
  { hash := sm3, client := [], server := [], clientMD5 := some (sm3, []), serverMD5 := some (sm3, []),
    buffer := some [], version := vGMSSL, prf := fun r sec l sd => .ok (prf12 sm3 r sec l sd) }

/-- tls/prf.go:230-244; writing to a nil MD5 object would panic. -/
def FinishedHash.write (h : FinishedHash) (msg : Bytes) : Res FinishedHash := do
  let h := { h with client := h.client ++ msg, server := h.server ++ msg }
  let h ← if h.version.toNat < vTLS12.toNat then
      match h.clientMD5, h.serverMD5 with
      | some (f, a), some (g, b) => .ok { h with clientMD5 := some (f, a ++ msg), serverMD5 := some (g, b ++ msg) }
      | _, _ => .panic
    else .ok h
  .ok { h with buffer := h.buffer.map (· ++ msg) }

/-- tls/prf.go:246-254 -/
def FinishedHash.sum (h : FinishedHash) : Res Bytes :=
  if vTLS12.toNat ≤ h.version.toNat ∨ h.version = vGMSSL then .ok (h.hash.sum h.client)
  else match h.clientMD5 with
    | some (f, a) => .ok (f.sum a ++ h.hash.sum h.client)
    | none => .panic

/-- tls/cipher_suites.go:253-255 -/
def ssl30Pad1 : Bytes := List.replicate 48 0x36
def ssl30Pad2 : Bytes := List.replicate 48 0x5c

/-- tls/prf.go:260-286 `finishedSum30`: the digest and what the two hash objects hold afterwards. -/
def finishedSum30 (md5 : HashFn × Bytes) (sha1 : HashFn × Bytes) (master magic : Bytes) : Bytes × Bytes × Bytes :=
  let md5Digest := md5.1.sum (md5.2 ++ magic ++ master ++ ssl30Pad1)
  let m2 := master ++ ssl30Pad2 ++ md5Digest
  let sha1Digest := sha1.1.sum (sha1.2 ++ magic ++ master ++ ssl30Pad1.take 40)
  let s2 := master ++ ssl30Pad2.take 40 ++ sha1Digest
  (md5.1.sum m2 ++ sha1.1.sum s2, m2, s2)

/-- tls/prf.go:293-301 `clientSum`: the verify data, and the state after it. The receiver is passed
by value, but its hash objects are shared, so the SSLv3 branch modifies them. -/
def FinishedHash.clientSum (h : FinishedHash) (master : Bytes) : Res (Bytes × FinishedHash) :=
  if h.version = vSSL30 then
    match h.clientMD5 with
    | some md5 =>
      let r := finishedSum30 md5 (h.hash, h.client) master [0x43, 0x4c, 0x4e, 0x54]
      .ok (r.1, { h with clientMD5 := some (md5.1, r.2.1), client := r.2.2 })
    | none => .panic
  else do
    let sm ← h.sum
    let out ← h.prf (zeros 12) master clientFinishedLabel sm
    .ok (out, h)

/-- tls/prf.go:305-313 `serverSum` -/
def FinishedHash.serverSum (h : FinishedHash) (master : Bytes) : Res (Bytes × FinishedHash) :=
  if h.version = vSSL30 then
    match h.serverMD5 with
    | some md5 =>
      let r := finishedSum30 md5 (h.hash, h.server) master [0x53, 0x52, 0x56, 0x52]
      .ok (r.1, { h with serverMD5 := some (md5.1, r.2.1), server := r.2.2 })
    | none => .panic
  else do
    let sm ← h.sum
    let out ← h.prf (zeros 12) master serverFinishedLabel sm
    .ok (out, h)

/-- tls/prf.go:317-344 `hashForClientCertificate`; `hashAlg` is the function `hashAlg.New` gives. -/
def FinishedHash.hashForClientCertificate (hs : Hashes) (h : FinishedHash) (sigPKCS1 sigECDSA : Bool) (hashAlg : HashFn) (master : Bytes) : Res Bytes :=
  match h.buffer with
  | none =>
    if h.version = vSSL30 ∨ vTLS12.toNat ≤ h.version.toNat then .panic
    else if sigECDSA then .ok (h.hash.sum h.server)
    else h.sum
  | some buf =>
    if h.version = vSSL30 then
      if sigPKCS1 then .ok (finishedSum30 (hs.md5, buf) (hs.sha1, buf) master []).1
      else .err "unsupported signature type for client certificate"
    else if vTLS12.toNat ≤ h.version.toNat then .ok (hashAlg.sum buf)
    else if sigECDSA then .ok (h.hash.sum h.server)
    else h.sum

end Verif.Tls
