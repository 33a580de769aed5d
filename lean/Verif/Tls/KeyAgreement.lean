import Verif.Tls.ServerAuthProps
import Verif.Tls.GmKeyAgreement
/-!
Model of `tls/key_agreement.go` (RSA and ECDHE key agreement, both sides), of the client side of `ecdheKeyAgreementGM`
(tls/gm_key_agreement.go:203-289) and of `pickSignatureAlgorithm` with its code point.

Parameters (`KaEnv`): the elliptic curves of crypto/elliptic, curve25519, RSA encryption and decryption. A random source is, as elsewhere, the
bytes it delivers before it fails; where a library function consumes randomness it returns what is left.
-/
namespace Verif.Tls
open Verif Verif.Tls.Wire

/-- a curve of `crypto/elliptic` -/
structure NistCurve where
  /-- `(curve.Params().BitSize + 7) >> 3` -/
  byteLen : Nat
  /-- `elliptic.GenerateKey`: private key, public point, the rest of the source -/
  generateKey : Bytes → Option (Bytes × (Nat × Nat) × Bytes)
  scalarMult : Nat × Nat → Bytes → Nat × Nat
  marshal : Nat × Nat → Bytes
  /-- `elliptic.Unmarshal`, `none` for nil -/
  unmarshal : Bytes → Option (Nat × Nat)

/-- library functions of the key agreements -/
structure KaEnv where
  auth : AuthEnv
  p256 : NistCurve
  p384 : NistCurve
  p521 : NistCurve
  /-- `elliptic.Unmarshal(sm2.P256(), ·)` -/
  sm2Unmarshal : Bytes → Option (Nat × Nat)
  /-- `curve25519.ScalarMult`, scalar first -/
  x25519 : Bytes → Bytes → Bytes
  /-- `curve25519.ScalarBaseMult` -/
  x25519Base : Bytes → Bytes
  /-- `rsa.EncryptPKCS1v15(rand, pub, msg)` -/
  rsaEncrypt : Bytes → Bytes → Bytes → Option Bytes
  /-- `priv.Decrypt(rand, ciphertext, SessionKeyLen: 48)` of an RSA key -/
  rsaDecrypt : Bytes → Bytes → Bytes → Option Bytes

/-- tls/common.go:100 -/
def idX25519 : U16 := 29

/-- tls/key_agreement.go:129-141 `curveForCurveID` -/
def KaEnv.curve (K : KaEnv) (id : U16) : Option NistCurve :=
  if id = 23 then some K.p256 else if id = 24 then some K.p384 else if id = 25 then some K.p521 else none

/-- a private key of a `Certificate` that implements `crypto.Signer`: its public key, and `Sign(rand, digest, opts)`, where `opts` is given by the
signature type and the hash -/
structure Signer where
  pub : X509.Pub
  sign : Bytes → SigType → HashId → Bytes → Res Bytes

/-- tls/auth.go:47-70 with the code point -/
def pickLoopFull (pub : X509.Pub) (ours : List U16) : List U16 → Res (U16 × SigType × HashId)
  | [] => .err "tls: peer doesn't support any common signature algorithms"
  | a :: rest =>
    if a ∉ ours then pickLoopFull pub ours rest
    else match lookupTLSHash a with
      | none => .panic
      | some h =>
        let t := signatureFromSignatureScheme a
        match pub with
        | .rsa _ => if t = .pkcs1v15 ∨ t = .rsaPSS then .ok (a, t, h) else pickLoopFull pub ours rest
        | .ecdsa _ => if t = .ecdsa then .ok (a, t, h) else pickLoopFull pub ours rest
        | .sm2 _ _ => if t = .ecdsa then .ok (a, t, h) else pickLoopFull pub ours rest
        | _ => .err "tls: unsupported public key"

/-- tls/auth.go:25-71 with the code point; `SM2WITHSM3` is 0x0204 -/
def pickSignatureAlgorithmFull (pub : X509.Pub) (peer ours : List U16) (v : Version) : Res (U16 × SigType × HashId) :=
  if v.toNat < vTLS12.toNat ∨ peer.length = 0 then
    match pub with
    | .rsa _ => if v.toNat < vTLS12.toNat then .ok (0, .pkcs1v15, .md5sha1) else .ok (0x0201, .pkcs1v15, .sha1)
    | .ecdsa _ => .ok (0x0203, .ecdsa, .sha1)
    | .sm2 _ _ => .ok (0x0204, .sm2, .sha1)
    | _ => .err "tls: unsupported public key"
  else pickLoopFull pub ours peer

/-- tls/key_agreement.go:111-127 `hashForServerKeyExchange`: the slices are hashed one after the other -/
def hashForSKX (E : AuthEnv) (t : SigType) (h : HashId) (v : Version) (data : Bytes) : Bytes :=
  if vTLS12.toNat ≤ v.toNat then (E.hashFn h).sum data
  else if t = .ecdsa then E.hashes.sha1.sum data
  else E.hashes.md5.sum data ++ E.hashes.sha1.sum data

/-- `copy(preMasterSecret[len(preMasterSecret)-len(xBytes):], xBytes)`, tls/key_agreement.go:286-288, 389-391: a slice expression with a negative
bound if `x` is too long -/
def padPremaster (n x : Nat) : Res Bytes :=
  let xb := natBytes x
  if xb.length > n then .panic else .ok (List.replicate (n - xb.length) 0 ++ xb)

/-- tls/key_agreement.go:163-177: the first of the server's curves that the client offered; `ka.curveid == 0` is an error -/
def pickCurve (prefs offered : List U16) : Option U16 :=
  match prefs.find? (· ∈ offered) with
  | none => none
  | some c => if c = 0 then none else some c

/-- the server's ephemeral key: `ka.curveid`, `ka.privateKey` -/
structure EcdheServer where
  curve : U16
  priv : Bytes
deriving DecidableEq, Repr

/-- tls/key_agreement.go:179-203: the ephemeral key pair; public bytes and the rest of the source -/
def ecdheServerKey (K : KaEnv) (id : U16) (rand : Bytes) : Res (EcdheServer × Bytes × Bytes) :=
  if id = idX25519 then
    match Sm2.readFull rand 32 with
    | none => .err "EOF"
    | some (scalar, rand) => .ok (⟨id, scalar⟩, K.x25519Base scalar, rand)
  else match K.curve id with
    | none => .err "tls: preferredCurves includes unsupported curve"
    | some c => match c.generateKey rand with
      | none => .err "EOF"
      | some (priv, pt, rand) => .ok (⟨id, priv⟩, c.marshal pt, rand)

/-- tls/key_agreement.go:205-211 -/
def ecdhParams (id : U16) (pub : Bytes) : Bytes :=
  [(3 : Byte), (id >>> 8).setWidth 8, id.setWidth 8, BitVec.ofNat 8 pub.length] ++ pub

/-- tls/key_agreement.go:240-255: parameters, for TLS 1.2 the code point, the length of the signature, the signature -/
def ecdheSKX (v : Version) (params : Bytes) (a : U16) (sig : Bytes) : Bytes :=
  params ++ (if vTLS12.toNat ≤ v.toNat then [(a >>> 8).setWidth 8, a.setWidth 8] else []) ++
    [BitVec.ofNat 8 (sig.length / 256), BitVec.ofNat 8 sig.length] ++ sig

/-- tls/key_agreement.go:161-258 `(*ecdheKeyAgreement).generateServerKeyExchange` -/
def ecdheGenSKX (K : KaEnv) (v : Version) (isRSA : Bool) (prefs offeredCurves offeredAlgs : List U16) (rand : Bytes) (signer : Option Signer)
    (clientRandom serverRandom : Bytes) : Res (EcdheServer × Bytes) :=
  match pickCurve prefs offeredCurves with
  | none => .err "tls: no supported elliptic curves offered"
  | some id => do
    let (st, pub, rand) ← ecdheServerKey K id rand
    let params := ecdhParams id pub
    match signer with
    | none => .err "tls: certificate private key does not implement crypto.Signer"
    | some S => do
      let (a, t, h) ← pickSignatureAlgorithmFull S.pub offeredAlgs supportedSignatureAlgorithms v
      if decide (t = .pkcs1v15 ∨ t = .rsaPSS) ≠ isRSA then .err "tls: certificate cannot be used with the selected cipher suite" else do
      let sig ← S.sign rand t h (hashForSKX K.auth t h v (clientRandom ++ serverRandom ++ params))
      .ok (st, ecdheSKX v params a sig)

/-- tls/key_agreement.go:260-291 `(*ecdheKeyAgreement).processClientKeyExchange` -/
def ecdheProcessCKX (K : KaEnv) (st : EcdheServer) (ct : Bytes) : Res Bytes :=
  match ct with
  | [] => .err "tls: invalid ClientKeyExchange message"
  | n :: body =>
    if n.toNat ≠ body.length then .err "tls: invalid ClientKeyExchange message"
    else if st.curve = idX25519 then
      if body.length ≠ 32 then .err "tls: invalid ClientKeyExchange message" else .ok (K.x25519 st.priv body)
    else match K.curve st.curve with
      | none => .panic
      | some c => match c.unmarshal body with
        | none => .err "tls: invalid ClientKeyExchange message"
        | some p => padPremaster c.byteLen (c.scalarMult p st.priv).1

/-- what the client keeps of the ServerKeyExchange: `ka.curveid`, `ka.publicKey`, `ka.x, ka.y` -/
structure EcdheClient where
  curve : U16
  publicKey : Bytes := []
  point : Nat × Nat := (0, 0)
deriving DecidableEq, Repr

/-- tls/key_agreement.go:314-328: the peer's public value -/
def ecdhePeer (K : KaEnv) (id : U16) (pub : Bytes) : Res EcdheClient :=
  if id = idX25519 then
    if pub.length ≠ 32 then .err "tls: bad X25519 public value" else .ok { curve := id, publicKey := pub }
  else match K.curve id with
    | none => .err "tls: server selected unsupported curve"
    | some c => match c.unmarshal pub with
      | none => .err "tls: invalid ServerKeyExchange message"
      | some p => .ok { curve := id, point := p }

/-- tls/key_agreement.go:330-338: the code point, for TLS 1.2, and what follows it -/
def ecdheAlg (v : Version) (sig : Bytes) : Res (U16 × Bytes) :=
  if vTLS12.toNat ≤ v.toNat then do
    let a ← idx sig 0
    let b ← idx sig 1
    if (sig.drop 2).length < 2 then .err "tls: invalid ServerKeyExchange message" else
    .ok ((a.setWidth 16 <<< 8) ||| b.setWidth 16, sig.drop 2)
  else .ok (0, sig)

/-- tls/key_agreement.go:339-357: algorithm, length of the signature, digest, verification -/
def ecdheCheckSig (K : KaEnv) (v : Version) (isRSA : Bool) (ourAlgs : List U16) (pub : X509.Pub) (clientRandom serverRandom params : Bytes)
    (a : U16) (sig : Bytes) : Res Unit := do
  let (_, t, h) ← pickSignatureAlgorithmFull pub [a] ourAlgs v
  if decide (t = .pkcs1v15 ∨ t = .rsaPSS) ≠ isRSA then .err "tls: invalid ServerKeyExchange message" else do
  let x ← idx sig 0
  let y ← idx sig 1
  if x.toNat * 256 + y.toNat + 2 ≠ sig.length then .err "tls: invalid ServerKeyExchange message" else do
  let ok ← verifyHandshakeSignature K.auth t pub h (hashForSKX K.auth t h v (clientRandom ++ serverRandom ++ params)) (sig.drop 2)
  if ok = true then .ok () else .err "signature"

/-- tls/key_agreement.go:293-358 `(*ecdheKeyAgreement).processServerKeyExchange` -/
def ecdheProcessSKX (K : KaEnv) (v : Version) (isRSA : Bool) (ourAlgs : List U16) (pub : X509.Pub) (clientRandom serverRandom key : Bytes) :
    Res EcdheClient :=
  match key with
  | t :: c1 :: c2 :: n :: body =>
    if t ≠ 3 then .err "tls: server selected unsupported curve"
    else if n.toNat + 4 > key.length then .err "tls: invalid ServerKeyExchange message"
    else if (body.drop n.toNat).length < 2 then .err "tls: invalid ServerKeyExchange message"
    else do
      let st ← ecdhePeer K ((c1.setWidth 16 <<< 8) ||| c2.setWidth 16) (body.take n.toNat)
      let (a, sig) ← ecdheAlg v (body.drop n.toNat)
      let _ ← ecdheCheckSig K v isRSA ourAlgs pub clientRandom serverRandom (key.take (4 + n.toNat)) a sig
      .ok st
  | _ => .err "tls: invalid ServerKeyExchange message"

/-- tls/key_agreement.go:365-395 (tls/gm_key_agreement.go:252-282): the client's key pair; premaster secret and public bytes. The private key of the
ephemeral X25519 pair is the first 32 bytes of the source; `copy(theirPublic[:], ka.publicKey)` leaves zeros if there is no public key. -/
def ecdheClientKey (K : KaEnv) (st : EcdheClient) (rand : Bytes) : Res (Bytes × Bytes) :=
  if st.curve = idX25519 then
    match Sm2.readFull rand 32 with
    | none => .err "EOF"
    | some (scalar, _) => .ok (K.x25519 scalar (st.publicKey ++ List.replicate (32 - st.publicKey.length) 0), K.x25519Base scalar)
  else match K.curve st.curve with
    | none => .panic
    | some c => match c.generateKey rand with
      | none => .err "EOF"
      | some (priv, pt, _) => do
        let pre ← padPremaster c.byteLen (c.scalarMult st.point priv).1
        .ok (pre, c.marshal pt)

/-- tls/key_agreement.go:360-402 `(*ecdheKeyAgreement).generateClientKeyExchange`; `none` is "no ServerKeyExchange was processed" -/
def ecdheGenCKX (K : KaEnv) (st : Option EcdheClient) (rand : Bytes) : Res (Bytes × Bytes) :=
  match st with
  | none => .err "tls: missing ServerKeyExchange message"
  | some st =>
    if st.curve = 0 then .err "tls: missing ServerKeyExchange message" else do
    let (pre, pub) ← ecdheClientKey K st rand
    .ok (pre, BitVec.ofNat 8 pub.length :: pub)

/-- tls/gm_key_agreement.go:203-245 `(*ecdheKeyAgreementGM).processServerKeyExchange`: whatever the curve id, the public value is read as an SM2 point; the
error of `pickSignatureAlgorithm` is overwritten (a failed pick leaves signature type 0, which verifies nothing). -/
def ecdheGmProcessSKX (K : KaEnv) (v : Version) (ourAlgs : List U16) (pub : X509.Pub) (clientRandom serverRandom key : Bytes) : Res EcdheClient :=
  match key with
  | t :: c1 :: c2 :: n :: body =>
    if t ≠ 3 then .err "tls: server selected unsupported curve"
    else if n.toNat + 4 > key.length then .err "tls: invalid ServerKeyExchange message"
    else if (body.drop n.toNat).length < 2 then .err "tls: invalid ServerKeyExchange message"
    else match K.sm2Unmarshal (body.take n.toNat) with
      | none => .err "tls: invalid ServerKeyExchange message"
      | some p => do
        let (t, h) ← (match pickSignatureAlgorithmFull pub [0] ourAlgs v with
          | .ok (_, t, h) => .ok (t, h)
          | .err _ => .ok (.unknown, .sha1)
          | .panic => .panic)
        let sig := body.drop n.toNat
        let x ← idx sig 0
        let y ← idx sig 1
        if x.toNat * 256 + y.toNat + 2 ≠ sig.length then .err "tls: invalid ServerKeyExchange message" else do
        let ok ← verifyHandshakeSignature K.auth t pub h
          (hashForSKX K.auth t h v (clientRandom ++ serverRandom ++ key.take (4 + n.toNat))) (sig.drop 2)
        if ok = true then .ok { curve := (c1.setWidth 16 <<< 8) ||| c2.setWidth 16, point := p } else .err "signature"
  | _ => .err "tls: invalid ServerKeyExchange message"

/-- tls/key_agreement.go:33-62 `rsaKeyAgreement.processClientKeyExchange`; the private key is `some` RSA key or none that can decrypt -/
def rsaProcessCKX (K : KaEnv) (v : Version) (rand : Bytes) (key : Option Bytes) (ct : Bytes) : Res Bytes :=
  match ct with
  | a :: b :: body =>
    if v ≠ vSSL30 ∧ a.toNat * 256 + b.toNat ≠ body.length then .err "tls: invalid ClientKeyExchange message" else
    match key with
    | none => .err "tls: certificate private key does not implement crypto.Decrypter"
    | some k => match K.rsaDecrypt rand k (if v ≠ vSSL30 then body else ct) with
      | none => .err "crypto/rsa: decryption error"
      | some pre => .ok pre
  | _ => .err "tls: invalid ClientKeyExchange message"

/-- tls/key_agreement.go:68-87 `rsaKeyAgreement.generateClientKeyExchange`: the type assertion on the certificate's key panics -/
def rsaGenCKX (K : KaEnv) (helloVers : Version) (rand : Bytes) (pub : X509.Pub) : Res (Bytes × Bytes) :=
  match Sm2.readFull rand 46 with
  | none => .err "EOF"
  | some (b, rand) =>
    let pre := [(helloVers >>> 8).setWidth 8, helloVers.setWidth 8] ++ b
    match pub with
    | .rsa k => match K.rsaEncrypt rand k pre with
      | none => .err "crypto/rsa: message too long for RSA public key size"
      | some enc => .ok (pre, [BitVec.ofNat 8 (enc.length / 256), BitVec.ofNat 8 enc.length] ++ enc)
    | _ => .panic

end Verif.Tls
