import Verif.Sm4.Props
import Verif.Tls.KeyProps
import Verif.Tls.Reassembly
/-!
From the master secret to the record layer: the cipher and MAC constructors of the suites
(tls/cipher_suites.go:105-240, tls/gm_support.go:132-143) and `establishKeys` of the handshakes.
SM4 and SM3 are the code of this repository; RC4, DES, AES, GCM, ChaCha20-Poly1305 and the other hashes are parameters.
-/
namespace Verif.Tls
open Verif Verif.Std

/-- golang.org/x/crypto and the standard library: `rc4 key` is the key stream, `…E`/`…D` the block functions -/
structure Prims where
  hashes : Hashes
  rc4 : Bytes → Nat → Byte
  des3E : Bytes → Bytes → Bytes
  des3D : Bytes → Bytes → Bytes
  aesE : Bytes → Bytes → Bytes
  aesD : Bytes → Bytes → Bytes
  gcm : Bytes → RawAead
  chacha : Bytes → RawAead

/-- what is assumed about them: block functions keep the size and decryption inverts encryption; the AEADs open what they
sealed, with 16 bytes of overhead; SHA-256 has 32 bytes -/
structure Prims.Lawful (P : Prims) : Prop where
  des3Len : ∀ k b, b.length = 8 → (P.des3E k b).length = 8
  des3Inv : ∀ k b, b.length = 8 → P.des3D k (P.des3E k b) = b
  aesLen : ∀ k b, b.length = 16 → (P.aesE k b).length = 16
  aesInv : ∀ k b, b.length = 16 → P.aesD k (P.aesE k b) = b
  gcm : ∀ k, (P.gcm k).Lawful ∧ (P.gcm k).overhead = 16
  chacha : ∀ k, (P.chacha k).Lawful ∧ (P.chacha k).overhead = 16
  sha256 : P.hashes.sha256.size = 32

/-- `cipher.NewCBCEncrypter`/`NewCBCDecrypter` panic when the IV is not one block long -/
def newCBC (bs : Nat) (isRead : Bool) (E D : Bytes → Bytes) (iv : Bytes) : Res Cipher :=
  if iv.length ≠ bs then .panic else .ok (.cbc bs isRead (if isRead then D else E) iv)

/-- one SM4 block through the `cipher.Block` interface, sm4/sm4.go:158-164; `CryptBlocks` only hands it full blocks -/
def sm4Block (rk : List (BitVec 32)) (isRead : Bool) (b : Bytes) : Bytes :=
  match (if isRead then Sm4.decrypt rk (zeros 16) b else Sm4.encrypt rk (zeros 16) b) with
  | .ok r => r
  | _ => []

/-- the `cipher` and `aead` constructors. The constructors drop the error of `NewCipher`; a wrong key size then panics on the nil block
(`rc4` takes 1 to 256 bytes, 3DES 24, AES 16, 24 or 32, SM4 16; ChaCha20-Poly1305 32). tls/cipher_suites.go:105-124, 216-240,
tls/gm_support.go:132-138. `copy(ret.nonce[:], fixedNonce)` fills a 12-byte array. -/
def newCipherFor (P : Prims) (k : CipherKind) (key iv : Bytes) (isRead : Bool) : Res Cipher :=
  match k with
  | .rc4 => if key.length < 1 ∨ 256 < key.length then .panic else .ok (.stream (P.rc4 key) 0)
  | .des3 => if key.length ≠ 24 then .panic else newCBC 8 isRead (P.des3E key) (P.des3D key) iv
  | .aesCBC => if key.length ≠ 16 ∧ key.length ≠ 24 ∧ key.length ≠ 32 then .panic else newCBC 16 isRead (P.aesE key) (P.aesD key) iv
  | .sm4CBC =>
    match Sm4.newCipher key with
    | .ok rk => newCBC 16 isRead (sm4Block rk false) (sm4Block rk true) iv
    | _ => .panic
  | .aesGCM =>
    if key.length ≠ 16 ∧ key.length ≠ 24 ∧ key.length ≠ 32 then .panic else .ok (.aead ⟨P.gcm key, .fixed (copyAt (zeros 12) 0 iv)⟩)
  | .chacha => if key.length ≠ 32 then .panic else .ok (.aead ⟨P.chacha key, .xored (copyAt (zeros 12) 0 iv)⟩)

/-- the `mac` constructors, tls/cipher_suites.go:127-143, tls/gm_support.go:141-143; none for the AEAD suites -/
def newMacFor (P : Prims) (m : MacKind) (v : Version) (key : Bytes) : Option Mac :=
  match m with
  | .none => none
  | .sha1 => some (if v = vSSL30 then ssl30MAC 20 P.hashes.sha1.sum key else tls10MAC 20 (hmac P.hashes.sha1 key))
  | .sha256 => some (tls10MAC 32 (hmac P.hashes.sha256 key))
  | .sm3 => some (tls10MAC 32 (hmac sm3 key))

/-- tls/handshake_client.go:552-566, tls/handshake_server.go:554-568 and the GM versions: give one half connection its pending cipher
state -/
def keyHalf (P : Prims) (v : Version) (s : Suite) (k : DirKeys) (isRead : Bool) (hc : HalfConn) : Res HalfConn :=
  match newCipherFor P s.cipher k.key k.iv isRead with
  | .ok c => .ok (hc.prepareCipherSpec v (some c) (newMacFor P s.mac v k.mac))
  | .err x => .err x
  | .panic => .panic

/-- tls/handshake_client.go:545-565 `establishKeys` on the connection -/
def Conn.clientEstablish (P : Prims) (s : Suite) (master cr sr : Bytes) (c : Conn) : Res Conn :=
  match clientEstablishKeys P.hashes c.vers s master cr sr with
  | .ok k =>
    match keyHalf P c.vers s k.inp true c.inp, keyHalf P c.vers s k.out false c.out with
    | .ok i, .ok o => .ok { c with inp := i, out := o }
    | _, _ => .panic
  | _ => .panic

/-- tls/handshake_server.go:547-571 `establishKeys` on the connection -/
def Conn.serverEstablish (P : Prims) (s : Suite) (master cr sr : Bytes) (c : Conn) : Res Conn :=
  match serverEstablishKeys P.hashes c.vers s master cr sr with
  | .ok k =>
    match keyHalf P c.vers s k.inp true c.inp, keyHalf P c.vers s k.out false c.out with
    | .ok i, .ok o => .ok { c with inp := i, out := o }
    | _, _ => .panic
  | _ => .panic

theorem sm4Block_spec (key : Bytes) (hk : key.length = 16) : ∃ rk, Sm4.newCipher key = .ok rk ∧
    (∀ b, b.length = 16 → (sm4Block rk false b).length = 16) ∧ (∀ b, b.length = 16 → sm4Block rk true (sm4Block rk false b) = b) := by
  obtain ⟨rk, h1, h2⟩ := Sm4.C04_inverse key hk
  have key : ∀ b : Bytes, b.length = 16 → (sm4Block rk false b).length = 16 ∧ sm4Block rk true (sm4Block rk false b) = b := by
    intro b hb
    obtain ⟨⟨ct, e1, e2, e3⟩, _⟩ := h2 b (zeros 16) (zeros 16) hb (by simp [zeros]) (by simp [zeros])
    have : sm4Block rk false b = ct := by
      unfold sm4Block
      simp only [Bool.false_eq_true, if_false, e1]
    rw [this]
    refine ⟨e2, ?_⟩
    unfold sm4Block
    simp only [if_true, e3]
  exact ⟨rk, h1, fun b hb => (key b hb).1, fun b hb => (key b hb).2⟩

theorem newMac_lawful (P : Prims) (hP : P.Lawful) (k : MacKind) (v : Version) (key : Bytes) (m : Mac) (h : newMacFor P k v key = some m) :
    m.Lawful ∧ m.size = Spec.macSize k := by
  cases k with
  | none => cases h
  | sha1 =>
    simp only [newMacFor, Option.some.injEq] at h
    subst h
    split
    · exact ⟨fun s hd d => by simp only [ssl30MAC, P.hashes.sha1.len, P.hashes.sha1_size], rfl⟩
    · exact ⟨fun s hd d => by simp only [tls10MAC, hmac_length, P.hashes.sha1_size], rfl⟩
  | sha256 =>
    simp only [newMacFor, Option.some.injEq] at h
    subst h
    exact ⟨fun s hd d => by simp only [tls10MAC, hmac_length, hP.sha256], rfl⟩
  | sm3 =>
    simp only [newMacFor, Option.some.injEq] at h
    subst h
    exact ⟨fun s hd d => by simp only [tls10MAC, hmac_length]; rfl, rfl⟩

theorem newCBC_pair (bs : Nat) (E D : Bytes → Bytes) (iv : Bytes) (hiv : iv.length = bs) (v : Version) (mac : Option Mac) (hm : mac.isSome)
    (hb : 0 < bs) (hb' : bs ≤ 256) (hl : ∀ b, b.length = bs → (E b).length = bs) (hinv : ∀ b, b.length = bs → D (E b) = b) :
    ∃ co ci, newCBC bs false E D iv = .ok co ∧ newCBC bs true E D iv = .ok ci ∧ PairedCipher v mac (some co) (some ci) ∧
      shape (some co) = .cbc bs ∧ shape (some ci) = .cbc bs := by
  have h1 : newCBC bs false E D iv = .ok (.cbc bs false E iv) := by unfold newCBC; rw [if_neg (by simpa using hiv)]; rfl
  have h2 : newCBC bs true E D iv = .ok (.cbc bs true D iv) := by unfold newCBC; rw [if_neg (by simpa using hiv)]; rfl
  refine ⟨.cbc bs false E iv, .cbc bs true D iv, h1, h2, ?_, rfl, rfl⟩
  exact ⟨rfl, hb, hb', hl, hinv, hiv, hiv, .inr rfl, hm⟩

/-- the two cipher objects made from one key and IV belong together -/
theorem newCipher_pair (P : Prims) (hP : P.Lawful) (s : Suite) (hs : s ∈ cipherSuites ++ gmCipherSuites) (v : Version) (key iv mk : Bytes)
    (hk : Spec.keySizeOK s.cipher key.length iv.length) :
    ∃ co ci, newCipherFor P s.cipher key iv false = .ok co ∧ newCipherFor P s.cipher key iv true = .ok ci ∧
      PairedCipher v (newMacFor P s.mac v mk) (some co) (some ci) ∧
      shape (some co) = Spec.cipherShape s.cipher ∧ shape (some ci) = Spec.cipherShape s.cipher := by
  have hmac : (∃ bs, Spec.cipherShape s.cipher = .cbc bs) → (newMacFor P s.mac v mk).isSome := by
    have : (cipherSuites ++ gmCipherSuites).all (fun s => (match s.cipher with | .des3 | .aesCBC | .sm4CBC => s.mac != .none | _ => true)) = true := by
      decide +kernel
    have h := List.all_eq_true.1 this s hs
    rintro ⟨bs, hb⟩
    cases hc : s.cipher <;> rw [hc] at h hb <;> simp only [Spec.cipherShape, reduceCtorEq] at hb <;>
      (cases hm : s.mac <;> rw [hm] at h <;> first | (simp at h; done) | rfl)
  cases hc : s.cipher with
  | rc4 =>
    rw [hc] at hk
    simp only [Spec.keySizeOK] at hk
    simp only [newCipherFor]
    rw [if_neg (by omega)]
    exact ⟨_, _, rfl, rfl, ⟨rfl, rfl⟩, rfl, rfl⟩
  | des3 =>
    rw [hc] at hk hmac
    simp only [Spec.keySizeOK] at hk
    simp only [newCipherFor]
    rw [if_neg (by omega), if_neg (by omega)]
    exact newCBC_pair 8 _ _ iv hk.2 v _ (hmac ⟨_, rfl⟩) (by decide) (by decide) (hP.des3Len key) (hP.des3Inv key)
  | aesCBC =>
    rw [hc] at hk hmac
    simp only [Spec.keySizeOK] at hk
    simp only [newCipherFor]
    rw [if_neg (by omega), if_neg (by omega)]
    exact newCBC_pair 16 _ _ iv hk.2 v _ (hmac ⟨_, rfl⟩) (by decide) (by decide) (hP.aesLen key) (hP.aesInv key)
  | sm4CBC =>
    rw [hc] at hk hmac
    simp only [Spec.keySizeOK] at hk
    obtain ⟨rk, h1, h2, h3⟩ := sm4Block_spec key hk.1
    simp only [newCipherFor, h1]
    exact newCBC_pair 16 _ _ iv hk.2 v _ (hmac ⟨_, rfl⟩) (by decide) (by decide) h2 h3
  | aesGCM =>
    rw [hc] at hk
    simp only [Spec.keySizeOK] at hk
    simp only [newCipherFor]
    rw [if_neg (by omega)]
    have hl : (copyAt (zeros 12) 0 iv).length = 12 := by simp [copyAt, zeros]; omega
    refine ⟨_, _, rfl, rfl, ⟨rfl, (hP.gcm key).1, hl, hl, rfl⟩, ?_, ?_⟩ <;>
      simp [shape, Aead.explicitNonceLen, Spec.cipherShape, (hP.gcm key).2]
  | chacha =>
    rw [hc] at hk
    simp only [Spec.keySizeOK] at hk
    simp only [newCipherFor]
    rw [if_neg (by omega)]
    have hl : (copyAt (zeros 12) 0 iv).length = 12 := by simp [copyAt, zeros]; omega
    refine ⟨_, _, rfl, rfl, ⟨rfl, (hP.chacha key).1, hl, rfl⟩, ?_, ?_⟩ <;>
      simp [shape, Aead.explicitNonceLen, Spec.cipherShape, (hP.chacha key).2]

/-- both ends of one direction after the key change -/
theorem keyHalf_pair (P : Prims) (hP : P.Lawful) (v : Version) (s : Suite) (hs : s ∈ cipherSuites ++ gmCipherSuites) (k : DirKeys)
    (hk : Spec.keySizeOK s.cipher k.key.length k.iv.length) (o i : HalfConn) :
    ∃ o1 i1 o2 i2, keyHalf P v s k false o = .ok o1 ∧ keyHalf P v s k true i = .ok i1 ∧ o1.changeCipherSpec = some o2 ∧ i1.changeCipherSpec = some i2 ∧
      Paired o2 i2 ∧ Spec.UsesSuite o2 ∧ Spec.UsesSuite i2 ∧ o2.seq = List.replicate 8 0 ∧ o2.err = o.err ∧ i2.err = i.err := by
  obtain ⟨co, ci, h1, h2, h3, h4, h5⟩ := newCipher_pair P hP s hs v k.key k.iv k.mac hk
  have hmem : s ∈ cipherSuites ∨ s ∈ gmCipherSuites := List.mem_append.1 hs
  have hms : ∀ hc : HalfConn, hc.mac = newMacFor P s.mac v k.mac → hc.macSize = Spec.macSize s.mac := by
    intro hc hmc
    unfold HalfConn.macSize
    rw [hmc]
    cases hm : newMacFor P s.mac v k.mac with
    | none => cases hk : s.mac <;> rw [hk] at hm <;> first | rfl | cases hm
    | some m => exact (newMac_lawful P hP _ _ _ m hm).2
  unfold keyHalf HalfConn.prepareCipherSpec HalfConn.changeCipherSpec
  rw [h1, h2]
  refine ⟨_, _, _, _, rfl, rfl, rfl, rfl, ⟨rfl, by simp, rfl, rfl, fun m hm => (newMac_lawful P hP _ _ _ m hm).1, h3⟩, ?_, ?_, rfl, rfl, rfl⟩
  · exact .inr ⟨s, hmem, h4, hms _ rfl⟩
  · exact .inr ⟨s, hmem, h5, hms _ rfl⟩

theorem usable_mem {v : Version} {s : Suite} (h : Spec.Usable v s) : s ∈ cipherSuites ++ gmCipherSuites := by
  rcases h with ⟨h, _⟩ | ⟨h, _⟩ <;> simp [h]

/-- C41/C78: two ends at one version that derive their keys from one master secret and the same randoms install, for every suite, cipher states that
belong together in both directions: after the key change each side's writing half pairs with the other's reading half. No constructor panics. -/
theorem C78_keys_pair (P : Prims) (hP : P.Lawful) (s : Suite) (master cr sr : Bytes) (a b : Conn) (hv : a.vers = b.vers) (hu : Spec.Usable a.vers s) :
    ∃ a1 b1 ao ai bo bi, a.clientEstablish P s master cr sr = .ok a1 ∧ b.serverEstablish P s master cr sr = .ok b1 ∧
      a1.out.changeCipherSpec = some ao ∧ a1.inp.changeCipherSpec = some ai ∧ b1.out.changeCipherSpec = some bo ∧ b1.inp.changeCipherSpec = some bi ∧
      Paired ao bi ∧ Paired bo ai ∧ Spec.UsesSuite ao ∧ Spec.UsesSuite bo ∧ Spec.UsesSuite ai ∧ Spec.UsesSuite bi := by
  obtain ⟨kc, ks, h1, h2, h3, h4, h5⟩ := C41_endpoints_agree P.hashes a.vers s hu master cr sr
  have hm := usable_mem hu
  obtain ⟨o1, i1, o2, i2, p1, p2, p3, p4, p5, p6, p7, _⟩ := keyHalf_pair P hP a.vers s hm kc.out (h5 _ (by simp)).2 a.out b.inp
  obtain ⟨q1, j1, q2, j2, r1, r2, r3, r4, r5, r6, r7, _⟩ := keyHalf_pair P hP a.vers s hm kc.inp (h5 _ (by simp)).2 b.out a.inp
  refine ⟨{ a with inp := j1, out := o1 }, { b with inp := i1, out := q1 }, o2, j2, q2, i2, ?_, ?_, p3, r4, r3, p4, p5, r5, p6, r6, r7, p7⟩
  · simp only [Conn.clientEstablish, h1, r2, p1]
  · rw [h3] at p1 p2
    rw [h4] at r1 r2
    simp only [Conn.serverEstablish, ← hv, h2, p2, r1]

end Verif.Tls
