import Verif.X509.Model
import Verif.Sm2.ExternalProps
import Verif.Sm2.Witness
import Verif.Tls.Messages
/-!
Model of `tls/gm_key_agreement.go` (the ECC key agreement `eccKeyAgreementGM` of GM/T 0024, and the ECDHE one as far as the server side goes)
and theorems C44, C45, C46 (message level).

The private key of a `Certificate` is `some` SM2 key or `none` (a key that implements neither `crypto.Signer` nor `crypto.Decrypter`;
RSA and ECDSA keys are not modelled). `config.rand()` is a source that delivers the given bytes and then fails, as in `Verif.Sm2.Model`.
-/
namespace Verif.Gm
open Verif Verif.Sm2

/-- tls/gm_key_agreement.go:400-409 `hashForServerKeyExchange(clientRandom, serverRandom, cert)`: not a hash but the bytes to be signed; the third
slice is preceded by its 24-bit length. -/
def skxDigest (clientRandom serverRandom cert : Bytes) : Bytes :=
  clientRandom ++ serverRandom ++ (beFixed 3 cert.length ++ cert)

/-- tls/gm_key_agreement.go:310-334 `(*eccKeyAgreementGM).generateServerKeyExchange`; the result is `ske.key`. `cipherCert.Certificate[0]` is an
index expression. -/
def eccGenerateSKX (c : Curve) (rand : Bytes) (signKey : Option (PrivateKey c)) (cipherCert : List Bytes) (clientRandom serverRandom : Bytes) :
    Res Bytes :=
  match cipherCert with
  | [] => .panic
  | cert0 :: _ =>
    match signKey with
    | none => .err "tls: certificate private key does not implement crypto.Signer"
    | some priv => do
      let sig ← privSign c rand priv (skxDigest clientRandom serverRandom cert0)
      .ok (beFixed 2 sig.length ++ sig)

/-- `int(b[0]<<8 | b[1])`, tls/gm_key_agreement.go:341, 369: the shift is done in a byte. -/
def byteLen (b : Bytes) : Res Nat := do
  let a ← Tls.Wire.idx b 0
  let b ← Tls.Wire.idx b 1
  .ok ((a <<< 8) ||| b).toNat

/-- tls/gm_key_agreement.go:336-363 `(*eccKeyAgreementGM).processClientKeyExchange`; the argument is `ckx.ciphertext`. (`sm2.Decrypt` ignores its
random source.) -/
def eccProcessCKX {c : Curve} (key : Option (PrivateKey c)) (ct : Bytes) : Res Bytes :=
  if ct.length = 0 then .err "tls: invalid ClientKeyExchange message" else do
  let n ← byteLen ct
  if (n : Int) ≠ (ct.length : Int) - 2 then .err "tls: invalid ClientKeyExchange message" else
  match key with
  | none => .err "tls: certificate private key does not implement crypto.Decrypter"
  | some priv => do
    let plain ← decrypt priv (ct.drop 2)
    if plain.length ≠ 48 then .err "tls: invalid ClientKeyExchange message" else .ok plain

/-- tls/gm_key_agreement.go:365-398 `(*eccKeyAgreementGM).processServerKeyExchange`; `pub` is `cert.PublicKey`, `encRaw` is `ka.encipherCert.Raw`,
`key` is `skx.key`. -/
def eccProcessSKX (c : Curve) (pub : X509.Pub) (clientRandom serverRandom encRaw key : Bytes) : Res Unit :=
  if key.length ≤ 2 then .err "tls: invalid ServerKeyExchange message" else do
  let n ← byteLen key
  if n + 2 ≠ key.length then .err "tls: invalid ServerKeyExchange message" else
  let sig := key.drop 2
  match pub with
  | .sm2 x y =>
    match X509.unmarshalPairRest sig with
    | none => .err "asn1"
    | some ((r, s), rest) =>
      if rest.length ≠ 0 then .err "tls:processServerKeyExchange: sm2 get signature failed"
      else if r ≤ 0 ∨ s ≤ 0 then .err "tls: processServerKeyExchange: sm2 signature contained zero or negative values"
      else do
        let ok ← verify c { x := x, y := y, pre := none } (skxDigest clientRandom serverRandom encRaw) r s
        if ok then .ok () else .err "tls: processServerKeyExchange: sm2 verification failure"
  | _ => .err "tls: sm2 signing requires a sm2 public key"

/-- tls/gm_key_agreement.go:411-430 `(*eccKeyAgreementGM).generateClientKeyExchange`: the premaster secret and `ckx.ciphertext`. `none` is the
endless loop of `sm2.Encrypt`; the type assertion on the public key panics. -/
def eccGenerateCKX (c : Curve) (rand : Bytes) (vers : BitVec 16) (encPub : X509.Pub) : Option (Res (Bytes × Bytes)) :=
  match readFull rand 46 with
  | none => some (.err "EOF")
  | some (b, rand) =>
    let pre := [(vers >>> 8).setWidth 8, vers.setWidth 8] ++ b
    match encPub with
    | .sm2 x y =>
      (encrypt c rand { x := x, y := y, pre := none } pre).map fun r => do
        let enc ← r
        .ok (pre, beFixed 2 enc.length ++ enc)
    | _ => some .panic

/-- tls/gm_key_agreement.go:69-71, 169-170: both server-side functions of `ecdheKeyAgreementGM` are `panic("")`. -/
def ecdheGenerateSKX (_c : Curve) (_rand : Bytes) : Res Bytes := .panic

/-! ### lemmas -/

theorem byteLen_small (n : Nat) (b : Bytes) (h : n < 256) : byteLen (beFixed 2 n ++ b) = .ok n := by
  have e : beFixed 2 n = [BitVec.ofNat 8 (n / 256), BitVec.ofNat 8 n] := by simp [beFixed]
  rw [e]
  simp only [byteLen, Tls.Wire.idx, List.cons_append, List.nil_append, List.length_cons]
  rw [dif_pos (by omega), dif_pos (by omega)]
  simp only [List.getElem_cons_zero, List.getElem_cons_succ, Res.ok_bind, Res.ok.injEq]
  have : n / 256 = 0 := by omega
  rw [this]
  simp
  exact h

/-- whatever the two bytes, only the second one counts -/
theorem byteLen_eq (a b : Byte) (l : Bytes) : byteLen (a :: b :: l) = .ok b.toNat := by
  have h0 : a <<< 8 = 0 := by
    apply BitVec.eq_of_toNat_eq
    simp [BitVec.toNat_shiftLeft, Nat.shiftLeft_eq]
  simp only [byteLen, Tls.Wire.idx, List.length_cons]
  rw [dif_pos (by omega), dif_pos (by omega)]
  simp only [List.getElem_cons_zero, List.getElem_cons_succ, Res.ok_bind, Res.ok.injEq, h0]
  simp

theorem unmarshalPairRest_marshal (r s : Int) (hr : r.natAbs < 256 ^ 32) (hs : s.natAbs < 256 ^ 32) :
    X509.unmarshalPairRest (marshalPair r s) = some ((r, s), []) := by
  have h1 := encInt_small r hr
  have h2 := encInt_small s hs
  have e := Der.parseSeq_encSeq [Der.encInt r, Der.encInt s] [] (by simp; omega)
  have e1 := Der.parseInt_encInt r (Der.encInt s) (by omega)
  have e2 := Der.parseInt_encInt s [] (by omega)
  rw [List.append_nil] at e2 e
  simp only [X509.unmarshalPairRest, marshalPair, e]
  simp [e1, e2]

theorem marshalPair_length (r s : Int) (hr : r.natAbs < 256 ^ 32) (hs : s.natAbs < 256 ^ 32) :
    (marshalPair r s).length < 256 := by
  have h1 := encInt_small r hr
  have h2 := encInt_small s hs
  have h := Der.encTLV_length 0x30 ([Der.encInt r, Der.encInt s].flatten) (by simp; omega)
  simp only [List.flatten_cons, List.flatten_nil, List.append_nil, List.length_append] at h
  rw [marshalPair, Der.encSeq]
  simp only [List.flatten_cons, List.flatten_nil, List.append_nil]
  omega

/-! ### C44 -/

variable {c : Curve} {G : Type} [AddCommGroup G]

/-- what a successful client key exchange consists of -/
theorem eccGenerateCKX_inv (rand : Bytes) (vers : BitVec 16) (pub : X509.Pub) (pre body : Bytes)
    (h : eccGenerateCKX c rand vers pub = some (.ok (pre, body))) :
    ∃ x y enc, pub = .sm2 x y ∧ 46 ≤ rand.length ∧ pre = [(vers >>> 8).setWidth 8, vers.setWidth 8] ++ rand.take 46 ∧
      encrypt c (rand.drop 46) { x := x, y := y, pre := none } pre = some (.ok enc) ∧ body = beFixed 2 enc.length ++ enc := by
  unfold eccGenerateCKX readFull at h
  by_cases hl : 46 ≤ rand.length
  · rw [if_pos hl] at h
    simp only [] at h
    cases pub with
    | sm2 x y =>
      simp only [Option.map_eq_some_iff] at h
      obtain ⟨r, hr, h⟩ := h
      obtain ⟨enc, he, h⟩ := Res.bind_eq_ok.1 h
      simp only [Res.ok.injEq, Prod.mk.injEq] at h
      subst he
      obtain ⟨rfl, rfl⟩ := h
      exact ⟨x, y, enc, rfl, hl, rfl, hr, rfl⟩
    | rsa _ => simp at h
    | dsa _ => simp at h
    | ecdsa _ => simp at h
    | none => simp at h
  · rw [if_neg hl] at h
    simp at h

/-- **C44.** Whatever the client's `generateClientKeyExchange` returns for the encryption certificate's SM2 key: the premaster secret is 48
bytes, starts with the offered version and is otherwise the client's randomness; and the server, holding the private key of that certificate,
gets from `processClientKeyExchange` exactly the same premaster secret. (`bad` is the set of scalars the curve code mishandles; on amd64 see
`C44_amd64_partial`.) -/
theorem C44_premaster_agreement_partial (L : Lawful c G) (hb : Bounded c) (priv : PrivateKey c) (d : Nat) (h : L.PrivOf priv d)
    (x y : Nat) (hx : x = priv.x) (hy : y = priv.y) (hd : d % N ∉ L.bad)
    (rand : Bytes) (vers : BitVec 16) (hk : ∀ k, generateRandK (rand.drop 46) = some k → k % N ∉ L.bad)
    (pre body : Bytes) (hgen : eccGenerateCKX c rand vers (.sm2 x y) = some (.ok (pre, body))) :
    eccProcessCKX (some priv) body = .ok pre ∧ pre.length = 48 ∧ pre.take 2 = beFixed 2 vers.toNat ∧ pre.drop 2 = rand.take 46 := by
  obtain ⟨x', y', enc, hp, hl, rfl, henc, rfl⟩ := eccGenerateCKX_inv rand vers _ pre body hgen
  injection hp with e1 e2
  subst e1 e2 hx hy
  have hpub : L.PubOf { x := priv.x, y := priv.y, pre := none } (d • L.g) := ⟨h.pub.ne, h.pub.x, h.pub.y, Or.inl rfl⟩
  have h15 := C15_roundtrip_partial L hb priv d h _ hpub (rand.drop 46) _ enc hd (fun k hk' => Or.inr (hk k hk')) henc
  have h48 : ([(vers >>> 8).setWidth 8, vers.setWidth 8] ++ rand.take 46 : Bytes).length = 48 := by simp [hl]
  refine ⟨?_, h48, ?_, ?_⟩
  · have hlen : enc.length = 145 := by rw [h15.2.1, h48]
    unfold eccProcessCKX
    rw [if_neg (by simp), byteLen_small _ _ (by omega), Res.ok_bind]
    rw [if_neg (by simp)]
    simp only []
    rw [List.drop_left' (by simp), h15.1, Res.ok_bind, if_neg (by rw [h48]; decide)]
  · rw [List.take_left' (by simp)]
    simp only [beFixed, List.nil_append, List.cons_append, List.cons.injEq, and_true]
    constructor <;> apply BitVec.eq_of_toNat_eq <;>
      simp [BitVec.toNat_setWidth, BitVec.toNat_ushiftRight, Nat.shiftRight_eq_div_pow]
  · rw [List.drop_left' (by simp)]

/-- **C44 on the real curve.** Encryption key made by `GenerateKey`, other than `n-6`, and a client nonce other than `n-6`: client and server
agree on the premaster secret. -/
theorem C44_amd64_partial (rk rand : Bytes) (vers : BitVec 16) (priv : PrivateKey Amd64.sm2Curve)
    (hgk : generateKey Amd64.sm2Curve rk = .ok priv) (hd : priv.d ≠ (N : Int) - 6)
    (hk : generateRandK (rand.drop 46) ≠ some (N - 6)) (pre body : Bytes)
    (hgen : eccGenerateCKX Amd64.sm2Curve rand vers (.sm2 priv.x priv.y) = some (.ok (pre, body))) :
    eccProcessCKX (some priv) body = .ok pre ∧ pre.length = 48 ∧ pre.take 2 = beFixed 2 vers.toNat ∧ pre.drop 2 = rand.take 46 := by
  obtain ⟨d, h1, h2, hP⟩ := C10_generated_keys Amd64.sm2Lawful rk priv hgk
  have hsc := hP.scalar
  refine C44_premaster_agreement_partial Amd64.sm2Lawful Amd64.sm2_bounded priv d hP _ _ rfl rfl ?_ rand vers ?_ pre body hgen
  · rw [Nat.mod_eq_of_lt h2]
    show d ∉ ({N - 6} : Set Nat)
    simp only [Set.mem_singleton_iff]
    omega
  · intro k hk'
    have hr := C12_range _ k (Or.inl hk')
    rw [Nat.mod_eq_of_lt (by have := N_pos; omega)]
    show k ∉ ({N - 6} : Set Nat)
    simp only [Set.mem_singleton_iff]
    rintro rfl
    exact hk hk'

/-- **C44 is violated by the encryption key `n-6`** (which `GenerateKey` can return): a server holding it accepts a well-formed
ClientKeyExchange only if it was computed from 64 zero bytes instead of the shared point - anyone can make such a message without knowing
any secret, and the premaster secret it yields is known to everyone who sees the message. -/
theorem C44_key_n_minus_6_violated (priv : PrivateKey Amd64.sm2Curve) (hd : priv.d = (N : Int) - 6)
    (Q : Amd64.Grp) (hQ : Q ≠ 0) (c3 c2 pre : Bytes) (h3 : c3.length = 32) (a b : Byte)
    (h : eccProcessCKX (some priv) (a :: b :: (pointToBytes (Amd64.encPt Q.1).1 (Amd64.encPt Q.1).2 ++ c3 ++ c2)) = .ok pre) :
    pre = Spec.xor c2 (Spec.kdf (beFixed 32 0 ++ beFixed 32 0) 48) := by
  unfold eccProcessCKX at h
  rw [if_neg (by simp), byteLen_eq, Res.ok_bind] at h
  split at h
  · cases h
  · simp only [List.drop_succ_cons, List.drop_zero] at h
    obtain ⟨plain, hp, h⟩ := Res.bind_eq_ok.1 h
    split at h
    · cases h
    · rename_i h48
      push Not at h48
      cases h
      obtain ⟨_, e2⟩ := Amd64.C15_key_n_minus_6_violated priv hd Q hQ c3 c2 _ h3 hp
      rw [e2, h48, xor_comm' _ (Spec.kdf _ _), xor_comm' _ (Spec.kdf _ _), xor_cancel _ _ (by rw [kdf_length, h48])]

/-! ### C45 -/

/-- **C45, the exact set of panics.** `processClientKeyExchange` panics exactly on a body of one byte, and on bodies whose *second* byte equals
the remaining length while the remainder is shorter than 97 bytes or does not start with 4 (with a key that can decrypt). -/
theorem C45_panics_iff_partial (hb : Bounded c) (key : Option (PrivateKey c)) (ct : Bytes) :
    eccProcessCKX key ct = .panic ↔
      ct.length = 1 ∨
      (key ≠ none ∧ ∃ a b rest, ct = a :: b :: rest ∧ b.toNat = rest.length ∧ (rest.length < 97 ∨ rest.head? ≠ some 4)) := by
  match ct with
  | [] => simp [eccProcessCKX]
  | [a] => simp [eccProcessCKX, byteLen, Tls.Wire.idx]
  | a :: b :: rest =>
    have e : eccProcessCKX key (a :: b :: rest) =
        (if (b.toNat : Int) ≠ ((a :: b :: rest).length : Int) - 2 then .err "tls: invalid ClientKeyExchange message" else
        match key with
        | none => .err "tls: certificate private key does not implement crypto.Decrypter"
        | some priv => do
          let plain ← decrypt priv rest
          (if plain.length ≠ 48 then .err "tls: invalid ClientKeyExchange message" else .ok plain)) := by
      unfold eccProcessCKX
      rw [if_neg (by simp), byteLen_eq]
      rfl
    rw [e]
    have el : ((b.toNat : Int) ≠ ((a :: b :: rest).length : Int) - 2) ↔ b.toNat ≠ rest.length := by
      simp only [List.length_cons]; omega
    by_cases hbl : b.toNat = rest.length
    · rw [if_neg (by rw [el]; simpa using hbl)]
      cases key with
      | none => simp
      | some priv =>
        simp only [List.length_cons, ne_eq, reduceCtorEq, not_false_eq_true, true_and]
        have h17 := C17_panics_iff_partial hb priv rest
        constructor
        · intro h
          right
          refine ⟨a, b, rest, rfl, hbl, ?_⟩
          cases hd : decrypt priv rest with
          | panic => exact h17.1 hd
          | err m => rw [hd] at h; simp at h
          | ok m =>
            rw [hd, Res.ok_bind] at h
            split at h <;> cases h
        · rintro (h | ⟨a', b', rest', he, _, h⟩)
          · omega
          · injection he with _ he
            injection he with _ he
            subst he
            rw [h17.2 h, Res.panic_bind]
    · rw [if_pos (by rw [el]; exact hbl)]
      constructor
      · intro h; cases h
      · rintro (h | ⟨_, a', b', rest', he, h, _⟩)
        · simp at h
        · injection he with _ he
          injection he with e1 e2
          subst e1 e2
          exact absurd h hbl

/-- **C45 is violated**: a one-byte body crashes every server, and a body announcing an empty ciphertext every server with an SM2 key. -/
theorem C45_violated (hb : Bounded c) (key : Option (PrivateKey c)) (priv : PrivateKey c) (v : Byte) :
    eccProcessCKX key [v] = .panic ∧ eccProcessCKX (some priv) [0, 0] = .panic :=
  ⟨(C45_panics_iff_partial hb key [v]).2 (Or.inl rfl),
   (C45_panics_iff_partial hb (some priv) [0, 0]).2 (Or.inr ⟨by simp, 0, 0, [], rfl, rfl, Or.inl (by decide)⟩)⟩

/-- **C45, what is released.** A premaster secret returned to the server is 48 bytes and the message satisfies SM2's integrity check under the
server's key. -/
theorem C45_released (hb : Bounded c) (key : Option (PrivateKey c)) (ct pre : Bytes) (h : eccProcessCKX key ct = .ok pre) :
    pre.length = 48 ∧ ct.length = 147 ∧ ∃ priv, key = some priv ∧ decrypt priv (ct.drop 2) = .ok pre := by
  unfold eccProcessCKX at h
  by_cases h0 : ct.length = 0
  · rw [if_pos h0] at h; cases h
  · rw [if_neg h0] at h
    obtain ⟨n, hn, h⟩ := Res.bind_eq_ok.1 h
    by_cases hl : (n : Int) ≠ (ct.length : Int) - 2
    · rw [if_pos hl] at h; cases h
    · rw [if_neg hl] at h
      cases key with
      | none => cases h
      | some priv =>
        simp only [] at h
        obtain ⟨plain, hp, h⟩ := Res.bind_eq_ok.1 h
        split at h
        · cases h
        · rename_i h48
          push Not at h48
          cases h
          refine ⟨h48, ?_, priv, rfl, hp⟩
          obtain ⟨x1, y1, c2, c3, e, l1, l3, h4⟩ := C16_released_only_if_hash_ok hb priv _ _ hp
          have := congrArg List.length e
          simp only [List.length_append, l1, l3, List.length_drop] at this
          have hc2 : c2.length = 48 := by rw [← h48]; exact h4.2.2
          omega

/-! ### C46 (message level) -/

/-- The bytes signed determine both randoms and the certificate. -/
theorem C46_signed_bytes_injective (cr sr cr' sr' cert cert' : Bytes) (h1 : cr.length = 32) (h2 : sr.length = 32)
    (h1' : cr'.length = 32) (h2' : sr'.length = 32) (h : skxDigest cr sr cert = skxDigest cr' sr' cert') :
    cr = cr' ∧ sr = sr' ∧ cert = cert' := by
  unfold skxDigest at h
  simp only [List.append_assoc] at h
  obtain ⟨e1, h⟩ := List.append_inj h (by rw [h1, h1'])
  obtain ⟨e2, h⟩ := List.append_inj h (by rw [h2, h2'])
  obtain ⟨_, h⟩ := List.append_inj h (by simp)
  exact ⟨e1, e2, h⟩

/-- The server-key-exchange signature is over 64 random bytes, the length and the certificate. -/
def SignedSKX (L : Lawful c G) (Q : G) (x y : Nat) (cr sr cert : Bytes) (r s : Int) : Prop :=
  Spec.Accepts L Q (beNat (Spec.msgHash x y (cr ++ sr ++ (beFixed 3 cert.length ++ cert)))) r s ∨
    (1 ≤ r ∧ 1 ≤ s ∧ r + s = N ∧
      ((beNat (Spec.msgHash x y (cr ++ sr ++ (beFixed 3 cert.length ++ cert))) : Int) + (L.enc (s.toNat • L.g)).1) % N = r)

/-- **C46 (soundness).** `processServerKeyExchange` returns nil only if the key is an SM2 key and the message carries a DER pair of positive
numbers that the SM2 verification equation accepts, for that key, over `clientRandom ‖ serverRandom ‖ len24 ‖ encryptionCert` (the `t = 0`
pairs of C11 included). -/
theorem C46_skx_sound (L : Lawful c G) (x y : Nat) (Q : G) (hQ : Q ≠ 0) (hx : x = (L.enc Q).1) (hy : y = (L.enc Q).2)
    (cr sr encRaw key : Bytes) (hbad : ∀ r s rest, X509.unmarshalPairRest (key.drop 2) = some ((r, s), rest) → (r + s).toNat % N ∉ L.bad)
    (h : eccProcessSKX c (.sm2 x y) cr sr encRaw key = .ok ()) :
    ∃ r s, X509.unmarshalPairRest (key.drop 2) = some ((r, s), []) ∧ 0 < r ∧ 0 < s ∧ SignedSKX L Q x y cr sr encRaw r s := by
  unfold eccProcessSKX at h
  by_cases h2 : key.length ≤ 2
  · rw [if_pos h2] at h; cases h
  · rw [if_neg h2] at h
    obtain ⟨n, hn, h⟩ := Res.bind_eq_ok.1 h
    by_cases hl : n + 2 ≠ key.length
    · rw [if_pos hl] at h; cases h
    · rw [if_neg hl] at h
      simp only [] at h
      split at h
      · cases h
      · rename_i r s rest hu
        by_cases hr : rest.length ≠ 0
        · rw [if_pos hr] at h; cases h
        · rw [if_neg hr] at h
          by_cases hrs : r ≤ 0 ∨ s ≤ 0
          · rw [if_pos hrs] at h; cases h
          · rw [if_neg hrs] at h
            obtain ⟨ok, hv, h⟩ := Res.bind_eq_ok.1 h
            cases ok with
            | false => simp at h
            | true =>
              have hrest : rest = [] := List.length_eq_zero_iff.1 (by simpa using hr)
              subst hrest
              push Not at hrs
              refine ⟨r, s, hu, hrs.1, hrs.2, ?_⟩
              obtain ⟨b, hb1, hb2⟩ := C11_message_partial L { x := x, y := y, pre := none } Q ⟨hQ, hx, hy, Or.inl rfl⟩
                (skxDigest cr sr encRaw) r s (Or.inr (hbad r s [] hu))
              rw [hv] at hb1
              injection hb1 with hb1
              exact hb2.1 hb1.symm

/-- A key that is not SM2 is refused, whatever the message. -/
theorem C46_skx_needs_sm2 (pub : X509.Pub) (cr sr encRaw key : Bytes) (h : eccProcessSKX c pub cr sr encRaw key = .ok ()) :
    ∃ x y, pub = .sm2 x y := by
  unfold eccProcessSKX at h
  by_cases h2 : key.length ≤ 2
  · rw [if_pos h2] at h; cases h
  · rw [if_neg h2] at h
    obtain ⟨n, hn, h⟩ := Res.bind_eq_ok.1 h
    by_cases hl : n + 2 ≠ key.length
    · rw [if_pos hl] at h; cases h
    · rw [if_neg hl] at h
      cases pub with
      | sm2 x y => exact ⟨x, y, rfl⟩
      | rsa _ => cases h
      | dsa _ => cases h
      | ecdsa _ => cases h
      | none => cases h

/-- **C46 (completeness).** A ServerKeyExchange made by the server is accepted by the client that parsed the signing certificate's public key
(no table), sees the same randoms and has the same encryption certificate. -/
theorem C46_honest_skx_accepted (L : Lawful c G) (priv : PrivateKey c) (d : Nat) (h : L.PrivOf priv d) (hd : (d + 1) % N ≠ 0)
    (rand cr sr cert0 key : Bytes) (more : List Bytes)
    (hgen : eccGenerateSKX c rand (some priv) (cert0 :: more) cr sr = .ok key)
    (hnz : ∀ r s, sign c rand priv (skxDigest cr sr cert0) = .ok (r, s) → r ≠ 0 ∧ s ≠ 0 ∧ (r + s).toNat % N ∉ L.bad) :
    eccProcessSKX c (.sm2 priv.x priv.y) cr sr cert0 key = .ok () := by
  unfold eccGenerateSKX at hgen
  simp only [] at hgen
  obtain ⟨sig, hs, hgen⟩ := Res.bind_eq_ok.1 hgen
  simp only [Res.ok.injEq] at hgen
  unfold privSign at hs
  obtain ⟨⟨r, s⟩, hs, he⟩ := Res.bind_eq_ok.1 hs
  simp only [Res.ok.injEq] at he
  obtain ⟨n1, n2, n3⟩ := hnz r s hs
  obtain ⟨g1, g2⟩ := sign_range rand priv _ r s hs
  have hN := N_lt
  have hl := marshalPair_length r s (by omega) (by omega)
  have hu := unmarshalPairRest_marshal r s (by omega) (by omega)
  rw [he] at hl hu
  have hpos : 2 ≤ sig.length := by
    by_contra hc
    have : X509.unmarshalPairRest sig = none := by
      match sig, hc with
      | [], _ => rfl
      | [a], _ => rfl
      | _ :: _ :: _, hc => simp at hc
    rw [this] at hu
    cases hu
  have hpub : L.PubOf { x := priv.x, y := priv.y, pre := none } (d • L.g) := ⟨h.pub.ne, h.pub.x, h.pub.y, Or.inl rfl⟩
  have hv := C10_sign_verifies L priv d h hd rand _ r s hs n1 n2 _ hpub (Or.inr n3)
  subst hgen
  unfold eccProcessSKX
  rw [if_neg (by rw [List.length_append, beFixed_length]; omega), byteLen_small _ _ hl, Res.ok_bind,
    if_neg (by rw [List.length_append, beFixed_length]; omega)]
  simp only []
  rw [List.drop_left' (by simp), hu]
  simp only [List.length_nil, ne_eq, not_true_eq_false, if_false]
  rw [if_neg (by omega), hv]
  rfl

/-- **C46 on the real curve.** -/
theorem C46_amd64 (rk rand cr sr cert0 key : Bytes) (more : List Bytes) (priv : PrivateKey Amd64.sm2Curve)
    (hgk : generateKey Amd64.sm2Curve rk = .ok priv) (hd : priv.d ≠ (N : Int) - 1)
    (hgen : eccGenerateSKX Amd64.sm2Curve rand (some priv) (cert0 :: more) cr sr = .ok key)
    (hnz : ∀ r s, sign Amd64.sm2Curve rand priv (skxDigest cr sr cert0) = .ok (r, s) → r ≠ 0 ∧ s ≠ 0 ∧ (r + s).toNat % N ≠ N - 6) :
    eccProcessSKX Amd64.sm2Curve (.sm2 priv.x priv.y) cr sr cert0 key = .ok () := by
  obtain ⟨d, h1, h2, hP⟩ := C10_generated_keys Amd64.sm2Lawful rk priv hgk
  have hsc := hP.scalar
  have hd' : (d + 1) % N ≠ 0 := by
    rw [Nat.mod_eq_of_lt (by omega)]; omega
  refine C46_honest_skx_accepted Amd64.sm2Lawful priv d hP hd' rand cr sr cert0 key more hgen fun r s hs => ?_
  obtain ⟨a, b, c⟩ := hnz r s hs
  refine ⟨a, b, ?_⟩
  show (r + s).toNat % N ∉ ({N - 6} : Set Nat)
  simpa using c

/-- `processServerKeyExchange` does not panic on any message, for coordinates below 2^256. -/
theorem C46_skx_no_panic (x y : Nat) (hx : x < 2 ^ 256) (hy : y < 2 ^ 256) (pub : X509.Pub) (hp : pub = .sm2 x y ∨ ∀ x y, pub ≠ .sm2 x y)
    (cr sr encRaw key : Bytes) : eccProcessSKX c pub cr sr encRaw key ≠ .panic := by
  unfold eccProcessSKX
  by_cases h2 : key.length ≤ 2
  · rw [if_pos h2]; simp
  · rw [if_neg h2]
    match key, h2 with
    | a :: b :: l, h2 =>
      rw [byteLen_eq, Res.ok_bind]
      by_cases hl : b.toNat + 2 ≠ (a :: b :: l).length
      · rw [if_pos hl]; simp
      · rw [if_neg hl]
        rcases hp with rfl | hp
        · simp only []
          split
          · simp
          · rename_i r s rest hu
            split
            · simp
            · split
              · simp
              · rename_i hrs
                rcases hr : verify c { x := x, y := y, pre := none } (skxDigest cr sr encRaw) r s with v | m | _
                · rw [Res.ok_bind]; split <;> simp
                · rw [Res.err_bind]; simp
                · exfalso
                  unfold verify at hr
                  rw [if_neg hrs] at hr
                  split at hr
                  · cases hr
                  · rw [msgDigest_spec _ _ _ hx hy] at hr
                    cases hr
        · cases pub with
          | sm2 x y => exact absurd rfl (hp x y)
          | rsa _ => simp
          | dsa _ => simp
          | ecdsa _ => simp
          | none => simp
    | [], h2 => simp at h2
    | [_], h2 => simp at h2

/-! ### the hypotheses of C44 and C46 are met on the real curve -/

namespace Witness
open Verif.Sm2.Witness

/-- client randomness: 46 bytes for the premaster secret, then the nonce -/
def cRand : Bytes := List.replicate 46 7 ++ zeros

/-- a client sends a ClientKeyExchange to the holder of the key of `Sm2.Witness`, who recovers the premaster secret -/
example : ∃ pre body, eccGenerateCKX Amd64.sm2Curve cRand 0x0101 (.sm2 key.x key.y) = some (.ok (pre, body)) ∧
    eccProcessCKX (some key) body = .ok pre ∧ pre = 0x01 :: 0x01 :: List.replicate 46 7 := by
  have hpub : Amd64.sm2Lawful.PubOf { x := key.x, y := key.y, pre := none } (1 • Amd64.sm2Lawful.g) :=
    ⟨key_of.pub.ne, key_of.pub.x, key_of.pub.y, Or.inl rfl⟩
  obtain ⟨ct, h⟩ := encrypts _ hpub (0x01 :: 0x01 :: List.replicate 46 7) (by simp)
  have hr : readFull cRand 46 = some (List.replicate 46 7, zeros) := by decide +kernel
  have hg : eccGenerateCKX Amd64.sm2Curve cRand 0x0101 (.sm2 key.x key.y) =
      some (.ok (0x01 :: 0x01 :: List.replicate 46 7, beFixed 2 ct.length ++ ct)) := by
    unfold eccGenerateCKX
    rw [hr]
    simp only []
    have e : ([((0x0101 : BitVec 16) >>> 8).setWidth 8, (0x0101 : BitVec 16).setWidth 8] ++ List.replicate 46 7 : Bytes) =
      0x01 :: 0x01 :: List.replicate 46 7 := by decide
    rw [e, h]
    rfl
  refine ⟨_, _, hg, ?_, rfl⟩
  refine (C44_amd64_partial zeros cRand _ key key_generated key_not_minus_six ?_ _ _ hg).1
  have : generateRandK (cRand.drop 46) = some 1 := by decide +kernel
  rw [this]
  decide

/-- the signed bytes of a ServerKeyExchange: randoms of 32 bytes and a (short) certificate -/
def skxBytes : Bytes := skxDigest (List.replicate 32 1) (List.replicate 32 2) [1, 2, 3]
def skxHash : Bytes := okVal (msgDigest Gx Gy skxBytes)
theorem skx_hash : msgDigest Gx Gy skxBytes = .ok skxHash := by decide +kernel
def r1 : Int := ((beNat skxHash : Int) + Gx) % N
def s1 : Int := ((1 - r1 * 1) * ((N + 1) / 2 : Nat)) % N
theorem r1_s1 : r1 ≠ 0 ∧ s1 ≠ 0 ∧ (r1 + s1).toNat % N ≠ N - 6 := by decide +kernel

/-- the holder of the key makes a ServerKeyExchange, and a client accepts it -/
example : ∃ k, eccGenerateSKX Amd64.sm2Curve zeros (some key) [[1, 2, 3]] (List.replicate 32 1) (List.replicate 32 2) = .ok k ∧
    eccProcessSKX Amd64.sm2Curve (.sm2 key.x key.y) (List.replicate 32 1) (List.replicate 32 2) [1, 2, 3] k = .ok () := by
  have hs : sign Amd64.sm2Curve zeros key skxBytes = .ok (r1, s1) := sign_value _ _ skx_hash
  have hg : eccGenerateSKX Amd64.sm2Curve zeros (some key) [[1, 2, 3]] (List.replicate 32 1) (List.replicate 32 2) =
      .ok (beFixed 2 (marshalPair r1 s1).length ++ marshalPair r1 s1) := by
    simp only [eccGenerateSKX]
    unfold privSign
    show (do let sig ← (do let (r, s) ← sign Amd64.sm2Curve zeros key skxBytes; _) ; _) = _
    rw [hs]
    rfl
  refine ⟨_, hg, C46_amd64 zeros zeros _ _ _ _ [] key key_generated key_not_minus_one hg fun r s h => ?_⟩
  have h' : sign Amd64.sm2Curve zeros key skxBytes = .ok (r, s) := h
  rw [hs] at h'
  simp only [Res.ok.injEq, Prod.mk.injEq] at h'
  obtain ⟨rfl, rfl⟩ := h'
  exact r1_s1

end Witness
end Verif.Gm
