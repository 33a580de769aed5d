import Verif.Sm2.External
import Verif.Sm2.SignProps
import Verif.Sm2.EncProps
import Verif.Sm2.Amd64.EndToEnd
/-!
Properties of the ASN.1 wrappers: C20, C62, C63, C64, C65.
-/
namespace Verif.Sm2
open Verif

variable {c : Curve} {G : Type} [AddCommGroup G]

theorem encInt_small (n : Int) (h : n.natAbs < 256 ^ 32) :
    (Der.encIntBody n).length ≤ 33 ∧ (Der.encInt n).length ≤ 39 := by
  have h1 := Der.encIntBody_length (k := 32) h
  have h2 := Der.encTLV_length 0x02 (Der.encIntBody n) (by omega)
  exact ⟨h1, by rw [Der.encInt]; omega⟩

/-- **C20 (parsing).** The DER encoding of every pair of integers of up to 256 bits, followed by
anything, is parsed back to the same pair. -/
theorem C20_parse_encoding (r s : Int) (hr : r.natAbs < 256 ^ 32) (hs : s.natAbs < 256 ^ 32) (rest : Bytes) :
    unmarshalPair (marshalPair r s ++ rest) = some (r, s) := by
  have h1 := encInt_small r hr
  have h2 := encInt_small s hs
  have e := Der.parseSeq_encSeq [Der.encInt r, Der.encInt s] rest (by simp; omega)
  have e1 := Der.parseInt_encInt r (Der.encInt s) (by omega)
  have e2 := Der.parseInt_encInt s [] (by omega)
  rw [List.append_nil] at e2
  simp only [unmarshalPair, marshalPair, e]
  simp [e1, e2]

theorem C20_parse_encoding' (r s : Int) (hr : r.natAbs < 256 ^ 32) (hs : s.natAbs < 256 ^ 32) :
    unmarshalPair (marshalPair r s) = some (r, s) := by
  have := C20_parse_encoding r s hr hs []
  simpa using this

theorem unmarshalOne_marshalOne (d : Int) (hd : d.natAbs < 256 ^ 32) : unmarshalOne (marshalOne d) = some d := by
  have h1 := encInt_small d hd
  have e := Der.parseSeq_encSeq [Der.encInt d] [] (by simp; omega)
  have e1 := Der.parseInt_encInt d [] (by omega)
  rw [List.append_nil] at e e1
  simp [unmarshalOne, marshalOne, e, e1]

/-- Both halves of a signature made by `Sign` are in `[0,n)`. -/
theorem sign_range (rand : Bytes) (priv : PrivateKey c) (msg : Bytes) (r s : Int)
    (h : sign c rand priv msg = .ok (r, s)) : (0 ≤ r ∧ r < N) ∧ (0 ≤ s ∧ s < N) := by
  have hN : (0 : Int) < N := by have := N_pos; omega
  unfold sign at h
  cases hd : msgDigest priv.x priv.y msg with
  | panic => rw [hd] at h; simp at h
  | err e => rw [hd] at h; simp at h
  | ok dg =>
    rw [hd, Res.ok_bind] at h
    cases hk : generateRandK rand with
    | none => rw [hk] at h; simp at h
    | some k =>
      rw [hk] at h
      simp only [Res.ok.injEq, Prod.mk.injEq] at h
      obtain ⟨rfl, rfl⟩ := h
      exact ⟨⟨Int.emod_nonneg _ hN.ne', Int.emod_lt_of_pos _ hN⟩,
        ⟨Int.emod_nonneg _ hN.ne', Int.emod_lt_of_pos _ hN⟩⟩

/-- **C20.** `PublicKey.Verify` on the bytes produced by `PrivateKey.Sign` decides exactly `Verify` of
the pair `Sign` computed, for every key pair and message. -/
theorem C20_verify_decides_pair (rand : Bytes) (priv : PrivateKey c) (pub : PublicKey c) (msg msg' sig : Bytes)
    (h : privSign c rand priv msg = .ok sig) :
    ∃ r s, sign c rand priv msg = .ok (r, s) ∧ pubVerify c pub msg' sig = verify c pub msg' r s := by
  unfold privSign at h
  obtain ⟨⟨r, s⟩, h1, h2⟩ := Res.bind_eq_ok.1 h
  simp only [Res.ok.injEq] at h2
  have hr := sign_range rand priv msg r s h1
  have hN := N_lt
  refine ⟨r, s, h1, ?_⟩
  rw [pubVerify, ← h2, C20_parse_encoding' r s (by omega) (by omega)]

/-- **C20 on the real curve.** A generated key other than `n-1` signs through the `crypto.Signer`
interface and its public key accepts the DER bytes (provided neither half is 0). -/
theorem C20_amd64 (rk rand msg sig : Bytes) (priv : PrivateKey Amd64.sm2Curve)
    (hgen : generateKey Amd64.sm2Curve rk = .ok priv) (hd : priv.d ≠ (N : Int) - 1)
    (h : privSign Amd64.sm2Curve rand priv msg = .ok sig)
    (hnz : ∀ r s, sign Amd64.sm2Curve rand priv msg = .ok (r, s) → r ≠ 0 ∧ s ≠ 0) :
    pubVerify Amd64.sm2Curve priv.toPublicKey msg sig = .ok true := by
  obtain ⟨r, s, h1, h2⟩ := C20_verify_decides_pair rand priv priv.toPublicKey msg msg sig h
  rw [h2]
  exact Amd64.C10_amd64 rk rand msg priv hgen hd r s h1 (hnz r s h1).1 (hnz r s h1).2

/-- the byte-string interface over any lawful curve object -/
theorem keygen_sign_verify (L : Lawful c G) (rk rand msg sk pk sig : Bytes)
    (hgen : sm2KeyGen c rk = .ok (sk, pk))
    (hsig : sm2Sign c rand sk pk msg = .ok sig) (r s : Int)
    (hrs : unmarshalPair sig = some (r, s)) (hr : r ≠ 0) (hs : s ≠ 0)
    (hd : sk ≠ marshalOne (N - 1)) (hbad : (r + s).toNat % N ∉ L.bad) :
    sm2Verify c sig pk msg = .ok true := by
  have hN := N_lt
  unfold sm2KeyGen at hgen
  split at hgen
  swap
  · simp at hgen
  rename_i priv hpriv
  simp only [Res.ok.injEq, Prod.mk.injEq] at hgen
  obtain ⟨rfl, rfl⟩ := hgen
  obtain ⟨d, d1, d2, hP⟩ := C10_generated_keys L rk priv hpriv
  have hlt := hP.pub.lt
  have hsc := hP.scalar
  unfold sm2Sign at hsig
  rw [unmarshalOne_marshalOne _ (by rw [hsc]; omega),
    C20_parse_encoding' (priv.x : Int) (priv.y : Int) (by simpa using hlt.1) (by simpa using hlt.2)] at hsig
  simp only [Int.natAbs_natCast] at hsig
  obtain ⟨r', s', h1, h2⟩ := C20_verify_decides_pair rand _
    { x := priv.x, y := priv.y, pre := none } msg msg sig hsig
  have hrng := sign_range _ _ _ _ _ h1
  have hsigeq : unmarshalPair sig = some (r', s') := by
    unfold privSign at hsig
    rw [h1, Res.ok_bind] at hsig
    simp only [Res.ok.injEq] at hsig
    rw [← hsig, C20_parse_encoding' r' s' (by omega) (by omega)]
  rw [hrs] at hsigeq
  simp only [Option.some.injEq, Prod.mk.injEq] at hsigeq
  obtain ⟨rfl, rfl⟩ := hsigeq
  have hpub : L.PubOf ({ x := priv.x, y := priv.y, pre := none } : PublicKey c)
      (d • L.g) := ⟨hP.pub.ne, hP.pub.x, hP.pub.y, Or.inl rfl⟩
  have hPk : L.PrivOf ({ x := priv.x, y := priv.y, pre := none, d := priv.d, dInv := none } :
      PrivateKey c) d := ⟨hpub, hsc, Or.inl rfl⟩
  have hd' : (d + 1) % N ≠ 0 := by
    rw [Nat.mod_eq_of_lt]
    · omega
    · have : priv.d ≠ (N : Int) - 1 := by intro h; exact hd (by rw [h])
      omega
  have husable : L.Usable ({ x := priv.x, y := priv.y, pre := none } : PublicKey c) (r + s).toNat := Or.inr hbad
  have hv := C10_sign_verifies L _ d hPk hd' rand msg r s h1 hr hs _ hpub husable
  unfold sm2Verify
  rw [hrs, C20_parse_encoding' (priv.x : Int) (priv.y : Int) (by simpa using hlt.1) (by simpa using hlt.2)]
  simp only [Int.natAbs_natCast]
  rw [if_neg (by omega), if_neg (by simp [coordPanics])]
  rw [h2, hv]

/-- **C20, byte-string interface.** `Sm2KeyGen`, `Sm2Sign`, `Sm2Verify`: with the keys of one
`Sm2KeyGen` call, the signature is accepted - except for the key `n-1`, a zero half, or (the partial
point) when `r+s ≡ n-6 (mod n)`, where the table-free `ScalarMult` of amd64 is wrong. -/
theorem C20_keygen_sign_verify_partial (rk rand msg sk pk sig : Bytes)
    (hgen : sm2KeyGen Amd64.sm2Curve rk = .ok (sk, pk))
    (hsig : sm2Sign Amd64.sm2Curve rand sk pk msg = .ok sig) (r s : Int)
    (hrs : unmarshalPair sig = some (r, s)) (hr : r ≠ 0) (hs : s ≠ 0)
    (hd : sk ≠ marshalOne (N - 1)) (hbad : (r + s).toNat % N ≠ N - 6) :
    sm2Verify Amd64.sm2Curve sig pk msg = .ok true := by
  exact keygen_sign_verify Amd64.sm2Lawful rk rand msg sk pk sig hgen hsig r s hrs hr hs hd
    (by show _ ∉ ({N - 6} : Set Nat); simpa using hbad)

/-- the random source runs dry: `Sm2KeyGen` panics instead of returning its error -/
theorem C20_keygen_drops_error_violated (c : Curve) (rand : Bytes) (h : rand.length < 40) :
    sm2KeyGen c rand = .panic := by
  obtain ⟨e, he⟩ := C12_failing_source c rand h
  rw [sm2KeyGen, he]

/-! ### C62: uniqueness of the accepted encoding -/

/-- **C62 (what is accepted).** Any byte string parsed as a signature is the DER encoding of the two
integers up to extra elements inside the SEQUENCE (`x`) and trailing bytes after it (`y`): integers
and lengths have only one accepted encoding. -/
theorem C62_accepted_form_partial (b : Bytes) (r s : Int) (h : unmarshalPair b = some (r, s)) :
    ∃ x y, b = Der.encTLV 0x30 (Der.encInt r ++ Der.encInt s ++ x) ++ y := by
  simp only [unmarshalPair, Option.bind_eq_bind, Option.bind_eq_some_iff, Prod.exists, Option.some.injEq,
    Prod.mk.injEq] at h
  obtain ⟨cc, y, h1, r', c1, h2, s', x, h3, rfl, rfl⟩ := h
  refine ⟨x, y, ?_⟩
  have e1 := Der.parseInt_inv _ _ _ h2
  have e2 := Der.parseInt_inv _ _ _ h3
  have e3 := (Der.parseTLV_inv _ _ _ _ h1).1
  rw [e3, e1, e2, List.append_assoc]

/-- **C62 is violated**: appending arbitrary bytes to an accepted signature gives a different byte
string that is accepted too, for every key and message. -/
theorem C62_trailing_data_violated (c : Curve) (rand : Bytes) (priv : PrivateKey c) (pub : PublicKey c)
    (msg sig junk : Bytes) (hs : privSign c rand priv msg = .ok sig) (hv : pubVerify c pub msg sig = .ok true)
    (hj : junk ≠ []) : sig ++ junk ≠ sig ∧ pubVerify c pub msg (sig ++ junk) = .ok true := by
  refine ⟨by simpa using hj, ?_⟩
  unfold privSign at hs
  obtain ⟨⟨r, s⟩, h1, h2⟩ := Res.bind_eq_ok.1 hs
  simp only [Res.ok.injEq] at h2
  have hr := sign_range rand priv msg r s h1
  have hN := N_lt
  have e1 := C20_parse_encoding r s (by omega) (by omega) junk
  have e2 := C20_parse_encoding' r s (by omega) (by omega)
  rw [← h2] at hv ⊢
  rw [pubVerify, e1]
  rw [pubVerify, e2] at hv
  exact hv

/-! ### C63: ASN.1 ciphertexts -/

theorem decrypt_of_parts (key : PrivateKey c) (x1 y1 : Nat) (c3 c2 : Bytes) (hx : x1 < 2 ^ 256) (hy : y1 < 2 ^ 256)
    (h3 : c3.length = 32) :
    decrypt key (pointToBytes x1 y1 ++ c3 ++ c2) = decryptParts key x1 y1 c2 c3 (c2.length * 8) := by
  obtain ⟨l, -, e⟩ := C19_roundtrip x1 y1 hx hy
  rw [decrypt, if_neg (by simp; omega)]
  have t1 : (pointToBytes x1 y1 ++ c3 ++ c2).take 65 = pointToBytes x1 y1 := by
    rw [List.append_assoc, List.take_left' l]
  have t2 : (pointToBytes x1 y1 ++ c3 ++ c2).drop 97 = c2 := by
    rw [List.drop_left' (by simp; omega)]
  have t3 : ((pointToBytes x1 y1 ++ c3 ++ c2).drop 65).take 32 = c3 := by
    rw [List.append_assoc, List.drop_left' l, List.take_left' h3]
  rw [t1, t2, t3, e]
  simp only []
  congr 2
  simp only [List.length_append, l, h3]
  omega

theorem unmarshalCipher_marshal (p : EncParts) (hx : p.x1 < 256 ^ 32) (hy : p.y1 < 256 ^ 32)
    (h3 : p.c3.length < 2 ^ 29) (h2 : p.c2.length < 2 ^ 29) (rest : Bytes) :
    unmarshalCipher (marshalCipher p ++ rest) = some ((p.x1 : Int), (p.y1 : Int), p.c3, p.c2) := by
  have b1 := encInt_small (p.x1 : Int) (by simpa using hx)
  have b2 := encInt_small (p.y1 : Int) (by simpa using hy)
  have b3 := Der.encTLV_length 0x04 p.c3 (by omega)
  have b4 := Der.encTLV_length 0x04 p.c2 (by omega)
  have e := Der.parseSeq_encSeq [Der.encInt p.x1, Der.encInt p.y1, Der.encOctets p.c3, Der.encOctets p.c2] rest
    (by simp only [Der.encOctets, List.flatten_cons, List.flatten_nil, List.length_append, List.length_nil]; omega)
  have e1 := Der.parseInt_encInt (p.x1 : Int) (Der.encInt p.y1 ++ (Der.encOctets p.c3 ++ Der.encOctets p.c2)) (by omega)
  have e2 := Der.parseInt_encInt (p.y1 : Int) (Der.encOctets p.c3 ++ Der.encOctets p.c2) (by omega)
  have e3 := Der.parseOctets_encOctets p.c3 (Der.encOctets p.c2) (by omega)
  have e4 := Der.parseOctets_encOctets p.c2 [] (by omega)
  rw [List.append_nil] at e4
  simp only [unmarshalCipher, marshalCipher, e]
  simp [e1, e2, e3, e4]

/-- the ASN.1 form over any lawful curve object for which the plain form works -/
theorem asn1_roundtrip (L : Lawful c G) (rand msg ct : Bytes) (priv : PrivateKey c)
    (hr : ∀ ct, encrypt c rand priv.toPublicKey msg = some (.ok ct) → decrypt priv ct = .ok msg ∧ ct.length = 97 + msg.length ∧ ct.head? = some 4) (hm : msg.length < 2 ^ 29)
    (henc : encryptAsn1 c rand priv.toPublicKey msg = some (.ok ct)) :
    decryptAsn1 priv ct = .ok msg := by
  unfold encryptAsn1 at henc
  rw [Option.map_eq_some_iff] at henc
  obtain ⟨r, h1, h2⟩ := henc
  obtain ⟨p, rfl, h3⟩ := Res.bind_eq_ok.1 h2
  simp only [Res.ok.injEq] at h3
  have henc' : encrypt c rand priv.toPublicKey msg = some (.ok (pointToBytes p.x1 p.y1 ++ p.c3 ++ p.c2)) := by
    rw [encrypt, h1]; rfl
  obtain ⟨hdec, hlen, -⟩ := hr _ henc'
  -- the shape of the parts
  obtain ⟨x, y, hx, hy, h32⟩ : ∃ Q, (p.x1, p.y1) = L.enc Q ∧ p.c3.length = 32 ∧ True ∧ True := by
    unfold doEncrypt at h1
    split at h1
    · simp at h1
    rename_i k hk
    dsimp only at h1
    split at h1
    · simp at h1
    · simp at h1
    · simp at h1
    split at h1
    · simp at h1
    simp only [Option.some.injEq] at h1
    obtain ⟨c2, hc2, h4⟩ := Res.bind_eq_ok.1 h1
    obtain ⟨hh, hhash, h5⟩ := Res.bind_eq_ok.1 h4
    simp only [Res.ok.injEq] at h5
    refine ⟨beNat (natBytes k) • L.g, ?_, ?_, trivial, trivial⟩
    · rw [← h5, ← L.base]
    · rw [← h5]
      rw [Sm3.C02_sumSM3_is_standard] at hhash
      simp only [Res.ok.injEq] at hhash
      rw [← hhash]
      exact Sm3.spec_hash_length _
  have hP : P < 256 ^ 32 := by decide
  have e256 : (2:Nat) ^ 256 = 256 ^ 32 := by decide
  have hlt := L.enc_lt x
  rw [← y] at hlt
  simp only at hlt
  rw [decrypt_of_parts priv p.x1 p.y1 p.c3 p.c2 (by omega) (by omega) hx] at hdec
  have hl := (C19_roundtrip p.x1 p.y1 (by omega) (by omega)).1
  have hc2 : p.c2.length = msg.length := by
    simp only [List.length_append, hl, hx] at hlen; omega
  have := unmarshalCipher_marshal p (by omega) (by omega) (by omega) (by omega) []
  rw [List.append_nil] at this
  rw [decryptAsn1, ← h3, this]
  simp only [Int.natAbs_natCast]
  rw [if_neg (by simp [coordPanics])]
  exact hdec

/-- **C63.** On the real curve, whatever `EncryptAsn1` returns for a generated key (other than `n-6`,
see C15) and a message below 2^29 bytes, `DecryptAsn1` returns the message. -/
theorem C63_roundtrip_partial (rk rand msg ct : Bytes) (priv : PrivateKey Amd64.sm2Curve)
    (hgen : generateKey Amd64.sm2Curve rk = .ok priv) (hd : priv.d ≠ (N : Int) - 6) (hm : msg.length < 2 ^ 29)
    (henc : encryptAsn1 Amd64.sm2Curve rand priv.toPublicKey msg = some (.ok ct)) :
    decryptAsn1 priv ct = .ok msg :=
  asn1_roundtrip Amd64.sm2Lawful rand msg ct priv (fun ct' h => Amd64.C15_amd64_partial rk rand msg ct' priv hgen hd h) hm henc

/-- **C63 (release).** `DecryptAsn1` releases plaintext only if the hash check passes. -/
theorem C63_released_only_if_hash_ok (hb : Bounded c) (key : PrivateKey c) (ct m : Bytes)
    (h : decryptAsn1 key ct = .ok m) :
    ∃ x y c3 c2, unmarshalCipher ct = some (x, y, c3, c2) ∧
      (let q := c.scalarMult x.natAbs y.natAbs (natBytes key.d.natAbs)
       c3 = Sm3.Spec.hash (beFixed 32 q.1 ++ m ++ beFixed 32 q.2) ∧
       m = Spec.xor (Spec.kdf (beFixed 32 q.1 ++ beFixed 32 q.2) c2.length) c2) := by
  unfold decryptAsn1 at h
  split at h
  · simp at h
  rename_i x y c3 c2 hu
  split at h
  · simp at h
  refine ⟨x, y, c3, c2, hu, ?_⟩
  have := decryptParts_spec hb key x.natAbs y.natAbs c2 c3
  simp only at this
  rw [this] at h
  split at h
  · simp at h
  rename_i hn
  push Not at hn
  simp only [Res.ok.injEq] at h
  subst h
  exact ⟨hn.2.symm, rfl⟩

/-! ### C64: panics on hostile ASN.1 -/

/-- **C64 (exact set).** `DecryptAsn1` panics exactly when the ciphertext parses with a negative
coordinate of more than 256 bits. -/
theorem C64_decryptAsn1_panics_iff_partial (hb : Bounded c) (key : PrivateKey c) (ct : Bytes) :
    decryptAsn1 key ct = .panic ↔
      ∃ x y c3 c2, unmarshalCipher ct = some (x, y, c3, c2) ∧
        ((x < 0 ∧ 2 ^ 256 ≤ x.natAbs) ∨ (y < 0 ∧ 2 ^ 256 ≤ y.natAbs)) := by
  unfold decryptAsn1
  cases hu : unmarshalCipher ct with
  | none => simp
  | some q =>
    obtain ⟨x, y, c3, c2⟩ := q
    simp only [coordPanics, Bool.or_eq_true, decide_eq_true_eq]
    constructor
    · intro h
      refine ⟨x, y, c3, c2, rfl, ?_⟩
      by_contra hc
      rw [if_neg hc] at h
      have := decryptParts_spec hb key x.natAbs y.natAbs c2 c3
      simp only at this
      rw [this] at h
      split at h <;> simp at h
    · rintro ⟨x', y', c3', c2', he, hc⟩
      simp only [Option.some.injEq, Prod.mk.injEq] at he
      obtain ⟨rfl, rfl, rfl, rfl⟩ := he
      rw [if_pos hc]

/-- the attacker's ciphertext: X = -2^256, the rest minimal -/
def panicCipher : Bytes :=
  Der.encSeq [Der.encInt (-(2 ^ 256)), Der.encInt 0, Der.encOctets [], Der.encOctets []]

/-- **C64 is violated**: one fixed 44-byte string makes `DecryptAsn1` panic for every private key. -/
theorem C64_decryptAsn1_panics_violated (hb : Bounded c) (key : PrivateKey c) :
    decryptAsn1 key panicCipher = .panic := by
  rw [C64_decryptAsn1_panics_iff_partial hb]
  refine ⟨-(2 ^ 256), 0, [], [], by decide +kernel, Or.inl ⟨by decide, by decide⟩⟩

/-- … and `Sm2Verify` panics for every signature in range when the public key string is hostile. -/
theorem C64_sm2Verify_panics_violated (c : Curve) (msg : Bytes) (r s : Int) (hr : 0 < r ∧ r < N) (hs : 0 < s ∧ s < N) :
    sm2Verify c (marshalPair r s) (marshalPair (-(2 ^ 256)) 0) msg = .panic := by
  have hN := N_lt
  have e : unmarshalPair (marshalPair (-(2 ^ 256)) 0) = some (-(2 ^ 256), 0) := by decide +kernel
  rw [sm2Verify, C20_parse_encoding' r s (by omega) (by omega), e]
  simp only []
  rw [if_neg (by omega), if_pos (by decide +kernel)]

/-! ### C65: no curve membership check -/

/-- **C65 is violated**: for *any* coordinates (on the curve or not) an attacker who knows `d·C1`
as `ScalarMult` computes it builds a ciphertext that `Decrypt` accepts; the point is never checked. -/
theorem C65_invalid_point_accepted_violated (hb : Bounded c) (key : PrivateKey c) (x1 y1 : Nat)
    (hx : x1 < 2 ^ 256) (hy : y1 < 2 ^ 256) :
    let q := c.scalarMult x1 y1 (natBytes key.d.natAbs)
    decrypt key (pointToBytes x1 y1 ++ Sm3.Spec.hash (beFixed 32 q.1 ++ beFixed 32 q.2)) = .ok [] := by
  intro q
  have := decrypt_of_parts key x1 y1 (Sm3.Spec.hash (beFixed 32 q.1 ++ beFixed 32 q.2)) [] hx hy (Sm3.spec_hash_length _)
  rw [List.append_nil] at this
  rw [this]
  have h2 := decryptParts_spec hb key x1 y1 [] (Sm3.Spec.hash (beFixed 32 q.1 ++ beFixed 32 q.2))
  simp only at h2
  rw [h2, if_neg]
  · simp [Spec.xor]
  · rintro (⟨h, -⟩ | h)
    · exact h rfl
    · exact h (by simp [Spec.xor]; rfl)

/-- a point that is not on the curve, to make the quantifier of C65 concrete -/
example : (1 * 1) % P ≠ (1 * 1 * 1 + A * 1 + B) % P := by decide

end Verif.Sm2
