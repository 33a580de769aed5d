import Verif.Tls.KeyAgreement
/-!
C81: both ends of an RSA or ECDHE key agreement compute the same premaster secret, and the honest ServerKeyExchange is accepted.
C82: ECDHE parameters are used only if the server's certificate key signed them together with both randoms.
C83: key exchange messages and panics.
-/
namespace Verif.Tls
open Verif Verif.Tls.Wire

namespace Spec

/-- What is asked of a curve of crypto/elliptic: Diffie-Hellman commutes on generated keys, encoding a generated point and decoding it is the identity, points are `1 + 2n` bytes,
coordinates fit. -/
structure NistLaw (c : NistCurve) : Prop where
  commutes : ∀ r a A r' s b B s', c.generateKey r = some (a, A, r') → c.generateKey s = some (b, B, s') → c.scalarMult A b = c.scalarMult B a
  decodes : ∀ r a A r', c.generateKey r = some (a, A, r') → c.unmarshal (c.marshal A) = some A
  short : ∀ p, (c.marshal p).length < 256
  fits : ∀ p k, (c.scalarMult p k).1 < 256 ^ c.byteLen

/-- What is asked of curve25519. -/
structure X25519Law (K : KaEnv) : Prop where
  commutes : ∀ a b, a.length = 32 → b.length = 32 → K.x25519 a (K.x25519Base b) = K.x25519 b (K.x25519Base a)
  length : ∀ a, (K.x25519Base a).length = 32

/-- the library keeps its promises -/
structure KaLaw (K : KaEnv) : Prop where
  p256 : NistLaw K.p256
  p384 : NistLaw K.p384
  p521 : NistLaw K.p521
  x25519 : X25519Law K

/-- the signature types a key can make -/
def KeyFits : X509.Pub → SigType → Prop
  | .rsa _, t => t = .pkcs1v15 ∨ t = .rsaPSS
  | .ecdsa _, t => t = .ecdsa
  | .sm2 _ _, t => t = .sm2
  | _, _ => False

/-- a signer whose signatures, of the types that fit its key, verify under its public key and are of encodable length -/
def HonestSigner (E : AuthEnv) (S : Signer) : Prop :=
  ∀ rand t h d sig, KeyFits S.pub t → S.sign rand t h d = .ok sig → verifyHandshakeSignature E t S.pub h d sig = .ok true ∧ sig.length < 65536

/-- RSA decryption undoes encryption under the matching public key -/
def RsaLaw (K : KaEnv) (pub priv : Bytes) : Prop :=
  ∀ r r' m c, K.rsaEncrypt r pub m = some c → K.rsaDecrypt r' priv c = some m ∧ c.length < 65536

/-- `sig` is a signature of the holder of `pub` over `data`, made for TLS 1.2 with scheme `a` (one that the client offered), or as the earlier versions prescribe -/
def SignedBy (E : AuthEnv) (v : Version) (offered : List U16) (a : U16) (data sig : Bytes) : X509.Pub → Prop
  | .rsa k =>
    if vTLS12.toNat ≤ v.toNat then
      a ∈ offered ∧ SchemeIs a 1 ∧ E.rsaPKCS1 k (schemeHash a) ((E.hashFn (schemeHash a)).sum data) sig = true
    else E.rsaPKCS1 k .md5sha1 (E.hashes.md5.sum data ++ E.hashes.sha1.sum data) sig = true
  | .ecdsa k =>
    ∃ r s, Sm2.unmarshalPair sig = some (r, s) ∧ 0 < r ∧ 0 < s ∧
      (if vTLS12.toNat ≤ v.toNat then
        a ∈ offered ∧ SchemeIs a 3 ∧ E.ecdsaVerify k ((E.hashFn (schemeHash a)).sum data) r s = true
      else E.ecdsaVerify k (E.hashes.sha1.sum data) r s = true)
  | .sm2 x y => v.toNat < vTLS12.toNat ∧ ∃ r s, Sm2.unmarshalPair sig = some (r, s) ∧
      Sm2.verify E.x509.curve { x := x, y := y, pre := none } (E.hashes.md5.sum data ++ E.hashes.sha1.sum data) r s = .ok true
  | _ => False

end Spec

/-! ### bytes -/

theorem u16_bytes (v : U16) : ((v >>> 8).setWidth 8 : Byte).setWidth 16 <<< 8 ||| (v.setWidth 8 : Byte).setWidth 16 = v := by
  apply BitVec.eq_of_getLsbD_eq
  intro i hi
  simp only [BitVec.getLsbD_or, BitVec.getLsbD_shiftLeft, BitVec.getLsbD_setWidth, BitVec.getLsbD_ushiftRight]
  by_cases h8 : i < 8
  · simp [h8, hi]
  · have : i - 8 < 8 := by omega
    have e : 8 + (i - 8) = i := by omega
    simp [h8, hi, this, e]
    omega

theorem u16_len (n : Nat) (h : n < 65536) : (BitVec.ofNat 8 (n / 256) : Byte).toNat * 256 + (BitVec.ofNat 8 n : Byte).toNat = n := by
  simp only [BitVec.toNat_ofNat]
  omega

theorem padPremaster_eq (n x : Nat) (h : x < 256 ^ n) : padPremaster n x = .ok (beFixed n x) := by
  unfold padPremaster
  have hl := natBytes_length_le h
  dsimp only
  rw [if_neg (by omega), Res.ok.injEq]
  exact pad_natBytes h

/-! ### signature algorithms -/

theorem pickLoopFull_fst {pub : X509.Pub} {ours peer : List U16} {a : U16} {t : SigType} {h : HashId}
    (e : pickLoopFull pub ours peer = .ok (a, t, h)) :
    a ∈ peer ∧ a ∈ ours ∧ lookupTLSHash a = some h ∧ t = signatureFromSignatureScheme a ∧
      ((∃ k, pub = .rsa k ∧ (t = .pkcs1v15 ∨ t = .rsaPSS)) ∨ (∃ k, pub = .ecdsa k ∧ t = .ecdsa) ∨ (∃ x y, pub = .sm2 x y ∧ t = .ecdsa)) := by
  induction peer with
  | nil => cases e
  | cons b rest ih =>
    have lift : pickLoopFull pub ours rest = .ok (a, t, h) → a ∈ b :: rest ∧ a ∈ ours ∧ lookupTLSHash a = some h ∧ t = signatureFromSignatureScheme a ∧
      ((∃ k, pub = .rsa k ∧ (t = .pkcs1v15 ∨ t = .rsaPSS)) ∨ (∃ k, pub = .ecdsa k ∧ t = .ecdsa) ∨ (∃ x y, pub = .sm2 x y ∧ t = .ecdsa)) := by
      intro e'
      obtain ⟨h1, h2⟩ := ih e'
      exact ⟨List.mem_cons_of_mem _ h1, h2⟩
    unfold pickLoopFull at e
    by_cases hm : b ∉ ours
    · rw [if_pos hm] at e; exact lift e
    · rw [if_neg hm] at e
      push Not at hm
      cases hl : lookupTLSHash b with
      | none => rw [hl] at e; cases e
      | some hh =>
        rw [hl] at e
        cases pub with
        | rsa k =>
          simp only at e
          split at e
          · rename_i ht
            simp only [Res.ok.injEq, Prod.mk.injEq] at e
            obtain ⟨rfl, rfl, rfl⟩ := e
            exact ⟨List.mem_cons_self, hm, hl, rfl, .inl ⟨k, rfl, ht⟩⟩
          · exact lift e
        | ecdsa k =>
          simp only at e
          split at e
          · rename_i ht
            simp only [Res.ok.injEq, Prod.mk.injEq] at e
            obtain ⟨rfl, rfl, rfl⟩ := e
            exact ⟨List.mem_cons_self, hm, hl, rfl, .inr (.inl ⟨k, rfl, ht⟩)⟩
          · exact lift e
        | sm2 x y =>
          simp only at e
          split at e
          · rename_i ht
            simp only [Res.ok.injEq, Prod.mk.injEq] at e
            obtain ⟨rfl, rfl, rfl⟩ := e
            exact ⟨List.mem_cons_self, hm, hl, rfl, .inr (.inr ⟨x, y, rfl, ht⟩)⟩
          · exact lift e
        | dsa k => cases e
        | none => cases e

/-- the server's choice, offered alone to the client, is the client's choice -/
theorem pick_agree {pub : X509.Pub} {offered : List U16} {v : Version} {a : U16} {t : SigType} {h : HashId}
    (hne : vTLS12.toNat ≤ v.toNat → offered ≠ [])
    (e : pickSignatureAlgorithmFull pub offered supportedSignatureAlgorithms v = .ok (a, t, h)) (b : U16)
    (hb : vTLS12.toNat ≤ v.toNat → b = a) : ∃ b', pickSignatureAlgorithmFull pub [b] offered v = .ok (b', t, h) := by
  unfold pickSignatureAlgorithmFull at e ⊢
  by_cases hv : v.toNat < vTLS12.toNat
  · rw [if_pos (.inl hv)] at e ⊢
    cases pub with
    | rsa k => simp only [if_pos hv] at e ⊢; exact ⟨a, e⟩
    | ecdsa k => exact ⟨a, e⟩
    | sm2 x y => exact ⟨a, e⟩
    | dsa k => cases e
    | none => cases e
  · have hv' : vTLS12.toNat ≤ v.toNat := by omega
    have hl : offered.length ≠ 0 := fun h => hne hv' (List.length_eq_zero_iff.1 h)
    rw [if_neg (by simp only [not_or]; exact ⟨hv, hl⟩)] at e
    rw [if_neg (by simp only [not_or]; exact ⟨hv, by simp⟩)]
    obtain rfl := hb hv'
    obtain ⟨h1, h2, h3, h4, h5⟩ := pickLoopFull_fst e
    refine ⟨b, ?_⟩
    unfold pickLoopFull
    rw [if_neg (by simpa using h1), h3]
    rcases h5 with ⟨k, rfl, ht⟩ | ⟨k, rfl, ht⟩ | ⟨x, y, rfl, ht⟩
    · simp only [← h4]; rw [if_pos ht]
    · simp only [← h4]; rw [if_pos ht]
    · simp only [← h4]; rw [if_pos ht]

theorem pickFull_one {pub : X509.Pub} {ours : List U16} (hsub : ∀ a ∈ ours, a ∈ supportedSignatureAlgorithms) {v : Version} {a a' : U16} {t : SigType} {h : HashId}
    (e : pickSignatureAlgorithmFull pub [a] ours v = .ok (a', t, h)) :
    (v.toNat < vTLS12.toNat → (∃ k, pub = .rsa k ∧ t = .pkcs1v15 ∧ h = .md5sha1) ∨ (∃ k, pub = .ecdsa k ∧ t = .ecdsa) ∨ (∃ x y, pub = .sm2 x y ∧ t = .sm2)) ∧
    (vTLS12.toNat ≤ v.toNat → a ∈ ours ∧ h = Spec.schemeHash a ∧ ((∃ k, pub = .rsa k ∧ t = .pkcs1v15 ∧ Spec.SchemeIs a 1) ∨
      (∃ k, pub = .ecdsa k ∧ t = .ecdsa ∧ Spec.SchemeIs a 3) ∨ (∃ x y, pub = .sm2 x y ∧ t = .ecdsa))) := by
  unfold pickSignatureAlgorithmFull at e
  by_cases hv : v.toNat < vTLS12.toNat
  · refine ⟨fun _ => ?_, fun h' => absurd hv (by omega)⟩
    rw [if_pos (.inl hv)] at e
    cases pub with
    | rsa k =>
      simp only [if_pos hv, Res.ok.injEq, Prod.mk.injEq] at e
      exact .inl ⟨k, rfl, e.2.1.symm, e.2.2.symm⟩
    | ecdsa k =>
      simp only [Res.ok.injEq, Prod.mk.injEq] at e
      exact .inr (.inl ⟨k, rfl, e.2.1.symm⟩)
    | sm2 x y =>
      simp only [Res.ok.injEq, Prod.mk.injEq] at e
      exact .inr (.inr ⟨x, y, rfl, e.2.1.symm⟩)
    | dsa k => cases e
    | none => cases e
  · refine ⟨fun h' => absurd h' hv, fun _ => ?_⟩
    rw [if_neg (by simp [hv])] at e
    obtain ⟨h1, h2, h3, h4, h5⟩ := pickLoopFull_fst e
    rw [List.mem_singleton] at h1
    subst h1
    obtain ⟨kind, hk, hs, hl, hsig⟩ := supported_schemes _ (hsub _ h2)
    rw [hl] at h3
    injection h3 with h3
    refine ⟨h2, h3.symm, ?_⟩
    rw [hsig] at h4
    rcases hk with rfl | rfl
    · rw [if_pos rfl] at h4
      subst h4
      rcases h5 with ⟨k, rfl, ht⟩ | ⟨k, rfl, ht⟩ | ⟨x, y, rfl, ht⟩
      · exact .inl ⟨k, rfl, rfl, hs⟩
      · cases ht
      · cases ht
    · rw [if_neg (by decide)] at h4
      subst h4
      rcases h5 with ⟨k, rfl, ht⟩ | ⟨k, rfl, ht⟩ | ⟨x, y, rfl, ht⟩
      · rcases ht with ht | ht <;> cases ht
      · exact .inr (.inl ⟨k, rfl, rfl, hs⟩)
      · exact .inr (.inr ⟨x, y, rfl, rfl⟩)

/-! ### C81 -/

theorem curve_law {K : KaEnv} (L : Spec.KaLaw K) {id : U16} {c : NistCurve} (h : K.curve id = some c) :
    Spec.NistLaw c ∧ (id = 23 ∨ id = 24 ∨ id = 25) := by
  unfold KaEnv.curve at h
  split at h
  · injection h with h; subst h; exact ⟨L.p256, .inl ‹_›⟩
  · split at h
    · injection h with h; subst h; exact ⟨L.p384, .inr (.inl ‹_›)⟩
    · split at h
      · injection h with h; subst h; exact ⟨L.p521, .inr (.inr ‹_›)⟩
      · cases h

theorem pickCurve_inv {prefs offered : List U16} {id : U16} (h : pickCurve prefs offered = some id) : id ∈ prefs ∧ id ∈ offered ∧ id ≠ 0 := by
  unfold pickCurve at h
  cases hf : prefs.find? (· ∈ offered) with
  | none => rw [hf] at h; cases h
  | some c =>
    rw [hf] at h
    dsimp only at h
    split at h
    · cases h
    · injection h with h
      subst h
      exact ⟨List.mem_of_find?_eq_some hf, by simpa using List.find?_some hf, ‹_›⟩

/-- the server's key and what the client makes of it -/
theorem serverKey_peer {K : KaEnv} (L : Spec.KaLaw K) {id : U16} {rand rand' pub : Bytes} {st : EcdheServer} (h0 : id ≠ 0)
    (h : ecdheServerKey K id rand = .ok (st, pub, rand')) :
    pub.length < 256 ∧ st.curve = id ∧ ∃ cl, ecdhePeer K id pub = .ok cl ∧ cl.curve = id ∧
      ∀ r pre body, ecdheGenCKX K (some cl) r = .ok (pre, body) → ecdheProcessCKX K st body = .ok pre := by
  unfold ecdheServerKey at h
  unfold ecdhePeer
  by_cases hx : id = idX25519
  · rw [if_pos hx] at h ⊢
    cases hr : Sm2.readFull rand 32 with
    | none => rw [hr] at h; cases h
    | some x =>
      obtain ⟨scalar, rest⟩ := x
      rw [hr] at h
      simp only [Res.ok.injEq, Prod.mk.injEq] at h
      obtain ⟨rfl, rfl, rfl⟩ := h
      have hsl : scalar.length = 32 := by
        unfold Sm2.readFull at hr
        split at hr
        · simp only [Option.some.injEq, Prod.mk.injEq] at hr
          rw [← hr.1, List.length_take]; omega
        · cases hr
      have hl := L.x25519.length scalar
      refine ⟨by omega, rfl, _, if_neg (by rw [hl]; simp), rfl, ?_⟩
      intro r pre body hg
      unfold ecdheGenCKX at hg
      dsimp only at hg
      rw [if_neg h0] at hg
      obtain ⟨⟨p, q⟩, hk, hg⟩ := Res.bind_eq_ok.1 hg
      simp only [Res.ok.injEq, Prod.mk.injEq] at hg
      obtain ⟨rfl, rfl⟩ := hg
      unfold ecdheClientKey at hk
      rw [if_pos hx] at hk
      cases hr2 : Sm2.readFull r 32 with
      | none => rw [hr2] at hk; cases hk
      | some y =>
        obtain ⟨b, rest2⟩ := y
        rw [hr2] at hk
        simp only [Res.ok.injEq, Prod.mk.injEq] at hk
        obtain ⟨rfl, rfl⟩ := hk
        have hbl : b.length = 32 := by
          unfold Sm2.readFull at hr2
          split at hr2
          · simp only [Option.some.injEq, Prod.mk.injEq] at hr2
            rw [← hr2.1, List.length_take]; omega
          · cases hr2
        have hl2 := L.x25519.length b
        unfold ecdheProcessCKX
        dsimp only
        rw [if_neg (by rw [hl2]; decide), if_pos hx, if_neg (by rw [hl2]; simp), hl]
        rw [L.x25519.commutes _ _ hsl hbl]
        simp
  · rw [if_neg hx] at h ⊢
    cases hc : K.curve id with
    | none => rw [hc] at h; cases h
    | some c =>
      rw [hc] at h
      dsimp only at h ⊢
      obtain ⟨LC, _⟩ := curve_law L hc
      cases hg : c.generateKey rand with
      | none => rw [hg] at h; cases h
      | some x =>
        obtain ⟨priv, pt, rest⟩ := x
        rw [hg] at h
        simp only [Res.ok.injEq, Prod.mk.injEq] at h
        obtain ⟨rfl, rfl, rfl⟩ := h
        refine ⟨LC.short _, rfl, { curve := id, point := pt }, by rw [LC.decodes _ _ _ _ hg], rfl, ?_⟩
        intro r pre body hgc
        unfold ecdheGenCKX at hgc
        dsimp only at hgc
        rw [if_neg h0] at hgc
        obtain ⟨⟨p, q⟩, hk, hgc⟩ := Res.bind_eq_ok.1 hgc
        simp only [Res.ok.injEq, Prod.mk.injEq] at hgc
        obtain ⟨rfl, rfl⟩ := hgc
        unfold ecdheClientKey at hk
        rw [if_neg hx, hc] at hk
        dsimp only at hk
        cases hg2 : c.generateKey r with
        | none => rw [hg2] at hk; cases hk
        | some y =>
          obtain ⟨b, B, rest2⟩ := y
          rw [hg2] at hk
          dsimp only at hk
          obtain ⟨pm, hpm, hk⟩ := Res.bind_eq_ok.1 hk
          simp only [Res.ok.injEq, Prod.mk.injEq] at hk
          obtain ⟨rfl, rfl⟩ := hk
          have hs := LC.short B
          unfold ecdheProcessCKX
          dsimp only
          rw [if_neg (by simp only [BitVec.toNat_ofNat]; omega), if_neg hx, hc]
          dsimp only
          rw [LC.decodes _ _ _ _ hg2]
          dsimp only
          rw [← hpm, LC.commutes _ _ _ _ _ _ _ _ hg hg2]

theorem fits_of_pick {pub : X509.Pub} {offered ours : List U16} {v : Version} {a : U16} {t : SigType} {h : HashId}
    (hsm : ∀ x y, pub = .sm2 x y → v.toNat < vTLS12.toNat)
    (e : pickSignatureAlgorithmFull pub offered ours v = .ok (a, t, h)) : Spec.KeyFits pub t := by
  unfold pickSignatureAlgorithmFull at e
  split at e
  · cases pub with
    | rsa k =>
      simp only at e
      split at e <;> (simp only [Res.ok.injEq, Prod.mk.injEq] at e; exact .inl e.2.1.symm)
    | ecdsa k => simp only [Res.ok.injEq, Prod.mk.injEq] at e; exact e.2.1.symm
    | sm2 x y => simp only [Res.ok.injEq, Prod.mk.injEq] at e; exact e.2.1.symm
    | dsa k => cases e
    | none => cases e
  · rename_i hn
    obtain ⟨_, _, _, _, h5⟩ := pickLoopFull_fst e
    rcases h5 with ⟨k, rfl, ht⟩ | ⟨k, rfl, ht⟩ | ⟨x, y, rfl, ht⟩
    · exact ht
    · exact ht
    · exact absurd (.inl (hsm x y rfl)) hn

theorem idx_zero (a : Byte) (l : Bytes) : idx (a :: l) 0 = .ok a := by simp [idx]
theorem idx_one (a b : Byte) (l : Bytes) : idx (a :: b :: l) 1 = .ok b := by simp [idx]

/-- the client's half of the signature check accepts the server's half -/
theorem skx_accepted {K : KaEnv} {v : Version} {isRSA : Bool} {offeredAlgs : List U16} {S : Signer} {cr sr params pub sig rand : Bytes} {id a : U16}
    {t : SigType} {h : HashId} {cl : EcdheClient}
    (hs : Spec.HonestSigner K.auth S) (hne : vTLS12.toNat ≤ v.toNat → offeredAlgs ≠ [])
    (hsm : ∀ x y, S.pub = .sm2 x y → v.toNat < vTLS12.toNat) (hparams : params = ecdhParams id pub) (hlen : pub.length < 256)
    (hpeer : ecdhePeer K id pub = .ok cl)
    (hp : pickSignatureAlgorithmFull S.pub offeredAlgs supportedSignatureAlgorithms v = .ok (a, t, h))
    (hr : ¬ decide (t = .pkcs1v15 ∨ t = .rsaPSS) ≠ isRSA)
    (hsig : S.sign rand t h (hashForSKX K.auth t h v (cr ++ sr ++ params)) = .ok sig) :
    ecdheProcessSKX K v isRSA offeredAlgs S.pub cr sr (ecdheSKX v params a sig) = .ok cl := by
  obtain ⟨hver, hsl⟩ := hs _ _ _ _ _ (fits_of_pick hsm hp) hsig
  have hkey : ∃ tail, ecdheSKX v params a sig = (3 : Byte) :: (id >>> 8).setWidth 8 :: id.setWidth 8 :: BitVec.ofNat 8 pub.length :: (pub ++ tail) ∧
      tail = (if vTLS12.toNat ≤ v.toNat then [(a >>> 8).setWidth 8, a.setWidth 8] else []) ++
        [BitVec.ofNat 8 (sig.length / 256), BitVec.ofNat 8 sig.length] ++ sig := by
    refine ⟨_, ?_, rfl⟩
    subst hparams
    simp [ecdheSKX, ecdhParams]
  obtain ⟨tail, hkey, htail⟩ := hkey
  have hn : (BitVec.ofNat 8 pub.length : Byte).toNat = pub.length := by
    simp only [BitVec.toNat_ofNat]; omega
  have htl : 2 ≤ tail.length := by
    rw [htail]; simp; omega
  unfold ecdheProcessSKX
  rw [hkey]
  dsimp only
  rw [hn, if_neg (by simp), if_neg (by simp only [List.length_cons, List.length_append]; omega), List.drop_left' rfl, if_neg (by omega), List.take_left' rfl, u16_bytes, hpeer, Res.ok_bind]
  have htake : List.take (4 + pub.length) ((3 : Byte) :: (id >>> 8).setWidth 8 :: id.setWidth 8 :: BitVec.ofNat 8 pub.length :: (pub ++ tail)) = params := by
    rw [hparams, show 4 + pub.length = (ecdhParams id pub).length by simp [ecdhParams]; omega]
    apply List.take_left' (l₁ := ecdhParams id pub) rfl
  rw [htake]
  have halg : ecdheAlg v tail = .ok (if vTLS12.toNat ≤ v.toNat then a else 0, [BitVec.ofNat 8 (sig.length / 256), BitVec.ofNat 8 sig.length] ++ sig) := by
    unfold ecdheAlg
    by_cases hv : vTLS12.toNat ≤ v.toNat
    · rw [if_pos hv] at htail ⊢
      rw [htail]
      simp only [idx_zero, idx_one, List.cons_append, List.nil_append, Res.ok_bind, List.drop_succ_cons, List.drop_zero]
      rw [if_neg (by simp), u16_bytes, if_pos hv]
    · rw [if_neg hv] at htail ⊢
      rw [htail, if_neg hv]
      rfl
  rw [halg, Res.ok_bind]
  dsimp only
  obtain ⟨b', hb'⟩ := pick_agree hne hp (if vTLS12.toNat ≤ v.toNat then a else 0) (fun hv => if_pos hv)
  have hcheck : ecdheCheckSig K v isRSA offeredAlgs S.pub cr sr params (if vTLS12.toNat ≤ v.toNat then a else 0)
      ([BitVec.ofNat 8 (sig.length / 256), BitVec.ofNat 8 sig.length] ++ sig) = .ok () := by
    unfold ecdheCheckSig
    rw [hb', Res.ok_bind]
    dsimp only
    rw [if_neg hr]
    simp only [idx_zero, idx_one, List.cons_append, List.nil_append, Res.ok_bind, List.drop_succ_cons, List.drop_zero,
      List.length_cons]
    rw [if_neg (by rw [u16_len _ hsl]; simp), hver, Res.ok_bind, if_pos rfl]
  rw [hcheck, Res.ok_bind]

/-- **C81, ECDHE.** The ServerKeyExchange of an honest server is accepted by an honest client, which then uses the server's curve - one that both configured - and
whatever the client sends next gives the server the premaster secret the client has. -/
theorem C81_ecdhe_partial (K : KaEnv) (L : Spec.KaLaw K) (v : Version) (isRSA : Bool) (prefs offeredCurves offeredAlgs : List U16) (rand cr sr key : Bytes)
    (S : Signer) (st : EcdheServer) (hs : Spec.HonestSigner K.auth S) (hne : vTLS12.toNat ≤ v.toNat → offeredAlgs ≠ [])
    (hsm : ∀ x y, S.pub = .sm2 x y → v.toNat < vTLS12.toNat)
    (h : ecdheGenSKX K v isRSA prefs offeredCurves offeredAlgs rand (some S) cr sr = .ok (st, key)) :
    ∃ cl, ecdheProcessSKX K v isRSA offeredAlgs S.pub cr sr key = .ok cl ∧ cl.curve = st.curve ∧ st.curve ∈ prefs ∧ st.curve ∈ offeredCurves ∧
      ∀ rand' pre body, ecdheGenCKX K (some cl) rand' = .ok (pre, body) → ecdheProcessCKX K st body = .ok pre := by
  unfold ecdheGenSKX at h
  cases hc : pickCurve prefs offeredCurves with
  | none => rw [hc] at h; cases h
  | some id =>
    rw [hc] at h
    dsimp only at h
    obtain ⟨h1, h2, h0⟩ := pickCurve_inv hc
    obtain ⟨⟨st', pub, rand1⟩, hk, h⟩ := Res.bind_eq_ok.1 h
    dsimp only at h
    obtain ⟨⟨a, t, hh⟩, hp, h⟩ := Res.bind_eq_ok.1 h
    dsimp only at h
    split at h
    · cases h
    · rename_i hr
      obtain ⟨sig, hsig, h⟩ := Res.bind_eq_ok.1 h
      simp only [Res.ok.injEq, Prod.mk.injEq] at h
      obtain ⟨rfl, rfl⟩ := h
      obtain ⟨hlen, hid, cl, hpeer, hcl, hckx⟩ := serverKey_peer L h0 hk
      exact ⟨cl, skx_accepted hs hne hsm rfl hlen hpeer hp hr hsig, by rw [hcl, hid], by rw [hid]; exact h1, by rw [hid]; exact h2, hckx⟩

/-- **C81** fails for a server with an SM2 certificate at TLS 1.2: the signature algorithm the code picks for such a key is an ECDSA one, and its check refuses an SM2 key;
no ServerKeyExchange at all is accepted. -/
theorem C81_sm2_tls12_violated (K : KaEnv) (v : Version) (hv : vTLS12.toNat ≤ v.toNat) (isRSA : Bool) (ourAlgs : List U16) (x y : Nat) (cr sr key : Bytes)
    (cl : EcdheClient) : ecdheProcessSKX K v isRSA ourAlgs (.sm2 x y) cr sr key ≠ .ok cl := by
  intro h
  unfold ecdheProcessSKX at h
  split at h
  · split at h
    · cases h
    · split at h
      · cases h
      · split at h
        · cases h
        · obtain ⟨st, _, h⟩ := Res.bind_eq_ok.1 h
          obtain ⟨⟨a, sig⟩, _, h⟩ := Res.bind_eq_ok.1 h
          obtain ⟨_, hck, h⟩ := Res.bind_eq_ok.1 h
          unfold ecdheCheckSig at hck
          obtain ⟨⟨a', t, hh⟩, hp, hck⟩ := Res.bind_eq_ok.1 hck
          dsimp only at hck
          have ht : t = .ecdsa := by
            unfold pickSignatureAlgorithmFull at hp
            rw [if_neg (by simp; omega)] at hp
            obtain ⟨_, _, _, _, h5⟩ := pickLoopFull_fst hp
            rcases h5 with ⟨k, hk, _⟩ | ⟨k, hk, _⟩ | ⟨_, _, _, ht⟩
            · cases hk
            · cases hk
            · exact ht
          subst ht
          split at hck
          · cases hck
          · obtain ⟨_, _, hck⟩ := Res.bind_eq_ok.1 hck
            obtain ⟨_, _, hck⟩ := Res.bind_eq_ok.1 hck
            split at hck
            · cases hck
            · simp only [verifyHandshakeSignature, Res.ok_bind] at hck
              cases hck
  · cases h

/-- **C81, RSA.** What an honest client encrypts is what the server decrypts; it begins with the version of the client's hello. -/
theorem C81_rsa (K : KaEnv) (v helloVers : Version) (hv : v ≠ vSSL30) (rand rand' pub priv pre body : Bytes) (L : Spec.RsaLaw K pub priv)
    (h : rsaGenCKX K helloVers rand (.rsa pub) = .ok (pre, body)) :
    rsaProcessCKX K v rand' (some priv) body = .ok pre ∧ pre.length = 48 ∧ pre.take 2 = beFixed 2 helloVers.toNat := by
  unfold rsaGenCKX at h
  cases hr : Sm2.readFull rand 46 with
  | none => rw [hr] at h; cases h
  | some x =>
    obtain ⟨b, rest⟩ := x
    rw [hr] at h
    dsimp only at h
    split at h
    · cases h
    · rename_i enc he
      simp only [Res.ok.injEq, Prod.mk.injEq] at h
      obtain ⟨rfl, rfl⟩ := h
      obtain ⟨hd, hl⟩ := L _ rand' _ _ he
      have hbl : b.length = 46 := by
        unfold Sm2.readFull at hr
        split at hr
        · simp only [Option.some.injEq, Prod.mk.injEq] at hr
          rw [← hr.1, List.length_take]; omega
        · cases hr
      refine ⟨?_, by simp [hbl], ?_⟩
      · unfold rsaProcessCKX
        simp only [List.cons_append, List.nil_append]
        rw [if_neg (by rw [u16_len _ hl]; simp), if_pos hv]
        rw [show ([(helloVers >>> 8).setWidth 8, helloVers.setWidth 8] ++ b : Bytes) = (helloVers >>> 8).setWidth 8 :: helloVers.setWidth 8 :: b from rfl] at hd
        rw [hd]
      · simp only [List.cons_append, List.nil_append, List.take_succ_cons, List.take_zero, beFixed, List.cons.injEq, and_true]
        constructor
        · apply BitVec.eq_of_toNat_eq
          simp [BitVec.toNat_ofNat, BitVec.toNat_setWidth, Nat.shiftRight_eq_div_pow]
        · apply BitVec.eq_of_toNat_eq
          simp

/-! ### C82 -/

theorem u16_split (a b : Byte) : (((a.setWidth 16 <<< 8) ||| b.setWidth 16 : U16) >>> 8).setWidth 8 = a ∧
    ((a.setWidth 16 <<< 8) ||| b.setWidth 16 : U16).setWidth 8 = b := by
  constructor
  · apply BitVec.eq_of_getLsbD_eq
    intro i hi
    simp only [BitVec.getLsbD_or, BitVec.getLsbD_shiftLeft, BitVec.getLsbD_setWidth, BitVec.getLsbD_ushiftRight]
    have h1 : 8 + i < 16 := by omega
    have h2 : b.getLsbD (8 + i) = false := BitVec.getLsbD_of_ge _ _ (by omega)
    have h3 : 8 + i - 8 = i := by omega
    have h4 : i < 16 := by omega
    simp [hi, h1, h2, h3, h4]
  · apply BitVec.eq_of_getLsbD_eq
    intro i hi
    simp only [BitVec.getLsbD_or, BitVec.getLsbD_shiftLeft, BitVec.getLsbD_setWidth]
    have h4 : i < 16 := by omega
    simp [hi, h4]

theorem len_split {x y : Byte} {n : Nat} (h : x.toNat * 256 + y.toNat = n) : BitVec.ofNat 8 (n / 256) = x ∧ BitVec.ofNat 8 n = y := by
  have hx := x.isLt
  have hy := y.isLt
  constructor
  · apply BitVec.eq_of_toNat_eq
    rw [BitVec.toNat_ofNat]; omega
  · apply BitVec.eq_of_toNat_eq
    rw [BitVec.toNat_ofNat]; omega

theorem idx_inv {l : Bytes} {i : Nat} {b : Byte} (h : idx l i = .ok b) : l[i]? = some b := by
  unfold idx at h
  split at h
  · rename_i hi
    simp only [Res.ok.injEq] at h
    rw [List.getElem?_eq_getElem hi, h]
  · cases h

theorem two_of {l : Bytes} {a b : Byte} (h0 : idx l 0 = .ok a) (h1 : idx l 1 = .ok b) : ∃ r, l = a :: b :: r := by
  have h0 := idx_inv h0
  have h1 := idx_inv h1
  match l, h0, h1 with
  | x :: y :: r, h0, h1 =>
    simp only [List.getElem?_cons_zero, List.getElem?_cons_succ, Option.some.injEq] at h0 h1
    exact ⟨r, by rw [h0, h1]⟩

theorem checkSig_inv {K : KaEnv} {v : Version} {isRSA : Bool} {ours : List U16} (hsub : ∀ a ∈ ours, a ∈ supportedSignatureAlgorithms) {pub : X509.Pub}
    {cr sr params sig : Bytes} {a : U16} (h : ecdheCheckSig K v isRSA ours pub cr sr params a sig = .ok ()) :
    ∃ s, sig = [BitVec.ofNat 8 (s.length / 256), BitVec.ofNat 8 s.length] ++ s ∧ Spec.SignedBy K.auth v ours a (cr ++ sr ++ params) s pub ∧
      (isRSA = true ↔ ∃ k, pub = .rsa k) := by
  unfold ecdheCheckSig at h
  obtain ⟨⟨a', t, hh⟩, hp, h⟩ := Res.bind_eq_ok.1 h
  dsimp only at h
  split at h
  · cases h
  · rename_i hr
    obtain ⟨x, hx, h⟩ := Res.bind_eq_ok.1 h
    obtain ⟨y, hy, h⟩ := Res.bind_eq_ok.1 h
    obtain ⟨s, rfl⟩ := two_of hx hy
    split at h
    · cases h
    · rename_i hl
      push Not at hl
      obtain ⟨ok, hv, h⟩ := Res.bind_eq_ok.1 h
      have hok : ok = true := by
        by_contra hn
        rw [if_neg hn] at h
        cases h
      subst hok
      simp only [List.length_cons] at hl
      obtain ⟨e1, e2⟩ := len_split (x := x) (y := y) (n := List.length s) (Nat.add_right_cancel (m := 2) hl)
      refine ⟨s, by rw [e1, e2]; rfl, ?_, ?_⟩
      · simp only [List.drop_succ_cons, List.drop_zero] at hv
        obtain ⟨p1, p2⟩ := pickFull_one hsub hp
        unfold Spec.SignedBy
        by_cases hlt : v.toNat < vTLS12.toNat
        · have hge : ¬ vTLS12.toNat ≤ v.toNat := by omega
          rcases p1 hlt with ⟨k, rfl, rfl, rfl⟩ | ⟨k, rfl, rfl⟩ | ⟨x, y, rfl, rfl⟩
          · simp only [verifyHandshakeSignature, hashForSKX, if_neg hge, Res.ok.injEq] at hv ⊢
            rw [if_neg (by decide)] at hv
            exact hv
          · simp only [verifyHandshakeSignature, hashForSKX, if_neg hge, if_true] at hv ⊢
            split at hv
            · cases hv
            · rename_i r s hu
              split at hv
              · cases hv
              · rename_i hpos
                push Not at hpos
                exact ⟨r, s, hu, hpos.1, hpos.2, by simpa using hv⟩
          · simp only [verifyHandshakeSignature, hashForSKX, if_neg hge, Sm2.pubVerify] at hv ⊢
            rw [if_neg (by decide)] at hv
            split at hv
            · cases hv
            · rename_i r s hu
              exact ⟨hlt, r, s, hu, hv⟩
        · have hge : vTLS12.toNat ≤ v.toNat := by omega
          obtain ⟨ha, rfl, hor⟩ := p2 hge
          rcases hor with ⟨k, rfl, rfl, hs⟩ | ⟨k, rfl, rfl, hs⟩ | ⟨x, y, rfl, rfl⟩
          · simp only [verifyHandshakeSignature, hashForSKX, if_pos hge, Res.ok.injEq] at hv ⊢
            exact ⟨ha, hs, hv⟩
          · simp only [verifyHandshakeSignature, hashForSKX, if_pos hge] at hv ⊢
            split at hv
            · cases hv
            · rename_i r s hu
              split at hv
              · cases hv
              · rename_i hpos
                push Not at hpos
                exact ⟨r, s, hu, hpos.1, hpos.2, ha, hs, by simpa using hv⟩
          · simp [verifyHandshakeSignature] at hv
      · obtain ⟨p1, p2⟩ := pickFull_one hsub hp
        have hr' : decide (t = .pkcs1v15 ∨ t = .rsaPSS) = isRSA := by simpa using hr
        rw [← hr', decide_eq_true_iff]
        by_cases hlt : v.toNat < vTLS12.toNat
        · rcases p1 hlt with ⟨k, rfl, rfl, rfl⟩ | ⟨k, rfl, rfl⟩ | ⟨x, y, rfl, rfl⟩ <;> simp
        · rcases (p2 (by omega)).2.2 with ⟨k, rfl, rfl, hs⟩ | ⟨k, rfl, rfl, hs⟩ | ⟨x, y, rfl, rfl⟩ <;> simp

/-- **C82.** A client uses ECDHE parameters only if the ServerKeyExchange is the encoding of a supported curve, a public value on it, and a signature by the key of the
server's certificate - of the kind the cipher suite demands - over both randoms and exactly these parameters, with an algorithm the client offered. -/
theorem C82_signed_params (K : KaEnv) (v : Version) (isRSA : Bool) (ours : List U16) (hsub : ∀ a ∈ ours, a ∈ supportedSignatureAlgorithms) (pub : X509.Pub)
    (cr sr key : Bytes) (cl : EcdheClient) (h : ecdheProcessSKX K v isRSA ours pub cr sr key = .ok cl) :
    ∃ point a sig, key = ecdheSKX v (ecdhParams cl.curve point) a sig ∧
      Spec.SignedBy K.auth v ours a (cr ++ sr ++ ecdhParams cl.curve point) sig pub ∧ (isRSA = true ↔ ∃ k, pub = .rsa k) ∧
      ((cl.curve = idX25519 ∧ point.length = 32 ∧ cl.publicKey = point) ∨ ∃ c, K.curve cl.curve = some c ∧ c.unmarshal point = some cl.point) := by
  unfold ecdheProcessSKX at h
  split at h
  · rename_i t c1 c2 n body
    split at h
    · cases h
    · rename_i ht
      split at h
      · cases h
      · rename_i hn
        split at h
        · cases h
        · rename_i hd
          obtain ⟨st, hp, h⟩ := Res.bind_eq_ok.1 h
          obtain ⟨⟨a, sig⟩, ha, h⟩ := Res.bind_eq_ok.1 h
          obtain ⟨_, hck, h⟩ := Res.bind_eq_ok.1 h
          simp only [Res.ok.injEq] at h
          subst h
          obtain ⟨s, hs, hsb, hrsa⟩ := checkSig_inv hsub hck
          push Not at ht
          subst ht
          have hbl : n.toNat ≤ body.length := by simp only [List.length_cons] at hn; omega
          have hpl : (body.take n.toNat).length = n.toNat := by rw [List.length_take]; omega
          have hcurve : st.curve = (c1.setWidth 16 <<< 8) ||| c2.setWidth 16 ∧
              ((st.curve = idX25519 ∧ (body.take n.toNat).length = 32 ∧ st.publicKey = body.take n.toNat) ∨
                ∃ c, K.curve st.curve = some c ∧ c.unmarshal (body.take n.toNat) = some st.point) := by
            unfold ecdhePeer at hp
            split at hp
            · rename_i hx
              split at hp
              · cases hp
              · rename_i h32
                push Not at h32
                simp only [Res.ok.injEq] at hp
                subst hp
                exact ⟨rfl, .inl ⟨hx, h32, rfl⟩⟩
            · split at hp
              · cases hp
              · rename_i c hc
                split at hp
                · cases hp
                · rename_i p hpt
                  simp only [Res.ok.injEq] at hp
                  subst hp
                  exact ⟨rfl, .inr ⟨c, hc, hpt⟩⟩
          obtain ⟨hcv, hpt⟩ := hcurve
          have hpar : List.take (4 + n.toNat) ((3 : Byte) :: c1 :: c2 :: n :: body) = ecdhParams st.curve (body.take n.toNat) := by
            unfold ecdhParams
            rw [hcv, (u16_split c1 c2).1, (u16_split c1 c2).2, hpl]
            rw [show 4 + n.toNat = n.toNat + 1 + 1 + 1 + 1 by omega]
            simp
          rw [hpar] at hsb
          have hkey : ((3 : Byte) :: c1 :: c2 :: n :: body) = ecdhParams st.curve (body.take n.toNat) ++ body.drop n.toNat := by
            rw [← hpar, show 4 + n.toNat = n.toNat + 1 + 1 + 1 + 1 by omega]
            simp
          refine ⟨body.take n.toNat, a, s, ?_, hsb, hrsa, hpt⟩
          rw [hkey]
          unfold ecdheSKX
          unfold ecdheAlg at ha
          split at ha
          · rename_i hv
            obtain ⟨x, hx, ha⟩ := Res.bind_eq_ok.1 ha
            obtain ⟨y, hy, ha⟩ := Res.bind_eq_ok.1 ha
            obtain ⟨r, hr⟩ := two_of hx hy
            split at ha
            · cases ha
            · simp only [Res.ok.injEq, Prod.mk.injEq] at ha
              obtain ⟨rfl, h2⟩ := ha
              rw [if_pos hv, (u16_split x y).1, (u16_split x y).2, List.append_assoc, List.append_assoc, ← hs, ← h2, hr]
              rfl
          · rename_i hv
            simp only [Res.ok.injEq, Prod.mk.injEq] at ha
            obtain ⟨rfl, h2⟩ := ha
            rw [if_neg hv, List.append_nil, List.append_assoc, ← hs, ← h2]
  · cases h

/-- **C82, GM client.** The GM client checks the same signature, but reads the public value as an SM2 point whatever the curve id says. -/
theorem C82_gm_signed_params (K : KaEnv) (v : Version) (hv : v.toNat < vTLS12.toNat) (ours : List U16) (x y : Nat) (cr sr key : Bytes) (cl : EcdheClient)
    (h : ecdheGmProcessSKX K v ours (.sm2 x y) cr sr key = .ok cl) :
    ∃ point sig, key = ecdhParams cl.curve point ++ [BitVec.ofNat 8 (sig.length / 256), BitVec.ofNat 8 sig.length] ++ sig ∧
      Spec.SignedBy K.auth v ours 0 (cr ++ sr ++ ecdhParams cl.curve point) sig (.sm2 x y) ∧ K.sm2Unmarshal point = some cl.point ∧ cl.publicKey = [] := by
  unfold ecdheGmProcessSKX at h
  split at h
  · rename_i t c1 c2 n body
    split at h
    · cases h
    · rename_i ht
      split at h
      · cases h
      · rename_i hn
        split at h
        · cases h
        · split at h
          · cases h
          · rename_i p hpt
            have hp : pickSignatureAlgorithmFull (.sm2 x y) [0] ours v = .ok (0x0204, .sm2, .sha1) := by
              unfold pickSignatureAlgorithmFull
              rw [if_pos (.inl hv)]
            rw [hp] at h
            simp only [Res.ok_bind] at h
            obtain ⟨a, hx, h⟩ := Res.bind_eq_ok.1 h
            obtain ⟨b, hy, h⟩ := Res.bind_eq_ok.1 h
            obtain ⟨s, hs⟩ := two_of hx hy
            rw [hs] at h
            split at h
            · cases h
            · rename_i hl
              push Not at hl
              obtain ⟨ok, hver, h⟩ := Res.bind_eq_ok.1 h
              split at h
              · rename_i hok
                subst hok
                simp only [Res.ok.injEq] at h
                subst h
                dsimp only
                push Not at ht
                subst ht
                have hbl : n.toNat ≤ body.length := by simp only [List.length_cons] at hn; omega
                have hpl : (body.take n.toNat).length = n.toNat := by rw [List.length_take]; omega
                simp only [List.length_cons] at hl
                obtain ⟨e1, e2⟩ := len_split (x := a) (y := b) (n := List.length s) (Nat.add_right_cancel (m := 2) hl)
                have hpar : List.take (4 + n.toNat) ((3 : Byte) :: c1 :: c2 :: n :: body) = ecdhParams ((c1.setWidth 16 <<< 8) ||| c2.setWidth 16) (body.take n.toNat) := by
                  unfold ecdhParams
                  rw [(u16_split c1 c2).1, (u16_split c1 c2).2, hpl]
                  rw [show 4 + n.toNat = n.toNat + 1 + 1 + 1 + 1 by omega]
                  simp
                have hkey : ((3 : Byte) :: c1 :: c2 :: n :: body) = ecdhParams ((c1.setWidth 16 <<< 8) ||| c2.setWidth 16) (body.take n.toNat) ++ body.drop n.toNat := by
                  rw [← hpar, show 4 + n.toNat = n.toNat + 1 + 1 + 1 + 1 by omega]
                  simp
                refine ⟨body.take n.toNat, s, ?_, ?_, hpt, rfl⟩
                · rw [hkey, e1, e2, hs]; simp
                · rw [hpar] at hver
                  unfold Spec.SignedBy
                  have hge : ¬ vTLS12.toNat ≤ v.toNat := by omega
                  simp only [verifyHandshakeSignature, hashForSKX, if_neg hge, Sm2.pubVerify, List.drop_succ_cons, List.drop_zero] at hver
                  rw [if_neg (by decide)] at hver
                  split at hver
                  · cases hver
                  · rename_i r s' hu
                    exact ⟨hv, r, s', hu, hver⟩
              · cases h
  · cases h

/-- **C82** fails for a GM client whose server names the curve X25519: the public value the server signed is not used; the premaster secret is X25519 of the client's
scalar and thirty-two zero bytes, whatever the server's value. -/
theorem C82_gm_zero_share_violated (K : KaEnv) (v : Version) (ours : List U16) (pub : X509.Pub) (cr sr key : Bytes) (cl : EcdheClient)
    (h : ecdheGmProcessSKX K v ours pub cr sr key = .ok cl) (hc : cl.curve = idX25519) (rand pre body : Bytes)
    (hg : ecdheGenCKX K (some cl) rand = .ok (pre, body)) : ∃ scalar rest, Sm2.readFull rand 32 = some (scalar, rest) ∧ pre = K.x25519 scalar (List.replicate 32 0) := by
  have hpk : cl.publicKey = [] := by
    unfold ecdheGmProcessSKX at h
    split at h
    · split at h
      · cases h
      · split at h
        · cases h
        · split at h
          · cases h
          · split at h
            · cases h
            · obtain ⟨_, _, h⟩ := Res.bind_eq_ok.1 h
              dsimp only at h
              obtain ⟨_, _, h⟩ := Res.bind_eq_ok.1 h
              obtain ⟨_, _, h⟩ := Res.bind_eq_ok.1 h
              split at h
              · cases h
              · obtain ⟨_, _, h⟩ := Res.bind_eq_ok.1 h
                split at h
                · simp only [Res.ok.injEq] at h
                  rw [← h]
                · cases h
    · cases h
  unfold ecdheGenCKX at hg
  dsimp only at hg
  rw [if_neg (by rw [hc]; decide)] at hg
  obtain ⟨⟨p, q⟩, hk, hg⟩ := Res.bind_eq_ok.1 hg
  simp only [Res.ok.injEq, Prod.mk.injEq] at hg
  obtain ⟨rfl, rfl⟩ := hg
  unfold ecdheClientKey at hk
  rw [if_pos hc] at hk
  split at hk
  · cases hk
  · rename_i scalar rest hr
    simp only [Res.ok.injEq, Prod.mk.injEq] at hk
    refine ⟨scalar, rest, hr, ?_⟩
    rw [← hk.1, hpk]
    simp

/-! ### C83 -/

theorem padPremaster_returns {c : NistCurve} (L : Spec.NistLaw c) (p : Nat × Nat) (k : Bytes) : padPremaster c.byteLen (c.scalarMult p k).1 ≠ .panic := by
  rw [padPremaster_eq _ _ (L.fits _ _)]
  simp

/-- **C83, server.** Whatever a client sends as ClientKeyExchange, a server that made its ephemeral key does not panic. -/
theorem C83_server_ecdhe_partial (K : KaEnv) (L : Spec.KaLaw K) (id : U16) (rand pub rand' : Bytes) (st : EcdheServer)
    (h : ecdheServerKey K id rand = .ok (st, pub, rand')) (ct : Bytes) : ecdheProcessCKX K st ct ≠ .panic := by
  have hst : st.curve = id ∧ (id = idX25519 ∨ ∃ c, K.curve id = some c) := by
    unfold ecdheServerKey at h
    split at h
    · rename_i hx
      split at h
      · cases h
      · simp only [Res.ok.injEq, Prod.mk.injEq] at h
        rw [← h.1]
        exact ⟨rfl, .inl hx⟩
    · split at h
      · cases h
      · rename_i c hc
        split at h
        · cases h
        · simp only [Res.ok.injEq, Prod.mk.injEq] at h
          rw [← h.1]
          exact ⟨rfl, .inr ⟨c, hc⟩⟩
  unfold ecdheProcessCKX
  split
  · simp
  · split
    · simp
    · split
      · split <;> simp
      · rename_i hx
        rw [hst.1] at hx ⊢
        rcases hst.2 with e | ⟨c, hc⟩
        · exact absurd e hx
        · rw [hc]
          dsimp only
          split
          · simp
          · exact padPremaster_returns (curve_law L hc).1 _ _

/-- **C83, server.** RSA key exchange. -/
theorem C83_server_rsa_partial (K : KaEnv) (v : Version) (rand : Bytes) (key : Option Bytes) (ct : Bytes) : rsaProcessCKX K v rand key ct ≠ .panic := by
  unfold rsaProcessCKX
  split
  · split
    · simp
    · split
      · simp
      · split <;> simp
  · simp

theorem pickLoopFull_returns {pub : X509.Pub} {ours : List U16} (hsub : ∀ a ∈ ours, a ∈ supportedSignatureAlgorithms) (peer : List U16) :
    pickLoopFull pub ours peer ≠ .panic := by
  induction peer with
  | nil => simp [pickLoopFull]
  | cons b rest ih =>
    unfold pickLoopFull
    split
    · exact ih
    · rename_i hm
      push Not at hm
      obtain ⟨_, _, _, hl, _⟩ := supported_schemes _ (hsub _ hm)
      rw [hl]
      dsimp only
      cases pub with
      | rsa k => dsimp only; split; · simp
                 · exact ih
      | ecdsa k => dsimp only; split; · simp
                   · exact ih
      | sm2 x y => dsimp only; split; · simp
                   · exact ih
      | dsa k => simp
      | none => simp

theorem pickFull_returns {pub : X509.Pub} {ours : List U16} (hsub : ∀ a ∈ ours, a ∈ supportedSignatureAlgorithms) (peer : List U16) (v : Version) :
    pickSignatureAlgorithmFull pub peer ours v ≠ .panic := by
  unfold pickSignatureAlgorithmFull
  split
  · cases pub with
    | rsa k => dsimp only; split <;> simp
    | ecdsa k => simp
    | sm2 x y => simp
    | dsa k => simp
    | none => simp
  · exact pickLoopFull_returns hsub peer

theorem Res.bind_ne_panic {α β : Type} {x : Res α} {f : α → Res β} (hx : x ≠ .panic) (hf : ∀ a, x = .ok a → f a ≠ .panic) : (x >>= f) ≠ .panic := by
  cases x with
  | ok a => exact hf a rfl
  | err e => simp
  | panic => exact absurd rfl hx

/-- a public key whose coordinates, if it is an SM2 key, are below 2^256 -/
def SmallSm2 : X509.Pub → Prop
  | .sm2 x y => x < 2 ^ 256 ∧ y < 2 ^ 256
  | _ => True

theorem verifyHandshake_returns (E : AuthEnv) (t : SigType) (pub : X509.Pub) (hp : SmallSm2 pub) (h : HashId) (d sig : Bytes) :
    verifyHandshakeSignature E t pub h d sig ≠ .panic := by
  unfold verifyHandshakeSignature
  cases t with
  | unknown => simp
  | pkcs1v15 => cases pub <;> simp
  | rsaPSS => cases pub <;> simp
  | ecdsa =>
    cases pub with
    | ecdsa k =>
      dsimp only
      split
      · simp
      · split <;> simp
    | _ => simp
  | sm2 =>
    cases pub with
    | sm2 x y =>
      dsimp only
      unfold Sm2.pubVerify
      split
      · simp
      · rename_i r s _
        intro hv
        unfold Sm2.verify at hv
        split at hv
        · cases hv
        · split at hv
          · cases hv
          · rw [Sm2.msgDigest_spec _ _ _ hp.1 hp.2] at hv
            cases hv
    | _ => simp

theorem idx_returns {l : Bytes} {i : Nat} (h : i < l.length) : idx l i ≠ .panic := by
  unfold idx
  rw [dif_pos h]
  simp

/-- **C83, client.** Whatever a server sends as ServerKeyExchange, the client does not panic on it. -/
theorem C83_client_skx_partial (K : KaEnv) (v : Version) (isRSA : Bool) (ours : List U16) (hsub : ∀ a ∈ ours, a ∈ supportedSignatureAlgorithms) (pub : X509.Pub)
    (hp : SmallSm2 pub) (cr sr key : Bytes) : ecdheProcessSKX K v isRSA ours pub cr sr key ≠ .panic := by
  unfold ecdheProcessSKX
  split
  · split
    · simp
    · split
      · simp
      · split
        · simp
        · rename_i n body _ _ hd
          apply Res.bind_ne_panic
          · unfold ecdhePeer
            split
            · split <;> simp
            · split
              · simp
              · split <;> simp
          · intro st _
            have hlen : ∀ a s, ecdheAlg v (body.drop n.toNat) = .ok (a, s) → 2 ≤ s.length := by
              intro a s he
              unfold ecdheAlg at he
              split at he
              · obtain ⟨_, _, he⟩ := Res.bind_eq_ok.1 he
                obtain ⟨_, _, he⟩ := Res.bind_eq_ok.1 he
                split at he
                · cases he
                · simp only [Res.ok.injEq, Prod.mk.injEq] at he
                  rw [← he.2]; omega
              · simp only [Res.ok.injEq, Prod.mk.injEq] at he
                rw [← he.2]; omega
            apply Res.bind_ne_panic
            · unfold ecdheAlg
              split
              · apply Res.bind_ne_panic (idx_returns (by omega))
                intro _ _
                apply Res.bind_ne_panic (idx_returns (by omega))
                intro _ _
                split <;> simp
              · simp
            · rintro ⟨a, s⟩ he
              have h2 := hlen a s he
              apply Res.bind_ne_panic
              · unfold ecdheCheckSig
                apply Res.bind_ne_panic (pickFull_returns hsub _ _)
                rintro ⟨_, t, h⟩ _
                dsimp only
                split
                · simp
                · apply Res.bind_ne_panic (idx_returns (by omega))
                  intro _ _
                  apply Res.bind_ne_panic (idx_returns (by omega))
                  intro _ _
                  split
                  · simp
                  · apply Res.bind_ne_panic (verifyHandshake_returns _ _ _ hp _ _ _)
                    intro _ _
                    split <;> simp
              · simp
  · simp

/-- **C83, client.** With the parameters it accepted, the client makes its own message without a panic. -/
theorem C83_client_ckx_partial (K : KaEnv) (L : Spec.KaLaw K) (v : Version) (isRSA : Bool) (ours : List U16)
    (hsub : ∀ a ∈ ours, a ∈ supportedSignatureAlgorithms) (pub : X509.Pub)
    (cr sr key : Bytes) (cl : EcdheClient) (h : ecdheProcessSKX K v isRSA ours pub cr sr key = .ok cl) (rand : Bytes) :
    ecdheGenCKX K (some cl) rand ≠ .panic := by
  obtain ⟨_, _, _, _, _, _, hor⟩ := C82_signed_params K v isRSA ours hsub pub cr sr key cl h
  unfold ecdheGenCKX
  dsimp only
  split
  · simp
  · apply Res.bind_ne_panic
    · unfold ecdheClientKey
      split
      · split <;> simp
      · rename_i hx
        rcases hor with ⟨e, _⟩ | ⟨c, hc, _⟩
        · exact absurd e hx
        · rw [hc]
          dsimp only
          split
          · simp
          · apply Res.bind_ne_panic (padPremaster_returns (curve_law L hc).1 _ _)
            simp
    · simp

/-- **C83** fails for RSA suites: a client panics when the server's certificate carries a key that is not an RSA key. -/
theorem C83_client_rsa_violated (K : KaEnv) (helloVers : Version) (rand : Bytes) (hr : 46 ≤ rand.length) (pub : X509.Pub) (hp : ∀ k, pub ≠ .rsa k) :
    rsaGenCKX K helloVers rand pub = .panic := by
  unfold rsaGenCKX
  have : ∃ b r, Sm2.readFull rand 46 = some (b, r) := by
    unfold Sm2.readFull
    rw [if_pos hr]
    exact ⟨_, _, rfl⟩
  obtain ⟨b, r, he⟩ := this
  rw [he]
  cases pub with
  | rsa k => exact absurd rfl (hp k)
  | _ => rfl

/-- **C83** fails for the GM ECDHE suites: the client panics after a ServerKeyExchange naming an unknown curve, which it accepts if it is signed. -/
theorem C83_gm_client_violated (K : KaEnv) (v : Version) (ours : List U16) (pub : X509.Pub) (cr sr key : Bytes) (cl : EcdheClient)
    (_h : ecdheGmProcessSKX K v ours pub cr sr key = .ok cl) (h0 : cl.curve ≠ 0) (hc : cl.curve ≠ 23 ∧ cl.curve ≠ 24 ∧ cl.curve ≠ 25 ∧ cl.curve ≠ 29) (rand : Bytes) :
    ecdheGenCKX K (some cl) rand = .panic := by
  unfold ecdheGenCKX
  dsimp only
  rw [if_neg h0]
  unfold ecdheClientKey
  rw [if_neg (show ¬ cl.curve = idX25519 from hc.2.2.2)]
  unfold KaEnv.curve
  rw [if_neg hc.1, if_neg hc.2.1, if_neg hc.2.2.1]
  rfl

/-- **C83** fails for the GM ECDHE suites: both server functions are `panic("")`. -/
theorem C83_gm_server_violated (c : Sm2.Curve) (rand : Bytes) : Gm.ecdheGenerateSKX c rand = .panic := rfl

/-! ### the hypotheses can be met -/

/-- Diffie-Hellman in the integers modulo 256: a lawful curve for the examples -/
def toyNist : NistCurve where
  byteLen := 1
  generateKey := fun r => match r with
    | b :: rest => some ([b], (b.toNat, 0), rest)
    | [] => none
  scalarMult := fun p k => match k with
    | [b] => (p.1 * b.toNat % 256, 0)
    | _ => (0, 0)
  marshal := fun p => [BitVec.ofNat 8 p.1]
  unmarshal := fun b => match b with
    | [x] => some (x.toNat, 0)
    | _ => none

def toyAuth : AuthEnv := { toyEnv with
  ecdsaVerify := fun k _ r s => k == [9] && r == 1 && s == 1
  rsaPKCS1 := fun k _ _ s => k == [8] && s == [5] }

def toyKa : KaEnv where
  auth := toyAuth
  p256 := toyNist
  p384 := toyNist
  p521 := toyNist
  sm2Unmarshal := fun _ => some (1, 1)
  x25519 := fun a p => List.zipWith (· ^^^ ·) a p
  x25519Base := fun a => (a ++ List.replicate 32 0).take 32
  rsaEncrypt := fun _ _ m => if m.length < 65536 then some m else none
  rsaDecrypt := fun _ _ c => some c

theorem toyNist_law : Spec.NistLaw toyNist where
  commutes := by
    intro r a A r' s b B s' h1 h2
    cases r with
    | nil => cases h1
    | cons x r =>
      cases s with
      | nil => cases h2
      | cons y s =>
        simp only [toyNist, Option.some.injEq, Prod.mk.injEq] at h1 h2
        obtain ⟨rfl, rfl, _⟩ := h1
        obtain ⟨rfl, rfl, _⟩ := h2
        simp only [toyNist, Nat.mul_comm]
  decodes := by
    intro r a A r' h1
    cases r with
    | nil => cases h1
    | cons x r =>
      simp only [toyNist, Option.some.injEq, Prod.mk.injEq] at h1
      obtain ⟨_, rfl, _⟩ := h1
      simp [toyNist]
  short := by intro p; simp [toyNist]
  fits := by
    intro p k
    simp only [toyNist]
    split
    · simp only [Nat.pow_one]; omega
    · simp

theorem toyKa_law : Spec.KaLaw toyKa where
  p256 := toyNist_law
  p384 := toyNist_law
  p521 := toyNist_law
  x25519 := {
    commutes := by
      intro a b ha hb
      simp only [toyKa]
      rw [List.take_left' ha, List.take_left' hb]
      exact List.zipWith_comm_of_comm (fun x y => BitVec.xor_comm x y)
    length := by intro a; simp [toyKa] }

def toySigner : Signer where
  pub := .ecdsa [9]
  sign := fun _ _ _ _ => .ok [0x30, 6, 2, 1, 1, 2, 1, 1]

theorem toySigner_honest : Spec.HonestSigner toyAuth toySigner := by
  intro rand t h d sig hf hs
  simp only [toySigner, Res.ok.injEq] at hs
  subst hs
  simp only [Spec.KeyFits, toySigner] at hf
  subst hf
  refine ⟨?_, by decide⟩
  have : Sm2.unmarshalPair [0x30, 6, 2, 1, 1, 2, 1, 1] = some (1, 1) := by decide +kernel
  simp only [verifyHandshakeSignature, toySigner, this, toyAuth]
  rfl

def gen12 : Res (EcdheServer × Bytes) := ecdheGenSKX toyKa vTLS12 false [29, 24, 23] [23, 24] [0x0401, 0x0403] [7, 8, 9] (some toySigner) [1] [2]

/-- C81, C82: a TLS 1.2 exchange on the curve 24 -/
example : gen12 = .ok (⟨24, [7]⟩, [3, 0, 24, 1, 7, 4, 3, 0, 8, 0x30, 6, 2, 1, 1, 2, 1, 1]) ∧
    ecdheProcessSKX toyKa vTLS12 false [0x0401, 0x0403] (.ecdsa [9]) [1] [2] [3, 0, 24, 1, 7, 4, 3, 0, 8, 0x30, 6, 2, 1, 1, 2, 1, 1] = .ok ⟨24, [], (7, 0)⟩ ∧
    ecdheGenCKX toyKa (some ⟨24, [], (7, 0)⟩) [5] = .ok ([35], [1, 5]) ∧ ecdheProcessCKX toyKa ⟨24, [7]⟩ [1, 5] = .ok [35] := by decide +kernel

/-- C81, RSA -/
example : Spec.RsaLaw toyKa [8] [8] ∧ rsaGenCKX toyKa vTLS12 (List.replicate 46 1) (.rsa [8]) =
    .ok (3 :: 3 :: List.replicate 46 1, 0 :: 48 :: 3 :: 3 :: List.replicate 46 1) := by
  refine ⟨fun r r' m c h => ?_, by decide +kernel⟩
  simp only [toyKa] at h ⊢
  split at h
  · simp only [Option.some.injEq] at h
    subst h
    exact ⟨rfl, ‹_›⟩
  · cases h

/-- what an SM2 signer would sign in the GM ECDHE ServerKeyExchange, in the toy library, where every point has abscissa 0: `r = e`, `s = 1` -/
def toyGmSig (params : Bytes) : Bytes :=
  match Sm2.msgDigest 1 1 (toyHashes.md5.sum ([1] ++ [2] ++ params) ++ toyHashes.sha1.sum ([1] ++ [2] ++ params)) with
  | .ok e => Sm2.marshalPair ((beNat e % Sm2.N : Nat) : Int) 1
  | _ => []

def toyGmSkx (id : U16) : Bytes :=
  let params := ecdhParams id [4]
  params ++ [BitVec.ofNat 8 ((toyGmSig params).length / 256), BitVec.ofNat 8 (toyGmSig params).length] ++ toyGmSig params

/-- C82, C83, GM: a signed ServerKeyExchange naming curve 29, or curve 77, is accepted; the first makes a premaster secret out of nothing, the second a panic -/
example : ecdheGmProcessSKX toyKa 0x0101 [] (.sm2 1 1) [1] [2] (toyGmSkx 29) = .ok ⟨29, [], (1, 1)⟩ ∧
    ecdheGmProcessSKX toyKa 0x0101 [] (.sm2 1 1) [1] [2] (toyGmSkx 77) = .ok ⟨77, [], (1, 1)⟩ ∧
    ecdheGenCKX toyKa (some ⟨29, [], (1, 1)⟩) (List.replicate 32 5) = .ok (List.replicate 32 5, 32 :: List.replicate 32 5) ∧
    ecdheGenCKX toyKa (some ⟨77, [], (1, 1)⟩) (List.replicate 32 5) = .panic := by decide +kernel

end Verif.Tls
