import Verif.Tls.ServerFlight
/-!
C88: two honest ends complete a full handshake with each other.
-/
namespace Verif.Tls
open Verif Verif.Tls.Wire

namespace Spec

/-- the two ends are in the same handshake: what the ClientHello and the ServerHello settle is the same on both sides (that it is, is C49 - C53) -/
structure SameHandshake {c : Sm2.Curve} (S : ClientHs) (T : ServerSide c) : Prop where
  gm : T.gm = S.gm
  /-- both ends are built with or without `single_cert` -/
  single : T.single = S.single
  vers : T.vers = S.vers
  suite : T.suite = S.suite
  clientRandom : T.clientRandom = S.clientRandom
  serverRandom : T.serverRandom = S.serverRandom
  algs : T.offeredAlgs = S.sigAlgs
  ocsp : T.ocsp = S.ocsp
  /-- the GM client's hello never asks for a stapled response -/
  gm_ocsp : T.gm = true → T.ocsp = false
  ticket : T.ticket = S.ticket
  npn : T.npn = S.nextProto.isSome
  /-- GMSSL 1.1 in GM mode, TLS 1.0, 1.1 or 1.2 otherwise -/
  version : (T.gm = true ∧ T.vers = vGMSSL) ∨ (T.gm = false ∧ (T.vers = vTLS10 ∨ T.vers = vTLS11 ∨ T.vers = vTLS12))

/-- the server's certificate for decryption: the second one of a GM server of the default build, else the one it presents -/
def encCert {c : Sm2.Curve} (T : ServerSide c) : ServerCert c := if T.gm = true ∧ T.single = false then T.second else T.cert

/-- the server's private keys belong to the certificates `leaf` and `enc` that the client got from it, and the primitives do their work -/
def KeysWork (K : KaEnv) (T : ServerSide K.auth.x509.curve) (leaf enc : X509.Cert) (rand rk : Bytes) : Prop :=
  match T.suite.ka with
  | .rsa => ∃ pk sk, enc.pub = .rsa pk ∧ (encCert T).rsa = some sk ∧ RsaLaw K pk sk
  | .eccGM => ∃ (G : Type) (_ : AddCommGroup G) (L : Sm2.Lawful K.auth.x509.curve G) (sk ek : Sm2.PrivateKey K.auth.x509.curve) (d e : Nat) (more : List Bytes),
      Sm2.Bounded K.auth.x509.curve ∧
      T.cert.sm2 = some sk ∧ L.PrivOf sk d ∧ (d + 1) % Sm2.N ≠ 0 ∧ leaf.pub = .sm2 sk.x sk.y ∧
      (encCert T).sm2 = some ek ∧ L.PrivOf ek e ∧ e % Sm2.N ∉ L.bad ∧ enc.pub = .sm2 ek.x ek.y ∧ (encCert T).chain = enc.raw :: more ∧
      (∀ r s, Sm2.sign K.auth.x509.curve rand sk (Gm.skxDigest T.clientRandom T.serverRandom enc.raw) = .ok (r, s) →
        r ≠ 0 ∧ s ≠ 0 ∧ (r + s).toNat % Sm2.N ∉ L.bad) ∧
      (∀ k, Sm2.generateRandK (rk.drop 46) = some k → k % Sm2.N ∉ L.bad)
  | .ecdheGM => False
  | _ => KaLaw K ∧ ∃ s, T.cert.signer = some s ∧ leaf.pub = s.pub ∧ HonestSigner K.auth s ∧ (vTLS12.toNat ≤ T.vers.toNat → T.offeredAlgs ≠ []) ∧
      (∀ x y, s.pub = .sm2 x y → T.vers.toNat < vTLS12.toNat)

/-- the client's answer to the server's CertificateRequest -/
def Answer (K : KaEnv) (S : ClientHs) (T : ServerSide K.auth.x509.curve) : Res (Option ClientCert) :=
  if T.gm then gmGetCertificate K.auth S T.requestGM else stdGetCertificate K.auth S T.request

/-- the client has a key for its certificate that signs, with an algorithm both ends know -/
structure CanSign (K : KaEnv) (S : ClientHs) (T : ServerSide K.auth.x509.curve) (rs : Bytes) (cc : ClientCert) (pub : Option X509.Pub) : Prop where
  key : ∃ key, cc.key = some key ∧ pub = some key.pub ∧ HonestSigner K.auth key ∧
    (∀ t h d, KeyFits key.pub t → ∃ sig, key.sign rs t h d = .ok sig) ∧
    (if T.gm then ∃ x y, key.pub = .sm2 x y else ∃ x, pickSignatureAlgorithmFull key.pub T.request.supportedSignatureAlgorithms S.sigAlgs S.vers = .ok x)

/-- if the server asks for a certificate, the client finds a chain the server accepts (an empty one, where the server's policy allows that) and can sign for it; `p` is
what the server then knows of the client -/
def ClientCertOk (K : KaEnv) (S : ClientHs) (T : ServerSide K.auth.x509.curve) (rs : Bytes) (p : PeerId) : Prop :=
  if T.auth = .noClientCert then p = ⟨[], [], none⟩
  else ∃ cc, Answer K S T = .ok (some cc) ∧ processCertsFromClient K.auth (T.hs none []) cc.chain = .ok p ∧
    (if cc.chain = [] then T.auth ≠ .requireAnyClientCert ∧ T.auth ≠ .requireAndVerifyClientCert else CanSign K S T rs cc p.pub)

end Spec

theorem enc_spec {c : Sm2.Curve} (T : ServerSide c) : T.enc = Spec.encCert T := by
  unfold ServerSide.enc ServerSide.dual Spec.encCert
  cases T.gm <;> cases T.single <;> rfl


/-! ### the server's messages -/

/-- a message, if it is sent, and its bytes -/
def listed {α : Type} (f : α → Message) (o : Option (α × Bytes)) : List Item := (o.map fun x => Item.msg (f x.1)).toList

theorem encode_certificate {l : List Bytes} {b : Bytes} {i : Item} (h : encode (.certificate { raw := none, certificates := l }) = .ok (b, i)) :
    i = .msg (.certificate { raw := some b, certificates := l }) := by
  simp only [encode, Message.marshal, CertificateMsg.marshal, Res.map, Res.ok_bind, Res.ok.injEq, Prod.mk.injEq] at h
  rw [← h.2, ← h.1]

theorem encode_status {ty : Byte} {r : Bytes} {b : Bytes} {i : Item} (h : encode (.certificateStatus { raw := none, statusType := ty, response := r }) = .ok (b, i)) :
    i = .msg (.certificateStatus { raw := some b, statusType := ty, response := r }) := by
  simp only [encode, Message.marshal, CertificateStatusMsg.marshal, Res.map, Res.ok_bind, Res.ok.injEq, Prod.mk.injEq] at h
  rw [← h.2, ← h.1]

theorem encode_skx {k : Bytes} {b : Bytes} {i : Item} (h : encode (.serverKeyExchange { raw := none, key := k }) = .ok (b, i)) :
    i = .msg (.serverKeyExchange { raw := some b, key := k }) := by
  simp only [encode, Message.marshal, ServerKeyExchangeMsg.marshal, Res.map, Res.ok_bind, Res.ok.injEq, Prod.mk.injEq] at h
  rw [← h.2, ← h.1]

theorem encode_req {m : CertificateRequestMsg} (hm : m.raw = none) {b : Bytes} {i : Item} (h : encode (.certificateRequest m) = .ok (b, i)) :
    i = .msg (.certificateRequest { m with raw := some b }) := by
  simp only [encode, Message.marshal, CertificateRequestMsg.marshal, hm, Res.map, Res.ok_bind, Res.ok.injEq, Prod.mk.injEq] at h
  rw [← h.2, ← h.1]

theorem encode_reqGM {m : CertificateRequestMsgGM} (hm : m.raw = none) {b : Bytes} {i : Item} (h : encode (.certificateRequestGM m) = .ok (b, i)) :
    i = .msg (.certificateRequestGM { m with raw := some b }) := by
  simp only [encode, Message.marshal, CertificateRequestMsgGM.marshal, hm, Res.map, Res.ok_bind, Res.ok.injEq, Prod.mk.injEq] at h
  rw [← h.2, ← h.1]

theorem serverFlight_inv {K : KaEnv} {T : ServerSide K.auth.x509.curve} {rand : Bytes} {w : ServerSent} (h : serverFlight K T rand = .ok w) :
    ∃ (cert : CertificateMsg × Bytes) (status : Option (CertificateStatusMsg × Bytes)) (key : Option Bytes) (skx : Option (ServerKeyExchangeMsg × Bytes))
      (req : Option (Message × Bytes)),
      cert.1.certificates = T.chain ∧ cert.1.marshal = .ok (cert.2, cert.1) ∧
      (status.isSome = T.ocsp) ∧ (∀ x, status = some x → x.1.marshal = .ok (x.2, x.1)) ∧
      serverGenSKX K T rand = .ok (w.key, key) ∧ (skx.map fun x => x.1.key) = key ∧ (∀ x, skx = some x → x.1.marshal = .ok (x.2, x.1)) ∧
      (req = none ↔ T.auth = .noClientCert) ∧
      (∀ x, req = some x → x.1.marshal = .ok (x.2, x.1) ∧
        if T.gm then x.1 = .certificateRequestGM { T.requestGM with raw := some x.2 } else x.1 = .certificateRequest { T.request with raw := some x.2 }) ∧
      w.items = .msg (.certificate cert.1) :: (listed .certificateStatus status ++ listed .serverKeyExchange skx ++ listed id req ++ [.msg .serverHelloDone]) ∧
      w.bytes.flatten = cert.2 ++ Spec.bytesOf status ++ Spec.bytesOf skx ++ Spec.bytesOf req ++ serverHelloDoneMarshal := by
  unfold serverFlight at h
  obtain ⟨⟨b1, i1⟩, h1, h⟩ := Res.bind_eq_ok.1 h
  dsimp only at h
  obtain ⟨⟨b2, i2⟩, h2, h⟩ := Res.bind_eq_ok.1 h
  dsimp only at h
  obtain ⟨⟨st, key⟩, h3, h⟩ := Res.bind_eq_ok.1 h
  dsimp only at h
  obtain ⟨⟨b3, i3⟩, h4, h⟩ := Res.bind_eq_ok.1 h
  dsimp only at h
  obtain ⟨⟨b4, i4⟩, h5, h⟩ := Res.bind_eq_ok.1 h
  dsimp only at h
  obtain ⟨⟨b5, i5⟩, h6, h⟩ := Res.bind_eq_ok.1 h
  simp only [Res.ok.injEq] at h
  subst h
  have e1 : ∃ x : CertificateMsg × Bytes, x.1.certificates = T.chain ∧ x.1.marshal = .ok (x.2, x.1) ∧ b1 = x.2 ∧ i1 = .msg (.certificate x.1) :=
    ⟨(_, b1), rfl, rfl, rfl, encode_certificate h1⟩
  have e2 : ∃ o : Option (CertificateStatusMsg × Bytes), o.isSome = T.ocsp ∧ (∀ x, o = some x → x.1.marshal = .ok (x.2, x.1)) ∧
      b2.flatten = Spec.bytesOf o ∧ i2 = listed .certificateStatus o := by
    unfold sendStatus at h2
    split at h2
    · rename_i ho
      obtain ⟨⟨b, i⟩, he, h2⟩ := Res.bind_eq_ok.1 h2
      simp only [Res.ok.injEq, Prod.mk.injEq] at h2
      refine ⟨some (⟨some b, 1, T.cert.staple⟩, b), ho.symm, ?_, ?_, ?_⟩
      · rintro x ⟨⟩; rfl
      · rw [← h2.1]; simp [Spec.bytesOf]
      · rw [← h2.2, encode_status he]; rfl
    · rename_i ho
      simp only [Res.ok.injEq, Prod.mk.injEq] at h2
      exact ⟨none, by simpa using ho, nofun, by rw [← h2.1]; rfl, by rw [← h2.2]; rfl⟩
  have e3 : ∃ o : Option (ServerKeyExchangeMsg × Bytes), (o.map fun x => x.1.key) = key ∧ (∀ x, o = some x → x.1.marshal = .ok (x.2, x.1)) ∧
      b3.flatten = Spec.bytesOf o ∧ i3 = listed .serverKeyExchange o := by
    cases key with
    | none =>
      simp only [sendSKX, Res.ok.injEq, Prod.mk.injEq] at h4
      exact ⟨none, rfl, nofun, by rw [← h4.1]; rfl, by rw [← h4.2]; rfl⟩
    | some k =>
      unfold sendSKX at h4
      obtain ⟨⟨b, i⟩, he, h4⟩ := Res.bind_eq_ok.1 h4
      simp only [Res.ok.injEq, Prod.mk.injEq] at h4
      refine ⟨some (⟨some b, k⟩, b), rfl, ?_, ?_, ?_⟩
      · rintro x ⟨⟩; rfl
      · rw [← h4.1]; simp [Spec.bytesOf]
      · rw [← h4.2, encode_skx he]; rfl
  have e4 : ∃ o : Option (Message × Bytes), (o = none ↔ T.auth = .noClientCert) ∧
      (∀ x, o = some x → x.1.marshal = .ok (x.2, x.1) ∧
        if T.gm then x.1 = .certificateRequestGM { T.requestGM with raw := some x.2 } else x.1 = .certificateRequest { T.request with raw := some x.2 }) ∧
      b4.flatten = Spec.bytesOf o ∧ i4 = listed id o := by
    unfold sendReq at h5
    split at h5
    · rename_i hr
      have hr := (rank_request _).1 hr
      obtain ⟨⟨b, i⟩, he, h5⟩ := Res.bind_eq_ok.1 h5
      simp only [Res.ok.injEq, Prod.mk.injEq] at h5
      by_cases hg : T.gm = true
      · rw [if_pos hg] at he
        refine ⟨some (.certificateRequestGM { T.requestGM with raw := some b }, b), by simpa using hr, ?_, ?_, ?_⟩
        · rintro x ⟨⟩
          exact ⟨rfl, by rw [if_pos hg]⟩
        · rw [← h5.1]; simp [Spec.bytesOf]
        · rw [← h5.2, encode_reqGM rfl he]; rfl
      · rw [if_neg hg] at he
        refine ⟨some (.certificateRequest { T.request with raw := some b }, b), by simpa using hr, ?_, ?_, ?_⟩
        · rintro x ⟨⟩
          exact ⟨rfl, by rw [if_neg hg]⟩
        · rw [← h5.1]; simp [Spec.bytesOf]
        · rw [← h5.2, encode_req rfl he]; rfl
    · rename_i hr
      have hr := mt (rank_request T.auth).2 hr
      simp only [Res.ok.injEq, Prod.mk.injEq] at h5
      exact ⟨none, by simpa using hr, nofun, by rw [← h5.1]; rfl, by rw [← h5.2]; rfl⟩
  obtain ⟨cert, c1, c2, rfl, rfl⟩ := e1
  obtain ⟨status, s1, s2, s3, rfl⟩ := e2
  obtain ⟨skx, x1, x2, x3, rfl⟩ := e3
  obtain ⟨req, r1, r2, r3, rfl⟩ := e4
  simp only [encode, Message.marshal, Res.ok_bind, Res.ok.injEq, Prod.mk.injEq] at h6
  obtain ⟨rfl, rfl⟩ := h6
  exact ⟨cert, status, key, skx, req, c1, c2, s1, s2, h3, x1, x2, r1, r2, rfl, by simp [s3, x3, r3]⟩

/-! ### the key exchange -/

/-- what the client keeps of the ServerKeyExchange, if there is one -/
def received (K : KaEnv) (S : ClientHs) (leaf enc : X509.Cert) : Option Bytes → Res (Option EcdheClient)
  | none => .ok none
  | some k => clientProcessSKX K S leaf enc k

theorem ka_agrees {K : KaEnv} {S : ClientHs} {T : ServerSide K.auth.x509.curve} {leaf enc : X509.Cert} {rand rk : Bytes} {st : Option EcdheServer} {key : Option Bytes}
    (same : Spec.SameHandshake S T) (kw : Spec.KeysWork K T leaf enc rand rk) (h : serverGenSKX K T rand = .ok (st, key)) :
    ∃ cst, received K S leaf enc key = .ok cst ∧
      ∀ pre ct, clientGenCKX K S cst enc rk = .ok (pre, ct) → ∀ rand', serverProcessCKX K T st rand' ct = .ok pre := by
  have hnv : T.vers ≠ vSSL30 := by
    rcases same.version with ⟨_, e⟩ | ⟨_, e | e | e⟩ <;> rw [e] <;> decide
  have ecdhe : ∀ isRSA : Bool, (T.suite.ka = if isRSA then .ecdheRSA else .ecdheECDSA) → ∃ cst, received K S leaf enc key = .ok cst ∧
      ∀ pre ct, clientGenCKX K S cst enc rk = .ok (pre, ct) → ∀ rand', serverProcessCKX K T st rand' ct = .ok pre := by
    intro isRSA hk
    have kw' : Spec.KaLaw K ∧ ∃ s, T.cert.signer = some s ∧ leaf.pub = s.pub ∧ Spec.HonestSigner K.auth s ∧ (vTLS12.toNat ≤ T.vers.toNat → T.offeredAlgs ≠ []) ∧
      (∀ x y, s.pub = .sm2 x y → T.vers.toNat < vTLS12.toNat) := by
      unfold Spec.KeysWork at kw
      rw [← enc_spec] at kw
      cases isRSA <;> simp only [hk] at kw <;> exact kw
    obtain ⟨L, s, hs, hl, hh, hne, hsm⟩ := kw'
    have h' : ∃ p, ecdheGenSKX K T.vers isRSA T.curvePrefs T.offeredCurves T.offeredAlgs rand (some s) T.clientRandom T.serverRandom = .ok p ∧ st = some p.1 ∧ key = some p.2 := by
      unfold serverGenSKX at h
      cases isRSA <;> simp only [hk, hs] at h <;> obtain ⟨p, hp, e⟩ := map_ok_inv h <;> simp only [Prod.mk.injEq] at e <;> exact ⟨p, hp, e.1, e.2⟩
    obtain ⟨⟨st', k⟩, hp, rfl, rfl⟩ := h'
    obtain ⟨cl, h1, _, _, _, h2⟩ := C81_ecdhe_partial K L T.vers isRSA T.curvePrefs T.offeredCurves T.offeredAlgs rand T.clientRandom T.serverRandom k s st' hh hne hsm hp
    rw [same.vers, same.algs, same.clientRandom, same.serverRandom, ← hl] at h1
    rw [same.suite] at hk
    refine ⟨some cl, ?_, ?_⟩
    · cases isRSA <;> simp [received, clientProcessSKX, hk, h1, Res.map]
    · intro pre ct hg rand'
      have hg' : ecdheGenCKX K (some cl) rk = .ok (pre, ct) := by
        cases isRSA <;> simpa [clientGenCKX, hk] using hg
      have := h2 rk pre ct hg'
      cases isRSA <;> simpa [serverProcessCKX, same.suite, hk] using this
  cases hk : T.suite.ka with
  | rsa =>
    simp only [Spec.KeysWork, hk, ← enc_spec] at kw
    obtain ⟨pk, sk, e1, e2, L⟩ := kw
    simp only [serverGenSKX, hk, Res.ok.injEq, Prod.mk.injEq] at h
    obtain ⟨rfl, rfl⟩ := h
    refine ⟨none, rfl, ?_⟩
    intro pre ct hg rand'
    simp only [clientGenCKX, ← same.suite, hk, e1] at hg
    simp only [serverProcessCKX, hk, e2]
    exact (C81_rsa K T.vers S.helloVers hnv rk rand' pk sk pre ct L hg).1
  | ecdheRSA => exact ecdhe true hk
  | ecdheECDSA => exact ecdhe false hk
  | eccGM =>
    simp only [Spec.KeysWork, hk, ← enc_spec] at kw
    obtain ⟨G, _, L, sk, ek, d, e, more, hb, h1, h2, h3, h4, h5, h6, h7, h8, h9, h10, h11⟩ := kw
    simp only [serverGenSKX, hk, h1, h9] at h
    obtain ⟨k, hk', ee⟩ := map_ok_inv h
    simp only [Prod.mk.injEq] at ee
    obtain ⟨rfl, rfl⟩ := ee
    have hp := Gm.C46_honest_skx_accepted L sk d h2 h3 rand _ _ enc.raw k more hk' h10
    refine ⟨none, ?_, ?_⟩
    · simp only [received, clientProcessSKX, ← same.suite, hk, h4, ← same.clientRandom, ← same.serverRandom, hp, Res.map]
    · intro pre ct hg rand'
      simp only [clientGenCKX, ← same.suite, hk, h8] at hg
      simp only [serverProcessCKX, hk, h5]
      split at hg
      · rename_i r hr
        subst hg
        exact (Gm.C44_premaster_agreement_partial L hb ek e h6 _ _ rfl rfl h7 rk S.helloVers h11 pre ct hr).1
      · cases hg
  | ecdheGM => simp [Spec.KeysWork, hk] at kw

/-! ### the client's signature -/

theorem fresh_ok {E : AuthEnv} {S : ServerHs} (hv : (S.gm = true ∧ S.vers = vGMSSL) ∨ (S.gm = false ∧ (S.vers = vTLS10 ∨ S.vers = vTLS11 ∨ S.vers = vTLS12))) :
    ∃ h0, S.newHash E = .ok h0 ∧ h0.version = S.vers ∧ (S.vers = vTLS12 → h0.buffer = some []) := by
  unfold ServerHs.newHash
  rcases hv with ⟨hg, hv⟩ | ⟨hg, hv⟩
  · rw [if_pos hg]
    exact ⟨_, rfl, hv.symm, by rw [hv]; decide⟩
  · rw [if_neg (by simp [hg])]
    rcases hv with e | e | e <;> rw [e]
    · exact ⟨_, rfl, rfl, fun h => absurd h (by decide)⟩
    · exact ⟨_, rfl, rfl, fun h => absurd h (by decide)⟩
    · by_cases h3 : S.suite.sha384 = true <;> simp [newFinishedHash, prfForVersion, hashForVersion, h3, vTLS10, vTLS11, vTLS12, vSSL30]

theorem digest_ok {hs : Hashes} {h : FinishedHash} (g : h.Good) (hv : h.version ≠ vSSL30) (hb : vTLS12.toNat ≤ h.version.toNat → h.buffer.isSome = true)
    (pk ec : Bool) (f : HashFn) : ∃ D, ∀ master, h.hashForClientCertificate hs pk ec f master = .ok D := by
  obtain ⟨s, hs'⟩ := g.sum
  unfold FinishedHash.hashForClientCertificate
  cases e : h.buffer with
  | none =>
    have : ¬ vTLS12.toNat ≤ h.version.toNat := by
      intro h'
      have := hb h'
      rw [e] at this
      cases this
    simp only [hv, this, or_self, if_false]
    cases ec with
    | true => exact ⟨_, fun _ => rfl⟩
    | false => exact ⟨s, fun _ => hs'⟩
  | some buf =>
    simp only [hv, if_false]
    by_cases h12 : vTLS12.toNat ≤ h.version.toNat
    · simp only [h12, if_true]
      exact ⟨_, fun _ => rfl⟩
    · simp only [h12, if_false]
      cases ec with
      | true => exact ⟨_, fun _ => rfl⟩
      | false => exact ⟨s, fun _ => hs'⟩

/-- the algorithm the client labels its signature with makes the server choose the same -/
theorem pick_verify {pub : X509.Pub} {algs ours : List U16} {v : Version} {a : U16} {t : SigType} {h : HashId} (hne : vTLS12.toNat ≤ v.toNat → algs = supportedSignatureAlgorithms)
    (e : pickSignatureAlgorithmFull pub algs ours v = .ok (a, t, h)) :
    pickSignatureAlgorithm pub [if vTLS12.toNat ≤ v.toNat then a else 0] supportedSignatureAlgorithms v = .ok (t, h) := by
  unfold pickSignatureAlgorithmFull at e
  unfold pickSignatureAlgorithm
  by_cases hv : v.toNat < vTLS12.toNat
  · rw [if_pos (.inl hv)] at e ⊢
    cases pub <;> simp_all
  · have hv' : vTLS12.toNat ≤ v.toNat := by omega
    rw [hne hv'] at e
    rw [if_neg (by simp [hv, supportedSignatureAlgorithms])] at e
    rw [if_neg (by simp [hv]), if_pos hv']
    obtain ⟨h1, h2, h3, h4, h5⟩ := pickLoopFull_fst e
    unfold pickLoop
    rw [if_neg (by simpa using h1), h3]
    dsimp only
    rw [← h4]
    rcases h5 with ⟨k, rfl, ht⟩ | ⟨k, rfl, ht⟩ | ⟨x, y, rfl, ht⟩ <;> simp [ht]

theorem certVerify_ok {K : KaEnv} {S : ClientHs} {T : ServerSide K.auth.x509.curve} {rs : Bytes} {cc : ClientCert} {pub : X509.Pub} (same : Spec.SameHandshake S T)
    (hpub : keyAllowed T.gm pub = true) (can : Spec.CanSign K S T rs cc (some pub)) {h0 : FinishedHash} (hh : S.newHash K.auth = .ok h0) (hv : h0.version = S.vers)
    (hb : S.vers = vTLS12 → h0.buffer = some []) (t : Bytes) :
    ∃ (key : Signer) (cv : CertificateVerifyMsg) (ty : SigType) (hid : HashId) (D : Bytes), cc.key = some key ∧ cv.raw = none ∧
      makeCertVerify K.auth S key (if T.gm then [] else T.request.supportedSignatureAlgorithms) rs (h0.app t) = .ok cv ∧
      pickSignatureAlgorithm pub [cv.signatureAlgorithm] supportedSignatureAlgorithms T.vers = .ok (ty, hid) ∧
      (∀ master, (h0.app t).hashForClientCertificate K.auth.hashes (ty = .pkcs1v15) (ty = .ecdsa) (K.auth.hashFn hid) master = .ok D) ∧
      verifyHandshakeSignature K.auth ty pub hid D cv.signature = .ok true := by
  obtain ⟨key, hk, hp, honest, hsign, hcond⟩ := can.key
  simp only [Option.some.injEq] at hp
  subst hp
  have g : (h0.app t).Good := (newHash_good (S := S.asServer) hh).app t
  have hver : (h0.app t).version = T.vers := by rw [same.vers]; exact hv
  have hd : ∀ pk ec f, ∃ D, ∀ master, (h0.app t).hashForClientCertificate K.auth.hashes pk ec f master = .ok D := by
    intro pk ec f
    refine digest_ok g ?_ ?_ pk ec f
    · rw [hver]
      rcases same.version with ⟨_, e⟩ | ⟨_, e | e | e⟩ <;> rw [e] <;> decide
    · rw [hver]
      intro h12
      have e : T.vers = vTLS12 := by
        rcases same.version with ⟨_, e⟩ | ⟨_, e | e | e⟩
        · rw [e] at h12; exact absurd h12 (by decide)
        · rw [e] at h12; exact absurd h12 (by decide)
        · rw [e] at h12; exact absurd h12 (by decide)
        · exact e
      simp [FinishedHash.app, hb (same.vers ▸ e)]
  cases hg : T.gm with
  | true =>
    simp only [hg, if_true] at hcond
    obtain ⟨x, y, hxy⟩ := hcond
    have hvers : T.vers = vGMSSL := by
      rcases same.version with ⟨_, e⟩ | ⟨e, _⟩
      · exact e
      · rw [hg] at e; cases e
    have hsg : S.gm = true := by rw [← same.gm, hg]
    obtain ⟨D, hD⟩ := hd (decide (SigType.sm2 = .pkcs1v15)) (decide (SigType.sm2 = .ecdsa)) (K.auth.hashFn .sha1)
    have hspec := digest_spec (S := S.asServer) hh t _ _ _ [] D (hD [])
    have hgm : S.asServer.gm = true := hsg
    rw [if_pos hgm] at hspec
    have hsum : (h0.app t).hash.sum (h0.app t).client = D := by
      rw [hspec]
      have : h0 = newFinishedHashGM := by
        unfold ClientHs.newHash at hh
        rw [if_pos hsg] at hh
        exact (Res.ok.inj hh).symm
      rw [this]
      rfl
    have hfit : Spec.KeyFits key.pub .sm2 := by rw [hxy]; rfl
    obtain ⟨sig, hsig⟩ := hsign .sm2 .sha1 D hfit
    refine ⟨key, ⟨none, false, 0, sig⟩, .sm2, .sha1, D, hk, rfl, ?_, ?_, hD, (honest rs .sm2 .sha1 D sig hfit hsig).1⟩
    · rw [makeCertVerify, if_pos hsg, gmCertVerify, hsum, hsig, Res.ok_bind]
    · simp [pickSignatureAlgorithm, hxy, hvers, vGMSSL, vTLS12]
  | false =>
    simp only [hg, Bool.false_eq_true, if_false] at hcond ⊢
    obtain ⟨⟨a, ty, hid⟩, hpick⟩ := hcond
    have hsg : ¬ S.gm = true := by rw [← same.gm, hg]; simp
    have hno : ∀ x y, key.pub = .sm2 x y → S.vers.toNat < vTLS12.toNat := by
      intro x y e
      rw [e, hg] at hpub
      cases hpub
    have hfit := fits_of_pick hno hpick
    obtain ⟨D, hD⟩ := hd (decide (ty = .pkcs1v15)) (decide (ty = .ecdsa)) (K.auth.hashFn hid)
    obtain ⟨sig, hsig⟩ := hsign ty hid D hfit
    refine ⟨key, ⟨none, decide (vTLS12.toNat ≤ S.vers.toNat), if vTLS12.toNat ≤ S.vers.toNat then a else 0, sig⟩, ty, hid, D, hk, rfl, ?_, ?_, hD, (honest rs ty hid D sig hfit hsig).1⟩
    · rw [makeCertVerify, if_neg hsg, stdCertVerify, hpick, Res.ok_bind]
      dsimp only
      rw [hD [], Res.ok_bind, hsig, Res.ok_bind]
    · rw [same.vers]
      refine pick_verify ?_ hpick
      intro h12
      rw [ServerSide.request]
      dsimp only
      rw [same.vers, if_pos h12]

/-! ### the client reads the server's messages -/

theorem status_fwd {S : ClientHs} {fh : FinishedHash} (w : fh.Writable) (status : Option (CertificateStatusMsg × Bytes)) (skx : Option (ServerKeyExchangeMsg × Bytes))
    (req : Option (Message × Bytes)) (tail : List Item) (hs : ∀ x, status = some x → S.gm = false ∧ S.ocsp = true ∧ x.1.marshal = .ok (x.2, x.1))
    (hr : ∀ x, req = some x → ∀ cs, x.1 ≠ .certificateStatus cs) :
    statusPhase S fh (listed .certificateStatus status ++ (listed .serverKeyExchange skx ++ (listed id req ++ .msg .serverHelloDone :: tail))) =
      .ok (fh.app (Spec.bytesOf status), listed .serverKeyExchange skx ++ (listed id req ++ .msg .serverHelloDone :: tail)) := by
  cases status with
  | some x =>
    obtain ⟨h1, h2, h3⟩ := hs x rfl
    have e : (listed Message.certificateStatus (some x) ++ (listed .serverKeyExchange skx ++ (listed id req ++ .msg .serverHelloDone :: tail))) =
      .msg (.certificateStatus x.1) :: (listed .serverKeyExchange skx ++ (listed id req ++ .msg .serverHelloDone :: tail)) := rfl
    rw [e, statusPhase, if_neg (by simp [h1]), if_neg (by simp [h2]), h3, Res.ok_bind]
    dsimp only
    rw [fhwrite_ok w, Res.ok_bind]
    rfl
  | none =>
    have hb : fh.app (Spec.bytesOf (none : Option (CertificateStatusMsg × Bytes))) = fh := app_nil fh
    rw [hb]
    cases skx with
    | some x => rfl
    | none =>
      cases req with
      | none => rfl
      | some x =>
        obtain ⟨m, b⟩ := x
        cases m <;> first | rfl | exact absurd rfl (hr _ rfl _)

theorem skx_fwd {K : KaEnv} {S : ClientHs} {leaf enc : X509.Cert} {cst : Option EcdheClient} {fh : FinishedHash} (w : fh.Writable) (skx : Option (ServerKeyExchangeMsg × Bytes))
    (req : Option (Message × Bytes)) (tail : List Item) (hs : ∀ x, skx = some x → x.1.marshal = .ok (x.2, x.1)) (hk : received K S leaf enc (skx.map fun x => x.1.key) = .ok cst)
    (hr : ∀ x, req = some x → ∀ cs, x.1 ≠ .serverKeyExchange cs) :
    skxPhase K S leaf enc fh (listed .serverKeyExchange skx ++ (listed id req ++ .msg .serverHelloDone :: tail)) =
      .ok (cst, fh.app (Spec.bytesOf skx), listed id req ++ .msg .serverHelloDone :: tail) := by
  cases skx with
  | some x =>
    have h3 := hs x rfl
    have hk' : clientProcessSKX K S leaf enc x.1.key = .ok cst := hk
    have e : (listed Message.serverKeyExchange (some x) ++ (listed id req ++ .msg .serverHelloDone :: tail)) =
      .msg (.serverKeyExchange x.1) :: (listed id req ++ .msg .serverHelloDone :: tail) := rfl
    rw [e, skxPhase, h3, Res.ok_bind]
    dsimp only
    rw [fhwrite_ok w, Res.ok_bind, hk', Res.ok_bind]
    rfl
  | none =>
    have hb : fh.app (Spec.bytesOf (none : Option (ServerKeyExchangeMsg × Bytes))) = fh := app_nil fh
    rw [hb]
    simp only [Option.map_none, received, Res.ok.injEq] at hk
    subst hk
    cases req with
    | none => rfl
    | some x =>
      obtain ⟨m, b⟩ := x
      cases m <;> first | rfl | exact absurd rfl (hr _ rfl _)

theorem done_fwd {fh : FinishedHash} (w : fh.Writable) (tail : List Item) : donePhase fh (.msg .serverHelloDone :: tail) = .ok (fh.app serverHelloDoneMarshal, tail) := by
  simp only [donePhase, readMsg, Res.ok_bind, fhwrite_ok w]

/-- what the client has found to answer a request with -/
def asked (K : KaEnv) (S : ClientHs) (T : ServerSide K.auth.x509.curve) : Res (Option Requested) :=
  if T.auth = .noClientCert then .ok none
  else (Spec.Answer K S T).map fun c => some ⟨c, if T.gm then [] else T.request.supportedSignatureAlgorithms⟩

theorem req_fwd {K : KaEnv} {S : ClientHs} {T : ServerSide K.auth.x509.curve} (same : Spec.SameHandshake S T) {q : Option Requested} (hq : asked K S T = .ok q) {fh : FinishedHash} (w : fh.Writable)
    (req : Option (Message × Bytes)) (tail : List Item) (hn : req = none ↔ T.auth = .noClientCert)
    (hr : ∀ x, req = some x → x.1.marshal = .ok (x.2, x.1) ∧
        if T.gm then x.1 = .certificateRequestGM { T.requestGM with raw := some x.2 } else x.1 = .certificateRequest { T.request with raw := some x.2 }) :
    reqPhase K.auth S fh (listed id req ++ .msg .serverHelloDone :: tail) = .ok (q, fh.app (Spec.bytesOf req), .msg .serverHelloDone :: tail) := by
  cases req with
  | none =>
    rw [asked, if_pos (hn.1 rfl)] at hq
    simp only [Res.ok.injEq] at hq
    subst hq
    have hb : fh.app (Spec.bytesOf (none : Option (Message × Bytes))) = fh := app_nil fh
    rw [hb]
    rfl
  | some x =>
    obtain ⟨m, b⟩ := x
    obtain ⟨h1, h2⟩ := hr _ rfl
    rw [asked, if_neg (fun e => by simpa using hn.2 e)] at hq
    obtain ⟨c, hc, hq⟩ := map_ok_inv hq
    dsimp only at h1 h2
    have e : (listed id (some (m, b)) ++ .msg .serverHelloDone :: tail) = .msg m :: .msg .serverHelloDone :: tail := rfl
    rw [e]
    unfold Spec.Answer at hc
    cases hg : T.gm with
    | true =>
      simp only [hg, if_true] at h2 hc hq
      subst h2
      have hsg : S.gm = true := by rw [← same.gm, hg]
      have hm : ({ T.requestGM with raw := some b } : CertificateRequestMsgGM).marshal = .ok (b, { T.requestGM with raw := some b }) := rfl
      have hc' : gmGetCertificate K.auth S { T.requestGM with raw := some b } = .ok c := hc
      rw [reqPhase, if_neg (by simp [hsg]), hm, Res.ok_bind]
      dsimp only
      rw [fhwrite_ok w, Res.ok_bind, hc', Res.ok_bind, hq]
      rfl
    | false =>
      simp only [hg, Bool.false_eq_true, if_false] at h2 hc hq
      subst h2
      have hsg : ¬ S.gm = true := by rw [← same.gm, hg]; simp
      have hm : ({ T.request with raw := some b } : CertificateRequestMsg).marshal = .ok (b, { T.request with raw := some b }) := rfl
      have hc' : stdGetCertificate K.auth S { T.request with raw := some b } = .ok c := hc
      rw [reqPhase, if_neg hsg, hm, Res.ok_bind]
      dsimp only
      rw [fhwrite_ok w, Res.ok_bind, hc', Res.ok_bind, ← hq]
      rfl

/-! ### the client's certificate and signature, on both sides -/

theorem asked_of_ok {K : KaEnv} {S : ClientHs} {T : ServerSide K.auth.x509.curve} {rs : Bytes} {p : PeerId} (h : Spec.ClientCertOk K S T rs p) :
    (T.auth = .noClientCert ∧ p = ⟨[], [], none⟩ ∧ asked K S T = .ok none) ∨
    (T.auth ≠ .noClientCert ∧ ∃ cc, Spec.Answer K S T = .ok (some cc) ∧ asked K S T = .ok (some ⟨some cc, if T.gm then [] else T.request.supportedSignatureAlgorithms⟩) ∧
      processCertsFromClient K.auth (T.hs none []) cc.chain = .ok p ∧
      (if cc.chain = [] then T.auth ≠ .requireAnyClientCert ∧ T.auth ≠ .requireAndVerifyClientCert else Spec.CanSign K S T rs cc p.pub)) := by
  unfold Spec.ClientCertOk at h
  by_cases ha : T.auth = .noClientCert
  · rw [if_pos ha] at h
    exact .inl ⟨ha, h, by rw [asked, if_pos ha]⟩
  · rw [if_neg ha] at h
    obtain ⟨cc, h1, h2, h3⟩ := h
    exact .inr ⟨ha, cc, h1, by rw [asked, if_neg ha, h1]; rfl, h2, h3⟩

theorem cert_fwd {K : KaEnv} {S : ClientHs} {T : ServerSide K.auth.x509.curve} {rs : Bytes} {p : PeerId} {q : Option Requested} (h : Spec.ClientCertOk K S T rs p)
    (hq : asked K S T = .ok q) (st : Option EcdheServer) (rand : Bytes) :
    ∃ cert : Option (CertificateMsg × Bytes), (∀ fh : FinishedHash, fh.Writable → sendCert q fh = .ok (fh.app (Spec.bytesOf cert), listed .certificate cert)) ∧
      ∀ (fh : FinishedHash) (rest : List Item), fh.Writable →
        clientCertPhase K.auth (T.hs st rand) fh (listed .certificate cert ++ rest) = .ok (p, fh.app (Spec.bytesOf cert), rest) := by
  rcases asked_of_ok h with ⟨ha, rfl, hq'⟩ | ⟨ha, cc, _, hq', hp, hc⟩
  · rw [hq] at hq'
    simp only [Res.ok.injEq] at hq'
    subst hq'
    refine ⟨none, fun fh _ => ?_, fun fh rest _ => ?_⟩
    · rw [sendCert, Spec.bytesOf, app_nil]; rfl
    · have : ¬ (T.hs st rand).auth.rank ≥ ClientAuth.requestClientCert.rank := fun hr => (rank_request _).1 hr ha
      rw [clientCertPhase, if_neg this, Spec.bytesOf, app_nil]; rfl
  · rw [hq] at hq'
    simp only [Res.ok.injEq] at hq'
    subst hq'
    obtain ⟨b, hb⟩ : ∃ b, CertificateMsg.marshal { raw := none, certificates := cc.chain } = .ok (b, { raw := some b, certificates := cc.chain }) := ⟨_, rfl⟩
    refine ⟨some (⟨some b, cc.chain⟩, b), fun fh w => ?_, fun fh rest w => ?_⟩
    · rw [sendCert, emit_ok w (b := b) (m' := .certificate ⟨some b, cc.chain⟩) (by rw [Message.marshal, hb]; rfl), Res.ok_bind]
      rfl
    · have hr : (T.hs st rand).auth.rank ≥ ClientAuth.requestClientCert.rank := (rank_request _).2 ha
      have e : listed Message.certificate (some (⟨some b, cc.chain⟩, b)) ++ rest = .msg (.certificate ⟨some b, cc.chain⟩) :: rest := rfl
      have hm : CertificateMsg.marshal ⟨some b, cc.chain⟩ = .ok (b, ⟨some b, cc.chain⟩) := rfl
      have hp' : processCertsFromClient K.auth (T.hs st rand) cc.chain = .ok p := hp
      rw [clientCertPhase, if_pos hr, e, readMsg, Res.ok_bind]
      dsimp only
      rw [hm, Res.ok_bind]
      dsimp only
      rw [fhwrite_ok w, Res.ok_bind, if_neg, hp', Res.ok_bind]
      · rfl
      · rintro ⟨hl, hreq⟩
        rw [if_pos (List.length_eq_zero_iff.1 hl)] at hc
        rcases hreq with e | e
        · exact hc.1 e
        · exact hc.2 e

theorem processCerts_pub {E : AuthEnv} {S : ServerHs} {l : List Bytes} {p : PeerId} (h : processCertsFromClient E S l = .ok p) :
    (l = [] → p.pub = none) ∧ ∀ pub, p.pub = some pub → keyAllowed S.gm pub = true := by
  unfold processCertsFromClient at h
  split at h
  · cases h
  · rename_i certs hparse
    obtain ⟨chains, _, h⟩ := Res.bind_eq_ok.1 h
    split at h
    · cases h
    · split at h
      · simp only [Res.ok.injEq] at h
        subst h
        exact ⟨fun _ => rfl, nofun⟩
      · rename_i leaf more
        split at h
        · rename_i hk
          simp only [Res.ok.injEq] at h
          subst h
          refine ⟨?_, ?_⟩
          · rintro rfl
            cases hparse
          · rintro pub ⟨⟩
            exact hk
        · cases h

theorem noCerts_answer {K : KaEnv} {S : ClientHs} {T : ServerSide K.auth.x509.curve} {cc : ClientCert} (h : Spec.Answer K S T = .ok (some cc)) (hne : cc.chain ≠ []) :
    ¬ S.noCerts = true := by
  intro hn
  simp only [ClientHs.noCerts, Bool.and_eq_true, List.isEmpty_iff, Option.isNone_iff_eq_none] at hn
  obtain ⟨h1, h2⟩ := hn
  apply hne
  unfold Spec.Answer at h
  split at h
  · simp only [gmGetCertificate, h2, h1, findCert, Res.map, Res.ok.injEq, Option.some.injEq] at h
    rw [← h]
  · simp only [stdGetCertificate, h2, h1] at h
    split at h
    · simp only [Res.ok.injEq, Option.some.injEq] at h
      rw [← h]
    · simp only [findCert, Res.map, Res.ok.injEq, Option.some.injEq] at h
      rw [← h]

theorem verify_fwd {K : KaEnv} {S : ClientHs} {T : ServerSide K.auth.x509.curve} (same : Spec.SameHandshake S T) {rs : Bytes} {p : PeerId} {q : Option Requested}
    (h : Spec.ClientCertOk K S T rs p) (hq : asked K S T = .ok q) {h0 : FinishedHash} (hh : S.newHash K.auth = .ok h0) (hv : h0.version = S.vers)
    (hb : S.vers = vTLS12 → h0.buffer = some []) (st : Option EcdheServer) (rand t : Bytes) :
    ∃ cv : Option (CertificateVerifyMsg × Bytes),
      sendCertVerify K.auth S q rs ((if S.noCerts = true then h0.discardHandshakeBuffer else h0).app t) =
        .ok ((if S.noCerts = true then h0.discardHandshakeBuffer else h0).app (t ++ Spec.bytesOf cv), listed .certificateVerify cv) ∧
      ∀ (master : Bytes) (rest : List Item),
        certVerifyPhase K.auth (T.hs st rand) p master ((if T.auth = .noClientCert then h0.discardHandshakeBuffer else h0).app t) (listed .certificateVerify cv ++ rest) =
          .ok ((if T.auth = .noClientCert then h0.discardHandshakeBuffer else h0).app (t ++ Spec.bytesOf cv), rest) := by
  have hz : t ++ Spec.bytesOf (none : Option (CertificateVerifyMsg × Bytes)) = t := by simp [Spec.bytesOf]
  rcases asked_of_ok h with ⟨ha, rfl, hq'⟩ | ⟨ha, cc, hans, hq', hp, hc⟩
  · rw [hq] at hq'
    simp only [Res.ok.injEq] at hq'
    subst hq'
    refine ⟨none, ?_, fun master rest => ?_⟩
    · rw [hz]; rfl
    · rw [hz]; rfl
  · rw [hq] at hq'
    simp only [Res.ok.injEq] at hq'
    subst hq'
    obtain ⟨p1, p2⟩ := processCerts_pub hp
    by_cases hce : cc.chain = []
    · refine ⟨none, ?_, fun master rest => ?_⟩
      · rw [hz]
        have : ¬ cc.chain.length > 0 := by rw [hce]; simp
        rw [sendCertVerify, if_neg this]
        rfl
      · rw [hz, certVerifyPhase, p1 hce]
        rfl
    · rw [if_neg hce] at hc
      have hpub : ∃ pub, p.pub = some pub := by
        obtain ⟨key, _, hp', _⟩ := hc.key
        exact ⟨key.pub, hp'⟩
      obtain ⟨pub, hpub⟩ := hpub
      rw [hpub] at hc
      obtain ⟨key, cv, ty, hid, D, c1, craw, c2, c3, c4, c5⟩ := certVerify_ok same (p2 pub hpub) hc hh hv hb t
      rw [if_neg (noCerts_answer hans hce), if_neg ha]
      have w : (h0.app t).Writable := ((newHash_good (S := S.asServer) hh).app t).writable
      obtain ⟨b, hbm⟩ : ∃ b, cv.marshal = .ok (b, { cv with raw := some b }) := by
        obtain ⟨raw, x, y, z⟩ := cv
        dsimp only at craw
        subst craw
        exact ⟨_, rfl⟩
      refine ⟨some ({ cv with raw := some b }, b), ?_, fun master rest => ?_⟩
      · have : cc.chain.length > 0 := List.length_pos_iff.2 hce
        rw [sendCertVerify, if_pos this, c1]
        dsimp only
        rw [c2, Res.ok_bind, emit_ok w (b := b) (m' := .certificateVerify { cv with raw := some b }) (by rw [Message.marshal, hbm]; rfl), Res.ok_bind, app_app]
        rfl
      · have e : listed Message.certificateVerify (some ({ cv with raw := some b }, b)) ++ rest = .msg (.certificateVerify { cv with raw := some b }) :: rest := rfl
        have hm : ({ cv with raw := some b } : CertificateVerifyMsg).marshal = .ok (b, { cv with raw := some b }) := rfl
        have hvv : (T.hs st rand).vers = T.vers := rfl
        rw [certVerifyPhase, hpub, e]
        dsimp only
        rw [readMsg, Res.ok_bind]
        dsimp only
        rw [hvv, c3, Res.ok_bind]
        dsimp only
        rw [c4 master, Res.ok_bind, c5, Res.ok_bind, if_neg (by simp), hm, Res.ok_bind]
        dsimp only
        rw [fhwrite_ok w, Res.ok_bind, app_app]
        rfl

/-! ### C88 -/

theorem clientSum_same {h h' : FinishedHash} {m vd : Bytes} (hv : h.version ≠ vSSL30) (e : h.clientSum m = .ok (vd, h')) : h' = h := (clientSum_server e).2 hv

theorem serverSum_same {h h' : FinishedHash} {m vd : Bytes} (hv : h.version ≠ vSSL30) (e : h.serverSum m = .ok (vd, h')) : h' = h := by
  unfold FinishedHash.serverSum at e
  rw [if_neg hv] at e
  obtain ⟨sm, _, e⟩ := Res.bind_eq_ok.1 e
  obtain ⟨o, _, e⟩ := Res.bind_eq_ok.1 e
  simp only [Res.ok.injEq, Prod.mk.injEq] at e
  exact e.2.symm

theorem finished_fresh (vd : Bytes) : ∃ b, FinishedMsg.marshal { raw := none, verifyData := vd } = .ok (b, { raw := some b, verifyData := vd }) := ⟨_, rfl⟩

theorem kaCerts_of {gm : Bool} {certs : List X509.Cert} {leaf enc : X509.Cert} (h1 : certs[0]? = some leaf) (h2 : certs[if gm then 1 else 0]? = some enc) :
    kaCerts gm certs = .ok (leaf, enc) := by
  cases gm with
  | true =>
    match certs, h1, h2 with
    | a :: b :: r, h1, h2 =>
      simp only [List.getElem?_cons_zero, Option.some.injEq, if_true, List.getElem?_cons_succ] at h1 h2
      rw [kaCerts, h1, h2]
      rfl
  | false =>
    match certs, h1, h2 with
    | [a], h1, h2 =>
      simp only [List.getElem?_cons_zero, Option.some.injEq, Bool.false_eq_true, if_false] at h1 h2
      rw [kaCerts, h1, ← h2, h1]
      rfl
    | a :: b :: r, h1, h2 =>
      simp only [List.getElem?_cons_zero, Option.some.injEq, Bool.false_eq_true, if_false] at h1 h2
      rw [kaCerts, h1, ← h2, h1]
      rfl

/-- **C88.** A client and a server that are in the same handshake, whose configurations suit each other, complete it: what the server sends makes the client send a flight that the
server accepts, and the end of what the server sends completes the handshake on the client. Both then have the same master secret and the same transcript, each has the identity
of the other, the client has the session ticket, the keys were switched and nothing is left unread. -/
theorem C88_honest_handshake (K : KaEnv) (S : ClientHs) (T : ServerSide K.auth.x509.curve) (same : Spec.SameHandshake S T) (hellos : List Bytes) (rand rk rs rand' tk : Bytes)
    (w : ServerSent) (hw : serverFlight K T rand = .ok w) (hne : T.chain ≠ []) (h2 : T.dual = true → 2 ≤ T.chain.length)
    (certs : List X509.Cert) (chains : List (List X509.Cert)) (hid : serverIdentity K.auth S T.chain = .ok (certs, chains))
    (leaf enc : X509.Cert) (hleaf : certs[0]? = some leaf) (henc : certs[if S.dual then 1 else 0]? = some enc) (kw : Spec.KeysWork K T leaf enc rand rk)
    (hgen : ∀ st key cst, serverGenSKX K T rand = .ok (st, key) → received K S leaf enc key = .ok cst → ∃ pre ct, clientGenCKX K S cst enc rk = .ok (pre, ct))
    (p : PeerId) (hcc : Spec.ClientCertOk K S T rs p) (hlog : ∀ m, S.keyLog m = true ∧ T.keyLog m = true) :
    ∃ c d fh e f,
      clientFlight K S hellos rk rs w.items = .ok c ∧
      serverFull K.auth (T.hs w.key rand') (hellos ++ w.bytes) c.sent = .ok d ∧
      serverEnd T.ticket (.ok tk) d = .ok (fh, e) ∧
      clientFull K S hellos rk rs (w.items ++ e) = .ok ({ c with rest := e }, f) ∧
      c.master = d.master ∧ f.fh = fh ∧ c.certs = certs ∧ c.chains = chains ∧ d.peer = p ∧
      f.switched = true ∧ (f.ticket = if T.ticket then some tk else none) ∧ f.rest = [] ∧ d.rest = [] := by
  obtain ⟨cert, status, key, skx, req, c1, c2, s1, s2, g1, x1, x2, r1, r2, hit, hby⟩ := serverFlight_inv hw
  obtain ⟨cst, hrec, hagree⟩ := ka_agrees same kw g1
  obtain ⟨pre, ct, hck⟩ := hgen _ _ _ g1 hrec
  have hproc := hagree pre ct hck rand'
  have hvers : (S.asServer.gm = true ∧ S.asServer.vers = vGMSSL) ∨ (S.asServer.gm = false ∧ (S.asServer.vers = vTLS10 ∨ S.asServer.vers = vTLS11 ∨ S.asServer.vers = vTLS12)) := by
    have := same.version
    rw [same.gm, same.vers] at this
    exact this
  obtain ⟨h0, hh, hv, hb⟩ := fresh_ok (E := K.auth) hvers
  have hh : S.newHash K.auth = .ok h0 := hh
  have hv : h0.version = S.vers := hv
  have hb : S.vers = vTLS12 → h0.buffer = some [] := hb
  have hhS : (T.hs w.key rand').newHash K.auth = .ok h0 := by
    unfold ClientHs.newHash at hh
    unfold ServerHs.newHash
    rw [← hh]
    show (if T.gm = true then _ else newFinishedHash K.auth.hashes T.vers T.suite) = _
    rw [same.gm, same.vers, same.suite]
  have g0 : h0.Good := newHash_good (S := S.asServer) hh
  have hn30 : h0.version ≠ vSSL30 := by
    rw [hv, ← same.vers]
    rcases same.version with ⟨_, e⟩ | ⟨_, e | e | e⟩ <;> rw [e] <;> decide
  obtain ⟨master, hms⟩ : ∃ master, masterFromPreMasterSecret K.auth.hashes S.vers S.suite pre S.clientRandom S.serverRandom = .ok master := by
    unfold masterFromPreMasterSecret prfForVersion
    rw [← same.vers]
    rcases same.version with ⟨_, e⟩ | ⟨_, e | e | e⟩ <;> rw [e]
    · exact ⟨_, rfl⟩
    · exact ⟨_, rfl⟩
    · exact ⟨_, rfl⟩
    · by_cases h3 : S.suite.sha384 = true <;> simp [h3, vTLS10, vTLS11, vTLS12, vSSL30]
  obtain ⟨q, hq⟩ : ∃ q, asked K S T = .ok q := by
    rcases asked_of_ok hcc with ⟨_, _, h⟩ | ⟨_, _, _, h, _⟩ <;> exact ⟨_, h⟩
  obtain ⟨ccert, hcc1, hcc2⟩ := cert_fwd hcc hq w.key rand'
  generalize hf0 : (if S.noCerts = true then h0.discardHandshakeBuffer else h0) = f0
  generalize hs0 : (if T.auth = .noClientCert then h0.discardHandshakeBuffer else h0) = s0
  have gf : f0.Good := by
    rw [← hf0]; split
    · exact g0.discard
    · exact g0
  have gs : s0.Good := by
    rw [← hs0]; split
    · exact g0.discard
    · exact g0
  have df : ∀ t, (f0.app t).discardHandshakeBuffer = h0.discardHandshakeBuffer.app t := by
    intro t
    rw [← hf0, ← discard_app]; split <;> rfl
  have ds : ∀ t, (s0.app t).discardHandshakeBuffer = h0.discardHandshakeBuffer.app t := by
    intro t
    rw [← hs0, ← discard_app]; split <;> rfl
  generalize hd0 : h0.discardHandshakeBuffer = e0
  rw [hd0] at df ds
  have ge : e0.Good := by rw [← hd0]; exact g0.discard
  have ve : ∀ t, (e0.app t).version ≠ vSSL30 := by
    intro t; rw [← hd0]; exact hn30
  obtain ⟨kb, hkb⟩ : ∃ b, ClientKeyExchangeMsg.marshal { raw := none, ciphertext := ct } = .ok (b, { raw := some b, ciphertext := ct }) := ⟨_, rfl⟩
  generalize htS : hellos.flatten ++ (cert.2 ++ Spec.bytesOf status ++ Spec.bytesOf skx ++ Spec.bytesOf req ++ serverHelloDoneMarshal) = tS
  generalize htC : tS ++ Spec.bytesOf ccert ++ kb = tC
  obtain ⟨cv, hcv1, hcv2⟩ := verify_fwd same hcc hq hh hv hb w.key rand' tC
  rw [hf0] at hcv1
  rw [hs0] at hcv2
  -- NextProtocol
  obtain ⟨np, hnp1, hnp2⟩ : ∃ np : Option (NextProtoMsg × Bytes),
      (∀ fh : FinishedHash, fh.Writable → sendNextProto S fh = .ok (fh.app (Spec.bytesOf np), listed .nextProto np)) ∧
      ∀ (fh : FinishedHash) (rest : List Item), fh.Writable →
        nextProtoPhase (T.hs w.key rand') fh (listed .nextProto np ++ rest) = .ok (fh.app (Spec.bytesOf np), rest) := by
    have hnpn : (T.hs w.key rand').npn = S.nextProto.isSome := same.npn
    cases hp : S.nextProto with
    | none =>
      refine ⟨none, fun fh _ => ?_, fun fh rest _ => ?_⟩
      · rw [sendNextProto, hp, Spec.bytesOf, app_nil]; rfl
      · rw [nextProtoPhase, hnpn, hp, Spec.bytesOf, app_nil]; rfl
    | some pr =>
      obtain ⟨b, hbm⟩ : ∃ b, NextProtoMsg.marshal { raw := none, proto := pr } = .ok (b, { raw := some b, proto := pr }) := ⟨_, rfl⟩
      refine ⟨some (⟨some b, pr⟩, b), fun fh w => ?_, fun fh rest w => ?_⟩
      · rw [sendNextProto, hp]
        dsimp only
        rw [emit_ok w (b := b) (m' := .nextProto ⟨some b, pr⟩) (by rw [Message.marshal, hbm]; rfl), Res.ok_bind]
        rfl
      · have e : listed Message.nextProto (some (⟨some b, pr⟩, b)) ++ rest = .msg (.nextProto ⟨some b, pr⟩) :: rest := rfl
        have hm : NextProtoMsg.marshal ⟨some b, pr⟩ = .ok (b, ⟨some b, pr⟩) := rfl
        rw [nextProtoPhase, hnpn, hp, Option.isSome_some, if_pos rfl, e, readMsg, Res.ok_bind]
        dsimp only
        rw [hm, Res.ok_bind]
        dsimp only
        rw [fhwrite_ok w, Res.ok_bind]
        rfl
  -- the client's Finished
  generalize htN : tC ++ Spec.bytesOf cv ++ Spec.bytesOf np = tN
  obtain ⟨vd, f1, hsum, _⟩ := (ge.app tN).clientSum master
  obtain rfl := clientSum_same (ve _) hsum
  obtain ⟨fb, hfb⟩ := finished_fresh vd
  -- the ticket
  obtain ⟨nt, hnt1, hnt2⟩ : ∃ nt : Option (NewSessionTicketMsg × Bytes),
      (∀ fh : FinishedHash, fh.Writable → sendTicket T.ticket (.ok tk) fh = .ok (fh.app (Spec.bytesOf nt), listed .newSessionTicket nt)) ∧
      ∀ (fh : FinishedHash) (rest : List Item), fh.Writable →
        ticketPhase S fh (listed .newSessionTicket nt ++ rest) = .ok (if T.ticket then some tk else none, fh.app (Spec.bytesOf nt), rest) := by
    cases ht : T.ticket with
    | false =>
      refine ⟨none, fun fh _ => ?_, fun fh rest _ => ?_⟩
      · rw [sendTicket, Spec.bytesOf, app_nil]; rfl
      · rw [ticketPhase, ← same.ticket, ht, Spec.bytesOf, app_nil]; rfl
    | true =>
      obtain ⟨b, hbm⟩ : ∃ b, NewSessionTicketMsg.marshal { raw := none, ticket := tk } = .ok (b, { raw := some b, ticket := tk }) := ⟨_, rfl⟩
      refine ⟨some (⟨some b, tk⟩, b), fun fh w => ?_, fun fh rest w => ?_⟩
      · rw [sendTicket, if_pos rfl, Res.ok_bind, emit_ok w (b := b) (m' := .newSessionTicket ⟨some b, tk⟩) (by rw [Message.marshal, hbm]; rfl), Res.ok_bind]
        rfl
      · have e : listed Message.newSessionTicket (some (⟨some b, tk⟩, b)) ++ rest = .msg (.newSessionTicket ⟨some b, tk⟩) :: rest := rfl
        have hm : NewSessionTicketMsg.marshal ⟨some b, tk⟩ = .ok (b, ⟨some b, tk⟩) := rfl
        rw [ticketPhase, ← same.ticket, ht, if_pos rfl, e, readMsg, Res.ok_bind]
        dsimp only
        rw [hm, Res.ok_bind]
        dsimp only
        rw [fhwrite_ok w, Res.ok_bind]
        rfl
  obtain ⟨vd', f2, hsum'⟩ := (ge.app (tN ++ fb ++ Spec.bytesOf nt)).serverSum master
  obtain rfl := serverSum_same (ve _) hsum'
  obtain ⟨eb, heb⟩ := finished_fresh vd'
  -- the client's flight
  have hflight : ∀ tail, clientFlight K S hellos rk rs (w.items ++ tail) = .ok ⟨certs, chains, cst, master, e0.app (tN ++ fb),
      listed .certificate ccert ++ [.msg (.clientKeyExchange ⟨some kb, ct⟩)] ++ listed .certificateVerify cv ++
        (.ccs :: listed .nextProto np ++ [.msg (.finished ⟨some fb, vd⟩)]), tail⟩ := by
    intro tail
    have hit' : w.items ++ tail = .msg (.certificate cert.1) :: (listed .certificateStatus status ++ (listed .serverKeyExchange skx ++ (listed id req ++ .msg .serverHelloDone :: tail))) := by
      rw [hit]; simp
    have p1 : serverCertPhase K.auth S (f0.app hellos.flatten) (w.items ++ tail) = .ok ((certs, chains), f0.app (hellos.flatten ++ cert.2),
        listed .certificateStatus status ++ (listed .serverKeyExchange skx ++ (listed id req ++ .msg .serverHelloDone :: tail))) := by
      rw [hit', serverCertPhase, readMsg, Res.ok_bind]
      dsimp only
      rw [c1, if_neg (by simpa using hne), if_neg, c2, Res.ok_bind]
      · dsimp only
        rw [fhwrite_ok (gf.app _).writable, Res.ok_bind, hid, Res.ok_bind, app_app]
      · rintro ⟨hg, hl⟩
        have := h2 (by rw [ServerSide.dual, same.gm, same.single]; exact hg)
        omega
    have p2 : statusPhase S (f0.app (hellos.flatten ++ cert.2)) (listed .certificateStatus status ++ (listed .serverKeyExchange skx ++ (listed id req ++ .msg .serverHelloDone :: tail))) =
        .ok (f0.app (hellos.flatten ++ cert.2 ++ Spec.bytesOf status), listed .serverKeyExchange skx ++ (listed id req ++ .msg .serverHelloDone :: tail)) := by
      rw [status_fwd (gf.app _).writable, app_app]
      · intro x hx
        have ho : T.ocsp = true := by rw [← s1, hx]; rfl
        refine ⟨?_, by rw [← same.ocsp]; exact ho, s2 x hx⟩
        rw [← same.gm]
        by_contra hg
        have := same.gm_ocsp (by simpa using hg)
        rw [ho] at this
        cases this
      · intro x hx cs
        have := (r2 x hx).2
        split at this <;> rw [this] <;> nofun
    have p3 : skxPhase K S leaf enc (f0.app (hellos.flatten ++ cert.2 ++ Spec.bytesOf status)) (listed .serverKeyExchange skx ++ (listed id req ++ .msg .serverHelloDone :: tail)) =
        .ok (cst, f0.app (hellos.flatten ++ cert.2 ++ Spec.bytesOf status ++ Spec.bytesOf skx), listed id req ++ .msg .serverHelloDone :: tail) := by
      rw [skx_fwd (gf.app _).writable skx req tail x2 (by rw [x1]; exact hrec), app_app]
      intro x hx cs
      have := (r2 x hx).2
      split at this <;> rw [this] <;> nofun
    have p4 : reqPhase K.auth S (f0.app (hellos.flatten ++ cert.2 ++ Spec.bytesOf status ++ Spec.bytesOf skx)) (listed id req ++ .msg .serverHelloDone :: tail) =
        .ok (q, f0.app (hellos.flatten ++ cert.2 ++ Spec.bytesOf status ++ Spec.bytesOf skx ++ Spec.bytesOf req), .msg .serverHelloDone :: tail) := by
      rw [req_fwd same hq (gf.app _).writable req tail r1 r2, app_app]
    have p5 : donePhase (f0.app (hellos.flatten ++ cert.2 ++ Spec.bytesOf status ++ Spec.bytesOf skx ++ Spec.bytesOf req)) (.msg .serverHelloDone :: tail) = .ok (f0.app tS, tail) := by
      rw [done_fwd (gf.app _).writable, app_app, ← htS]
      simp only [List.append_assoc]
    have p6 : emit (f0.app (tS ++ Spec.bytesOf ccert)) (.clientKeyExchange { raw := none, ciphertext := ct }) = .ok (f0.app tC, .msg (.clientKeyExchange ⟨some kb, ct⟩)) := by
      rw [emit_ok (gf.app _).writable (b := kb) (m' := .clientKeyExchange ⟨some kb, ct⟩) (by rw [Message.marshal, hkb]; rfl), app_app, htC]
    have p7 : clientSendFinished S master (e0.app (tC ++ Spec.bytesOf cv)) = .ok (e0.app (tN ++ fb), .ccs :: listed .nextProto np ++ [.msg (.finished ⟨some fb, vd⟩)]) := by
      rw [clientSendFinished, hnp1 _ (ge.app _).writable, Res.ok_bind]
      dsimp only
      rw [app_app, htN, hsum, Res.ok_bind]
      dsimp only
      rw [emit_ok (ge.app _).writable (b := fb) (m' := .finished ⟨some fb, vd⟩) (by rw [Message.marshal, hfb]; rfl), app_app, Res.ok_bind]
    simp only [clientFlight, hh, Res.ok_bind, hf0, writes_ok gf.writable, p1, p2, kaCerts_of hleaf henc, p3, p4, p5, hcc1 _ (gf.app tS).writable, app_app, hck, p6, hcv1, hms, (hlog master).1, df, p7]
    simp
  have hflight0 := hflight []
  rw [List.append_nil] at hflight0
  have hsb : (hellos ++ w.bytes).flatten = tS := by rw [List.flatten_append, hby, ← htS]
  have hserver : serverFull K.auth (T.hs w.key rand') (hellos ++ w.bytes) (listed .certificate ccert ++ [.msg (.clientKeyExchange ⟨some kb, ct⟩)] ++ listed .certificateVerify cv ++
        (.ccs :: listed .nextProto np ++ [.msg (.finished ⟨some fb, vd⟩)])) = .ok ⟨p, master, e0.app (tN ++ fb), []⟩ := by
    have q1 : ckxPhase K.auth (T.hs w.key rand') (s0.app (tS ++ Spec.bytesOf ccert)) (.msg (.clientKeyExchange ⟨some kb, ct⟩) :: (listed .certificateVerify cv ++
        (.ccs :: (listed .nextProto np ++ [.msg (.finished ⟨some fb, vd⟩)])))) =
        .ok (master, s0.app tC, listed .certificateVerify cv ++ (.ccs :: (listed .nextProto np ++ [.msg (.finished ⟨some fb, vd⟩)]))) := by
      have hm : ClientKeyExchangeMsg.marshal ⟨some kb, ct⟩ = .ok (kb, ⟨some kb, ct⟩) := rfl
      have hms' : masterFromPreMasterSecret K.auth.hashes (T.hs w.key rand').vers (T.hs w.key rand').suite pre (T.hs w.key rand').clientRandom (T.hs w.key rand').serverRandom = .ok master := by
        show masterFromPreMasterSecret K.auth.hashes T.vers T.suite pre T.clientRandom T.serverRandom = _
        rw [same.vers, same.suite, same.clientRandom, same.serverRandom, hms]
      have hpr : (T.hs w.key rand').processCKX ct = .ok pre := hproc
      have hkl : ¬ (T.hs w.key rand').keyLog master = false := by
        show ¬ T.keyLog master = false
        rw [(hlog master).2]; simp
      rw [ckxPhase, readMsg, Res.ok_bind]
      dsimp only
      rw [hm, Res.ok_bind]
      dsimp only
      rw [fhwrite_ok (gs.app _).writable, Res.ok_bind, hpr, Res.ok_bind, hms', Res.ok_bind, if_neg hkl, app_app, htC]
    have q2 : serverReadFinished (T.hs w.key rand') master (e0.app (tC ++ Spec.bytesOf cv)) (.ccs :: (listed .nextProto np ++ [.msg (.finished ⟨some fb, vd⟩)])) =
        .ok (e0.app (tN ++ fb), []) := by
      have hm : FinishedMsg.marshal ⟨some fb, vd⟩ = .ok (fb, ⟨some fb, vd⟩) := rfl
      rw [serverReadFinished, readCCS, Res.ok_bind, hnp2 _ _ (ge.app _).writable, Res.ok_bind]
      dsimp only
      rw [readMsg, Res.ok_bind]
      dsimp only
      rw [app_app, htN, hsum, Res.ok_bind]
      dsimp only
      rw [if_neg (by simp), hm, Res.ok_bind]
      dsimp only
      rw [fhwrite_ok (ge.app _).writable, Res.ok_bind, app_app]
    simp only [List.append_assoc, List.cons_append, List.nil_append]
    simp only [serverFull, hhS, Res.ok_bind, hd0]
    have hau' : (if (T.hs w.key rand').auth = .noClientCert then e0 else h0) = s0 := by rw [← hd0]; exact hs0
    simp only [hau', writes_ok gs.writable, hsb, Res.ok_bind, hcc2 _ _ (gs.app tS).writable, app_app, q1, hcv2, ds, q2]
  have hend : serverEnd T.ticket (.ok tk) ⟨p, master, e0.app (tN ++ fb), []⟩ = .ok (e0.app (tN ++ fb ++ Spec.bytesOf nt ++ eb),
      listed .newSessionTicket nt ++ [.ccs, .msg (.finished ⟨some eb, vd'⟩)]) := by
    rw [serverEnd]
    dsimp only
    rw [hnt1 _ (ge.app _).writable, Res.ok_bind]
    dsimp only
    rw [app_app, hsum', Res.ok_bind]
    dsimp only
    rw [emit_ok (ge.app _).writable (b := eb) (m' := .finished ⟨some eb, vd'⟩) (by rw [Message.marshal, heb]; rfl), app_app, Res.ok_bind]
  refine ⟨_, _, _, _, ⟨if T.ticket then some tk else none, true, e0.app (tN ++ fb ++ Spec.bytesOf nt ++ eb), []⟩, hflight0, hserver, hend, ?_, rfl, rfl, rfl, rfl, rfl, rfl, rfl, rfl, rfl⟩
  rw [clientFull, hflight, Res.ok_bind, clientFinish, hnt2 _ _ (ge.app _).writable, Res.ok_bind]
  dsimp only
  rw [clientReadCCS, Res.ok_bind]
  dsimp only
  rw [readMsg, Res.ok_bind]
  dsimp only
  have hm : FinishedMsg.marshal ⟨some eb, vd'⟩ = .ok (eb, ⟨some eb, vd'⟩) := rfl
  rw [app_app, hsum', Res.ok_bind]
  dsimp only
  rw [if_neg (by simp), hm, Res.ok_bind]
  dsimp only
  rw [fhwrite_ok (ge.app _).writable, Res.ok_bind, app_app, Res.ok_bind]

/-! ### a case that meets the hypotheses -/

def toyC : ClientHs := { toyClient with certificates := [{ chain := [[1]], key := some toySigner }] }

/-- a server with an ECDSA certificate that demands a certificate of the client, at TLS 1.2 -/
def toyS : ServerSide toyK.auth.x509.curve where
  auth := .requireAndVerifyClientCert
  clientCAs := some toyRoots
  now := 5
  verifyPeer := none
  gm := false
  vers := vTLS12
  suite := toyClient.suite
  clientRandom := [1]
  serverRandom := [2]
  keyLog := fun _ => true
  npn := false
  cert := { chain := [[1]], signer := some toySigner }
  second := { chain := [] }
  more := []
  curvePrefs := [29, 24, 23]
  offeredCurves := [23, 24]
  offeredAlgs := [0x0401, 0x0403]
  ocspAsked := true
  ticket := true

theorem toy_same : Spec.SameHandshake toyC toyS := ⟨rfl, rfl, rfl, rfl, rfl, rfl, rfl, rfl, nofun, rfl, rfl, .inr ⟨rfl, .inr (.inr rfl)⟩⟩

theorem toy_law : Spec.KaLaw toyK := ⟨toyKa_law.p256, toyKa_law.p384, toyKa_law.p521, ⟨toyKa_law.x25519.commutes, toyKa_law.x25519.length⟩⟩

theorem toy_honest : Spec.HonestSigner toyK.auth toySigner := toySigner_honest

def toyLeaf : X509.Cert := toyCert 1 (.ecdsa [9]) 0

theorem toy_peer : ∃ chains, processCertsFromClient toyK.auth (toyS.hs none []) [[1]] = .ok ⟨[toyLeaf], chains, some (.ecdsa [9])⟩ := by
  have : (match processCertsFromClient toyK.auth (toyS.hs none []) [[1]] with
        | .ok p => p.certs == [toyLeaf] && p.pub == some (.ecdsa [9])
        | _ => false) = true := by decide +kernel
  split at this
  · rename_i p h
    simp only [Bool.and_eq_true, beq_iff_eq] at this
    obtain ⟨a, b, c⟩ := p
    dsimp only at this
    rw [this.1, this.2] at h
    exact ⟨b, h⟩
  · cases this

theorem toy_cc {p : PeerId} (h : processCertsFromClient toyK.auth (toyS.hs none []) [[1]] = .ok p) (hp : p.pub = some (.ecdsa [9])) : Spec.ClientCertOk toyK toyC toyS [6] p := by
  rw [Spec.ClientCertOk, if_neg (by decide)]
  refine ⟨{ chain := [[1]], key := some toySigner }, ?_, h, ?_⟩
  · unfold Spec.Answer
    rw [if_neg (by decide)]
    have : findCert toyK.auth.parse (stdFits true true) toyS.request.certificateAuthorities toyC.certificates = .ok { chain := [[1]], key := some toySigner } := by
      have hc : chainFits toyK.auth.parse (stdFits true true) toyS.request.certificateAuthorities none 0 [[1]] = .ok true := by decide +kernel
      show findCert toyK.auth.parse (stdFits true true) toyS.request.certificateAuthorities [{ chain := [[1]], key := some toySigner }] = _
      rw [findCert, hc, Res.ok_bind, if_pos rfl]
    show (if decide ((1 : Byte) ∈ ([1, 64] : List Byte)) = false ∧ decide ((64 : Byte) ∈ ([1, 64] : List Byte)) = false then (.ok (some { chain := [] }) : Res (Option ClientCert))
      else (findCert toyK.auth.parse (stdFits (decide ((1 : Byte) ∈ ([1, 64] : List Byte))) (decide ((64 : Byte) ∈ ([1, 64] : List Byte))))
        toyS.request.certificateAuthorities toyC.certificates).map some) = _
    rw [show decide ((1 : Byte) ∈ ([1, 64] : List Byte)) = true from rfl, show decide ((64 : Byte) ∈ ([1, 64] : List Byte)) = true from rfl, if_neg (by simp), this]
    rfl
  · rw [if_neg (by decide)]
    refine ⟨toySigner, rfl, by rw [hp]; rfl, toy_honest, fun _ _ _ _ => ⟨_, rfl⟩, ?_⟩
    rw [if_neg (by decide)]
    exact ⟨(0x0403, .ecdsa, .sha256), by decide +kernel⟩

/-- C88 applies: the toy client and the toy server complete a mutually authenticated handshake -/
example : ∃ w c d fh e f, serverFlight toyK toyS [7, 8, 9] = .ok w ∧ w.items.length = 4 ∧
    clientFlight toyK toyC [[2, 0, 0, 0]] [5] [6] w.items = .ok c ∧ serverFull toyK.auth (toyS.hs w.key []) ([[2, 0, 0, 0]] ++ w.bytes) c.sent = .ok d ∧
    serverEnd true (.ok [42]) d = .ok (fh, e) ∧ clientFull toyK toyC [[2, 0, 0, 0]] [5] [6] (w.items ++ e) = .ok ({ c with rest := e }, f) ∧ d.peer.certs = [toyLeaf] := by
  obtain ⟨w, hw, hl⟩ : ∃ w, serverFlight toyK toyS [7, 8, 9] = .ok w ∧ w.items.length = 4 := by
    have : (match serverFlight toyK toyS [7, 8, 9] with
        | .ok w => w.items.length == 4
        | _ => false) = true := by decide +kernel
    split at this
    · rename_i w h
      exact ⟨w, h, by simpa using this⟩
    · cases this
  obtain ⟨chains, hid⟩ : ∃ chains, serverIdentity toyK.auth toyC toyS.chain = .ok ([toyLeaf], chains) := by
    have : (match serverIdentity toyK.auth toyC toyS.chain with
        | .ok p => p.1 == [toyLeaf]
        | _ => false) = true := by decide +kernel
    split at this
    · rename_i p h
      simp only [beq_iff_eq] at this
      obtain ⟨a, b⟩ := p
      dsimp only at this
      rw [this] at h
      exact ⟨b, h⟩
    · cases this
  obtain ⟨pc, hp⟩ := toy_peer
  have kw : Spec.KeysWork toyK toyS toyLeaf toyLeaf [7, 8, 9] [5] :=
    ⟨toy_law, toySigner, rfl, rfl, toy_honest, fun _ => by decide, nofun⟩
  have hgen : ∀ st key cst, serverGenSKX toyK toyS [7, 8, 9] = .ok (st, key) → received toyK toyC toyLeaf toyLeaf key = .ok cst →
      ∃ pre ct, clientGenCKX toyK toyC cst toyLeaf [5] = .ok (pre, ct) := by
    intro st key cst h1 h2
    have e1 : serverGenSKX toyK toyS [7, 8, 9] = .ok (some ⟨24, [7]⟩, some [3, 0, 24, 1, 7, 4, 3, 0, 8, 0x30, 6, 2, 1, 1, 2, 1, 1]) := by decide +kernel
    rw [e1] at h1
    simp only [Res.ok.injEq, Prod.mk.injEq] at h1
    rw [← h1.2] at h2
    have e2 : received toyK toyC toyLeaf toyLeaf (some [3, 0, 24, 1, 7, 4, 3, 0, 8, 0x30, 6, 2, 1, 1, 2, 1, 1]) = .ok (some ⟨24, [], (7, 0)⟩) := by decide +kernel
    rw [e2] at h2
    simp only [Res.ok.injEq] at h2
    rw [← h2]
    have e3 : clientGenCKX toyK toyC (some ⟨24, [], (7, 0)⟩) toyLeaf [5] = .ok ([35], [1, 5]) := by decide +kernel
    exact ⟨_, _, e3⟩
  obtain ⟨c, d, fh, e, f, h1, h2, h3, h4, _, _, _, _, h5, _⟩ := C88_honest_handshake toyK toyC toyS toy_same [[2, 0, 0, 0]] [7, 8, 9] [5] [6] [] [42] w hw (by decide)
    (by decide) _ _ hid toyLeaf toyLeaf rfl rfl kw hgen _ (toy_cc hp rfl) (fun _ => ⟨rfl, rfl⟩)
  exact ⟨w, c, d, fh, e, f, hw, hl, h1, h2, h3, h4, by rw [h5]⟩

end Verif.Tls
