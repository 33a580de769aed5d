import Verif.Tls.ClientProps
/-!
C84 (the standard client authenticates its server), C46 and C85 (what the GM client checks), C79 (ChangeCipherSpec), and the structure of what the
client sends, used by C86.
-/
namespace Verif.Tls
open Verif Verif.Tls.Wire

namespace Spec

/-- What the standard client demands of the certificates `sent` by the server in the first handshake of a connection; `certs` and `chains` are what
it then reports as the peer's certificates and the verified chains. -/
structure StdServerOk (E : AuthEnv) (S : ClientHs) (sent : List Bytes) (certs : List X509.Cert) (chains : List (List X509.Cert)) : Prop where
  parsed : parseAll E.parse sent = some certs
  some : certs ≠ []
  /-- for the configured name and roots; with no key usage named, `Verify` demands server authentication -/
  verified : S.insecureSkipVerify = false → ∀ leaf rest, certs = leaf :: rest →
    X509.verify E.x509 E.entrust E.system leaf
      { dnsName := S.serverName, intermediates := .some (X509.poolOf rest), roots := S.rootCAs, now := S.now, keyUsages := [] } = .some (.ok chains)
  unverified : S.insecureSkipVerify = true → chains = []
  callback : ∀ f, S.verifyPeer = .some f → f sent chains = true
  key : ∀ leaf rest, certs = leaf :: rest → ∃ k, leaf.pub = .rsa k ∨ leaf.pub = .ecdsa k

/-- What the GM client demands: at least two certificates, all with SM2 keys; the first usable for signatures (digitalSignature 1 or
contentCommitment 2), the second for encryption (keyEncipherment 4, dataEncipherment 8 or keyAgreement 16). Certificate `i` is verified with certificates 2 .. i-1
as intermediates, and nil roots are no roots. -/
structure GmServerOk (E : AuthEnv) (S : ClientHs) (sent : List Bytes) (certs : List X509.Cert) (chains : List (List X509.Cert)) : Prop where
  parsed : parseAll E.parse sent = some certs
  two : 2 ≤ certs.length
  sm2 : ∀ c ∈ certs, ∃ x y, c.pub = .sm2 x y
  signing : ∀ c, certs[0]? = .some c → c.keyUsage &&& 3 ≠ 0
  encrypting : ∀ c, certs[1]? = .some c → c.keyUsage &&& 28 ≠ 0
  verified : S.insecureSkipVerify = false → ∀ i c, certs[i]? = .some c → ∃ ch,
    X509.verify E.x509 E.entrust E.system c
      { dnsName := S.serverName, intermediates := .some (X509.poolOf ((certs.take i).drop 2)), roots := .some (S.rootCAs.getD (X509.poolOf [])),
        now := S.now, keyUsages := [] } = .some (.ok ch) ∧ (i + 1 = certs.length → chains = ch)
  unverified : S.insecureSkipVerify = true → chains = []
  callback : ∀ f, S.verifyPeer = .some f → f sent chains = true

/-- A Diffie-Hellman secret `pre`, made from the public value `point` of the server on the curve `id` and a fresh key, whose public part is sent as `body`. -/
def Shared (K : KaEnv) (id : U16) (point pre body : Bytes) : Prop :=
  (id = idX25519 ∧ ∃ scalar, scalar.length = 32 ∧ pre = K.x25519 scalar point ∧
    body = BitVec.ofNat 8 (K.x25519Base scalar).length :: K.x25519Base scalar) ∨
  (∃ c p priv pub r r', K.curve id = some c ∧ c.unmarshal point = some p ∧ c.generateKey r = some (priv, pub, r') ∧
    (c.scalarMult p priv).1 = beNat pre ∧ pre.length = c.byteLen ∧ body = BitVec.ofNat 8 (c.marshal pub).length :: c.marshal pub)

/-- The key exchange of the standard client with a server whose leaf certificate has key `pub`: RSA, encrypted to that key, or ECDHE, with parameters
signed by that key together with both randoms. `skx` is the ServerKeyExchange message, `pre` the premaster secret and `body` what the client sends. -/
def StdExchange (K : KaEnv) (S : ClientHs) (pub : X509.Pub) (skx : Option ServerKeyExchangeMsg) (pre body : Bytes) : Prop :=
  (S.suite.ka = .rsa ∧ skx = none ∧ ∃ k r enc, pub = .rsa k ∧ pre.length = 48 ∧ pre.take 2 = beFixed 2 S.helloVers.toNat ∧
    K.rsaEncrypt r k pre = some enc ∧ body = beFixed 2 enc.length ++ enc) ∨
  ((S.suite.ka = .ecdheRSA ∧ (∃ k, pub = .rsa k) ∨ S.suite.ka = .ecdheECDSA ∧ ∀ k, pub ≠ .rsa k) ∧
    ∃ m id point a sig, skx = some m ∧ m.key = ecdheSKX S.vers (ecdhParams id point) a sig ∧
      SignedBy K.auth S.vers S.sigAlgs a (S.clientRandom ++ S.serverRandom ++ ecdhParams id point) sig pub ∧ Shared K id point pre body)

end Spec

/-! ### the certificates -/

theorem verifyServerChain_inv {E : AuthEnv} {S : ClientHs} {certs : List X509.Cert} {chains : List (List X509.Cert)}
    (h : verifyServerChain E S certs = .ok chains) : certs ≠ [] ∧ (S.insecureSkipVerify = true → chains = []) ∧
    (S.insecureSkipVerify = false → ∀ leaf rest, certs = leaf :: rest →
      X509.verify E.x509 E.entrust E.system leaf (serverVerifyOpts S rest) = some (.ok chains)) := by
  cases certs with
  | nil => cases h
  | cons leaf rest =>
    unfold verifyServerChain at h
    simp only at h
    by_cases hs : S.insecureSkipVerify = true
    · rw [if_pos hs] at h
      simp only [Res.ok.injEq] at h
      exact ⟨by simp, fun _ => h.symm, fun hf => absurd hs (by simp [hf])⟩
    · rw [if_neg hs] at h
      split at h
      · rename_i chains' hv
        simp only [Res.ok.injEq] at h
        subst h
        refine ⟨by simp, fun ht => absurd ht hs, fun _ l r hc => ?_⟩
        cases hc
        exact hv
      · cases h

theorem clientCallback_inv {S : ClientHs} {cs : List Bytes} {chains : List (List X509.Cert)} (h : ¬ S.callback cs chains = false) :
    ∀ f, S.verifyPeer = some f → f cs chains = true := by
  intro f hf
  unfold ClientHs.callback at h
  rw [hf] at h
  simpa using h

theorem stdServerCerts_inv {E : AuthEnv} {S : ClientHs} {cs : List Bytes} {certs : List X509.Cert} {chains : List (List X509.Cert)}
    (h : stdServerCerts E S cs = .ok (certs, chains)) : Spec.StdServerOk E S cs certs chains := by
  unfold stdServerCerts at h
  cases hp : parseAll E.parse cs with
  | none => rw [hp] at h; cases h
  | some certs' =>
    rw [hp] at h
    dsimp only at h
    obtain ⟨chains', hc, h⟩ := Res.bind_eq_ok.1 h
    obtain ⟨hn, hu, hv⟩ := verifyServerChain_inv hc
    split at h
    · cases h
    rename_i hcb
    cases certs' with
    | nil => cases h
    | cons leaf rest =>
      dsimp only at h
      split at h
      · rename_i hk
        simp only [Res.ok.injEq, Prod.mk.injEq] at h
        obtain ⟨rfl, rfl⟩ := h
        refine ⟨hp, hn, hv, hu, clientCallback_inv hcb, fun l r hl => ?_⟩
        cases hl
        cases hpub : leaf.pub <;> rw [hpub] at hk <;> simp [stdServerKey] at hk ⊢
      · cases h

theorem gmCertOk_inv {i : Nat} {c : X509.Cert} (h : gmCertOk i c = true) :
    (∃ x y, c.pub = .sm2 x y) ∧ (i = 0 → c.keyUsage &&& 3 ≠ 0) ∧ (i = 1 → c.keyUsage &&& 28 ≠ 0) := by
  unfold gmCertOk at h
  rw [Bool.and_eq_true] at h
  obtain ⟨h1, h2⟩ := h
  refine ⟨?_, ?_, ?_⟩
  · cases hp : c.pub with
    | sm2 x y => exact ⟨x, y, rfl⟩
    | _ => rw [hp] at h1; cases h1
  · intro hi
    rw [if_pos hi] at h2
    simp only [Bool.and_eq_true, bne_iff_ne, ne_eq] at h2
    intro h3
    apply h2.2
    apply Nat.eq_of_testBit_eq
    intro j
    have hj := congrArg (fun n => n.testBit j) h3
    simp only [Nat.testBit_and, Nat.testBit_or, Nat.zero_testBit] at hj ⊢
    have h3' : Nat.testBit 3 j = (Nat.testBit 1 j || Nat.testBit 2 j) := by
      rw [← Nat.testBit_or]; rfl
    rw [h3'] at hj
    cases hc : c.keyUsage.testBit j <;> cases h1 : Nat.testBit 1 j <;> cases h2 : Nat.testBit 2 j <;> simp_all
  · intro hi
    rw [if_neg (by omega), if_pos hi] at h2
    simp only [Bool.and_eq_true, bne_iff_ne, ne_eq] at h2
    exact h2.2

theorem gmParseAll_inv {parse : Bytes → Option X509.Cert} {cs : List Bytes} {i : Nat} {certs : List X509.Cert} (h : gmParseAll parse i cs = some certs) :
    parseAll parse cs = some certs ∧ ∀ j c, certs[j]? = some c → gmCertOk (i + j) c = true := by
  induction cs generalizing i certs with
  | nil => cases h; exact ⟨rfl, by simp⟩
  | cons b r ih =>
    simp only [gmParseAll, Option.bind_eq_bind, Option.bind_eq_some_iff] at h
    obtain ⟨c, hc, h⟩ := h
    split at h
    · rename_i hok
      simp only [Option.bind_eq_some_iff] at h
      obtain ⟨cs', hr, h⟩ := h
      cases h
      obtain ⟨i1, i2⟩ := ih hr
      refine ⟨by simp [parseAll, hc, i1], ?_⟩
      intro j c' hj
      cases j with
      | zero => simp at hj; subst hj; exact hok
      | succ j =>
        have := i2 j c' (by simpa using hj)
        rw [show i + (j + 1) = i + 1 + j by omega]
        exact this
    · cases h

theorem gmVerifyAll_inv {E : AuthEnv} {S : ClientHs} {roots : X509.Pool} {certs : List X509.Cert} {done : List X509.Cert} {ch0 chains : List (List X509.Cert)}
    (h : gmVerifyAll E S roots done.length (X509.poolOf (done.drop 2)) ch0 certs = .ok chains) :
    (certs = [] → chains = ch0) ∧ ∀ j c, certs[j]? = some c → ∃ ch,
      X509.verify E.x509 E.entrust E.system c
        { dnsName := S.serverName, intermediates := some (X509.poolOf ((done ++ certs.take j).drop 2)), roots := some roots, now := S.now, keyUsages := [] } =
        some (.ok ch) ∧ (j + 1 = certs.length → chains = ch) := by
  induction certs generalizing done ch0 with
  | nil =>
    simp only [gmVerifyAll, Res.ok.injEq] at h
    exact ⟨fun _ => h.symm, by simp⟩
  | cons c r ih =>
    unfold gmVerifyAll at h
    split at h
    · rename_i ch hv
      have hpool : (if done.length = 0 ∨ done.length = 1 then X509.poolOf (done.drop 2) else (X509.poolOf (done.drop 2)).addCert c) =
          X509.poolOf ((done ++ [c]).drop 2) := by
        match done with
        | [] => rfl
        | [_] => rfl
        | _ :: _ :: t =>
          rw [if_neg (by simp)]
          simp [X509.poolOf]
      rw [hpool, show done.length + 1 = (done ++ [c]).length by simp] at h
      obtain ⟨i1, i2⟩ := ih h
      refine ⟨by simp, fun j c' hj => ?_⟩
      cases j with
      | zero =>
        simp at hj; subst hj
        refine ⟨ch, by simpa using hv, fun hl => ?_⟩
        have : r = [] := List.length_eq_zero_iff.1 (by simpa using hl.symm)
        exact i1 this
      | succ j =>
        obtain ⟨ch', h1, h2⟩ := i2 j c' (by simpa using hj)
        refine ⟨ch', by simpa using h1, fun hl => h2 (by simpa using hl)⟩
    · cases h

theorem gmServerCerts_inv {E : AuthEnv} {S : ClientHs} {cs : List Bytes} (hl : 2 ≤ cs.length) {certs : List X509.Cert} {chains : List (List X509.Cert)}
    (h : gmServerCerts E S cs = .ok (certs, chains)) : Spec.GmServerOk E S cs certs chains := by
  unfold gmServerCerts at h
  cases hp : gmParseAll E.parse 0 cs with
  | none => rw [hp] at h; cases h
  | some certs' =>
    rw [hp] at h
    dsimp only at h
    obtain ⟨chains', hc, h⟩ := Res.bind_eq_ok.1 h
    split at h
    · cases h
    rename_i hcb
    simp only [Res.ok.injEq, Prod.mk.injEq] at h
    obtain ⟨rfl, rfl⟩ := h
    obtain ⟨p1, p2⟩ := gmParseAll_inv hp
    have p2' : ∀ j c, certs'[j]? = some c → gmCertOk j c = true := by
      intro j c hj
      have := p2 j c hj
      rwa [Nat.zero_add] at this
    refine ⟨p1, by rw [parseAll_length p1]; exact hl, fun c hc => ?_, fun c hc => (gmCertOk_inv (p2' 0 c hc)).2.1 rfl,
      fun c hc => (gmCertOk_inv (p2' 1 c hc)).2.2 rfl, ?_, ?_, clientCallback_inv hcb⟩
    · obtain ⟨j, hj⟩ := List.getElem?_of_mem hc
      exact (gmCertOk_inv (p2' j c hj)).1
    · intro hs i c hi
      unfold gmChains at hc
      rw [if_neg (by simp [hs])] at hc
      obtain ⟨ch, h1, h2⟩ := (gmVerifyAll_inv (done := []) hc).2 i c hi
      refine ⟨ch, by simpa [X509.poolOf] using h1, h2⟩
    · intro hs
      unfold gmChains at hc
      rw [if_pos hs] at hc
      simp only [Res.ok.injEq] at hc
      exact hc.symm

theorem sameServer_inv {q p : List X509.Cert × List (List X509.Cert)} {cs : List Bytes} (h : sameServer q cs = .ok p) :
    p = q ∧ ∃ c b rest more, q.1 = c :: rest ∧ cs = b :: more ∧ c.raw = b := by
  unfold sameServer at h
  split at h
  · rename_i c r b more h1
    split at h
    · rename_i he
      simp only [Res.ok.injEq] at h
      exact ⟨h.symm, c, b, r, more, h1, rfl, he⟩
    · cases h
  · cases h

/-! ### the whole flight -/

theorem ite_discard_app (c : Prop) [Decidable c] (h : FinishedHash) (t : Bytes) :
    (if c then h.discardHandshakeBuffer else h).app t = if c then (h.app t).discardHandshakeBuffer else h.app t := by
  by_cases hc : c
  · rw [if_pos hc, if_pos hc, discard_app]
  · rw [if_neg hc, if_neg hc]

theorem ite_discard_discard (c : Prop) [Decidable c] (h : FinishedHash) :
    (if c then h.discardHandshakeBuffer else h).discardHandshakeBuffer = h.discardHandshakeBuffer := by
  by_cases hc : c
  · rw [if_pos hc]; rfl
  · rw [if_neg hc]

theorem clientFlight_inv {K : KaEnv} {S : ClientHs} {hellos : List Bytes} {rk rs : Bytes} {items : List Item} {c : ClientSent}
    (h : clientFlight K S hellos rk rs items = .ok c) :
    ∃ (F : Spec.ServerFlight S.gm items c.rest) (G : Spec.Flight c.sent []) (h0 f2 : FinishedHash) (fb : Bytes) (leaf enc : X509.Cert) (pre : Bytes)
      (rq : Option Requested),
      S.newHash K.auth = .ok h0 ∧ F.cert.1.certificates ≠ [] ∧ (S.dual = true → 2 ≤ F.cert.1.certificates.length) ∧
      serverIdentity K.auth S F.cert.1.certificates = .ok (c.certs, c.chains) ∧
      (F.status ≠ none → S.gm = false ∧ S.ocsp = true) ∧
      kaCerts S.dual c.certs = .ok (leaf, enc) ∧
      (F.skx = none → c.ecdhe = none) ∧ (∀ x, F.skx = some x → clientProcessSKX K S leaf enc x.1.key = .ok c.ecdhe) ∧
      (F.req = none → rq = none) ∧ (∀ x, F.req = some x → ∃ q, rq = some q ∧ Answers K.auth S x.1 q) ∧
      (G.cert = none ↔ rq = none) ∧ (∀ q, rq = some q → ∃ cc, q.cert = some cc ∧ Spec.sentCerts G.cert = cc.chain) ∧
      clientGenCKX K S c.ecdhe enc rk = .ok (pre, G.ckx.1.ciphertext) ∧
      (G.verify ≠ none ↔ ∃ q cc, rq = some q ∧ q.cert = some cc ∧ cc.chain ≠ []) ∧
      (∀ x, G.verify = some x → ∃ q cc key w, rq = some q ∧ q.cert = some cc ∧ cc.key = some key ∧
        makeCertVerify K.auth S key q.algs rs
          (if S.noCerts then (h0.app (G.signedPart (hellos ++ [F.bytes]))).discardHandshakeBuffer else h0.app (G.signedPart (hellos ++ [F.bytes]))) = .ok w ∧
        x.1.signatureAlgorithm = w.signatureAlgorithm ∧ x.1.signature = w.signature) ∧
      masterFromPreMasterSecret K.auth.hashes S.vers S.suite pre S.clientRandom S.serverRandom = .ok c.master ∧ S.keyLog c.master = true ∧
      (G.npn.map fun x => x.1.proto) = S.nextProto ∧ Spec.Encodes (.finished G.finished) fb ∧
      (h0.app (G.finishedPart (hellos ++ [F.bytes]))).discardHandshakeBuffer.clientSum c.master = .ok (G.finished.verifyData, f2) ∧
      c.fh = f2.app fb := by
  unfold clientFlight at h
  obtain ⟨h0, hh0, h⟩ := Res.bind_eq_ok.1 h
  dsimp only at h
  obtain ⟨f1, hf1, h⟩ := Res.bind_eq_ok.1 h
  obtain ⟨⟨⟨certs, chains⟩, f2, it1⟩, hc, h⟩ := Res.bind_eq_ok.1 h
  dsimp only at h
  obtain ⟨⟨f3, it2⟩, hst, h⟩ := Res.bind_eq_ok.1 h
  dsimp only at h
  obtain ⟨⟨leaf, enc⟩, hka, h⟩ := Res.bind_eq_ok.1 h
  dsimp only at h
  obtain ⟨⟨st, f4, it3⟩, hskx, h⟩ := Res.bind_eq_ok.1 h
  dsimp only at h
  obtain ⟨⟨rq, f5, it4⟩, hrq, h⟩ := Res.bind_eq_ok.1 h
  dsimp only at h
  obtain ⟨⟨f6, it5⟩, hdn, h⟩ := Res.bind_eq_ok.1 h
  dsimp only at h
  obtain ⟨⟨f7, s1⟩, hsc, h⟩ := Res.bind_eq_ok.1 h
  dsimp only at h
  obtain ⟨⟨pre, ct⟩, hgen, h⟩ := Res.bind_eq_ok.1 h
  dsimp only at h
  obtain ⟨⟨f8, ckx⟩, hck, h⟩ := Res.bind_eq_ok.1 h
  dsimp only at h
  obtain ⟨⟨f9, s2⟩, hcv, h⟩ := Res.bind_eq_ok.1 h
  dsimp only at h
  obtain ⟨master, hms, h⟩ := Res.bind_eq_ok.1 h
  split at h
  · cases h
  rename_i hkl
  obtain ⟨⟨f10, s3⟩, hfin, h⟩ := Res.bind_eq_ok.1 h
  simp only [Res.ok.injEq] at h
  subst h
  obtain ⟨cm, cb, i1, e1, g1, hne, h2, hid⟩ := serverCertPhase_inv hc
  obtain ⟨status, i2, e2, g2, hocsp⟩ := statusPhase_inv hst
  obtain ⟨skx, i3, e3, g3, hs0, hs1⟩ := skxPhase_inv hskx
  obtain ⟨req, i4, e4, g4, hk4, hr0, hr1⟩ := reqPhase_inv hrq
  obtain ⟨i5, g5⟩ := donePhase_inv hdn
  obtain ⟨cert, j1, a1, b1, hcn, hcq⟩ := sendCert_inv hsc
  obtain ⟨km, kb, j2, hkc, a2, b2⟩ := emit_ckx hck
  obtain ⟨cv, j3, a3, b3, hvn, hvs⟩ := sendCertVerify_inv hcv
  obtain ⟨np, fin, fb, f2', j4, a4, hnp, a5, hsum, b5⟩ := clientSendFinished_inv hfin
  have g0 := writes_app hf1
  have base : f8 = if S.noCerts = true then (h0.app (hellos.flatten ++ (cb ++ Spec.bytesOf status ++ Spec.bytesOf skx ++ Spec.bytesOf req ++ [14, 0, 0, 0]) ++ Spec.bytesOf cert ++ kb)).discardHandshakeBuffer
      else h0.app (hellos.flatten ++ (cb ++ Spec.bytesOf status ++ Spec.bytesOf skx ++ Spec.bytesOf req ++ [14, 0, 0, 0]) ++ Spec.bytesOf cert ++ kb) := by
    rw [b2, b1, g5, g4, g3, g2, g1, g0]
    simp only [app_app, ite_discard_app, List.append_assoc]
  refine ⟨⟨(cm, cb), status, skx, req, by rw [i1, i2, i3, i4, i5]; simp, e1, e2, e3, e4, hk4⟩,
    ⟨cert, (km, kb), cv, np, fin, by rw [j1, j2, j3, j4]; simp, a1, a2, a3, a4⟩, h0, f2', fb, leaf, enc, pre, rq,
    hh0, hne, h2, hid, hocsp, hka, hs0, hs1, hr0, hr1, hcn, hcq, by dsimp only; rw [hkc]; exact hgen, hvn, ?_, hms, by simpa using hkl, hnp, a5, ?_, b5⟩
  · intro x hx
    obtain ⟨q, cc, key, w, w1, w2, w3, w4, w5, w6⟩ := hvs x hx
    refine ⟨q, cc, key, w, w1, w2, w3, ?_, w5, w6⟩
    rw [base] at w4
    simpa [Spec.Flight.signedPart, Spec.ServerFlight.bytes] using w4
  · rw [b3, base, ite_discard_app] at hsum
    rw [discard_app] at hsum
    rw [← hsum]
    congr 1
    by_cases hn : S.noCerts = true
    · simp only [if_pos hn, Spec.Flight.finishedPart, Spec.Flight.signedPart, Spec.ServerFlight.bytes, app_app]
      simp [← discard_app, app_app]
      rfl
    · simp only [if_neg hn, Spec.Flight.finishedPart, Spec.Flight.signedPart, Spec.ServerFlight.bytes, app_app]
      simp

/-! ### key exchange -/

theorem beNat_zeros (n : Nat) : beNat (List.replicate n 0) = 0 := by
  induction n with
  | zero => rfl
  | succ n ih => rw [List.replicate_succ', beNat_append_single, ih]; rfl

theorem u16_two (v : U16) : [(v >>> 8).setWidth 8, v.setWidth 8] = beFixed 2 v.toNat := by
  simp only [beFixed, List.nil_append, List.cons_append, List.cons.injEq, and_true]
  constructor <;> apply BitVec.eq_of_toNat_eq <;>
    simp [BitVec.toNat_setWidth, BitVec.toNat_ushiftRight, Nat.shiftRight_eq_div_pow]

theorem len_two (n : Nat) : [BitVec.ofNat 8 (n / 256), BitVec.ofNat 8 n] = beFixed 2 n := by
  simp [beFixed]

theorem ecdheGenCKX_inv {K : KaEnv} {cl : EcdheClient} {point rand pre body : Bytes}
    (hp : (cl.curve = idX25519 ∧ point.length = 32 ∧ cl.publicKey = point) ∨ ∃ c, K.curve cl.curve = some c ∧ c.unmarshal point = some cl.point)
    (h : ecdheGenCKX K (some cl) rand = .ok (pre, body)) : Spec.Shared K cl.curve point pre body := by
  unfold ecdheGenCKX at h
  dsimp only at h
  split at h
  · cases h
  obtain ⟨⟨pre', pub⟩, hk, h⟩ := Res.bind_eq_ok.1 h
  simp only [Res.ok.injEq, Prod.mk.injEq] at h
  obtain ⟨rfl, rfl⟩ := h
  unfold ecdheClientKey at hk
  split at hk
  · rename_i hx
    split at hk
    · cases hk
    rename_i scalar rest hr
    simp only [Res.ok.injEq, Prod.mk.injEq] at hk
    obtain ⟨rfl, rfl⟩ := hk
    left
    refine ⟨hx, scalar, ?_, ?_, rfl⟩
    · unfold Sm2.readFull at hr
      split at hr
      · simp only [Option.some.injEq, Prod.mk.injEq] at hr
        rw [← hr.1]; simp; omega
      · cases hr
    · rcases hp with ⟨_, hl, hpk⟩ | ⟨c, hc, _⟩
      · rw [hpk, hl]; simp
      · rw [hx] at hc
        simp [KaEnv.curve, idX25519] at hc
  · rename_i hx
    split at hk
    · cases hk
    rename_i c hc
    split at hk
    · cases hk
    rename_i priv pt r' hg
    obtain ⟨pr, hpad, hk⟩ := Res.bind_eq_ok.1 hk
    simp only [Res.ok.injEq, Prod.mk.injEq] at hk
    obtain ⟨rfl, rfl⟩ := hk
    right
    rcases hp with ⟨he, _⟩ | ⟨c', hc', hu⟩
    · exact absurd he hx
    rw [hc] at hc'
    cases hc'
    refine ⟨c, cl.point, priv, pt, rand, r', hc, hu, hg, ?_, ?_, rfl⟩
    all_goals
      unfold padPremaster at hpad
      dsimp only at hpad
      split at hpad
      · cases hpad
      rename_i hle
      simp only [Res.ok.injEq] at hpad
      subst hpad
    · rw [beNat_append, beNat_zeros, beNat_natBytes, Nat.zero_mul, Nat.zero_add]
    · simp; omega

theorem std_exchange {K : KaEnv} {S : ClientHs} (hsub : ∀ a ∈ S.sigAlgs, a ∈ supportedSignatureAlgorithms) (hs : S.suite ∈ cipherSuites)
    {leaf : X509.Cert} {rk pre body : Bytes} {skx : Option (ServerKeyExchangeMsg × Bytes)} {st : Option EcdheClient}
    (h0 : skx = none → st = none) (h1 : ∀ x, skx = some x → clientProcessSKX K S leaf leaf x.1.key = .ok st)
    (hg : clientGenCKX K S st leaf rk = .ok (pre, body)) : Spec.StdExchange K S leaf.pub (skx.map (·.1)) pre body := by
  have hka : S.suite.ka = .rsa ∨ S.suite.ka = .ecdheRSA ∨ S.suite.ka = .ecdheECDSA := by
    have : cipherSuites.all (fun s => s.ka == .rsa || s.ka == .ecdheRSA || s.ka == .ecdheECDSA) = true := by decide +kernel
    have := List.all_eq_true.1 this _ hs
    simpa [or_assoc] using this
  have ecdhe : ∀ isRSA : Bool, clientProcessSKX K S leaf leaf = (fun key => (ecdheProcessSKX K S.vers isRSA S.sigAlgs leaf.pub S.clientRandom S.serverRandom key).map some) →
      clientGenCKX K S st leaf rk = ecdheGenCKX K st rk →
      (isRSA = true ↔ ∃ k, leaf.pub = .rsa k) ∧
      ∃ m id point a sig, skx.map (·.1) = some m ∧ m.key = ecdheSKX S.vers (ecdhParams id point) a sig ∧
        Spec.SignedBy K.auth S.vers S.sigAlgs a (S.clientRandom ++ S.serverRandom ++ ecdhParams id point) sig leaf.pub ∧ Spec.Shared K id point pre body := by
    intro isRSA e1 e2
    rw [e2] at hg
    cases skx with
    | none => rw [h0 rfl] at hg; cases hg
    | some x =>
      have hx := h1 x rfl
      rw [e1] at hx
      obtain ⟨cl, hcl, he⟩ := map_ok_inv hx
      subst he
      obtain ⟨point, a, sig, hkey, hsig, hr, hor⟩ := C82_signed_params K S.vers isRSA S.sigAlgs hsub leaf.pub S.clientRandom S.serverRandom x.1.key cl hcl
      exact ⟨hr, x.1, cl.curve, point, a, sig, rfl, hkey, hsig, ecdheGenCKX_inv hor hg⟩
  rcases hka with hk | hk | hk
  · left
    have hsn : skx = none := by
      cases skx with
      | none => rfl
      | some x =>
        have := h1 x rfl
        simp only [clientProcessSKX, hk] at this
        cases this
    refine ⟨hk, by rw [hsn]; rfl, ?_⟩
    simp only [clientGenCKX, hk] at hg
    unfold rsaGenCKX at hg
    split at hg
    · cases hg
    rename_i b rand' hr
    dsimp only at hg
    have hb : b.length = 46 := by
      unfold Sm2.readFull at hr
      split at hr
      · simp only [Option.some.injEq, Prod.mk.injEq] at hr
        rw [← hr.1]; simp; omega
      · cases hr
    split at hg
    · rename_i k hpub
      split at hg
      · cases hg
      rename_i enc he
      simp only [Res.ok.injEq, Prod.mk.injEq] at hg
      obtain ⟨rfl, rfl⟩ := hg
      refine ⟨k, rand', enc, hpub, by simp [hb], ?_, he, ?_⟩
      · simp only [List.cons_append, List.nil_append, List.take_succ_cons, List.take_zero]
        exact u16_two _
      · exact congrArg (· ++ enc) (len_two _)
    · cases hg
  · right
    obtain ⟨e1, e2⟩ := ecdhe true (by funext key; simp only [clientProcessSKX, hk]) (by simp only [clientGenCKX, hk])
    exact ⟨.inl ⟨hk, e1.1 rfl⟩, e2⟩
  · right
    obtain ⟨e1, e2⟩ := ecdhe false (by funext key; simp only [clientProcessSKX, hk]) (by simp only [clientGenCKX, hk])
    refine ⟨.inr ⟨hk, fun k hp => ?_⟩, e2⟩
    have := e1.2 ⟨k, hp⟩
    cases this

/-! ### C84 -/

/-- what the standard client hashes for the server's Finished: the hellos, the server's messages, its own up to and including Finished, the ticket -/
def Spec.serverFinishedPart {gm : Bool} {items rest sent later rest' : List Item} (F : ServerFlight gm items rest) (G : Flight sent []) (D : ServerEnd later rest')
    (fb : Bytes) (hellos : List Bytes) : Bytes :=
  G.finishedPart (hellos ++ [F.bytes]) ++ fb ++ bytesOf D.ticket

theorem finished_both {K : KaEnv} {S : ClientHs} {h0 f2 g : FinishedHash} {t master vd fb tk sv : Bytes} (hh0 : S.newHash K.auth = .ok h0)
    (h1 : (h0.app t).discardHandshakeBuffer.clientSum master = .ok (vd, f2)) (h2 : ((f2.app fb).app tk).serverSum master = .ok (sv, g)) :
    vd = Spec.clientFinishedData K.auth S.gm S.vers S.suite master t ∧
    sv = Spec.serverFinishedData K.auth S.gm S.vers S.suite master (t ++ fb ++ tk) := by
  constructor
  · obtain ⟨g', hg'⟩ := clientSum_discard h1
    exact finished_spec (S := S.asServer) hh0 _ _ _ hg'
  · rw [app_app] at h2
    obtain ⟨g', hg'⟩ := server_after_client h1 h2
    rw [discard_app] at hg'
    obtain ⟨g'', hg''⟩ := serverSum_discard hg'
    rw [app_app, ← List.append_assoc] at hg''
    exact server_finished_spec (S := S.asServer) hh0 _ _ _ hg''

/-- everything but the certificates -/
theorem std_full {K : KaEnv} {S : ClientHs} (hg : S.gm = false) (hs : S.suite ∈ cipherSuites)
    (hsub : ∀ a ∈ S.sigAlgs, a ∈ supportedSignatureAlgorithms) {hellos : List Bytes} {rk rs : Bytes} {items : List Item} {c : ClientSent} {d : ClientDone}
    (h : clientFull K S hellos rk rs items = .ok (c, d)) :
    ∃ (F : Spec.ServerFlight S.gm items c.rest) (G : Spec.Flight c.sent []) (D : Spec.ServerEnd c.rest d.rest) (fb : Bytes),
      Spec.Encodes (.finished G.finished) fb ∧
      serverIdentity K.auth S F.cert.1.certificates = .ok (c.certs, c.chains) ∧
      (∀ leaf rest, c.certs = leaf :: rest → ∃ pre, Spec.StdExchange K S leaf.pub (F.skx.map (·.1)) pre G.ckx.1.ciphertext ∧
        masterFromPreMasterSecret K.auth.hashes S.vers S.suite pre S.clientRandom S.serverRandom = .ok c.master) ∧
      G.finished.verifyData = Spec.clientFinishedData K.auth false S.vers S.suite c.master (G.finishedPart (hellos ++ [F.bytes])) ∧
      D.finished.verifyData = Spec.serverFinishedData K.auth false S.vers S.suite c.master (Spec.serverFinishedPart F G D fb hellos) ∧
      D.ccs = d.switched ∧ D.ticket.isSome = S.ticket ∧ (D.ticket.map fun x => x.1.ticket) = d.ticket := by
  unfold clientFull at h
  obtain ⟨c', hc, h⟩ := Res.bind_eq_ok.1 h
  obtain ⟨d', hd, h⟩ := Res.bind_eq_ok.1 h
  simp only [Res.ok.injEq, Prod.mk.injEq] at h
  obtain ⟨rfl, rfl⟩ := h
  obtain ⟨F, G, h0, f2, fb, leaf, enc, pre, rq, hh0, _, _, hid, _, hka, hs0, hs1, _, _, _, _, hgen, _, _, hms, _, _, hfb, hsum, hfh⟩ := clientFlight_inv hc
  obtain ⟨D, f, hccs, _, htk, htt, hsv⟩ := clientFinish_inv hd
  rw [hfh] at hsv
  obtain ⟨hcf, hsf⟩ := finished_both hh0 hsum hsv
  have hg' : ∀ t, Spec.clientFinishedData K.auth S.gm S.vers S.suite c'.master t = Spec.clientFinishedData K.auth false S.vers S.suite c'.master t ∧
      Spec.serverFinishedData K.auth S.gm S.vers S.suite c'.master t = Spec.serverFinishedData K.auth false S.vers S.suite c'.master t := by
    intro t; rw [hg]; exact ⟨rfl, rfl⟩
  refine ⟨F, G, D, fb, hfb, hid, ?_, hcf.trans (hg' _).1, hsf.trans (hg' _).2, hccs, htk, htt⟩
  intro l r hl
  have hle : leaf = l ∧ enc = l := by
    rw [hl, ClientHs.dual, hg] at hka
    cases r <;> simp [kaCerts] at hka <;> exact ⟨hka.1.symm, hka.2.symm⟩
  obtain ⟨rfl, rfl⟩ := hle
  exact ⟨pre, std_exchange hsub hs hs0 hs1 hgen, hms⟩

/-- **C84.** A standard client that completes the first, full handshake of a connection - whatever the server sends, at any version - received the
messages of `Spec.ServerFlight` and, at the end, of `Spec.ServerEnd`, in this order. Its peer certificates are those the server sent and meet
`Spec.StdServerOk`: verified for the configured name and roots unless verification is switched off. The premaster secret was encrypted to the leaf's RSA key or
agreed with parameters which the leaf's key signed together with both randoms of this handshake; the master secret is derived from it; and the
server's Finished carries the verify data under that master secret over all handshake messages, so the server knows it. -/
theorem C84_full_handshake (K : KaEnv) (S : ClientHs) (hg : S.gm = false) (hprev : S.previous = none) (hs : S.suite ∈ cipherSuites)
    (hsub : ∀ a ∈ S.sigAlgs, a ∈ supportedSignatureAlgorithms) (hellos : List Bytes) (rk rs : Bytes) (items : List Item) (c : ClientSent) (d : ClientDone)
    (h : clientFull K S hellos rk rs items = .ok (c, d)) :
    ∃ (F : Spec.ServerFlight S.gm items c.rest) (G : Spec.Flight c.sent []) (D : Spec.ServerEnd c.rest d.rest) (fb : Bytes),
      Spec.Encodes (.finished G.finished) fb ∧
      Spec.StdServerOk K.auth S F.cert.1.certificates c.certs c.chains ∧
      (∀ leaf rest, c.certs = leaf :: rest → ∃ pre, Spec.StdExchange K S leaf.pub (F.skx.map (·.1)) pre G.ckx.1.ciphertext ∧
        masterFromPreMasterSecret K.auth.hashes S.vers S.suite pre S.clientRandom S.serverRandom = .ok c.master) ∧
      G.finished.verifyData = Spec.clientFinishedData K.auth false S.vers S.suite c.master (G.finishedPart (hellos ++ [F.bytes])) ∧
      D.finished.verifyData = Spec.serverFinishedData K.auth false S.vers S.suite c.master (Spec.serverFinishedPart F G D fb hellos) ∧
      D.ccs = d.switched ∧ D.ticket.isSome = S.ticket ∧ (D.ticket.map fun x => x.1.ticket) = d.ticket := by
  obtain ⟨F, G, D, fb, h1, hid, h2⟩ := std_full hg hs hsub h
  refine ⟨F, G, D, fb, h1, stdServerCerts_inv ?_, h2⟩
  simpa [serverIdentity, hprev, ClientHs.dual, hg] using hid

/-- **C84, corollary.** With verification on, every chain the client reports is a valid chain from the server's leaf certificate to the configured
roots, through certificates the server sent, good for server authentication; and the leaf is for the configured server name. -/
theorem C84_chains_valid (K : KaEnv) (S : ClientHs) (hg : S.gm = false) (hprev : S.previous = none) (hs : S.suite ∈ cipherSuites)
    (hsub : ∀ a ∈ S.sigAlgs, a ∈ supportedSignatureAlgorithms) (hellos : List Bytes) (rk rs : Bytes) (items : List Item) (c : ClientSent) (d : ClientDone)
    (h : clientFull K S hellos rk rs items = .ok (c, d)) (hi : S.insecureSkipVerify = false)
    (roots : X509.Pool) (hr : S.rootCAs = some roots) (hb : X509.Built roots) (hk : X509.KeysParsed roots)
    (leaf : X509.Cert) (rest : List X509.Cert) (hc : c.certs = leaf :: rest) (hp : ∀ c ∈ rest, c.keyAlgUnknown = true → c.pub = .none) :
    c.chains ≠ [] ∧ (S.serverName ≠ [] → X509.verifyHostname K.auth.x509 leaf S.serverName = none) ∧ ∀ ch ∈ c.chains,
      X509.Spec.ValidChain K.auth.x509 K.auth.entrust
        { dnsName := S.serverName, intermediates := some (X509.poolOf rest), roots := S.rootCAs, now := S.now, keyUsages := [] }
        roots (X509.poolOf rest) leaf ch ∧ ∀ c ∈ ch, X509.Spec.Permits c 1 := by
  obtain ⟨F, G, D, fb, _, hok, _⟩ := C84_full_handshake K S hg hprev hs hsub hellos rk rs items c d h
  have hv := hok.verified hi leaf rest hc
  have hkr : X509.KeysParsed (X509.poolOf rest) := by
    intro c hcm
    exact hp c ((X509.C50_set rest).1.subset hcm)
  obtain ⟨s1, s2, s3⟩ := X509.C48_sound K.auth.x509 K.auth.entrust K.auth.system leaf _ roots (by simp [X509.resolveRoots, hr]) ⟨hb, hk⟩
    (by rintro q ⟨⟩; exact ⟨⟨rest, rfl⟩, hkr⟩) (by simp) c.chains hv
  refine ⟨s1, s2, fun ch hch => ?_⟩
  obtain ⟨v, hu⟩ := s3 ch hch
  refine ⟨v, ?_⟩
  rcases hu with hu | ⟨u, hu, hall⟩
  · simp [X509.Spec.Requested] at hu
  · simp only [X509.Spec.Requested, if_true] at hu
    rw [hu] at hall
    exact hall

/-- **C54, identity.** A renegotiation by the standard client completes only if the server presents the leaf certificate of the first handshake;
the reported certificates and chains stay as they were, and the key exchange is authenticated with that leaf's key. -/
theorem C54_same_identity (K : KaEnv) (S : ClientHs) (hg : S.gm = false) (known : List X509.Cert) (chains : List (List X509.Cert))
    (hprev : S.previous = some (known, chains)) (hs : S.suite ∈ cipherSuites)
    (hsub : ∀ a ∈ S.sigAlgs, a ∈ supportedSignatureAlgorithms) (hellos : List Bytes) (rk rs : Bytes) (items : List Item) (c : ClientSent) (d : ClientDone)
    (h : clientFull K S hellos rk rs items = .ok (c, d)) :
    c.certs = known ∧ c.chains = chains ∧
    ∃ (F : Spec.ServerFlight S.gm items c.rest) (G : Spec.Flight c.sent []) (leaf : X509.Cert) (rest : List X509.Cert) (more : List Bytes) (pre : Bytes),
      known = leaf :: rest ∧ F.cert.1.certificates = leaf.raw :: more ∧ Spec.StdExchange K S leaf.pub (F.skx.map (·.1)) pre G.ckx.1.ciphertext ∧
      masterFromPreMasterSecret K.auth.hashes S.vers S.suite pre S.clientRandom S.serverRandom = .ok c.master := by
  obtain ⟨F, G, D, fb, _, hid, hex, _⟩ := std_full hg hs hsub h
  rw [serverIdentity, hprev] at hid
  obtain ⟨he, l, b, r, more, h1, h2, h3⟩ := sameServer_inv hid
  simp only [Prod.mk.injEq] at he
  obtain ⟨pre, e1, e2⟩ := hex l r (he.1.trans h1)
  exact ⟨he.1, he.2, F, G, l, r, more, pre, h1, by rw [h2, h3], e1, e2⟩

/-! ### the GM client -/

namespace Spec

/-- `key` carries a signature by the SM2 key `pub` over both randoms and the encryption certificate `enc` (with its 24-bit length) -/
def GmSigned (c : Sm2.Curve) (pub : X509.Pub) (cr sr enc key : Bytes) : Prop :=
  ∃ x y r s, pub = .sm2 x y ∧ X509.unmarshalPairRest (key.drop 2) = some ((r, s), []) ∧ 0 < r ∧ 0 < s ∧
    Sm2.verify c { x := x, y := y, pre := none } (cr ++ sr ++ (beFixed 3 enc.length ++ enc)) r s = .ok true

/-- The key exchange of the GM client: the premaster secret is encrypted to the second certificate, and a ServerKeyExchange, if there is one, is signed by the
first; or (ECDHE) parameters are signed by the first. -/
def GmExchange (K : KaEnv) (S : ClientHs) (sign enc : X509.Cert) (skx : Option ServerKeyExchangeMsg) (pre body : Bytes) : Prop :=
  (S.suite.ka = .eccGM ∧ (∀ m, skx = some m → GmSigned K.auth.x509.curve sign.pub S.clientRandom S.serverRandom enc.raw m.key) ∧
    ∃ x y r e, enc.pub = .sm2 x y ∧ pre.length = 48 ∧ pre.take 2 = beFixed 2 S.helloVers.toNat ∧
      Sm2.encrypt K.auth.x509.curve r { x := x, y := y, pre := none } pre = some (.ok e) ∧ body = beFixed 2 e.length ++ e) ∨
  (S.suite.ka = .ecdheGM ∧ ∃ m cl point sig r, skx = some m ∧ m.key = ecdhParams cl.curve point ++ [BitVec.ofNat 8 (sig.length / 256), BitVec.ofNat 8 sig.length] ++ sig ∧
    SignedBy K.auth S.vers S.sigAlgs 0 (S.clientRandom ++ S.serverRandom ++ ecdhParams cl.curve point) sig sign.pub ∧
    K.sm2Unmarshal point = some cl.point ∧ cl.publicKey = [] ∧ ecdheGenCKX K (some cl) r = .ok (pre, body))

end Spec

theorem eccProcessSKX_inv {c : Sm2.Curve} {pub : X509.Pub} {cr sr enc key : Bytes} (h : Gm.eccProcessSKX c pub cr sr enc key = .ok ()) :
    Spec.GmSigned c pub cr sr enc key := by
  unfold Gm.eccProcessSKX at h
  split at h
  · cases h
  obtain ⟨n, _, h⟩ := Res.bind_eq_ok.1 h
  split at h
  · cases h
  cases pub with
  | sm2 x y =>
    dsimp only at h
    split at h
    · cases h
    rename_i r s rest hu
    split at h
    · cases h
    rename_i hr
    split at h
    · cases h
    rename_i hpos
    push Not at hpos
    obtain ⟨ok, hv, h⟩ := Res.bind_eq_ok.1 h
    cases ok with
    | false => cases h
    | true =>
      have hrest : rest = [] := List.length_eq_zero_iff.1 (by simpa using hr)
      rw [hrest] at hu
      exact ⟨x, y, r, s, rfl, hu, hpos.1, hpos.2, hv⟩
  | _ => cases h

theorem gm_exchange {K : KaEnv} {S : ClientHs} (hv : S.vers.toNat < vTLS12.toNat) (hs : S.suite ∈ gmCipherSuites)
    {leaf enc : X509.Cert} (hl : ∃ x y, leaf.pub = .sm2 x y) {rk pre body : Bytes} {skx : Option (ServerKeyExchangeMsg × Bytes)} {st : Option EcdheClient}
    (h0 : skx = none → st = none) (h1 : ∀ x, skx = some x → clientProcessSKX K S leaf enc x.1.key = .ok st)
    (hg : clientGenCKX K S st enc rk = .ok (pre, body)) : Spec.GmExchange K S leaf enc (skx.map (·.1)) pre body := by
  have hka : S.suite.ka = .eccGM ∨ S.suite.ka = .ecdheGM := by
    have : gmCipherSuites.all (fun s => s.ka == .eccGM || s.ka == .ecdheGM) = true := by decide +kernel
    have := List.all_eq_true.1 this _ hs
    simpa [or_assoc] using this
  rcases hka with hk | hk
  · left
    refine ⟨hk, ?_, ?_⟩
    · intro m hm
      cases skx with
      | none => cases hm
      | some x =>
        cases hm
        have := h1 x rfl
        simp only [clientProcessSKX, hk] at this
        obtain ⟨u, hu, _⟩ := map_ok_inv this
        exact eccProcessSKX_inv hu
    · simp only [clientGenCKX, hk] at hg
      split at hg
      · rename_i r hr
        subst hg
        obtain ⟨x, y, e, h1, h2, h3, h4, h5⟩ := Gm.eccGenerateCKX_inv rk S.helloVers enc.pub pre body hr
        refine ⟨x, y, rk.drop 46, e, h1, ?_, ?_, h4, h5⟩
        · rw [h3]; simp [h2]
        · rw [h3]
          simp only [List.cons_append, List.nil_append, List.take_succ_cons, List.take_zero]
          exact u16_two _
      · cases hg
  · right
    simp only [clientGenCKX, hk] at hg
    cases skx with
    | none => rw [h0 rfl] at hg; cases hg
    | some x =>
      have hx := h1 x rfl
      simp only [clientProcessSKX, hk] at hx
      obtain ⟨cl, hcl, he⟩ := map_ok_inv hx
      subst he
      obtain ⟨a, b, hab⟩ := hl
      rw [hab] at hcl
      obtain ⟨point, sig, e1, e2, e3, e4⟩ := C82_gm_signed_params K S.vers hv S.sigAlgs a b S.clientRandom S.serverRandom x.1.key cl hcl
      exact ⟨hk, x.1, cl, point, sig, rk, rfl, e1, by rw [hab]; exact e2, e3, e4, hg⟩

theorem two_certs {certs : List X509.Cert} {leaf enc : X509.Cert} (h : kaCerts true certs = .ok (leaf, enc)) :
    certs[0]? = some leaf ∧ certs[1]? = some enc := by
  match certs, h with
  | [_], h => simp [kaCerts] at h
  | a :: b :: r, h =>
    simp only [kaCerts, if_true, Res.ok.injEq, Prod.mk.injEq] at h
    simp [h.1, h.2]

/-- **C46, handshake level.** A GM client (version below 1.2: GM negotiates 0x0101) that completes the first, full handshake of a connection received the server's messages in the
order of `Spec.ServerFlight`, its peer certificates are those sent and meet `Spec.GmServerOk`, the premaster secret is encrypted to the second
certificate, or agreed with ECDHE parameters signed by the first, and the server's Finished proves knowledge of the master secret over the whole transcript.
Missing from the property: with the ECC suites the ServerKeyExchange - and with it the signature - may be left out (`C46_skx_omitted_violated`). -/
theorem C46_handshake_partial (K : KaEnv) (S : ClientHs) (hg : S.gm = true) (h1c : S.single = false) (hv : S.vers.toNat < vTLS12.toNat) (hprev : S.previous = none)
    (hs : S.suite ∈ gmCipherSuites) (hellos : List Bytes) (rk rs : Bytes) (items : List Item) (c : ClientSent) (d : ClientDone)
    (h : clientFull K S hellos rk rs items = .ok (c, d)) :
    ∃ (F : Spec.ServerFlight S.gm items c.rest) (G : Spec.Flight c.sent []) (D : Spec.ServerEnd c.rest d.rest) (fb : Bytes) (sign enc : X509.Cert) (pre : Bytes),
      Spec.Encodes (.finished G.finished) fb ∧
      Spec.GmServerOk K.auth S F.cert.1.certificates c.certs c.chains ∧ F.status = none ∧
      c.certs[0]? = some sign ∧ c.certs[1]? = some enc ∧
      Spec.GmExchange K S sign enc (F.skx.map (·.1)) pre G.ckx.1.ciphertext ∧
      masterFromPreMasterSecret K.auth.hashes S.vers S.suite pre S.clientRandom S.serverRandom = .ok c.master ∧
      G.finished.verifyData = Spec.clientFinishedData K.auth true S.vers S.suite c.master (G.finishedPart (hellos ++ [F.bytes])) ∧
      D.finished.verifyData = Spec.serverFinishedData K.auth true S.vers S.suite c.master (Spec.serverFinishedPart F G D fb hellos) := by
  unfold clientFull at h
  obtain ⟨c', hc, h⟩ := Res.bind_eq_ok.1 h
  obtain ⟨d', hd, h⟩ := Res.bind_eq_ok.1 h
  simp only [Res.ok.injEq, Prod.mk.injEq] at h
  obtain ⟨rfl, rfl⟩ := h
  obtain ⟨F, G, h0, f2, fb, leaf, enc, pre, rq, hh0, _, hl2, hid, hst, hka, hs0, hs1, _, _, _, _, hgen, _, _, hms, _, _, hfb, hsum, hfh⟩ := clientFlight_inv hc
  obtain ⟨D, f, hccs, _, htk, htt, hsv⟩ := clientFinish_inv hd
  rw [hfh] at hsv
  obtain ⟨hcf, hsf⟩ := finished_both hh0 hsum hsv
  have hg' : ∀ t, Spec.clientFinishedData K.auth S.gm S.vers S.suite c'.master t = Spec.clientFinishedData K.auth true S.vers S.suite c'.master t ∧
      Spec.serverFinishedData K.auth S.gm S.vers S.suite c'.master t = Spec.serverFinishedData K.auth true S.vers S.suite c'.master t := by
    intro t; rw [hg]; exact ⟨rfl, rfl⟩
  have hok : Spec.GmServerOk K.auth S F.cert.1.certificates c'.certs c'.chains := by
    apply gmServerCerts_inv (hl2 (by rw [ClientHs.dual, hg, h1c]; rfl))
    simpa [serverIdentity, hprev, ClientHs.dual, hg, h1c] using hid
  rw [ClientHs.dual, hg, h1c] at hka
  obtain ⟨k1, k2⟩ := two_certs hka
  refine ⟨F, G, D, fb, leaf, enc, pre, hfb, hok, ?_, k1, k2, ?_, hms, hcf.trans (hg' _).1, hsf.trans (hg' _).2⟩
  · by_contra hne
    have := (hst hne).1
    rw [hg] at this; cases this
  · exact gm_exchange hv hs (hok.sm2 leaf (List.mem_of_getElem? k1)) hs0 hs1 hgen

/-- **C54, identity**, GM client. -/
theorem C54_gm_same_identity (K : KaEnv) (S : ClientHs) (known : List X509.Cert) (chains : List (List X509.Cert))
    (hprev : S.previous = some (known, chains)) (hellos : List Bytes) (rk rs : Bytes) (items : List Item) (c : ClientSent)
    (h : clientFlight K S hellos rk rs items = .ok c) :
    c.certs = known ∧ c.chains = chains ∧ ∃ (F : Spec.ServerFlight S.gm items c.rest) (leaf : X509.Cert) (rest : List X509.Cert) (more : List Bytes),
      known = leaf :: rest ∧ F.cert.1.certificates = leaf.raw :: more := by
  obtain ⟨F, G, h0, f2, fb, leaf, enc, pre, rq, hh0, _, hl2, hid, _⟩ := clientFlight_inv h
  rw [serverIdentity, hprev] at hid
  obtain ⟨he, l, b, r, more, h1, h2, h3⟩ := sameServer_inv hid
  simp only [Prod.mk.injEq] at he
  exact ⟨he.1, he.2, F, l, r, more, h1, by rw [h2, h3]⟩

/-- **C85** fails: the GM client verifies the server's signature and encryption certificates, and the third one, without any intermediate certificate. If one of the first
three certificates does not verify directly under the roots, the handshake fails, whatever else the server sends. -/
theorem C85_no_intermediates_violated (K : KaEnv) (S : ClientHs) (hg : S.gm = true) (h1c : S.single = false) (hv : S.vers.toNat < vTLS12.toNat) (hprev : S.previous = none)
    (hs : S.suite ∈ gmCipherSuites) (hi : S.insecureSkipVerify = false) (hellos : List Bytes) (rk rs : Bytes) (items : List Item) (cm : CertificateMsg) (more : List Item)
    (hitems : items = .msg (.certificate cm) :: more) (i : Nat) (hi3 : i < 3) (b : Bytes) (hb : cm.certificates[i]? = some b) (x : X509.Cert) (hx : K.auth.parse b = some x)
    (hbad : ∀ ch, X509.verify K.auth.x509 K.auth.entrust K.auth.system x
      { dnsName := S.serverName, intermediates := some (X509.poolOf []), roots := some (S.rootCAs.getD (X509.poolOf [])), now := S.now, keyUsages := [] } ≠ some (.ok ch))
    (c : ClientSent) (d : ClientDone) : clientFull K S hellos rk rs items ≠ .ok (c, d) := by
  intro h
  obtain ⟨F, G, D, fb, sign, enc, pre, _, hok, _⟩ := C46_handshake_partial K S hg h1c hv hprev hs hellos rk rs items c d h
  have hcm : F.cert.1 = cm := by
    have := hitems.symm.trans F.order
    simp only [List.singleton_append, List.cons_append, List.cons.injEq, Item.msg.injEq, Message.certificate.injEq] at this
    exact this.1.symm
  have hci : c.certs[i]? = some x := by
    have hp := hok.parsed
    rw [hcm] at hp
    have key : ∀ (cs : List Bytes) (certs : List X509.Cert) (i : Nat), parseAll K.auth.parse cs = some certs → cs[i]? = some b → certs[i]? = some x := by
      intro cs
      induction cs with
      | nil => intro certs i _ h; cases h
      | cons b' r ih =>
        intro certs i hp hi
        simp only [parseAll, Option.bind_eq_bind, Option.bind_eq_some_iff] at hp
        obtain ⟨c0, hc0, cs', hr, hp⟩ := hp
        cases hp
        cases i with
        | zero =>
          simp only [List.getElem?_cons_zero, Option.some.injEq] at hi ⊢
          subst hi
          rw [hx] at hc0
          exact (Option.some.inj hc0).symm
        | succ i =>
          simp only [List.getElem?_cons_succ] at hi ⊢
          exact ih cs' i hr hi
    exact key _ _ i hp hb
  obtain ⟨ch, h1, _⟩ := hok.verified hi i x hci
  have he : (c.certs.take i).drop 2 = [] := by
    rw [List.drop_eq_nil_iff, List.length_take]
    omega
  rw [he] at h1
  exact hbad ch h1

/-- **C79.** A client that does not allow renegotiation accepts the server's Finished only after a ChangeCipherSpec: under the new keys. -/
theorem C79_finished_under_new_keys_partial (S : ClientHs) (hr : S.renegotiation = false) (c : ClientSent) (items : List Item) (d : ClientDone)
    (h : clientFinish S c items = .ok d) : d.switched = true ∧ ∃ D : Spec.ServerEnd items d.rest, D.ccs = true := by
  obtain ⟨D, f, hccs, hsw, _⟩ := clientFinish_inv h
  exact ⟨hsw hr, D, hccs.trans (hsw hr)⟩

end Verif.Tls
