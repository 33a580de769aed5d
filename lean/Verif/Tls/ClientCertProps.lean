import Verif.Tls.ClientAuthProps
/-!
C86: the client's certificate and its CertificateVerify.
-/
namespace Verif.Tls
open Verif Verif.Tls.Wire

namespace Spec

/-- certificate number `j` of a configured chain, parsed; `Leaf`, if set, stands for the first -/
def certAt (E : AuthEnv) (c : ClientCert) (j : Nat) : Option X509.Cert :=
  match j, c.leaf with
  | 0, some l => if c.chain = [] then none else some l
  | _, _ => c.chain[j]? >>= E.parse

/-- The chain fits a request: it has a certificate issued by one of the names `cas` (or `cas` is empty), and the keys up to it are of a kind asked for. -/
def Fits (E : AuthEnv) (kind : X509.Pub → Prop) (cas : List Bytes) (c : ClientCert) : Prop :=
  ∃ j x, certAt E c j = some x ∧ (cas = [] ∨ x.rawIssuer ∈ cas) ∧ ∀ i, i ≤ j → ∃ y, certAt E c i = some y ∧ kind y.pub

/-- the keys a standard request asks for: certificate types 1 (RSA) and 64 (ECDSA) -/
def KindAsked (r : CertificateRequestMsg) : X509.Pub → Prop
  | .rsa _ => (1 : Byte) ∈ r.certificateTypes
  | .ecdsa _ => (64 : Byte) ∈ r.certificateTypes
  | _ => False

/-- `c` is the first of the configured chains that fits, or there is none and `c` is empty -/
def FirstFit (E : AuthEnv) (kind : X509.Pub → Prop) (cas : List Bytes) (configured : List ClientCert) (c : ClientCert) : Prop :=
  (∃ before after, configured = before ++ c :: after ∧ Fits E kind cas c ∧ ∀ b ∈ before, ¬ Fits E kind cas b) ∨
  (c.chain = [] ∧ ∀ b ∈ configured, ¬ Fits E kind cas b)

/-- The CertificateVerify `(a, sig)` over the handshake messages `t`, made with `key`: the digest of TLS for version and algorithm; at TLS 1.2 the algorithm is one that
the request and the ClientHello list, or, if the request lists none, SHA-1 with the key's kind. -/
def Signs (E : AuthEnv) (S : ClientHs) (key : Signer) (algs : List U16) (rand : Bytes) (t : Bytes) (a : U16) (sig : Bytes) : Prop :=
  (S.gm = true ∧ key.sign rand .sm2 .sha1 (sm3.sum t) = .ok sig) ∨
  (S.gm = false ∧ ∃ ty h b, key.sign rand ty h (signedDigest E false S.vers b (decide (ty = .ecdsa)) [] t) = .ok sig ∧
    (vTLS12.toNat ≤ S.vers.toNat → a = b ∧ h = schemeHash a ∧ (algs = [] ∨ a ∈ algs ∧ a ∈ S.sigAlgs)) ∧
    ((∃ k, key.pub = .rsa k ∧ ty = .pkcs1v15 ∧ (S.vers.toNat < vTLS12.toNat → h = .md5sha1)) ∨ (∃ k, key.pub = .ecdsa k ∧ ty = .ecdsa) ∨ (∃ x y, key.pub = .sm2 x y)))

end Spec

theorem chainFits_inv {E : AuthEnv} {fits : X509.Pub → Bool} {cas : List Bytes} {c : ClientCert} :
    ∀ (l : List Bytes) (j : Nat) (ok : Bool), c.chain.drop j = l → chainFits E.parse fits cas c.leaf j l = .ok ok →
      (ok = true ↔ ∃ k x, j ≤ k ∧ Spec.certAt E c k = some x ∧ (cas = [] ∨ x.rawIssuer ∈ cas) ∧
        ∀ i, j ≤ i → i ≤ k → ∃ y, Spec.certAt E c i = some y ∧ fits y.pub = true) := by
  intro l
  induction l with
  | nil =>
    intro j ok hd h
    simp only [chainFits, Res.ok.injEq] at h
    subst h
    simp only [Bool.false_eq_true, false_iff]
    rintro ⟨k, x, hjk, hx, _⟩
    have hlen : c.chain.length ≤ j := List.drop_eq_nil_iff.1 hd
    have hnone : c.chain[k]? = none := List.getElem?_eq_none (by omega)
    unfold Spec.certAt at hx
    split at hx
    · have : c.chain = [] := List.length_eq_zero_iff.1 (by omega)
      rw [if_pos this] at hx; cases hx
    · rw [hnone] at hx; cases hx
  | cons b r ih =>
    intro j ok hd h
    have hjl : j < c.chain.length := by
      by_contra hn
      rw [List.drop_eq_nil_iff.2 (by omega)] at hd
      cases hd
    have hb : c.chain[j]? = some b := by
      have := congrArg (fun l => l[0]?) hd
      simpa using this
    have hr : c.chain.drop (j + 1) = r := by
      rw [← List.drop_drop, hd]; rfl
    have hne : c.chain ≠ [] := by intro he; rw [he] at hjl; simp at hjl
    unfold chainFits at h
    obtain ⟨x, hx, h⟩ := Res.bind_eq_ok.1 h
    have hat : Spec.certAt E c j = some x := by
      cases hlf : c.leaf with
      | some lf =>
        rw [hlf] at hx
        dsimp only at hx
        by_cases hj : j = 0
        · subst hj
          simp only [if_pos, Res.ok.injEq] at hx
          simp [Spec.certAt, hlf, hne, hx]
        · simp only [hj, if_false] at hx
          split at hx
          · rename_i y hy
            simp only [Res.ok.injEq] at hx
            subst hx
            unfold Spec.certAt
            split
            · exact absurd rfl hj
            · rw [hb]; exact hy
          · cases hx
      | none =>
        rw [hlf] at hx
        dsimp only at hx
        split at hx
        · rename_i y hy
          simp only [Res.ok.injEq] at hx
          subst hx
          have : Spec.certAt E c j = c.chain[j]? >>= E.parse := by
            unfold Spec.certAt
            rw [hlf]
            cases j <;> rfl
          rw [this, hb]
          exact hy
        · cases hx
    split at h
    · rename_i hf
      simp only [Res.ok.injEq] at h
      subst h
      simp only [Bool.false_eq_true, false_iff]
      rintro ⟨k, x', hjk, _, _, hall⟩
      obtain ⟨y, hy, hyf⟩ := hall j (by omega) hjk
      rw [hat] at hy
      cases hy
      rw [hf] at hyf; cases hyf
    · rename_i hf
      have hf' : fits x.pub = true := by simpa using hf
      split at h
      · rename_i hc
        simp only [Res.ok.injEq] at h
        subst h
        simp only [true_iff]
        refine ⟨j, x, le_refl _, hat, ?_, fun i h1 h2 => ?_⟩
        · rcases hc with hc | hc
          · exact .inl (List.length_eq_zero_iff.1 hc)
          · exact .inr hc
        · have : i = j := by omega
          subst this
          exact ⟨x, hat, hf'⟩
      · rename_i hc
        have hi := ih (j + 1) ok hr h
        rw [hi]
        constructor
        · rintro ⟨k, x', h1, h2, h3, h4⟩
          refine ⟨k, x', by omega, h2, h3, fun i hi1 hi2 => ?_⟩
          by_cases he : i = j
          · subst he; exact ⟨x, hat, hf'⟩
          · exact h4 i (by omega) hi2
        · rintro ⟨k, x', h1, h2, h3, h4⟩
          by_cases he : k = j
          · subst he
            rw [hat] at h2
            cases h2
            exfalso
            apply hc
            rcases h3 with h3 | h3
            · exact .inl (by rw [h3]; rfl)
            · exact .inr h3
          · exact ⟨k, x', by omega, h2, h3, fun i hi1 hi2 => h4 i (by omega) hi2⟩

theorem findCert_inv {E : AuthEnv} {fits : X509.Pub → Bool} {kind : X509.Pub → Prop} (hk : ∀ p, fits p = true ↔ kind p) {cas : List Bytes}
    {certs : List ClientCert} {c : ClientCert} (h : findCert E.parse fits cas certs = .ok c) : Spec.FirstFit E kind cas certs c := by
  have key : ∀ (cc : ClientCert) (ok : Bool), chainFits E.parse fits cas cc.leaf 0 cc.chain = .ok ok → (ok = true ↔ Spec.Fits E kind cas cc) := by
    intro cc ok hh
    rw [chainFits_inv cc.chain 0 ok rfl hh]
    unfold Spec.Fits
    constructor
    · rintro ⟨k, x, _, h2, h3, h4⟩
      exact ⟨k, x, h2, h3, fun i hi => by obtain ⟨y, a, b⟩ := h4 i (by omega) hi; exact ⟨y, a, (hk _).1 b⟩⟩
    · rintro ⟨k, x, h2, h3, h4⟩
      exact ⟨k, x, by omega, h2, h3, fun i _ hi => by obtain ⟨y, a, b⟩ := h4 i hi; exact ⟨y, a, (hk _).2 b⟩⟩
  induction certs with
  | nil =>
    simp only [findCert, Res.ok.injEq] at h
    subst h
    exact .inr ⟨rfl, by simp⟩
  | cons cc r ih =>
    unfold findCert at h
    obtain ⟨ok, hok, h⟩ := Res.bind_eq_ok.1 h
    have hk' := key cc ok hok
    split at h
    · rename_i ho
      simp only [Res.ok.injEq] at h
      subst h
      exact .inl ⟨[], r, rfl, hk'.1 ho, by simp⟩
    · rename_i ho
      have hn : ¬ Spec.Fits E kind cas cc := fun hf => ho (hk'.2 hf)
      rcases ih h with ⟨be, af, e, hf, hb⟩ | ⟨e, hb⟩
      · refine .inl ⟨cc :: be, af, by rw [e]; rfl, hf, fun b hbm => ?_⟩
        rcases List.mem_cons.1 hbm with rfl | hbm
        · exact hn
        · exact hb b hbm
      · refine .inr ⟨e, fun b hbm => ?_⟩
        rcases List.mem_cons.1 hbm with rfl | hbm
        · exact hn
        · exact hb b hbm

theorem stdFits_kind (r : CertificateRequestMsg) (p : X509.Pub) :
    stdFits (decide ((1 : Byte) ∈ r.certificateTypes)) (decide ((64 : Byte) ∈ r.certificateTypes)) p = true ↔ Spec.KindAsked r p := by
  cases p <;> simp [stdFits, Spec.KindAsked]

theorem gmFits_kind (p : X509.Pub) : gmFits p = true ↔ ∃ x y, p = .sm2 x y := by
  cases p <;> simp [gmFits]

theorem stdGetCertificate_inv {E : AuthEnv} {S : ClientHs} {r : CertificateRequestMsg} {c : ClientCert} (hn : S.getClientCertificate = none)
    (h : stdGetCertificate E S r = .ok (some c)) : Spec.FirstFit E (Spec.KindAsked r) r.certificateAuthorities S.certificates c := by
  unfold stdGetCertificate at h
  rw [hn] at h
  dsimp only at h
  split at h
  · rename_i hna
    simp only [Res.ok.injEq, Option.some.injEq] at h
    subst h
    refine .inr ⟨rfl, ?_⟩
    rintro b _ ⟨j, x, _, _, hall⟩
    obtain ⟨y, _, hy⟩ := hall 0 (by omega)
    simp only [decide_eq_false_iff_not] at hna
    cases hp : y.pub <;> rw [hp] at hy <;> simp only [Spec.KindAsked] at hy
    · exact hna.1 hy
    · exact hna.2 hy
  · obtain ⟨c', hc, he⟩ := map_ok_inv h
    cases he
    exact findCert_inv (stdFits_kind r) hc

theorem gmGetCertificate_inv {E : AuthEnv} {S : ClientHs} {r : CertificateRequestMsgGM} {c : ClientCert} (hn : S.getClientCertificate = none)
    (h : gmGetCertificate E S r = .ok (some c)) : Spec.FirstFit E (fun p => ∃ x y, p = .sm2 x y) r.certificateAuthorities S.certificates c := by
  unfold gmGetCertificate at h
  rw [hn] at h
  dsimp only at h
  obtain ⟨c', hc, he⟩ := map_ok_inv h
  cases he
  exact findCert_inv gmFits_kind hc

/-- a chain found without certificates is empty -/
theorem noCerts_empty {E : AuthEnv} {S : ClientHs} (hn : S.noCerts = true) {m : Message} {q : Requested} {cc : ClientCert} (ha : Answers E S m q) (hc : q.cert = some cc) :
    cc.chain = [] := by
  unfold ClientHs.noCerts at hn
  rw [Bool.and_eq_true, List.isEmpty_iff, Option.isNone_iff_eq_none] at hn
  obtain ⟨h1, h2⟩ := hn
  have key : ∀ (k : X509.Pub → Prop) (cas : List Bytes), Spec.FirstFit E k cas S.certificates cc → cc.chain = [] := by
    rintro k cas (⟨be, af, e, _⟩ | ⟨e, _⟩)
    · rw [h1] at e
      simp at e
    · exact e
  rcases ha with ⟨_, r, _, hr, _⟩ | ⟨_, r, _, hr⟩
  · rw [hc] at hr; exact key _ _ (stdGetCertificate_inv h2 hr)
  · rw [hc] at hr; exact key _ _ (gmGetCertificate_inv h2 hr)

theorem makeCertVerify_inv {E : AuthEnv} {S : ClientHs} (hsub : ∀ a ∈ S.sigAlgs, a ∈ supportedSignatureAlgorithms) {h0 : FinishedHash} (hh0 : S.newHash E = .ok h0) {key : Signer} {algs : List U16} {rand t : Bytes} {w : CertificateVerifyMsg}
    (h : makeCertVerify E S key algs rand (h0.app t) = .ok w) : Spec.Signs E S key algs rand t w.signatureAlgorithm w.signature := by
  unfold makeCertVerify at h
  by_cases hg : S.gm = true
  · rw [if_pos hg] at h
    left
    refine ⟨hg, ?_⟩
    unfold gmCertVerify at h
    obtain ⟨sig, hs, h⟩ := Res.bind_eq_ok.1 h
    simp only [Res.ok.injEq] at h
    subst h
    have : h0 = newFinishedHashGM := by
      unfold ClientHs.newHash at hh0
      rw [if_pos hg] at hh0
      simp only [Res.ok.injEq] at hh0
      exact hh0.symm
    subst this
    exact hs
  · rw [if_neg hg] at h
    right
    have hg' : S.gm = false := by simpa using hg
    refine ⟨hg', ?_⟩
    unfold stdCertVerify at h
    obtain ⟨⟨a, ty, hid⟩, hp, h⟩ := Res.bind_eq_ok.1 h
    dsimp only at h
    obtain ⟨D, hD, h⟩ := Res.bind_eq_ok.1 h
    obtain ⟨sig, hs, h⟩ := Res.bind_eq_ok.1 h
    simp only [Res.ok.injEq] at h
    subst h
    have hdig := digest_spec (S := S.asServer) hh0 t _ _ _ _ _ hD
    -- what was picked
    have hpick : (vTLS12.toNat ≤ S.vers.toNat → hid = Spec.schemeHash a ∧ (algs = [] ∨ a ∈ algs ∧ a ∈ S.sigAlgs)) ∧
        ((∃ k, key.pub = .rsa k ∧ ty = .pkcs1v15 ∧ (S.vers.toNat < vTLS12.toNat → hid = .md5sha1)) ∨ (∃ k, key.pub = .ecdsa k ∧ ty = .ecdsa) ∨ (∃ x y, key.pub = .sm2 x y)) := by
      unfold pickSignatureAlgorithmFull at hp
      split at hp
      · rename_i hor
        have hempty : vTLS12.toNat ≤ S.vers.toNat → algs = [] := fun hge => by
          rcases hor with hor | hor
          · omega
          · exact List.length_eq_zero_iff.1 hor
        cases hpub : key.pub with
        | rsa k =>
          rw [hpub] at hp
          dsimp only at hp
          split at hp
          · rename_i hlt
            simp only [Res.ok.injEq, Prod.mk.injEq] at hp
            obtain ⟨rfl, rfl, rfl⟩ := hp
            exact ⟨fun hge => absurd hlt (by omega), .inl ⟨k, rfl, rfl, fun _ => rfl⟩⟩
          · rename_i hlt
            simp only [Res.ok.injEq, Prod.mk.injEq] at hp
            obtain ⟨rfl, rfl, rfl⟩ := hp
            exact ⟨fun hge => ⟨by decide, .inl (hempty hge)⟩, .inl ⟨k, rfl, rfl, fun h' => absurd h' hlt⟩⟩
        | ecdsa k =>
          rw [hpub] at hp
          simp only [Res.ok.injEq, Prod.mk.injEq] at hp
          obtain ⟨rfl, rfl, rfl⟩ := hp
          exact ⟨fun hge => ⟨by decide, .inl (hempty hge)⟩, .inr (.inl ⟨k, rfl, rfl⟩)⟩
        | sm2 x y =>
          rw [hpub] at hp
          simp only [Res.ok.injEq, Prod.mk.injEq] at hp
          obtain ⟨rfl, rfl, rfl⟩ := hp
          exact ⟨fun hge => ⟨by decide, .inl (hempty hge)⟩, .inr (.inr ⟨x, y, rfl⟩)⟩
        | dsa k => rw [hpub] at hp; cases hp
        | none => rw [hpub] at hp; cases hp
      · rename_i hno
        obtain ⟨p1, p2, p3, p4, p5⟩ := pickLoopFull_fst hp
        have hge : vTLS12.toNat ≤ S.vers.toNat := by
          by_contra hlt; exact hno (.inl (by omega))
        obtain ⟨kind, hkd, hsch, hl, hsig⟩ := supported_schemes a (hsub a p2)
        rw [hl] at p3
        simp only [Option.some.injEq] at p3
        refine ⟨fun _ => ⟨p3.symm, .inr ⟨p1, p2⟩⟩, ?_⟩
        rcases p5 with ⟨k, e, ht⟩ | ⟨k, e, ht⟩ | ⟨x, y, e, ht⟩
        · refine .inl ⟨k, e, ?_, fun h' => absurd h' (by omega)⟩
          rw [p4, hsig] at ht
          rw [p4, hsig]
          rcases hkd with rfl | rfl
          · rfl
          · simp at ht
        · exact .inr (.inl ⟨k, e, ht⟩)
        · exact .inr (.inr ⟨x, y, e⟩)
    refine ⟨ty, hid, a, ?_, fun hge => ?_, hpick.2⟩
    · dsimp only
      rw [← hs]
      congr 1
      rw [hdig]
      unfold Spec.signedDigest
      rw [if_neg (by simp), if_neg (show ¬ S.asServer.gm = true from hg)]
      show _ = if S.vers = vTLS12 then _ else if S.vers = vSSL30 then _ else if decide (ty = .ecdsa) = true ∨ S.vers = vGMSSL then _ else _
      by_cases h12 : S.vers = vTLS12
      · rw [if_pos h12, if_pos h12, (hpick.1 (by rw [h12])).1]
      · rw [if_neg h12, if_neg h12]
    · obtain ⟨e1, e2⟩ := hpick.1 hge
      dsimp only
      rw [if_pos hge]
      exact ⟨rfl, e1, e2⟩

/-- **C86.** A client that gets through its part of a full handshake sends a Certificate message exactly if the server asked; the chain in it is what the callback
returned or, without callback, the first configured chain that fits the request - and none only if none fits. With a non-empty chain, and only then, it proves
possession of that chain's key: a signature over all handshake messages so far. -/
theorem C86_client_certificate (K : KaEnv) (S : ClientHs) (hsub : ∀ a ∈ S.sigAlgs, a ∈ supportedSignatureAlgorithms) (hellos : List Bytes) (rk rs : Bytes) (items : List Item)
    (c : ClientSent) (h : clientFlight K S hellos rk rs items = .ok c) :
    ∃ (F : Spec.ServerFlight S.gm items c.rest) (G : Spec.Flight c.sent []),
      (G.cert = none ↔ F.req = none) ∧ (G.verify = none ↔ Spec.sentCerts G.cert = []) ∧
      (∀ x, F.req = some x → ∃ cc algs, Spec.sentCerts G.cert = cc.chain ∧
        (∀ r, x.1 = .certificateRequest r → algs = r.supportedSignatureAlgorithms ∧
          (S.getClientCertificate = none → Spec.FirstFit K.auth (Spec.KindAsked r) r.certificateAuthorities S.certificates cc) ∧
          (∀ f, S.getClientCertificate = some f → ∃ schemes, f r.certificateAuthorities schemes = .ok (some cc))) ∧
        (∀ r, x.1 = .certificateRequestGM r →
          (S.getClientCertificate = none → Spec.FirstFit K.auth (fun p => ∃ a b, p = .sm2 a b) r.certificateAuthorities S.certificates cc) ∧
          (∀ f, S.getClientCertificate = some f → ∃ schemes, f r.certificateAuthorities schemes = .ok (some cc))) ∧
        (∀ v, G.verify = some v → ∃ key, cc.key = some key ∧
          Spec.Signs K.auth S key algs rs (G.signedPart (hellos ++ [F.bytes])) v.1.signatureAlgorithm v.1.signature)) := by
  obtain ⟨F, G, h0, f2, fb, leaf, enc, pre, rq, hh0, _, _, _, _, _, _, _, hr0, hr1, hc0, hc1, _, hv0, hv1, _⟩ := clientFlight_inv h
  have hrq : rq = none ↔ F.req = none := by
    constructor
    · intro hn
      cases hreq : F.req with
      | none => rfl
      | some x => obtain ⟨q, hq, _⟩ := hr1 x hreq; rw [hn] at hq; cases hq
    · exact hr0
  refine ⟨F, G, hc0.trans hrq, ?_, ?_⟩
  · constructor
    · intro hn
      cases hq : rq with
      | none => rw [hc0.2 hq]; rfl
      | some q =>
        obtain ⟨cc, e1, e2⟩ := hc1 q hq
        rw [e2]
        by_contra hne
        exact hv0.2 ⟨q, cc, hq, e1, hne⟩ hn
    · intro he
      by_contra hne
      obtain ⟨q, cc, e1, e2, e3⟩ := hv0.1 hne
      obtain ⟨cc', e4, e5⟩ := hc1 q e1
      rw [e2] at e4
      cases e4
      exact e3 (e5.symm.trans he)
  · intro x hx
    obtain ⟨q, hq, ha⟩ := hr1 x hx
    obtain ⟨cc, e1, e2⟩ := hc1 q hq
    refine ⟨cc, q.algs, e2, ?_, ?_, ?_⟩
    · intro r hr
      rcases ha with ⟨_, r', h1, h2, h3⟩ | ⟨_, r', h1, _⟩
      · rw [hr] at h1
        cases h1
        refine ⟨h3, fun hn => stdGetCertificate_inv hn (by rw [h2, e1]), fun f hf => ?_⟩
        unfold stdGetCertificate at h2
        rw [hf] at h2
        dsimp only at h2
        exact ⟨_, by rw [h2, e1]⟩
      · rw [hr] at h1; cases h1
    · intro r hr
      rcases ha with ⟨_, r', h1, _⟩ | ⟨_, r', h1, h2⟩
      · rw [hr] at h1; cases h1
      · rw [hr] at h1
        cases h1
        refine ⟨fun hn => gmGetCertificate_inv hn (by rw [h2, e1]), fun f hf => ?_⟩
        unfold gmGetCertificate at h2
        rw [hf] at h2
        dsimp only at h2
        exact ⟨_, by rw [h2, e1]⟩
    · intro v hv
      obtain ⟨q', cc', key, w, w1, w2, w3, w4, w5, w6⟩ := hv1 v hv
      rw [hq] at w1
      cases w1
      rw [e1] at w2
      cases w2
      have hnc : S.noCerts = false := by
        cases hn : S.noCerts with
        | false => rfl
        | true =>
          exfalso
          have he := noCerts_empty hn ha e1
          obtain ⟨q'', c'', a1, a2, a3⟩ := hv0.1 (by rw [hv]; simp)
          rw [hq] at a1
          cases a1
          rw [e1] at a2
          cases a2
          exact a3 he
      rw [hnc, if_neg (by simp)] at w4
      refine ⟨key, w3, ?_⟩
      rw [w5, w6]
      exact makeCertVerify_inv hsub hh0 w4

end Verif.Tls
