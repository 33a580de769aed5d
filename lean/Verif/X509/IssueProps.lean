import Verif.X509.CertProps
import Verif.X509.Prefix
import Verif.X509.Complete
import Verif.Tls.GmKeyAgreement
/-!
C99–C103: issued certificates verify; what is signed determines what is read; unknown critical extensions; issuing and verifying end to end.
-/
namespace Verif.X509
open Verif Asn1 Sm2

/-! ## C99: an issued certificate verifies under its issuer -/

/-- a signature made by an SM2 key through `crypto.Signer` is accepted for its public key, whatever SM2 algorithm is named -/
theorem signed_checks {G : Type} [AddCommGroup G] (E : Env) (L : Lawful E.curve G) (priv : PrivateKey E.curve) (d : Nat) (h : L.PrivOf priv d)
    (hd : (d + 1) % N ≠ 0) (rand msg sig : Bytes) (hs : privSign E.curve rand priv msg = .ok sig)
    (hnz : ∀ r s, sign E.curve rand priv msg = .ok (r, s) → r ≠ 0 ∧ s ≠ 0 ∧ (r + s).toNat % N ∉ L.bad) :
    ∃ r s : Int, unmarshalPairRest sig = some ((r, s), []) ∧ 0 < r ∧ 0 < s ∧
      Sm2.verify E.curve { x := priv.x, y := priv.y, pre := none } msg r s = .ok true := by
  unfold privSign at hs
  obtain ⟨⟨r, s⟩, hs, he⟩ := Res.bind_eq_ok.1 hs
  simp only [Res.ok.injEq] at he
  obtain ⟨n1, n2, n3⟩ := hnz r s hs
  obtain ⟨g1, g2⟩ := sign_range rand priv _ r s hs
  have hN := N_lt
  have hu := Gm.unmarshalPairRest_marshal r s (by omega) (by omega)
  rw [he] at hu
  have hpub : L.PubOf { x := priv.x, y := priv.y, pre := none } (d • L.g) := ⟨h.pub.ne, h.pub.x, h.pub.y, Or.inl rfl⟩
  have hv := C10_sign_verifies L priv d h hd rand _ r s hs n1 n2 _ hpub (Or.inr n3)
  exact ⟨r, s, hu, by omega, by omega, hv⟩

/-- a certificate that may sign others: it says it is a CA (or is too old to say), and its key usage, if any, has bit 5 -/
def MaySign (p : Cert) : Prop :=
  ((p.basicConstraintsValid = true ∧ p.isCA = true) ∨ (p.basicConstraintsValid = false ∧ p.version ≠ 3)) ∧
    (p.keyUsage = 0 ∨ p.keyUsage.testBit 5 = true)

/-- the signature does not hit the cases in which the code does not follow the standard (C10, C13): a zero half, or a sum of the halves
that plain `ScalarMult` gets wrong -/
def GoodNonce {G : Type} [AddCommGroup G] {c : Curve} (L : Lawful c G) (rand : Bytes) (priv : PrivateKey c) (msg : Bytes) : Prop :=
  ∀ r s, sign c rand priv msg = .ok (r, s) → r ≠ 0 ∧ s ≠ 0 ∧ (r + s).toNat % N ∉ L.bad

theorem sm2_alg_ok {req : Alg} (h : algKey (chosenAlg (.sm2 true) req) = kindKey (.sm2 true)) :
    chosenAlg (.sm2 true) req ≠ .md2RSA ∧ chosenAlg (.sm2 true) req ≠ .md5RSA ∧ chosenAlg (.sm2 true) req ≠ .unknown := by
  revert h
  cases req <;> decide

/-- C99: a certificate issued with an SM2 key verifies under every certificate that carries the issuer's public key and may sign:
`CreateCertificate` by the key of `parent`, then `ParseCertificate`, then `CheckSignatureFrom(parent)` returns no error, for every template,
every SM2 algorithm named, and all randomness (but the cases C10 excludes). -/
theorem C99_issued_verifies {G : Type} [AddCommGroup G] (E : Env) (L : Lawful E.curve G) (priv : PrivateKey E.curve) (d : Nat)
    (h : L.PrivOf priv d) (hd : (d + 1) % N ≠ 0) (PE : ParseEnv) (time : Int → Res Bytes) (hT : TimeLaw PE time) (r : Request) (rand : Bytes)
    (x y : Nat) (der cn cn' : Bytes) (hkey : Keys.OnCurve x y)
    (hc : createCertificate time r (.sm2 true) (sm2Signer E.curve rand priv) (marshalSM2 x y) = .ok der) (hlen : der.length < 2 ^ 31)
    (ht : Template r.fields) (hx : ∀ e ∈ r.extra, e.id ∉ recognised ∧ OIDok e.id) (hs : Name PE r.subject cn) (hi : Name PE r.issuer cn')
    (hnz : ∀ c, parse PE der = some c → GoodNonce L rand priv c.cert.rawTBS)
    (parent : Cert) (hp : parent.pub = .sm2 priv.x priv.y) (hk : parent.keyAlgUnknown = false) (hm : MaySign parent) (entrust : Bytes) :
    ∃ c, parse PE der = some c ∧ checkSignatureFrom E entrust c.cert parent = none := by
  obtain ⟨c, hpar, h1, h2, h3, h4, h5, h6, h7, h8, h9, h10, h11, h12, h13, h14, h15, h16⟩ :=
    C98_create_parse PE time hT r (.sm2 true) _ x y der cn cn' hkey hc hlen ht hx hs hi
  refine ⟨c, hpar, (signed_iff E entrust c.cert parent (by rw [hk]; intro h; cases h)).2 ⟨?_, hm.2, ?_, ?_⟩⟩
  · rcases hm.1 with h | h
    · exact .inr (.inl h)
    · exact .inr (.inr h)
  · rw [h9]
    have hsp : ∃ z, signingParams (.sm2 true) r.sigAlg = .ok z := by
      unfold createCertificate at hc
      obtain ⟨z, hz, _⟩ := Res.bind_eq_ok.1 hc
      exact ⟨z, hz⟩
    exact sm2_alg_ok ((C97_algorithm_available _ _).1 hsp).2.1
  · rw [hp]
    exact signed_checks E L priv d h hd rand c.cert.rawTBS c.cert.signature h15 (hnz c hpar)

/-- C99 on the real curve, for generated keys -/
theorem C99_amd64 (E : Env) (hE : E.curve = Amd64.sm2Curve) (rk rand : Bytes) (priv : PrivateKey Amd64.sm2Curve)
    (hgk : generateKey Amd64.sm2Curve rk = .ok priv) (hd : priv.d ≠ (N : Int) - 1)
    (PE : ParseEnv) (time : Int → Res Bytes) (hT : TimeLaw PE time) (r : Request)
    (x y : Nat) (der cn cn' : Bytes) (hkey : Keys.OnCurve x y)
    (hc : createCertificate time r (.sm2 true) (sm2Signer Amd64.sm2Curve rand priv) (marshalSM2 x y) = .ok der) (hlen : der.length < 2 ^ 31)
    (ht : Template r.fields) (hx : ∀ e ∈ r.extra, e.id ∉ recognised ∧ OIDok e.id) (hs : Name PE r.subject cn) (hi : Name PE r.issuer cn')
    (hnz : ∀ c, parse PE der = some c → ∀ r s, sign Amd64.sm2Curve rand priv c.cert.rawTBS = .ok (r, s) →
      r ≠ 0 ∧ s ≠ 0 ∧ (r + s).toNat % N ≠ N - 6)
    (parent : Cert) (hp : parent.pub = .sm2 priv.x priv.y) (hk : parent.keyAlgUnknown = false) (hm : MaySign parent) (entrust : Bytes) :
    ∃ c, parse PE der = some c ∧ checkSignatureFrom E entrust c.cert parent = none := by
  obtain ⟨cv, e1, e2, e3, e4⟩ := E
  simp only at hE
  subst hE
  obtain ⟨d, h1, h2, hP⟩ := C10_generated_keys Amd64.sm2Lawful rk priv hgk
  have hsc := hP.scalar
  have hd' : (d + 1) % N ≠ 0 := by
    rw [Nat.mod_eq_of_lt (by omega)]; omega
  refine C99_issued_verifies ⟨_, e1, e2, e3, e4⟩ Amd64.sm2Lawful priv d hP hd' PE time hT r rand x y der cn cn' hkey hc hlen ht hx hs hi ?_
    parent hp hk hm entrust
  intro c hpar r s hsg
  obtain ⟨a, b, c⟩ := hnz c hpar r s hsg
  refine ⟨a, b, ?_⟩
  show (r + s).toNat % N ∉ ({N - 6} : Set Nat)
  simpa using c

/-! ## C104: the algorithm a certificate names -/

/-- C104 is false of the code: for an SM2 key every algorithm name but MD2, MD5 and the unknown one gives the same check, the SM2
signature with SM3. A certificate that names SM2 with SHA-1, or RSA with SHA-256, and is signed with SM2 and SM3, is accepted. -/
theorem C104_algorithm_label_violated (E : Env) (a : Alg) (h : a ≠ .md2RSA ∧ a ≠ .md5RSA ∧ a ≠ .unknown) (signed signature : Bytes) (x y : Nat) :
    checkSignature E a signed signature (.sm2 x y) = checkSignature E .sm2Sm3 signed signature (.sm2 x y) := by
  unfold checkSignature
  rw [if_neg (by rintro (e | e); exact h.1 e; exact h.2.1 e), if_neg h.2.2, if_neg (by decide), if_neg (by decide)]

/-- C104: and the signer does the same: the signature it makes does not depend on the SM2 algorithm named -/
theorem C104_signer_label_violated (c : Curve) (rand : Bytes) (priv : PrivateKey c) (h h' : HashId) (tbs : Bytes) :
    sm2Signer c rand priv h tbs = sm2Signer c rand priv h' tbs := rfl

/-- C104, the part that holds: the three names that are refused -/
theorem C104_refused_partial (E : Env) (signed signature : Bytes) (p : Pub) :
    checkSignature E .md2RSA signed signature p ≠ none ∧ checkSignature E .md5RSA signed signature p ≠ none ∧
      checkSignature E .unknown signed signature p ≠ none := by
  refine ⟨?_, ?_, ?_⟩ <;> simp [checkSignature]

/-! ## C100: the signed bytes determine what is read -/

theorem parseRawCert_inv {E : ParseEnv} {b rest : Bytes} {c : RawCert} (h : parseRawCert E b = some (c, rest)) :
    b = c.raw ++ rest ∧ (∃ t : Elem, t.full = c.tbs.raw ∧ seqField t.full = some (t, []) ∧ parseTbs E t.full t.body = some c.tbs) ∧
      ∃ pre post, c.raw = pre ++ c.tbs.raw ++ post := by
  unfold parseRawCert at h
  obtain ⟨⟨e, r⟩, he, h⟩ := Option.bind_eq_some_iff.1 h
  obtain ⟨⟨t, cc⟩, ht, h⟩ := Option.bind_eq_some_iff.1 h
  obtain ⟨tbs, htbs, h⟩ := Option.bind_eq_some_iff.1 h
  obtain ⟨⟨a, c2⟩, ha, h⟩ := Option.bind_eq_some_iff.1 h
  obtain ⟨⟨s, c3⟩, hs, h⟩ := Option.bind_eq_some_iff.1 h
  simp only [Option.some.injEq, Prod.mk.injEq] at h
  obtain ⟨rfl, rfl⟩ := h
  obtain ⟨h1, h2⟩ := seqField_inv he
  obtain ⟨h3, h4⟩ := seqField_inv ht
  have hraw : tbs.raw = t.full := by
    unfold parseTbs at htbs
    simp only [Option.bind_eq_bind, Option.bind_eq_some_iff] at htbs
    obtain ⟨_, _, _, _, _, _, _, _, _, _, _, _, _, _, _, _, _, _, _, _, h⟩ := htbs
    simp only [Option.some.injEq] at h
    rw [← h]
  refine ⟨h1, ⟨t, hraw.symm, ?_, htbs⟩, ?_⟩
  · have := h4 []
    rwa [List.append_nil] at this
  · obtain ⟨pre, hpre⟩ := elem_body_suffix (seqField_elem he)
    refine ⟨pre, cc, ?_⟩
    show e.full = _
    rw [hpre, h3, hraw, List.append_assoc]

/-- C100: `Raw` of a parsed certificate is the input, and `RawTBSCertificate` is a part of it -/
theorem C100_raw (E : ParseEnv) (der : Bytes) (c : Certificate) (h : parse E der = some c) :
    c.cert.raw = der ∧ ∃ pre post, der = pre ++ c.cert.rawTBS ++ post := by
  unfold parse at h
  split at h
  · rename_i rc hrc
    obtain ⟨h1, _, h3⟩ := parseRawCert_inv hrc
    rw [List.append_nil] at h1
    have hc : c.cert.raw = rc.raw ∧ c.cert.rawTBS = rc.tbs.raw := by
      unfold parseCertificate at h
      simp only [Option.bind_eq_bind, Option.bind_eq_some_iff] at h
      obtain ⟨_, _, _, _, _, _, _, _, h⟩ := h
      simp only [Option.some.injEq] at h
      rw [← h]
      exact ⟨rfl, rfl⟩
    rw [hc.1, hc.2, h1]
    exact ⟨rfl, h3⟩
  · cases h

/-- C100: everything `ParseCertificate` reports, but `Raw` and `Signature`, is determined by the bytes the signature is over: two inputs with the
same `RawTBSCertificate` give certificates that agree on every other field. -/
theorem C100_signed_bytes_determine (E : ParseEnv) (d₁ d₂ : Bytes) (c₁ c₂ : Certificate) (h₁ : parse E d₁ = some c₁)
    (h₂ : parse E d₂ = some c₂) (ht : c₁.cert.rawTBS = c₂.cert.rawTBS) :
    c₁ = { c₂ with
      cert := { c₂.cert with
        raw := d₁
        signature := c₁.cert.signature } } := by
  unfold parse at h₁ h₂
  split at h₁
  · split at h₂
    · rename_i r₁ e₁ _ r₂ e₂
      obtain ⟨a1, ⟨t₁, b1, k1, p1⟩, _⟩ := parseRawCert_inv e₁
      obtain ⟨a2, ⟨t₂, b2, k2, p2⟩, _⟩ := parseRawCert_inv e₂
      rw [List.append_nil] at a1 a2
      have hraws : r₁.tbs.raw = c₁.cert.rawTBS ∧ r₂.tbs.raw = c₂.cert.rawTBS := by
        unfold parseCertificate at h₁ h₂
        simp only [Option.bind_eq_bind, Option.bind_eq_some_iff] at h₁ h₂
        obtain ⟨_, _, _, _, _, _, _, _, h₁⟩ := h₁
        obtain ⟨_, _, _, _, _, _, _, _, h₂⟩ := h₂
        simp only [Option.some.injEq] at h₁ h₂
        rw [← h₁, ← h₂]
        exact ⟨rfl, rfl⟩
      have htt : t₁ = t₂ := by
        rw [b1, hraws.1, ht, ← hraws.2, ← b2, k2] at k1
        exact ((Prod.mk.inj (Option.some.inj k1)).1).symm
      subst htt
      have htbs : r₁.tbs = r₂.tbs := by
        rw [p1] at p2
        exact Option.some.inj p2
      unfold parseCertificate at h₁ h₂
      rw [htbs] at h₁
      simp only [Option.bind_eq_bind, Option.bind_eq_some_iff] at h₁ h₂
      obtain ⟨pub, q1, cn, q2, is, q3, p, q4, h₁⟩ := h₁
      obtain ⟨pub', q1', cn', q2', is', q3', p', q4', h₂⟩ := h₂
      rw [q1] at q1'; rw [q2] at q2'; rw [q4] at q4'
      simp only [Option.some.injEq] at h₁ h₂ q1' q2' q4'
      subst q1' q2' q4'
      rw [← h₁, ← h₂, a1]
    · cases h₂
  · cases h₁

/-! ## C101: the encoding is not unique -/

theorem pfx_parseTLV (id : Byte) (hid : id &&& 0x1f ≠ 0x1f) : Pfx (Der.parseTLV id) := by
  intro b a r h
  obtain ⟨h1, h2⟩ := Der.parseTLV_inv id b a r h
  exact ⟨_, h1, fun r' => Der.parseTLV_encTLV id a r' hid h2⟩

theorem pfx_algId : Pfx algId := by
  intro b a r h
  unfold algId at h
  obtain ⟨⟨c, r1⟩, h1, h⟩ := Option.bind_eq_some_iff.1 h
  obtain ⟨a', h2, h⟩ := Option.bind_eq_some_iff.1 h
  simp only [Option.some.injEq, Prod.mk.injEq] at h
  obtain ⟨rfl, rfl⟩ := h
  obtain ⟨p, h3, h4⟩ := pfx_parseTLV 0x30 (by decide) _ _ _ h1
  refine ⟨p, h3, fun r' => ?_⟩
  unfold algId
  rw [h4]
  simp [h2]

theorem pfx_bitString : Pfx bitString := by
  intro b a r h
  unfold bitString at h
  obtain ⟨⟨c, r1⟩, h1, h⟩ := Option.bind_eq_some_iff.1 h
  obtain ⟨a', h2, h⟩ := Option.bind_eq_some_iff.1 h
  simp only [Option.some.injEq, Prod.mk.injEq] at h
  obtain ⟨rfl, rfl⟩ := h
  obtain ⟨p, h3, h4⟩ := pfx_parseTLV 0x03 (by decide) _ _ _ h1
  refine ⟨p, h3, fun r' => ?_⟩
  unfold bitString
  rw [h4]
  simp [h2]

/-- C101 is false of the code: any bytes put after the signature, inside the outer SEQUENCE, are accepted and change nothing but `Raw`; so every
certificate has other encodings that verify just as well. -/
theorem C101_unique_encoding_violated (E : ParseEnv) (der junk : Bytes) (c : Certificate) (h : parse E der = some c) (hj : junk ≠ [])
    (hl : der.length + junk.length < 2 ^ 31) :
    ∃ der', der' ≠ der ∧ parse E der' = some { c with
      cert := { c.cert with
        raw := der' } } := by
  have horig := h
  unfold parse at h
  split at h
  · rename_i rc hrc
    unfold parseRawCert at hrc
    obtain ⟨⟨e, r⟩, he, hrc⟩ := Option.bind_eq_some_iff.1 hrc
    obtain ⟨⟨t, cc⟩, ht, hrc⟩ := Option.bind_eq_some_iff.1 hrc
    obtain ⟨tbs, htbs, hrc⟩ := Option.bind_eq_some_iff.1 hrc
    obtain ⟨⟨a, c2⟩, ha, hrc⟩ := Option.bind_eq_some_iff.1 hrc
    obtain ⟨⟨s, c3⟩, hs, hrc⟩ := Option.bind_eq_some_iff.1 hrc
    simp only [Option.some.injEq, Prod.mk.injEq] at hrc
    obtain ⟨hrc, hr0⟩ := hrc
    subst hrc
    subst hr0
    obtain ⟨h1, h2⟩ := seqField_inv he
    obtain ⟨h3, h4⟩ := seqField_inv ht
    obtain ⟨p, hp⟩ := elem_body_suffix (seqField_elem he)
    rw [List.append_nil] at h1
    have hbl : (e.body ++ junk).length < 2 ^ 31 := by
      have : e.body.length ≤ der.length := by rw [h1, hp, List.length_append]; omega
      rw [List.length_append]; omega
    have hnew := seqField_enc (e.body ++ junk) [] hbl
    rw [List.append_nil] at hnew
    refine ⟨Der.encTLV 0x30 (e.body ++ junk), ?_, ?_⟩
    · intro heq
      rw [heq, he] at hnew
      have hb : e.body = e.body ++ junk := congrArg Elem.body (Prod.mk.inj (Option.some.inj hnew)).1
      have := congrArg List.length hb
      rw [List.length_append] at this
      exact hj (List.length_eq_zero_iff.1 (by omega))
    · obtain ⟨p1, e1, q1⟩ := pfx_algId _ _ _ ha
      obtain ⟨p2, e2, q2⟩ := pfx_bitString _ _ _ hs
      have hraw : parseRawCert E (Der.encTLV 0x30 (e.body ++ junk)) =
          some (⟨Der.encTLV 0x30 (e.body ++ junk), tbs, a, s⟩, []) := by
        unfold parseRawCert
        rw [hnew]
        simp only [Option.bind_eq_bind, Option.bind_some]
        rw [h3, List.append_assoc, h4]
        simp only [Option.bind_some, htbs]
        rw [e1, List.append_assoc, q1]
        simp only [Option.bind_some]
        rw [e2, List.append_assoc, q2]
        rfl
      unfold parse
      rw [hraw]
      simp only
      unfold parseCertificate at h ⊢
      simp only [Option.bind_eq_bind, Option.bind_eq_some_iff] at h
      obtain ⟨pub, w1, cn, w2, is, w3, pp, w4, h⟩ := h
      simp only [Option.some.injEq] at h
      simp only [w1, w2, w3, w4, Option.bind_eq_bind, Option.bind_some]
      rw [← h]
  · cases h

/-- C101, the part that holds: a different encoding with the same signed part can differ in `Raw` and `Signature` only -/
theorem C101_signed_part_partial (E : ParseEnv) (d₁ d₂ : Bytes) (c₁ c₂ : Certificate) (h₁ : parse E d₁ = some c₁)
    (h₂ : parse E d₂ = some c₂) (ht : c₁.cert.rawTBS = c₂.cert.rawTBS) (hs : c₁.cert.signature = c₂.cert.signature) :
    { c₁.cert with raw := [] } = { c₂.cert with raw := [] } := by
  have := C100_signed_bytes_determine E d₁ d₂ c₁ c₂ h₁ h₂ ht
  rw [this, hs]

/-! ## C102: critical extensions, from DER to Verify -/

theorem parse_facts {E : ParseEnv} {der : Bytes} {c : Certificate} (h : parse E der = some c) :
    ∃ p, parseExtensions E.rdnRelative c.extensions = some p ∧ c.fields = p.fields ∧
      c.cert.unhandledCritical = p.unhandledCritical.map Keys.encOID ∧ (c.cert.keyAlgUnknown = true → c.cert.pub = .none) := by
  unfold parse at h
  split at h
  · rename_i rc hrc
    unfold parseCertificate at h
    simp only [Option.bind_eq_bind, Option.bind_eq_some_iff] at h
    obtain ⟨pub, w1, cn, w2, is, w3, p, w4, h⟩ := h
    simp only [Option.some.injEq] at h
    have hk := C94_extensions_kept _ _ _ w4
    refine ⟨p, ?_, ?_, ?_, ?_⟩
    · rw [← h]
      show parseExtensions _ p.extensions = _
      rw [hk]; exact w4
    · rw [← h]
    · rw [← h]
    · rw [← h]
      intro hu
      simp only [decide_eq_true_eq] at hu
      rw [hu] at w1
      simp only [parsePub, Option.some.injEq] at w1
      exact w1.symm
  · cases h

/-- C102: no chain that `Verify` returns contains a certificate with a critical extension of a kind the package does not know, read from
any DER whatever. -/
theorem C102_unknown_critical_refused (PE : ParseEnv) (E : Env) (entrust : Bytes) (system : Option Pool) (leaf : Cert) (o : Opts) (roots : Pool)
    (hroots : resolveRoots o system = some roots) (hr : Built roots ∧ KeysParsed roots)
    (hi : ∀ q, o.intermediates = some q → Built q ∧ KeysParsed q) (hv : ∀ u ∈ o.keyUsages, u ≠ -1)
    (chains : List (List Cert)) (h : verify E entrust system leaf o = some (.ok chains))
    (ch : List Cert) (hch : ch ∈ chains) (der : Bytes) (c : Certificate) (hp : parse PE der = some c) (hc : c.cert ∈ ch) :
    ∀ e ∈ c.extensions, e.critical = true → e.id ∈ recognised := by
  obtain ⟨_, _, hall⟩ := C48_sound E entrust system leaf o roots hroots hr hi hv chains h
  have hnone := (hall ch hch).1.links.noUnhandled c.cert hc
  obtain ⟨p, h1, _, h3, _⟩ := parse_facts hp
  intro e he hcr
  by_contra hn
  have hm := (C94_critical_recorded _ _ p h1 e.id).2 ⟨e, he, hcr, rfl, .inl hn⟩
  rw [h3, List.map_eq_nil_iff] at hnone
  rw [hnone] at hm
  cases hm

/-! ## C103: issue, then verify -/

/-- the roots the application trusts: one certificate -/
theorem poolOf_one (c : Cert) : (poolOf [c]).certs = [c] := by
  unfold poolOf
  simp [Pool.addCert, Pool.contains, Pool.new]

/-- without intermediates and with one root the only chain is leaf and root -/
theorem chain_of_two {E : Env} {entrust : Bytes} {o : Opts} {roots inters : Pool} {leaf ca : Cert} {ch : List Cert} (hcerts : roots.certs = [ca])
    (hempty : inters.certs = []) (hne : leaf.raw ≠ ca.raw) (VC : Spec.ValidChain E entrust o roots inters leaf ch) : ch = [leaf, ca] := by
  obtain ⟨root, hl, hanch⟩ := VC.anchored
  have hfirst := VC.links.first
  rcases hanch with ⟨hlen1, hroot⟩ | ⟨hlen1, r', hr', hsame⟩
  · rw [hcerts, List.mem_singleton] at hroot
    subst hroot
    rcases ch with _ | ⟨a, _ | ⟨b, _ | ⟨c, l⟩⟩⟩
    · simp at hlen1
    · simp at hlen1
    · simp only [List.head?_cons, Option.some.injEq] at hfirst
      simp only [List.getLast?_cons_cons, List.getLast?_singleton, Option.some.injEq] at hl
      rw [hfirst, hl]
    · have := (VC.inner 1 b rfl (by omega) (by simp)).2.2
      rw [hempty] at this
      cases this
  · exfalso
    obtain ⟨a, rfl⟩ := List.length_eq_one_iff.1 hlen1
    simp only [List.head?_cons, Option.some.injEq] at hfirst
    simp only [List.getLast?_singleton, Option.some.injEq] at hl
    rw [hcerts, List.mem_singleton] at hr'
    rw [hr', ← hl, hfirst] at hsame
    exact hne hsame.1.symm

/-- C103: a certificate issued with the key of a trusted CA certificate verifies: for every CA certificate read from DER that is a CA without
path length limit, name constraints or unknown critical extensions, and every certificate issued under its name with its key, `Verify`
with that CA as the only root succeeds at every time within both validity periods, and the chains are exactly leaf and CA. -/
theorem C103_issue_then_verify {G : Type} [AddCommGroup G] (E : Env) (L : Lawful E.curve G) (priv : PrivateKey E.curve) (d : Nat)
    (h : L.PrivOf priv d) (hd : (d + 1) % N ≠ 0) (PE : ParseEnv) (time : Int → Res Bytes) (hT : TimeLaw PE time)
    -- the CA
    (caDer : Bytes) (ca : Certificate) (hca : parse PE caDer = some ca) (hpub : ca.cert.pub = .sm2 priv.x priv.y) (hkn : ca.cert.keyAlgUnknown = false)
    (hbc : ca.cert.basicConstraintsValid = true ∧ ca.cert.isCA = true) (hku : ca.cert.keyUsage = 0 ∨ ca.cert.keyUsage.testBit 5 = true)
    (hlim : ca.cert.maxPathLen < 0) (hcrit : ca.cert.unhandledCritical = []) (hnc : ca.cert.permittedDNS = [] ∧ ca.cert.excludedDNS = [])
    -- the leaf
    (r : Request) (rand : Bytes) (x y : Nat) (der cn cn' : Bytes) (hkey : Keys.OnCurve x y)
    (hc : createCertificate time r (.sm2 true) (sm2Signer E.curve rand priv) (marshalSM2 x y) = .ok der) (hlen : der.length < 2 ^ 31)
    (ht : Template r.fields) (hx : ∀ e ∈ r.extra, e.id ∉ recognised ∧ OIDok e.id ∧ e.critical = false)
    (hs : Name PE r.subject cn) (hi : Name PE r.issuer cn')
    (hiss : r.issuer = ca.cert.rawSubject ∧ r.parentKeyId = ca.cert.subjectKeyId ∧ r.subject ≠ r.issuer)
    (haki : r.parentKeyId = [] → r.fields.authorityKeyId = [])
    (hleaf : r.fields.permitted = [] ∧ r.fields.excluded = [] ∧ r.fields.basicConstraintsValid = false)
    (hnz : ∀ c, parse PE der = some c → GoodNonce L rand priv c.cert.rawTBS)
    -- the verification
    (now : Int) (hnow : ca.cert.notBefore ≤ now ∧ now ≤ ca.cert.notAfter ∧ r.notBefore ≤ now ∧ now ≤ r.notAfter) (host entrust : Bytes)
    (hhost : ∀ c, parse PE der = some c → host ≠ [] → verifyHostname E c.cert host = none) :
    ∃ leaf chains, parse PE der = some leaf ∧
      verify E entrust none leaf.cert
        { dnsName := host, intermediates := none, roots := some (poolOf [ca.cert]), now := now, keyUsages := [0] } = some (.ok chains) ∧
      chains ≠ [] ∧ ∀ ch ∈ chains, ch = [leaf.cert, ca.cert] := by
  obtain ⟨leaf, hpar, h1, h2, h3, h4, h5, h6, h7, h8, h9, h10, h11, h12, h13, h14, h15, h16⟩ :=
    C98_create_parse PE time hT r (.sm2 true) _ x y der cn cn' hkey hc hlen ht (fun e he => ⟨(hx e he).1, (hx e he).2.1⟩) hs hi
  change _ = expected r.fields r.aki at h12
  obtain ⟨leaf', hpar', hsg⟩ := C99_issued_verifies E L priv d h hd PE time hT r rand x y der cn cn' hkey hc hlen ht
    (fun e he => ⟨(hx e he).1, (hx e he).2.1⟩) hs hi hnz ca.cert hpub hkn ⟨.inl hbc, hku⟩ entrust
  have : leaf' = leaf := by rw [hpar] at hpar'; exact (Option.some.inj hpar').symm
  subst this
  have hsig := (signed_iff E entrust leaf'.cert ca.cert (by rw [hkn]; intro h; cases h)).1 hsg
  have hraw_ca := (C100_raw PE caDer ca hca).1
  have hne : leaf'.cert.raw ≠ ca.cert.raw := by
    intro he
    have hd : der = caDer := by rw [← h1, he, hraw_ca]
    rw [hd, hca] at hpar
    have hcc := Option.some.inj hpar
    rw [← hcc] at h4
    exact hiss.2.2 (by rw [← h4, hiss.1])
  have hunh : leaf'.cert.unhandledCritical = [] := by
    rw [h14]
    have : r.extra.filter (·.critical) = [] := by
      rw [List.filter_eq_nil_iff]
      intro e he
      rw [(hx e he).2.2]; simp
    rw [this]; rfl
  obtain ⟨lf1, lf2, lf3, lf4⟩ : leaf'.cert.permittedDNS = leaf'.fields.permitted ∧ leaf'.cert.excludedDNS = leaf'.fields.excluded ∧
      leaf'.cert.basicConstraintsValid = leaf'.fields.basicConstraintsValid ∧ leaf'.cert.authorityKeyId = leaf'.fields.authorityKeyId := by
    clear * - hpar
    unfold parse at hpar
    split at hpar
    · unfold parseCertificate at hpar
      simp only [Option.bind_eq_bind, Option.bind_eq_some_iff] at hpar
      obtain ⟨_, _, _, _, _, _, _, _, h⟩ := hpar
      simp only [Option.some.injEq] at h
      rw [← h]
      exact ⟨rfl, rfl, rfl, rfl⟩
    · cases hpar
  have hcerts := poolOf_one ca.cert
  let o : Opts := { dnsName := host, intermediates := none, roots := some (poolOf [ca.cert]), now := now, keyUsages := [0] }
  have hro : resolveRoots o none = some (poolOf [ca.cert]) := rfl
  have hbuilt : Built (poolOf [ca.cert]) ∧ KeysParsed (poolOf [ca.cert]) := by
    refine ⟨⟨_, rfl⟩, ?_⟩
    intro c hcm hk
    rw [hcerts, List.mem_singleton] at hcm
    rw [hcm, hkn] at hk
    cases hk
  have hint : ∀ q, o.intermediates = some q → Built q ∧ KeysParsed q := fun q hq => by cases hq
  have hempty : (poolOrEmpty o.intermediates).certs = [] := rfl
  have two : ∀ {P : Cert → Prop}, P leaf'.cert → P ca.cert → ∀ c ∈ [leaf'.cert, ca.cert], P c := by
    intro P a b c hcm
    rcases List.mem_cons.1 hcm with rfl | hcm
    · exact a
    · rw [List.mem_singleton.1 hcm]; exact b
  have V : Spec.ValidChain E entrust o (poolOf [ca.cert]) (poolOrEmpty o.intermediates) leaf'.cert [leaf'.cert, ca.cert] := by
    refine ⟨⟨rfl, two hunh hcrit, two ?_ ?_, two ?_ ?_, two ?_ ?_, ?_, ?_, ?_⟩, ?_, ?_⟩
    · rw [h7, h8]; exact ⟨hnow.2.2.1, hnow.2.2.2⟩
    · exact ⟨hnow.1, hnow.2.1⟩
    · left; rw [lf1, h12]; exact hleaf.1
    · exact .inl hnc.1
    · rw [lf2, h12]
      intro k hk
      have : (expected r.fields r.aki).excluded = [] := hleaf.2.1
      rw [this] at hk; cases hk
    · rw [hnc.2]; intro k hk; cases hk
    · intro i a b ha hb
      match i, ha, hb with
      | 0, ha, hb =>
        simp at ha hb
        subst ha hb
        exact ⟨by rw [h5, hiss.1], hsig⟩
      | 1, ha, hb => simp at hb
      | i + 2, ha, hb => simp at hb
    · intro i c hcm hb hm
      match i, hcm with
      | 0, hcm =>
        simp at hcm
        subst hcm
        rw [lf3, h12] at hb
        have : (expected r.fields r.aki).basicConstraintsValid = false := hleaf.2.2
        rw [this] at hb; cases hb
      | 1, hcm =>
        simp at hcm
        subst hcm
        omega
      | i + 2, hcm => simp at hcm
    · simp [hne]
    · intro i c hcm h0 hl
      simp at hl
      omega
    · exact ⟨ca.cert, rfl, .inl ⟨by simp, by rw [hcerts]; simp⟩⟩
  obtain ⟨chains, hver⟩ := C80_complete_partial E entrust none leaf'.cert o (poolOf [ca.cert]) hro hbuilt hint
    (by intro c hcm; cases hcm) (by
      intro c hcm _
      rw [hcerts, List.mem_singleton] at hcm
      rw [hcm]; exact hlim) (by intro a ha; cases ha) (by
      intro a ha b hb
      rw [hempty, List.mem_singleton] at ha
      rw [hcerts, List.mem_singleton] at hb
      rw [ha, hb]; exact hne) (by
      intro a ha
      rw [hempty, List.mem_singleton] at ha
      rw [ha, h1]
      intro h0
      rw [h0] at hpar
      simp [parse, parseRawCert, seqField, elem, hdr] at hpar) (by simp [o]) (hhost leaf' hpar) [leaf'.cert, ca.cert] V (by
      intro i a b ha hb
      match i, ha, hb with
      | 0, ha, hb =>
        simp at ha hb
        subst ha hb
        have hvis : leaf'.cert.authorityKeyId = [] ∨ ca.cert.subjectKeyId = leaf'.cert.authorityKeyId := by
          rw [lf4, h12]
          show r.aki = [] ∨ _ = r.aki
          unfold Request.aki
          by_cases hk0 : r.parentKeyId = []
          · left
            rw [if_neg (fun hh => hh.2 hk0)]
            exact haki hk0
          · right
            rw [if_pos ⟨fun hh => hiss.2.2 hh.symm, hk0⟩]
            exact hiss.2.1.symm
        rcases hvis with hv | hv
        · exact ⟨.inl hv, .inl hv⟩
        · exact ⟨.inr (.inl hv), .inr (.inl hv)⟩
      | 1, ha, hb => simp at hb
      | i + 2, ha, hb => simp at hb)
  obtain ⟨g1, _, g3⟩ := C48_sound E entrust none leaf'.cert o (poolOf [ca.cert]) hro hbuilt hint (by simp [o]) chains hver
  refine ⟨leaf', chains, hpar, hver, g1, ?_⟩
  intro ch hch
  exact chain_of_two hcerts hempty hne (g3 ch hch).1

end Verif.X509
