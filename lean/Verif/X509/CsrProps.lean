import Verif.X509.Csr
import Verif.X509.IssueProps
/-!
C105, C106: certificate requests.
-/
namespace Verif.X509
open Verif Asn1 Sm2

/-- a request has no place for the critical flag -/
def uncritical (e : Extension) : Extension := { e with critical := false }

theorem encAtv_eq {e : Extension} {y : Bytes} (h : encAtv e = .ok y) : y = Der.encTLV 0x30 (extBody (uncritical e)) := by
  unfold encAtv at h
  obtain ⟨o, ho, h⟩ := Res.bind_eq_ok.1 h
  rw [oidRes_eq ho] at h
  simp only [Res.ok.injEq] at h
  rw [← h]
  simp [extBody, uncritical, Keys.encOIDTLV]

/-- the attributes as elements: none, or the one extension request -/
theorem attributes_enc (exts : List Extension) (attrs : Bytes) (h : encAttributes exts = .ok attrs) (hl : attrs.length < 2 ^ 31)
    (ho : ∀ e ∈ exts, OIDok e.id) :
    ∃ l, elems attrs = some l ∧ csrExtensions l = some (exts.map uncritical) ∧ ∀ e ∈ exts, e.value.length < 2 ^ 31 := by
  unfold encAttributes at h
  split at h
  · rename_i he
    simp only [Res.ok.injEq] at h
    subst he
    rw [← h]
    exact ⟨[], rfl, rfl, by simp⟩
  · obtain ⟨xs, hxs, h⟩ := Res.bind_eq_ok.1 h
    simp only [Res.ok.injEq] at h
    have hm : xs = exts.flatMap (fun e => Der.encTLV 0x30 (extBody (uncritical e))) := marshalAll_flatMap _ hxs (fun e _ y hy => encAtv_eq hy)
    rw [← h] at hl ⊢
    have hb := tlv_len hl
    have hb' := hb
    rw [List.length_append] at hb
    have hset : (Der.encTLV 0x30 xs).length < 2 ^ 31 := by
      have := encTLV_len 0x31 (Der.encTLV 0x30 xs)
      omega
    have hxl : xs.length < 2 ^ 31 := tlv_len hset
    have hlen : ∀ e ∈ exts, (extBody (uncritical e)).length < 2 ^ 31 := by
      intro e he
      have h1 := flatMap_len_le (fun e => Der.encTLV 0x30 (extBody (uncritical e))) exts e he
      have h2 := encTLV_len 0x30 (extBody (uncritical e))
      rw [← hm] at h1
      omega
    have hvl : ∀ e ∈ exts, e.value.length < 2 ^ 31 := by
      intro e he
      have h1 := hlen e he
      have h2 := encTLV_len 0x04 (uncritical e).value
      simp only [extBody, List.length_append] at h1
      have h3 : (uncritical e).value = e.value := rfl
      rw [h3] at h1 h2
      omega
    have e1 := elems_enc [(0x30, Keys.encOIDTLV oidExtensionRequest ++ Der.encTLV 0x31 (Der.encTLV 0x30 xs))] (by
      intro x hx
      simp only [List.mem_singleton] at hx
      rw [hx]
      exact ⟨by dsimp only; decide, hb'⟩)
    simp only [List.flatMap_cons, List.flatMap_nil, List.append_nil, List.map_cons, List.map_nil] at e1
    refine ⟨_, e1, ?_, hvl⟩
    have e2 := elems_enc [(0x30, xs)] (by
      intro x hx
      simp only [List.mem_singleton] at hx
      rw [hx]
      exact ⟨by dsimp only; decide, hxl⟩)
    simp only [List.flatMap_cons, List.flatMap_nil, List.append_nil, List.map_cons, List.map_nil] at e2
    have hav : attrValue ⟨hdrOf 0x30 (Keys.encOIDTLV oidExtensionRequest ++ Der.encTLV 0x31 (Der.encTLV 0x30 xs)).length,
        Keys.encOIDTLV oidExtensionRequest ++ Der.encTLV 0x31 (Der.encTLV 0x30 xs),
        Der.encTLV 0x30 (Keys.encOIDTLV oidExtensionRequest ++ Der.encTLV 0x31 (Der.encTLV 0x30 xs))⟩ = some (Der.encTLV 0x30 xs) := by
      unfold attrValue
      simp only [hdrOf_is, if_true]
      rw [parseOID_enc oidExtensionRequest (by decide) _ (by decide +kernel)]
      simp only [Option.bind_eq_bind, Option.bind_some]
      rw [Der.parseTLV_encTLV' 0x31 _ (by decide) hset]
      simp only [Option.bind_some, e2]
      rw [if_pos trivial]
      rfl
    have hes : extSequence (Der.encTLV 0x30 xs) = some (exts.map uncritical) := by
      unfold extSequence
      rw [Der.parseTLV_encTLV' 0x30 _ (by decide) hxl]
      simp only [Option.bind_eq_bind, Option.bind_some]
      have hs := seqOf_enc 0x30 (by decide) (exts.map fun e => extBody (uncritical e)) (by
        intro b hb
        obtain ⟨e, he, rfl⟩ := List.mem_map.1 hb
        exact hlen e he)
      rw [List.flatMap_map] at hs
      rw [hm, hs]
      simp only [Option.bind_some]
      exact parseAll_map parseExt (fun e => extBody (uncritical e)) uncritical exts (fun e he => parseExt_enc _ (ho e he) (hlen e he))
    simp only [csrExtensions, hav, hes, Option.map_some, List.append_nil]

theorem parseCsrTbs_enc (subject : Bytes) (ka : AlgId) (key attrs cs : Bytes) (l : List Elem) (hs : subject = Der.encTLV 0x30 cs)
    (hk : OIDok ka.oid) (hkp : ParamsOk ka.params) (ha : elems attrs = some l) (hl : (encCsrTbs subject ka key attrs).length < 2 ^ 31) :
    ∃ body, encCsrTbs subject ka key attrs = Der.encTLV 0x30 body ∧ ∀ raw, parseCsrTbs raw body = some ⟨raw, 0, subject, ⟨encSpki ka key, ka, key⟩, l⟩ := by
  refine ⟨_, rfl, fun raw => ?_⟩
  have hb := tlv_len hl
  simp only [List.append_assoc, List.length_append] at hb ⊢
  have hcsl : cs.length < 2 ^ 31 := by
    have := encTLV_len 0x30 cs
    rw [← hs] at this
    omega
  have hal : attrs.length < 2 ^ 31 := by
    have := encTLV_len 0xa0 attrs
    omega
  unfold parseCsrTbs
  have e1 : ∀ r, Der.parseTLV 0x02 (Der.encInt 0 ++ r) = some (Der.encIntBody 0, r) :=
    fun r => Der.parseTLV_encTLV 0x02 (Der.encIntBody 0) r (by decide) (by decide +kernel)
  rw [e1]
  have e2 : intBody (Der.encIntBody 0) = some 0 := by decide +kernel
  simp only [Option.bind_eq_bind, Option.bind_some, e2]
  rw [hs, elem_enc 0x30 cs _ (by decide) hcsl]
  simp only [Option.bind_some]
  rw [spkiField_enc ka key _ hk hkp (by omega)]
  simp only [Option.bind_some]
  rw [Der.parseTLV_encTLV' 0xa0 _ (by decide) hal]
  simp only [Option.bind_some, ha]

/-- everything but the kind of the key: creating a request and parsing it -/
theorem csr_create_parse_san (E : ParseEnv) (t : CsrTemplate) (kind : KeyKind) (sign : HashId → Bytes → Res Bytes) (ka : AlgId) (key der cn : Bytes)
    (hc : createCSR t kind sign (.ok (ka, key)) = .ok der) (hlen : der.length < 2 ^ 31) (hko : OIDok ka.oid) (hkp : ParamsOk ka.params)
    (hx : ∀ e ∈ t.extra, OIDok e.id) (dns em ips : List Bytes)
    (hsan' : (∀ e ∈ t.extensions, e.value.length < 2 ^ 31) → csrSan (t.extensions.map uncritical) ([], [], []) = some (dns, em, ips)) (hs : Name E t.subject cn)
    (pub : CsrPub) (hpub : csrPub E (csrKeyAlg (chosenAlg kind t.sigAlg) ⟨encSpki ka key, ka, key⟩) ⟨encSpki ka key, ka, key⟩ = some pub) :
    ∃ c, parseCSR E der = some c ∧ c.raw = der ∧ c.version = 0 ∧ c.rawSubject = t.subject ∧ c.rawSPKI = encSpki ka key ∧
      c.sigAlg = chosenAlg kind t.sigAlg ∧ c.keyAlg = csrKeyAlg (chosenAlg kind t.sigAlg) ⟨encSpki ka key, ka, key⟩ ∧ c.pub = pub ∧
      c.extensions = t.extensions.map uncritical ∧ c.dnsNames = dns ∧ c.emails = em ∧ c.ips = ips ∧
      csrSignature kind sign (algHash (chosenAlg kind t.sigAlg)) c.rawTBS = .ok c.signature := by
  unfold createCSR at hc
  obtain ⟨⟨h, alg⟩, hsp, hc⟩ := Res.bind_eq_ok.1 hc
  obtain ⟨⟨ka', key'⟩, hmk, hc⟩ := Res.bind_eq_ok.1 hc
  simp only [Res.ok.injEq, Prod.mk.injEq] at hmk
  obtain ⟨rfl, rfl⟩ := hmk
  obtain ⟨attrs, hat, hc⟩ := Res.bind_eq_ok.1 hc
  obtain ⟨s, hsg, hc⟩ := Res.bind_eq_ok.1 hc
  simp only [Res.ok.injEq] at hc
  obtain ⟨f1, f2, f3, f4, f5, f6, f7⟩ := signing_facts hsp
  obtain ⟨cs, hcs⟩ := hs.der
  have hoids : ∀ e ∈ t.extensions, OIDok e.id := by
    intro e he
    unfold CsrTemplate.extensions at he
    rcases List.mem_append.1 he with he | he
    · split at he
      · simp only [List.mem_singleton] at he
        rw [he]
        dsimp only
        decide
      · cases he
    · exact hx e he
  generalize htbs : encCsrTbs t.subject ka key attrs = tbs at hc hsg
  have hcert : encCert tbs alg s = Der.encTLV 0x30 (tbs ++ (encAlgId alg ++ encBits s)) := by unfold encCert; rw [List.append_assoc]
  rw [hcert] at hc
  have hbody : (tbs ++ (encAlgId alg ++ encBits s)).length < 2 ^ 31 := tlv_len (id := 0x30) (by rw [hc]; exact hlen)
  have hbody' := hbody
  rw [List.length_append, List.length_append] at hbody
  have htl : tbs.length < 2 ^ 31 := by omega
  have hal : attrs.length < 2 ^ 31 := by
    rw [← htbs] at htl
    have h1 := tlv_len htl
    have h2 := encTLV_len 0xa0 attrs
    simp only [List.length_append] at h1
    omega
  obtain ⟨l, hel, hcx, hvl⟩ := attributes_enc _ attrs hat hal hoids
  obtain ⟨body, hb1, hb2⟩ := parseCsrTbs_enc t.subject ka key attrs cs l hcs hko hkp hel (by rw [htbs]; exact htl)
  rw [htbs] at hb1
  have hbl : body.length < 2 ^ 31 := by
    have := encTLV_len 0x30 body
    rw [← hb1] at this
    omega
  have hraw : parseRawCsr der = some (⟨der, ⟨tbs, 0, t.subject, ⟨encSpki ka key, ka, key⟩, l⟩, alg, s⟩, []) := by
    unfold parseRawCsr
    have e1 := seqField_enc (tbs ++ (encAlgId alg ++ encBits s)) [] hbody'
    rw [List.append_nil, hc] at e1
    rw [e1]
    simp only [Option.bind_eq_bind, Option.bind_some]
    have e2 := seqField_enc body (encAlgId alg ++ encBits s) hbl
    rw [← hb1] at e2
    rw [e2]
    simp only [Option.bind_some]
    rw [hb2]
    simp only [Option.bind_some]
    rw [algId_enc alg f4 f5 (by omega)]
    simp only [Option.bind_some]
    have e3 := bitString_enc s [] (by omega)
    rw [List.append_nil] at e3
    rw [e3]
    rfl
  have hsan := hsan' hvl
  unfold parseCSR
  rw [hraw]
  simp only
  unfold parseCsrBody
  simp only [f1, hpub, hs.rdn, hcx, hsan, Option.bind_eq_bind, Option.bind_some]
  refine ⟨_, rfl, rfl, rfl, rfl, rfl, rfl, rfl, rfl, rfl, rfl, rfl, rfl, ?_⟩
  simp only
  rw [← f2]
  exact hsg

/-- the same for templates without a SAN among the extra extensions -/
theorem csr_create_parse (E : ParseEnv) (t : CsrTemplate) (kind : KeyKind) (sign : HashId → Bytes → Res Bytes) (ka : AlgId) (key der cn : Bytes)
    (hc : createCSR t kind sign (.ok (ka, key)) = .ok der) (hlen : der.length < 2 ^ 31) (hko : OIDok ka.oid) (hkp : ParamsOk ka.params)
    (hx : ∀ e ∈ t.extra, e.id ≠ oidSAN ∧ OIDok e.id) (hip : ∀ x ∈ t.ips, x.length = 4 ∨ x.length = 16) (hs : Name E t.subject cn)
    (pub : CsrPub) (hpub : csrPub E (csrKeyAlg (chosenAlg kind t.sigAlg) ⟨encSpki ka key, ka, key⟩) ⟨encSpki ka key, ka, key⟩ = some pub) :
    ∃ c, parseCSR E der = some c ∧ c.raw = der ∧ c.version = 0 ∧ c.rawSubject = t.subject ∧ c.rawSPKI = encSpki ka key ∧
      c.sigAlg = chosenAlg kind t.sigAlg ∧ c.keyAlg = csrKeyAlg (chosenAlg kind t.sigAlg) ⟨encSpki ka key, ka, key⟩ ∧ c.pub = pub ∧
      c.extensions = t.extensions.map uncritical ∧ c.dnsNames = t.dnsNames ∧ c.emails = t.emails ∧ c.ips = t.ips.map ipBytes ∧
      csrSignature kind sign (algHash (chosenAlg kind t.sigAlg)) c.rawTBS = .ok c.signature := by
  refine csr_create_parse_san E t kind sign ka key der cn hc hlen hko hkp (fun e he => (hx e he).2) _ _ _ (fun hvl => ?_) hs pub hpub
  have hnosan : oidIn oidSAN t.extra = false := by
    unfold oidIn
    rw [Bool.eq_false_iff]
    intro hh
    obtain ⟨e, he, h⟩ := List.any_eq_true.1 hh
    exact (hx e he).1 (by simpa using h)
  have hrest : ∀ (es : List Extension), (∀ e ∈ es, e.id ≠ oidSAN) → ∀ s0, csrSan (es.map uncritical) s0 = some s0 := by
    intro es
    induction es with
    | nil => intro _ s0; rfl
    | cons e es ih =>
      intro he s0
      simp only [List.map_cons, csrSan]
      rw [if_neg (by exact he e (by simp))]
      exact ih (fun e' h' => he e' (by simp [h'])) s0
  unfold CsrTemplate.extensions
  rw [hnosan]
  split
  · rename_i hne
    simp only [List.cons_append, List.nil_append, List.map_cons, csrSan]
    have hv : (sanValue t.dnsNames t.emails t.ips).length < 2 ^ 31 := by
      refine hvl ⟨oidSAN, false, sanValue t.dnsNames t.emails t.ips⟩ ?_
      unfold CsrTemplate.extensions
      rw [hnosan, if_pos hne]
      simp
    have := san_round t.dnsNames t.emails t.ips hv hip
    simp only [uncritical, if_true, this]
    exact hrest t.extra (fun e he => (hx e he).1) _
  · rename_i hne
    rw [List.nil_append, hrest t.extra (fun e he => (hx e he).1)]
    simp only [Bool.not_false, Bool.and_true, Bool.or_eq_true, Bool.not_eq_true', not_or, Bool.not_eq_false, List.isEmpty_iff] at hne
    obtain ⟨⟨h1, h2⟩, h3⟩ := hne
    rw [h1, h2, h3]
    rfl

theorem marshalSM2_ok {x y : Nat} (hkey : Keys.OnCurve x y) :
    ∃ ka key, marshalSM2 x y = .ok (ka, key) ∧ OIDok ka.oid ∧ ParamsOk ka.params ∧ ka.oid = Keys.oidECDSA ∧
      curveOfParams ka.params = some .sm2 ∧ Keys.unmarshalPoint key = some (x, y) := by
  obtain ⟨hx1, hy1, hon⟩ := hkey
  have hP := Keys.P_lt
  unfold marshalSM2 Keys.marshalPoint
  rw [if_neg (by omega), Res.ok_bind]
  refine ⟨_, _, rfl, by decide, .inr ⟨0x06, _, by decide, rfl⟩, by decide, by decide +kernel, ?_⟩
  exact (Keys.unmarshalPoint_iff _ x y).2 ⟨rfl, hx1, hy1, hon⟩

/-- the extensions asked for, spelled out: the names (if any), then the extra extensions -/
theorem extensions_spec (t : CsrTemplate) (hx : ∀ e ∈ t.extra, e.id ≠ oidSAN) :
    t.extensions.map uncritical = (if t.dnsNames = [] ∧ t.emails = [] ∧ t.ips = [] then [] else [⟨[2, 5, 29, 17], false, sanValue t.dnsNames t.emails t.ips⟩]) ++
      t.extra.map (fun e => ⟨e.id, false, e.value⟩) := by
  have hnosan : oidIn oidSAN t.extra = false := by
    unfold oidIn
    rw [Bool.eq_false_iff]
    intro hh
    obtain ⟨e, he, h⟩ := List.any_eq_true.1 hh
    exact hx e he (by simpa using h)
  unfold CsrTemplate.extensions
  rw [hnosan, List.map_append]
  congr 1
  by_cases h : t.dnsNames = [] ∧ t.emails = [] ∧ t.ips = []
  · rw [if_pos h, h.1, h.2.1, h.2.2]
    rfl
  · rw [if_neg h, if_pos]
    · rfl
    · simp only [Bool.not_false, Bool.and_true, Bool.or_eq_true, Bool.not_eq_true', List.isEmpty_eq_false_iff]
      by_contra hc
      push Not at hc
      exact h ⟨hc.1.1, hc.1.2, hc.2⟩

/-! ## C105 -/

/-- C105, SM2 keys with the default algorithm or SM2 with SM3: the request `CreateCertificateRequest` makes is one
`ParseCertificateRequest` accepts; it reads the subject, the key, the names and the extensions asked for (without their critical flags, for
which a request has no place), and its signature checks. What is missing for the other keys and algorithms is false (below). -/
theorem C105_request_round_trip_partial {G : Type} [AddCommGroup G] (E : Env) (L : Lawful E.curve G) (priv : PrivateKey E.curve) (d : Nat)
    (h : L.PrivOf priv d) (hd : (d + 1) % N ≠ 0) (PE : ParseEnv) (t : CsrTemplate) (rand der cn : Bytes) (hkey : Keys.OnCurve priv.x priv.y)
    (halg : t.sigAlg = .unknown ∨ t.sigAlg = .sm2Sm3)
    (hc : createCSR t (.sm2 true) (sm2Signer E.curve rand priv) (marshalSM2 priv.x priv.y) = .ok der) (hlen : der.length < 2 ^ 31)
    (hx : ∀ e ∈ t.extra, e.id ≠ oidSAN ∧ OIDok e.id) (hip : ∀ x ∈ t.ips, x.length = 4 ∨ x.length = 16) (hs : Name PE t.subject cn)
    (hnz : ∀ c, parseCSR PE der = some c → GoodNonce L rand priv c.rawTBS) (f : Keys.Named → Bytes → Bytes → Bytes → Bool) :
    ∃ c, parseCSR PE der = some c ∧ c.raw = der ∧ c.version = 0 ∧ c.rawSubject = t.subject ∧ c.sigAlg = .sm2Sm3 ∧ c.keyAlg = .sm2 ∧
      c.pub = .key (.sm2 priv.x priv.y) ∧
      c.extensions = (if t.dnsNames = [] ∧ t.emails = [] ∧ t.ips = [] then [] else [⟨[2, 5, 29, 17], false, sanValue t.dnsNames t.emails t.ips⟩]) ++
        t.extra.map (fun e => ⟨e.id, false, e.value⟩) ∧
      c.dnsNames = t.dnsNames ∧ c.emails = t.emails ∧ c.ips = t.ips.map ipBytes ∧ csrCheckSignature E f c = none := by
  obtain ⟨ka, key, hmk, k1, k2, k3, k4, k5⟩ := marshalSM2_ok hkey
  rw [hmk] at hc
  have hch : chosenAlg (.sm2 true) t.sigAlg = .sm2Sm3 := by rcases halg with e | e <;> rw [e] <;> decide
  have hka : csrKeyAlg (chosenAlg (.sm2 true) t.sigAlg) ⟨encSpki ka key, ka, key⟩ = .sm2 := by rw [hch]; rfl
  have hpub : csrPub PE (csrKeyAlg (chosenAlg (.sm2 true) t.sigAlg) ⟨encSpki ka key, ka, key⟩) ⟨encSpki ka key, ka, key⟩ =
      some (.key (.sm2 priv.x priv.y)) := by
    rw [hka]
    unfold csrPub csrSm2Key
    rw [if_pos rfl]
    simp only [k4, k5, Option.map_some]
  obtain ⟨c, c1, c2, c3, c4, c5, c6, c7, c8, c9, c10, c11, c12, c13⟩ :=
    csr_create_parse PE t (.sm2 true) _ ka key der cn hc hlen k1 k2 hx hip hs _ hpub
  rw [hch] at c6
  rw [hka] at c7
  rw [extensions_spec t (fun e he => (hx e he).1)] at c9
  refine ⟨c, c1, c2, c3, c4, c6, c7, c8, c9, c10, c11, c12, ?_⟩
  obtain ⟨r, s, g1, g2, g3, g4⟩ := signed_checks E L priv d h hd rand c.rawTBS c.signature c13 (hnz c c1)
  unfold csrCheckSignature
  rw [c8, c6]
  unfold checkSignature
  simp only [g1, g4]
  rw [if_neg (by decide), if_neg (by decide), if_neg (by simp), if_neg (by omega)]

/-- C105 is false for RSA keys: the request is returned without an error and without a signature, whatever the key would have signed. (The error
"unsupport algorithm" is assigned and overwritten.) -/
theorem C105_rsa_unsigned_violated (E : ParseEnv) (t : CsrTemplate) (sign : HashId → Bytes → Res Bytes) (key cn der : Bytes)
    (hrsa : E.rsaKey key = true) (halg : t.sigAlg = .unknown)
    (hx : ∀ e ∈ t.extra, e.id ≠ oidSAN ∧ OIDok e.id) (hip : ∀ x ∈ t.ips, x.length = 4 ∨ x.length = 16) (hs : Name E t.subject cn)
    (hc : createCSR t .rsa sign (.ok (⟨Keys.oidRSA, nullBytes⟩, key)) = .ok der) (hlen : der.length < 2 ^ 31) :
    ∃ c, parseCSR E der = some c ∧ c.pub = .key (.rsa key) ∧ c.sigAlg = .sha256RSA ∧ c.signature = [] := by
  have hch : chosenAlg .rsa t.sigAlg = .sha256RSA := by rw [halg]; decide
  have hka : csrKeyAlg (chosenAlg .rsa t.sigAlg) ⟨encSpki ⟨Keys.oidRSA, nullBytes⟩ key, ⟨Keys.oidRSA, nullBytes⟩, key⟩ = .rsa := by
    rw [hch]
    rfl
  have hpub : csrPub E (csrKeyAlg (chosenAlg .rsa t.sigAlg) ⟨encSpki ⟨Keys.oidRSA, nullBytes⟩ key, ⟨Keys.oidRSA, nullBytes⟩, key⟩)
      ⟨encSpki ⟨Keys.oidRSA, nullBytes⟩ key, ⟨Keys.oidRSA, nullBytes⟩, key⟩ = some (.key (.rsa key)) := by
    rw [hka]
    unfold csrPub parsePub
    rw [if_neg (by decide)]
    simp only [hrsa, and_self, if_true, Option.map_some]
  obtain ⟨c, c1, c2, c3, c4, c5, c6, c7, c8, c9, c10, c11, c12, c13⟩ :=
    csr_create_parse E t .rsa sign _ key der cn hc hlen (by dsimp only; decide) (.inr ⟨0x05, [], by decide, by dsimp only; decide⟩) hx hip hs _ hpub
  rw [hch] at c6
  refine ⟨c, c1, c8, c6, ?_⟩
  simp only [csrSignature, Res.ok.injEq] at c13
  exact c13.symm

/-- C105: and such a request is always made -/
theorem C105_rsa_always_violated (t : CsrTemplate) (sign : HashId → Bytes → Res Bytes) (key attrs : Bytes) (halg : t.sigAlg = .unknown)
    (ha : encAttributes t.extensions = .ok attrs) : ∃ der, createCSR t .rsa sign (.ok (⟨Keys.oidRSA, nullBytes⟩, key)) = .ok der := by
  unfold createCSR
  rw [halg, show signingParams .rsa .unknown = .ok (.sha256, ⟨[1, 2, 840, 113549, 1, 1, 11], nullBytes⟩) from rfl, Res.ok_bind]
  simp only [Res.ok_bind, ha, csrSignature]
  exact ⟨_, rfl⟩

/-- C105 is false for SM2 keys with another SM2 algorithm: the request is signed, but read back with an ECDSA key, not an SM2 one -/
theorem C105_sm2_label_violated (E : ParseEnv) (t : CsrTemplate) (sign : HashId → Bytes → Res Bytes) (x y : Nat) (der cn : Bytes)
    (hkey : Keys.OnCurve x y) (halg : t.sigAlg = .sm2Sha1 ∨ t.sigAlg = .sm2Sha256)
    (hc : createCSR t (.sm2 true) sign (marshalSM2 x y) = .ok der) (hlen : der.length < 2 ^ 31)
    (hx : ∀ e ∈ t.extra, e.id ≠ oidSAN ∧ OIDok e.id) (hip : ∀ x ∈ t.ips, x.length = 4 ∨ x.length = 16) (hs : Name E t.subject cn) :
    ∃ c k, parseCSR E der = some c ∧ c.keyAlg = .ecdsa ∧ c.pub = .key (.ecdsa k) := by
  obtain ⟨ka, key, hmk, k1, k2, k3, k4, k5⟩ := marshalSM2_ok hkey
  rw [hmk] at hc
  have hka : csrKeyAlg (chosenAlg (.sm2 true) t.sigAlg) ⟨encSpki ka key, ka, key⟩ = .ecdsa := by
    unfold csrKeyAlg
    rw [if_neg (by rcases halg with e | e <;> rw [e] <;> decide), k3]
    decide
  have hpub : csrPub E (csrKeyAlg (chosenAlg (.sm2 true) t.sigAlg) ⟨encSpki ka key, ka, key⟩) ⟨encSpki ka key, ka, key⟩ =
      some (.key (.ecdsa (ka.params ++ key))) := by
    rw [hka]
    unfold csrPub parsePub
    rw [if_neg (by decide)]
    simp only [k4, pointOk, k5, Option.isSome_some, if_true, Option.map_some]
  obtain ⟨c, c1, c2, c3, c4, c5, c6, c7, c8, _⟩ := csr_create_parse E t (.sm2 true) sign ka key der cn hc hlen k1 k2 hx hip hs _ hpub
  exact ⟨c, _, c1, by rw [c7, hka], c8⟩

/-! ## C106 -/

theorem appendToFirst_none {atvs : List (OID × Bytes)} {l : List Attribute} :
    appendToFirst atvs l = none ↔ ∀ a ∈ l, a.type = oidExtensionRequest → a.values = [] := by
  induction l with
  | nil => simp [appendToFirst]
  | cons a l ih =>
    obtain ⟨ty, vs⟩ := a
    cases vs with
    | nil => simp [appendToFirst, ih]
    | cons v vs =>
      simp only [appendToFirst]
      by_cases h : ty = oidExtensionRequest
      · rw [if_pos h]
        simp [h]
      · rw [if_neg h]
        simp [ih, h]

/-- C106 is false of the code: a template whose attributes contain an extension request is modified by `CreateCertificateRequest`, so a
second request made from it asks for the first one's extensions too -/
theorem C106_template_modified_violated : ∃ attrs exts, (mergeAttributes attrs exts).2 ≠ attrs :=
  ⟨[⟨oidExtensionRequest, [[]]⟩], [⟨oidSAN, false, []⟩], by decide⟩

theorem appendToFirst_eq {atvs : List (OID × Bytes)} {l l' : List Attribute} (h : appendToFirst atvs l = some l') : l' = l ↔ atvs = [] := by
  induction l generalizing l' with
  | nil => cases h
  | cons a l ih =>
    obtain ⟨ty, vs⟩ := a
    cases vs with
    | nil =>
      simp only [appendToFirst, Option.map_eq_some_iff] at h
      obtain ⟨l'', h, rfl⟩ := h
      simp [ih h]
    | cons v vs =>
      simp only [appendToFirst] at h
      by_cases ht : ty = oidExtensionRequest
      · rw [if_pos ht] at h
        simp only [Option.some.injEq] at h
        rw [← h]
        simp
      · rw [if_neg ht] at h
        simp only [Option.map_eq_some_iff] at h
        obtain ⟨l'', h, rfl⟩ := h
        simp [ih h]

/-- C106, exactly when the template is left alone: unless one of its attributes is an extension request with a value and there is an extension to
ask for that no extension request names yet -/
theorem C106_template_kept_partial (attrs : List Attribute) (exts : List Extension) :
    (mergeAttributes attrs exts).2 = attrs ↔
      ¬ ((∃ a ∈ attrs, a.type = oidExtensionRequest ∧ a.values ≠ []) ∧ ∃ e ∈ exts, e.id ∉ specified attrs) := by
  unfold mergeAttributes
  split
  · rename_i h
    simp [h]
  · simp only
    split
    · rename_i l hl
      have hex : ∃ a ∈ attrs, a.type = oidExtensionRequest ∧ a.values ≠ [] := by
        by_contra hn
        rw [appendToFirst_none.2 (by
          intro a ha ht
          by_contra hv
          exact hn ⟨a, ha, ht, hv⟩)] at hl
        cases hl
      simp only
      rw [appendToFirst_eq hl]
      simp only [hex, true_and, List.map_eq_nil_iff, List.filter_eq_nil_iff, not_exists, not_and, not_not]
      simp
    · rename_i hl
      have := appendToFirst_none.1 hl
      simp only [true_iff, not_and]
      rintro ⟨a, ha, ht, hv⟩
      exact absurd (this a ha ht) hv

/-- C106, when the template is left alone: what is written is the attributes and one more with the extensions -/
theorem C106_attributes_written_partial (attrs : List Attribute) (exts : List Extension) (he : exts ≠ [])
    (h : ∀ a ∈ attrs, a.type ≠ oidExtensionRequest) :
    (mergeAttributes attrs exts).1 = attrs ++ [⟨oidExtensionRequest, [exts.map fun e => (e.id, e.value)]⟩] := by
  have hs : specified attrs = [] := by
    unfold specified
    rw [List.flatMap_eq_nil_iff]
    intro a ha
    rw [if_neg (h a ha)]
  unfold mergeAttributes
  rw [if_neg he]
  simp only
  rw [hs, appendToFirst_none.2 (fun a ha e => absurd e (h a ha))]
  simp

end Verif.X509
