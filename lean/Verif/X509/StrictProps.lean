import Verif.X509.CsrProps
import Verif.X509.CrlProps
import Verif.X509.IssueProps
/-!
More about what the parsers of algorithms, requests and revocation lists insist on (C97, C105, C108).
-/
namespace Verif.X509
open Verif Asn1 Sm2

/-! ## C97: RSA PSS parameters -/

/-- the object identifier of the digest of a PSS algorithm (NIST) and the length of the digest -/
def pssSpec : Alg → Option (OID × Int)
  | .sha256PSS => some ([2, 16, 840, 1, 101, 3, 4, 2, 1], 32)
  | .sha384PSS => some ([2, 16, 840, 1, 101, 3, 4, 2, 2], 48)
  | .sha512PSS => some ([2, 16, 840, 1, 101, 3, 4, 2, 3], 64)
  | _ => none

theorem table_not_pss (o : OID) : pssSpec (((sigTable.find? (fun d => o == d.2.1)).map (·.1)).getD .unknown) = none ∨ o = [1, 2, 840, 113549, 1, 1, 10] := by
  have all : sigTable.all (fun d => (pssSpec d.1).isNone || d.2.1 == [1, 2, 840, 113549, 1, 1, 10]) = true := by decide +kernel
  cases h : sigTable.find? (fun d => o == d.2.1) with
  | none => exact .inl rfl
  | some d =>
    have hm := List.mem_of_find?_eq_some h
    have he : o = d.2.1 := by simpa using List.find?_some h
    have := List.all_eq_true.1 all d hm
    simp only [Bool.or_eq_true, Option.isNone_iff_eq_none, beq_iff_eq] at this
    rcases this with h1 | h1
    · exact .inl h1
    · exact .inr (he.trans h1)

/-- **C97, RSA PSS.** An algorithm identifier is read as RSA PSS with a digest only if it is the PSS identifier and its parameters name that digest
(with NULL parameters), the mask generation function MGF1 with the same digest (with NULL parameters), a salt as long as the digest and trailer 1. -/
theorem C97_pss_strict (a : AlgId) (o : OID) (n : Int) (h : pssSpec (algFromAI a) = some (o, n)) :
    a.oid = [1, 2, 840, 113549, 1, 1, 10] ∧ ∃ p mgfHash rest, parsePss a.params = some p ∧ p.hash = ⟨o, [5, 0]⟩ ∧ p.salt = n ∧ p.trailer = 1 ∧
      p.mgf.oid = [1, 2, 840, 113549, 1, 1, 8] ∧ algId p.mgf.params = some (mgfHash, rest) ∧ mgfHash = ⟨o, [5, 0]⟩ := by
  unfold algFromAI at h
  by_cases ho : a.oid = oidRSAPSS
  · refine ⟨ho, ?_⟩
    rw [if_neg (by simpa using ho)] at h
    unfold pssAlg at h
    split at h
    · cases h
    · rename_i p hp
      split at h
      · cases h
      · rename_i m r hm
        split at h
        · cases h
        · rename_i hc
          push Not at hc
          obtain ⟨c1, c2, c3, c4, c5⟩ := hc
          have fin : ∀ o' n', p.hash.oid = o' → p.salt = n' → (o', n') = (o, n) →
              ∃ p' mgfHash rest, parsePss a.params = some p' ∧ p'.hash = ⟨o, [5, 0]⟩ ∧ p'.salt = n ∧ p'.trailer = 1 ∧
                p'.mgf.oid = [1, 2, 840, 113549, 1, 1, 8] ∧ algId p'.mgf.params = some (mgfHash, rest) ∧ mgfHash = ⟨o, [5, 0]⟩ := by
            intro o' n' e1 e2 e3
            simp only [Prod.mk.injEq] at e3
            obtain ⟨ph, pm, ps, pt⟩ := p
            obtain ⟨pho, php⟩ := ph
            obtain ⟨mo, mp⟩ := m
            dsimp only at c1 c2 c3 c4 c5 e1 e2 hm
            subst e1 e2
            rw [e3.1] at c3
            subst c3 c1 c4
            refine ⟨_, _, r, hp, ?_, ?_, ?_, c2, hm, ?_⟩
            · dsimp only; rw [e3.1]; rfl
            · dsimp only; exact e3.2
            · dsimp only; exact c5
            · rfl
          split at h
          · rename_i h1
            exact fin _ _ h1.1 h1.2 (by simpa [pssSpec, oidSHA256] using h)
          · split at h
            · rename_i h1
              exact fin _ _ h1.1 h1.2 (by simpa [pssSpec, oidSHA384] using h)
            · split at h
              · rename_i h1
                exact fin _ _ h1.1 h1.2 (by simpa [pssSpec, oidSHA512] using h)
              · cases h
  · exfalso
    rw [if_pos ho] at h
    rcases table_not_pss a.oid with h1 | h1
    · rw [h1] at h; cases h
    · exact ho h1

/-- met by the identifiers the package writes -/
example : pssSpec (algFromAI ⟨oidRSAPSS, pssParams .sha256⟩) = some ([2, 16, 840, 1, 101, 3, 4, 2, 1], 32) := by decide +kernel

/-! ## C105: more requests -/

/-- the identifier of a NIST curve -/
def nistOid : Keys.Named → OID
  | .sm2 => []
  | .p224 => [1, 3, 132, 0, 33]
  | .p256 => [1, 2, 840, 10045, 3, 1, 7]
  | .p384 => [1, 3, 132, 0, 34]
  | .p521 => [1, 3, 132, 0, 35]

/-- **C105, ECDSA keys** on the NIST curves, with any algorithm: the request is read back with the template's subject, names and extensions and the key, and
if the key's signatures verify (outside the model), so does the request. -/
theorem C105_ecdsa_round_trip (E : Env) (PE : ParseEnv) (t : CsrTemplate) (cv : Keys.Named) (hcv : cv ≠ .sm2) (sign : HashId → Bytes → Res Bytes)
    (bits der cn : Bytes) (hpt : PE.nistPoint cv bits = true)
    (hc : createCSR t (.ecdsa (some cv)) sign (.ok (⟨[1, 2, 840, 10045, 2, 1], Keys.encOIDTLV (nistOid cv)⟩, bits)) = .ok der) (hlen : der.length < 2 ^ 31)
    (hx : ∀ e ∈ t.extra, e.id ≠ oidSAN ∧ OIDok e.id) (hip : ∀ x ∈ t.ips, x.length = 4 ∨ x.length = 16) (hs : Name PE t.subject cn)
    (hv : ∀ alg msg sig, algKey alg = .ecdsa → sign (algHash alg) msg = .ok sig →
      E.otherVerify alg (.ecdsa (Keys.encOIDTLV (nistOid cv) ++ bits)) msg sig = none) (f : Keys.Named → Bytes → Bytes → Bytes → Bool) :
    ∃ c, parseCSR PE der = some c ∧ c.raw = der ∧ c.version = 0 ∧ c.rawSubject = t.subject ∧ c.sigAlg = chosenAlg (.ecdsa (some cv)) t.sigAlg ∧
      c.keyAlg = .ecdsa ∧ c.pub = .key (.ecdsa (Keys.encOIDTLV (nistOid cv) ++ bits)) ∧
      c.extensions = (if t.dnsNames = [] ∧ t.emails = [] ∧ t.ips = [] then [] else [⟨[2, 5, 29, 17], false, sanValue t.dnsNames t.emails t.ips⟩]) ++
        t.extra.map (fun e => ⟨e.id, false, e.value⟩) ∧
      c.dnsNames = t.dnsNames ∧ c.emails = t.emails ∧ c.ips = t.ips.map ipBytes ∧ csrCheckSignature E f c = none := by
  have hsp : ∃ r, signingParams (.ecdsa (some cv)) t.sigAlg = .ok r := by
    unfold createCSR at hc
    obtain ⟨r, hr, _⟩ := Res.bind_eq_ok.1 hc
    exact ⟨r, hr⟩
  have hk : algKey (chosenAlg (.ecdsa (some cv)) t.sigAlg) = .ecdsa := ((C97_algorithm_available _ _).1 hsp).2.1
  have hne : ∀ a, algKey a = .ecdsa → a ≠ .sm2Sm3 ∧ a ≠ .md2RSA ∧ a ≠ .md5RSA ∧ a ≠ .unknown := by
    intro a ha
    refine ⟨?_, ?_, ?_, ?_⟩ <;> rintro rfl <;> cases ha
  obtain ⟨n1, n2, n3, n4⟩ := hne _ hk
  have hka : ∀ s : Spki, s.alg.oid = [1, 2, 840, 10045, 2, 1] → csrKeyAlg (chosenAlg (.ecdsa (some cv)) t.sigAlg) s = .ecdsa := by
    intro s h
    unfold csrKeyAlg
    rw [if_neg n1, h]
    decide
  have hcp : curveOfParams (Keys.encOIDTLV (nistOid cv)) = some cv := by
    cases cv
    · exact absurd rfl hcv
    all_goals decide +kernel
  have hpub : csrPub PE (csrKeyAlg (chosenAlg (.ecdsa (some cv)) t.sigAlg) ⟨encSpki ⟨[1, 2, 840, 10045, 2, 1], Keys.encOIDTLV (nistOid cv)⟩ bits, ⟨[1, 2, 840, 10045, 2, 1], Keys.encOIDTLV (nistOid cv)⟩, bits⟩)
      ⟨encSpki ⟨[1, 2, 840, 10045, 2, 1], Keys.encOIDTLV (nistOid cv)⟩ bits, ⟨[1, 2, 840, 10045, 2, 1], Keys.encOIDTLV (nistOid cv)⟩, bits⟩ =
      some (.key (.ecdsa (Keys.encOIDTLV (nistOid cv) ++ bits))) := by
    rw [hka _ rfl]
    unfold csrPub
    rw [if_neg (by decide)]
    simp only [parsePub, hcp, pointOk, if_neg hcv, hpt, if_true, Option.map_some]
  obtain ⟨c, c1, c2, c3, c4, c5, c6, c7, c8, c9, c10, c11, c12, c13⟩ :=
    csr_create_parse PE t (.ecdsa (some cv)) sign _ bits der cn hc hlen (by dsimp only; decide) (.inr ⟨0x06, _, by decide, rfl⟩) hx hip hs _ hpub
  rw [hka _ rfl] at c7
  rw [extensions_spec t (fun e he => (hx e he).1)] at c9
  refine ⟨c, c1, c2, c3, c4, c6, c7, c8, c9, c10, c11, c12, ?_⟩
  unfold csrCheckSignature
  rw [c8, c6]
  unfold checkSignature
  simp only
  rw [if_neg (by simp [n2, n3]), if_neg n4]
  exact hv _ _ _ hk c13

/-- a list of extensions whose last subject alternative name is `e` -/
theorem csrSan_last (a b : List Extension) (e : Extension) (s0 s : List Bytes × List Bytes × List Bytes) (he : e.id = oidSAN) (hp : parseSAN e.value = some s)
    (ha : ∀ x ∈ a, x.id = oidSAN → parseSAN x.value ≠ none) (hb : ∀ x ∈ b, x.id ≠ oidSAN) : csrSan ((a ++ e :: b).map uncritical) s0 = some s := by
  induction a generalizing s0 with
  | nil =>
    simp only [List.nil_append, List.map_cons, csrSan]
    rw [if_pos (show (uncritical e).id = oidSAN from he)]
    simp only [uncritical, hp]
    clear ha
    induction b with
    | nil => rfl
    | cons x b ih =>
      simp only [List.map_cons, csrSan]
      rw [if_neg (show (uncritical x).id ≠ oidSAN from hb x List.mem_cons_self)]
      exact ih (fun y hy => hb y (List.mem_cons_of_mem _ hy))
  | cons x a ih =>
    simp only [List.cons_append, List.map_cons, csrSan]
    have ih' := fun s0 => ih s0 (fun y hy => ha y (List.mem_cons_of_mem _ hy))
    split
    · rename_i hx
      split
      · rename_i hn
        exact absurd hn (ha x List.mem_cons_self hx)
      · exact ih' _
    · exact ih' _

/-- **C105, names given as an extra extension.** When the extra extensions contain subject alternative names, these override the template's name fields: the
request asks for the extra extensions only, and its names are those of the last one. -/
theorem C105_san_override (PE : ParseEnv) (t : CsrTemplate) (kind : KeyKind) (sign : HashId → Bytes → Res Bytes) (ka : AlgId) (key der cn : Bytes)
    (hc : createCSR t kind sign (.ok (ka, key)) = .ok der) (hlen : der.length < 2 ^ 31) (hko : OIDok ka.oid) (hkp : ParamsOk ka.params)
    (hx : ∀ e ∈ t.extra, OIDok e.id) (a b : List Extension) (critical : Bool) (dns emails ips : List Bytes)
    (hex : t.extra = a ++ ⟨[2, 5, 29, 17], critical, sanValue dns emails ips⟩ :: b) (ha : ∀ x ∈ a, x.id = [2, 5, 29, 17] → parseSAN x.value ≠ none)
    (hb : ∀ x ∈ b, x.id ≠ [2, 5, 29, 17]) (hip : ∀ x ∈ ips, x.length = 4 ∨ x.length = 16) (hs : Name PE t.subject cn)
    (pub : CsrPub) (hpub : csrPub PE (csrKeyAlg (chosenAlg kind t.sigAlg) ⟨encSpki ka key, ka, key⟩) ⟨encSpki ka key, ka, key⟩ = some pub) :
    ∃ c, parseCSR PE der = some c ∧ c.extensions = t.extra.map (fun e => ⟨e.id, false, e.value⟩) ∧ c.dnsNames = dns ∧ c.emails = emails ∧
      c.ips = ips.map ipBytes := by
  have hext : t.extensions = t.extra := by
    unfold CsrTemplate.extensions
    have : oidIn oidSAN t.extra = true := by
      unfold oidIn
      rw [hex]
      simp [oidSAN]
    rw [this]
    simp
  obtain ⟨c, c1, c2, c3, c4, c5, c6, c7, c8, c9, c10, c11, c12, c13⟩ :=
    csr_create_parse_san PE t kind sign ka key der cn hc hlen hko hkp hx dns emails (ips.map ipBytes) (by
      intro hl
      rw [hext] at hl ⊢
      rw [hex] at hl ⊢
      refine csrSan_last a b _ _ _ rfl (san_round dns emails ips ?_ hip) ha hb
      exact hl ⟨[2, 5, 29, 17], critical, sanValue dns emails ips⟩ (by simp)) hs pub hpub
  rw [hext] at c9
  exact ⟨c, c1, c9, c10, c11, c12⟩

/-- **C105.** `Raw` of a parsed request is the whole input (so nothing may follow it), and `RawTBSCertificateRequest` is a part of it. -/
theorem C105_raw (E : ParseEnv) (der : Bytes) (c : Csr) (h : parseCSR E der = some c) :
    c.raw = der ∧ ∃ pre post, der = pre ++ c.rawTBS ++ post := by
  unfold parseCSR at h
  split at h
  · rename_i rc hrc
    unfold parseRawCsr at hrc
    simp only [Option.bind_eq_bind, Option.bind_eq_some_iff, Option.some.injEq, Prod.mk.injEq, Prod.exists] at hrc
    obtain ⟨e, r, he, t, cc, ht, tbs, htbs, a, c2, ha, s, c3, hs, hrc, rfl⟩ := hrc
    obtain ⟨h1, h2⟩ := seqField_inv he
    obtain ⟨h3, h4⟩ := seqField_inv ht
    have hraw : tbs.raw = t.full := by
      unfold parseCsrTbs at htbs
      simp only [Option.bind_eq_bind, Option.bind_eq_some_iff, Option.some.injEq, Prod.exists] at htbs
      obtain ⟨_, _, _, _, _, _, _, _, _, _, _, _, _, _, _, _, rfl⟩ := htbs
      rfl
    have hc : c.raw = rc.raw ∧ c.rawTBS = rc.tbs.raw := by
      unfold parseCsrBody at h
      simp only [Option.bind_eq_bind, Option.bind_eq_some_iff, Option.some.injEq] at h
      obtain ⟨_, _, _, _, _, _, _, _, rfl⟩ := h
      exact ⟨rfl, rfl⟩
    rw [hc.1, hc.2, ← hrc]
    dsimp only
    rw [List.append_nil] at h1
    refine ⟨h1.symm, ?_⟩
    obtain ⟨pre, hpre⟩ := elem_body_suffix (seqField_elem he)
    refine ⟨pre, cc, ?_⟩
    rw [h1, hpre, h3, hraw, List.append_assoc]
  · cases h

/-- **C105, C108.** Bytes after a request or a revocation list are refused. -/
theorem C105_no_trailing (E : ParseEnv) (der x : Bytes) (hx : x ≠ []) (c : Csr) (h : parseCSR E der = some c) : parseCSR E (der ++ x) = none := by
  cases h' : parseCSR E (der ++ x) with
  | none => rfl
  | some c' =>
    exfalso
    have key : ∀ b c, parseCSR E b = some c → ∃ e, seqField b = some (e, []) := by
      intro b c h
      unfold parseCSR at h
      split at h
      · rename_i rc hrc
        unfold parseRawCsr at hrc
        simp only [Option.bind_eq_bind, Option.bind_eq_some_iff, Option.some.injEq, Prod.mk.injEq, Prod.exists] at hrc
        obtain ⟨e, r, he, t, cc, ht, tbs, htbs, a, c2, ha, s, c3, hs, hrc, rfl⟩ := hrc
        exact ⟨e, he⟩
      · cases h
    obtain ⟨e, he⟩ := key _ _ h
    obtain ⟨e', he'⟩ := key _ _ h'
    obtain ⟨h1, h2⟩ := seqField_inv he
    rw [List.append_nil] at h1
    rw [h1, h2 x] at he'
    simp only [Option.some.injEq, Prod.mk.injEq] at he'
    exact hx he'.2

theorem C108_no_trailing (E : ParseEnv) (der x : Bytes) (hx : x ≠ []) (c : Crl) (h : parseCRL E der = some c) : parseCRL E (der ++ x) = none := by
  cases h' : parseCRL E (der ++ x) with
  | none => rfl
  | some c' =>
    exfalso
    have key : ∀ b c, parseCRL E b = some c → ∃ e, seqField b = some (e, []) := by
      intro b c h
      unfold parseCRL at h
      split at h
      · rename_i rc hrc
        unfold parseRawCrl at hrc
        simp only [Option.bind_eq_bind, Option.bind_eq_some_iff, Option.some.injEq, Prod.mk.injEq, Prod.exists] at hrc
        obtain ⟨e, r, he, t, cc, ht, tbs, htbs, a, c2, ha, s, c3, hs, hrc, rfl⟩ := hrc
        exact ⟨e, he⟩
      · cases h
    obtain ⟨e, he⟩ := key _ _ h
    obtain ⟨e', he'⟩ := key _ _ h'
    obtain ⟨h1, h2⟩ := seqField_inv he
    rw [List.append_nil] at h1
    rw [h1, h2 x] at he'
    simp only [Option.some.injEq, Prod.mk.injEq] at he'
    exact hx he'.2

/-! ## C112: what a request says is signed -/

theorem parseCSR_inv {E : ParseEnv} {der : Bytes} {c : Csr} (h : parseCSR E der = some c) :
    ∃ (t : Elem) (tbs : CsrTbs) (a : AlgId), seqField c.rawTBS = some (t, []) ∧ parseCsrTbs c.rawTBS t.body = some tbs ∧ c.sigAlg = algFromAI a ∧
      parseCsrBody E ⟨c.raw, tbs, a, c.signature⟩ = some c := by
  unfold parseCSR at h
  split at h
  · rename_i rc hrc
    unfold parseRawCsr at hrc
    simp only [Option.bind_eq_bind, Option.bind_eq_some_iff, Option.some.injEq, Prod.mk.injEq, Prod.exists] at hrc
    obtain ⟨e, r, he, t, cc, ht, tbs, htbs, a, c2, ha, s, c3, hs, hrc, rfl⟩ := hrc
    obtain ⟨h3, h4⟩ := seqField_inv ht
    have hraw : tbs.raw = t.full := by
      unfold parseCsrTbs at htbs
      simp only [Option.bind_eq_bind, Option.bind_eq_some_iff, Option.some.injEq, Prod.exists] at htbs
      obtain ⟨_, _, _, _, _, _, _, _, _, _, _, _, _, _, _, _, rfl⟩ := htbs
      rfl
    have hc : c.raw = rc.raw ∧ c.rawTBS = rc.tbs.raw ∧ c.signature = rc.signature ∧ c.sigAlg = algFromAI rc.alg := by
      unfold parseCsrBody at h
      simp only [Option.bind_eq_bind, Option.bind_eq_some_iff, Option.some.injEq] at h
      obtain ⟨_, _, _, _, _, _, _, _, rfl⟩ := h
      exact ⟨rfl, rfl, rfl, rfl⟩
    rw [← hrc] at hc h
    dsimp only at hc
    have h4' := h4 []
    rw [List.append_nil, ← hraw, ← hc.2.1] at h4'
    refine ⟨t, tbs, a, h4', ?_, hc.2.2.2, ?_⟩
    · rw [hc.2.1, hraw]; exact htbs
    · rw [hc.1, hc.2.2.1]; exact h
  · cases h

/-- **C112.** Two requests with the same `RawTBSCertificateRequest`, the bytes `CheckSignature` looks at, agree on subject, version, encoded key, extensions and
names. The kind of key they are read with is the same if both or neither are labelled SM2 with SM3; that is what is missing. -/
theorem C112_request_signed_bytes_partial (E : ParseEnv) (der der' : Bytes) (c c' : Csr) (h : parseCSR E der = some c) (h' : parseCSR E der' = some c')
    (ht : c.rawTBS = c'.rawTBS) :
    c.version = c'.version ∧ c.rawSubject = c'.rawSubject ∧ c.rawSPKI = c'.rawSPKI ∧ c.extensions = c'.extensions ∧ c.dnsNames = c'.dnsNames ∧
      c.emails = c'.emails ∧ c.ips = c'.ips ∧ ((c.sigAlg = .sm2Sm3 ↔ c'.sigAlg = .sm2Sm3) → c.pub = c'.pub ∧ c.keyAlg = c'.keyAlg) := by
  obtain ⟨t, tbs, a, k1, k2, k3, k4⟩ := parseCSR_inv h
  obtain ⟨t', tbs', a', k1', k2', k3', k4'⟩ := parseCSR_inv h'
  rw [ht] at k1 k2
  rw [k1] at k1'
  simp only [Option.some.injEq, Prod.mk.injEq, and_true] at k1'
  subst k1'
  rw [k2] at k2'
  simp only [Option.some.injEq] at k2'
  subst k2'
  unfold parseCsrBody at k4 k4'
  simp only [Option.bind_eq_bind, Option.bind_eq_some_iff, Option.some.injEq] at k4 k4'
  obtain ⟨pub, p1, rd, p2, exts, p3, san, p4, hc⟩ := k4
  obtain ⟨pub', p1', rd', p2', exts', p3', san', p4', hc'⟩ := k4'
  rw [p3] at p3'
  simp only [Option.some.injEq] at p3'
  subst p3'
  rw [p4] at p4'
  simp only [Option.some.injEq] at p4'
  subst p4'
  rw [k3, k3']
  have hx : (algFromAI a = .sm2Sm3 ↔ algFromAI a' = .sm2Sm3) → csrKeyAlg (algFromAI a) tbs.spki = csrKeyAlg (algFromAI a') tbs.spki := by
    intro hi
    unfold csrKeyAlg
    by_cases h1 : algFromAI a = .sm2Sm3
    · rw [if_pos h1, if_pos (hi.1 h1)]
    · rw [if_neg h1, if_neg (fun h2 => h1 (hi.2 h2))]
  rw [← hc, ← hc']
  refine ⟨rfl, rfl, rfl, rfl, rfl, rfl, rfl, fun hi => ?_⟩
  dsimp only
  rw [← hx hi] at p1' ⊢
  rw [p1] at p1'
  simp only [Option.some.injEq] at p1'
  exact ⟨p1', rfl⟩

end Verif.X509
