import Verif.X509.CertRound
import Verif.Keys.PubProps
/-!
C97–C98: creating a certificate and parsing it back (x509/x509.go:1183-1465, 1763-1836, 1860-1961).
-/
namespace Verif.X509
open Verif Asn1

/-! ## C97: signature algorithms -/

/-- the algorithm each kind of key signs with when none is asked for (x509/x509.go:1763-1801) -/
def defaultAlg : KeyKind → Alg
  | .sm2 _ => .sm2Sm3
  | .rsa => .sha256RSA
  | .ecdsa (some .p384) => .ecdsaSha384
  | .ecdsa (some .p521) => .ecdsaSha512
  | .ecdsa _ => .ecdsaSha256
  | .other => .unknown

/-- the algorithm a certificate is to be signed with -/
def chosenAlg (k : KeyKind) (req : Alg) : Alg := if req = .unknown then defaultAlg k else req

/-- the digest each algorithm names (x509/x509.go:347-372) -/
def algHash : Alg → HashId
  | .md5RSA => .md5
  | .sha1RSA | .dsaSha1 | .ecdsaSha1 | .sm2Sha1 => .sha1
  | .sha256RSA | .dsaSha256 | .ecdsaSha256 | .sha256PSS | .sm2Sha256 => .sha256
  | .sha384RSA | .ecdsaSha384 | .sha384PSS => .sha384
  | .sha512RSA | .ecdsaSha512 | .sha512PSS => .sha512
  | .sm2Sm3 => .sm3
  | .unknown | .md2RSA => .none

/-- the kind of key each algorithm is for -/
def algKey : Alg → KeyAlg
  | .md2RSA | .md5RSA | .sha1RSA | .sha256RSA | .sha384RSA | .sha512RSA | .sha256PSS | .sha384PSS | .sha512PSS => .rsa
  | .dsaSha1 | .dsaSha256 => .dsa
  | .ecdsaSha1 | .ecdsaSha256 | .ecdsaSha384 | .ecdsaSha512 => .ecdsa
  | .sm2Sm3 | .sm2Sha1 | .sm2Sha256 => .sm2
  | .unknown => .unknown

def kindKey : KeyKind → KeyAlg
  | .sm2 _ => .sm2
  | .rsa => .rsa
  | .ecdsa _ => .ecdsa
  | .other => .unknown

def allAlgs : List Alg :=
  [.unknown, .md2RSA, .md5RSA, .sha1RSA, .sha256RSA, .sha384RSA, .sha512RSA, .dsaSha1, .dsaSha256, .ecdsaSha1, .ecdsaSha256,
   .ecdsaSha384, .ecdsaSha512, .sha256PSS, .sha384PSS, .sha512PSS, .sm2Sm3, .sm2Sha1, .sm2Sha256]

def allKinds : List KeyKind :=
  [.sm2 true, .sm2 false, .rsa, .ecdsa none, .ecdsa (some .p224), .ecdsa (some .p256), .ecdsa (some .p384), .ecdsa (some .p521),
   .ecdsa (some .sm2), .other]

theorem mem_allAlgs (a : Alg) : a ∈ allAlgs := by cases a <;> decide

theorem mem_allKinds (k : KeyKind) : k ∈ allKinds := by
  match k with
  | .sm2 true => decide
  | .sm2 false => decide
  | .rsa => decide
  | .ecdsa none => decide
  | .ecdsa (some c) => cases c <;> decide
  | .other => decide

def paramsOkB (p : Bytes) : Bool :=
  p == [] || p == Der.encTLV 0x05 [] || p == pssParams .sha256 || p == pssParams .sha384 || p == pssParams .sha512

theorem paramsOkB_ok {p : Bytes} (h : paramsOkB p = true) : ParamsOk p := by
  simp only [paramsOkB, Bool.or_eq_true, beq_iff_eq] at h
  rcases h with (((h | h) | h) | h) | h
  · exact .inl h
  · exact .inr ⟨0x05, [], by decide, h⟩
  · exact .inr ⟨0x30, _, by decide, h⟩
  · exact .inr ⟨0x30, _, by decide, h⟩
  · exact .inr ⟨0x30, _, by decide, h⟩

def signingOk (k : KeyKind) (req : Alg) : Bool :=
  match signingParams k req with
  | .ok (h, ai) =>
    decide (algFromAI ai = chosenAlg k req) && decide (h = algHash (chosenAlg k req)) && decide (algKey (chosenAlg k req) = kindKey k) &&
      decide (OIDok ai.oid) && paramsOkB ai.params && decide ((encAlgId ai).length < 200) && decide (h ≠ .none)
  | _ => true

theorem signingOk_all : (allKinds.all fun k => allAlgs.all fun a => signingOk k a) = true := by decide +kernel

theorem signing_facts {k : KeyKind} {req : Alg} {h : HashId} {ai : AlgId} (hs : signingParams k req = .ok (h, ai)) :
    algFromAI ai = chosenAlg k req ∧ h = algHash (chosenAlg k req) ∧ algKey (chosenAlg k req) = kindKey k ∧ OIDok ai.oid ∧
      ParamsOk ai.params ∧ (encAlgId ai).length < 200 ∧ h ≠ .none := by
  have := List.all_eq_true.1 (List.all_eq_true.1 signingOk_all k (mem_allKinds k)) req (mem_allAlgs req)
  unfold signingOk at this
  rw [hs] at this
  simp only [Bool.and_eq_true, decide_eq_true_eq] at this
  obtain ⟨⟨⟨⟨⟨⟨h1, h2⟩, h3⟩, h4⟩, h5⟩, h6⟩, h7⟩ := this
  exact ⟨h1, h2, h3, h4, paramsOkB_ok h5, h6, h7⟩

/-- C97: for every kind of signing key and every requested algorithm, when the library agrees to sign, the algorithm identifier it
writes is the one its own parser reads back as the requested algorithm (the key's default when none was requested), the digest is that
algorithm's, and the algorithm is one for that kind of key. -/
theorem C97_algorithm_consistent (k : KeyKind) (req : Alg) (h : HashId) (ai : AlgId) (hs : signingParams k req = .ok (h, ai)) :
    algFromAI ai = chosenAlg k req ∧ h = algHash (chosenAlg k req) ∧ algKey (chosenAlg k req) = kindKey k := by
  obtain ⟨h1, h2, h3, _⟩ := signing_facts hs
  exact ⟨h1, h2, h3⟩

/-- C97: and it agrees exactly for the keys it knows (SM2 on the SM2 curve, RSA, ECDSA on a NIST curve) and the algorithms of the
key's kind, except MD2 -/
theorem C97_algorithm_available (k : KeyKind) (req : Alg) :
    (∃ r, signingParams k req = .ok r) ↔
      (k ≠ .other ∧ k ≠ .sm2 false ∧ k ≠ .ecdsa none ∧ k ≠ .ecdsa (some .sm2)) ∧ algKey (chosenAlg k req) = kindKey k ∧ req ≠ .md2RSA := by
  have all : (allKinds.all fun k => allAlgs.all fun a =>
      decide ((match signingParams k a with | .ok _ => true | _ => false) = true ↔
        (k ≠ .other ∧ k ≠ .sm2 false ∧ k ≠ .ecdsa none ∧ k ≠ .ecdsa (some .sm2)) ∧ algKey (chosenAlg k a) = kindKey k ∧ a ≠ .md2RSA)) = true := by
    decide +kernel
  have := List.all_eq_true.1 (List.all_eq_true.1 all k (mem_allKinds k)) req (mem_allAlgs req)
  simp only [decide_eq_true_eq] at this
  rw [← this]
  cases signingParams k req <;> simp

example : ∃ r, signingParams (.sm2 true) .unknown = .ok r := (C97_algorithm_available _ _).2 (by decide)
example : ∃ r, signingParams .rsa .sha384PSS = .ok r := (C97_algorithm_available _ _).2 (by decide)

/-! ## C98: create, then parse -/

/-- the standard library's times: what is written is read back -/
def TimeLaw (E : ParseEnv) (time : Int → Res Bytes) : Prop := ∀ t b r, time t = .ok b → E.time (b ++ r) = some (t, r)

/-- a distinguished name in DER that the standard library reads, with its common name -/
structure Name (E : ParseEnv) (b cn : Bytes) : Prop where
  der : ∃ c, b = Der.encTLV 0x30 c
  rdn : E.rdn b = some cn

theorem recognised_ok : ∀ o ∈ recognised, OIDok o := by decide

/-- the parsed form of a created to-be-signed part -/
theorem parseTbs_enc (E : ParseEnv) (time : Int → Res Bytes) (hT : TimeLaw E time) (r : Request) (alg keyAlg : AlgId) (key : Bytes)
    (exts : List Extension) (tbs : Bytes) (cs ci : Bytes) (h : encTbs time r alg keyAlg key exts = .ok tbs) (hlen : tbs.length < 2 ^ 31)
    (ha : OIDok alg.oid) (hap : ParamsOk alg.params) (hk : OIDok keyAlg.oid) (hkp : ParamsOk keyAlg.params)
    (hs : r.subject = Der.encTLV 0x30 cs) (hi : r.issuer = Der.encTLV 0x30 ci) (ho : ∀ e ∈ exts, OIDok e.id) :
    ∃ body, tbs = Der.encTLV 0x30 body ∧
      parseTbs E tbs body = some ⟨tbs, 2, r.serial, alg, r.issuer, r.notBefore, r.notAfter, r.subject,
        ⟨encSpki keyAlg key, keyAlg, key⟩, exts⟩ ∧ ∀ e ∈ exts, e.value.length < 2 ^ 31 := by
  unfold encTbs at h
  obtain ⟨nb, hnb, h⟩ := Res.bind_eq_ok.1 h
  obtain ⟨na, hna, h⟩ := Res.bind_eq_ok.1 h
  obtain ⟨xs, hxs, h⟩ := Res.bind_eq_ok.1 h
  simp only [Res.ok.injEq] at h
  refine ⟨_, h.symm, ?_⟩
  have hb : (Der.encTLV 0xa0 (Der.encInt 2) ++ Der.encInt r.serial ++ encAlgId alg ++ r.issuer ++ Der.encTLV 0x30 (nb ++ na) ++ r.subject ++
     encSpki keyAlg key ++ Der.encTLV 0xa3 (Der.encTLV 0x30 xs)).length < 2 ^ 31 := by
    refine tlv_len (id := 0x30) ?_
    rw [h]; exact hlen
  simp only [List.append_assoc, List.length_append] at hb ⊢
  have hxl : (Der.encTLV 0x30 xs).length < 2 ^ 31 := by
    have := encTLV_len 0xa3 (Der.encTLV 0x30 xs)
    omega
  have hvl : ∀ e ∈ exts, e.value.length < 2 ^ 31 := by
    intro e he
    have hm : xs = exts.flatMap (fun e => Der.encTLV 0x30 (extBody e)) := marshalAll_flatMap _ hxs (fun e _ y hy => encExt_eq hy)
    have h1 := flatMap_len_le (fun e => Der.encTLV 0x30 (extBody e)) exts e he
    have h2 := encTLV_len 0x30 (extBody e)
    have h3 := encTLV_len 0x30 xs
    have h4 := encTLV_len 0x04 e.value
    rw [← hm] at h1
    have h5 : (Der.encTLV 0x04 e.value).length ≤ (extBody e).length := by simp [extBody]; omega
    omega
  refine ⟨?_, hvl⟩
  unfold parseTbs
  -- version
  have e1 : ∀ r', optInt 0xa0 0 (Der.encTLV 0xa0 (Der.encInt 2) ++ r') = some (2, r') := by
    intro r'
    unfold optInt Der.encInt
    rw [explicit_enc 0xa0 0x02 _ r' (by decide) (by decide) (by decide) (by decide +kernel)]
    simp only
    have : intBody (Der.encIntBody 2) = some 2 := by decide +kernel
    rw [this]; rfl
  rw [e1]
  simp only [Option.bind_eq_bind, Option.bind_some]
  have hsl : (Der.encIntBody r.serial).length < 2 ^ 31 := by
    have := encTLV_len 0x02 (Der.encIntBody r.serial)
    simp only [Der.encInt] at hb
    omega
  rw [Der.parseInt_encInt r.serial _ hsl]
  simp only [Option.bind_some]
  rw [algId_enc alg ha hap (by omega)]
  simp only [Option.bind_some]
  have hcil : ci.length < 2 ^ 31 := by
    have := encTLV_len 0x30 ci
    rw [← hi] at this
    omega
  have hcsl : cs.length < 2 ^ 31 := by
    have := encTLV_len 0x30 cs
    rw [← hs] at this
    omega
  rw [hi, elem_enc 0x30 ci _ (by decide) hcil]
  simp only [Option.bind_some]
  have e2 : ∀ r', parseValidity E (Der.encTLV 0x30 (nb ++ na) ++ r') = some ((r.notBefore, r.notAfter), r') := by
    intro r'
    have hl : (nb ++ na).length < 2 ^ 31 := by
      have := encTLV_len 0x30 (nb ++ na)
      omega
    unfold parseValidity
    rw [Der.parseTLV_encTLV 0x30 _ r' (by decide) hl]
    have h2 := hT r.notAfter na [] hna
    rw [List.append_nil] at h2
    simp [hT r.notBefore nb na hnb, h2]
  rw [e2]
  simp only [Option.bind_some]
  rw [hs, elem_enc 0x30 cs _ (by decide) hcsl]
  simp only [Option.bind_some]
  rw [spkiField_enc keyAlg key _ hk hkp (by omega)]
  simp only [Option.bind_some]
  have e3 : ∀ id : Byte, (id = 0x81 ∨ id = 0x82) →
      skipBitString id (Der.encTLV 0xa3 (Der.encTLV 0x30 xs)) = some (Der.encTLV 0xa3 (Der.encTLV 0x30 xs)) := by
    intro id hid
    unfold skipBitString
    have := opt_other id 0xa3 (Der.encTLV 0x30 xs) [] (by decide) hxl (by rcases hid with rfl | rfl <;> simp [hdrOf, Hdr.is])
    rw [List.append_nil] at this
    rw [this]
  rw [e3 0x81 (.inl rfl)]
  simp only [Option.bind_some]
  rw [e3 0x82 (.inr rfl)]
  simp only [Option.bind_some]
  rw [parseExts_enc exts xs hxs ho hxl]
  rfl

/-- C98: every certificate `CreateCertificate` makes for an SM2 subject key is one `ParseCertificate` accepts, and what it reads is what
was asked for: the serial number, the two names, the validity, the requested algorithm, the subject's key, every field of the template,
the extensions with the extra ones verbatim, the critical extra ones as unhandled, and a signature by the signer over exactly the bytes
the parser hands out as `RawTBSCertificate`. -/
theorem C98_create_parse (E : ParseEnv) (time : Int → Res Bytes) (hT : TimeLaw E time) (r : Request) (kind : KeyKind)
    (sign : HashId → Bytes → Res Bytes) (x y : Nat) (der cn cn' : Bytes) (hkey : Keys.OnCurve x y)
    (hc : createCertificate time r kind sign (marshalSM2 x y) = .ok der) (hlen : der.length < 2 ^ 31) (ht : Template r.fields)
    (hx : ∀ e ∈ r.extra, e.id ∉ recognised ∧ OIDok e.id) (hs : Name E r.subject cn) (hi : Name E r.issuer cn') :
    ∃ c, parse E der = some c ∧
      c.cert.raw = der ∧ c.cert.version = 3 ∧ c.serial = r.serial ∧ c.cert.rawSubject = r.subject ∧ c.cert.rawIssuer = r.issuer ∧
      c.cert.commonName = cn ∧ c.cert.notBefore = r.notBefore ∧ c.cert.notAfter = r.notAfter ∧
      c.cert.sigAlg = chosenAlg kind r.sigAlg ∧ c.keyAlg = .sm2 ∧ c.cert.pub = .sm2 x y ∧
      c.fields = expected r.fields (if r.issuer ≠ r.subject ∧ r.parentKeyId ≠ [] then r.parentKeyId else r.fields.authorityKeyId) ∧
      buildExtensions r.fields r.aki r.extra = .ok c.extensions ∧
      c.cert.unhandledCritical = (r.extra.filter (·.critical)).map (fun e => Keys.encOID e.id) ∧
      sign (algHash (chosenAlg kind r.sigAlg)) c.cert.rawTBS = .ok c.cert.signature ∧
      c.cert.rawTBS.length ≤ der.length := by
  unfold createCertificate at hc
  obtain ⟨⟨h, alg⟩, hsp, hc⟩ := Res.bind_eq_ok.1 hc
  obtain ⟨⟨ka, key⟩, hmk, hc⟩ := Res.bind_eq_ok.1 hc
  obtain ⟨exts, hex, hc⟩ := Res.bind_eq_ok.1 hc
  obtain ⟨tbs, htbs, hc⟩ := Res.bind_eq_ok.1 hc
  obtain ⟨s, hsg, hc⟩ := Res.bind_eq_ok.1 hc
  simp only [Res.ok.injEq] at hc
  obtain ⟨f1, f2, f3, f4, f5, f6, f7⟩ := signing_facts hsp
  obtain ⟨generated, hg1, _, hg3, _⟩ := C95_extra_extensions _ _ _ _ hex
  have hoids : ∀ e ∈ exts, OIDok e.id := by
    intro e he
    rw [hg1, List.mem_append] at he
    rcases he with he | he
    · exact recognised_ok _ (hg3 e he)
    · exact (hx e he).2
  obtain ⟨cs, hcs⟩ := hs.der
  obtain ⟨ci, hci⟩ := hi.der
  have hcert : encCert tbs alg s = Der.encTLV 0x30 (tbs ++ (encAlgId alg ++ encBits s)) := by unfold encCert; rw [List.append_assoc]
  rw [hcert] at hc
  have hbody : (tbs ++ (encAlgId alg ++ encBits s)).length < 2 ^ 31 := tlv_len (id := 0x30) (by rw [hc]; exact hlen)
  have hbody' := hbody
  rw [List.length_append, List.length_append] at hbody
  -- the subject's key
  obtain ⟨hx1, hy1, hon⟩ := hkey
  have hP := Keys.P_lt
  unfold marshalSM2 Keys.marshalPoint at hmk
  rw [if_neg (by omega), Res.ok_bind] at hmk
  simp only [Res.ok.injEq, Prod.mk.injEq] at hmk
  obtain ⟨hka, hkb⟩ := hmk
  have hun := (Keys.unmarshalPoint_iff key x y).2 ⟨hkb.symm, hx1, hy1, hon⟩
  have hko : OIDok ka.oid := by rw [← hka]; decide
  have hkp : ParamsOk ka.params := by rw [← hka]; exact .inr ⟨0x06, _, by decide, rfl⟩
  obtain ⟨body, hb1, hb2, hb3⟩ := parseTbs_enc E time hT r alg ka key exts tbs cs ci htbs (by omega) f4 f5 hko hkp hcs hci hoids
  have hbl : body.length < 2 ^ 31 := by
    have := encTLV_len 0x30 body
    rw [← hb1] at this
    omega
  have hraw : parseRawCert E der = some (⟨der, ⟨tbs, 2, r.serial, alg, r.issuer, r.notBefore, r.notAfter, r.subject,
        ⟨encSpki ka key, ka, key⟩, exts⟩, alg, s⟩, []) := by
    unfold parseRawCert
    have e1 := seqField_enc (tbs ++ (encAlgId alg ++ encBits s)) [] hbody'
    rw [List.append_nil, hc] at e1
    rw [e1]
    simp only [Option.bind_eq_bind, Option.bind_some]
    have e2 := seqField_enc body (encAlgId alg ++ encBits s) hbl
    rw [← hb1] at e2
    rw [e2]
    simp only [Option.bind_some]
    rw [hb2]
    simp only [Option.bind_some]
    rw [algId_enc alg f4 f5 (by omega)]
    simp only [Option.bind_some]
    have e3 := bitString_enc s [] (by omega)
    rw [List.append_nil] at e3
    rw [e3]
    rfl
  have hext := C93_template_round_trip E.rdnRelative r.fields r.aki r.extra exts ht (fun e he => (hx e he).1) hex hb3
  have hkalg : keyAlgOf ⟨encSpki ka key, ka, key⟩ = .sm2 := by
    unfold keyAlgOf
    simp only
    rw [← hka, if_pos ⟨by decide, rfl⟩]
  have hpub : parsePub E .sm2 ⟨encSpki ka key, ka, key⟩ = some (.sm2 x y) := by
    unfold parsePub
    simp only [hun, Option.map_some]
  unfold parse
  rw [hraw]
  simp only
  unfold parseCertificate
  simp only [hkalg, hpub, hs.rdn, hi.rdn, hext, Option.bind_eq_bind, Option.bind_some]
  refine ⟨_, rfl, rfl, rfl, rfl, rfl, rfl, rfl, rfl, rfl, f1, rfl, rfl, rfl, hex, ?_, ?_, ?_⟩
  · simp
  · simp only
    rw [← f2]
    exact hsg
  · simp only
    have := encTLV_len 0x30 (tbs ++ (encAlgId alg ++ encBits s))
    rw [hc, List.length_append] at this
    omega

end Verif.X509
