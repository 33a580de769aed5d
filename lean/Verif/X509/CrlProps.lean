import Verif.X509.Crl
import Verif.X509.IssueProps
/-!
C107, C108: certificate revocation lists.
-/
namespace Verif.X509
open Verif Asn1 Sm2

/-- the standard library's times, as elements: UTCTime or GeneralizedTime, read back as written -/
structure TimeLaw' (E : ParseEnv) (time : Int → Res Bytes) : Prop where
  back : TimeLaw E time
  der : ∀ t b, time t = .ok b → ∃ id c, (id = 0x17 ∨ id = 0x18) ∧ c.length < 2 ^ 31 ∧ b = Der.encTLV id c

theorem exts_seq (exts : List Extension) (xs : Bytes) (hx : marshalAll encExt exts = .ok xs) (ho : ∀ e ∈ exts, OIDok e.id)
    (h : xs.length < 2 ^ 31) : ∃ l, seqOf 0x30 xs = some l ∧ parseAll parseExt l = some exts := by
  have hm : xs = exts.flatMap (fun e => Der.encTLV 0x30 (extBody e)) :=
    marshalAll_flatMap _ hx (fun e _ y hy => encExt_eq hy)
  have hlen : ∀ e ∈ exts, (extBody e).length < 2 ^ 31 := by
    intro e he
    have h1 := flatMap_len_le (fun e => Der.encTLV 0x30 (extBody e)) exts e he
    have h2 := encTLV_len 0x30 (extBody e)
    rw [← hm] at h1
    omega
  have hs := seqOf_enc 0x30 (by decide) (exts.map extBody) (by
    intro b hb
    obtain ⟨e, he, rfl⟩ := List.mem_map.1 hb
    exact hlen e he)
  rw [List.flatMap_map, ← hm] at hs
  refine ⟨_, hs, ?_⟩
  have := parseAll_map parseExt extBody id exts (fun e he => parseExt_enc e (ho e he) (hlen e he))
  rw [this]
  simp

/-- identifiers of the extensions of a revoked certificate can be written and read -/
def RevokedOk (r : Revoked) : Prop := ∀ l, r.extensions = some l → ∀ e ∈ l, OIDok e.id

theorem revoked_enc (E : ParseEnv) (time : Int → Res Bytes) (hT : TimeLaw E time) (r : Revoked) (hr : RevokedOk r) (y : Bytes)
    (h : encRevoked time r = .ok y) (hl : y.length < 2 ^ 31) : ∃ c, y = Der.encTLV 0x30 c ∧ parseRevoked E c = some r := by
  unfold encRevoked at h
  obtain ⟨t, ht, h⟩ := Res.bind_eq_ok.1 h
  obtain ⟨x, hx, h⟩ := Res.bind_eq_ok.1 h
  simp only [Res.ok.injEq] at h
  refine ⟨_, h.symm, ?_⟩
  rw [← h] at hl
  have hb := tlv_len hl
  simp only [List.append_assoc, List.length_append] at hb ⊢
  unfold parseRevoked
  have hsl : (Der.encIntBody r.serial).length < 2 ^ 31 := by
    have := encTLV_len 0x02 (Der.encIntBody r.serial)
    simp only [Der.encInt] at hb
    omega
  rw [Der.parseInt_encInt r.serial _ hsl]
  simp only [Option.bind_eq_bind, Option.bind_some]
  rw [hT _ _ _ ht]
  simp only [Option.bind_some]
  have hxo : parseExtsOpt x = some r.extensions := by
    unfold parseExtsOpt
    cases hre : r.extensions with
    | none =>
      rw [hre] at hx
      simp only [encExtsOpt, Res.ok.injEq] at hx
      rw [← hx]
      rfl
    | some l =>
      rw [hre] at hx
      simp only [encExtsOpt] at hx
      obtain ⟨xs, hxs, hx⟩ := Res.bind_eq_ok.1 hx
      simp only [Res.ok.injEq] at hx
      have hxl : xs.length < 2 ^ 31 := by
        have := encTLV_len 0x30 xs
        rw [hx] at this
        omega
      have := opt_enc 0x30 xs [] (by decide) hxl
      rw [List.append_nil, hx] at this
      rw [this]
      simp only
      obtain ⟨l', h1, h2⟩ := exts_seq l xs hxs (hr l hre) hxl
      rw [h1]
      simp [h2]
  rw [hxo]
  simp

theorem marshalAll_parse {α : Type} {f : α → Res Bytes} {p : Bytes → Option α} {l : List α} {b : Bytes} (h : marshalAll f l = .ok b)
    (hl : b.length < 2 ^ 31) (hf : ∀ x ∈ l, ∀ y, f x = .ok y → y.length < 2 ^ 31 → ∃ c, y = Der.encTLV 0x30 c ∧ p c = some x) :
    ∃ cs : List Bytes, seqOf 0x30 b = some cs ∧ parseAll p cs = some l := by
  have key : ∃ cs : List Bytes, b = cs.flatMap (Der.encTLV 0x30) ∧ parseAll p cs = some l := by
    induction l generalizing b with
    | nil =>
      simp only [marshalAll, Res.ok.injEq] at h
      exact ⟨[], h.symm, rfl⟩
    | cons x l ih =>
      simp only [marshalAll] at h
      obtain ⟨a, ha, h⟩ := Res.bind_eq_ok.1 h
      obtain ⟨r, hr, h⟩ := Res.bind_eq_ok.1 h
      simp only [Res.ok.injEq] at h
      rw [← h, List.length_append] at hl
      obtain ⟨cs, h1, h2⟩ := ih hr (by omega) (fun y hy => hf y (List.mem_cons_of_mem _ hy))
      obtain ⟨c, h3, h4⟩ := hf x List.mem_cons_self a ha (by omega)
      refine ⟨c :: cs, by rw [← h, h1, h3]; rfl, ?_⟩
      simp [parseAll, h4, h2]
  obtain ⟨cs, h1, h2⟩ := key
  refine ⟨cs, ?_, h2⟩
  rw [h1]
  refine seqOf_enc 0x30 (by decide) cs ?_
  intro c hc
  have h3 := flatMap_len_le (Der.encTLV 0x30) cs c hc
  rw [← h1] at h3
  have := encTLV_len 0x30 c
  omega

theorem crlExts_enc (exts : List Extension) (x : Bytes) (h : encCrlExts exts = .ok x) (ho : ∀ e ∈ exts, OIDok e.id) (hl : x.length < 2 ^ 31) :
    parseCrlExts x = some exts := by
  unfold encCrlExts at h
  split at h
  · rename_i he
    simp only [Res.ok.injEq] at h
    rw [← h, he]
    rfl
  · obtain ⟨xs, hxs, h⟩ := Res.bind_eq_ok.1 h
    simp only [Res.ok.injEq] at h
    rw [← h] at hl ⊢
    have h1 := tlv_len hl
    have hx' := explicit_enc 0xa0 0x30 xs [] (by decide) (by decide) (by decide) h1
    rw [List.append_nil] at hx'
    unfold parseCrlExts
    rw [hx']
    simp only
    obtain ⟨l, h2, h3⟩ := exts_seq exts xs hxs ho (tlv_len h1)
    rw [h2]
    exact h3

theorem optTime_enc (E : ParseEnv) (time : Int → Res Bytes) (hT : TimeLaw' E time) (n : Option Int) (b rs r' : Bytes) (h : encNext time n = .ok b)
    (hrs : rs.length < 2 ^ 31) : optTime E (b ++ (Der.encTLV 0x30 rs ++ r')) = some (n, Der.encTLV 0x30 rs ++ r') := by
  unfold optTime
  cases n with
  | none =>
    simp only [encNext, Res.ok.injEq] at h
    rw [← h, List.nil_append]
    have e : Der.encTLV 0x30 rs ++ r' = 0x30 :: (Der.encLen rs.length ++ (rs ++ r')) := by simp [Der.encTLV]
    rw [if_neg (by rw [e]; simp), e, hdr_enc 0x30 _ _ (by decide) hrs]
    simp [hdrOf, Hdr.is]
  | some t =>
    simp only [encNext] at h
    obtain ⟨id, c, hid, hc, hb⟩ := hT.der t b h
    have e : ∀ r, b ++ r = id :: (Der.encLen c.length ++ (c ++ r)) := by intro r; simp [hb, Der.encTLV]
    rw [if_neg (by rw [e]; simp)]
    have hh := hdr_enc id c.length (c ++ (Der.encTLV 0x30 rs ++ r')) (by rcases hid with rfl | rfl <;> decide) hc
    rw [← e] at hh
    rw [hh]
    simp only
    rw [if_pos (by rcases hid with rfl | rfl <;> simp [hdrOf, Hdr.is]), hT.back _ _ _ h]
    rfl

theorem parseCrlTbs_enc (E : ParseEnv) (time : Int → Res Bytes) (hT : TimeLaw' E time) (alg : AlgId) (issuer ci cn : Bytes) (now : Int)
    (expiry : Option Int) (revoked : List Revoked) (exts : List Extension) (tbs : Bytes)
    (h : encCrlTbs time alg issuer now expiry revoked exts = .ok tbs) (hl : tbs.length < 2 ^ 31) (ha : OIDok alg.oid) (hap : ParamsOk alg.params)
    (hi : issuer = Der.encTLV 0x30 ci) (hrdn : E.rdn issuer = some cn) (hr : ∀ r ∈ revoked, RevokedOk r) (ho : ∀ e ∈ exts, OIDok e.id) :
    ∃ body, tbs = Der.encTLV 0x30 body ∧ parseCrlTbs E body = some ⟨1, alg, issuer, now, expiry, revoked, exts⟩ := by
  unfold encCrlTbs at h
  obtain ⟨t, ht, h⟩ := Res.bind_eq_ok.1 h
  obtain ⟨n, hn, h⟩ := Res.bind_eq_ok.1 h
  obtain ⟨rs, hrs, h⟩ := Res.bind_eq_ok.1 h
  obtain ⟨x, hx, h⟩ := Res.bind_eq_ok.1 h
  simp only [Res.ok.injEq] at h
  refine ⟨_, h.symm, ?_⟩
  rw [← h] at hl
  have hb := tlv_len hl
  simp only [List.append_assoc, List.length_append] at hb ⊢
  have hcil : ci.length < 2 ^ 31 := by
    have := encTLV_len 0x30 ci
    rw [← hi] at this
    omega
  have hrl : rs.length < 2 ^ 31 := by
    have := encTLV_len 0x30 rs
    omega
  unfold parseCrlTbs
  have e1 : ∀ r', versionOpt (Der.encInt 1 ++ r') = some (1, r') := by
    intro r'
    unfold versionOpt Der.encInt
    rw [opt_enc 0x02 _ r' (by decide) (by decide +kernel)]
    simp only
    have : intBody (Der.encIntBody 1) = some 1 := by decide +kernel
    rw [this]
    rfl
  rw [e1]
  simp only [Option.bind_eq_bind, Option.bind_some]
  rw [algId_enc alg ha hap (by omega)]
  simp only [Option.bind_some]
  have e2 : ∀ r', elem (issuer ++ r') = some (⟨hdrOf 0x30 ci.length, ci, issuer⟩, r') := by
    intro r'
    rw [hi, elem_enc 0x30 ci _ (by decide) hcil]
  rw [e2]
  simp only [Option.bind_some, hrdn]
  rw [hT.back _ _ _ ht]
  simp only [Option.bind_some]
  rw [optTime_enc E time hT expiry n rs x hn hrl]
  simp only [Option.bind_some]
  obtain ⟨cs, h1, h2⟩ := marshalAll_parse (p := parseRevoked E) hrs hrl (fun r hr' y hy hyl => revoked_enc E time hT.back r (hr r hr') y hy hyl)
  have e3 : revokedOpt E (Der.encTLV 0x30 rs ++ x) = some (revoked, x) := by
    unfold revokedOpt
    rw [opt_enc 0x30 rs x (by decide) hrl]
    simp only [h1, h2]
    rfl
  rw [e3]
  simp only [Option.bind_some]
  rw [crlExts_enc exts x hx ho (by omega)]
  rfl

/-! ## C107 -/

/-- C107: a revocation list made with an SM2 key is read back as made: the issuer, the two times, exactly the given revoked certificates with
their times and extensions and in their order, the authority key identifier when the issuer has a subject key identifier; and its signature
checks for every certificate with the issuer's public key. -/
theorem C107_crl_round_trip {G : Type} [AddCommGroup G] (E : Env) (L : Lawful E.curve G) (priv : PrivateKey E.curve) (d : Nat)
    (h : L.PrivOf priv d) (hd : (d + 1) % N ≠ 0) (PE : ParseEnv) (time : Int → Res Bytes) (hT : TimeLaw' PE time) (issuer skid rand der cn : Bytes)
    (revoked : List Revoked) (now : Int) (expiry : Option Int)
    (hc : createCRL time issuer skid (.sm2 true) (sm2Signer E.curve rand priv) revoked now expiry = .ok der) (hlen : der.length < 2 ^ 31)
    (hi : Name PE issuer cn) (hr : ∀ r ∈ revoked, RevokedOk r) (hnz : ∀ c, parseCRL PE der = some c → GoodNonce L rand priv c.rawTBS) :
    ∃ c, parseCRL PE der = some c ∧ c.version = 1 ∧ c.issuer = issuer ∧ c.thisUpdate = now ∧ c.nextUpdate = expiry ∧ c.revoked = revoked ∧
      (skid = [] → c.extensions = []) ∧
      (skid ≠ [] → ∃ e, c.extensions = [e] ∧ e.id = oidAuthorityKeyId ∧ parseAuthKeyId e.value = some skid) ∧
      algFromAI c.alg = .sm2Sm3 ∧ c.outerAlg = c.alg ∧ checkCRLSignature E (.sm2 priv.x priv.y) c = none := by
  unfold createCRL at hc
  obtain ⟨⟨hh, alg⟩, hsp, hc⟩ := Res.bind_eq_ok.1 hc
  obtain ⟨tbs, htbs, hc⟩ := Res.bind_eq_ok.1 hc
  obtain ⟨s, hsg, hc⟩ := Res.bind_eq_ok.1 hc
  simp only [Res.ok.injEq] at hc
  obtain ⟨f1, f2, f3, f4, f5, f6, f7⟩ := signing_facts hsp
  have hch : chosenAlg (.sm2 true) .unknown = .sm2Sm3 := by decide
  rw [hch] at f1
  obtain ⟨ci, hci⟩ := hi.der
  have hcert : encCert tbs alg s = Der.encTLV 0x30 (tbs ++ (encAlgId alg ++ encBits s)) := by unfold encCert; rw [List.append_assoc]
  rw [hcert] at hc
  have hbody : (tbs ++ (encAlgId alg ++ encBits s)).length < 2 ^ 31 := tlv_len (id := 0x30) (by rw [hc]; exact hlen)
  have hbody' := hbody
  rw [List.length_append, List.length_append] at hbody
  have hoids : ∀ e ∈ crlExtensions skid, OIDok e.id := by
    intro e he
    unfold crlExtensions at he
    split at he
    · cases he
    · simp only [List.mem_singleton] at he
      rw [he]
      dsimp only
      decide
  obtain ⟨body, hb1, hb2⟩ := parseCrlTbs_enc PE time hT alg issuer ci cn now expiry revoked _ tbs htbs (by omega) f4 f5 hci hi.rdn hr hoids
  have hbl : body.length < 2 ^ 31 := by
    have := encTLV_len 0x30 body
    rw [← hb1] at this
    omega
  have hp : parseCRL PE der = some ⟨tbs, 1, alg, issuer, now, expiry, revoked, crlExtensions skid, alg, s⟩ := by
    unfold parseCRL parseRawCrl
    have e1 := seqField_enc (tbs ++ (encAlgId alg ++ encBits s)) [] hbody'
    rw [List.append_nil, hc] at e1
    rw [e1]
    simp only [Option.bind_eq_bind, Option.bind_some]
    have e2 := seqField_enc body (encAlgId alg ++ encBits s) hbl
    rw [← hb1] at e2
    rw [e2]
    simp only [Option.bind_some]
    rw [hb2]
    simp only [Option.bind_some]
    rw [algId_enc alg f4 f5 (by omega)]
    simp only [Option.bind_some]
    have e3 := bitString_enc s [] (by omega)
    rw [List.append_nil] at e3
    rw [e3]
    rfl
  refine ⟨_, hp, rfl, rfl, rfl, rfl, rfl, ?_, ?_, f1, rfl, ?_⟩
  · intro e
    simp [crlExtensions, e]
  · intro e
    refine ⟨⟨oidAuthorityKeyId, false, authKeyIdValue skid⟩, by simp [crlExtensions, e], rfl, ?_⟩
    refine aki_round skid ?_
    -- the value is part of the signed part
    have h1 := htbs
    unfold encCrlTbs at h1
    obtain ⟨_, _, h1⟩ := Res.bind_eq_ok.1 h1
    obtain ⟨_, _, h1⟩ := Res.bind_eq_ok.1 h1
    obtain ⟨_, _, h1⟩ := Res.bind_eq_ok.1 h1
    obtain ⟨x, hx, h1⟩ := Res.bind_eq_ok.1 h1
    simp only [Res.ok.injEq] at h1
    have hxl : x.length < 2 ^ 31 := by
      have h2 : tbs.length < 2 ^ 31 := by omega
      rw [← h1] at h2
      have h3 := tlv_len h2
      simp only [List.length_append] at h3
      omega
    simp only [encCrlExts, crlExtensions, e, if_false, List.cons_ne_nil] at hx
    obtain ⟨xs, hxs, hx⟩ := Res.bind_eq_ok.1 hx
    simp only [Res.ok.injEq] at hx
    rw [← hx] at hxl
    have hxl := tlv_len (tlv_len hxl)
    have hm := marshalAll_flatMap _ hxs (fun e _ y hy => encExt_eq hy)
    simp only [List.flatMap_cons, List.flatMap_nil, List.append_nil] at hm
    rw [hm] at hxl
    have hxl := tlv_len hxl
    simp only [extBody, List.length_append] at hxl
    have := encTLV_len 0x04 (authKeyIdValue skid)
    omega
  · have hg := hnz _ hp
    dsimp only at hg
    have hs' : privSign E.curve rand priv tbs = .ok s := hsg
    obtain ⟨r, s', g1, g2, g3, g4⟩ := signed_checks E L priv d h hd rand tbs s hs' hg
    unfold checkCRLSignature
    rw [f1]
    unfold checkSignature
    simp only [g1, g4]
    rw [if_neg (by decide), if_neg (by decide), if_neg (by simp), if_neg (by omega)]

/-! ## C108 -/

/-- C108: what a revocation list says is determined by the bytes `CheckCRLSignature` checks: two inputs with the same `TBSCertList.Raw` agree on
everything but the signature and the algorithm named outside the signed part. -/
theorem C108_crl_signed_bytes (E : ParseEnv) (d₁ d₂ : Bytes) (c₁ c₂ : Crl) (h₁ : parseCRL E d₁ = some c₁) (h₂ : parseCRL E d₂ = some c₂)
    (ht : c₁.rawTBS = c₂.rawTBS) : c₁ = { c₂ with outerAlg := c₁.outerAlg, signature := c₁.signature } := by
  have inv : ∀ d c, parseCRL E d = some c → ∃ t : Elem, ∃ tbs, t.full = c.rawTBS ∧ seqField t.full = some (t, []) ∧ parseCrlTbs E t.body = some tbs ∧
      c = ⟨c.rawTBS, tbs.version, tbs.alg, tbs.issuer, tbs.thisUpdate, tbs.nextUpdate, tbs.revoked, tbs.extensions, c.outerAlg, c.signature⟩ := by
    intro d c h
    unfold parseCRL at h
    split at h
    · rename_i c' hr
      simp only [Option.some.injEq] at h
      subst h
      unfold parseRawCrl at hr
      obtain ⟨⟨e, r⟩, he, hr⟩ := Option.bind_eq_some_iff.1 hr
      obtain ⟨⟨t, cc⟩, ht, hr⟩ := Option.bind_eq_some_iff.1 hr
      obtain ⟨tbs, htbs, hr⟩ := Option.bind_eq_some_iff.1 hr
      obtain ⟨⟨a, c2⟩, ha, hr⟩ := Option.bind_eq_some_iff.1 hr
      obtain ⟨⟨s, c3⟩, hs, hr⟩ := Option.bind_eq_some_iff.1 hr
      simp only [Option.some.injEq, Prod.mk.injEq] at hr
      obtain ⟨hr, _⟩ := hr
      obtain ⟨h1, h2⟩ := seqField_inv ht
      have := h2 []
      rw [List.append_nil] at this
      refine ⟨t, tbs, by rw [← hr], this, htbs, ?_⟩
      rw [← hr]
    · cases h
  obtain ⟨t₁, b₁, p1, p2, p3, p4⟩ := inv d₁ c₁ h₁
  obtain ⟨t₂, b₂, q1, q2, q3, q4⟩ := inv d₂ c₂ h₂
  have htt : t₁ = t₂ := by
    rw [p1, ht, ← q1, q2] at p2
    exact ((Prod.mk.inj (Option.some.inj p2)).1).symm
  subst htt
  rw [p3] at q3
  simp only [Option.some.injEq] at q3
  subst q3
  rw [p4, q4, ht]

/-- C108: the revoked certificates in particular: no change outside the signed part adds or removes one -/
theorem C108_revoked_signed (E : ParseEnv) (d₁ d₂ : Bytes) (c₁ c₂ : Crl) (h₁ : parseCRL E d₁ = some c₁) (h₂ : parseCRL E d₂ = some c₂)
    (ht : c₁.rawTBS = c₂.rawTBS) (serial : Int) : (∃ r ∈ c₁.revoked, r.serial = serial) ↔ ∃ r ∈ c₂.revoked, r.serial = serial := by
  rw [C108_crl_signed_bytes E d₁ d₂ c₁ c₂ h₁ h₂ ht]

end Verif.X509
