import Verif.X509.ExtRound
/-!
C91–C96: the certificate extensions of a template and of the certificate parsed back (x509/x509.go:1128-1749).
-/
namespace Verif.X509
open Verif Asn1

/-! ## C91: key usage -/

/-- C91: whatever key usage a template asks for, the extension written for it reads back as the same usage bits, of the nine
that X.509 defines; higher bits are lost. -/
theorem C91_key_usage_round_trip (k : Int) : parseKeyUsage (keyUsageValue k) = some (k % 512) := keyUsage_round k

/-- C91: for the nine defined bits nothing is lost -/
theorem C91_key_usage_exact (k : Int) (h0 : 0 ≤ k) (h : k < 512) : parseKeyUsage (keyUsageValue k) = some k := by
  rw [keyUsage_round, Int.emod_eq_of_lt h0 h]

example : parseKeyUsage (keyUsageValue 96) = some 96 := C91_key_usage_exact 96 (by decide) (by decide)
example : parseKeyUsage (keyUsageValue 256) = some 256 := C91_key_usage_exact 256 (by decide) (by decide)

/-- C91: a key usage made of undefined bits only is written as a critical extension and reads back as 0,
which `CheckSignatureFrom` takes as "no restriction" -/
theorem C91_undefined_bits_lost : ∃ k : Int, k ≠ 0 ∧ parseKeyUsage (keyUsageValue k) = some 0 :=
  ⟨512, by decide, keyUsage_round 512⟩

/-! ## C92: basic constraints -/

/-- the path length limit a template expresses (x509/x509.go:734-744): none when negative or when it is an unset zero -/
def pathLimit (maxPathLen : Int) (zero : Bool) : Option Int :=
  if maxPathLen < 0 then none else if maxPathLen = 0 ∧ zero = false then none else some maxPathLen

/-- C92: the basic constraints written for a template read back with the same CA flag, and the path length limit in the parsed
certificate is the one the template expresses, for every Go int. -/
theorem C92_basic_constraints (isCA : Bool) (m : Int) (zero : Bool) (h1 : -2 ^ 63 ≤ m) (h2 : m < 2 ^ 63) :
    ∃ m', parseBasicConstraints (basicConstraintsValue isCA m zero) = some (isCA, m') ∧
      pathLimit m' (decide (m' = 0)) = pathLimit m zero ∧ (m ≠ 0 ∨ zero = true → m' = m) := by
  refine ⟨_, bc_round isCA m zero h1 h2, ?_, ?_⟩
  · unfold pathLimit
    by_cases hm : m = 0
    · subst hm
      cases zero <;> simp
    · have : ¬ (m = 0 ∧ zero = false) := fun h => hm h.1
      rw [if_neg this]
      simp [hm]
  · intro h
    rw [if_neg]
    rintro ⟨h0, hz⟩
    rcases h with h | h
    · exact h h0
    · rw [hz] at h; cases h

example : ∃ m', parseBasicConstraints (basicConstraintsValue true 0 true) = some (true, m') ∧
      pathLimit m' (decide (m' = 0)) = some 0 := by
  obtain ⟨m', h, h2, _⟩ := C92_basic_constraints true 0 true (by decide) (by decide)
  exact ⟨m', h, h2⟩

/-! ## C93: the whole template -/

/-- the identifiers the parser understands (x509/x509.go:1231-1445) -/
def recognised : List OID :=
  [oidKeyUsage, oidBasicConstraints, oidSAN, oidNameConstraints, oidCRLDP, oidAuthorityKeyId, oidExtKeyUsage, oidSubjectKeyId,
   oidPolicies, oidAIA]

/-- the fields a certificate made from a template is expected to have: those of the template, except that only nine key usage
bits exist, that an unset zero path length means none (-1), that IPv4 addresses take four bytes, and that the flags of absent
extensions are not set -/
def expected (t : Fields) (aki : Bytes) : Fields :=
  { t with
    keyUsage := t.keyUsage % 512
    isCA := t.basicConstraintsValid && t.isCA
    maxPathLen := if t.basicConstraintsValid then (if t.maxPathLen = 0 ∧ t.maxPathLenZero = false then -1 else t.maxPathLen) else 0
    maxPathLenZero := t.basicConstraintsValid && decide ((if t.maxPathLen = 0 ∧ t.maxPathLenZero = false then -1 else t.maxPathLen) = 0)
    authorityKeyId := aki
    ips := t.ips.map ipBytes
    permittedCritical := (!t.permitted.isEmpty || !t.excluded.isEmpty) && t.permittedCritical }

/-- what is asked of a template -/
structure Template (t : Fields) : Prop where
  pathLen : -2 ^ 63 ≤ t.maxPathLen ∧ t.maxPathLen < 2 ^ 63
  unknownOids : ∀ o ∈ t.unknownExtKeyUsage, OIDok o ∧ ekuFromOID o = none
  policyOids : ∀ o ∈ t.policies, OIDok o
  ipLengths : ∀ ip ∈ t.ips, ip.length = 4 ∨ ip.length = 16
  permittedNames : ∀ s ∈ t.permitted, s ≠ []
  excludedNames : ∀ s ∈ t.excluded, s ≠ []

theorem extLoop_append (rdnOk : Bytes → Bool) (a b : List Extension) (p : Parsed) :
    extLoop rdnOk (a ++ b) p = (extLoop rdnOk a p).bind (extLoop rdnOk b) := by
  induction a generalizing p with
  | nil => rfl
  | cons e a ih =>
    simp only [List.cons_append, extLoop]
    split
    · rfl
    · exact ih _

/-- one block: generated and read back, or not generated -/
theorem block {rdnOk : Bytes → Bool} {extra : List Extension} {id : OID} {w c : Bool} {v : Res Bytes} {e : List Extension}
    (f f' : Fields) (u : List OID) (ex : List Extension)
    (hg : gen extra id w c v = .ok e) (hx : oidIn id extra = false) (hv : ∀ x ∈ e, x.value.length < 2 ^ 31)
    (hparse : w = true → ∀ x, v = .ok x → x.length < 2 ^ 31 → interp rdnOk f ⟨id, c, x⟩ = some (f', false))
    (hno : w = false → f' = f) : extLoop rdnOk e ⟨f, u, ex⟩ = some ⟨f', u, ex ++ e⟩ := by
  unfold gen at hg
  rw [hx] at hg
  cases w with
  | false =>
    simp only [Bool.false_and, Bool.false_eq_true, if_false, Res.ok.injEq] at hg
    subst hg
    rw [hno rfl]
    simp [extLoop]
  | true =>
    simp only [Bool.not_false, Bool.and_self, if_true] at hg
    split at hg
    · rename_i x
      simp only [Res.ok.injEq] at hg
      subst hg
      have := hparse rfl x rfl (hv _ List.mem_cons_self)
      simp only [extLoop, extStep, this]
      simp
    · cases hg
    · cases hg

/-- extensions that are not understood change no field -/
theorem extLoop_unknown (rdnOk : Bytes → Bool) (l : List Extension) (h : ∀ e ∈ l, e.id ∉ recognised) (f : Fields) (u : List OID)
    (ex : List Extension) :
    extLoop rdnOk l ⟨f, u, ex⟩ = some ⟨f, u ++ (l.filter (·.critical)).map (·.id), ex ++ l⟩ := by
  induction l generalizing u ex with
  | nil => simp [extLoop]
  | cons e l ih =>
    have hi : interp rdnOk f e = some (f, true) := by
      have := h e List.mem_cons_self
      simp only [recognised, List.mem_cons, List.not_mem_nil, or_false, not_or] at this
      obtain ⟨h1, h2, h3, h4, h5, h6, h7, h8, h9, h10⟩ := this
      unfold interp
      rw [if_neg h1, if_neg h2, if_neg h3, if_neg h4, if_neg h5, if_neg h6, if_neg h7, if_neg h8, if_neg h9, if_neg h10]
    simp only [extLoop, extStep, hi, Bool.and_true]
    rw [ih (fun x hx => h x (List.mem_cons_of_mem _ hx))]
    cases hc : e.critical <;> simp [hc]

theorem oidIn_false {extra : List Extension} (h : ∀ e ∈ extra, e.id ∉ recognised) {o : OID} (ho : o ∈ recognised) :
    oidIn o extra = false := by
  unfold oidIn
  rw [List.any_eq_false]
  intro e he hc
  have : e.id = o := by simpa using hc
  exact h e he (this ▸ ho)

/-- C93: a certificate made from a template carries exactly the template: for every template (Go ints, encodable identifiers, IP
addresses of 4 or 16 bytes, no empty DNS constraint) and every list of extra extensions of kinds the parser does not know, if
`buildExtensions` succeeds then parsing what it wrote succeeds and gives the template's fields back, the extensions verbatim, and
as unhandled critical extensions the critical extra ones and nothing else. -/
theorem C93_template_round_trip (rdnOk : Bytes → Bool) (t : Fields) (aki : Bytes) (extra exts : List Extension) (ht : Template t)
    (hx : ∀ e ∈ extra, e.id ∉ recognised) (hb : buildExtensions t aki extra = .ok exts) (hlen : ∀ e ∈ exts, e.value.length < 2 ^ 31) :
    parseExtensions rdnOk exts = some ⟨expected t aki, (extra.filter (·.critical)).map (·.id), exts⟩ := by
  unfold buildExtensions at hb
  obtain ⟨e1, g1, hb⟩ := Res.bind_eq_ok.1 hb
  obtain ⟨e2, g2, hb⟩ := Res.bind_eq_ok.1 hb
  obtain ⟨e3, g3, hb⟩ := Res.bind_eq_ok.1 hb
  obtain ⟨e4, g4, hb⟩ := Res.bind_eq_ok.1 hb
  obtain ⟨e5, g5, hb⟩ := Res.bind_eq_ok.1 hb
  obtain ⟨e6, g6, hb⟩ := Res.bind_eq_ok.1 hb
  obtain ⟨e7, g7, hb⟩ := Res.bind_eq_ok.1 hb
  obtain ⟨e8, g8, hb⟩ := Res.bind_eq_ok.1 hb
  obtain ⟨e9, g9, hb⟩ := Res.bind_eq_ok.1 hb
  obtain ⟨e10, g10, hb⟩ := Res.bind_eq_ok.1 hb
  simp only [Res.ok.injEq] at hb
  subst hb
  have o := fun {i : OID} (hi : i ∈ recognised) => oidIn_false hx hi
  unfold parseExtensions
  -- key usage
  let f1 : Fields := { ({} : Fields) with keyUsage := t.keyUsage % 512 }
  have b1 := block (rdnOk := rdnOk) {} f1 [] [] g1 (o (by decide)) (fun x hx => hlen x (by simp [hx])) (by
    intro _ x hx _
    simp only [Res.ok.injEq] at hx
    subst hx
    unfold interp
    rw [if_pos rfl]
    simp only [keyUsage_round, Option.map_some]; rfl) (by
    intro h
    have : t.keyUsage = 0 := by simpa using h
    simp [f1, this])
  let f2 : Fields := { f1 with extKeyUsage := t.extKeyUsage, unknownExtKeyUsage := t.unknownExtKeyUsage }
  have b2 := block (rdnOk := rdnOk) f1 f2 [] ([] ++ e1) g2 (o (by decide)) (fun x hx => hlen x (by simp [hx])) (by
    intro _ x hx hl
    have hr := eku_round _ _ x hx hl (fun o ho => (ht.unknownOids o ho).1)
    have hok : ∀ u ∈ t.extKeyUsage, (oidFromEku u).isSome := by
      unfold extKeyUsageValue at hx
      obtain ⟨a, ha, _⟩ := Res.bind_eq_ok.1 hx
      intro u hu
      obtain ⟨y, hy⟩ := marshalAll_ok ha u hu
      unfold ekuRes at hy
      split at hy
      · rename_i o ho; rw [ho]; rfl
      · cases hy
    have hs := eku_split _ _ hok (fun o ho => (ht.unknownOids o ho).2)
    unfold interp
    rw [if_neg (by dsimp only; decide), if_neg (by dsimp only; decide), if_neg (by dsimp only; decide), if_neg (by dsimp only; decide), if_neg (by dsimp only; decide), if_neg (by dsimp only; decide), if_pos rfl]
    simp only [hr, Option.map_some, hs.1, hs.2]
    rfl) (by
    intro h
    simp only [Bool.or_eq_false_iff, Bool.not_eq_false', List.isEmpty_iff] at h
    simp [f2, f1, h.1, h.2])
  let m := if t.maxPathLen = 0 ∧ t.maxPathLenZero = false then -1 else t.maxPathLen
  let f3 : Fields :=
    { f2 with
      basicConstraintsValid := t.basicConstraintsValid
      isCA := t.basicConstraintsValid && t.isCA
      maxPathLen := if t.basicConstraintsValid then m else 0
      maxPathLenZero := t.basicConstraintsValid && decide (m = 0) }
  have b3 := block (rdnOk := rdnOk) f2 f3 [] ([] ++ e1 ++ e2) g3 (o (by decide)) (fun x hx => hlen x (by simp [hx])) (by
    intro hw x hx _
    simp only [Res.ok.injEq] at hx
    subst hx
    unfold interp
    rw [if_neg (by dsimp only; decide), if_pos rfl]
    simp only [bc_round _ _ _ ht.pathLen.1 ht.pathLen.2, Option.map_some]
    simp only [f3, hw, Bool.true_and, if_true, m]) (by
    intro h
    simp [f3, f2, f1, h])
  let f4 : Fields := { f3 with subjectKeyId := t.subjectKeyId }
  have b4 := block (rdnOk := rdnOk) f3 f4 [] ([] ++ e1 ++ e2 ++ e3) g4 (o (by decide)) (fun x hx => hlen x (by simp [hx])) (by
    intro hw x hx hl
    simp only [Res.ok.injEq] at hx
    subst hx
    unfold interp
    rw [if_neg (by dsimp only; decide), if_neg (by dsimp only; decide), if_neg (by dsimp only; decide), if_neg (by dsimp only; decide), if_neg (by dsimp only; decide), if_neg (by dsimp only; decide),
      if_neg (by dsimp only; decide), if_pos rfl]
    simp only [ski_round _ hl, Option.map_some]
    rfl) (by
    intro h
    have : t.subjectKeyId = [] := by simpa using h
    simp [f4, f3, f2, f1, this])
  let f5 : Fields := { f4 with authorityKeyId := aki }
  have b5 := block (rdnOk := rdnOk) f4 f5 [] ([] ++ e1 ++ e2 ++ e3 ++ e4) g5 (o (by decide)) (fun x hx => hlen x (by simp [hx])) (by
    intro hw x hx hl
    simp only [Res.ok.injEq] at hx
    subst hx
    unfold interp
    rw [if_neg (by dsimp only; decide), if_neg (by dsimp only; decide), if_neg (by dsimp only; decide), if_neg (by dsimp only; decide), if_neg (by dsimp only; decide), if_pos rfl]
    simp only [aki_round _ hl, Option.map_some]
    rfl) (by
    intro h
    have : aki = [] := by simpa using h
    simp [f5, f4, f3, f2, f1, this])
  let f6 : Fields := { f5 with ocspServer := t.ocspServer, issuingURL := t.issuingURL }
  have b6 := block (rdnOk := rdnOk) f5 f6 [] ([] ++ e1 ++ e2 ++ e3 ++ e4 ++ e5) g6 (o (by decide)) (fun x hx => hlen x (by simp [hx])) (by
    intro hw x hx hl
    simp only [Res.ok.injEq] at hx
    subst hx
    obtain ⟨l, hl1, hl2, hl3⟩ := aia_round _ _ hl
    unfold interp
    rw [if_neg (by dsimp only; decide), if_neg (by dsimp only; decide), if_neg (by dsimp only; decide), if_neg (by dsimp only; decide), if_neg (by dsimp only; decide), if_neg (by dsimp only; decide),
      if_neg (by dsimp only; decide), if_neg (by dsimp only; decide), if_neg (by dsimp only; decide), if_pos rfl]
    simp only [hl1, Option.map_some, hl2, hl3]
    rfl) (by
    intro h
    simp only [Bool.or_eq_false_iff, Bool.not_eq_false', List.isEmpty_iff] at h
    simp [f6, f5, f4, f3, f2, f1, h.1, h.2])
  let f7 : Fields := { f6 with dnsNames := t.dnsNames, emails := t.emails, ips := t.ips.map ipBytes }
  have b7 := block (rdnOk := rdnOk) f6 f7 [] ([] ++ e1 ++ e2 ++ e3 ++ e4 ++ e5 ++ e6) g7 (o (by decide)) (fun x hx => hlen x (by simp [hx])) (by
    intro hw x hx hl
    simp only [Res.ok.injEq] at hx
    subst hx
    unfold interp
    rw [if_neg (by dsimp only; decide), if_neg (by dsimp only; decide), if_pos rfl]
    simp only [san_round _ _ _ hl ht.ipLengths, Option.map_some]
    have : (t.dnsNames.isEmpty && t.emails.isEmpty && (t.ips.map ipBytes).isEmpty) = false := by
      rw [List.isEmpty_map]
      revert hw
      cases t.dnsNames.isEmpty <;> cases t.emails.isEmpty <;> cases t.ips.isEmpty <;> decide
    rw [this]) (by
    intro h
    simp only [Bool.or_eq_false_iff, Bool.not_eq_false', List.isEmpty_iff] at h
    simp [f7, f6, f5, f4, f3, f2, f1, h.1.1, h.1.2, h.2])
  let f8 : Fields := { f7 with policies := t.policies }
  have b8 := block (rdnOk := rdnOk) f7 f8 [] ([] ++ e1 ++ e2 ++ e3 ++ e4 ++ e5 ++ e6 ++ e7) g8 (o (by decide)) (fun x hx => hlen x (by simp [hx])) (by
    intro hw x hx hl
    unfold interp
    rw [if_neg (by dsimp only; decide), if_neg (by dsimp only; decide), if_neg (by dsimp only; decide), if_neg (by dsimp only; decide), if_neg (by dsimp only; decide), if_neg (by dsimp only; decide),
      if_neg (by dsimp only; decide), if_neg (by dsimp only; decide), if_pos rfl]
    simp only [policies_round _ x hx hl ht.policyOids, Option.map_some]
    rfl) (by
    intro h
    have : t.policies = [] := by simpa using h
    simp [f8, f7, f6, f5, f4, f3, f2, f1, this])
  let f9 : Fields :=
    { f8 with
      permitted := t.permitted
      excluded := t.excluded
      permittedCritical := (!t.permitted.isEmpty || !t.excluded.isEmpty) && t.permittedCritical }
  have b9 := block (rdnOk := rdnOk) f8 f9 [] ([] ++ e1 ++ e2 ++ e3 ++ e4 ++ e5 ++ e6 ++ e7 ++ e8) g9 (o (by decide))
    (fun x hx => hlen x (by simp [hx])) (by
    intro hw x hx hl
    unfold interp
    rw [if_neg (by dsimp only; decide), if_neg (by dsimp only; decide), if_neg (by dsimp only; decide), if_pos rfl]
    simp only [nc_round _ _ _ x hx hl ht.permittedNames ht.excludedNames, Option.map_some]
    simp only [f9, hw, Bool.true_and]) (by
    intro h
    have h' := h
    simp only [Bool.or_eq_false_iff, Bool.not_eq_false', List.isEmpty_iff] at h'
    simp [f9, f8, f7, f6, f5, f4, f3, f2, f1, h'.1, h'.2])
  let f10 : Fields := { f9 with crlDPs := t.crlDPs }
  have b10 := block (rdnOk := rdnOk) f9 f10 [] ([] ++ e1 ++ e2 ++ e3 ++ e4 ++ e5 ++ e6 ++ e7 ++ e8 ++ e9) g10 (o (by decide))
    (fun x hx => hlen x (by simp [hx])) (by
    intro hw x hx hl
    simp only [Res.ok.injEq] at hx
    subst hx
    unfold interp
    rw [if_neg (by dsimp only; decide), if_neg (by dsimp only; decide), if_neg (by dsimp only; decide), if_neg (by dsimp only; decide), if_pos rfl]
    simp only [crldp_round _ _ hl, Option.map_some]
    rfl) (by
    intro h
    have : t.crlDPs = [] := by simpa using h
    simp [f10, f9, f8, f7, f6, f5, f4, f3, f2, f1, this])
  have b11 := extLoop_unknown rdnOk extra hx f10 [] ([] ++ e1 ++ e2 ++ e3 ++ e4 ++ e5 ++ e6 ++ e7 ++ e8 ++ e9 ++ e10)
  simp only [List.append_assoc] at b1 b2 b3 b4 b5 b6 b7 b8 b9 b10 b11 ⊢
  simp only [extLoop_append]
  show (extLoop rdnOk e1 ⟨{}, [], []⟩).bind _ = _
  rw [b1]; simp only [Option.bind_some]
  rw [b2]; simp only [Option.bind_some]
  rw [b3]; simp only [Option.bind_some]
  rw [b4]; simp only [Option.bind_some]
  rw [b5]; simp only [Option.bind_some]
  rw [b6]; simp only [Option.bind_some]
  rw [b7]; simp only [Option.bind_some]
  rw [b8]; simp only [Option.bind_some]
  rw [b9]; simp only [Option.bind_some]
  rw [b10]; simp only [Option.bind_some]
  rw [b11]
  simp only [List.nil_append]
  rfl

/-- a template with every field set -/
def sampleTemplate : Fields where
  keyUsage := 0x1a3
  extKeyUsage := [1, 2, 11]
  unknownExtKeyUsage := [[1, 3, 6, 1, 4, 1, 99999, 7]]
  basicConstraintsValid := true
  isCA := true
  maxPathLen := 0
  maxPathLenZero := true
  subjectKeyId := [1, 2, 3]
  ocspServer := [[0x68, 0x74]]
  issuingURL := [[0x69], []]
  dnsNames := [[0x61, 0x2e, 0x62]]
  emails := [[0x63, 0x40]]
  ips := [[127, 0, 0, 1], [0, 0, 0, 0, 0, 0, 0, 0, 0, 0, 0xff, 0xff, 10, 0, 0, 1]]
  policies := [[2, 5, 29, 32, 0]]
  permittedCritical := true
  permitted := [[0x61]]
  excluded := [[0x62], [0x63]]
  crlDPs := [[0x75], [0x76]]

/-- the hypotheses of C93 hold of it, with a critical extra extension -/
example : ∃ exts, buildExtensions sampleTemplate [9, 9] [⟨[1, 2, 3], true, [5, 0]⟩] = .ok exts ∧
    parseExtensions (fun _ => true) exts = some ⟨expected sampleTemplate [9, 9], [[1, 2, 3]], exts⟩ ∧ exts.length = 11 := by
  have h : (match buildExtensions sampleTemplate [9, 9] [⟨[1, 2, 3], true, [5, 0]⟩] with
    | .ok x => decide (x.length = 11) && x.all (fun e => decide (e.value.length < 2 ^ 31))
    | _ => false) = true := by decide +kernel
  split at h
  · rename_i exts hb
    simp only [Bool.and_eq_true, decide_eq_true_eq, List.all_eq_true] at h
    refine ⟨exts, hb, ?_, h.1⟩
    exact C93_template_round_trip _ _ _ _ _
      ⟨by decide, by decide +kernel, by decide +kernel, by decide, by decide, by decide⟩ (by decide) hb h.2
  · cases h

/-! ## C94: critical extensions -/

theorem extLoop_inv {rdnOk : Bytes → Bool} {l : List Extension} {p q : Parsed} (h : extLoop rdnOk l p = some q) :
    q.extensions = p.extensions ++ l ∧
    (∀ o, o ∈ q.unhandledCritical ↔ o ∈ p.unhandledCritical ∨
      ∃ e ∈ l, e.critical = true ∧ e.id = o ∧ (o ∉ recognised ∨ (o = oidSAN ∧ parseSAN e.value = some ([], [], [])))) := by
  induction l generalizing p with
  | nil =>
    simp only [extLoop, Option.some.injEq] at h
    subst h
    simp
  | cons e l ih =>
    simp only [extLoop] at h
    split at h
    · cases h
    · rename_i p' hp'
      obtain ⟨i1, i2⟩ := ih h
      unfold extStep at hp'
      split at hp'
      · cases hp'
      · rename_i f u hi
        simp only [Option.some.injEq] at hp'
        subst hp'
        refine ⟨by rw [i1]; simp, ?_⟩
        have hu : u = true ↔ (e.id ∉ recognised ∨ (e.id = oidSAN ∧ parseSAN e.value = some ([], [], []))) := by
          unfold interp at hi
          by_cases hs : e.id = oidSAN
          · rw [if_neg (by rw [hs]; decide), if_neg (by rw [hs]; decide), if_pos hs] at hi
            cases hsan : parseSAN e.value with
            | none => rw [hsan] at hi; cases hi
            | some x =>
              rw [hsan] at hi
              simp only [Option.map_some, Option.some.injEq, Prod.mk.injEq] at hi
              obtain ⟨a, b, c⟩ := x
              rw [← hi.2, hs]
              have : oidSAN ∈ recognised := by decide
              simp [this, and_assoc]
          · constructor
            · intro hu
              left
              intro hr
              simp only [recognised, List.mem_cons, List.not_mem_nil, or_false] at hr
              subst hu
              rcases hr with h | h | h | h | h | h | h | h | h | h
              all_goals first
                | exact hs h
                | (rw [h] at hi
                   revert hi
                   simp [oidKeyUsage, oidBasicConstraints, oidSAN, oidNameConstraints, oidCRLDP, oidAuthorityKeyId, oidExtKeyUsage,
                     oidSubjectKeyId, oidPolicies, oidAIA])
            · rintro (h | h)
              · simp only [recognised, List.mem_cons, List.not_mem_nil, or_false, not_or] at h
                obtain ⟨h1, h2, h3, h4, h5, h6, h7, h8, h9, h10⟩ := h
                rw [if_neg h1, if_neg h2, if_neg h3, if_neg h4, if_neg h5, if_neg h6, if_neg h7, if_neg h8, if_neg h9, if_neg h10] at hi
                simp only [Option.some.injEq, Prod.mk.injEq] at hi
                exact hi.2.symm
              · exact absurd h.1 hs
        intro o
        rw [i2 o]
        constructor
        · rintro (h | ⟨x, hx, h⟩)
          · dsimp only at h
            split at h
            · rename_i hc
              rw [Bool.and_eq_true] at hc
              rcases List.mem_append.1 h with h | h
              · exact .inl h
              · rw [List.mem_singleton] at h
                subst h
                exact .inr ⟨e, List.mem_cons_self, hc.1, rfl, hu.1 hc.2⟩
            · exact .inl h
          · exact .inr ⟨x, List.mem_cons_of_mem _ hx, h⟩
        · rintro (h | ⟨x, hx, hc, hid, hn⟩)
          · left; dsimp only; split
            · exact List.mem_append_left _ h
            · exact h
          · rcases List.mem_cons.1 hx with rfl | hx
            · left
              subst hid
              have := hu.2 hn
              dsimp only
              rw [hc, this]
              simp
            · exact .inr ⟨x, hx, hc, hid, hn⟩

/-- C94: after parsing, `UnhandledCriticalExtensions` holds exactly the critical extensions that the parser does not understand: those
of an unknown kind, and subject alternative names without any DNS name, e-mail or IP address. -/
theorem C94_critical_recorded (rdnOk : Bytes → Bool) (exts : List Extension) (p : Parsed) (h : parseExtensions rdnOk exts = some p) (o : OID) :
    o ∈ p.unhandledCritical ↔
      ∃ e ∈ exts, e.critical = true ∧ e.id = o ∧ (o ∉ recognised ∨ (o = oidSAN ∧ parseSAN e.value = some ([], [], []))) := by
  have := (extLoop_inv h).2 o
  simpa using this

/-- C94: and `Extensions` holds all of them, as they are -/
theorem C94_extensions_kept (rdnOk : Bytes → Bool) (exts : List Extension) (p : Parsed) (h : parseExtensions rdnOk exts = some p) :
    p.extensions = exts := by
  have := (extLoop_inv h).1
  simpa using this

example : ∃ p, parseExtensions (fun _ => true) [⟨[1, 2, 3], true, []⟩, ⟨oidSAN, true, [0x30, 3, 0x86, 1, 0x61]⟩] = some p ∧
    p.unhandledCritical = [[1, 2, 3], oidSAN] := by
  have h : (match parseExtensions (fun _ => true) [⟨[1, 2, 3], true, []⟩, ⟨oidSAN, true, [0x30, 3, 0x86, 1, 0x61]⟩] with
    | some p => decide (p.unhandledCritical = [[1, 2, 3], oidSAN])
    | none => false) = true := by decide +kernel
  split at h
  · rename_i p hp
    exact ⟨p, hp, by simpa using h⟩
  · cases h

/-! ## C95: extra extensions -/

theorem gen_ids {extra : List Extension} {id : OID} {w c : Bool} {v : Res Bytes} {e : List Extension} (h : gen extra id w c v = .ok e) :
    (e = [] ∨ ∃ x, e = [x] ∧ x.id = id) ∧ ∀ x ∈ e, ∀ y ∈ extra, y.id ≠ x.id := by
  unfold gen at h
  split at h
  · rename_i hc
    rw [Bool.and_eq_true] at hc
    have hno : ∀ y ∈ extra, y.id ≠ id := by
      intro y hy hid
      have : oidIn id extra = true := by
        unfold oidIn
        rw [List.any_eq_true]
        exact ⟨y, hy, by simpa using hid⟩
      rw [this] at hc
      simp at hc
    split at h
    · simp only [Res.ok.injEq] at h
      subst h
      refine ⟨.inr ⟨_, rfl, rfl⟩, ?_⟩
      intro x hx y hy
      rw [List.mem_singleton] at hx
      subst hx
      exact hno y hy
    · cases h
    · cases h
  · simp only [Res.ok.injEq] at h
    subst h
    exact ⟨.inl rfl, by simp⟩

/-- C95: the extra extensions of a template appear verbatim, in order, at the end of the list; every extension before them is of a kind
that none of them has (they override the generated one), of a kind the package knows, and no kind is generated twice. -/
theorem C95_extra_extensions (t : Fields) (aki : Bytes) (extra exts : List Extension) (hb : buildExtensions t aki extra = .ok exts) :
    ∃ generated, exts = generated ++ extra ∧ (generated.map (·.id)).Nodup ∧ (∀ e ∈ generated, e.id ∈ recognised) ∧
      ∀ e ∈ generated, ∀ y ∈ extra, y.id ≠ e.id := by
  unfold buildExtensions at hb
  obtain ⟨e1, g1, hb⟩ := Res.bind_eq_ok.1 hb
  obtain ⟨e2, g2, hb⟩ := Res.bind_eq_ok.1 hb
  obtain ⟨e3, g3, hb⟩ := Res.bind_eq_ok.1 hb
  obtain ⟨e4, g4, hb⟩ := Res.bind_eq_ok.1 hb
  obtain ⟨e5, g5, hb⟩ := Res.bind_eq_ok.1 hb
  obtain ⟨e6, g6, hb⟩ := Res.bind_eq_ok.1 hb
  obtain ⟨e7, g7, hb⟩ := Res.bind_eq_ok.1 hb
  obtain ⟨e8, g8, hb⟩ := Res.bind_eq_ok.1 hb
  obtain ⟨e9, g9, hb⟩ := Res.bind_eq_ok.1 hb
  obtain ⟨e10, g10, hb⟩ := Res.bind_eq_ok.1 hb
  simp only [Res.ok.injEq] at hb
  have k1 := gen_ids g1
  have k2 := gen_ids g2
  have k3 := gen_ids g3
  have k4 := gen_ids g4
  have k5 := gen_ids g5
  have k6 := gen_ids g6
  have k7 := gen_ids g7
  have k8 := gen_ids g8
  have k9 := gen_ids g9
  have k10 := gen_ids g10
  refine ⟨e1 ++ e2 ++ e3 ++ e4 ++ e5 ++ e6 ++ e7 ++ e8 ++ e9 ++ e10, hb.symm, ?_, ?_, ?_⟩
  · have hsub : ((e1 ++ e2 ++ e3 ++ e4 ++ e5 ++ e6 ++ e7 ++ e8 ++ e9 ++ e10).map (·.id)).Sublist
        ([oidKeyUsage] ++ [oidExtKeyUsage] ++ [oidBasicConstraints] ++ [oidSubjectKeyId] ++ [oidAuthorityKeyId] ++ [oidAIA] ++ [oidSAN] ++
          [oidPolicies] ++ [oidNameConstraints] ++ [oidCRLDP]) := by
      have one : ∀ {e : List Extension} {i : OID}, (e = [] ∨ ∃ x, e = [x] ∧ x.id = i) → (e.map (·.id)).Sublist [i] := by
        intro e i h
        rcases h with rfl | ⟨x, rfl, rfl⟩
        · exact List.nil_sublist _
        · exact List.Sublist.refl _
      simp only [List.map_append]
      exact (((((((((one k1.1).append (one k2.1)).append (one k3.1)).append (one k4.1)).append (one k5.1)).append (one k6.1)).append
        (one k7.1)).append (one k8.1)).append (one k9.1)).append (one k10.1)
    exact List.Nodup.sublist hsub (by decide)
  · intro e he
    have one : ∀ {l : List Extension} {i : OID}, (l = [] ∨ ∃ x, l = [x] ∧ x.id = i) → e ∈ l → e.id = i := by
      intro l i h hm
      rcases h with rfl | ⟨x, rfl, rfl⟩
      · cases hm
      · rw [List.mem_singleton.1 hm]
    simp only [List.mem_append] at he
    rcases he with ((((((((h | h) | h) | h) | h) | h) | h) | h) | h) | h
    · rw [one k1.1 h]; decide
    · rw [one k2.1 h]; decide
    · rw [one k3.1 h]; decide
    · rw [one k4.1 h]; decide
    · rw [one k5.1 h]; decide
    · rw [one k6.1 h]; decide
    · rw [one k7.1 h]; decide
    · rw [one k8.1 h]; decide
    · rw [one k9.1 h]; decide
    · rw [one k10.1 h]; decide
  · intro e he
    simp only [List.mem_append] at he
    rcases he with ((((((((h | h) | h) | h) | h) | h) | h) | h) | h) | h
    · exact k1.2 e h
    · exact k2.2 e h
    · exact k3.2 e h
    · exact k4.2 e h
    · exact k5.2 e h
    · exact k6.2 e h
    · exact k7.2 e h
    · exact k8.2 e h
    · exact k9.2 e h
    · exact k10.2 e h

/-- an extra key usage extension replaces the one of the template -/
example : buildExtensions { keyUsage := 1, subjectKeyId := [7] } [] [⟨oidKeyUsage, false, [1]⟩] =
    .ok [⟨oidSubjectKeyId, false, [4, 1, 7]⟩, ⟨oidKeyUsage, false, [1]⟩] := by decide +kernel

/-! ## C96: templates that are accepted but cannot be represented -/

theorem sanFold_bad (l : List Bytes) (ip : Bytes) (hip : ip ∈ l) (hl : ¬ (ip.length = 4 ∨ ip.length = 16)) (s : List Bytes × List Bytes × List Bytes) :
    sanFold (l.map (fun x => ⟨hdrOf 0x87 x.length, x, Der.encTLV 0x87 x⟩)) s = none := by
  induction l generalizing s with
  | nil => cases hip
  | cons x l ih =>
    have ht : (hdrOf 0x87 x.length).tag = 7 := rfl
    simp only [List.map_cons, sanFold]
    by_cases hx : x.length = 4 ∨ x.length = 16
    · have : sanStep s ⟨hdrOf 0x87 x.length, x, Der.encTLV 0x87 x⟩ = some (s.1, s.2.1, s.2.2 ++ [x]) := by
        unfold sanStep
        simp only [ht, if_pos hx]
        rfl
      rw [this]
      refine ih ?_ _
      rcases List.mem_cons.1 hip with rfl | h
      · exact absurd hx hl
      · exact h
    · have : sanStep s ⟨hdrOf 0x87 x.length, x, Der.encTLV 0x87 x⟩ = none := by
        unfold sanStep
        simp only [ht, if_neg hx]
        rfl
      rw [this]

/-- C96, the negation: for *every* IP address of another length than 4 or 16 bytes (an unset `net.IP{}`, a mask, ...), the alternative
names are written without complaint and cannot be parsed back. -/
theorem C96_bad_ip_violated (dns emails ips : List Bytes) (ip : Bytes) (hip : ip ∈ ips) (hl : ¬ (ip.length = 4 ∨ ip.length = 16))
    (hlen : (sanValue dns emails ips).length < 2 ^ 31) : parseSAN (sanValue dns emails ips) = none := by
  rw [san_elems dns emails ips hlen, sanFold_names 0x82 (.inl rfl), sanFold_names 0x81 (.inr rfl)]
  have e : ipBytes ip = ip := by
    unfold ipBytes to4
    rw [if_neg (fun h => hl (.inl h)), if_neg (fun h => hl (.inr h.1))]; rfl
  exact sanFold_bad (ips.map ipBytes) ip (List.mem_map.2 ⟨ip, hip, e⟩) hl _

/-- C96, the negation: such a template is built into a list of extensions that parsing refuses -/
theorem C96_template_unparseable_violated : ∃ t exts, buildExtensions t [] [] = .ok exts ∧ ∀ rdnOk, parseExtensions rdnOk exts = none := by
  refine ⟨{ ips := [[]] }, _, rfl, ?_⟩
  intro rdnOk
  unfold parseExtensions
  simp only [List.append_nil, List.nil_append]
  simp only [extLoop, extStep]
  have : parseSAN (sanValue [] [] [[]]) = none := C96_bad_ip_violated [] [] [[]] [] (by decide) (by decide) (by decide)
  unfold interp
  rw [if_neg (by dsimp only; decide), if_neg (by dsimp only; decide), if_pos rfl]
  simp only [this, Option.map_none]

/-- C96, the negation: an excluded DNS domain given as the empty string (which matches every name, x509/verify.go:151-153) is dropped on the
way: the parsed certificate excludes nothing. -/
theorem C96_empty_exclusion_violated : ∃ t exts p, t.excluded = [[]] ∧ buildExtensions t [] [] = .ok exts ∧
    (∀ rdnOk, parseExtensions rdnOk exts = some p) ∧ p.fields.excluded = [] := by
  have h : parseNameConstraints false (match nameConstraintsValue [] [[]] with | .ok v => v | _ => []) = some ([], []) := by decide +kernel
  refine ⟨{ excluded := [[]] }, _, ⟨{}, [], [⟨oidNameConstraints, false, match nameConstraintsValue [] [[]] with | .ok v => v | _ => []⟩]⟩, rfl,
    rfl, ?_, rfl⟩
  intro rdnOk
  unfold parseExtensions
  show extLoop rdnOk [⟨oidNameConstraints, false, match nameConstraintsValue [] [[]] with | .ok v => v | _ => []⟩] {} = _
  simp only [extLoop, extStep]
  unfold interp
  rw [if_neg (by dsimp only; decide), if_neg (by dsimp only; decide), if_neg (by dsimp only; decide), if_pos rfl]
  simp only [h, Option.map_some]
  rfl

/-- C96, the negation: an `ExtKeyUsage` value outside the table is not an error but a panic -/
theorem C96_unknown_usage_panics_violated (t : Fields) (aki : Bytes) (u : Int) (us : List Int) (hu : t.extKeyUsage = u :: us)
    (h : oidFromEku u = none) : buildExtensions t aki [] = .panic := by
  unfold buildExtensions
  have h1 : ∃ e, gen [] oidKeyUsage (t.keyUsage != 0) true (.ok (keyUsageValue t.keyUsage)) = .ok e := by
    unfold gen; split <;> exact ⟨_, rfl⟩
  obtain ⟨e, he⟩ := h1
  rw [he]
  simp only [Res.ok_bind]
  have h2 : gen [] oidExtKeyUsage (!t.extKeyUsage.isEmpty || !t.unknownExtKeyUsage.isEmpty) false
      (extKeyUsageValue t.extKeyUsage t.unknownExtKeyUsage) = .panic := by
    unfold gen
    rw [hu]
    simp only [List.isEmpty_cons, Bool.not_false, Bool.true_or, Bool.true_and]
    rw [if_pos (by rfl)]
    unfold extKeyUsageValue
    simp only [marshalAll, ekuRes, h]
    rfl
  rw [h2]
  rfl

example : oidFromEku 12 = none := by decide +kernel

end Verif.X509
