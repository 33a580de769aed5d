import Verif.X509.ExtProps
/-!
C111: constraints a certificate carries in its extensions reach the fields `Verify` looks at.
-/
namespace Verif.X509
open Verif Verif.X509.Asn1

namespace Spec

/-- a `GeneralSubtree`: the identifier octet and contents of its base name, and what follows in the sequence (minimum, maximum) -/
structure Subtree where
  tag : Byte
  name : Bytes
  more : Bytes := []

/-- the contents of the SEQUENCE -/
def Subtree.body (s : Subtree) : Bytes := Der.encTLV s.tag s.name ++ s.more

/-- a dNSName that is not empty -/
def Subtree.dns (s : Subtree) : Bool := s.tag == 0x82 && !s.name.isEmpty

/-- a NameConstraints value in DER, RFC 5280 4.2.1.10 -/
def nameConstraints (permitted excluded : List Subtree) : Bytes :=
  Der.encTLV 0x30 (Der.encTLV 0xa0 (permitted.flatMap fun s => Der.encTLV 0x30 s.body) ++ Der.encTLV 0xa1 (excluded.flatMap fun s => Der.encTLV 0x30 s.body))

/-- a well-formed subtree: a one-byte tag; DNS names are IA5 strings -/
def Subtree.Ok (s : Subtree) : Prop := s.tag &&& 0x1f ≠ 0x1f ∧ (s.tag = 0x82 → isIA5 s.name = true)

/-- the names a verifier can check -/
def dnsNames (l : List Subtree) : List Bytes := (l.filter Subtree.dns).map (·.name)

end Spec

/-! ### subtrees -/

/-- what the parser reads of a subtree: the DNS name, or the empty string -/
def readSubtree (s : Spec.Subtree) : Bytes := if s.tag = 0x82 then s.name else []

theorem is_false_of_ne (a : Byte) (n : Nat) (h : a ≠ 0x82) : (hdrOf a n).is 0x82 = false := by
  have key : ∀ a : Byte, a ≠ 0x82 → (hdrOf a 0).is 0x82 = false := by decide +kernel
  have := key a h
  simpa [hdrOf, Hdr.is] using this

theorem parseSubtree_general (s : Spec.Subtree) (ok : s.Ok) (hl : s.body.length < 2 ^ 31) : parseSubtree s.body = some (readSubtree s) := by
  have hn : s.name.length < 2 ^ 31 := by
    have := encTLV_len s.tag s.name
    unfold Spec.Subtree.body at hl
    rw [List.length_append] at hl
    omega
  unfold parseSubtree readSubtree Spec.Subtree.body
  by_cases h : s.tag = 0x82
  · rw [if_pos h, h, opt_enc 0x82 _ _ (by decide) hn]
    simp only [ia5Body, if_pos (ok.2 h)]
  · rw [if_neg h, opt_other 0x82 s.tag _ _ ok.1 hn (is_false_of_ne _ _ h)]

theorem subtrees_general (id : Byte) (hid : id &&& 0x1f ≠ 0x1f) (l : List Spec.Subtree) (r : Bytes)
    (h : (Der.encTLV id (l.flatMap (fun s => Der.encTLV 0x30 s.body))).length < 2 ^ 31) (hs : ∀ s ∈ l, s.Ok) :
    parseSubtrees id (Der.encTLV id (l.flatMap (fun s => Der.encTLV 0x30 s.body)) ++ r) = some (l.map readSubtree, r) := by
  unfold parseSubtrees
  rw [opt_enc id _ r hid (tlv_len h)]
  simp only
  have e : l.flatMap (fun s => Der.encTLV 0x30 s.body) = (l.map Spec.Subtree.body).flatMap (Der.encTLV 0x30) := by rw [List.flatMap_map]
  have hl : ∀ x ∈ l.map Spec.Subtree.body, x.length < 2 ^ 31 := by
    intro x hx
    have h1 := flatMap_len_le (Der.encTLV 0x30) _ x hx
    rw [e] at h
    exact tlv_len (Nat.lt_of_le_of_lt h1 (tlv_len h))
  rw [e, seqOf_enc 0x30 (by decide) _ hl]
  simp only
  rw [parseAll_map parseSubtree Spec.Subtree.body readSubtree]
  · rfl
  · intro s hs'
    exact parseSubtree_general s (hs s hs') (hl _ (List.mem_map_of_mem hs'))

theorem getDNSNames_loose (l : List Spec.Subtree) : getDNSNames false (l.map readSubtree) = some (Spec.dnsNames l) := by
  induction l with
  | nil => rfl
  | cons s l ih =>
    simp only [List.map_cons, getDNSNames]
    unfold Spec.dnsNames at ih ⊢
    rw [List.filter_cons]
    by_cases h : s.dns = true
    · have h' := h
      simp only [Spec.Subtree.dns, Bool.and_eq_true, beq_iff_eq, Bool.not_eq_true', List.isEmpty_eq_false_iff] at h'
      rw [if_pos h, if_neg (by rw [readSubtree, if_pos h'.1]; exact h'.2), ih, readSubtree, if_pos h'.1]
      rfl
    · have : readSubtree s = [] := by
        unfold readSubtree
        by_contra hc
        split at hc
        · rename_i ht
          exact h (by simp only [Spec.Subtree.dns, Bool.and_eq_true, beq_iff_eq, Bool.not_eq_true', List.isEmpty_eq_false_iff]; exact ⟨ht, hc⟩)
        · exact hc rfl
      rw [if_neg h, if_pos this, if_neg (by decide), ih]

theorem getDNSNames_strict (l : List Spec.Subtree) :
    (l.all Spec.Subtree.dns = true → getDNSNames true (l.map readSubtree) = some (Spec.dnsNames l)) ∧
    (l.all Spec.Subtree.dns = false → getDNSNames true (l.map readSubtree) = none) := by
  induction l with
  | nil => exact ⟨fun _ => rfl, fun h => absurd h (by decide)⟩
  | cons s l ih =>
    simp only [List.map_cons, getDNSNames, List.all_cons]
    by_cases h : s.dns = true
    · have h' := h
      simp only [Spec.Subtree.dns, Bool.and_eq_true, beq_iff_eq, Bool.not_eq_true', List.isEmpty_eq_false_iff] at h'
      rw [h, Bool.true_and, if_neg (by rw [readSubtree, if_pos h'.1]; exact h'.2)]
      refine ⟨fun hl => ?_, fun hl => by rw [ih.2 hl]; rfl⟩
      rw [ih.1 hl, readSubtree, if_pos h'.1]
      unfold Spec.dnsNames
      rw [List.filter_cons, if_pos h]
      rfl
    · have : readSubtree s = [] := by
        unfold readSubtree
        by_contra hc
        split at hc
        · rename_i ht
          exact h (by simp only [Spec.Subtree.dns, Bool.and_eq_true, beq_iff_eq, Bool.not_eq_true', List.isEmpty_eq_false_iff]; exact ⟨ht, hc⟩)
        · exact hc rfl
      rw [if_pos this, Bool.eq_false_iff.2 h, Bool.false_and]
      exact ⟨fun hc => absurd hc (by decide), fun _ => rfl⟩

theorem nc_general (critical : Bool) (P X : List Spec.Subtree) (hP : ∀ s ∈ P, s.Ok) (hX : ∀ s ∈ X, s.Ok)
    (hl : (Spec.nameConstraints P X).length < 2 ^ 31) :
    parseNameConstraints critical (Spec.nameConstraints P X) =
      if critical = true ∧ ¬ (P ++ X).all Spec.Subtree.dns then none else some (Spec.dnsNames P, Spec.dnsNames X) := by
  unfold Spec.nameConstraints at hl ⊢
  have hl' := tlv_len hl
  rw [List.length_append] at hl'
  have h2 := subtrees_general 0xa1 (by decide) X [] (by omega) hX
  rw [List.append_nil] at h2
  unfold parseNameConstraints
  rw [only_enc 0x30 _ (by decide) (tlv_len hl)]
  simp only [Option.bind_eq_bind, Option.bind_some, subtrees_general 0xa0 (by decide) P _ (by omega) hP, h2]
  cases critical with
  | false =>
    rw [getDNSNames_loose, getDNSNames_loose, if_neg (by simp)]
    rfl
  | true =>
    rw [List.all_append]
    cases h1 : P.all Spec.Subtree.dns with
    | true =>
      rw [(getDNSNames_strict P).1 h1]
      cases h3 : X.all Spec.Subtree.dns with
      | true => rw [(getDNSNames_strict X).1 h3, if_neg (by simp)]; rfl
      | false => rw [(getDNSNames_strict X).2 h3, if_pos (by simp)]; rfl
    | false => rw [(getDNSNames_strict P).2 h1, if_pos (by simp)]; rfl

/-! ### the loop -/

/-- an extension of another kind leaves the name constraints alone -/
theorem interp_keeps (rdnOk : Bytes → Bool) (f f' : Fields) (e : Extension) (u : Bool) (hne : e.id ≠ oidNameConstraints) (h : interp rdnOk f e = some (f', u)) :
    f'.permitted = f.permitted ∧ f'.excluded = f.excluded ∧ f'.permittedCritical = f.permittedCritical := by
  unfold interp at h
  repeat' split at h
  all_goals first
    | (exact absurd ‹_› hne)
    | (simp only [Option.map_eq_some_iff, Prod.mk.injEq] at h
       obtain ⟨x, _, rfl, _⟩ := h
       exact ⟨rfl, rfl, rfl⟩)
    | (simp only [Option.some.injEq, Prod.mk.injEq] at h
       obtain ⟨rfl, _⟩ := h
       exact ⟨rfl, rfl, rfl⟩)

theorem extLoop_keeps (rdnOk : Bytes → Bool) (l : List Extension) (p q : Parsed) (hne : ∀ e ∈ l, e.id ≠ oidNameConstraints) (h : extLoop rdnOk l p = some q) :
    q.fields.permitted = p.fields.permitted ∧ q.fields.excluded = p.fields.excluded ∧ q.fields.permittedCritical = p.fields.permittedCritical := by
  induction l generalizing p with
  | nil =>
    simp only [extLoop, Option.some.injEq] at h
    subst h
    exact ⟨rfl, rfl, rfl⟩
  | cons e l ih =>
    simp only [extLoop, extStep] at h
    split at h
    · cases h
    · rename_i p' hp'
      split at hp'
      · cases hp'
      · rename_i f u hi
        simp only [Option.some.injEq] at hp'
        subst hp'
        have k := interp_keeps rdnOk _ _ e u (hne e List.mem_cons_self) hi
        have i := ih _ (fun x hx => hne x (List.mem_cons_of_mem _ hx)) h
        exact ⟨i.1.trans k.1, i.2.1.trans k.2.1, i.2.2.trans k.2.2⟩

/-- the last name constraints extension decides -/
theorem last_nc (rdnOk : Bytes → Bool) (l r : List Extension) (e : Extension) (p : Parsed) (he : e.id = oidNameConstraints)
    (hr : ∀ x ∈ r, x.id ≠ oidNameConstraints) (h : parseExtensions rdnOk (l ++ e :: r) = some p) :
    parseNameConstraints e.critical e.value = some (p.fields.permitted, p.fields.excluded) ∧ p.fields.permittedCritical = e.critical := by
  unfold parseExtensions at h
  rw [extLoop_append] at h
  obtain ⟨p1, h1, h⟩ := Option.bind_eq_some_iff.1 h
  simp only [extLoop, extStep] at h
  split at h
  · cases h
  · rename_i p' hp'
    split at hp'
    · cases hp'
    · rename_i f u hi
      simp only [Option.some.injEq] at hp'
      subst hp'
      obtain ⟨k1, k2, k3⟩ := extLoop_keeps rdnOk r _ _ hr h
      unfold interp at hi
      rw [if_neg (by rw [he]; decide), if_neg (by rw [he]; decide), if_neg (by rw [he]; decide), if_pos he] at hi
      simp only [Option.map_eq_some_iff, Prod.mk.injEq] at hi
      obtain ⟨x, hx, rfl, _⟩ := hi
      rw [k1, k2, k3]
      exact ⟨hx, rfl⟩

/-! ### C111 -/

/-- **C111.** Of a certificate that is accepted, with no further name constraints after these: the parsed fields hold exactly the DNS names of the
permitted and of the excluded subtrees, in order, and whether they are critical; and if they are critical there was no subtree of another kind. -/
theorem C111_name_constraints_partial (rdnOk : Bytes → Bool) (l r : List Extension) (critical : Bool) (P X : List Spec.Subtree)
    (hP : ∀ s ∈ P, s.Ok) (hX : ∀ s ∈ X, s.Ok) (hl : (Spec.nameConstraints P X).length < 2 ^ 31) (hr : ∀ x ∈ r, x.id ≠ oidNameConstraints) (p : Parsed)
    (h : parseExtensions rdnOk (l ++ ⟨oidNameConstraints, critical, Spec.nameConstraints P X⟩ :: r) = some p) :
    p.fields.permitted = Spec.dnsNames P ∧ p.fields.excluded = Spec.dnsNames X ∧ p.fields.permittedCritical = critical ∧
      (critical = true → ∀ s ∈ P ++ X, s.tag = 0x82 ∧ s.name ≠ []) := by
  obtain ⟨h1, h2⟩ := last_nc rdnOk l r _ p rfl hr h
  dsimp only at h1 h2
  rw [nc_general critical P X hP hX hl] at h1
  split at h1
  · cases h1
  · rename_i hc
    simp only [Option.some.injEq, Prod.mk.injEq] at h1
    refine ⟨h1.1.symm, h1.2.symm, h2, ?_⟩
    intro hcr s hs
    have hall : (P ++ X).all Spec.Subtree.dns = true := by
      by_contra hn
      exact hc ⟨hcr, hn⟩
    have := List.all_eq_true.1 hall s hs
    simpa [Spec.Subtree.dns] using this

/-- **C111.** Critical name constraints with a subtree the package cannot check (any kind but a DNS name) are refused, whatever else is there. -/
theorem C111_unsupported_refused (rdnOk : Bytes → Bool) (l r : List Extension) (P X : List Spec.Subtree) (hP : ∀ s ∈ P, s.Ok) (hX : ∀ s ∈ X, s.Ok)
    (hl : (Spec.nameConstraints P X).length < 2 ^ 31) (s : Spec.Subtree) (hs : s ∈ P ++ X) (hk : s.tag ≠ 0x82) :
    parseExtensions rdnOk (l ++ ⟨oidNameConstraints, true, Spec.nameConstraints P X⟩ :: r) = none := by
  unfold parseExtensions
  rw [extLoop_append]
  cases h1 : extLoop rdnOk l {} with
  | none => rfl
  | some p1 =>
    simp only [Option.bind_some, extLoop, extStep]
    have : interp rdnOk p1.fields ⟨oidNameConstraints, true, Spec.nameConstraints P X⟩ = none := by
      unfold interp
      rw [if_neg (by dsimp only; decide), if_neg (by dsimp only; decide), if_neg (by dsimp only; decide), if_pos rfl]
      rw [nc_general true P X hP hX hl, if_pos]
      · rfl
      · refine ⟨rfl, fun hall => ?_⟩
        have := List.all_eq_true.1 hall s hs
        simp only [Spec.Subtree.dns, Bool.and_eq_true, beq_iff_eq] at this
        exact hk this.1
    rw [this]

/-- **C111 fails** when the extension occurs twice: the names of the earlier one are forgotten, critical or not. (Nothing refuses a repeated extension.) -/
theorem C111_repeated_violated : ∃ exts p, (⟨oidNameConstraints, true, Spec.nameConstraints [] [⟨0x82, [0x61], []⟩]⟩ : Extension) ∈ exts ∧
    (∀ rdnOk, parseExtensions rdnOk exts = some p) ∧ p.unhandledCritical = [] ∧ p.fields.excluded = [] := by
  refine ⟨[⟨oidNameConstraints, true, Spec.nameConstraints [] [⟨0x82, [0x61], []⟩]⟩, ⟨oidNameConstraints, false, Spec.nameConstraints [] []⟩],
    ⟨{}, [], [⟨oidNameConstraints, true, Spec.nameConstraints [] [⟨0x82, [0x61], []⟩]⟩, ⟨oidNameConstraints, false, Spec.nameConstraints [] []⟩]⟩, List.mem_cons_self, fun rdnOk => ?_, rfl, rfl⟩
  simp only [parseExtensions, extLoop, extStep]
  have e1 : parseNameConstraints true (Spec.nameConstraints [] [⟨0x82, [0x61], []⟩]) = some ([], [[0x61]]) := by decide +kernel
  have e2 : parseNameConstraints false (Spec.nameConstraints [] []) = some ([], []) := by decide +kernel
  simp only [interp]
  rw [if_neg (by decide), if_neg (by decide), if_neg (by decide), if_pos trivial, e1]
  simp only [Option.map_some]
  rw [if_neg (by decide), if_neg (by decide), if_neg (by decide), if_pos trivial, e2]
  rfl

/-- hypotheses met: a critical extension that permits one domain and excludes another, read back -/
example : ∃ p, parseExtensions (fun _ => true) [⟨oidNameConstraints, true, Spec.nameConstraints [⟨0x82, [0x61], []⟩] [⟨0x82, [0x62, 0x63], [0x80, 1, 0]⟩]⟩] = some p ∧
    p.fields.permitted = [[0x61]] ∧ p.fields.excluded = [[0x62, 0x63]] := by
  have : (match parseExtensions (fun _ => true) [⟨oidNameConstraints, true, Spec.nameConstraints [⟨0x82, [0x61], []⟩] [⟨0x82, [0x62, 0x63], [0x80, 1, 0]⟩]⟩] with
    | some p => decide (p.fields.permitted = [[0x61]] ∧ p.fields.excluded = [[0x62, 0x63]])
    | none => false) = true := by decide +kernel
  split at this
  · rename_i p hp
    exact ⟨p, hp, by simpa using this⟩
  · cases this

/-- and a critical IP address constraint is refused -/
example : parseExtensions (fun _ => true) [⟨oidNameConstraints, true, Spec.nameConstraints [] [⟨0x87, [10, 0, 0, 0, 255, 0, 0, 0], []⟩]⟩] = none :=
  C111_unsupported_refused _ [] [] [] [⟨0x87, [10, 0, 0, 0, 255, 0, 0, 0], []⟩] (by simp) (by simp [Spec.Subtree.Ok]) (by decide +kernel)
    ⟨0x87, [10, 0, 0, 0, 255, 0, 0, 0], []⟩ (by simp) (by decide)

end Verif.X509
