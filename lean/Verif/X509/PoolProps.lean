import Verif.X509.Model
/-!
C50: a certificate pool built by any history of `AddCert` is a set with exact indices.
-/
namespace Verif.X509
open Verif

/-- the pool after adding the certificates of a history, in order, to an empty pool -/
def poolOf (hist : List Cert) : Pool := hist.foldl Pool.addCert .new

/-- two certificates are the same for the pool: same DER (which, for parsed certificates, includes the same subject) -/
def Same (a b : Cert) : Prop := a.raw = b.raw ∧ a.rawSubject = b.rawSubject

/-- the indices are exact -/
structure Pool.WF (p : Pool) : Prop where
  byName : ∀ k, p.byName k = (List.range p.certs.length).filter (fun i => decide ((p.at i).rawSubject = k))
  byKey : ∀ k, p.bySubjectKeyId k = (List.range p.certs.length).filter (fun i => decide ((p.at i).subjectKeyId = k ∧ k ≠ []))

theorem at_append_left (l : List Cert) (c : Cert) (f g) (i : Nat) (h : i < l.length) :
    Pool.at ⟨f, g, l ++ [c]⟩ i = l.getD i { raw := [] } := by
  unfold Pool.at
  simp [List.getD_eq_getElem?_getD, List.getElem?_append_left h]

theorem at_append_last (l : List Cert) (c : Cert) (f g) : Pool.at ⟨f, g, l ++ [c]⟩ l.length = c := by
  unfold Pool.at
  simp [List.getD_eq_getElem?_getD]

theorem at_mem (p : Pool) (i : Nat) (h : i < p.certs.length) : p.at i ∈ p.certs := by
  unfold Pool.at
  rw [List.getD_eq_getElem?_getD, List.getElem?_eq_getElem h]
  exact List.getElem_mem h

theorem mem_at (p : Pool) (c : Cert) (h : c ∈ p.certs) : ∃ i, i < p.certs.length ∧ p.at i = c := by
  obtain ⟨i, hi, e⟩ := List.getElem_of_mem h
  refine ⟨i, hi, ?_⟩
  unfold Pool.at
  rw [List.getD_eq_getElem?_getD, List.getElem?_eq_getElem hi]
  exact e

theorem contains_iff (p : Pool) (h : p.WF) (c : Cert) : p.contains c = true ↔ ∃ d ∈ p.certs, Same d c := by
  unfold Pool.contains
  rw [h.byName, List.any_eq_true]
  constructor
  · rintro ⟨i, hi, e⟩
    rw [List.mem_filter, List.mem_range, decide_eq_true_iff] at hi
    refine ⟨p.at i, at_mem p i hi.1, ?_, hi.2⟩
    simpa [Cert.equal] using e
  · rintro ⟨d, hd, e1, e2⟩
    obtain ⟨i, hi, e⟩ := mem_at p d hd
    refine ⟨i, ?_, ?_⟩
    · rw [List.mem_filter, List.mem_range, decide_eq_true_iff, e]; exact ⟨hi, e2⟩
    · rw [e]; simpa [Cert.equal] using e1

theorem wf_new : Pool.new.WF := ⟨fun _ => rfl, fun _ => rfl⟩

theorem filter_range_succ (n : Nat) (f g : Nat → Bool) (h : ∀ i, i < n → f i = g i) :
    (List.range (n + 1)).filter f = (List.range n).filter g ++ (if f n then [n] else []) := by
  rw [List.range_succ, List.filter_append]
  congr 1
  · apply List.filter_congr
    intro i hi
    exact h i (List.mem_range.1 hi)
  · by_cases e : f n <;> simp [e]

theorem wf_add (p : Pool) (h : p.WF) (c : Cert) : (p.addCert c).WF := by
  unfold Pool.addCert
  split
  · exact h
  · constructor
    · intro k
      show addIdx p.byName c.rawSubject p.certs.length k = _
      rw [List.length_append, List.length_singleton, filter_range_succ p.certs.length _ (fun i => decide ((p.at i).rawSubject = k)) (fun i hi => by
        rw [at_append_left _ _ _ _ _ hi]; rfl), at_append_last, ← h.byName]
      unfold addIdx
      by_cases e : k = c.rawSubject
      · subst e; simp
      · have e' : c.rawSubject ≠ k := fun x => e x.symm
        simp [e, e']
    · intro k
      show (if _ then _ else _ : Bytes → List Nat) k = _
      rw [List.length_append, List.length_singleton,
        filter_range_succ p.certs.length _ (fun i => decide ((p.at i).subjectKeyId = k ∧ k ≠ [])) (fun i hi => by
        rw [at_append_left _ _ _ _ _ hi]; rfl), at_append_last, ← h.byKey]
      by_cases e0 : c.subjectKeyId.length > 0
      · rw [if_pos e0]
        unfold addIdx
        by_cases e : k = c.subjectKeyId
        · subst e
          have : c.subjectKeyId ≠ [] := by intro x; rw [x] at e0; simp at e0
          simp [this]
        · have e' : c.subjectKeyId ≠ k := fun x => e x.symm
          simp [e, e']
      · rw [if_neg e0]
        have : c.subjectKeyId = [] := by
          cases hc : c.subjectKeyId with
          | nil => rfl
          | cons a b => rw [hc] at e0; simp at e0
        have : ¬ (c.subjectKeyId = k ∧ k ≠ []) := by
          rintro ⟨a, b⟩; exact b (a ▸ this)
        simp [this]

theorem wf_poolOf (hist : List Cert) : (poolOf hist).WF := by
  unfold poolOf
  suffices ∀ p : Pool, p.WF → (hist.foldl Pool.addCert p).WF from this _ wf_new
  induction hist with
  | nil => exact fun p h => h
  | cons c cs ih => exact fun p h => ih _ (wf_add p h c)

theorem poolOf_append (hist : List Cert) (c : Cert) : poolOf (hist ++ [c]) = (poolOf hist).addCert c := by
  simp [poolOf, List.foldl_append]

/-- C50: the pool lists the certificates added, in the order of their first addition, each once. -/
theorem C50_set (hist : List Cert) :
    (poolOf hist).certs.Sublist hist ∧ (poolOf hist).certs.Pairwise (fun a b => ¬ Same a b) ∧
    ∀ c ∈ hist, ∃ d ∈ (poolOf hist).certs, Same d c := by
  induction hist using List.reverseRecOn with
  | nil => exact ⟨List.Sublist.refl _, List.Pairwise.nil, by simp⟩
  | append_singleton hist c ih =>
    rw [poolOf_append]
    have hc := contains_iff (poolOf hist) (wf_poolOf hist) c
    unfold Pool.addCert
    by_cases h : (poolOf hist).contains c = true
    · rw [if_pos h]
      refine ⟨ih.1.trans (List.sublist_append_left _ _), ih.2.1, ?_⟩
      intro d hd
      rcases List.mem_append.1 hd with hd | hd
      · exact ih.2.2 d hd
      · rw [List.mem_singleton.1 hd]; exact hc.1 h
    · rw [if_neg h]
      refine ⟨ih.1.append (List.Sublist.refl _), ?_, ?_⟩
      · rw [List.pairwise_append]
        refine ⟨ih.2.1, List.pairwise_singleton _ _, ?_⟩
        intro a ha b hb hs
        rw [List.mem_singleton.1 hb] at hs
        exact h (hc.2 ⟨a, ha, hs⟩)
      · intro d hd
        rcases List.mem_append.1 hd with hd | hd
        · obtain ⟨x, hx, e⟩ := ih.2.2 d hd
          exact ⟨x, List.mem_append_left _ hx, e⟩
        · rw [List.mem_singleton.1 hd]
          exact ⟨c, by simp, rfl, rfl⟩

/-- C50: membership is membership in the history. -/
theorem C50_contains (hist : List Cert) (c : Cert) : (poolOf hist).contains c = true ↔ ∃ d ∈ hist, Same d c := by
  rw [contains_iff _ (wf_poolOf hist)]
  obtain ⟨h1, _, h3⟩ := C50_set hist
  constructor
  · rintro ⟨d, hd, e⟩
    exact ⟨d, h1.subset hd, e⟩
  · rintro ⟨d, hd, e⟩
    obtain ⟨x, hx, e'⟩ := h3 d hd
    exact ⟨x, hx, e'.1.trans e.1, e'.2.trans e.2⟩

/-- C50: adding a certificate again changes nothing. -/
theorem C50_idempotent (hist : List Cert) (c d : Cert) (h : d ∈ hist) (e : Same d c) : poolOf (hist ++ [c]) = poolOf hist := by
  rw [poolOf_append]
  unfold Pool.addCert
  rw [if_pos ((C50_contains hist c).2 ⟨d, h, e⟩)]

/-- C50: the parents found are exactly the certificates of the pool that (1) have the key identifier the child names, or, if there is none with
it, the name of the child's issuer, and (2) verify the child's signature; listed in the order of addition. -/
theorem C50_parents (E : Env) (entrust : Bytes) (hist : List Cert) (c : Cert) :
    (findVerifiedParents E entrust (some (poolOf hist)) c).1 =
      (List.range (poolOf hist).certs.length).filter (fun i =>
        decide ((if c.authorityKeyId ≠ [] ∧ ∃ d ∈ (poolOf hist).certs, d.subjectKeyId = c.authorityKeyId
            then ((poolOf hist).at i).subjectKeyId = c.authorityKeyId else ((poolOf hist).at i).rawSubject = c.rawIssuer) ∧
          checkSignatureFrom E entrust c ((poolOf hist).at i) = none)) := by
  have W := wf_poolOf hist
  generalize poolOf hist = p at W ⊢
  have hcand : p.candidates c = (List.range p.certs.length).filter (fun i =>
      decide (if c.authorityKeyId ≠ [] ∧ ∃ d ∈ p.certs, d.subjectKeyId = c.authorityKeyId
            then (p.at i).subjectKeyId = c.authorityKeyId else (p.at i).rawSubject = c.rawIssuer)) := by
    unfold Pool.candidates
    by_cases h0 : c.authorityKeyId = []
    · simp only [h0, List.length_nil, gt_iff_lt, Nat.lt_irrefl, if_false, if_true, ne_eq, not_true_eq_false, false_and]
      exact W.byName _
    · have h1 : c.authorityKeyId.length > 0 := List.length_pos_iff.2 h0
      simp only [h1, if_true]
      by_cases h2 : ∃ d ∈ p.certs, d.subjectKeyId = c.authorityKeyId
      · have h3 : (p.bySubjectKeyId c.authorityKeyId).length ≠ 0 := by
          obtain ⟨d, hd, e⟩ := h2
          obtain ⟨i, hi, ei⟩ := mem_at p d hd
          have : i ∈ p.bySubjectKeyId c.authorityKeyId := by
            rw [W.byKey, List.mem_filter, List.mem_range, decide_eq_true_iff, ei]
            exact ⟨hi, e, h0⟩
          have := List.length_pos_of_mem this
          omega
        rw [if_neg h3, W.byKey]
        apply List.filter_congr
        intro i _
        simp [h0, h2]
      · have h3 : (p.bySubjectKeyId c.authorityKeyId).length = 0 := by
          rw [W.byKey, List.length_eq_zero_iff, List.filter_eq_nil_iff]
          intro i hi
          rw [List.mem_range] at hi
          rw [decide_eq_true_iff]
          rintro ⟨e, _⟩
          exact h2 ⟨p.at i, at_mem p i hi, e⟩
        rw [if_pos h3, W.byName]
        apply List.filter_congr
        intro i _
        simp [h2]
  unfold findVerifiedParents
  simp only [hcand]
  rw [List.filter_filter]
  apply List.filter_congr
  intro i _
  rw [Bool.decide_and, Bool.and_comm]
  congr 1
  cases checkSignatureFrom E entrust c (p.at i) <;> simp

/-- C50: `Subjects` lists the subjects of the certificates of the pool: those of the history, nothing else. -/
theorem C50_subjects (hist : List Cert) (s : Bytes) : s ∈ (poolOf hist).subjects ↔ ∃ c ∈ hist, c.rawSubject = s := by
  unfold Pool.subjects
  rw [List.mem_map]
  obtain ⟨h1, _, h3⟩ := C50_set hist
  constructor
  · rintro ⟨c, hc, e⟩; exact ⟨c, h1.subset hc, e⟩
  · rintro ⟨c, hc, e⟩
    obtain ⟨d, hd, e'⟩ := h3 c hc
    exact ⟨d, hd, e'.2.trans e⟩

/-- the certificates of a PEM file -/
def pemCerts (parse : Bytes → Option Cert) (certType : Bytes) (bs : List PemBlock) : List Cert :=
  bs.filterMap (fun b => if b.type = certType ∧ b.headers = false then parse b.bytes else none)

/-- C50: `AppendCertsFromPEM` adds exactly the certificates that parse from headerless CERTIFICATE blocks, skipping everything else, and reports
whether there was one. -/
theorem C50_append_pem (parse : Bytes → Option Cert) (certType : Bytes) (hist : List Cert) (bs : List PemBlock) :
    (poolOf hist).appendBlocks parse certType bs =
      (poolOf (hist ++ pemCerts parse certType bs), decide (pemCerts parse certType bs ≠ [])) := by
  induction bs generalizing hist with
  | nil => simp [Pool.appendBlocks, pemCerts]
  | cons b bs ih =>
    unfold Pool.appendBlocks
    by_cases h : b.type ≠ certType ∨ b.headers = true
    · rw [if_pos h, ih]
      have : ¬ (b.type = certType ∧ b.headers = false) := by
        rintro ⟨h1, h2⟩
        rcases h with h | h
        · exact h h1
        · rw [h2] at h; cases h
      simp [pemCerts, this]
    · rw [if_neg h]
      have h' : b.type = certType ∧ b.headers = false := by
        constructor
        · by_contra x; exact h (.inl x)
        · cases hb : b.headers
          · rfl
          · exact absurd (.inr hb) h
      cases hp : parse b.bytes with
      | none =>
        simp only []
        rw [ih]
        simp [pemCerts, h', hp]
      | some c =>
        simp only []
        rw [← poolOf_append, ih]
        simp [pemCerts, h', hp]

/-- a pool with two certificates, one of them added twice -/
example : (poolOf [{ raw := [1], rawSubject := [7] }, { raw := [2], rawSubject := [7], subjectKeyId := [9] }, { raw := [1], rawSubject := [7] }]).certs.length = 2 ∧
    (poolOf [{ raw := [1], rawSubject := [7] }, { raw := [2], rawSubject := [7], subjectKeyId := [9] }]).byName [7] = [0, 1] ∧
    (poolOf [{ raw := [1], rawSubject := [7] }, { raw := [2], rawSubject := [7], subjectKeyId := [9] }]).bySubjectKeyId [9] = [1] := by
  decide

end Verif.X509
