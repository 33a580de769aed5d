import Verif.X509.VerifyProps
/-!
C80: does `Verify` find a chain when there is one? Yes if no certificate limits the path length; no in general (the cache of
`buildChains` remembers failures that depended on the path).
-/
namespace Verif.X509
open Verif

/-- no path length limit -/
def Unlimited (p : Pool) : Prop := ∀ c ∈ p.certs, c.basicConstraintsValid = true → c.maxPathLen < 0

section
variable (E : Env) (entrust : Bytes) (o : Opts)

/-- the conditions `isValid` checks that do not depend on the length of the chain -/
def ValidFor (c x : Cert) (kind : Kind) : Prop := isValid E x kind [c] o = none

theorem isValid_last (x : Cert) (kind : Kind) (chain : List Cert) (c : Cert) (hl : chain.getLast? = some c)
    (hu : x.basicConstraintsValid = true → x.maxPathLen < 0) : isValid E x kind chain o = none ↔ ValidFor E o c x kind := by
  unfold ValidFor
  rw [isValid_iff, isValid_iff, hl]
  have h1 : ∀ n : Int, (x.basicConstraintsValid = true → 0 ≤ x.maxPathLen → n ≤ x.maxPathLen + 1) ↔ True := by
    intro n
    rw [iff_true]
    intro a b
    have := hu a
    omega
  rw [h1, h1]
  simp

/-- an edge to intermediate number `m` -/
def Edge (c : Cert) (m : Nat) : Prop :=
  m ∈ (findVerifiedParents E entrust o.intermediates c).1 ∧ ValidFor E o c ((poolOrEmpty o.intermediates).at m) .intermediate

/-- no root of the pool is a valid parent -/
def NoRoot (c : Cert) : Prop :=
  ∀ i ∈ (findVerifiedParents E entrust o.roots c).1, ¬ ValidFor E o c ((poolOrEmpty o.roots).at i) .root

/-- where an edge leads when nothing was found: back into the chain, or to an intermediate already known to lead nowhere -/
def Dead (k : Cache) (S : List Cert) (c : Cert) : Prop :=
  NoRoot E entrust o c ∧ ∀ m, Edge E entrust o c m → S.any (fun x => x.equal ((poolOrEmpty o.intermediates).at m)) = true ∨ k m = some []

/-- every intermediate remembered as leading nowhere is dead -/
def Closed (k : Cache) (S : List Cert) : Prop := ∀ j, k j = some [] → Dead E entrust o k S ((poolOrEmpty o.intermediates).at j)

theorem rootLoop_ge (roots : Pool) (ch : List Cert) (is : List Nat) (acc : List (List Cert) × Option VErr)
    (h : (rootLoop E o roots ch is acc).1 = []) :
    acc.1 = [] ∧ ∀ i ∈ is, ch.any (fun c => c.equal (roots.at i)) = true ∨ isValid E (roots.at i) .root ch o ≠ none := by
  induction is generalizing acc with
  | nil => exact ⟨h, by simp⟩
  | cons i is ih =>
    obtain ⟨chains, err⟩ := acc
    unfold rootLoop at h
    simp only at h
    split at h
    · rename_i hc
      obtain ⟨h1, h2⟩ := ih _ h
      refine ⟨h1, fun j hj => ?_⟩
      rcases List.mem_cons.1 hj with rfl | hj
      · exact .inl hc
      · exact h2 j hj
    · split at h
      · rename_i hv
        obtain ⟨h1, h2⟩ := ih _ h
        refine ⟨h1, fun j hj => ?_⟩
        rcases List.mem_cons.1 hj with rfl | hj
        · right; rw [hv]; simp
        · exact h2 j hj
      · obtain ⟨h1, _⟩ := ih _ h
        simp at h1

/-- what is remembered stays -/
def Keeps (k k' : Cache) : Prop := ∀ j cs, k j = some cs → k' j = some cs

variable {E entrust o}

theorem interLoop_keeps (ch : List Cert)
    (rec : Cert → Cache → List Cert → Option ((List (List Cert) × Option VErr) × Cache))
    (hrec : ∀ c k ch' r, rec c k ch' = some r → Keeps k r.2) (is : List Nat)
    (acc r) (h : interLoop E o (poolOrEmpty o.intermediates) ch rec is acc = some r) : Keeps acc.2 r.2 := by
  induction is generalizing acc with
  | nil => unfold interLoop at h; cases h; exact fun _ _ h => h
  | cons i is ih =>
    obtain ⟨⟨chains, err⟩, cache⟩ := acc
    unfold interLoop at h
    simp only at h
    split at h
    · exact ih _ h
    · split at h
      · exact ih ((chains, some _), cache) h
      · split at h
        · exact ih ((chains ++ _, none), cache) h
        · rename_i hnone
          split at h
          · cases h
          · rename_i cs err' cache' hr
            have h1 := ih _ h
            have h2 := hrec _ _ _ _ hr
            intro j cs' hj
            dsimp only at hj
            apply h1
            dsimp only
            rw [if_neg (by intro e; subst e; rw [hnone] at hj; cases hj)]
            exact h2 j cs' hj

theorem buildChains_keeps (fuel : Nat) : ∀ c k ch r, buildChains E entrust o fuel c k ch = some r → Keeps k r.2 := by
  induction fuel with
  | zero => intro c k ch r h; cases h
  | succ fuel ih =>
    intro c k ch r h
    unfold buildChains at h
    simp only at h
    split at h
    · cases h
    · rename_i hloop
      simp only [Option.some.injEq] at h
      subst h
      have q := interLoop_keeps ch _ ih _ (_, k) _ hloop
      exact q

theorem dead_mono {k k' : Cache} {S S' : List Cert} {c : Cert} (hk : Keeps k k') (hS : ∀ x ∈ S, x ∈ S') (h : Dead E entrust o k S c) :
    Dead E entrust o k' S' c := by
  refine ⟨h.1, fun m hm => ?_⟩
  rcases h.2 m hm with h | h
  · left
    rw [List.any_eq_true] at h ⊢
    obtain ⟨x, hx, e⟩ := h
    exact ⟨x, hS x hx, e⟩
  · exact .inr (hk m _ h)

/-- after finishing an intermediate, a dead end through it is a dead end without it -/
theorem dead_finish {k : Cache} {S : List Cert} {i : Nat} {c : Cert} (hb : ∀ q, o.intermediates = some q → Built q)
    (hi : i < (poolOrEmpty o.intermediates).certs.length)
    (hraw : ∀ a ∈ (poolOrEmpty o.intermediates).certs, ∀ b ∈ (poolOrEmpty o.intermediates).certs, a.raw = b.raw → a = b)
    (h : Dead E entrust o k (S ++ [(poolOrEmpty o.intermediates).at i]) c) : Dead E entrust o (fun j => if j = i then some [] else k j) S c := by
  refine ⟨h.1, fun m hm => ?_⟩
  rcases h.2 m hm with h | h
  · rw [List.any_append, Bool.or_eq_true] at h
    rcases h with h | h
    · exact .inl h
    · right
      have e : m = i := by
        simp only [List.any_cons, List.any_nil, Bool.or_false, Cert.equal, beq_iff_eq] at h
        have hm' := parents_in E entrust _ hb c m hm.1
        have hlt : m < (poolOrEmpty o.intermediates).certs.length := by
          cases hp : o.intermediates with
          | none =>
            have := hm.1
            rw [hp] at this
            simp [findVerifiedParents] at this
          | some q =>
            obtain ⟨hist, rfl⟩ := hb q hp
            have := hm.1
            rw [hp, C50_parents, List.mem_filter, List.mem_range] at this
            exact this.1
        have he := hraw _ (at_mem _ i hi) _ hm' h
        -- the pool has no duplicates
        cases hp : o.intermediates with
        | none =>
          have := hm.1
          rw [hp] at this
          simp [findVerifiedParents] at this
        | some q =>
          obtain ⟨hist, rfl⟩ := hb q hp
          rw [hp] at he hlt hi
          have hpw := (C50_set hist).2.1
          rw [List.pairwise_iff_getElem] at hpw
          simp only [poolOrEmpty, Pool.at] at he hlt hi
          rw [List.getD_eq_getElem?_getD, List.getD_eq_getElem?_getD, List.getElem?_eq_getElem hlt, List.getElem?_eq_getElem hi] at he
          simp only [Option.getD_some] at he
          rcases Nat.lt_trichotomy m i with hc | hc | hc
          · exact absurd (by rw [he]; exact ⟨rfl, rfl⟩) (hpw m i hlt hi hc)
          · exact hc
          · exact absurd (by rw [he]; exact ⟨rfl, rfl⟩) (hpw i m hi hlt hc)
      simp [e]
  · right
    dsimp only
    split
    · rfl
    · exact h

/-- the situation in which the search is complete -/
structure Setting (E : Env) (entrust : Bytes) (o : Opts) : Prop where
  built : ∀ q, o.intermediates = some q → Built q
  rootsBuilt : ∀ q, o.roots = some q → Built q
  unlimited : Unlimited (poolOrEmpty o.intermediates)
  rootsUnlimited : Unlimited (poolOrEmpty o.roots)
  raw : ∀ a ∈ (poolOrEmpty o.intermediates).certs, ∀ b ∈ (poolOrEmpty o.intermediates).certs, a.raw = b.raw → a = b

theorem buildChains_dead (T : Setting E entrust o) (fuel : Nat) : ∀ c k ch r, ch.getLast? = some c →
    (∀ x ∈ ch, ∀ y ∈ (poolOrEmpty o.roots).certs, x.raw ≠ y.raw) →
    (∀ x ∈ (poolOrEmpty o.intermediates).certs, ∀ y ∈ (poolOrEmpty o.roots).certs, x.raw ≠ y.raw) →
    Closed E entrust o k ch → buildChains E entrust o fuel c k ch = some r → r.1.1 = [] →
    Closed E entrust o r.2 ch ∧ Dead E entrust o r.2 ch c := by
  induction fuel with
  | zero => intro c k ch r _ _ _ _ h; cases h
  | succ fuel ih =>
    intro c k ch r hl hdis hdis2 hcl h hempty
    have hkeep := buildChains_keeps (fuel + 1) c k ch r h
    unfold buildChains at h
    simp only at h
    split at h
    · cases h
    rename_i chains err cache hloop
    simp only [Option.some.injEq] at h
    subst h
    dsimp only at hempty ⊢ hkeep
    subst hempty
    -- the loop over the intermediates
    have loop : ∀ is acc (_ : ∀ i ∈ is, i ∈ (findVerifiedParents E entrust o.intermediates c).1) (_ : Closed E entrust o acc.2 ch)
        (_ : interLoop E o (poolOrEmpty o.intermediates) ch (buildChains E entrust o fuel) is acc = some (([], err), cache)),
        acc.1.1 = [] ∧ Closed E entrust o cache ch ∧
          ∀ m ∈ is, ValidFor E o c ((poolOrEmpty o.intermediates).at m) .intermediate →
            ch.any (fun x => x.equal ((poolOrEmpty o.intermediates).at m)) = true ∨ cache m = some [] := by
      intro is
      induction is with
      | nil =>
        intro acc _ hc h
        unfold interLoop at h
        cases h
        exact ⟨rfl, hc, by simp⟩
      | cons i is ihl =>
        intro acc hin hc h
        have hin' := fun j hj => hin j (List.mem_cons_of_mem _ hj)
        have hmem := parents_in E entrust _ T.built c i (hin i (by simp))
        obtain ⟨⟨chains, err0⟩, cache0⟩ := acc
        unfold interLoop at h
        simp only at h
        split at h
        · rename_i hany
          obtain ⟨h1, h2, h3⟩ := ihl _ hin' hc h
          refine ⟨h1, h2, fun m hm hv => ?_⟩
          rcases List.mem_cons.1 hm with rfl | hm
          · exact .inl hany
          · exact h3 m hm hv
        · rename_i hany
          split at h
          · rename_i e hv0
            obtain ⟨h1, h2, h3⟩ := ihl ((chains, some e), cache0) hin' hc h
            refine ⟨h1, h2, fun m hm hv => ?_⟩
            rcases List.mem_cons.1 hm with rfl | hm
            · rw [(isValid_last E o _ _ ch c hl (T.unlimited _ hmem)).2 hv] at hv0; cases hv0
            · exact h3 m hm hv
          · split at h
            · rename_i cs hcs
              obtain ⟨h1, h2, h3⟩ := ihl ((chains ++ cs, none), cache0) hin' hc h
              simp only [List.append_eq_nil_iff] at h1
              have hk := interLoop_keeps ch _ (buildChains_keeps fuel) is _ _ h
              refine ⟨h1.1, h2, fun m hm hv => ?_⟩
              rcases List.mem_cons.1 hm with rfl | hm
              · right; rw [h1.2] at hcs; exact hk _ _ hcs
              · exact h3 m hm hv
            · split at h
              · cases h
              · rename_i hnone cs err' cache' hr
                have hcl2 : cs = [] ∧ chains = [] ∧ Closed E entrust o cache ch ∧ ∀ m ∈ is, ValidFor E o c ((poolOrEmpty o.intermediates).at m) .intermediate →
                    ch.any (fun x => x.equal ((poolOrEmpty o.intermediates).at m)) = true ∨ cache m = some [] := by
                  -- first find that the chains are empty, whatever the cache: run the list lemma
                  have hcs : chains ++ cs = [] := by
                    have : ∀ is acc r, interLoop E o (poolOrEmpty o.intermediates) ch (buildChains E entrust o fuel) is acc = some r → r.1.1 = [] → acc.1.1 = [] := by
                      intro is
                      induction is with
                      | nil => intro acc r h hr; unfold interLoop at h; cases h; exact hr
                      | cons i is ihk =>
                        intro acc r h hr
                        obtain ⟨⟨a, b⟩, k⟩ := acc
                        unfold interLoop at h
                        simp only at h
                        split at h
                        · exact ihk _ _ h hr
                        · split at h
                          · exact ihk ((a, some _), k) _ h hr
                          · split at h
                            · have := ihk _ _ h hr
                              simp only [List.append_eq_nil_iff] at this
                              exact this.1
                            · split at h
                              · cases h
                              · have := ihk _ _ h hr
                                simp only [List.append_eq_nil_iff] at this
                                exact this.1
                    exact this is _ _ h rfl
                  rw [List.append_eq_nil_iff] at hcs
                  obtain ⟨hch, hcs⟩ := hcs
                  subst hcs
                  have hcl1 : Closed E entrust o cache0 (ch ++ [(poolOrEmpty o.intermediates).at i]) := fun j hj =>
                    dead_mono (fun _ _ h => h) (fun x hx => List.mem_append_left _ hx) (hc j hj)
                  obtain ⟨q1, q2⟩ := ih _ _ _ _ (by simp) (by
                    intro x hx y hy
                    rcases List.mem_append.1 hx with hx | hx
                    · exact hdis x hx y hy
                    · rw [List.mem_singleton.1 hx]; exact hdis2 _ hmem y hy) hdis2 hcl1 hr rfl
                  have hlt : i < (poolOrEmpty o.intermediates).certs.length := by
                    cases hp : o.intermediates with
                    | none =>
                      have := hin i (by simp)
                      rw [hp] at this
                      simp [findVerifiedParents] at this
                    | some q =>
                      obtain ⟨hist, rfl⟩ := T.built q hp
                      have := hin i (by simp)
                      rw [hp, C50_parents, List.mem_filter, List.mem_range] at this
                      exact this.1
                  have hclosed : Closed E entrust o (fun j => if j = i then some [] else cache' j) ch := by
                    intro j hj
                    dsimp only at hj
                    by_cases e : j = i
                    · subst e; exact dead_finish T.built hlt T.raw q2
                    · rw [if_neg e] at hj
                      exact dead_finish T.built hlt T.raw (q1 j hj)
                  obtain ⟨_, h2, h3⟩ := ihl ((chains ++ [], err'), fun j => if j = i then some [] else cache' j) hin' hclosed h
                  exact ⟨rfl, hch, h2, h3⟩
                obtain ⟨e1, e2, h2, h3⟩ := hcl2
                subst e1
                refine ⟨e2, h2, fun m hm hv => ?_⟩
                rcases List.mem_cons.1 hm with rfl | hm
                · right
                  have hk := interLoop_keeps ch _ (buildChains_keeps fuel) is _ _ h
                  exact hk m [] (by simp)
                · exact h3 m hm hv
    obtain ⟨hroot, hc', hedges⟩ := loop _ _ (fun i h => h) hcl hloop
    obtain ⟨_, hr⟩ := rootLoop_ge E o _ _ _ _ hroot
    refine ⟨hc', ?_, fun m hm => hedges m hm.1 hm.2⟩
    intro i hi hv
    have hmem := parents_in E entrust _ T.rootsBuilt c i hi
    rcases hr i hi with hr | hr
    · rw [List.any_eq_true] at hr
      obtain ⟨x, hx, e⟩ := hr
      exact hdis x hx _ hmem (by simpa [Cert.equal] using e)
    · exact hr ((isValid_last E o _ _ ch c hl (T.rootsUnlimited _ hmem)).2 hv)

end

/-- the candidate selection does not hide the parent: the child names no key identifier, or the parent's, or one no certificate of the pool has -/
def Visible (p : Pool) (child parent : Cert) : Prop :=
  child.authorityKeyId = [] ∨ parent.subjectKeyId = child.authorityKeyId ∨ ∀ d ∈ p.certs, d.subjectKeyId ≠ child.authorityKeyId

theorem parents_complete (E : Env) (entrust : Bytes) (p : Option Pool) (hb : ∀ q, p = some q → Built q ∧ KeysParsed q) (c x : Cert)
    (hx : x ∈ (poolOrEmpty p).certs) (hv : Visible (poolOrEmpty p) c x) (hn : c.rawIssuer = x.rawSubject) (hs : Spec.Signed E entrust c x) :
    ∃ i, i ∈ (findVerifiedParents E entrust p c).1 ∧ (poolOrEmpty p).at i = x := by
  cases p with
  | none => simp [poolOrEmpty, Pool.new] at hx
  | some q =>
    obtain ⟨⟨hist, rfl⟩, hk⟩ := hb q rfl
    change x ∈ (poolOf hist).certs at hx
    change Visible (poolOf hist) c x at hv
    obtain ⟨i, hi, e⟩ := mem_at _ x hx
    refine ⟨i, ?_, e⟩
    rw [C50_parents, List.mem_filter, List.mem_range, decide_eq_true_iff, e]
    refine ⟨hi, ?_, (signed_iff _ _ _ _ (hk x hx)).2 hs⟩
    split
    · rename_i h
      rcases hv with hv | hv | hv
      · exact absurd hv h.1
      · exact hv
      · obtain ⟨d, hd, e'⟩ := h.2
        exact absurd e' (hv d hd)
    · exact hn.symm

/-- C80, completeness, restricted: if no certificate limits the path length, no intermediate is a root, and any key usage is acceptable, then
`Verify` succeeds whenever a valid chain exists along certificates the key identifiers do not hide. Missing: certificates with a path length limit,
for which it is false (`C80_complete_violated`). -/
theorem C80_complete_partial (E : Env) (entrust : Bytes) (system : Option Pool) (c : Cert) (o : Opts) (roots : Pool)
    (hroots : resolveRoots o system = some roots) (hr : Built roots ∧ KeysParsed roots) (hi : ∀ q, o.intermediates = some q → Built q ∧ KeysParsed q)
    (hu : Unlimited (poolOrEmpty o.intermediates)) (hur : Unlimited roots)
    (hraw : ∀ a ∈ (poolOrEmpty o.intermediates).certs, ∀ b ∈ (poolOrEmpty o.intermediates).certs, a.raw = b.raw → a = b)
    (hdis : ∀ x ∈ c :: (poolOrEmpty o.intermediates).certs, ∀ y ∈ roots.certs, x.raw ≠ y.raw)
    (hparsed : ∀ x ∈ c :: (poolOrEmpty o.intermediates).certs, x.raw ≠ []) (hany : 0 ∈ o.keyUsages)
    (hhost : o.dnsName ≠ [] → verifyHostname E c o.dnsName = none)
    (ch : List Cert) (V : Spec.ValidChain E entrust o roots (poolOrEmpty o.intermediates) c ch)
    (hvis : ∀ i a b, ch[i]? = some a → ch[i + 1]? = some b → Visible (poolOrEmpty o.intermediates) a b ∧ Visible roots a b) :
    ∃ chains, verify E entrust system c o = some (.ok chains) := by
  have hlen : 1 < ch.length := by
    obtain ⟨r, h1, h2 | ⟨h2, r', h3, h4⟩⟩ := V.anchored
    · exact h2.1
    · exfalso
      obtain ⟨x, hx⟩ := List.length_eq_one_iff.1 h2
      have hf := V.links.first
      rw [hx] at hf h1
      simp at hf h1
      subst hf
      rw [← h1] at h4
      exact hdis _ (by simp) r' h3 h4.1.symm
  unfold verify
  rw [if_neg (by rw [List.length_eq_zero_iff]; exact hparsed c (by simp)), if_neg (by
    rw [Bool.not_eq_true, List.any_eq_false]
    intro x hx
    rw [beq_iff_eq, List.length_eq_zero_iff]
    exact hparsed x (List.mem_cons_of_mem _ hx)), hroots]
  dsimp only
  have h0 : ch[0]? = some c := by rw [← List.head?_eq_getElem?]; exact V.links.first
  have hc0 : c ∈ ch := List.mem_of_getElem? h0
  have hleaf : isValid E c .leaf [] { o with roots := some roots } = none := by
    rw [isValid_iff]
    refine ⟨V.links.noUnhandled c hc0, by simp, V.links.inTime c hc0, ⟨V.links.permitted c hc0, V.links.excluded c hc0⟩, by simp, ?_⟩
    intro _ h; simp only [List.length_nil, Nat.cast_zero]; omega
  unfold verifyWith
  rw [hleaf]
  dsimp only
  have hh : (if o.dnsName.length > 0 then verifyHostname E c o.dnsName else none) = none := by
    split
    · rename_i h; exact hhost (List.length_pos_iff.1 h)
    · rfl
  rw [hh]
  dsimp only
  have T : Setting E entrust { o with roots := some roots } :=
    ⟨fun q hq => (hi q hq).1, by rintro q ⟨⟩; exact hr.1, hu, hur, hraw⟩
  have hsome := buildChains_some E entrust { o with roots := some roots } (fun q hq => (hi q hq).1) ((poolOrEmpty o.intermediates).certs.length + 1) c (fun _ => none) [c]
    (by show fresh (poolOrEmpty o.intermediates) [c] < _; unfold fresh; have := List.length_filter_le (fun x => !([c].any fun c => c.equal x)) (poolOrEmpty o.intermediates).certs; omega)
  have hnc : roots.contains c = false := by
    obtain ⟨⟨hist, rfl⟩, _⟩ := hr
    rw [Bool.eq_false_iff]
    intro h
    obtain ⟨d, hd, e⟩ := (contains_iff _ (wf_poolOf hist) c).1 h
    exact hdis c (by simp) d hd e.1.symm
  unfold candidateChains
  rw [hnc]
  simp only [Bool.false_eq_true, if_false]
  obtain ⟨r, hrr⟩ := Option.isSome_iff_exists.1 hsome
  have hne : r.1.1 ≠ [] := by
    intro he
    obtain ⟨hcl, hdead⟩ := buildChains_dead T _ c (fun _ => none) [c] r rfl
      (by intro x hx y hy; rw [List.mem_singleton.1 hx]; exact hdis c (by simp) y hy)
      (by intro x hx y hy; exact hdis x (List.mem_cons_of_mem _ hx) y hy) (by intro j hj; cases hj) hrr he
    -- every certificate of the chain but the last is a dead end
    have walk : ∀ i x, ch[i]? = some x → i + 1 < ch.length → Dead E entrust { o with roots := some roots } r.2 [c] x := by
      intro i
      induction i with
      | zero => intro x hx _; rw [h0] at hx; cases hx; exact hdead
      | succ i ih =>
        intro x hx hi2
        have hlt : i < ch.length := by omega
        have ha : ch[i]? = some ch[i] := List.getElem?_eq_getElem hlt
        have D := ih _ ha (by omega)
        obtain ⟨hlink, hsig⟩ := V.links.linked i _ _ ha hx
        obtain ⟨ca1, ca2, hmem⟩ := V.inner (i + 1) x hx (by omega) hi2
        obtain ⟨m, hm, em⟩ := parents_complete E entrust o.intermediates hi _ x hmem (hvis i _ _ ha hx).1 hlink hsig
        have hxm : x ∈ ch := List.mem_of_getElem? hx
        have hedge : Edge E entrust { o with roots := some roots } ch[i] m := by
          refine ⟨hm, ?_⟩
          unfold ValidFor
          rw [isValid_iff]
          show (((poolOrEmpty o.intermediates).at m).unhandledCritical = [] ∧ _)
          rw [em]
          refine ⟨V.links.noUnhandled x hxm, by intro y hy; simp at hy; rw [← hy]; exact hlink, V.links.inTime x hxm, ⟨V.links.permitted x hxm, V.links.excluded x hxm⟩, fun _ => ⟨ca1, ca2⟩, ?_⟩
          intro h1 h2
          have := hu x hmem h1
          omega
        rcases D.2 m hedge with h | h
        · exfalso
          simp only [List.any_cons, List.any_nil, Bool.or_false, Cert.equal, beq_iff_eq] at h
          change c.raw = ((poolOrEmpty o.intermediates).at m).raw at h
          rw [em] at h
          have hpw := List.pairwise_iff_getElem.1 V.links.distinct 0 (i + 1) (by omega) (by omega) (by omega)
          have e0 : ch[0] = c := by rw [List.getElem?_eq_getElem (by omega)] at h0; simpa using h0
          have e1 : ch[i + 1] = x := by rw [List.getElem?_eq_getElem (by omega)] at hx; simpa using hx
          rw [e0, e1] at hpw
          exact hpw h
        · have := hcl m h
          change Dead E entrust { o with roots := some roots } r.2 [c] ((poolOrEmpty o.intermediates).at m) at this
          rwa [em] at this
    obtain ⟨root, h1, h2⟩ := V.anchored
    have hrm : root ∈ roots.certs := by
      rcases h2 with h2 | h2
      · exact h2.2
      · omega
    rw [List.getLast?_eq_getElem?] at h1
    have ha : ch[ch.length - 2]? = some ch[ch.length - 2] := List.getElem?_eq_getElem (by omega)
    have h1' : ch[ch.length - 2 + 1]? = some root := by rw [← h1]; congr 1; omega
    have D := walk _ _ ha (by omega)
    obtain ⟨hlink, hsig⟩ := V.links.linked _ _ _ ha h1'
    obtain ⟨m, hm, em⟩ := parents_complete E entrust (some roots) (by rintro q ⟨⟩; exact hr) _ root hrm (hvis _ _ _ ha h1').2 hlink hsig
    apply D.1 m hm
    have hxm : root ∈ ch := List.mem_of_getElem? h1'
    unfold ValidFor
    rw [isValid_iff]
    change roots.at m = root at em
    show ((roots.at m).unhandledCritical = [] ∧ _)
    rw [show (poolOrEmpty ({ o with roots := some roots } : Opts).roots).at m = root from em, em]
    refine ⟨V.links.noUnhandled _ hxm, by intro y hy; simp at hy; rw [← hy]; exact hlink, V.links.inTime _ hxm, ⟨V.links.permitted _ hxm, V.links.excluded _ hxm⟩, (by intro h; cases h), ?_⟩
    intro h1 h2
    have := hur root hrm h1
    omega
  have herr := (buildChains_err _ _ _ _ _ _ _ _ hrr).2 hne
  rw [hrr]
  obtain ⟨⟨chains, err⟩, cache⟩ := r
  dsimp only at herr
  subst herr
  dsimp only
  refine ⟨chains, ?_⟩
  unfold filterUsages
  have hk : o.keyUsages.length ≠ 0 := by
    intro e; rw [List.length_eq_zero_iff.1 e] at hany; cases hany
  dsimp only
  rw [if_neg hk, if_pos (by rw [List.contains_iff_mem]; exact hany)]

/-! ### A chain that exists and is not found -/

namespace Example

/-- a curve that is never used -/
def noCurve : Sm2.Curve := { T := Unit, scalarBaseMult := fun _ => (0, 0), scalarMult := fun _ _ _ => (0, 0), add := fun _ _ => (0, 0), opt := none }

/-- every signature of an RSA key verifies -/
def env : Env := { curve := noCurve, parseIP := fun _ => none, ipEqual := fun _ _ => false, equalFold := fun a b => a == b, otherVerify := fun _ _ _ _ => none }

def leaf : Cert := { raw := [1], rawSubject := [1], rawIssuer := [2], pub := .rsa [], notAfter := 10 }
/-- a self-issued certificate of the intermediate CA (key rollover) -/
def i1 : Cert := { raw := [11], rawSubject := [2], rawIssuer := [2], pub := .rsa [], notAfter := 10, basicConstraintsValid := true, isCA := true }
def i2 : Cert := { raw := [12], rawSubject := [2], rawIssuer := [3], pub := .rsa [], notAfter := 10, basicConstraintsValid := true, isCA := true }
/-- the root allows one intermediate -/
def root : Cert := { raw := [20], rawSubject := [3], rawIssuer := [3], pub := .rsa [], notAfter := 10, basicConstraintsValid := true, isCA := true, maxPathLen := 1 }

def opts : Opts := { dnsName := [], intermediates := some (poolOf [i1, i2]), roots := some (poolOf [root]), now := 5, keyUsages := [0] }
/-- the same intermediates in the other order -/
def opts' : Opts := { opts with intermediates := some (poolOf [i2, i1]) }

theorem signed (c p : Cert) (hp : p.pub = .rsa []) (h1 : p.basicConstraintsValid = true) (h2 : p.isCA = true) (h3 : p.keyUsage = 0) (h4 : c.sigAlg = .sm2Sm3) :
    Spec.Signed env [7] c p := by
  refine ⟨.inr (.inl ⟨h1, h2⟩), .inl h3, by rw [h4]; decide, ?_⟩
  rw [hp]
  rfl

theorem chain_valid : Spec.ValidChain env [7] opts (poolOf [root]) (poolOf [i1, i2]) leaf [leaf, i2, root] := by
  refine ⟨⟨rfl, by decide, by decide, ?_, ?_, ?_, ?_, by decide⟩, ?_, root, rfl, .inl ⟨by decide, by decide⟩⟩
  · intro c hc; left; revert c; decide
  · intro c hc k hk
    have : c.excludedDNS = [] := by clear hk; revert c; decide
    rw [this] at hk; cases hk
  · intro i a b ha hb
    match i with
    | 0 => simp at ha hb; subst ha hb; exact ⟨rfl, signed _ _ rfl rfl rfl rfl rfl⟩
    | 1 => simp at ha hb; subst ha hb; exact ⟨rfl, signed _ _ rfl rfl rfl rfl rfl⟩
    | i + 2 => simp at hb
  · intro i c hc h1 h2
    match i with
    | 0 => simp at hc; subst hc; cases h1
    | 1 => simp at hc; subst hc; exact absurd h2 (by decide)
    | 2 => simp at hc; subst hc; decide
    | i + 3 => simp at hc
  · intro i c hc h1 h2
    match i with
    | 0 => omega
    | 1 => simp at hc; subst hc; exact ⟨rfl, rfl, by decide⟩
    | i + 2 => simp at h2; omega

end Example

/-- C80, completeness, is false of the code in general: a valid chain exists, any key usage is acceptable, and `Verify` fails, because the failure
of intermediate 2 at the end of a longer path is cached; with the intermediates listed in the other order it succeeds (and returns the chain twice). -/
theorem C80_complete_violated :
    Spec.ValidChain Example.env [7] Example.opts (poolOf [Example.root]) (poolOf [Example.i1, Example.i2]) Example.leaf
      [Example.leaf, Example.i2, Example.root] ∧
    verify Example.env [7] none Example.leaf Example.opts = some (.error (.unknownAuthority false)) ∧
    verify Example.env [7] none Example.leaf Example.opts' = some (.ok [[Example.leaf, Example.i2, Example.root], [Example.leaf, Example.i2, Example.root]]) :=
  ⟨Example.chain_valid, by rfl, by rfl⟩

end Verif.X509
