import Verif.X509.PoolProps
import Verif.X509.NameProps
import Mathlib.Data.Nat.Bitwise
/-!
C48: what the chains returned by `Verify` satisfy; termination for every pool.
-/
namespace Verif.X509
open Verif

namespace Spec

/-- a DNS name is within a name constraint: the constraint is empty, or equals the name without case, or is a proper suffix starting at a label
boundary (exactly one of: the part before ends in a dot, the constraint starts with one) -/
def Within (E : Env) (dns constraint : Bytes) : Prop :=
  constraint = [] ∨ ∃ pre suf, dns = pre ++ suf ∧ suf.length = constraint.length ∧ E.equalFold suf constraint = true ∧
    (pre = [] ∨ ¬ (pre.getLast? = some 0x2e ↔ constraint.head? = some 0x2e))

/-- the parent may sign certificates, and its key verifies the child's signature -/
structure Signed (E : Env) (entrust : Bytes) (child parent : Cert) : Prop where
  /-- a CA: version 3 certificates must say so, others must not deny it (except for the child with the exempted key) -/
  authority : child.rawSPKI = entrust ∨ (parent.basicConstraintsValid = true ∧ parent.isCA = true) ∨
    (parent.basicConstraintsValid = false ∧ parent.version ≠ 3)
  /-- the key usage, if there is one, includes certificate signing (bit 5) -/
  usage : parent.keyUsage = 0 ∨ parent.keyUsage.testBit 5 = true
  algorithm : child.sigAlg ≠ .md2RSA ∧ child.sigAlg ≠ .md5RSA ∧ child.sigAlg ≠ .unknown
  signature : match parent.pub with
    | .none => False
    | .sm2 x y => ∃ r s : Int, unmarshalPairRest child.signature = some ((r, s), []) ∧ 0 < r ∧ 0 < s ∧
        Sm2.verify E.curve { x := x, y := y, pre := none } child.rawTBS r s = .ok true
    | p => E.otherVerify child.sigAlg p child.rawTBS child.signature = none

/-- the conditions on every certificate of a chain and on neighbours, leaf first -/
structure Links (E : Env) (entrust : Bytes) (o : Opts) (leaf : Cert) (ch : List Cert) : Prop where
  first : ch.head? = some leaf
  noUnhandled : ∀ c ∈ ch, c.unhandledCritical = []
  inTime : ∀ c ∈ ch, c.notBefore ≤ o.now ∧ o.now ≤ c.notAfter
  permitted : ∀ c ∈ ch, c.permittedDNS = [] ∨ ∃ k ∈ c.permittedDNS, Within E o.dnsName k
  excluded : ∀ c ∈ ch, ∀ k ∈ c.excludedDNS, ¬ Within E o.dnsName k
  linked : ∀ i a b, ch[i]? = some a → ch[i + 1]? = some b → a.rawIssuer = b.rawSubject ∧ Signed E entrust a b
  /-- at most `maxPathLen` certificates between this one and the leaf -/
  pathLen : ∀ (i : Nat) c, ch[i]? = some c → c.basicConstraintsValid = true → 0 ≤ c.maxPathLen → (i : Int) ≤ c.maxPathLen + 1
  distinct : ch.Pairwise (fun a b => a.raw ≠ b.raw)

/-- a valid chain from `leaf` to a certificate of `roots`, through certificates of `inters` -/
structure ValidChain (E : Env) (entrust : Bytes) (o : Opts) (roots inters : Pool) (leaf : Cert) (ch : List Cert) : Prop where
  links : Links E entrust o leaf ch
  inner : ∀ i c, ch[i]? = some c → 0 < i → i + 1 < ch.length → c.basicConstraintsValid = true ∧ c.isCA = true ∧ c ∈ inters.certs
  anchored : ∃ r, ch.getLast? = some r ∧ ((1 < ch.length ∧ r ∈ roots.certs) ∨ (ch.length = 1 ∧ ∃ r' ∈ roots.certs, Same r' r))

/-- a certificate permits an extended key usage: it lists none, or it lists "any", or it lists it (server gated crypto counts as server
authentication) -/
def Permits (c : Cert) (u : Int) : Prop :=
  (c.extKeyUsage = [] ∧ c.unknownExtKeyUsage = []) ∨ 0 ∈ c.extKeyUsage ∨ u ∈ c.extKeyUsage ∨ (u = 1 ∧ (10 ∈ c.extKeyUsage ∨ 11 ∈ c.extKeyUsage))

end Spec

/-! ### The pieces -/

theorem matchNameConstraint_iff (E : Env) (dns k : Bytes) : matchNameConstraint E dns k = true ↔ Spec.Within E dns k := by
  unfold matchNameConstraint Spec.Within
  by_cases h0 : k = []
  · simp [h0]
  have hk : k.length ≠ 0 := fun e => h0 (List.length_eq_zero_iff.1 e)
  rw [if_neg hk]
  by_cases h1 : dns.length < k.length
  · rw [if_pos h1]
    constructor
    · intro h; cases h
    · rintro (h | ⟨pre, suf, e, hl, _⟩)
      · exact absurd h h0
      · rw [e, List.length_append] at h1; omega
  rw [if_neg h1]
  have split : ∀ pre suf : Bytes, dns = pre ++ suf → suf.length = k.length → suf = dns.drop (dns.length - k.length) ∧ pre = dns.take (dns.length - k.length) := by
    intro pre suf e hl
    have : dns.length - k.length = pre.length := by rw [e, List.length_append]; omega
    rw [this, e]; simp
  have hd : dns = dns.take (dns.length - k.length) ++ dns.drop (dns.length - k.length) := (List.take_append_drop _ _).symm
  have hl : (dns.drop (dns.length - k.length)).length = k.length := by rw [List.length_drop]; omega
  have hget : dns.length - k.length ≠ 0 → ((dns.getD (dns.length - k.length - 1) 0 == 0x2e) = true ↔ (dns.take (dns.length - k.length)).getLast? = some 0x2e) := by
    intro hn
    rw [List.getLast?_eq_getElem?, List.length_take, Nat.min_eq_left (by omega), List.getElem?_take_of_lt (by omega), beq_iff_eq,
      List.getD_eq_getElem?_getD, List.getElem?_eq_getElem (by omega)]
    simp
  have hhead : (k.getD 0 0 == (0x2e : Byte)) = true ↔ k.head? = some 0x2e := by
    cases k with
    | nil => exact absurd rfl h0
    | cons a r => simp
  dsimp only
  by_cases h2 : E.equalFold (dns.drop (dns.length - k.length)) k = true
  · rw [h2, Bool.not_true, if_neg (by simp)]
    by_cases h3 : dns.length - k.length = 0
    · rw [if_pos h3]
      simp only [true_iff]
      refine .inr ⟨_, _, hd, hl, h2, .inl ?_⟩
      rw [h3]; rfl
    · rw [if_neg h3, bne_iff_ne, ne_eq, Bool.eq_iff_iff, hget h3, hhead]
      constructor
      · intro h; exact .inr ⟨_, _, hd, hl, h2, .inr h⟩
      · rintro (h | ⟨pre, suf, e, hl', _, h⟩)
        · exact absurd h h0
        · obtain ⟨e1, e2⟩ := split pre suf e hl'
          rcases h with h | h
          · exfalso; apply h3
            rw [h] at e
            rw [e, List.length_append]; simp; omega
          · rw [← e2]; exact h
  · have h2' : E.equalFold (dns.drop (dns.length - k.length)) k = false := by simpa using h2
    rw [h2', Bool.not_false, if_pos rfl]
    constructor
    · intro h; cases h
    · rintro (h | ⟨pre, suf, e, hl', h, _⟩)
      · exact absurd h h0
      · rw [(split pre suf e hl').1] at h; exact absurd h h2

theorem and32_testBit (k : Nat) : k &&& 32 = 0 ↔ k.testBit 5 = false := by
  rw [show (32 : Nat) = 2 ^ 5 from rfl, Nat.and_two_pow]
  cases k.testBit 5 <;> simp

theorem signed_iff (E : Env) (entrust : Bytes) (c p : Cert) (hk : p.keyAlgUnknown = true → p.pub = .none) :
    checkSignatureFrom E entrust c p = none ↔ Spec.Signed E entrust c p := by
  unfold checkSignatureFrom
  constructor
  · intro h
    split at h
    · cases h
    rename_i h1
    split at h
    · cases h
    rename_i h2
    split at h
    · cases h
    unfold checkSignature at h
    split at h
    · cases h
    rename_i h3
    split at h
    · cases h
    rename_i h4
    refine ⟨?_, ?_, ⟨fun e => h3 (.inl e), fun e => h3 (.inr e), h4⟩, ?_⟩
    · by_cases e : c.rawSPKI = entrust
      · exact .inl e
      · right
        cases h5 : p.basicConstraintsValid
        · right; exact ⟨rfl, fun e3 => h1 ⟨.inl ⟨e3, h5⟩, e⟩⟩
        · left
          refine ⟨rfl, ?_⟩
          cases h6 : p.isCA
          · exact absurd ⟨.inr ⟨h5, h6⟩, e⟩ h1
          · rfl
    · by_cases e : p.keyUsage = 0
      · exact .inl e
      · right
        cases h5 : p.keyUsage.testBit 5
        · exact absurd ⟨e, (and32_testBit _).2 h5⟩ h2
        · rfl
    · cases hp : p.pub with
      | none => rw [hp] at h; cases h
      | sm2 x y =>
        rw [hp] at h
        dsimp only at h ⊢
        split at h
        · cases h
        rename_i r s rest hu
        split at h
        · cases h
        rename_i h5
        split at h
        · cases h
        rename_i h6
        split at h
        · rename_i hv
          have : rest = [] := by simpa using h5
          subst this
          exact ⟨r, s, hu, by omega, by omega, hv⟩
        · cases h
      | rsa k => rw [hp] at h; exact h
      | dsa k => rw [hp] at h; exact h
      | ecdsa k => rw [hp] at h; exact h
  · rintro ⟨h1, h2, ⟨h3, h4, h5⟩, h6⟩
    have hn : p.pub ≠ .none := by intro e; rw [e] at h6; exact h6
    rw [if_neg, if_neg, if_neg]
    · unfold checkSignature
      rw [if_neg (by rintro (e | e); exacts [h3 e, h4 e]), if_neg h5]
      cases hp : p.pub with
      | none => exact absurd hp hn
      | sm2 x y =>
        rw [hp] at h6
        obtain ⟨r, s, e1, e2, e3, e4⟩ := h6
        dsimp only
        rw [e1]
        dsimp only
        rw [if_neg (by simp), if_neg (by omega), e4]
      | rsa k => rw [hp] at h6; exact h6
      | dsa k => rw [hp] at h6; exact h6
      | ecdsa k => rw [hp] at h6; exact h6
    · intro e; exact hn (hk e)
    · rintro ⟨e1, e2⟩
      rcases h2 with h2 | h2
      · exact e1 h2
      · rw [(and32_testBit _).1 e2] at h2; cases h2
    · rintro ⟨e1, e2⟩
      rcases h1 with h1 | ⟨a, b⟩ | ⟨a, b⟩
      · exact e2 h1
      · rcases e1 with e1 | e1
        · rw [a] at e1; cases e1.2
        · rw [b] at e1; cases e1.2
      · rcases e1 with e1 | e1
        · exact b e1.1
        · rw [a] at e1; cases e1.1

theorem nameConstraintsOk_iff (E : Env) (c : Cert) (dns : Bytes) : nameConstraintsOk E c dns = true ↔
    (c.permittedDNS = [] ∨ ∃ k ∈ c.permittedDNS, Spec.Within E dns k) ∧ ∀ k ∈ c.excludedDNS, ¬ Spec.Within E dns k := by
  unfold nameConstraintsOk
  rw [Bool.and_eq_true, Bool.or_eq_true, beq_iff_eq, List.length_eq_zero_iff, List.any_eq_true, Bool.not_eq_true', List.any_eq_false]
  simp only [matchNameConstraint_iff]

/-- what `isValid` checks -/
theorem isValid_iff (E : Env) (c : Cert) (kind : Kind) (chain : List Cert) (o : Opts) : isValid E c kind chain o = none ↔
    c.unhandledCritical = [] ∧ (∀ child, chain.getLast? = some child → child.rawIssuer = c.rawSubject) ∧
    (c.notBefore ≤ o.now ∧ o.now ≤ c.notAfter) ∧
    ((c.permittedDNS = [] ∨ ∃ k ∈ c.permittedDNS, Spec.Within E o.dnsName k) ∧ ∀ k ∈ c.excludedDNS, ¬ Spec.Within E o.dnsName k) ∧
    (kind = .intermediate → c.basicConstraintsValid = true ∧ c.isCA = true) ∧
    (c.basicConstraintsValid = true → 0 ≤ c.maxPathLen → (chain.length : Int) ≤ c.maxPathLen + 1) := by
  rw [← nameConstraintsOk_iff]
  unfold isValid
  have hm : issuerMismatch chain c = true ↔ ¬ ∀ child, chain.getLast? = some child → child.rawIssuer = c.rawSubject := by
    unfold issuerMismatch
    cases chain.getLast? <;> simp
  by_cases h1 : c.unhandledCritical = []
  · rw [if_neg (by simp [h1])]
    by_cases h2 : ∀ child, chain.getLast? = some child → child.rawIssuer = c.rawSubject
    · rw [if_neg (fun x => hm.1 x h2)]
      by_cases h3 : c.notBefore ≤ o.now ∧ o.now ≤ c.notAfter
      · rw [if_neg (by omega)]
        by_cases h4 : nameConstraintsOk E c o.dnsName = true
        · rw [if_neg (by simp [h4])]
          by_cases h5 : kind = .intermediate → c.basicConstraintsValid = true ∧ c.isCA = true
          · rw [if_neg (by
              rintro ⟨a, b⟩
              obtain ⟨x, y⟩ := h5 a
              rcases b with b | b
              · rw [x] at b; cases b
              · rw [y] at b; cases b)]
            by_cases h6 : c.basicConstraintsValid = true → 0 ≤ c.maxPathLen → (chain.length : Int) ≤ c.maxPathLen + 1
            · rw [if_neg (by rintro ⟨a, b, d⟩; have := h6 a b; omega)]
              simp only [true_iff]; exact ⟨h1, h2, h3, h4, h5, h6⟩
            · rw [if_pos (by
                rw [Classical.not_imp, Classical.not_imp] at h6
                refine ⟨h6.1, h6.2.1, ?_⟩
                have := h6.2.2
                omega)]
              constructor
              · intro h; cases h
              · intro h; exact absurd h.2.2.2.2.2 h6
          · rw [if_pos (by
              rw [Classical.not_imp] at h5
              refine ⟨h5.1, ?_⟩
              have h := h5.2
              cases h7 : c.basicConstraintsValid <;> cases h8 : c.isCA <;> simp_all)]
            constructor
            · intro h; cases h
            · intro h; exact absurd h.2.2.2.2.1 h5
        · rw [if_pos (by simpa using h4)]
          constructor
          · intro h; cases h
          · intro h; exact absurd h.2.2.2.1 h4
      · rw [if_pos (by omega)]
        constructor
        · intro h; cases h
        · intro h; exact absurd h.2.2.1 h3
    · rw [if_pos (hm.2 h2)]
      constructor
      · intro h; cases h
      · intro h; exact absurd h.2.1 h2
  · rw [if_pos (List.length_pos_iff.2 h1)]
    constructor
    · intro h; cases h
    · intro h; exact absurd h.1 h1

/-! ### Soundness of chain building -/

/-- SM2 verification needs a known key algorithm: parsed certificates with an unknown one carry no key (x509/x509.go:1123-1124) -/
def KeysParsed (p : Pool) : Prop := ∀ c ∈ p.certs, c.keyAlgUnknown = true → c.pub = .none

/-- the chain under construction: linked, and all but the leaf are CA certificates of the intermediate pool -/
structure Prefix (E : Env) (entrust : Bytes) (o : Opts) (inters : Pool) (leaf : Cert) (ch : List Cert) : Prop where
  links : Spec.Links E entrust o leaf ch
  inner : ∀ i c, ch[i]? = some c → 0 < i → c.basicConstraintsValid = true ∧ c.isCA = true ∧ c ∈ inters.certs

theorem getElem?_snoc {α : Type} (l : List α) (x : α) (i : Nat) (a : α) (h : (l ++ [x])[i]? = some a) : l[i]? = some a ∨ (i = l.length ∧ a = x) := by
  by_cases hi : i < l.length
  · left; rwa [List.getElem?_append_left hi] at h
  · right
    rw [List.getElem?_append_right (by omega)] at h
    have : i - l.length = 0 := by
      by_contra hn
      obtain ⟨k, hk⟩ := Nat.exists_eq_succ_of_ne_zero hn
      rw [hk] at h; simp at h
    rw [this] at h
    simp at h
    exact ⟨by omega, h.symm⟩

theorem links_snoc {E : Env} {entrust : Bytes} {o : Opts} {leaf : Cert} {ch : List Cert} (L : Spec.Links E entrust o leaf ch) (last x : Cert)
    (hl : ch.getLast? = some last) (kind : Kind) (hv : isValid E x kind ch o = none) (hs : Spec.Signed E entrust last x)
    (hf : ch.any (fun c => c.equal x) = false) : Spec.Links E entrust o leaf (ch ++ [x]) := by
  rw [isValid_iff] at hv
  obtain ⟨v1, v2, v3, ⟨v4, v4'⟩, _, v6⟩ := hv
  have hne : ch ≠ [] := by intro e; rw [e] at hl; cases hl
  refine ⟨?_, ?_, ?_, ?_, ?_, ?_, ?_, ?_⟩
  · rw [List.head?_append_of_ne_nil _ hne]; exact L.first
  · intro c hc
    rcases List.mem_append.1 hc with hc | hc
    · exact L.noUnhandled c hc
    · rw [List.mem_singleton.1 hc]; exact v1
  · intro c hc
    rcases List.mem_append.1 hc with hc | hc
    · exact L.inTime c hc
    · rw [List.mem_singleton.1 hc]; exact v3
  · intro c hc
    rcases List.mem_append.1 hc with hc | hc
    · exact L.permitted c hc
    · rw [List.mem_singleton.1 hc]; exact v4
  · intro c hc
    rcases List.mem_append.1 hc with hc | hc
    · exact L.excluded c hc
    · rw [List.mem_singleton.1 hc]; exact v4'
  · intro i a b ha hb
    rcases getElem?_snoc _ _ _ _ hb with hb | ⟨hi, rfl⟩
    · have : i < ch.length := by
        have := (List.getElem?_eq_some_iff.1 hb).1; omega
      rw [List.getElem?_append_left this] at ha
      exact L.linked i a b ha hb
    · rw [List.getElem?_append_left (by omega)] at ha
      rw [List.getLast?_eq_getElem?, show ch.length - 1 = i by omega, ha] at hl
      cases hl
      refine ⟨v2 _ ?_, hs⟩
      rw [List.getLast?_eq_getElem?, show ch.length - 1 = i by omega, ha]
  · intro i c hc h1 h2
    rcases getElem?_snoc _ _ _ _ hc with hc | ⟨hi, rfl⟩
    · exact L.pathLen i c hc h1 h2
    · rw [hi]; exact v6 h1 h2
  · rw [List.pairwise_append]
    refine ⟨L.distinct, List.pairwise_singleton _ _, ?_⟩
    intro a ha b hb
    rw [List.mem_singleton.1 hb]
    intro e
    rw [List.any_eq_false] at hf
    exact hf a ha (by simpa [Cert.equal] using e)

theorem prefix_snoc {E : Env} {entrust : Bytes} {o : Opts} {inters : Pool} {leaf : Cert} {ch : List Cert} (P : Prefix E entrust o inters leaf ch) (last x : Cert)
    (hl : ch.getLast? = some last) (hx : x ∈ inters.certs) (hv : isValid E x .intermediate ch o = none) (hs : Spec.Signed E entrust last x)
    (hf : ch.any (fun c => c.equal x) = false) : Prefix E entrust o inters leaf (ch ++ [x]) := by
  refine ⟨links_snoc P.links last x hl .intermediate hv hs hf, ?_⟩
  intro i c hc hi
  rcases getElem?_snoc _ _ _ _ hc with hc | ⟨_, rfl⟩
  · exact P.inner i c hc hi
  · obtain ⟨a, b⟩ := ((isValid_iff ..).1 hv).2.2.2.2.1 rfl
    exact ⟨a, b, hx⟩

theorem valid_snoc {E : Env} {entrust : Bytes} {o : Opts} {roots inters : Pool} {leaf : Cert} {ch : List Cert} (P : Prefix E entrust o inters leaf ch) (last x : Cert)
    (hl : ch.getLast? = some last) (hx : x ∈ roots.certs) (hv : isValid E x .root ch o = none) (hs : Spec.Signed E entrust last x)
    (hf : ch.any (fun c => c.equal x) = false) : Spec.ValidChain E entrust o roots inters leaf (ch ++ [x]) := by
  have hne : 0 < ch.length := List.length_pos_iff.2 (by intro e; rw [e] at hl; cases hl)
  refine ⟨links_snoc P.links last x hl .root hv hs hf, ?_, x, by simp, .inl ⟨by simp; omega, hx⟩⟩
  intro i c hc hi hi'
  rcases getElem?_snoc _ _ _ _ hc with hc | ⟨h, _⟩
  · exact P.inner i c hc hi
  · simp at hi'; omega

/-- the parents found are certificates of the pool that signed the child -/
theorem parents_sound (E : Env) (entrust : Bytes) (p : Pool) (hist : List Cert) (hp : p = poolOf hist) (hk : KeysParsed p) (c : Cert) (i : Nat)
    (h : i ∈ (findVerifiedParents E entrust (some p) c).1) : p.at i ∈ p.certs ∧ Spec.Signed E entrust c (p.at i) := by
  subst hp
  rw [C50_parents, List.mem_filter, List.mem_range, decide_eq_true_iff] at h
  have := at_mem _ i h.1
  exact ⟨this, (signed_iff _ _ _ _ (hk _ this)).1 h.2.2⟩

theorem rootLoop_sound {E : Env} {entrust : Bytes} {o : Opts} {roots inters : Pool} {leaf : Cert} {ch : List Cert} (P : Prefix E entrust o inters leaf ch)
    (last : Cert) (hl : ch.getLast? = some last) (is : List Nat) (hi : ∀ i ∈ is, roots.at i ∈ roots.certs ∧ Spec.Signed E entrust last (roots.at i))
    (acc : List (List Cert) × Option VErr) (ha : ∀ x ∈ acc.1, Spec.ValidChain E entrust o roots inters leaf x) :
    ∀ x ∈ (rootLoop E o roots ch is acc).1, Spec.ValidChain E entrust o roots inters leaf x := by
  induction is generalizing acc with
  | nil => exact ha
  | cons i is ih =>
    obtain ⟨chains, err⟩ := acc
    unfold rootLoop
    simp only
    have hi' := fun j hj => hi j (List.mem_cons_of_mem _ hj)
    split
    · exact ih hi' _ ha
    · rename_i hf
      split
      · exact ih hi' _ ha
      · rename_i hv
        refine ih hi' _ ?_
        intro x hx
        rcases List.mem_append.1 hx with hx | hx
        · exact ha x hx
        · rw [List.mem_singleton.1 hx]
          obtain ⟨h1, h2⟩ := hi i (by simp)
          exact valid_snoc P last _ hl h1 hv h2 (by simpa using hf)

/-- every chain in the cache is valid -/
def CacheOk (E : Env) (entrust : Bytes) (o : Opts) (roots inters : Pool) (leaf : Cert) (k : Cache) : Prop :=
  ∀ i cs, k i = some cs → ∀ x ∈ cs, Spec.ValidChain E entrust o roots inters leaf x

theorem interLoop_sound {E : Env} {entrust : Bytes} {o : Opts} {roots inters : Pool} {leaf : Cert} {ch : List Cert} (P : Prefix E entrust o inters leaf ch)
    (last : Cert) (hl : ch.getLast? = some last) (is : List Nat) (hi : ∀ i ∈ is, inters.at i ∈ inters.certs ∧ Spec.Signed E entrust last (inters.at i))
    (rec : Cert → Cache → List Cert → Option ((List (List Cert) × Option VErr) × Cache))
    (hrec : ∀ c k ch', Prefix E entrust o inters leaf ch' → ch'.getLast? = some c → CacheOk E entrust o roots inters leaf k →
      ∀ r, rec c k ch' = some r → (∀ x ∈ r.1.1, Spec.ValidChain E entrust o roots inters leaf x) ∧ CacheOk E entrust o roots inters leaf r.2)
    (acc : (List (List Cert) × Option VErr) × Cache) (ha : ∀ x ∈ acc.1.1, Spec.ValidChain E entrust o roots inters leaf x)
    (hc : CacheOk E entrust o roots inters leaf acc.2) (r) (h : interLoop E o inters ch rec is acc = some r) :
    (∀ x ∈ r.1.1, Spec.ValidChain E entrust o roots inters leaf x) ∧ CacheOk E entrust o roots inters leaf r.2 := by
  induction is generalizing acc with
  | nil =>
    unfold interLoop at h
    cases h
    exact ⟨ha, hc⟩
  | cons i is ih =>
    obtain ⟨⟨chains, err⟩, cache⟩ := acc
    unfold interLoop at h
    simp only at h
    have hi' := fun j hj => hi j (List.mem_cons_of_mem _ hj)
    split at h
    · exact ih hi' _ ha hc h
    · rename_i hf
      split at h
      · exact ih hi' ((chains, some _), cache) ha hc h
      · rename_i hv
        split at h
        · rename_i cs hcs
          refine ih hi' ((chains ++ cs, none), cache) ?_ hc h
          intro x hx
          rcases List.mem_append.1 hx with hx | hx
          · exact ha x hx
          · exact hc i cs hcs x hx
        · split at h
          · cases h
          · rename_i cs err' cache' hr
            obtain ⟨h1, h2⟩ := hi i (by simp)
            obtain ⟨q1, q2⟩ := hrec _ _ _ (prefix_snoc P last _ hl h1 hv h2 (by simpa using hf)) (by simp) hc _ hr
            refine ih hi' ((chains ++ cs, err'), fun j => if j = i then some cs else cache' j) ?_ ?_ h
            · intro x hx
              rcases List.mem_append.1 hx with hx | hx
              · exact ha x hx
              · exact q1 x hx
            · intro j cs' hj x hx
              dsimp only at hj
              split at hj
              · cases hj; exact q1 x hx
              · exact q2 j cs' hj x hx

/-- a pool built through the API -/
def Built (p : Pool) : Prop := ∃ hist, p = poolOf hist

theorem parents_sound' (E : Env) (entrust : Bytes) (p : Option Pool) (hb : ∀ q, p = some q → Built q ∧ KeysParsed q) (c : Cert) (i : Nat)
    (h : i ∈ (findVerifiedParents E entrust p c).1) :
    (poolOrEmpty p).at i ∈ (poolOrEmpty p).certs ∧ Spec.Signed E entrust c ((poolOrEmpty p).at i) := by
  cases p with
  | none => simp [findVerifiedParents] at h
  | some q =>
    obtain ⟨⟨hist, e⟩, hk⟩ := hb q rfl
    exact parents_sound E entrust q hist e hk c i h

theorem buildChains_sound (E : Env) (entrust : Bytes) (o : Opts) (leaf : Cert) (hr : ∀ q, o.roots = some q → Built q ∧ KeysParsed q)
    (hi : ∀ q, o.intermediates = some q → Built q ∧ KeysParsed q) (fuel : Nat) :
    ∀ c k ch, Prefix E entrust o (poolOrEmpty o.intermediates) leaf ch → ch.getLast? = some c →
      CacheOk E entrust o (poolOrEmpty o.roots) (poolOrEmpty o.intermediates) leaf k →
      ∀ r, buildChains E entrust o fuel c k ch = some r →
        (∀ x ∈ r.1.1, Spec.ValidChain E entrust o (poolOrEmpty o.roots) (poolOrEmpty o.intermediates) leaf x) ∧
        CacheOk E entrust o (poolOrEmpty o.roots) (poolOrEmpty o.intermediates) leaf r.2 := by
  induction fuel with
  | zero => intro c k ch _ _ _ r h; cases h
  | succ fuel ih =>
    intro c k ch P hl hc r h
    unfold buildChains at h
    simp only at h
    split at h
    · cases h
    · rename_i chains err cache hloop
      simp only [Option.some.injEq] at h
      subst h
      have q := interLoop_sound P c hl _ (fun i h => parents_sound' E entrust _ hi c i h) _ ih
        (rootLoop E o (poolOrEmpty o.roots) ch (findVerifiedParents E entrust o.roots c).1 ([], none), k)
        (rootLoop_sound P c hl _ (fun i h => parents_sound' E entrust _ hr c i h) ([], none) (by simp)) hc _ hloop
      exact ⟨q.1, q.2⟩

/-- the conditions do not mention the roots -/
theorem Spec.Links.of_opts {E : Env} {entrust : Bytes} {o : Opts} {leaf : Cert} {ch : List Cert} {r : Option Pool} (L : Spec.Links E entrust o leaf ch) :
    Spec.Links E entrust { o with roots := r } leaf ch :=
  ⟨L.first, L.noUnhandled, L.inTime, L.permitted, L.excluded, L.linked, L.pathLen, L.distinct⟩

theorem Spec.Links.of_opts' {E : Env} {entrust : Bytes} {o : Opts} {leaf : Cert} {ch : List Cert} {r : Option Pool}
    (L : Spec.Links E entrust { o with roots := r } leaf ch) : Spec.Links E entrust o leaf ch :=
  ⟨L.first, L.noUnhandled, L.inTime, L.permitted, L.excluded, L.linked, L.pathLen, L.distinct⟩

/-- a chain is found exactly when there is no error -/
theorem buildChains_err (E : Env) (entrust : Bytes) (o : Opts) (fuel : Nat) (c k ch) (r) (h : buildChains E entrust o fuel c k ch = some r) :
    r.1.2 = none ↔ r.1.1 ≠ [] := by
  cases fuel with
  | zero => cases h
  | succ fuel =>
    unfold buildChains at h
    simp only at h
    split at h
    · cases h
    · rename_i chains err cache hloop
      simp only [Option.some.injEq] at h
      subst h
      dsimp only
      cases chains with
      | nil => cases err <;> simp
      | cons a l => simp

/-! ### Termination -/

/-- how many intermediates are not in the chain yet -/
def fresh (p : Pool) (ch : List Cert) : Nat := (p.certs.filter (fun x => !ch.any (fun c => c.equal x))).length

theorem fresh_snoc (p : Pool) (ch : List Cert) (x : Cert) (hx : x ∈ p.certs) (hf : ch.any (fun c => c.equal x) = false) : fresh p (ch ++ [x]) < fresh p ch := by
  unfold fresh
  have : (p.certs.filter (fun y => !(ch ++ [x]).any (fun c => c.equal y))) =
      (p.certs.filter (fun y => !ch.any (fun c => c.equal y))).filter (fun y => !x.equal y) := by
    rw [List.filter_filter]
    apply List.filter_congr
    intro y _
    simp [Bool.and_comm]
  rw [this]
  apply List.length_filter_lt_length_iff_exists.2
  refine ⟨x, ?_, by simp [Cert.equal]⟩
  rw [List.mem_filter, hf]
  exact ⟨hx, rfl⟩

theorem interLoop_some (E : Env) (o : Opts) (p : Pool) (ch : List Cert) (rec) (is : List Nat) (hi : ∀ i ∈ is, p.at i ∈ p.certs)
    (hrec : ∀ x ∈ p.certs, ch.any (fun c => c.equal x) = false → ∀ k, (rec x k (ch ++ [x])).isSome = true) (acc) :
    (interLoop E o p ch rec is acc).isSome = true := by
  induction is generalizing acc with
  | nil => rfl
  | cons i is ih =>
    obtain ⟨⟨chains, err⟩, cache⟩ := acc
    unfold interLoop
    have hi' := fun j hj => hi j (List.mem_cons_of_mem _ hj)
    simp only
    split
    · exact ih hi' _
    · rename_i hf
      split
      · exact ih hi' _
      · split
        · exact ih hi' _
        · have := hrec (p.at i) (hi i (by simp)) (by simpa using hf) cache
          split
          · rename_i hn; rw [hn] at this; cases this
          · exact ih hi' _

theorem parents_in (E : Env) (entrust : Bytes) (p : Option Pool) (hb : ∀ q, p = some q → Built q) (c : Cert) (i : Nat)
    (h : i ∈ (findVerifiedParents E entrust p c).1) : (poolOrEmpty p).at i ∈ (poolOrEmpty p).certs := by
  cases p with
  | none => simp [findVerifiedParents] at h
  | some q =>
    obtain ⟨hist, rfl⟩ := hb q rfl
    rw [C50_parents, List.mem_filter, List.mem_range] at h
    exact at_mem _ i h.1

theorem buildChains_some (E : Env) (entrust : Bytes) (o : Opts) (hb : ∀ q, o.intermediates = some q → Built q) (fuel : Nat) :
    ∀ c k ch, fresh (poolOrEmpty o.intermediates) ch < fuel → (buildChains E entrust o fuel c k ch).isSome = true := by
  induction fuel with
  | zero => intro c k ch h; omega
  | succ fuel ih =>
    intro c k ch hlt
    unfold buildChains
    simp only
    have := interLoop_some E o (poolOrEmpty o.intermediates) ch (buildChains E entrust o fuel) _ (fun i h => parents_in E entrust _ hb c i h)
      (fun x hx hf k => ih x k _ (by have := fresh_snoc _ ch x hx hf; omega))
      (rootLoop E o (poolOrEmpty o.roots) ch (findVerifiedParents E entrust o.roots c).1 ([], none), k)
    split
    · rename_i hn; rw [hn] at this; cases this
    · rfl

/-- C48: `Verify` terminates for every pool of intermediates, cyclic ones included: the depth of the recursion never exceeds their number. -/
theorem C48_terminates (E : Env) (entrust : Bytes) (system : Option Pool) (c : Cert) (o : Opts) (hb : ∀ q, o.intermediates = some q → Built q) :
    (verify E entrust system c o).isSome = true := by
  unfold verify
  split
  · rfl
  split
  · rfl
  split
  · rfl
  · rename_i roots _
    unfold verifyWith
    split
    · rfl
    split
    · rfl
    · have : (candidateChains E entrust { o with roots := some roots } roots c).isSome = true := by
        unfold candidateChains
        split
        · rfl
        · have := buildChains_some E entrust { o with roots := some roots } hb ((poolOrEmpty o.intermediates).certs.length + 1) c (fun _ => none) [c]
            (by show fresh (poolOrEmpty o.intermediates) [c] < _; unfold fresh; have := List.length_filter_le (fun x => !([c].any fun c => c.equal x)) (poolOrEmpty o.intermediates).certs; omega)
          split
          · rename_i hn
            rw [hn] at this; cases this
          · rfl
          · rfl
      split
      · rename_i hn; rw [hn] at this; cases this
      · rfl
      · rfl

/-! ### Key usage -/

theorem usageCovered_iff (u : Int) (l : List Int) : usageCovered u l = true ↔ u ∈ l ∨ (u = 1 ∧ (10 ∈ l ∨ 11 ∈ l)) := by
  unfold usageCovered ekuServerAuth ekuNetscapeSGC ekuMicrosoftSGC
  rw [List.any_eq_true]
  constructor
  · rintro ⟨x, hx, h⟩
    simp only [Bool.or_eq_true, Bool.and_eq_true, beq_iff_eq] at h
    rcases h with h | ⟨h1, h | h⟩
    · exact .inl (h ▸ hx)
    · exact .inr ⟨h1, .inr (h ▸ hx)⟩
    · exact .inr ⟨h1, .inl (h ▸ hx)⟩
  · rintro (h | ⟨h1, h | h⟩)
    · exact ⟨u, h, by simp⟩
    · exact ⟨10, h, by simp [h1]⟩
    · exact ⟨11, h, by simp [h1]⟩

/-- the usages not crossed out -/
def live (us : List Int) : List Int := us.filter (fun u => decide (u ≠ -1))

/-- what crossing out leaves -/
def crossed (ekus us : List Int) : List Int := us.map (fun u => if u = -1 ∨ usageCovered u ekus = true then u else -1)

theorem live_cons (u : Int) (us : List Int) : (live (u :: us)).length = (if u = -1 then 0 else 1) + (live us).length := by
  unfold live
  by_cases h : u = -1
  · simp [h]
  · simp [h]; omega

theorem live_crossed_le (ekus us : List Int) : (live (crossed ekus us)).length ≤ (live us).length := by
  induction us with
  | nil => simp [crossed]
  | cons u us ih =>
    have e : crossed ekus (u :: us) = (if u = -1 ∨ usageCovered u ekus = true then u else -1) :: crossed ekus us := rfl
    rw [e, live_cons, live_cons]
    split <;> split <;> simp_all <;> omega

theorem crossOut_eq (ekus us : List Int) (k : Nat) :
    crossOut ekus us ((k + (live us).length : Nat) : Int) =
      if k + (live (crossed ekus us)).length = 0 ∧ 0 < (live us).length then none
      else some (crossed ekus us, ((k + (live (crossed ekus us)).length : Nat) : Int)) := by
  induction us generalizing k with
  | nil => simp [crossOut, crossed, live]
  | cons u us ih =>
    have ec : crossed ekus (u :: us) = (if u = -1 ∨ usageCovered u ekus = true then u else -1) :: crossed ekus us := rfl
    unfold crossOut
    rw [ec]
    by_cases h : u = -1 ∨ usageCovered u ekus = true
    · rw [if_pos h, if_pos h]
      rw [live_cons, live_cons]
      by_cases hu : u = -1
      · rw [if_pos hu]
        simp only [Nat.zero_add]
        rw [ih k]
        split <;> simp
      · rw [if_neg hu]
        rw [show k + (1 + (live us).length) = (k + 1) + (live us).length by omega, ih (k + 1)]
        rw [if_neg (by omega), if_neg (by omega)]
        simp only [Option.map_some, Option.some.injEq, Prod.mk.injEq, true_and]
        omega
    · rw [if_neg h, if_neg h]
      have hu : u ≠ -1 := fun e => h (.inl e)
      rw [live_cons, live_cons, if_neg hu, if_pos rfl]
      have hle := live_crossed_le ekus us
      rw [show ((k + (1 + (live us).length) : Nat) : Int) - 1 = ((k + (live us).length : Nat) : Int) by omega]
      by_cases h0 : k + (live us).length = 0
      · rw [if_pos (by omega), if_pos (by omega)]
      · rw [if_neg (by omega), ih k]
        by_cases h1 : k + (live (crossed ekus us)).length = 0
        · rw [if_pos (by omega), if_pos (by omega)]
          rfl
        · rw [if_neg (by omega), if_neg (by omega)]
          simp

theorem live_mem (us : List Int) (u : Int) : u ∈ live us ↔ u ∈ us ∧ u ≠ -1 := by
  unfold live
  rw [List.mem_filter, decide_eq_true_iff]

theorem live_crossed (ekus us : List Int) (u : Int) : u ∈ live (crossed ekus us) ↔ u ∈ live us ∧ usageCovered u ekus = true := by
  rw [live_mem, live_mem]
  unfold crossed
  rw [List.mem_map]
  constructor
  · rintro ⟨⟨x, hx, e⟩, hn⟩
    split at e
    · rename_i h
      subst e
      exact ⟨⟨hx, hn⟩, h.resolve_left hn⟩
    · exact absurd e.symm hn
  · rintro ⟨⟨h1, h2⟩, h3⟩
    exact ⟨⟨u, h1, by rw [if_pos (.inr h3)]⟩, h2⟩

theorem usageLoop_iff (cs : List Cert) (us : List Int) (hne : live us ≠ []) :
    usageLoop cs us ((live us).length : Int) = true ↔ ∃ u ∈ live us, ∀ c ∈ cs, Spec.Permits c u := by
  induction cs generalizing us with
  | nil =>
    obtain ⟨u, hu⟩ := List.exists_mem_of_ne_nil _ hne
    simp only [usageLoop, true_iff]
    exact ⟨u, hu, by simp⟩
  | cons c cs ih =>
    unfold usageLoop
    by_cases h1 : c.extKeyUsage.length = 0 ∧ c.unknownExtKeyUsage.length = 0
    · rw [if_pos h1, ih us hne]
      have : ∀ u, Spec.Permits c u := fun u => .inl ⟨List.length_eq_zero_iff.1 h1.1, List.length_eq_zero_iff.1 h1.2⟩
      simp [this]
    rw [if_neg h1]
    by_cases h2 : c.extKeyUsage.contains ekuAny = true
    · rw [if_pos h2, ih us hne]
      have : ∀ u, Spec.Permits c u := fun u => .inr (.inl (by simpa [ekuAny] using h2))
      simp [this]
    rw [if_neg h2]
    have hp : ∀ u, Spec.Permits c u ↔ usageCovered u c.extKeyUsage = true := by
      intro u
      rw [usageCovered_iff]
      constructor
      · rintro (h | h | h)
        · exact absurd ⟨by rw [h.1]; rfl, by rw [h.2]; rfl⟩ h1
        · exact absurd (by simpa [ekuAny] using h) h2
        · exact h
      · intro h; exact .inr (.inr h)
    have := crossOut_eq c.extKeyUsage us 0
    simp only [Nat.zero_add] at this
    rw [this]
    by_cases h3 : live (crossed c.extKeyUsage us) = []
    · rw [if_pos ⟨by rw [h3]; rfl, List.length_pos_iff.2 hne⟩]
      constructor
      · intro h; cases h
      · rintro ⟨u, hu, hall⟩
        have : u ∈ live (crossed c.extKeyUsage us) := (live_crossed _ _ _).2 ⟨hu, (hp u).1 (hall c (by simp))⟩
        rw [h3] at this; cases this
    · rw [if_neg (by rintro ⟨a, _⟩; exact h3 (List.length_eq_zero_iff.1 a))]
      simp only
      rw [ih _ h3]
      constructor
      · rintro ⟨u, hu, hall⟩
        obtain ⟨a, b⟩ := (live_crossed _ _ _).1 hu
        refine ⟨u, a, ?_⟩
        intro d hd
        rcases List.mem_cons.1 hd with rfl | hd
        · exact (hp u).2 b
        · exact hall d hd
      · rintro ⟨u, hu, hall⟩
        exact ⟨u, (live_crossed _ _ _).2 ⟨hu, (hp u).1 (hall c (by simp))⟩, fun d hd => hall d (List.mem_cons_of_mem _ hd)⟩

/-- C48: the key usage filter accepts a chain exactly when one of the requested usages is permitted by every certificate of the chain. -/
theorem C48_key_usage (ch : List Cert) (us : List Int) (hc : ch ≠ []) (hu : us ≠ []) (hv : ∀ u ∈ us, u ≠ -1) :
    checkChainForKeyUsage ch us = true ↔ ∃ u ∈ us, ∀ c ∈ ch, Spec.Permits c u := by
  unfold checkChainForKeyUsage
  rw [if_neg (fun e => hc (List.length_eq_zero_iff.1 e))]
  have hl : live us = us := by
    unfold live
    rw [List.filter_eq_self]
    intro u h
    simpa using hv u h
  have := usageLoop_iff ch.reverse us (by rwa [hl])
  rw [hl] at this
  rw [this]
  simp

/-! ### The theorem -/

/-- the usages asked for: server authentication unless the caller lists some -/
def Spec.Requested (o : Opts) (u : Int) : Prop := if o.keyUsages = [] then u = 1 else u ∈ o.keyUsages

/-- C48: every chain `Verify` returns is a valid chain (`Spec.ValidChain`) from the certificate to the roots, the certificate is good for the host
name asked for, and, unless any usage is acceptable, some requested usage is permitted by every certificate of the chain; and success means at
least one chain. -/
theorem C48_sound (E : Env) (entrust : Bytes) (system : Option Pool) (c : Cert) (o : Opts) (roots : Pool) (hroots : resolveRoots o system = some roots)
    (hr : Built roots ∧ KeysParsed roots) (hi : ∀ q, o.intermediates = some q → Built q ∧ KeysParsed q) (hv : ∀ u ∈ o.keyUsages, u ≠ -1)
    (chains : List (List Cert)) (h : verify E entrust system c o = some (.ok chains)) :
    chains ≠ [] ∧
    (o.dnsName ≠ [] → verifyHostname E c o.dnsName = none) ∧
    ∀ ch ∈ chains, Spec.ValidChain E entrust o roots (poolOrEmpty o.intermediates) c ch ∧
      (Spec.Requested o 0 ∨ ∃ u, Spec.Requested o u ∧ ∀ x ∈ ch, Spec.Permits x u) := by
  unfold verify at h
  split at h
  · cases h
  split at h
  · cases h
  rw [hroots] at h
  simp only at h
  unfold verifyWith at h
  split at h
  · cases h
  rename_i hleaf
  split at h
  · cases h
  rename_i hhost
  have hhost' : o.dnsName ≠ [] → verifyHostname E c o.dnsName = none := by
    intro hn
    rw [if_pos (List.length_pos_iff.2 hn)] at hhost
    exact hhost
  -- the leaf alone
  have L0 : Spec.Links E entrust o c [c] := by
    obtain ⟨v1, v2, v3, ⟨v4, v4'⟩, _, v6⟩ := (isValid_iff ..).1 hleaf
    refine ⟨rfl, ?_, ?_, ?_, ?_, ?_, ?_, List.pairwise_singleton _ _⟩
    · intro x hx; rw [List.mem_singleton.1 hx]; exact v1
    · intro x hx; rw [List.mem_singleton.1 hx]; exact v3
    · intro x hx; rw [List.mem_singleton.1 hx]; exact v4
    · intro x hx; rw [List.mem_singleton.1 hx]; exact v4'
    · intro i a b _ hb; simp at hb
    · intro i x hx _ h2
      cases i with
      | zero => show (0 : Int) ≤ _; omega
      | succ i => simp at hx
  have hcand : ∀ cs, candidateChains E entrust { o with roots := some roots } roots c = some (.ok cs) →
      cs ≠ [] ∧ ∀ ch ∈ cs, Spec.ValidChain E entrust o roots (poolOrEmpty o.intermediates) c ch := by
    intro cs hcs
    unfold candidateChains at hcs
    split at hcs
    · rename_i hcon
      cases hcs
      refine ⟨by simp, ?_⟩
      intro ch hch
      rw [List.mem_singleton.1 hch]
      obtain ⟨hist, rfl⟩ := hr.1
      obtain ⟨d, hd, e⟩ := (contains_iff _ (wf_poolOf hist) c).1 hcon
      refine ⟨L0, ?_, c, rfl, .inr ⟨rfl, d, hd, e⟩⟩
      intro i x _ h1 h2
      simp at h2
    · split at hcs
      · cases hcs
      · cases hcs
      · rename_i chains' cache hb
        cases hcs
        have he := buildChains_err _ _ _ _ _ _ _ _ hb
        have hs := (buildChains_sound E entrust { o with roots := some roots } c (by rintro q ⟨⟩; exact hr) hi _ c (fun _ => none) [c]
          ⟨L0.of_opts, fun i x hx hpos => by
            cases i with
            | zero => omega
            | succ i => simp at hx⟩ rfl (fun i cs h => by cases h) _ hb).1
        refine ⟨he.1 rfl, fun ch hch => ?_⟩
        have V := hs ch hch
        exact ⟨V.links.of_opts', V.inner, V.anchored⟩
  split at h
  · cases h
  · cases h
  · rename_i cs hcs
    obtain ⟨hne, hall⟩ := hcand cs hcs
    unfold filterUsages at h
    simp only [Option.some.injEq] at h
    have hreq : ∀ u, u ∈ (if o.keyUsages.length = 0 then [ekuServerAuth] else o.keyUsages) ↔ Spec.Requested o u := by
      intro u
      unfold Spec.Requested
      by_cases e : o.keyUsages = []
      · simp [e, ekuServerAuth]
      · rw [if_neg e, if_neg (fun x => e (List.length_eq_zero_iff.1 x))]
    have hus1 : (if o.keyUsages.length = 0 then [ekuServerAuth] else o.keyUsages) ≠ [] := by
      split
      · simp
      · rename_i e; intro x; exact e (by rw [x]; rfl)
    have hus2 : ∀ u ∈ (if o.keyUsages.length = 0 then [ekuServerAuth] else o.keyUsages), u ≠ -1 := by
      intro u hu
      split at hu
      · rw [List.mem_singleton.1 hu]; decide
      · exact hv u hu
    generalize (if o.keyUsages.length = 0 then [ekuServerAuth] else o.keyUsages) = us at h hreq hus1 hus2
    split at h
    · rename_i hany
      cases h
      refine ⟨hne, hhost', fun ch hch => ⟨hall ch hch, .inl ?_⟩⟩
      rw [List.contains_iff_mem] at hany
      exact (hreq 0).1 hany
    · split at h
      · cases h
      · rename_i hlen
        cases h
        refine ⟨fun e => hlen (by rw [e]; rfl), hhost', fun ch hch => ?_⟩
        rw [List.mem_filter] at hch
        refine ⟨hall ch hch.1, .inr ?_⟩
        have hcne : ch ≠ [] := by
          intro e
          have := (hall ch hch.1).links.first
          rw [e] at this; cases this
        obtain ⟨u, hu, hp⟩ := (C48_key_usage ch _ hcne hus1 hus2).1 hch.2
        exact ⟨u, (hreq u).1 hu, hp⟩

end Verif.X509
