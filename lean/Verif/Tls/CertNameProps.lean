import Verif.Tls.AlpnProps
/-!
C40: which certificate a server presents for a name.
-/
namespace Verif.Tls
open Verif

theorem joinDots_eq (labels : List Bytes) : joinDots labels = [0x2e].intercalate labels := by
  induction labels with
  | nil => rfl
  | cons a t ih =>
    cases t with
    | nil => simp [joinDots, List.intercalate]
    | cons b t =>
      rw [joinDots, ih]
      · simp [List.intercalate, List.intersperse]
      · simp

theorem splitDots_ne_nil (n : Bytes) : splitDots n ≠ [] := by
  cases n with
  | nil => simp [splitDots]
  | cons a t =>
    unfold splitDots
    split
    · simp
    · split <;> simp

theorem splitDots_append (l r : Bytes) (hl : (0x2e : Byte) ∉ l) : splitDots (l ++ 0x2e :: r) = l :: splitDots r := by
  induction l with
  | nil => simp [splitDots]
  | cons a t ih =>
    simp only [List.mem_cons, not_or] at hl
    rw [List.cons_append, splitDots, if_neg (fun h => hl.1 h.symm), ih hl.2]

theorem splitDots_nodot (l : Bytes) (hl : (0x2e : Byte) ∉ l) : splitDots l = [l] := by
  induction l with
  | nil => rfl
  | cons a t ih =>
    simp only [List.mem_cons, not_or] at hl
    rw [splitDots, if_neg (fun h => hl.1 h.symm), ih hl.2]

theorem splitDots_join (labels : List Bytes) (hne : labels ≠ []) (hd : ∀ l ∈ labels, (0x2e : Byte) ∉ l) :
    splitDots (joinDots labels) = labels := by
  induction labels with
  | nil => exact absurd rfl hne
  | cons a t ih =>
    cases t with
    | nil => exact splitDots_nodot a (hd a (by simp))
    | cons b t =>
      rw [joinDots, splitDots_append _ _ (hd a (by simp)), ih (by simp) (fun l hl => hd l (by simp [hl]))]
      simp

theorem join_splitDots (n : Bytes) : joinDots (splitDots n) = n := by
  induction n with
  | nil => rfl
  | cons a t ih =>
    unfold splitDots
    split
    · rename_i h
      subst h
      have := splitDots_ne_nil t
      cases hs : splitDots t with
      | nil => exact absurd hs this
      | cons x y =>
        rw [joinDots, ← hs, ih]; rfl
        simp
    · cases hs : splitDots t with
      | nil => exact absurd hs (splitDots_ne_nil t)
      | cons x y =>
        rw [hs] at ih
        cases y with
        | nil => simp only [joinDots] at ih ⊢; rw [ih]
        | cons z w =>
          rw [joinDots] at ih ⊢
          · rw [List.cons_append, ih]
          · simp
          · simp

theorem splitDots_dotfree (n : Bytes) : ∀ l ∈ splitDots n, (0x2e : Byte) ∉ l := by
  induction n with
  | nil => simp [splitDots]
  | cons a t ih =>
    unfold splitDots
    split
    · intro l hl
      rcases List.mem_cons.1 hl with rfl | hl
      · simp
      · exact ih l hl
    · rename_i h
      cases hs : splitDots t with
      | nil => intro l hl; simp at hl; subst hl; simp; exact fun h' => h h'.symm
      | cons x y =>
        intro l hl
        rcases List.mem_cons.1 hl with rfl | hl
        · simp only [List.mem_cons, not_or]
          exact ⟨fun h' => h h'.symm, ih x (by rw [hs]; simp)⟩
        · exact ih l (by rw [hs]; simp [hl])

theorem dropDots_replicate (k : Nat) (l : Bytes) (h : l.head? ≠ some 0x2e) : dropDots (List.replicate k 0x2e ++ l) = l := by
  induction k with
  | zero =>
    cases l with
    | nil => rfl
    | cons a t =>
      simp only [List.replicate_zero, List.nil_append, dropDots]
      rw [if_neg]
      intro h'; rw [h'] at h; simp at h
  | succ k ih => rw [List.replicate_succ, List.cons_append, dropDots, if_pos rfl, ih]

theorem strip_eq (name : Bytes) (k : Nat) (h : name.getLast? ≠ some 0x2e) :
    stripTrailingDots (name ++ List.replicate k 0x2e) = name := by
  unfold stripTrailingDots
  rw [List.reverse_append, List.reverse_replicate, dropDots_replicate, List.reverse_reverse]
  rwa [List.head?_reverse]

namespace Spec
/-- the `j`-th name tried: the first `j` labels replaced by `*` -/
def candidate (labels : List Bytes) (j : Nat) : Bytes :=
  [0x2e].intercalate (List.replicate j [0x2a] ++ labels.drop j)

/-- the `GetCertificate` callback does not decide: absent, not consulted, or returning nothing -/
def CallbackSilent (c : Config) (ch : ClientHello) : Prop :=
  ∀ f, c.getCertificate = some f → (c.certificates ≠ [] ∧ ch.serverName = []) ∨ f ch = some none
end Spec

theorem wildcardLoop_spec (m : Bytes → Option Cert) (labels : List Bytes) (n : Nat) (rest : List Bytes) (hr : labels.drop n = rest)
    (hn : n ≤ labels.length) :
    (∀ j, n < j → j ≤ labels.length → ∀ cert, m (Spec.candidate labels j) = some cert →
        (∀ i, n < i → i < j → m (Spec.candidate labels i) = none) → wildcardLoop m (List.replicate n [0x2a]) rest = some cert) ∧
    ((∀ j, n < j → j ≤ labels.length → m (Spec.candidate labels j) = none) → wildcardLoop m (List.replicate n [0x2a]) rest = none) := by
  induction rest generalizing n with
  | nil =>
    have : labels.length = n := by
      have := congrArg List.length hr
      simp at this; omega
    refine ⟨?_, fun _ => rfl⟩
    intro j h1 h2; omega
  | cons a t ih =>
    have hlen : n < labels.length := by
      have := congrArg List.length hr
      simp at this; omega
    have hdrop : labels.drop (n + 1) = t := by
      rw [← List.drop_drop, hr]; rfl
    have hcand : joinDots (List.replicate n [0x2a] ++ [[0x2a]] ++ t) = Spec.candidate labels (n + 1) := by
      rw [joinDots_eq, Spec.candidate, hdrop, List.replicate_succ']
    have hrep : List.replicate n [0x2a] ++ [[0x2a]] = List.replicate (n + 1) ([0x2a] : Bytes) := List.replicate_succ'.symm
    unfold wildcardLoop
    dsimp only
    rw [hcand, hrep]
    obtain ⟨ih1, ih2⟩ := ih (n + 1) hdrop hlen
    constructor
    · intro j h1 h2 cert hc hno
      by_cases hj : j = n + 1
      · subst hj; rw [hc]
      · rw [hno (n + 1) (by omega) (by omega)]
        exact ih1 j (by omega) h2 cert hc (fun i h3 h4 => hno i (by omega) h4)
    · intro hall
      rw [hall (n + 1) (by omega) hlen]
      exact ih2 (fun j h1 h2 => hall j (by omega) h2)

theorem select_silent (c : Config) (ch : ClientHello) (hcb : Spec.CallbackSilent c ch) :
    c.selectCertificate ch = ({ c with getCertificate := none } : Config).selectCertificate ch := by
  unfold Config.selectCertificate
  dsimp only
  cases hg : c.getCertificate with
  | none => rfl
  | some f =>
    dsimp only
    split
    · rename_i hcond
      rcases hcb f hg with ⟨h1, h2⟩ | h
      · rcases hcond with h | h
        · exact absurd (List.length_eq_zero_iff.1 h) h1
        · rw [h2] at h; simp at h
      · rw [h]
    · rfl

/-- C40: with several certificates and a name table, a server that is asked for a name presents the
certificate registered under the lower-cased name without trailing dots; failing that the one
registered under the name with its first label replaced by `*`, then with its first two labels
replaced, and so on; failing all that its first certificate. `labels` are the labels of the name:
the dot-free strings that, joined with dots, give the name. -/
theorem C40_by_name (c : Config) (ch : ClientHello) (c1 c2 : Cert) (cs : List Cert) (hcerts : c.certificates = c1 :: c2 :: cs)
    (m : Bytes → Option Cert) (hm : c.nameToCertificate = some m) (hcb : Spec.CallbackSilent c ch)
    (name : Bytes) (k : Nat) (labels : List Bytes) (hname : c.toLower ch.serverName = name ++ List.replicate k 0x2e)
    (hlast : name.getLast? ≠ some 0x2e) (hne : labels ≠ []) (hdot : ∀ l ∈ labels, (0x2e : Byte) ∉ l)
    (hj : [0x2e].intercalate labels = name) :
    (∀ j ≤ labels.length, ∀ cert, m (Spec.candidate labels j) = some cert → (∀ i < j, m (Spec.candidate labels i) = none) →
      c.selectCertificate ch = some cert) ∧
    ((∀ j ≤ labels.length, m (Spec.candidate labels j) = none) → c.selectCertificate ch = some c1) := by
  have hsplit : splitDots name = labels := by rw [← hj, ← joinDots_eq, splitDots_join labels hne hdot]
  have h0 : Spec.candidate labels 0 = name := hj
  have hstrip := strip_eq name k hlast
  obtain ⟨w1, w2⟩ := wildcardLoop_spec m labels 0 labels rfl (Nat.zero_le _)
  rw [select_silent c ch hcb]
  unfold Config.selectCertificate
  simp only [hcerts, hm, hname, hstrip, hsplit]
  constructor
  · intro j hjl cert hc hno
    by_cases hj0 : j = 0
    · subst hj0; rw [h0] at hc; rw [hc]
    · have := hno 0 (by omega)
      rw [h0] at this
      rw [this]
      have := w1 j (by omega) hjl cert hc (fun i _ h4 => hno i h4)
      simp only [List.replicate_zero] at this
      rw [this]
  · intro hall
    have := hall 0 (by omega)
    rw [h0] at this
    rw [this]
    have := w2 (fun j _ h2 => hall j h2)
    simp only [List.replicate_zero] at this
    rw [this]

/-- every name has such labels, so `C40_by_name` covers every name -/
theorem C40_labels_exist (s : Bytes) : ∃ (name : Bytes) (k : Nat) (labels : List Bytes), s = name ++ List.replicate k 0x2e ∧
    name.getLast? ≠ some 0x2e ∧ labels ≠ [] ∧ (∀ l ∈ labels, (0x2e : Byte) ∉ l) ∧ [0x2e].intercalate labels = name := by
  have hs : ∃ (name : Bytes) (k : Nat), s = name ++ List.replicate k 0x2e ∧ name.getLast? ≠ some 0x2e := by
    obtain ⟨t, ht⟩ : ∃ t : Bytes, s = t.reverse := ⟨s.reverse, by simp⟩
    subst ht
    induction t with
    | nil => exact ⟨[], 0, by simp, by simp⟩
    | cons a t ih =>
      by_cases ha : a = 0x2e
      · obtain ⟨name, k, h1, h2⟩ := ih
        refine ⟨name, k + 1, ?_, h2⟩
        rw [List.reverse_cons, h1, ha, List.append_assoc, List.replicate_succ']
      · exact ⟨(a :: t).reverse, 0, by simp, by simpa using ha⟩
  obtain ⟨name, k, h1, h2⟩ := hs
  exact ⟨name, k, splitDots name, h1, h2, splitDots_ne_nil _, splitDots_dotfree _, by rw [← joinDots_eq, join_splitDots]⟩

/-- C40: with one certificate, or without a name table, the first certificate is presented; without
certificates the handshake fails (unless the callback supplies one). -/
theorem C40_default (c : Config) (ch : ClientHello) (hcb : Spec.CallbackSilent c ch) :
    (∀ c1 cs, c.certificates = c1 :: cs → (cs = [] ∨ c.nameToCertificate = none) → c.selectCertificate ch = some c1) ∧
    (c.certificates = [] → c.selectCertificate ch = none) := by
  rw [select_silent c ch hcb]
  unfold Config.selectCertificate
  constructor
  · intro c1 cs hc h
    rcases h with rfl | h
    · simp [hc]
    · cases cs with
      | nil => simp [hc]
      | cons a t => simp [hc, h]
  · intro hc; simp [hc]

/-- C40: the callback is asked first, whenever there is a name or nothing else to choose from, and
its answer is final. -/
theorem C40_callback (c : Config) (ch : ClientHello) (f : ClientHello → Option (Option Cert)) (hf : c.getCertificate = some f)
    (hask : c.certificates = [] ∨ ch.serverName ≠ []) :
    (∀ cert, f ch = some (some cert) → c.selectCertificate ch = some cert) ∧ (f ch = none → c.selectCertificate ch = none) := by
  have hcond : c.certificates.length = 0 ∨ 0 < ch.serverName.length := by
    rcases hask with h | h
    · exact Or.inl (by simp [h])
    · exact Or.inr (List.length_pos_iff.2 h)
  unfold Config.selectCertificate
  simp only [hf]
  rw [if_pos hcond]
  exact ⟨fun cert h => by rw [h], fun h => by rw [h]⟩

/-- the table of `BuildNameToCertificate`: the last certificate that carries the name -/
theorem lookup_mem (m : List (Bytes × Cert)) (n : Bytes) (c : Cert) (h : lookupLast m n = some c) : (n, c) ∈ m := by
  unfold lookupLast at h
  simp only [Option.map_eq_some_iff] at h
  obtain ⟨⟨a, b⟩, h1, h2⟩ := h
  have := List.mem_of_find?_eq_some h1
  have h3 := List.find?_some h1
  simp at h3 h2 this
  subst h2 h3
  exact this

theorem buildNames_mem (parse : Bytes → Option (Bytes × List Bytes)) (certs : List Cert) (n : Bytes) (c : Cert) :
    (n, c) ∈ buildNames parse certs ↔ (c ∈ certs ∧ ∃ leaf t cn sans, c.chain = leaf :: t ∧ parse leaf = some (cn, sans) ∧
      ((n = cn ∧ cn ≠ []) ∨ n ∈ sans)) := by
  induction certs with
  | nil => simp [buildNames]
  | cons a r ih =>
    unfold buildNames
    rw [List.mem_append, ih]
    have hhead : ((n, c) ∈ (match a.chain with
       | [] => []
       | leaf :: _ =>
         match parse leaf with
         | none => []
         | some (cn, sans) => (if 0 < cn.length then [(cn, a)] else []) ++ sans.map fun s => (s, a))) ↔
        (c = a ∧ ∃ leaf t cn sans, a.chain = leaf :: t ∧ parse leaf = some (cn, sans) ∧ ((n = cn ∧ cn ≠ []) ∨ n ∈ sans)) := by
      cases hc : a.chain with
      | nil => simp
      | cons leaf t =>
        cases hp : parse leaf with
        | none => simp [hp]
        | some q =>
          obtain ⟨cn, sans⟩ := q
          simp only [hp, List.mem_append, List.mem_map, Prod.mk.injEq]
          constructor
          · rintro (h | ⟨s, hs, rfl, rfl⟩)
            · split at h
              · rename_i hl
                simp only [List.mem_singleton, Prod.mk.injEq] at h
                exact ⟨h.2, leaf, t, cn, sans, rfl, hp, Or.inl ⟨h.1, List.length_pos_iff.1 hl⟩⟩
              · cases h
            · exact ⟨rfl, leaf, t, cn, sans, rfl, hp, Or.inr hs⟩
          · rintro ⟨rfl, leaf', t', cn', sans', h1, h2, h3⟩
            cases h1
            rw [hp] at h2; cases h2
            rcases h3 with ⟨rfl, h3⟩ | h3
            · left; rw [if_pos (List.length_pos_iff.2 h3)]; simp
            · right; exact ⟨n, h3, rfl, rfl⟩
    refine (or_congr hhead Iff.rfl).trans ?_
    simp only [List.mem_cons]
    constructor
    · rintro (⟨rfl, h⟩ | ⟨h1, h⟩)
      · exact ⟨Or.inl rfl, h⟩
      · exact ⟨Or.inr h1, h⟩
    · rintro ⟨rfl | h1, h⟩
      · exact Or.inl ⟨rfl, h⟩
      · exact Or.inr ⟨h1, h⟩

/-- C40, with the table built by `BuildNameToCertificate`: if some configured certificate names the
requested name (lower case, without trailing dot), the certificate presented also names it. -/
theorem C40_built_table_partial (c : Config) (ch : ClientHello) (c1 c2 : Cert) (cs : List Cert) (hcerts : c.certificates = c1 :: c2 :: cs)
    (parse : Bytes → Option (Bytes × List Bytes)) (hm : c.nameToCertificate = some (lookupLast (buildNames parse c.certificates)))
    (hcb : Spec.CallbackSilent c ch) (hlow : c.toLower ch.serverName = ch.serverName) (hlast : ch.serverName.getLast? ≠ some 0x2e)
    (cert : Cert) (hcert : cert ∈ c.certificates) (leaf : Bytes) (t : List Bytes) (cn : Bytes) (sans : List Bytes) (hch : cert.chain = leaf :: t)
    (hp : parse leaf = some (cn, sans)) (hin : (ch.serverName = cn ∧ cn ≠ []) ∨ ch.serverName ∈ sans) :
    ∃ got leaf' t' cn' sans', c.selectCertificate ch = some got ∧ got ∈ c.certificates ∧ got.chain = leaf' :: t' ∧ parse leaf' = some (cn', sans') ∧
      ((ch.serverName = cn' ∧ cn' ≠ []) ∨ ch.serverName ∈ sans') := by
  have hmem : (ch.serverName, cert) ∈ buildNames parse c.certificates :=
    (buildNames_mem parse c.certificates _ _).2 ⟨hcert, leaf, t, cn, sans, hch, hp, hin⟩
  have hsome : ∃ got, lookupLast (buildNames parse c.certificates) ch.serverName = some got := by
    unfold lookupLast
    cases hf : (buildNames parse c.certificates).reverse.find? (·.1 = ch.serverName) with
    | some q => exact ⟨q.2, rfl⟩
    | none =>
      rw [List.find?_eq_none] at hf
      have := hf _ (List.mem_reverse.2 hmem)
      simp at this
  obtain ⟨got, hgot⟩ := hsome
  obtain ⟨h1, leaf', t', cn', sans', h2, h3, h4⟩ := (buildNames_mem _ _ _ _).1 (lookup_mem _ _ _ hgot)
  refine ⟨got, leaf', t', cn', sans', ?_, h1, h2, h3, h4⟩
  have hl0 : [0x2e].intercalate (splitDots ch.serverName) = ch.serverName := by rw [← joinDots_eq, join_splitDots]
  refine (C40_by_name c ch c1 c2 cs hcerts _ hm hcb ch.serverName 0 (splitDots ch.serverName) (by simpa using hlow) hlast (splitDots_ne_nil _)
    (splitDots_dotfree _) hl0).1 0 (Nat.zero_le _) got ?_ (by intro i hi; omega)
  simp only [Spec.candidate, List.replicate_zero, List.nil_append, List.drop_zero, hl0]
  exact hgot

/-- C40 is false for names with upper-case letters in a certificate: `BuildNameToCertificate` does not
lower-case what it registers, while the lookup is lower-cased. The only certificate that names "A" is
not presented to a client that asks for "A". -/
theorem C40_uppercase_name_violated (c1 c2 : Cert) (hne : c1 ≠ c2) (leaf1 leaf2 : Bytes) (h1 : c1.chain = [leaf1]) (h2 : c2.chain = [leaf2])
    (parse : Bytes → Option (Bytes × List Bytes)) (hp1 : parse leaf1 = some ([], [[0x62]])) (hp2 : parse leaf2 = some ([], [[0x41]]))
    (c : Config) (hcerts : c.certificates = [c1, c2]) (hm : c.nameToCertificate = some (lookupLast (buildNames parse c.certificates)))
    (hcb : c.getCertificate = none) (hlow : c.toLower [0x41] = [0x61]) (ch : ClientHello) (hsn : ch.serverName = [0x41]) :
    c.selectCertificate ch = some c1 ∧ c.selectCertificate ch ≠ some c2 := by
  have hsel : c.selectCertificate ch = some c1 := by
    refine (C40_by_name c ch c1 c2 [] hcerts _ hm (by intro f hf; rw [hcb] at hf; cases hf) [0x61] 0 [[0x61]] (by rw [hsn]; simpa using hlow)
      (by decide) (by simp) (by decide) (by decide)).2 ?_
    intro j hj
    have hb : buildNames parse c.certificates = [([0x62], c1), ([0x41], c2)] := by
      rw [hcerts]; simp [buildNames, h1, h2, hp1, hp2]
    rw [hb]
    have : j = 0 ∨ j = 1 := by simp at hj; omega
    rcases this with rfl | rfl
    · have : Spec.candidate [[0x61]] 0 = [0x61] := by decide
      rw [this]; simp [lookupLast]
    · have : Spec.candidate [[0x61]] 1 = [0x2a] := by decide
      rw [this]; simp [lookupLast]
  refine ⟨hsel, ?_⟩
  rw [hsel]; simpa using hne

/-- C40 is false of the GM server: the requested name and `GetCertificate` have no influence, it
always presents the first configured certificates. -/
theorem C40_gm_ignores_name_violated (c : Config) (dec : Bytes → Option SessionState) (rand : Bytes) (ch : ClientHello) (r : ServerChoice)
    (h : readClientHelloGM c dec rand ch = .ok r) : r.cert = c.certificates.head? := (readClientHelloGM_inv h).2.2.2.1

/-- a case of `C40_by_name`: "A.B." matches the wildcard entry "*.b" -/
example : ∃ (c : Config) (ch : ClientHello) (c1 c2 : Cert), c.certificates = [c1, c2] ∧ c1 ≠ c2 ∧ ch.serverName = [0x41, 0x2e, 0x42, 0x2e] ∧
    c.selectCertificate ch = some c2 :=
  ⟨{ minVersion := 0, maxVersion := 0, cipherSuites := none, preferServerCipherSuites := false, curvePreferences := [],
     nextProtos := [], clientAuth := .noClientCert, sessionTicketsDisabled := false, certificates := [⟨[[1]], none, none⟩, ⟨[[2]], none, none⟩],
     nameToCertificate := some fun n => if n = [0x2a, 0x2e, 0x62] then some ⟨[[2]], none, none⟩ else none,
     getCertificate := none, toLower := fun b => b.map fun x => if 0x41 ≤ x.toNat ∧ x.toNat ≤ 0x5a then x + 0x20 else x,
     serverName := [], insecureSkipVerify := false },
   ⟨vTLS12, [], [], [], [0], false, [0x41, 0x2e, 0x42, 0x2e], [], [], false, [], [], false, []⟩, ⟨[[1]], none, none⟩, ⟨[[2]], none, none⟩,
   rfl, by decide, rfl, by decide +kernel⟩

end Verif.Tls
