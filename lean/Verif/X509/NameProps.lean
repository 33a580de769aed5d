import Verif.X509.Model
import Mathlib.Data.List.Forall2
/-!
C49: host name matching.
-/
namespace Verif.X509
open Verif

namespace Spec

/-- `ls` are the dot-separated labels of `s` -/
def Labels (s : Bytes) (ls : List Bytes) : Prop := ls ≠ [] ∧ (∀ l ∈ ls, (0x2e : Byte) ∉ l) ∧ s = List.intercalate [0x2e] ls

/-- `t` is `s` without its final dot, if it has one -/
def Stripped (s t : Bytes) : Prop := s = t ++ [0x2e] ∨ (s = t ∧ ¬ ∃ u, s = u ++ [0x2e])

/-- ASCII letters compare without case -/
def asciiLower (b : Byte) : Byte := if 65 ≤ b.toNat ∧ b.toNat ≤ 90 then BitVec.ofNat 8 (b.toNat + 32) else b

def SameLabel (a b : Bytes) : Prop := a.map asciiLower = b.map asciiLower

/-- a pattern matches a host: same number of labels, equal without case, except that a leftmost `*` stands for any one label -/
def NameMatches (pattern host : Bytes) : Prop :=
  ∃ p h ps hs, Stripped pattern p ∧ Stripped host h ∧ p ≠ [] ∧ h ≠ [] ∧ Labels p ps ∧ Labels h hs ∧
    (List.Forall₂ SameLabel ps hs ∨ ∃ ps' h₀ hs', ps = [0x2a] :: ps' ∧ hs = h₀ :: hs' ∧ List.Forall₂ SameLabel ps' hs')

end Spec

theorem lowerByte_eq (b : Byte) : lowerByte b = Spec.asciiLower b := by
  revert b
  unfold lowerByte Spec.asciiLower isUpper
  decide +kernel

/-- bytes below 0x80 in a decoded non-ASCII rune: none -/
theorem decode_other (s : Bytes) (k : Nat) (h : decodeRune s = (.other, k)) : 0 < k ∧ ∀ b ∈ s.take k, isUpper b = false := by
  have up : ∀ b : Byte, 0x80 ≤ b.toNat → isUpper b = false := by
    intro b hb
    unfold isUpper
    simp; omega
  have cu : ∀ b : Byte, cont b = true → isUpper b = false := by
    intro b hb
    apply up
    unfold cont at hb
    simp at hb; omega
  cases s with
  | nil => simp [decodeRune] at h
  | cons b0 r =>
    unfold decodeRune at h
    simp only [] at h
    split at h
    · simp at h
    rename_i h0
    split at h
    · simp at h
    split at h
    · split at h
      · split at h
        · rename_i b1 _ hc
          simp only [Prod.mk.injEq, true_and] at h
          subst h
          simp only [List.take_succ_cons, List.take_zero, List.mem_cons, List.not_mem_nil, or_false]
          exact ⟨by omega, by rintro b (rfl | rfl); exacts [up _ (by omega), cu _ hc]⟩
        · simp at h
      · simp at h
    split at h
    · split at h
      · generalize hlo : (if b0.toNat = 0xe0 then 0xa0 else 0x80) = lo at h
        generalize (if b0.toNat = 0xed then 0x9f else 0xbf) = hi at h
        split at h
        · rename_i b1 b2 _ hc
          simp only [Prod.mk.injEq] at h
          obtain ⟨_, rfl⟩ := h
          simp only [List.take_succ_cons, List.take_zero, List.mem_cons, List.not_mem_nil, or_false]
          refine ⟨by omega, ?_⟩
          have h1 : 0x80 ≤ b1.toNat := by
            have := hc.1
            split at hlo <;> omega
          rintro b (rfl | rfl | rfl); exacts [up _ (by omega), up _ h1, cu _ hc.2.2]
        · simp at h
      · simp at h
    split at h
    · split at h
      · generalize hlo : (if b0.toNat = 0xf0 then 0x90 else 0x80) = lo at h
        generalize (if b0.toNat = 0xf4 then 0x8f else 0xbf) = hi at h
        split at h
        · rename_i b1 b2 b3 _ hc
          simp only [Prod.mk.injEq] at h
          obtain ⟨_, rfl⟩ := h
          simp only [List.take_succ_cons, List.take_zero, List.mem_cons, List.not_mem_nil, or_false]
          refine ⟨by omega, ?_⟩
          have h1 : 0x80 ≤ b1.toNat := by
            have := hc.1
            split at hlo <;> omega
          rintro b (rfl | rfl | rfl | rfl); exacts [up _ (by omega), up _ h1, cu _ hc.2.2.1, cu _ hc.2.2.2]
        · simp at h
      · simp at h
    · simp at h

theorem decode_ascii (s : Bytes) (b : Byte) (k : Nat) (h : decodeRune s = (.ascii b, k)) : k = 1 ∧ ∃ r, s = b :: r := by
  cases s with
  | nil => simp [decodeRune] at h
  | cons b0 r =>
    unfold decodeRune at h
    simp only [] at h
    split at h
    · simp only [Prod.mk.injEq, Rune.ascii.injEq] at h
      exact ⟨h.2.symm, r, by rw [h.1]⟩
    all_goals
      exfalso
      revert h
      repeat' split
      all_goals simp

theorem alreadyLower_upper (f : Nat) (s : Bytes) (hf : s.length ≤ f) (h : alreadyLower f s = true) : ∀ b ∈ s, isUpper b = false := by
  induction f generalizing s with
  | zero =>
    have : s = [] := List.length_eq_zero_iff.1 (by omega)
    subst this; simp
  | succ f ih =>
    cases s with
    | nil => simp
    | cons b0 r =>
      unfold alreadyLower at h
      split at h
      · cases h
      · rename_i b k hd
        obtain ⟨rfl, r', e⟩ := decode_ascii _ _ _ hd
        cases e
        split at h
        · cases h
        · rename_i hu
          intro b hb
          rcases List.mem_cons.1 hb with rfl | hb
          · simpa using hu
          · exact ih r (by simpa using hf) (by simpa using h) b hb
      · rename_i k hd
        obtain ⟨hk, hall⟩ := decode_other _ _ hd
        intro b hb
        rw [← List.take_append_drop k (b0 :: r), List.mem_append] at hb
        rcases hb with hb | hb
        · exact hall b hb
        · refine ih _ ?_ h b hb
          rw [List.length_drop]; omega

/-- C49: lower-casing changes exactly the ASCII capitals, byte by byte, for every string (valid UTF-8 or not). -/
theorem C49_lower (s : Bytes) : toLowerCaseASCII s = s.map Spec.asciiLower := by
  have e : lowerByte = Spec.asciiLower := funext lowerByte_eq
  unfold toLowerCaseASCII
  rw [← e]
  split
  · rename_i h
    have := alreadyLower_upper _ s (Nat.le_refl _) h
    symm
    conv_rhs => rw [← List.map_id s]
    apply List.map_congr_left
    intro b hb
    unfold lowerByte
    rw [this b hb]; rfl
  · rfl

theorem trimDot_stripped (s : Bytes) : Spec.Stripped s (trimDot s) := by
  unfold trimDot
  split
  · rename_i h
    left
    exact (List.dropLast_append_getLast? _ h).symm
  · rename_i h
    right
    refine ⟨rfl, ?_⟩
    rintro ⟨u, rfl⟩
    simp at h

theorem stripped_unique {s t t' : Bytes} (h : Spec.Stripped s t) (h' : Spec.Stripped s t') : t = t' := by
  rcases h with h | ⟨h, n⟩ <;> rcases h' with h' | ⟨h', n'⟩
  · rw [h] at h'; exact List.append_cancel_right h'
  · exact absurd ⟨t, h⟩ n'
  · exact absurd ⟨t', h'⟩ n
  · rw [← h, ← h']

theorem splitDots_labels (s : Bytes) : Spec.Labels s (splitDots s) := by
  induction s with
  | nil => exact ⟨by simp [splitDots], by simp [splitDots], rfl⟩
  | cons c r ih =>
    obtain ⟨h1, h2, h3⟩ := ih
    unfold splitDots
    split
    · rename_i e
      subst e
      refine ⟨by simp, ?_, ?_⟩
      · intro l hl
        rcases List.mem_cons.1 hl with rfl | hl
        · simp
        · exact h2 l hl
      · cases hs : splitDots r with
        | nil => exact absurd hs h1
        | cons l ls =>
          rw [hs] at h3
          conv_lhs => rw [h3]
          simp [List.intercalate, List.intersperse]
    · rename_i e
      cases hs : splitDots r with
      | nil => exact absurd hs h1
      | cons l ls =>
        rw [hs] at h3 h2
        simp only
        refine ⟨by simp, ?_, ?_⟩
        · intro x hx
          rcases List.mem_cons.1 hx with rfl | hx
          · intro hm
            rcases List.mem_cons.1 hm with hm | hm
            · exact e hm.symm
            · exact h2 l (by simp) hm
          · exact h2 x (List.mem_cons_of_mem _ hx)
        · conv_lhs => rw [h3]
          cases ls <;> simp [List.intercalate, List.intersperse]

theorem labels_cons2 (a b : Bytes) (ls : List Bytes) : List.intercalate [(0x2e : Byte)] (a :: b :: ls) = a ++ 0x2e :: List.intercalate [0x2e] (b :: ls) := by
  simp [List.intercalate, List.intersperse]

theorem dot_split {a b x y : Bytes} (ha : (0x2e : Byte) ∉ a) (hb : (0x2e : Byte) ∉ b) (h : a ++ 0x2e :: x = b ++ 0x2e :: y) : a = b ∧ x = y := by
  induction a generalizing b with
  | nil =>
    cases b with
    | nil => simpa using h
    | cons c b =>
      simp only [List.nil_append, List.cons_append, List.cons.injEq] at h
      exact absurd (by rw [h.1]; simp) hb
  | cons d a ih =>
    cases b with
    | nil =>
      simp only [List.nil_append, List.cons_append, List.cons.injEq] at h
      exact absurd (by rw [← h.1]; simp) ha
    | cons c b =>
      simp only [List.cons_append, List.cons.injEq] at h
      obtain ⟨h1, h2⟩ := ih (fun m => ha (List.mem_cons_of_mem _ m)) (fun m => hb (List.mem_cons_of_mem _ m)) h.2
      exact ⟨by rw [h.1, h1], h2⟩

theorem labels_unique {s : Bytes} {l l' : List Bytes} (h : Spec.Labels s l) (h' : Spec.Labels s l') : l = l' := by
  obtain ⟨n1, d1, e1⟩ := h
  obtain ⟨n2, d2, e2⟩ := h'
  induction l generalizing s l' with
  | nil => exact absurd rfl n1
  | cons a l ih =>
    cases l' with
    | nil => exact absurd rfl n2
    | cons b l' =>
      have ha := d1 a (by simp)
      have hb := d2 b (by simp)
      cases l with
      | nil =>
        cases l' with
        | nil => simp [List.intercalate] at e1 e2; rw [← e1, ← e2]
        | cons c l' =>
          rw [labels_cons2] at e2
          simp [List.intercalate] at e1
          rw [← e1, e2] at ha
          simp at ha
      | cons c l =>
        cases l' with
        | nil =>
          rw [labels_cons2] at e1
          simp [List.intercalate] at e2
          rw [← e2, e1] at hb
          simp at hb
        | cons d l' =>
          rw [labels_cons2] at e1 e2
          obtain ⟨h1, h2⟩ := dot_split ha hb (e1.symm.trans e2)
          rw [h1, ih (by simp) (fun x hx => d1 x (List.mem_cons_of_mem _ hx)) rfl (by simp) (fun x hx => d2 x (List.mem_cons_of_mem _ hx)) h2]

theorem lower_dot (b : Byte) : Spec.asciiLower b = 0x2e ↔ b = 0x2e := by
  revert b; unfold Spec.asciiLower; decide +kernel

theorem lower_star (b : Byte) : Spec.asciiLower b = 0x2a ↔ b = 0x2a := by
  revert b; unfold Spec.asciiLower; decide +kernel

theorem intercalate_map (f : Byte → Byte) (ls : List Bytes) (hf : f 0x2e = 0x2e) :
    (List.intercalate [(0x2e : Byte)] ls).map f = List.intercalate [0x2e] (ls.map (·.map f)) := by
  induction ls with
  | nil => rfl
  | cons a ls ih =>
    cases ls with
    | nil => simp [List.intercalate]
    | cons b ls =>
      rw [labels_cons2, List.map_append, List.map_cons, ih, hf]
      simp only [List.map_cons]
      rw [labels_cons2]

theorem labels_lower {s : Bytes} {ls : List Bytes} (h : Spec.Labels s ls) : Spec.Labels (s.map Spec.asciiLower) (ls.map (·.map Spec.asciiLower)) := by
  obtain ⟨h1, h2, h3⟩ := h
  refine ⟨by simpa using h1, ?_, ?_⟩
  · intro l hl
    obtain ⟨l', hl', rfl⟩ := List.mem_map.1 hl
    intro hm
    obtain ⟨b, hb, e⟩ := List.mem_map.1 hm
    rw [lower_dot] at e
    subst e
    exact h2 l' hl' hb
  · rw [h3, intercalate_map _ _ ((lower_dot _).2 rfl)]

theorem stripped_lower {s t : Bytes} (h : Spec.Stripped s t) : Spec.Stripped (s.map Spec.asciiLower) (t.map Spec.asciiLower) := by
  rcases h with h | ⟨h, n⟩
  · left; rw [h, List.map_append, List.map_cons, List.map_nil, (lower_dot _).2 rfl]
  · right
    refine ⟨by rw [h], ?_⟩
    rintro ⟨u, hu⟩
    apply n
    obtain ⟨a, b, e, _, eb⟩ := List.map_eq_append_iff.1 hu
    obtain ⟨x, b', rfl, ex, eb'⟩ := List.map_eq_cons_iff.1 eb
    rw [List.map_eq_nil_iff] at eb'
    rw [lower_dot] at ex
    exact ⟨a, by rw [e, ex, eb']⟩

theorem matchLabels_succ (i : Nat) (ps hs : List Bytes) (hl : ps.length = hs.length) : matchLabels (i + 1) ps hs = true ↔ ps = hs := by
  induction ps generalizing hs i with
  | nil =>
    have : hs = [] := List.length_eq_zero_iff.1 hl.symm
    subst this; simp [matchLabels]
  | cons p ps ih =>
    cases hs with
    | nil => simp at hl
    | cons h hs =>
      unfold matchLabels
      rw [if_neg (by simp)]
      by_cases e : p = h
      · rw [if_neg (by simpa using e), ih _ _ (by simpa using hl)]
        simp [e]
      · rw [if_pos e]; simp [e]

theorem matchLabels_zero (ps hs : List Bytes) (hl : ps.length = hs.length) :
    matchLabels 0 ps hs = true ↔ ps = hs ∨ ∃ ps' h₀ hs', ps = [0x2a] :: ps' ∧ hs = h₀ :: hs' ∧ ps' = hs' := by
  cases ps with
  | nil =>
    have : hs = [] := List.length_eq_zero_iff.1 hl.symm
    subst this; simp [matchLabels]
  | cons p ps =>
    cases hs with
    | nil => simp at hl
    | cons h hs =>
      have hl' : ps.length = hs.length := by simpa using hl
      unfold matchLabels
      by_cases e : p = [0x2a]
      · rw [if_pos ⟨rfl, e⟩, matchLabels_succ _ _ _ hl']
        constructor
        · intro h; exact .inr ⟨ps, _, hs, by rw [e], rfl, h⟩
        · rintro (h | ⟨_, _, _, h1, h2, h3⟩)
          · exact (List.cons.inj h).2
          · rw [(List.cons.inj h1).2, (List.cons.inj h2).2, h3]
      · rw [if_neg (fun x => e x.2)]
        by_cases e' : p = h
        · rw [if_neg (by simpa using e'), matchLabels_succ _ _ _ hl']
          constructor
          · intro h; exact .inl (by rw [e', h])
          · rintro (h | ⟨_, _, _, h1, _, _⟩)
            · exact (List.cons.inj h).2
            · exact absurd (List.cons.inj h1).1 e
        · rw [if_pos e']
          constructor
          · intro h; cases h
          · rintro (h | ⟨_, _, _, h1, _, _⟩)
            · exact absurd (List.cons.inj h).1 e'
            · exact absurd (List.cons.inj h1).1 e

theorem forall2_same (ps hs : List Bytes) :
    List.Forall₂ Spec.SameLabel ps hs ↔ ps.map (·.map Spec.asciiLower) = hs.map (·.map Spec.asciiLower) := by
  induction ps generalizing hs with
  | nil => cases hs <;> simp
  | cons p ps ih =>
    cases hs with
    | nil => simp
    | cons h hs => simp [ih, Spec.SameLabel]

theorem star_lower (p : Bytes) : p.map Spec.asciiLower = [0x2a] ↔ p = [0x2a] := by
  constructor
  · intro h
    obtain ⟨b, r, rfl, e1, e2⟩ := List.map_eq_cons_iff.1 h
    rw [List.map_eq_nil_iff] at e2
    rw [(lower_star b).1 e1, e2]
  · rintro rfl
    rw [List.map_cons, List.map_nil, (lower_star _).2 rfl]

/-- C49: `matchHostnames` on lower-cased names, as `VerifyHostname` calls it, decides exactly the specification. -/
theorem C49_match (pattern host : Bytes) :
    matchHostnames (toLowerCaseASCII pattern) (toLowerCaseASCII host) = true ↔ Spec.NameMatches pattern host := by
  rw [C49_lower, C49_lower]
  have key : ∀ p h : Bytes, Spec.Stripped pattern p → Spec.Stripped host h →
      (matchHostnames (pattern.map Spec.asciiLower) (host.map Spec.asciiLower) = true ↔
        p ≠ [] ∧ h ≠ [] ∧ (List.Forall₂ Spec.SameLabel (splitDots p) (splitDots h) ∨
          ∃ ps' h₀ hs', splitDots p = [0x2a] :: ps' ∧ splitDots h = h₀ :: hs' ∧ List.Forall₂ Spec.SameLabel ps' hs')) := by
    intro p h hp hh
    have e1 : trimDot (pattern.map Spec.asciiLower) = p.map Spec.asciiLower := stripped_unique (trimDot_stripped _) (stripped_lower hp)
    have e2 : trimDot (host.map Spec.asciiLower) = h.map Spec.asciiLower := stripped_unique (trimDot_stripped _) (stripped_lower hh)
    have e3 : splitDots (p.map Spec.asciiLower) = (splitDots p).map (·.map Spec.asciiLower) :=
      labels_unique (splitDots_labels _) (labels_lower (splitDots_labels _))
    have e4 : splitDots (h.map Spec.asciiLower) = (splitDots h).map (·.map Spec.asciiLower) :=
      labels_unique (splitDots_labels _) (labels_lower (splitDots_labels _))
    unfold matchHostnames
    simp only [e1, e2, e3, e4, List.length_map, List.length_eq_zero_iff]
    by_cases h0 : p = [] ∨ h = []
    · rw [if_pos h0]
      constructor
      · intro x; cases x
      · rintro ⟨a, b, _⟩; rcases h0 with h0 | h0 <;> contradiction
    · rw [if_neg h0]
      rw [not_or] at h0
      by_cases hl : (splitDots p).length = (splitDots h).length
      · rw [if_neg (by simpa using hl), matchLabels_zero _ _ (by simpa using hl), forall2_same]
        constructor
        · rintro (x | ⟨ps', h₀, hs', x1, x2, x3⟩)
          · exact ⟨h0.1, h0.2, .inl x⟩
          · obtain ⟨a, ps, ea, eb, ec⟩ := List.map_eq_cons_iff.1 x1
            obtain ⟨b, hs, fa, fb, fc⟩ := List.map_eq_cons_iff.1 x2
            refine ⟨h0.1, h0.2, .inr ⟨ps, b, hs, ?_, fa, ?_⟩⟩
            · rw [ea, (star_lower a).1 eb]
            · rw [forall2_same, ec, fc, x3]
        · rintro ⟨_, _, x | ⟨ps', h₀, hs', x1, x2, x3⟩⟩
          · exact .inl x
          · right
            rw [x1, x2]
            refine ⟨ps'.map (·.map Spec.asciiLower), _, _, ?_, List.map_cons .., ?_⟩
            · rw [List.map_cons, (star_lower _).2 rfl]
            · exact (forall2_same _ _).1 x3
      · rw [if_pos hl]
        constructor
        · intro x; cases x
        · rintro ⟨_, _, x | ⟨ps', h₀, hs', x1, x2, x3⟩⟩
          · exact absurd x.length_eq hl
          · rw [x1, x2, List.length_cons, List.length_cons, x3.length_eq] at hl
            exact absurd rfl hl
  rw [key _ _ (trimDot_stripped pattern) (trimDot_stripped host)]
  constructor
  · rintro ⟨a, b, c⟩
    exact ⟨_, _, _, _, trimDot_stripped _, trimDot_stripped _, a, b, splitDots_labels _, splitDots_labels _, c⟩
  · rintro ⟨p, h, ps, hs, s1, s2, n1, n2, l1, l2, c⟩
    rw [stripped_unique (trimDot_stripped pattern) s1, stripped_unique (trimDot_stripped host) s2,
      labels_unique (splitDots_labels p) l1, labels_unique (splitDots_labels h) l2]
    exact ⟨n1, n2, c⟩

/-- an IP address in brackets stands for the address -/
def Spec.HostIP (h ip : Bytes) : Prop := (∃ x, x ≠ [] ∧ h = [0x5b] ++ x ++ [0x5d] ∧ ip = x) ∨ ((¬ ∃ x, x ≠ [] ∧ h = [0x5b] ++ x ++ [0x5d]) ∧ ip = h)

theorem candidateIP_spec (h : Bytes) : Spec.HostIP h (candidateIP h) := by
  unfold candidateIP
  split
  · rename_i hc
    obtain ⟨h1, h2, h3⟩ := hc
    left
    cases h with
    | nil => simp at h1
    | cons a r =>
      simp only [List.head?_cons, Option.some.injEq] at h2
      subst h2
      have hr : r ≠ [] := by intro e; subst e; simp at h1
      have h3' : r.getLast? = some 0x5d := by rw [← h3]; cases r with | nil => exact absurd rfl hr | cons => simp
      refine ⟨r.dropLast, ?_, ?_, by simp⟩
      · intro e
        have := congrArg List.length e
        simp only [List.length_dropLast, List.length_nil] at this
        simp only [List.length_cons] at h1
        omega
      · rw [List.append_assoc, List.dropLast_append_getLast? _ h3']; rfl
  · rename_i hc
    right
    refine ⟨?_, rfl⟩
    rintro ⟨x, hx, rfl⟩
    apply hc
    refine ⟨?_, rfl, ?_⟩
    · have := List.length_pos_iff.2 hx
      simp; omega
    · rw [List.getLast?_append]; rfl

/-- C49: `VerifyHostname` accepts exactly: for an IP address (possibly in brackets), an equal IP SAN; for any other name, a matching DNS SAN, or,
only if the certificate has no SAN extension at all, a matching common name. -/
theorem C49_verify_hostname (E : Env) (c : Cert) (h : Bytes) :
    verifyHostname E c h = none ↔
      ∀ ip, Spec.HostIP h ip →
        match E.parseIP ip with
        | some a => ∃ s ∈ c.ipAddresses, E.ipEqual a s = true
        | none => if c.hasSAN = true then ∃ s ∈ c.dnsNames, Spec.NameMatches s h else Spec.NameMatches c.commonName h := by
  have uniq : ∀ ip, Spec.HostIP h ip → ip = candidateIP h := by
    intro ip hip
    have := candidateIP_spec h
    rcases hip with ⟨x, hx, e, rfl⟩ | ⟨n, rfl⟩ <;> rcases this with ⟨y, hy, e', e''⟩ | ⟨n', e''⟩
    · rw [e''] at *
      rw [e] at e'
      simpa using e'
    · exact absurd ⟨_, hx, e⟩ n'
    · exact absurd ⟨_, hy, e'⟩ n
    · rw [e'']
  have : (∀ ip, Spec.HostIP h ip →
        match E.parseIP ip with
        | some a => ∃ s ∈ c.ipAddresses, E.ipEqual a s = true
        | none => if c.hasSAN = true then ∃ s ∈ c.dnsNames, Spec.NameMatches s h else Spec.NameMatches c.commonName h) ↔
      (match E.parseIP (candidateIP h) with
        | some a => ∃ s ∈ c.ipAddresses, E.ipEqual a s = true
        | none => if c.hasSAN = true then ∃ s ∈ c.dnsNames, Spec.NameMatches s h else Spec.NameMatches c.commonName h) := by
    constructor
    · intro x; exact x _ (candidateIP_spec h)
    · intro x ip hip; rw [uniq ip hip]; exact x
  rw [this]
  unfold verifyHostname
  cases E.parseIP (candidateIP h) with
  | some a =>
    simp only
    rw [← List.any_eq_true]
    split <;> simp_all
  | none =>
    simp only
    by_cases hs : c.hasSAN = true
    · rw [if_pos hs, if_pos hs]
      rw [show (∃ s ∈ c.dnsNames, Spec.NameMatches s h) ↔ c.dnsNames.any (fun m => matchHostnames (toLowerCaseASCII m) (toLowerCaseASCII h)) = true by
        rw [List.any_eq_true]; simp only [C49_match]]
      split <;> simp_all
    · rw [if_neg hs, if_neg hs]
      rw [← C49_match]
      split <;> simp_all

/-- "*.Example.com" matches "www.example.COM." but neither "example.com" nor "a.b.example.com" -/
example :
    matchHostnames (toLowerCaseASCII [0x2a, 0x2e, 0x45, 0x78, 0x2e, 0x63]) (toLowerCaseASCII [0x77, 0x2e, 0x65, 0x78, 0x2e, 0x43, 0x2e]) = true ∧
    matchHostnames (toLowerCaseASCII [0x2a, 0x2e, 0x45, 0x78, 0x2e, 0x63]) (toLowerCaseASCII [0x65, 0x78, 0x2e, 0x63]) = false ∧
    matchHostnames (toLowerCaseASCII [0x2a, 0x2e, 0x45, 0x78, 0x2e, 0x63]) (toLowerCaseASCII [0x61, 0x2e, 0x62, 0x2e, 0x65, 0x78, 0x2e, 0x63]) = false := by
  decide

end Verif.X509
