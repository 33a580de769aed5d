import Verif.X509.Cert
/-!
Reading an element depends on the bytes of the element only (lemmas for C100).
-/
namespace Verif.X509
open Verif Asn1

/-- a reader that consumes a prefix and does not look further -/
def Pfx {α : Type} (f : Bytes → Option (α × Bytes)) : Prop :=
  ∀ b a r, f b = some (a, r) → ∃ p, b = p ++ r ∧ ∀ r', f (p ++ r') = some (a, r')

theorem pfx_lenBytes (n acc : Nat) : Pfx (Der.parseLenBytes n acc) := by
  induction n generalizing acc with
  | zero =>
    intro b a r h
    simp only [Der.parseLenBytes, Option.some.injEq, Prod.mk.injEq] at h
    obtain ⟨rfl, rfl⟩ := h
    exact ⟨[], rfl, fun r' => by simp [Der.parseLenBytes]⟩
  | succ n ih =>
    intro b a r h
    match b, h with
    | x :: t, h =>
      simp only [Der.parseLenBytes] at h
      split at h
      · cases h
      · rename_i h1
        split at h
        · cases h
        · rename_i h2
          obtain ⟨p, rfl, hp⟩ := ih _ t a r h
          refine ⟨x :: p, rfl, fun r' => ?_⟩
          simp only [List.cons_append, Der.parseLenBytes]
          rw [if_neg h1, if_neg h2, hp]

theorem pfx_base128 (n acc : Nat) : Pfx (Keys.parseBase128 n acc) := by
  induction n generalizing acc with
  | zero =>
    intro b a r h
    cases b <;> simp [Keys.parseBase128] at h
  | succ n ih =>
    intro b a r h
    match b, h with
    | x :: t, h =>
      simp only [Keys.parseBase128] at h
      split at h
      · rename_i h1
        split at h
        · rename_i h2
          simp only [Option.some.injEq, Prod.mk.injEq] at h
          obtain ⟨rfl, rfl⟩ := h
          refine ⟨[x], rfl, fun r' => ?_⟩
          simp only [List.cons_append, List.nil_append, Keys.parseBase128]
          rw [if_pos h1, if_pos h2]
        · cases h
      · rename_i h1
        obtain ⟨p, rfl, hp⟩ := ih _ t a r h
        refine ⟨x :: p, rfl, fun r' => ?_⟩
        simp only [List.cons_append, Keys.parseBase128]
        rw [if_neg h1, hp]

theorem pfx_lenOctets : Pfx lenOctets := by
  intro b a r h
  match b, h with
  | l :: t, h =>
    simp only [lenOctets] at h
    split at h
    · rename_i h1
      simp only [Option.some.injEq, Prod.mk.injEq] at h
      obtain ⟨rfl, rfl⟩ := h
      refine ⟨[l], rfl, fun r' => ?_⟩
      simp only [List.cons_append, List.nil_append, lenOctets]
      rw [if_pos h1]
    · rename_i h1
      split at h
      · cases h
      · rename_i h2
        split at h
        · cases h
        · rename_i m q hm
          split at h
          · cases h
          · rename_i h3
            simp only [Option.some.injEq, Prod.mk.injEq] at h
            obtain ⟨rfl, rfl⟩ := h
            obtain ⟨p, rfl, hp⟩ := pfx_lenBytes _ _ t _ _ hm
            refine ⟨l :: p, rfl, fun r' => ?_⟩
            simp only [List.cons_append, lenOctets]
            rw [if_neg h1, if_neg h2, hp]
            simp only
            rw [if_neg h3]

theorem pfx_hdr : Pfx hdr := by
  intro b a r h
  match b, h with
  | id :: t, h =>
    simp only [hdr] at h
    split at h
    · rename_i h1
      split at h
      · cases h
      · rename_i m q hm
        split at h
        · cases h
        · rename_i h2
          obtain ⟨⟨x, y⟩, hx, he⟩ := Option.map_eq_some_iff.1 h
          simp only [Prod.mk.injEq] at he
          obtain ⟨rfl, rfl⟩ := he
          obtain ⟨p, rfl, hp⟩ := pfx_base128 _ _ t _ _ hm
          obtain ⟨p', rfl, hp'⟩ := pfx_lenOctets _ _ _ hx
          refine ⟨id :: (p ++ p'), by simp, fun r' => ?_⟩
          simp only [List.cons_append, List.append_assoc, hdr]
          rw [if_pos h1, hp]
          simp only
          rw [if_neg h2, hp']
          rfl
    · rename_i h1
      obtain ⟨⟨x, y⟩, hx, he⟩ := Option.map_eq_some_iff.1 h
      simp only [Prod.mk.injEq] at he
      obtain ⟨rfl, rfl⟩ := he
      obtain ⟨p', rfl, hp'⟩ := pfx_lenOctets _ _ _ hx
      refine ⟨id :: p', rfl, fun r' => ?_⟩
      simp only [List.cons_append, hdr]
      rw [if_neg h1, hp']
      rfl

/-- an element's `full` bytes are what was consumed, and they determine the element -/
theorem elem_inv {b r : Bytes} {e : Elem} (h : elem b = some (e, r)) : b = e.full ++ r ∧ ∀ r', elem (e.full ++ r') = some (e, r') := by
  unfold elem at h
  split at h
  · cases h
  · rename_i hd q hq
    split at h
    · cases h
    · rename_i hl
      simp only [Option.some.injEq, Prod.mk.injEq] at h
      obtain ⟨he, hr⟩ := h
      obtain ⟨p, rfl, hp⟩ := pfx_hdr _ _ _ hq
      have hfull : e.full = p ++ q.take hd.len := by
        rw [← he]
        simp only [List.length_append]
        rw [show p.length + q.length - q.length + hd.len = p.length + hd.len by omega, List.take_append]
        simp
      have hll : (q.take hd.len).length = hd.len := by rw [List.length_take]; omega
      refine ⟨?_, fun r' => ?_⟩
      · rw [hfull, ← hr]; simp
      · rw [hfull, List.append_assoc]
        unfold elem
        rw [hp]
        simp only
        rw [if_neg (by rw [List.length_append, hll]; omega)]
        simp only [Option.some.injEq, Prod.mk.injEq]
        constructor
        · rw [← he]
          congr 1
          · rw [List.take_append_of_le_length (by omega), List.take_of_length_le (by omega)]
          · have hf2 : List.take (List.length (p ++ q) - List.length q + hd.len) (p ++ q) = e.full := by rw [← he]
            rw [hf2, ← List.append_assoc, ← hfull]
            rw [List.length_append, List.length_append, hll,
              show e.full.length + r'.length - (hd.len + r'.length) + hd.len = e.full.length by
                rw [hfull, List.length_append, hll]; omega]
            rw [List.take_left' rfl]
        · rw [List.drop_append_of_le_length (by omega), List.drop_of_length_le (by omega)]; rfl

theorem seqField_inv {b r : Bytes} {e : Elem} (h : seqField b = some (e, r)) :
    b = e.full ++ r ∧ ∀ r', seqField (e.full ++ r') = some (e, r') := by
  unfold seqField at h
  split at h
  · rename_i e' r'' he
    split at h
    · rename_i hi
      simp only [Option.some.injEq, Prod.mk.injEq] at h
      obtain ⟨rfl, rfl⟩ := h
      obtain ⟨h1, h2⟩ := elem_inv he
      refine ⟨h1, fun r' => ?_⟩
      unfold seqField
      rw [h2]
      simp only
      rw [if_pos hi]
    · cases h
  · cases h

theorem seqField_elem {b r : Bytes} {e : Elem} (h : seqField b = some (e, r)) : elem b = some (e, r) := by
  unfold seqField at h
  split at h
  · rename_i e' r'' he
    split at h
    · rw [he]; exact h
    · cases h
  · cases h

/-- the contents are the end of the element -/
theorem elem_body_suffix {b r : Bytes} {e : Elem} (h : elem b = some (e, r)) : ∃ p, e.full = p ++ e.body := by
  unfold elem at h
  split at h
  · cases h
  · rename_i hd q hq
    split at h
    · cases h
    · rename_i hl
      simp only [Option.some.injEq, Prod.mk.injEq] at h
      obtain ⟨he, hr⟩ := h
      obtain ⟨p, rfl, hp⟩ := pfx_hdr _ _ _ hq
      refine ⟨p, ?_⟩
      rw [← he]
      simp only [List.length_append]
      rw [show p.length + q.length - q.length + hd.len = p.length + hd.len by omega, List.take_append]
      simp

end Verif.X509
