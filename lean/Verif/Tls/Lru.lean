import Verif.Go
import Mathlib.Data.List.Nodup
import Mathlib.Data.List.Perm.Subperm
/-!
Model of `lruSessionCache`, tls/common.go:837-906: a Go map from session key to list element, a
doubly linked list of elements (`container/list`), each pointing to an entry. The mutex makes every
call atomic, so a history is a sequence of calls.
-/
namespace Verif.Tls.Lru

/-- tls/common.go:839-850. `m` is the Go map; `q` the list (front first) of element identities;
`entry` the heap of `lruSessionCacheEntry` values; `next` the next fresh element. -/
structure Cache (V : Type) where
  m : Bytes → Option Nat
  q : List Nat
  entry : Nat → Bytes × V
  next : Nat
  capacity : Nat

variable {V : Type}

/-- tls/common.go:855-866 `NewLRUClientSessionCache` -/
def new [Inhabited V] (capacity : Int) : Cache V :=
  { m := fun _ => none, q := [], entry := fun _ => ([], default), next := 0,
    capacity := if capacity < 1 then 64 else capacity.toNat }

/-- assignment to a Go map / heap cell -/
def upd {α β : Type} [DecidableEq α] (f : α → β) (a : α) (b : β) : α → β := fun x => if x = a then b else f x

/-- `list.MoveToFront` -/
def moveToFront (q : List Nat) (e : Nat) : List Nat := e :: q.erase e

/-- tls/common.go:869-893 `Put`; `none` is the nil dereference of `q.Back()` on an empty list. -/
def put (c : Cache V) (k : Bytes) (v : V) : Option (Cache V) :=
  match c.m k with
  | some e => some { c with entry := upd c.entry e ((c.entry e).1, v), q := moveToFront c.q e }
  | none =>
    if c.q.length < c.capacity then
      some { c with entry := upd c.entry c.next (k, v), q := c.next :: c.q,
                    m := upd c.m k (some c.next), next := c.next + 1 }
    else match c.q.getLast? with
      | none => none
      | some e =>
        let m := upd c.m (c.entry e).1 none
        some { c with entry := upd c.entry e (k, v), q := moveToFront c.q e, m := upd m k (some e) }

/-- tls/common.go:897-906 `Get` -/
def get (c : Cache V) (k : Bytes) : Option V × Cache V :=
  match c.m k with
  | some e => (some (c.entry e).2, { c with q := moveToFront c.q e })
  | none => (none, c)

/-- a call -/
inductive Op (V : Type) where
  | put (k : Bytes) (v : V)
  | get (k : Bytes)

/-- a history: the results of the `Get` calls, and the final cache; `none` if a call panics -/
def run (c : Cache V) : List (Op V) → Option (List (Option V) × Cache V)
  | [] => some ([], c)
  | .put k v :: t => (put c k v).bind fun c' => run c' t
  | .get k :: t => (run (get c k).2 t).map fun r => ((get c k).1 :: r.1, r.2)

/-! ## Specification: a bounded list of (key, value), most recently used first -/
namespace Spec

def lookup (s : List (Bytes × V)) (k : Bytes) : Option V := (s.find? (fun p => p.1 = k)).map (·.2)
def remove (s : List (Bytes × V)) (k : Bytes) : List (Bytes × V) := s.filter (fun p => p.1 ≠ k)

/-- use of `k` with value `v`: to the front, dropping the least recently used entry when full -/
def put (cap : Nat) (s : List (Bytes × V)) (k : Bytes) (v : V) : List (Bytes × V) :=
  ((k, v) :: remove s k).take cap

def get (s : List (Bytes × V)) (k : Bytes) : Option V × List (Bytes × V) :=
  match lookup s k with
  | some v => (some v, (k, v) :: remove s k)
  | none => (none, s)

def run (cap : Nat) (s : List (Bytes × V)) : List (Op V) → List (Option V) × List (Bytes × V)
  | [] => ([], s)
  | .put k v :: t => run cap (put cap s k v) t
  | .get k :: t => let r := run cap (get s k).2 t; ((get s k).1 :: r.1, r.2)

end Spec

/-! ## Refinement -/

/-- the entries in list order -/
def abs (c : Cache V) : List (Bytes × V) := c.q.map c.entry

structure Inv (c : Cache V) : Prop where
  cap : 1 ≤ c.capacity
  len : c.q.length ≤ c.capacity
  nodup : c.q.Nodup
  fresh : ∀ e ∈ c.q, e < c.next
  sound : ∀ k e, c.m k = some e → e ∈ c.q ∧ (c.entry e).1 = k
  complete : ∀ e ∈ c.q, c.m (c.entry e).1 = some e

theorem Inv.keys_inj {c : Cache V} (h : Inv c) {a b : Nat} (ha : a ∈ c.q) (hb : b ∈ c.q)
    (hab : (c.entry a).1 = (c.entry b).1) : a = b := by
  have h1 := h.complete a ha
  have h2 := h.complete b hb
  rw [hab, h2] at h1
  exact (Option.some.inj h1).symm

theorem abs_lookup {c : Cache V} (h : Inv c) (k : Bytes) :
    Spec.lookup (abs c) k = (c.m k).map fun e => (c.entry e).2 := by
  rw [Spec.lookup, abs]
  cases hm : c.m k with
  | none =>
    have : (c.q.map c.entry).find? (fun p => p.1 = k) = none := by
      rw [List.find?_eq_none]
      intro p hp
      obtain ⟨e, he, rfl⟩ := List.mem_map.1 hp
      simp only [decide_eq_true_eq]
      intro hk
      have := h.complete e he
      rw [hk, hm] at this; simp at this
    rw [this]; rfl
  | some e =>
    obtain ⟨he, hk⟩ := h.sound k e hm
    have : (c.q.map c.entry).find? (fun p => p.1 = k) = some (c.entry e) := by
      rw [List.find?_map, Option.map_eq_some_iff]
      refine ⟨e, ?_, rfl⟩
      cases hf : c.q.find? ((fun p : Bytes × V => decide (p.1 = k)) ∘ c.entry) with
      | none =>
        have := List.find?_eq_none.1 hf e he
        simp [hk] at this
      | some e' =>
        have h1 := List.mem_of_find?_eq_some hf
        have h2 := List.find?_some hf
        simp only [Function.comp, decide_eq_true_eq] at h2
        rw [h.keys_inj h1 he (by rw [h2, hk])]
    rw [this]; rfl

theorem erase_map_remove {c : Cache V} (h : Inv c) {e : Nat} (he : e ∈ c.q) :
    (c.q.erase e).map c.entry = Spec.remove (abs c) (c.entry e).1 := by
  rw [h.nodup.erase_eq_filter, Spec.remove, abs, List.filter_map]
  congr 1
  apply List.filter_congr
  intro x hx
  by_cases hxe : x = e
  · simp [hxe]
  · have : (c.entry x).1 ≠ (c.entry e).1 := fun hh => hxe (h.keys_inj hx he hh)
    simp [hxe, this]

theorem map_upd_not_mem {l : List Nat} {f : Nat → Bytes × V} {e : Nat} {b : Bytes × V} (h : e ∉ l) :
    l.map (upd f e b) = l.map f := by
  apply List.map_congr_left
  intro x hx
  rw [upd, if_neg (by rintro rfl; exact h hx)]

theorem upd_same {α β : Type} [DecidableEq α] (f : α → β) (a : α) (b : β) : upd f a b a = b := by simp [upd]
theorem upd_ne {α β : Type} [DecidableEq α] (f : α → β) {a x : α} (b : β) (h : x ≠ a) : upd f a b x = f x := by
  simp [upd, h]

theorem mem_moveToFront {q : List Nat} {e x : Nat} (he : e ∈ q) : x ∈ moveToFront q e ↔ x ∈ q := by
  rw [moveToFront]
  by_cases h : x = e
  · subst h; simp [he]
  · simp only [List.mem_cons, h, false_or]
    exact List.mem_erase_of_ne h

theorem nodup_moveToFront {q : List Nat} {e : Nat} (h : q.Nodup) : (moveToFront q e).Nodup := by
  rw [moveToFront, List.nodup_cons]
  exact ⟨h.not_mem_erase, h.erase e⟩

theorem length_moveToFront {q : List Nat} {e : Nat} (he : e ∈ q) : (moveToFront q e).length = q.length := by
  rw [moveToFront, List.length_cons, List.length_erase_of_mem he]
  have := List.length_pos_of_mem he
  omega

theorem remove_not_mem {s : List (Bytes × V)} {k : Bytes} (h : ∀ p ∈ s, p.1 ≠ k) : Spec.remove s k = s := by
  rw [Spec.remove, List.filter_eq_self]
  intro p hp; simpa using h p hp

/-- `Get` refines the specification -/
theorem get_refines {c : Cache V} (h : Inv c) (k : Bytes) :
    (get c k).1 = (Spec.get (abs c) k).1 ∧ abs (get c k).2 = (Spec.get (abs c) k).2 ∧ Inv (get c k).2 := by
  rw [Spec.get, abs_lookup h, get]
  cases hm : c.m k with
  | none => exact ⟨rfl, rfl, h⟩
  | some e =>
    obtain ⟨he, hk⟩ := h.sound k e hm
    refine ⟨rfl, ?_, ?_⟩
    · show (moveToFront c.q e).map c.entry = (k, (c.entry e).2) :: Spec.remove (abs c) k
      rw [moveToFront, List.map_cons, erase_map_remove h he, hk]
      congr 1
      rw [← hk]
    · refine ⟨h.cap, ?_, nodup_moveToFront h.nodup, ?_, ?_, ?_⟩
      · show (moveToFront c.q e).length ≤ _
        rw [length_moveToFront he]; exact h.len
      · intro x hx; exact h.fresh x ((mem_moveToFront he).1 hx)
      · intro k' e' hm'
        obtain ⟨h1, h2⟩ := h.sound k' e' hm'
        exact ⟨(mem_moveToFront he).2 h1, h2⟩
      · intro x hx; exact h.complete x ((mem_moveToFront he).1 hx)

/-- `Put` refines the specification and never dereferences nil -/
theorem put_refines {c : Cache V} (h : Inv c) (k : Bytes) (v : V) :
    ∃ c', put c k v = some c' ∧ abs c' = Spec.put c.capacity (abs c) k v ∧ Inv c' ∧ c'.capacity = c.capacity := by
  rw [put]
  cases hm : c.m k with
  | some e =>
    obtain ⟨he, hk⟩ := h.sound k e hm
    refine ⟨_, rfl, ?_, ?_, rfl⟩
    · show (moveToFront c.q e).map (upd c.entry e ((c.entry e).1, v)) = _
      rw [moveToFront, List.map_cons, upd_same, map_upd_not_mem h.nodup.not_mem_erase, erase_map_remove h he, hk,
        Spec.put, List.take_of_length_le]
      rw [← hk, ← erase_map_remove h he, List.length_cons, List.length_map, List.length_erase_of_mem he]
      have := h.len
      have := h.cap
      omega
    · refine ⟨h.cap, ?_, nodup_moveToFront h.nodup, ?_, ?_, ?_⟩
      · show (moveToFront c.q e).length ≤ _
        rw [length_moveToFront he]; exact h.len
      · intro x hx; exact h.fresh x ((mem_moveToFront he).1 hx)
      · intro k' e' hm'
        obtain ⟨h1, h2⟩ := h.sound k' e' hm'
        refine ⟨(mem_moveToFront he).2 h1, ?_⟩
        show (upd c.entry e ((c.entry e).1, v) e').1 = k'
        by_cases hee : e' = e
        · subst hee; rw [upd_same]; exact h2
        · rw [upd_ne _ _ hee]; exact h2
      · intro x hx
        have hx' := (mem_moveToFront he).1 hx
        show c.m (upd c.entry e ((c.entry e).1, v) x).1 = some x
        by_cases hee : x = e
        · subst hee; rw [upd_same]; exact h.complete x hx'
        · rw [upd_ne _ _ hee]; exact h.complete x hx'
  | none =>
    have hnk : ∀ p ∈ abs c, p.1 ≠ k := by
      intro p hp hpk
      obtain ⟨e, he, rfl⟩ := List.mem_map.1 hp
      have := h.complete e he
      rw [hpk, hm] at this; simp at this
    have hnk' : ∀ e ∈ c.q, (c.entry e).1 ≠ k := fun e he => hnk _ (List.mem_map.2 ⟨e, he, rfl⟩)
    by_cases hlt : c.q.length < c.capacity
    · have hnf : c.next ∉ c.q := fun hh => Nat.lt_irrefl _ (h.fresh _ hh)
      rw [if_pos hlt]
      refine ⟨_, rfl, ?_, ?_, rfl⟩
      · show (c.next :: c.q).map (upd c.entry c.next (k, v)) = _
        rw [List.map_cons, upd_same, map_upd_not_mem hnf, Spec.put, remove_not_mem hnk, List.take_of_length_le]
        · rfl
        · simp only [List.length_cons, abs, List.length_map]; omega
      · refine ⟨h.cap, ?_, ?_, ?_, ?_, ?_⟩
        · show (c.next :: c.q).length ≤ _
          simp only [List.length_cons]; omega
        · show (c.next :: c.q).Nodup
          exact List.nodup_cons.2 ⟨hnf, h.nodup⟩
        · intro x hx
          show x < c.next + 1
          rcases List.mem_cons.1 hx with rfl | hx
          · omega
          · have := h.fresh x hx; omega
        · intro k' e' hm'
          change upd c.m k (some c.next) k' = some e' at hm'
          show e' ∈ c.next :: c.q ∧ (upd c.entry c.next (k, v) e').1 = k'
          by_cases hk : k' = k
          · subst hk
            rw [upd_same, Option.some.injEq] at hm'
            subst hm'
            rw [upd_same]; exact ⟨by simp, rfl⟩
          · rw [upd_ne _ _ hk] at hm'
            obtain ⟨h1, h2⟩ := h.sound k' e' hm'
            have hne : e' ≠ c.next := fun hh => hnf (hh ▸ h1)
            rw [upd_ne _ _ hne]
            exact ⟨List.mem_cons_of_mem _ h1, h2⟩
        · intro x hx
          show upd c.m k (some c.next) (upd c.entry c.next (k, v) x).1 = some x
          rcases List.mem_cons.1 hx with rfl | hx
          · rw [upd_same]; exact upd_same _ _ _
          · have hne : x ≠ c.next := fun hh => hnf (hh ▸ hx)
            rw [upd_ne _ _ hne, upd_ne _ _ (hnk' x hx)]
            exact h.complete x hx
    · rw [if_neg hlt]
      have hlen : c.q.length = c.capacity := by have := h.len; omega
      have hne : c.q ≠ [] := by
        intro hh; rw [hh] at hlen; have := h.cap; simp at hlen; omega
      obtain ⟨l, e, hq⟩ : ∃ l e, c.q = l ++ [e] := ⟨c.q.dropLast, c.q.getLast hne, (List.dropLast_concat_getLast hne).symm⟩
      have hgl : c.q.getLast? = some e := by rw [hq]; simp
      have he : e ∈ c.q := by rw [hq]; simp
      have hnd := h.nodup
      rw [hq, List.nodup_append] at hnd
      have hel : e ∉ l := fun hh => hnd.2.2 e hh e (by simp) rfl
      have herase : c.q.erase e = l := by
        rw [hq, List.erase_append_right _ hel]; simp
      rw [hgl]
      refine ⟨_, rfl, ?_, ?_, rfl⟩
      · show (moveToFront c.q e).map (upd c.entry e (k, v)) = _
        rw [moveToFront, herase, List.map_cons, upd_same, map_upd_not_mem hel, Spec.put, remove_not_mem hnk, abs, hq,
          List.map_append]
        have hll : c.capacity = (l.map c.entry).length + 1 := by
          rw [← hlen, hq]; simp
        rw [hll, List.take_succ_cons, List.take_left' rfl]
      · have hmem : ∀ x, x ∈ moveToFront c.q e ↔ x ∈ c.q := fun x => mem_moveToFront he
        refine ⟨h.cap, ?_, nodup_moveToFront h.nodup, ?_, ?_, ?_⟩
        · show (moveToFront c.q e).length ≤ _
          rw [length_moveToFront he]; exact h.len
        · intro x hx; exact h.fresh x ((hmem x).1 hx)
        · intro k' e' hm'
          change upd (upd c.m (c.entry e).1 none) k (some e) k' = some e' at hm'
          show e' ∈ moveToFront c.q e ∧ (upd c.entry e (k, v) e').1 = k'
          by_cases hk : k' = k
          · subst hk
            rw [upd_same, Option.some.injEq] at hm'
            subst hm'
            exact ⟨(hmem _).2 he, by rw [upd_same]⟩
          · rw [upd_ne _ _ hk] at hm'
            by_cases hke : k' = (c.entry e).1
            · subst hke; rw [upd_same] at hm'; simp at hm'
            · rw [upd_ne _ _ hke] at hm'
              obtain ⟨h1, h2⟩ := h.sound k' e' hm'
              have hee : e' ≠ e := by rintro rfl; exact hke h2.symm
              rw [upd_ne _ _ hee]
              exact ⟨(hmem _).2 h1, h2⟩
        · intro x hx
          have hx' := (hmem x).1 hx
          show upd (upd c.m (c.entry e).1 none) k (some e) (upd c.entry e (k, v) x).1 = some x
          by_cases hxe : x = e
          · subst hxe; rw [upd_same]; exact upd_same _ _ _
          · rw [upd_ne _ _ hxe, upd_ne _ _ (hnk' x hx'),
              upd_ne _ _ (fun hh => hxe (h.keys_inj hx' he hh))]
            exact h.complete x hx'

theorem run_refines {c : Cache V} (h : Inv c) (ops : List (Op V)) :
    ∃ c', run c ops = some ((Spec.run c.capacity (abs c) ops).1, c') ∧
      abs c' = (Spec.run c.capacity (abs c) ops).2 ∧ Inv c' ∧ c'.capacity = c.capacity := by
  induction ops generalizing c with
  | nil => exact ⟨c, rfl, rfl, h, rfl⟩
  | cons op t ih =>
    cases op with
    | put k v =>
      obtain ⟨c1, e1, e2, e3, e4⟩ := put_refines h k v
      obtain ⟨c2, f1, f2, f3, f4⟩ := ih e3
      rw [e4, e2] at f1 f2
      refine ⟨c2, ?_, f2, f3, by rw [f4, e4]⟩
      rw [run, e1]; exact f1
    | get k =>
      obtain ⟨e1, e2, e3⟩ := get_refines h k
      obtain ⟨c2, f1, f2, f3, f4⟩ := ih e3
      have hcap : (get c k).2.capacity = c.capacity := by
        rw [get]; cases c.m k <;> rfl
      rw [hcap, e2] at f1 f2
      refine ⟨c2, ?_, f2, f3, by rw [f4, hcap]⟩
      rw [run, f1]; simp only [Option.map_some, e1]; rfl

theorem new_inv [Inhabited V] (capacity : Int) : Inv (new (V := V) capacity) := by
  refine ⟨?_, by simp [new], by simp [new], by simp [new], by simp [new], by simp [new]⟩
  simp only [new]; split <;> omega

/-- **C36** Every history of calls on a fresh cache gives exactly the results of the bounded LRU list
of the specification, whatever the capacity (below 1: 64), and never panics. -/
theorem C36_refines_lru [Inhabited V] (capacity : Int) (ops : List (Op V)) :
    ∃ c', run (new capacity) ops
      = some ((Spec.run (if capacity < 1 then 64 else capacity.toNat) [] ops).1, c') := by
  obtain ⟨c', h, -⟩ := run_refines (new_inv (V := V) capacity) ops
  exact ⟨c', h⟩

/-- **C36** After every history the cache holds at most `capacity` entries, and no two for one key. -/
theorem C36_bounded [Inhabited V] (capacity : Int) (ops : List (Op V)) (r : List (Option V)) (c' : Cache V)
    (h : run (new capacity) ops = some (r, c')) :
    c'.q.length ≤ (if capacity < 1 then 64 else capacity.toNat) ∧
      (c'.q.map fun e => (c'.entry e).1).Nodup := by
  obtain ⟨c2, h1, -, h3, h4⟩ := run_refines (new_inv (V := V) capacity) ops
  rw [h, Option.some.injEq, Prod.mk.injEq] at h1
  obtain ⟨-, rfl⟩ := h1
  refine ⟨?_, ?_⟩
  · have := h3.len; rw [h4] at this; exact this
  · rw [List.nodup_map_iff_inj_on h3.nodup]
    intro a ha b hb hab
    exact h3.keys_inj ha hb hab

/-! ## What the specification guarantees about retention -/

/-- the key a call uses -/
def Op.key : Op V → Bytes
  | .put k _ => k
  | .get k => k

/-- `k` is present with value `v`, and everything used more recently is among `used` -/
def Held (s : List (Bytes × V)) (k : Bytes) (v : V) (used : List Bytes) : Prop :=
  ∃ a b, s = a ++ (k, v) :: b ∧ (a.map (·.1)).Nodup ∧ (∀ p ∈ a, p.1 ≠ k ∧ p.1 ∈ used)

theorem remove_append (a b : List (Bytes × V)) (k : Bytes) :
    Spec.remove (a ++ b) k = Spec.remove a k ++ Spec.remove b k := by simp [Spec.remove]

theorem held_lookup {s : List (Bytes × V)} {k : Bytes} {v : V} {used : List Bytes} (h : Held s k v used) :
    Spec.lookup s k = some v := by
  obtain ⟨a, b, rfl, -, h2⟩ := h
  rw [Spec.lookup, List.find?_append]
  have : a.find? (fun p => p.1 = k) = none := by
    rw [List.find?_eq_none]; intro p hp; simpa using (h2 p hp).1
  rw [this]; simp

theorem held_touch {s : List (Bytes × V)} {k k' : Bytes} {v w : V} {used : List Bytes} (h : Held s k v used)
    (hk : k' ≠ k) : Held ((k', w) :: Spec.remove s k') k v (used.insert k') := by
  obtain ⟨a, b, rfl, h1, h2⟩ := h
  refine ⟨(k', w) :: Spec.remove a k', Spec.remove b k', ?_, ?_, ?_⟩
  · rw [remove_append]
    simp only [List.cons_append, List.cons.injEq, true_and]
    congr 1
    simp [Spec.remove, Ne.symm hk]
  · rw [List.map_cons, List.nodup_cons]
    constructor
    · rw [List.mem_map]
      rintro ⟨p, hp, hpk⟩
      rw [Spec.remove, List.mem_filter] at hp
      simp at hp
      exact hp.2 hpk
    · exact h1.sublist (List.Sublist.map _ List.filter_sublist)
  · intro p hp
    rcases List.mem_cons.1 hp with rfl | hp
    · exact ⟨hk, by simp⟩
    · have hp' : p ∈ a := List.mem_of_mem_filter hp
      exact ⟨(h2 p hp').1, List.mem_insert_iff.2 (Or.inr (h2 p hp').2)⟩

theorem held_take {s : List (Bytes × V)} {k : Bytes} {v : V} {used : List Bytes} {cap : Nat}
    (h : Held s k v used) (hu : used.length < cap) : Held (s.take cap) k v used := by
  obtain ⟨a, b, rfl, h1, h2⟩ := h
  have hla : a.length ≤ used.length := by
    have hsub : (a.map (·.1)) ⊆ used := by
      intro x hx
      obtain ⟨p, hp, rfl⟩ := List.mem_map.1 hx
      exact (h2 p hp).2
    have := (List.subperm_of_subset h1 hsub).length_le
    simpa using this
  refine ⟨a, b.take (cap - a.length - 1), ?_, h1, h2⟩
  rw [List.take_append, List.take_of_length_le (by omega)]
  congr 1
  rw [show cap - a.length = (cap - a.length - 1) + 1 by omega, List.take_succ_cons]
  rfl

/-- the distinct keys used by a history, other than `k` -/
def others (k : Bytes) (ops : List (Op V)) : List Bytes :=
  ops.foldl (fun u op => if op.key = k then u else u.insert op.key) []

theorem foldl_others_len (k : Bytes) (ops : List (Op V)) (u : List Bytes) :
    u.length ≤ (ops.foldl (fun u op => if op.key = k then u else u.insert op.key) u).length := by
  induction ops generalizing u with
  | nil => exact Nat.le_refl _
  | cons op t ih =>
    rw [List.foldl_cons]
    refine Nat.le_trans ?_ (ih _)
    split
    · exact Nat.le_refl _
    · by_cases hm : op.key ∈ u
      · rw [List.insert_of_mem hm]; exact Nat.le_refl _
      · rw [List.insert_of_not_mem hm]; simp

theorem held_run (cap : Nat) (k : Bytes) (v : V) (ops : List (Op V)) (hno : ∀ w, Op.put k w ∉ ops)
    (s : List (Bytes × V)) (u : List Bytes) (h : Held s k v u)
    (hu : (ops.foldl (fun u op => if op.key = k then u else u.insert op.key) u).length < cap) :
    ∃ u', Held (Spec.run cap s ops).2 k v u' := by
  induction ops generalizing s u with
  | nil => exact ⟨u, h⟩
  | cons op t ih =>
    have hno' : ∀ w, Op.put k w ∉ t := fun w hw => hno w (List.mem_cons_of_mem _ hw)
    rw [List.foldl_cons] at hu
    cases op with
    | put k' w =>
      have hk : k' ≠ k := by rintro rfl; exact hno w (by simp)
      have hkey : (Op.put k' w).key = k' := rfl
      rw [hkey, if_neg hk] at hu
      exact ih hno' _ _ (held_take (held_touch h hk) (by
        have := foldl_others_len k t (u.insert k'); omega)) hu
    | get k' =>
      have hkey : (Op.get (V := V) k').key = k' := rfl
      rw [hkey] at hu
      show ∃ u', Held (Spec.run cap (Spec.get s k').2 t).2 k v u'
      by_cases hk : k' = k
      · subst hk
        rw [if_pos rfl] at hu
        rw [Spec.get, held_lookup h]
        dsimp only
        refine ih hno' _ u ?_ hu
        exact ⟨[], _, rfl, by simp, by simp⟩
      · rw [if_neg hk] at hu
        rw [Spec.get]
        cases hl : Spec.lookup s k' with
        | none =>
          dsimp only
          refine ih hno' _ (u.insert k') ?_ hu
          obtain ⟨a, b, e, h1, h2⟩ := h
          exact ⟨a, b, e, h1, fun p hp => ⟨(h2 p hp).1, List.mem_insert_iff.2 (Or.inr (h2 p hp).2)⟩⟩
        | some w =>
          dsimp only
          exact ih hno' _ _ (held_touch h hk) hu

theorem run_append (cap : Nat) (s : List (Bytes × V)) (a b : List (Op V)) :
    Spec.run cap s (a ++ b) = ((Spec.run cap s a).1 ++ (Spec.run cap (Spec.run cap s a).2 b).1,
      (Spec.run cap (Spec.run cap s a).2 b).2) := by
  induction a generalizing s with
  | nil => rfl
  | cons op t ih =>
    cases op with
    | put k v => exact ih _
    | get k =>
      have h1 : Spec.run cap s (Op.get k :: t ++ b) = ((Spec.get s k).1 :: (Spec.run cap (Spec.get s k).2 (t ++ b)).1,
        (Spec.run cap (Spec.get s k).2 (t ++ b)).2) := rfl
      rw [h1, ih]; rfl

/-- **C36** Retention: a value `Put` for `k` is returned by the next `Get` of `k`, whatever came
before and whatever comes between, provided no other `Put` of `k` and fewer than `capacity` distinct
other keys come between. -/
theorem C36_retention [Inhabited V] (capacity : Int) (before between : List (Op V)) (k : Bytes) (v : V)
    (hno : ∀ w, Op.put k w ∉ between)
    (hfew : (others k between).length < (if capacity < 1 then 64 else capacity.toNat)) :
    ∃ r c', run (new capacity) (before ++ (Op.put k v :: between) ++ [Op.get k]) = some (r, c') ∧
      r.getLast? = some (some v) := by
  obtain ⟨c', h⟩ := C36_refines_lru (V := V) capacity (before ++ (Op.put k v :: between) ++ [Op.get k])
  refine ⟨_, c', h, ?_⟩
  generalize (if capacity < 1 then 64 else capacity.toNat) = cap at *
  rw [run_append, run_append]
  have hput : Spec.run cap (Spec.run cap [] before).2 (Op.put k v :: between)
      = Spec.run cap (Spec.put cap (Spec.run cap [] before).2 k v) between := rfl
  have hh : Held (Spec.put cap (Spec.run cap [] before).2 k v) k v [] :=
    held_take ⟨[], _, rfl, by simp, by simp⟩ (by simp; omega)
  obtain ⟨u', hu'⟩ := held_run cap k v between hno _ [] hh hfew
  rw [hput]
  have hl := held_lookup hu'
  generalize (Spec.run cap (Spec.put cap (Spec.run cap [] before).2 k v) between).2 = s at *
  show List.getLast? (_ ++ (Spec.run cap s [Op.get k]).1) = _
  have : (Spec.run cap s [Op.get k]).1 = [some v] := by
    show [(Spec.get s k).1] = _
    rw [Spec.get, hl]
  rw [this]; simp

/-- **C36** Eviction: in every reachable full cache, a `Put` of an absent key drops exactly the last
entry of the recency list, i.e. the least recently used one, and puts the new one first. -/
theorem C36_evicts_lru [Inhabited V] (capacity : Int) (ops : List (Op V)) (r : List (Option V)) (c : Cache V)
    (h : run (new capacity) ops = some (r, c)) (hfull : c.q.length = c.capacity) (k : Bytes) (v : V)
    (habs : k ∉ c.q.map fun e => (c.entry e).1) :
    ∃ c', put c k v = some c' ∧ c'.q.map c'.entry = (k, v) :: (c.q.map c.entry).dropLast := by
  obtain ⟨c2, h1, -, h3, h4⟩ := run_refines (new_inv (V := V) capacity) ops
  rw [h, Option.some.injEq, Prod.mk.injEq] at h1
  obtain ⟨-, rfl⟩ := h1
  obtain ⟨c', e1, e2, -⟩ := put_refines h3 k v
  refine ⟨c', e1, ?_⟩
  have hnew : ∀ p ∈ abs c, p.1 ≠ k := by
    intro p hp hpk
    obtain ⟨e, he, rfl⟩ := List.mem_map.1 hp
    exact habs (List.mem_map.2 ⟨e, he, hpk⟩)
  have hl : (abs c).length = c.capacity := by rw [abs, List.length_map, hfull]
  rw [show c'.q.map c'.entry = abs c' from rfl, e2, Spec.put, remove_not_mem hnew, show c.q.map c.entry = abs c from rfl,
    List.dropLast_eq_take, ← hl]
  have : 1 ≤ (abs c).length := by rw [hl]; exact h3.cap
  obtain ⟨n, hn⟩ : ∃ n, (abs c).length = n + 1 := ⟨_, (Nat.sub_add_cancel this).symm⟩
  rw [hn, List.take_succ_cons]; rfl

/-- a case meeting the hypotheses: capacity 2, one other key in between -/
example : ∃ r c', run (new (V := Nat) 2) ([.put [97] 1] ++ (Op.put [107] 7 :: [.get [97], .put [98] 3]) ++ [Op.get [107]]) = some (r, c')
    ∧ r = [some 1, none] := by
  exact ⟨_, _, rfl, by decide⟩

example : ∃ r c', run (new (V := Nat) 2) ([.put [97] 1] ++ (Op.put [107] 7 :: [.put [98] 3]) ++ [Op.get [107]]) = some (r, c')
    ∧ r.getLast? = some (some 7) :=
  C36_retention 2 _ _ _ _ (by simp) (by decide)

end Verif.Tls.Lru
