import Verif.Sm2.Asm.Half
/-!
The point routines are sequences of a dozen macros of `sm2p256_amd64.s` (`LDacc`, `LDt`, `ST`, `STt`, `acc2t`,
`t2acc`, the calls and the inline operations). `M` names them, `M.code` gives their instructions, `aexec` runs them
on whole 256-bit numbers, and `sound` says the instructions do what `aexec` does.
-/
namespace Verif.Sm2.Asm

/-- the macros; the index is that of a 32-byte slot of the stack frame -/
inductive M
  | ldA (i : Nat) | ldT (i : Nat) | stA (i : Nat) | stT (i : Nat) | mul | sqr | sub | dbl | add | half | a2t | t2a

abbrev accR : List Reg := [.R10, .R11, .R12, .R13]
abbrev tR : List Reg := [.R14, .R15, .DI, .SI]

/-- four words to the stack -/
def stS (o : Nat) (a b c d : Reg) : List Instr :=
  [.movq (.reg a) (.stk o), .movq (.reg b) (.stk (o + 8)), .movq (.reg c) (.stk (o + 16)), .movq (.reg d) (.stk (o + 24))]

/-- the instructions of a macro -/
def M.code : M → List Instr
  | .ldA i => movs [(.stk (32 * i), .R10), (.stk (32 * i + 8), .R11), (.stk (32 * i + 16), .R12), (.stk (32 * i + 24), .R13)]
  | .ldT i => movs [(.stk (32 * i), .R14), (.stk (32 * i + 8), .R15), (.stk (32 * i + 16), .DI), (.stk (32 * i + 24), .SI)]
  | .stA i => stS (32 * i) .R10 .R11 .R12 .R13
  | .stT i => stS (32 * i) .R14 .R15 .DI .SI
  | .mul => p256GmMulInternal
  | .sqr => p256GmSqrInternal
  | .sub => p256GmSubInternal
  | .dbl => dblC
  | .add => addC
  | .half => halfC
  | .a2t => movs [(.reg .R10, .R14), (.reg .R11, .R15), (.reg .R12, .DI), (.reg .R13, .SI)]
  | .t2a => movs [(.reg .R14, .R10), (.reg .R15, .R11), (.reg .DI, .R12), (.reg .SI, .R13)]

/-- the instructions of a sequence of macros -/
def code : List M → List Instr
  | [] => []
  | m :: l => m.code ++ code l

/-- what is known of the state between macros -/
structure Abs where
  a : Option Nat
  t : Option Nat
  sl : Nat → Option Nat

/-- a macro on whole numbers, with `K` slots; undefined if it reads an undefined operand -/
def astep (K : Nat) : M → Abs → Option Abs
  | .ldA i, A => if i < K then (A.sl i).bind fun v => some { A with a := some v } else none
  | .ldT i, A => if i < K then (A.sl i).bind fun v => some { A with t := some v } else none
  | .stA i, A => if i < K then A.a.bind fun v => some { A with sl := upd A.sl i (some v) } else none
  | .stT i, A => if i < K then A.t.bind fun v => some { A with sl := upd A.sl i (some v) } else none
  | .mul, A => A.a.bind fun x => A.t.bind fun y => some { A with a := some (mulI x y) }
  | .sqr, A => A.a.bind fun x => some { A with a := some (mulI x x), t := none }
  | .sub, A => A.a.bind fun x => A.t.bind fun y => some { A with a := some (subI x y) }
  | .dbl, A => A.a.bind fun x => some { A with a := none, t := some (condSub (x + x)) }
  | .add, A => A.a.bind fun x => A.t.bind fun y => some { A with a := none, t := some (condSub (x + y)) }
  | .half, A => A.a.bind fun x => some { A with a := some (halfI x), t := none }
  | .a2t, A => A.a.bind fun x => some { A with t := some x }
  | .t2a, A => A.t.bind fun x => some { A with a := some x }

def aexec (K : Nat) : List M → Abs → Option Abs
  | [], A => some A
  | m :: l, A => (astep K m A).bind (aexec K l)

/-- `s` holds the numbers of `A`, and differs from `s0` only in registers and the first `K` slots -/
structure Rel (K : Nat) (s0 s : St) (A : Abs) : Prop where
  a : ∀ v, A.a = some v → val s accR = v ∧ Wd s accR
  t : ∀ v, A.t = some v → val s tR = v ∧ Wd s tR
  sl : ∀ i v, i < K → A.sl i = some v → ld4 s.stk (32 * i) = v ∧ Words s.stk (32 * i)
  heap : s.heap = s0.heap
  args : s.args = s0.args
  stk : ∀ o, 32 * K ≤ o → s.stk o = s0.stk o

theorem Rel.same {K : Nat} {s0 s s' : St} {A : Abs} {l : List Reg} (h : Rel K s0 s A) (k : Same l s s') {oa ot : Option Nat}
    (ha : ∀ v, oa = some v → val s' accR = v ∧ Wd s' accR) (ht : ∀ v, ot = some v → val s' tR = v ∧ Wd s' tR) :
    Rel K s0 s' { A with a := oa, t := ot } where
  a := ha
  t := ht
  sl := by rw [k.2.2.1]; exact h.sl
  heap := k.2.1.trans h.heap
  args := k.2.2.2.1.trans h.args
  stk := by rw [k.2.2.1]; exact h.stk

theorem Rel.keepT {K : Nat} {s0 s s' : St} {A : Abs} {l : List Reg} (h : Rel K s0 s A) (k : Same l s s') (hl : ∀ r ∈ tR, r ∉ l) :
    ∀ v, A.t = some v → val s' tR = v ∧ Wd s' tR := fun v hv => ⟨(k.val hl).trans (h.t v hv).1, k.wd hl (h.t v hv).2⟩

theorem Rel.keepA {K : Nat} {s0 s s' : St} {A : Abs} {l : List Reg} (h : Rel K s0 s A) (k : Same l s s') (hl : ∀ r ∈ accR, r ∉ l) :
    ∀ v, A.a = some v → val s' accR = v ∧ Wd s' accR := fun v hv => ⟨(k.val hl).trans (h.a v hv).1, k.wd hl (h.a v hv).2⟩

theorem stS_spec (o : Nat) (a b c d : Reg) (s : St) : ld4 (exec (stS o a b c d) s).stk o = val s [a, b, c, d] ∧
    (∀ x, x < o ∨ o + 32 ≤ x → (exec (stS o a b c d) s).stk x = s.stk x) ∧ (Wd s [a, b, c, d] → Words (exec (stS o a b c d) s).stk o) ∧
    (exec (stS o a b c d) s).r = s.r ∧ (exec (stS o a b c d) s).heap = s.heap ∧ (exec (stS o a b c d) s).args = s.args := by
  simp only [stS, exec_cons, exec_nil, step, St.put, get_reg, val, ld4, Nat.mul_zero, Nat.add_zero]
  refine ⟨?_, ?_, ?_, trivial, trivial, trivial⟩
  · simp only [upd_apply, Nat.left_eq_add, Nat.add_left_cancel_iff, Nat.reduceEqDiff, if_true, if_false, Nat.add_eq_left, OfNat.ofNat_ne_zero]
  · intro x h
    simp only [upd_apply]
    rw [if_neg (by omega), if_neg (by omega), if_neg (by omega), if_neg (by omega)]
  · intro w
    simp only [Words, upd_apply, Nat.left_eq_add, Nat.add_left_cancel_iff, Nat.reduceEqDiff, if_true, if_false, Nat.add_eq_left, OfNat.ofNat_ne_zero]
    exact ⟨w.head, w.tail.head, w.tail.tail.head, w.tail.tail.tail.head⟩

theorem ld4_eq {h h' : Nat → Nat} {a : Nat} (e : ∀ o, a ≤ o → o < a + 32 → h' o = h o) : ld4 h' a = ld4 h a ∧ (Words h a → Words h' a) := by
  have e0 := e a (by omega) (by omega)
  have e1 := e (a + 8) (by omega) (by omega)
  have e2 := e (a + 16) (by omega) (by omega)
  have e3 := e (a + 24) (by omega) (by omega)
  simp only [ld4, Words, e0, e1, e2, e3, imp_self, and_self]

theorem Rel.store {K : Nat} {s0 s : St} {A : Abs} (h : Rel K s0 s A) (i : Nat) (hi : i < K) (a b c d : Reg) (v : Nat)
    (hv : val s [a, b, c, d] = v ∧ Wd s [a, b, c, d]) : Rel K s0 (exec (stS (32 * i) a b c d) s) { A with sl := upd A.sl i (some v) } := by
  obtain ⟨k1, k2, k3, k4, k5, k6⟩ := stS_spec (32 * i) a b c d s
  have hr : ∀ l : List Reg, val (exec (stS (32 * i) a b c d) s) l = val s l := by
    intro l
    induction l with
    | nil => rfl
    | cons r l ih => simp only [val, k4, ih]
  have hw : ∀ l : List Reg, Wd s l → Wd (exec (stS (32 * i) a b c d) s) l := by
    intro l w r hr
    rw [k4]; exact w r hr
  refine ⟨fun v hv => ⟨(hr _).trans (h.a v hv).1, hw _ (h.a v hv).2⟩, fun v hv => ⟨(hr _).trans (h.t v hv).1, hw _ (h.t v hv).2⟩, ?_, k5.trans h.heap, k6.trans h.args, ?_⟩
  · intro j w hj hs
    simp only [upd_apply] at hs
    by_cases e : j = i
    · subst e
      rw [if_pos rfl] at hs
      cases hs
      exact ⟨k1.trans hv.1, k3 hv.2⟩
    · rw [if_neg e] at hs
      obtain ⟨p1, p2⟩ := h.sl j w hj hs
      obtain ⟨q1, q2⟩ := ld4_eq (h := s.stk) (h' := (exec (stS (32 * i) a b c d) s).stk) (a := 32 * j) (by
        intro o h1 h2
        exact k2 o (by omega))
      exact ⟨q1.trans p1, q2 p2⟩
  · intro o ho
    rw [k2 o (by omega)]
    exact h.stk o ho

theorem sound_step {K : Nat} {m : M} {s0 s : St} {A A' : Abs} (h : Rel K s0 s A) (e : astep K m A = some A') : Rel K s0 (exec m.code s) A' := by
  cases m with
  | ldA i =>
    simp only [astep] at e
    split at e
    · next hi =>
      simp only [Option.bind_eq_some_iff, Option.some.injEq] at e
      obtain ⟨v, hv, rfl⟩ := e
      obtain ⟨p1, p2, p3, p4, p5⟩ := h.sl i v hi hv
      obtain ⟨k1, -, k2, k3⟩ := movs_spec [(.stk (32 * i), .R10), (.stk (32 * i + 8), .R11), (.stk (32 * i + 16), .R12), (.stk (32 * i + 24), .R13)] s
        (by simp only [Clean, List.mem_cons, List.not_mem_nil, or_false, forall_eq_or_imp, forall_eq, Src.avoids, ne_eq, reduceCtorEq, not_false_eq_true, and_self, false_imp_iff, implies_true])
      replace k2 := k2 (by bnd; exact ⟨p2, p3, p4, p5⟩)
      rw [show (M.ldA i).code = movs [(.stk (32 * i), .R10), (.stk (32 * i + 8), .R11), (.stk (32 * i + 16), .R12), (.stk (32 * i + 24), .R13)] from rfl]
      refine h.same k3 (fun w hw => ?_) (h.keepT k3 (by simp only [List.map_cons, List.map_nil]; decide))
      cases hw
      refine ⟨?_, k2⟩
      rw [← p1, ld4]
      exact k1
    · cases e
  | ldT i =>
    simp only [astep] at e
    split at e
    · next hi =>
      simp only [Option.bind_eq_some_iff, Option.some.injEq] at e
      obtain ⟨v, hv, rfl⟩ := e
      obtain ⟨p1, p2, p3, p4, p5⟩ := h.sl i v hi hv
      obtain ⟨k1, -, k2, k3⟩ := movs_spec [(.stk (32 * i), .R14), (.stk (32 * i + 8), .R15), (.stk (32 * i + 16), .DI), (.stk (32 * i + 24), .SI)] s
        (by simp only [Clean, List.mem_cons, List.not_mem_nil, or_false, forall_eq_or_imp, forall_eq, Src.avoids, ne_eq, reduceCtorEq, not_false_eq_true, and_self, false_imp_iff, implies_true])
      replace k2 := k2 (by bnd; exact ⟨p2, p3, p4, p5⟩)
      rw [show (M.ldT i).code = movs [(.stk (32 * i), .R14), (.stk (32 * i + 8), .R15), (.stk (32 * i + 16), .DI), (.stk (32 * i + 24), .SI)] from rfl]
      refine h.same k3 (h.keepA k3 (by simp only [List.map_cons, List.map_nil]; decide)) (fun w hw => ?_)
      cases hw
      refine ⟨?_, k2⟩
      rw [← p1, ld4]
      exact k1
    · cases e
  | stA i =>
    simp only [astep] at e
    split at e
    · next hi =>
      simp only [Option.bind_eq_some_iff, Option.some.injEq] at e
      obtain ⟨v, hv, rfl⟩ := e
      exact h.store i hi _ _ _ _ v (h.a v hv)
    · cases e
  | stT i =>
    simp only [astep] at e
    split at e
    · next hi =>
      simp only [Option.bind_eq_some_iff, Option.some.injEq] at e
      obtain ⟨v, hv, rfl⟩ := e
      exact h.store i hi _ _ _ _ v (h.t v hv)
    · cases e
  | mul =>
    simp only [astep, Option.bind_eq_some_iff, Option.some.injEq] at e
    obtain ⟨x, hx, y, hy, rfl⟩ := e
    obtain ⟨k1, k2, k3⟩ := mulInternal_exec s (h.a x hx).2 (h.t y hy).2
    refine h.same k3 (fun w hw => ?_) (h.keepT k3 (by decide))
    cases hw
    refine ⟨?_, k2⟩
    rw [← (h.a x hx).1, ← (h.t y hy).1]
    exact k1
  | sqr =>
    simp only [astep, Option.bind_eq_some_iff, Option.some.injEq] at e
    obtain ⟨x, hx, rfl⟩ := e
    obtain ⟨k1, k2, -, k3⟩ := sqrInternal_exec s (h.a x hx).2
    refine h.same k3 (fun w hw => ?_) (fun w hw => by cases hw)
    cases hw
    refine ⟨?_, k2⟩
    rw [← (h.a x hx).1]
    exact k1
  | sub =>
    simp only [astep, Option.bind_eq_some_iff, Option.some.injEq] at e
    obtain ⟨x, hx, y, hy, rfl⟩ := e
    obtain ⟨k1, k2, k3⟩ := subInternal_exec s (h.a x hx).2 (h.t y hy).2
    refine h.same k3 (fun w hw => ?_) (h.keepT k3 (by decide))
    cases hw
    refine ⟨?_, k2⟩
    rw [← (h.a x hx).1, ← (h.t y hy).1]
    exact k1
  | dbl =>
    simp only [astep, Option.bind_eq_some_iff, Option.some.injEq] at e
    obtain ⟨x, hx, rfl⟩ := e
    obtain ⟨k1, k2, k3⟩ := dblC_exec s (h.a x hx).2
    refine h.same k3 (fun w hw => by cases hw) (fun w hw => ?_)
    cases hw
    refine ⟨?_, k2⟩
    rw [← (h.a x hx).1]
    exact k1
  | add =>
    simp only [astep, Option.bind_eq_some_iff, Option.some.injEq] at e
    obtain ⟨x, hx, y, hy, rfl⟩ := e
    obtain ⟨k1, k2, k3⟩ := addC_exec s (h.a x hx).2 (h.t y hy).2
    refine h.same k3 (fun w hw => by cases hw) (fun w hw => ?_)
    cases hw
    refine ⟨?_, k2⟩
    rw [← (h.a x hx).1, ← (h.t y hy).1]
    exact k1
  | half =>
    simp only [astep, Option.bind_eq_some_iff, Option.some.injEq] at e
    obtain ⟨x, hx, rfl⟩ := e
    obtain ⟨k1, k2, -, k3⟩ := halfC_exec s (h.a x hx).2
    refine h.same k3 (fun w hw => ?_) (fun w hw => by cases hw)
    cases hw
    refine ⟨?_, k2⟩
    rw [← (h.a x hx).1]
    exact k1
  | a2t =>
    simp only [astep, Option.bind_eq_some_iff, Option.some.injEq] at e
    obtain ⟨x, hx, rfl⟩ := e
    obtain ⟨p1, p2⟩ := h.a x hx
    obtain ⟨k1, -, k2, k3⟩ := movs_spec [(.reg .R10, .R14), (.reg .R11, .R15), (.reg .R12, .DI), (.reg .R13, .SI)] s (by decide)
    replace k2 := k2 (by bnd; exact ⟨p2.head, p2.tail.head, p2.tail.tail.head, p2.tail.tail.tail.head⟩)
    rw [show M.a2t.code = movs [(.reg .R10, .R14), (.reg .R11, .R15), (.reg .R12, .DI), (.reg .R13, .SI)] from rfl]
    refine h.same k3 (h.keepA k3 (by simp only [List.map_cons, List.map_nil]; decide)) (fun w hw => ?_)
    cases hw
    refine ⟨?_, k2⟩
    rw [← p1]
    exact k1
  | t2a =>
    simp only [astep, Option.bind_eq_some_iff, Option.some.injEq] at e
    obtain ⟨x, hx, rfl⟩ := e
    obtain ⟨p1, p2⟩ := h.t x hx
    obtain ⟨k1, -, k2, k3⟩ := movs_spec [(.reg .R14, .R10), (.reg .R15, .R11), (.reg .DI, .R12), (.reg .SI, .R13)] s (by decide)
    replace k2 := k2 (by bnd; exact ⟨p2.head, p2.tail.head, p2.tail.tail.head, p2.tail.tail.tail.head⟩)
    rw [show M.t2a.code = movs [(.reg .R14, .R10), (.reg .R15, .R11), (.reg .DI, .R12), (.reg .SI, .R13)] from rfl]
    refine h.same k3 (fun w hw => ?_) (h.keepT k3 (by simp only [List.map_cons, List.map_nil]; decide))
    cases hw
    refine ⟨?_, k2⟩
    rw [← p1]
    exact k1

/-- the instructions of a sequence of macros do what `aexec` does -/
theorem sound {K : Nat} (l : List M) : ∀ {s0 s : St} {A A' : Abs}, Rel K s0 s A → aexec K l A = some A' → Rel K s0 (exec (code l) s) A' := by
  induction l with
  | nil => intro s0 s A A' h e; cases e; exact h
  | cons m l ih =>
    intro s0 s A A' h e
    rw [aexec, Option.bind_eq_some_iff] at e
    obtain ⟨A1, e1, e2⟩ := e
    rw [code, exec_append]
    exact ih (sound_step h e1) e2

end Verif.Sm2.Asm
