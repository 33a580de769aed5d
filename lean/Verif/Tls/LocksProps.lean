import Verif.Tls.Locks
/-!
C121: concurrent use of a connection never deadlocks and runs one handshake at a time. C122: sequence numbers under concurrency.
-/
namespace Verif.Tls.Locks
open Relation

variable {n : Nat}

/-- the section a record is sent in, if any -/
@[grind] def sndSec : Snd → Option Sec
  | .sec x => some x
  | _ => none

/-- the section a goroutine is in -/
@[grind] def secOf : PC → Option Sec
  | .run x => some x
  | .outWant d => sndSec d
  | .outIn d => sndSec d
  | .outMid d _ _ => sndSec d
  | .outRel d _ => sndSec d
  | .rawMid x _ _ => some x
  | _ => none

@[grind] def secHm : Sec → Bool
  | .read => false
  | _ => true

@[grind] def sndHm : Snd → Bool
  | .sec x => secHm x
  | _ => false

@[grind] def holdsHm : PC → Bool
  | .hCheck _ => true
  | .hWantIn _ => true
  | .hRel2 _ _ => true
  | .hRel1 _ _ => true
  | .rReset => true
  | .rEnd _ => true
  | .sIn => true
  | .run x => secHm x
  | .outWant d => sndHm d
  | .outIn d => sndHm d
  | .outMid d _ _ => sndHm d
  | .outRel d _ => sndHm d
  | .rawMid x _ _ => secHm x
  | _ => false

@[grind] def holdsIn : PC → Bool
  | .hRel2 _ _ => true
  | .rWantHm => true
  | .rReset => true
  | .rEnd _ => true
  | .rRel _ => true
  | .run _ => true
  | .outWant d => (sndSec d).isSome
  | .outIn d => (sndSec d).isSome
  | .outMid d _ _ => (sndSec d).isSome
  | .outRel d _ => (sndSec d).isSome
  | .rawMid _ _ _ => true
  | _ => false

@[grind] def holdsOut : PC → Bool
  | .outIn _ => true
  | .outMid _ _ _ => true
  | .outRel _ _ => true
  | .wChk => true
  | _ => false

/-- a first handshake is running -/
@[grind] def inInit (p : PC) : Bool := match secOf p with
  | some (.hs _) => true
  | _ => false
/-- a renegotiation is running -/
@[grind] def inReneg (p : PC) : Bool := secOf p = some .reneg

/-- what is known in a section -/
@[grind] def SecOk (once complete err : Bool) : Sec → Prop
  | .hs _ => once = false ∧ err = false
  | .read => once = true
  | .reneg => once = true ∧ complete = false ∧ err = false

/-- what is known where a record is sent -/
@[grind] def SndOk (once complete err : Bool) : Snd → Prop
  | .sec x => SecOk once complete err x
  | .write => once = true
  | .notify _ => True

/-- what is known where -/
@[grind] def PcOk (once complete err : Bool) : PC → Prop
  | .run x => SecOk once complete err x
  | .rawMid x _ _ => SecOk once complete err x
  | .outWant d => SndOk once complete err d
  | .outIn d => SndOk once complete err d
  | .outMid d _ _ => SndOk once complete err d
  | .outRel d _ => SndOk once complete err d
  | .hWantIn _ => once = false ∧ err = false
  | .hRel2 _ b => if b then once = true else err = true
  | .hRel1 _ b => if b then once = true else err = true
  | .rWant => once = true
  | .rWantHm => once = true ∧ complete = true
  | .rReset => once = true ∧ complete = true
  | .rEnd b => once = true ∧ (b = false → err = true)
  | .rRel _ => once = true
  | .wChk => once = true
  | _ => True

structure Inv (s : St n) : Prop where
  hm : ∀ t, holdsHm (s.pc t) = true ↔ s.hm = some t
  inp : ∀ t, holdsIn (s.pc t) = true ↔ s.inp = some t
  out : ∀ t, holdsOut (s.pc t) = true ↔ s.out = some t
  comp : s.complete = true → s.once = true ∧ s.err = false
  reneg : s.once = true → s.complete = false → s.err = false → ∃ t, inReneg (s.pc t) = true
  pcs : ∀ t, PcOk s.once s.complete s.err (s.pc t)
  inits : s.inits ≤ 1
  inits1 : s.inits = 1 → s.once = true ∨ s.err = true ∨ ∃ t, inInit (s.pc t) = true
  rets : ∀ t c, (t, c, Ret.ok) ∈ s.rets → (c = .handshake ∨ c = .read ∨ c = .write) → s.once = true

theorem inv_init : Inv (init n) := by
  constructor <;> simp [init, holdsHm, holdsIn, holdsOut, PcOk]

theorem hm_step {s s' : St n} {raw : Bool} {t : Fin n} (h : ∀ t, holdsHm (s.pc t) = true ↔ s.hm = some t) (k : Step raw t s s') :
    ∀ t, holdsHm (s'.pc t) = true ↔ s'.hm = some t := by
  intro u
  have h1 := h u
  have h2 := h t
  cases k <;> simp only [St.goto, St.ret] at * <;> grind

theorem in_step {s s' : St n} {raw : Bool} {t : Fin n} (h : ∀ t, holdsIn (s.pc t) = true ↔ s.inp = some t) (k : Step raw t s s') :
    ∀ t, holdsIn (s'.pc t) = true ↔ s'.inp = some t := by
  intro u
  have h1 := h u
  have h2 := h t
  cases k <;> simp only [St.goto, St.ret] at * <;> grind

theorem out_step {s s' : St n} {raw : Bool} {t : Fin n} (h : ∀ t, holdsOut (s.pc t) = true ↔ s.out = some t) (k : Step raw t s s') :
    ∀ t, holdsOut (s'.pc t) = true ↔ s'.out = some t := by
  intro u
  have h1 := h u
  have h2 := h t
  cases k <;> simp only [St.goto, St.ret] at * <;> grind

theorem comp_step {s s' : St n} {raw : Bool} {t : Fin n} (I : Inv s) (k : Step raw t s s') :
    s'.complete = true → s'.once = true ∧ s'.err = false := by
  have h1 := I.comp
  have h2 := I.pcs t
  cases k <;> simp only [St.goto, St.ret] at * <;> grind

/-- two goroutines do not hold one lock -/
theorem excl {P : PC → Bool} {l : Option (Fin n)} {s : St n} (h : ∀ t, P (s.pc t) = true ↔ l = some t) {t u : Fin n}
    (ht : P (s.pc t) = true) (hu : P (s.pc u) = true) : t = u := by
  have a := (h t).1 ht
  have b := (h u).1 hu
  rw [a] at b
  exact Option.some.inj b

theorem inReneg_hm {p : PC} (h : inReneg p = true) : holdsHm p = true := by
  revert h
  cases p with
  | run x => cases x <;> simp [inReneg, secOf, holdsHm, secHm]
  | rawMid x => cases x <;> simp [inReneg, secOf, holdsHm, secHm]
  | outWant d => cases d <;> grind
  | outIn d => cases d <;> grind
  | outMid d => cases d <;> grind
  | outRel d => cases d <;> grind
  | _ => simp [inReneg, secOf]

theorem inInit_hm {p : PC} (h : inInit p = true) : holdsHm p = true := by
  revert h
  cases p with
  | run x => cases x <;> simp [inInit, secOf, holdsHm, secHm]
  | rawMid x => cases x <;> simp [inInit, secOf, holdsHm, secHm]
  | outWant d => cases d <;> grind
  | outIn d => cases d <;> grind
  | outMid d => cases d <;> grind
  | outRel d => cases d <;> grind
  | _ => simp [inInit, secOf]

/-- where something is known that a handshake could change, one of the two locks it holds is held -/
theorem pcOk_stable {p : PC} {a b c a' b' c' : Bool} (h : PcOk a b c p) (h1 : holdsHm p = false) (h2 : holdsIn p = false) (ha : a = true → a' = true)
    : PcOk a' b' c' p := by
  cases p with
  | run x => cases x <;> grind
  | rawMid x => cases x <;> grind
  | outWant d => cases d <;> grind
  | outIn d => cases d <;> grind
  | outMid d => cases d <;> grind
  | outRel d => cases d <;> grind
  | hRel2 k b => cases b <;> grind
  | hRel1 k b => cases b <;> grind
  | _ => grind

theorem pcs_step {s s' : St n} {raw : Bool} {t : Fin n} (I : Inv s) (k : Step raw t s s') : ∀ t, PcOk s'.once s'.complete s'.err (s'.pc t) := by
  intro u
  have h1 := I.pcs t
  have h2 : PcOk s.once s.complete s.err (s.pc u) := I.pcs u
  have h3 := I.comp
  have e1 : holdsHm (s.pc t) = true → holdsHm (s.pc u) = true → t = u := excl I.hm
  have e2 : holdsIn (s.pc t) = true → holdsIn (s.pc u) = true → t = u := excl I.inp
  have e3 := I.reneg
  have e4 : ∀ v, inReneg (s.pc v) = true → holdsHm (s.pc t) = true → t = v := by
    intro v hv ht
    exact excl I.hm ht (inReneg_hm hv)
  by_cases hu : u = t
  · subst hu
    cases k <;> simp only [St.goto, St.ret] at * <;> grind
  · have key : holdsHm (s.pc t) = true → holdsIn (s.pc t) = true → holdsHm (s.pc u) = false ∧ holdsIn (s.pc u) = false :=
      fun a b => ⟨by grind, by grind⟩
    cases k <;> simp only [St.goto, St.ret, if_neg hu] at * <;> first | exact h2 | exact pcOk_stable h2 (key (by grind) (by grind)).1 (key (by grind) (by grind)).2 (by simp)

theorem reneg_step {s s' : St n} {raw : Bool} {t : Fin n} (I : Inv s) (k : Step raw t s s') :
    s'.once = true → s'.complete = false → s'.err = false → ∃ t, inReneg (s'.pc t) = true := by
  intro a b c
  have h1 := I.pcs t
  have h2 := I.comp
  by_cases hr : ∃ v, v ≠ t ∧ inReneg (s.pc v) = true
  · obtain ⟨v, hv, hw⟩ := hr
    refine ⟨v, ?_⟩
    cases k <;> simp only [St.goto, St.ret, if_neg hv] at * <;> exact hw
  · have hr' : ∀ v, inReneg (s.pc v) = true → v = t := fun v hv => Classical.byContradiction fun hne => hr ⟨v, hne, hv⟩
    have e3 := I.reneg
    refine ⟨t, ?_⟩
    have h3 : s.once = true → s.complete = false → s.err = false → inReneg (s.pc t) = true := fun a b c => by
      obtain ⟨v, hv⟩ := e3 a b c
      rw [← hr' v hv]
      exact hv
    cases k <;> simp only [St.goto, St.ret, if_true] at * <;> grind

theorem inits_step {s s' : St n} {raw : Bool} {t : Fin n} (I : Inv s) (k : Step raw t s s') : s'.inits ≤ 1 := by
  have h1 := I.pcs t
  have h2 := I.inits
  have h3 := I.inits1
  have e4 : ∀ v, inInit (s.pc v) = true → holdsHm (s.pc t) = true → t = v := fun v hv ht => excl I.hm ht (inInit_hm hv)
  cases k <;> simp only [St.goto, St.ret] at * <;> grind

theorem inits1_step {s s' : St n} {raw : Bool} {t : Fin n} (I : Inv s) (k : Step raw t s s') :
    s'.inits = 1 → s'.once = true ∨ s'.err = true ∨ ∃ t, inInit (s'.pc t) = true := by
  intro a
  have h1 := I.pcs t
  have h2 := I.inits
  by_cases hr : ∃ v, v ≠ t ∧ inInit (s.pc v) = true
  · obtain ⟨v, hv, hw⟩ := hr
    have h3 := I.inits1
    have h4 : holdsHm (s.pc t) = true → False := fun ht => hv (excl I.hm ht (inInit_hm hw)).symm
    cases k <;> simp only [St.goto, St.ret] at * <;> first | exact .inr (.inr ⟨v, by simp only [if_neg hv]; exact hw⟩) | grind
  · have hr' : ∀ v, inInit (s.pc v) = true → v = t := fun v hv => Classical.byContradiction fun hne => hr ⟨v, hne, hv⟩
    have h3 : s.inits = 1 → s.once = true ∨ s.err = true ∨ inInit (s.pc t) = true := fun a => by
      rcases I.inits1 a with h | h | ⟨v, hv⟩
      · exact .inl h
      · exact .inr (.inl h)
      · rw [hr' v hv] at hv
        exact .inr (.inr hv)
    have goal : s'.once = true ∨ s'.err = true ∨ inInit (s'.pc t) = true := by
      cases k <;> simp only [St.goto, St.ret, if_true] at * <;> grind
    rcases goal with h | h | h
    · exact .inl h
    · exact .inr (.inl h)
    · exact .inr (.inr ⟨t, h⟩)

theorem rets_step {s s' : St n} {raw : Bool} {t : Fin n} (I : Inv s) (k : Step raw t s s') :
    ∀ u c, (u, c, Ret.ok) ∈ s'.rets → (c = .handshake ∨ c = .read ∨ c = .write) → s'.once = true := by
  intro u c hm hc
  have h1 := I.pcs t
  have h2 := I.rets u c
  cases k <;> simp only [St.goto, St.ret, List.mem_append, List.mem_singleton, Prod.mk.injEq] at * <;> grind

theorem inv_step {s s' : St n} {raw : Bool} {t : Fin n} (I : Inv s) (k : Step raw t s s') : Inv s' :=
  ⟨hm_step I.hm k, in_step I.inp k, out_step I.out k, comp_step I k, reneg_step I k, pcs_step I k, inits_step I k, inits1_step I k, rets_step I k⟩

theorem inv_steps {s s' : St n} {raw : Bool} (I : Inv s) (k : Steps raw s s') : Inv s' := by
  induction k with
  | refl => exact I
  | tail _ k ih => exact inv_step ih k

theorem inv {s : St n} {raw : Bool} (h : Reachable raw s) : Inv s := inv_steps inv_init h

/-! ### C121 -/

/-- how long a goroutine may have to wait -/
def rank : PC → Nat
  | .outWant _ => 1
  | .hWantIn _ => 1
  | .hWant _ => 2
  | .sWant => 2
  | .rWantHm => 2
  | .rWant => 3
  | _ => 0

theorem in_free {s : St n} (I : Inv s) {t : Fin n} {k : Cont} (h : s.pc t = .hWantIn k) : s.inp = none := by
  cases hi : s.inp with
  | none => rfl
  | some u =>
    have hu := (I.inp u).2 hi
    have ht : holdsHm (s.pc t) = true := by rw [h]; rfl
    have h1 := I.pcs t
    have h2 := I.pcs u
    have e1 : holdsHm (s.pc u) = true → u = t := fun x => excl I.hm x ht
    rw [h] at h1 ht
    exfalso
    cases hp : s.pc u with
    | run x => cases x <;> grind
    | rawMid x => cases x <;> grind
    | outWant d => cases d with
      | sec x => cases x <;> grind
      | _ => grind
    | outIn d => cases d with
      | sec x => cases x <;> grind
      | _ => grind
    | outMid d => cases d with
      | sec x => cases x <;> grind
      | _ => grind
    | outRel d => cases d with
      | sec x => cases x <;> grind
      | _ => grind
    | _ => grind

theorem waits_rank {s : St n} (I : Inv s) {t u : Fin n} (h : Waits s t u) : rank (s.pc u) < rank (s.pc t) := by
  rcases h with ⟨hp, hl⟩ | ⟨hp, hl⟩ | ⟨⟨d, hp⟩, hl⟩
  · have hu := (I.hm u).2 hl
    have ht : rank (s.pc t) = 2 := by rcases hp with ⟨k, hp⟩ | hp | hp <;> rw [hp] <;> rfl
    rw [ht]
    revert hu
    cases s.pc u <;> simp [holdsHm, rank]
  · rcases hp with ⟨k, hp⟩ | hp
    · rw [in_free I hp] at hl
      cases hl
    · have hu := (I.inp u).2 hl
      rw [hp]
      revert hu
      cases s.pc u <;> simp [holdsIn, rank]
  · have hu := (I.out u).2 hl
    rw [hp]
    revert hu
    cases s.pc u <;> simp [holdsOut, rank]

/-- a goroutine inside a call that waits for nobody can go on -/
theorem can_step {s : St n} (I : Inv s) (raw : Bool) {t : Fin n} (h : s.pc t ≠ .idle) (hw : ∀ u, ¬ Waits s t u) :
    ∃ s', Step raw t s s' ∧ s'.pc t ≠ s.pc t := by
  have free1 : ((∃ k, s.pc t = .hWant k) ∨ s.pc t = .rWantHm ∨ s.pc t = .sWant) → s.hm = none := fun hp => by
    cases hl : s.hm with
    | none => rfl
    | some u => exact absurd (.inl ⟨hp, hl⟩) (hw u)
  have free2 : ((∃ k, s.pc t = .hWantIn k) ∨ s.pc t = .rWant) → s.inp = none := fun hp => by
    cases hl : s.inp with
    | none => rfl
    | some u => exact absurd (.inr (.inl ⟨hp, hl⟩)) (hw u)
  have free3 : (∃ d, s.pc t = .outWant d) → s.out = none := fun hp => by
    cases hl : s.out with
    | none => rfl
    | some u => exact absurd (.inr (.inr ⟨hp, hl⟩)) (hw u)
  cases hp : s.pc t with
  | idle => exact absurd hp h
  | hWant k => exact ⟨_, .hLock s t k hp (free1 (.inl ⟨k, hp⟩)), by simp [St.goto]⟩
  | hCheck k =>
    cases he : s.err with
    | true => exact ⟨_, .hErr s t k hp he, by simp [St.goto]⟩
    | false =>
      cases hc : s.complete with
      | true => exact ⟨_, .hDone s t k hp he hc, by simp [St.goto]⟩
      | false => exact ⟨_, .hNeed s t k hp he hc, by simp [St.goto]⟩
  | hWantIn k => exact ⟨_, .hLockIn s t k hp (free2 (.inl ⟨k, hp⟩)), by simp [St.goto]⟩
  | hRel2 k b => exact ⟨_, .hUnlockIn s t k b hp, by simp [St.goto]⟩
  | hRel1 k b =>
    cases b with
    | false => exact ⟨_, .hUnlockFail s t k hp, by simp [St.ret]⟩
    | true =>
      cases k with
      | ret => exact ⟨_, .hUnlock s t hp, by simp [St.ret]⟩
      | read => exact ⟨_, .hUnlockRead s t hp, by simp [St.goto]⟩
      | write => exact ⟨_, .hUnlockWrite s t hp, by simp [St.goto]⟩
  | run x =>
    cases x with
    | hs k => exact ⟨_, .hFail s t k hp, by simp [St.goto]⟩
    | read => exact ⟨_, .rEnd s t true hp, by simp [St.goto]⟩
    | reneg => exact ⟨_, .gFail s t hp, by simp [St.goto]⟩
  | rWant => exact ⟨_, .rLock s t hp (free2 (.inr hp)), by simp [St.goto]⟩
  | rWantHm => exact ⟨_, .rLockHm s t hp (free1 (.inr (.inl hp))), by simp [St.goto]⟩
  | rReset => exact ⟨_, .rReset s t hp, by simp [St.goto]⟩
  | rEnd b =>
    cases b with
    | true => exact ⟨_, .rUnlockHm s t hp, by simp [St.goto]⟩
    | false => exact ⟨_, .rUnlockHmFail s t hp, by simp [St.goto]⟩
  | rRel b => exact ⟨_, .rUnlock s t b hp, by simp [St.ret]⟩
  | outWant d =>
    by_cases hd : d = .write
    · subst hd
      exact ⟨_, .wLock s t hp (free3 ⟨_, hp⟩), by simp [St.goto]⟩
    · exact ⟨_, .oLock s t d hp hd (free3 ⟨_, hp⟩), by simp [St.goto]⟩
  | outIn d => exact ⟨_, .oDone s t d .ok hp (by decide), by simp [St.goto]⟩
  | outMid d e q => exact ⟨_, .oPut s t d e q hp, by simp [St.goto]⟩
  | outRel d r =>
    cases d with
    | sec x => exact ⟨_, .oUnlockSec s t x r hp, by simp [St.goto]⟩
    | write => exact ⟨_, .oUnlockWrite s t r hp, by simp [St.ret]⟩
    | notify b =>
      cases b with
      | true => exact ⟨_, .oUnlockClose s t r hp, by simp [St.goto]⟩
      | false => exact ⟨_, .oUnlockNotify s t r hp, by simp [St.ret]⟩
  | wChk => exact ⟨_, .wErr s t hp, by simp [St.goto]⟩
  | rawMid x e q => exact ⟨_, .rawPut s t x e q hp, by simp [St.goto]⟩
  | cTop => exact ⟨_, .cBusy s t hp, by simp [St.goto]⟩
  | cShut => exact ⟨_, .cShut s t hp, by simp [St.ret]⟩
  | nTop =>
    cases hc : s.complete with
    | true => exact ⟨_, .nNotify s t hp hc, by simp [St.goto]⟩
    | false => exact ⟨_, .nEarly s t hp hc, by simp [St.ret]⟩
  | sWant => exact ⟨_, .sLock s t hp (free1 (.inr (.inr hp))), by simp [St.goto]⟩
  | sIn => exact ⟨_, .sUnlock s t hp, by simp [St.ret]⟩

/-- who holds a lock is inside a call -/
theorem waits_busy {s : St n} (I : Inv s) {t u : Fin n} (h : Waits s t u) : s.pc u ≠ .idle := by
  intro hu
  rcases h with ⟨_, hl⟩ | ⟨_, hl⟩ | ⟨_, hl⟩
  · have := (I.hm u).2 hl
    rw [hu] at this
    cases this
  · have := (I.inp u).2 hl
    rw [hu] at this
    cases this
  · have := (I.out u).2 hl
    rw [hu] at this
    cases this

/-- C121: no deadlock. Whatever the goroutines using a connection do, each one that is inside a call either can go on itself or waits, directly
or through others, for one that can. -/
theorem C121_no_deadlock {raw : Bool} {s : St n} (h : Reachable raw s) (t : Fin n) (ht : s.pc t ≠ .idle) :
    ∃ u s', ReflTransGen (Waits s) t u ∧ s.pc u ≠ .idle ∧ Step raw u s s' ∧ s'.pc u ≠ s.pc u := by
  have I := inv h
  have key : ∀ m (t : Fin n), rank (s.pc t) ≤ m → s.pc t ≠ .idle →
      ∃ u s', ReflTransGen (Waits s) t u ∧ s.pc u ≠ .idle ∧ Step raw u s s' ∧ s'.pc u ≠ s.pc u := by
    intro m
    induction m with
    | zero =>
      intro t hr ht
      obtain ⟨s', h1, h2⟩ := can_step I raw ht (fun u hw => by have := waits_rank I hw; omega)
      exact ⟨t, s', .refl, ht, h1, h2⟩
    | succ m ih =>
      intro t hr ht
      by_cases hw : ∃ u, Waits s t u
      · obtain ⟨u, hw⟩ := hw
        obtain ⟨v, s', h1, h2⟩ := ih u (by have := waits_rank I hw; omega) (waits_busy I hw)
        exact ⟨v, s', .head hw h1, h2⟩
      · obtain ⟨s', h1, h2⟩ := can_step I raw ht (fun u h => hw ⟨u, h⟩)
        exact ⟨t, s', .refl, ht, h1, h2⟩
  exact key _ t (Nat.le_refl _) ht

/-- C121: no goroutine ever waits for itself, directly or through others. -/
theorem C121_no_cycle {raw : Bool} {s : St n} (h : Reachable raw s) (t : Fin n) : ¬ TransGen (Waits s) t t := by
  have I := inv h
  have key : ∀ u, TransGen (Waits s) t u → rank (s.pc u) < rank (s.pc t) := by
    intro u hu
    induction hu with
    | single h => exact waits_rank I h
    | tail _ h ih => exact Nat.lt_trans (waits_rank I h) ih
  exact fun hc => Nat.lt_irrefl _ (key t hc)

/-- C121: the lock order is reversed only where it cannot hurt: a goroutine that holds `handshakeMutex` and wants `in` finds it free. -/
theorem C121_handshake_gets_in {raw : Bool} {s : St n} (h : Reachable raw s) (t : Fin n) (k : Cont) (ht : s.pc t = .hWantIn k) : s.inp = none :=
  in_free (inv h) ht

/-- C121: a goroutine sending a record, in particular `Close` or `CloseWrite` sending the alert, waits for nobody but another one that is sending
and itself waits for nobody: neither a handshake nor a `Read` waiting for data can hold it up. -/
theorem C121_close_waits_for_sender {raw : Bool} {s : St n} (h : Reachable raw s) (t u v : Fin n) (d : Snd) (ht : s.pc t = .outWant d)
    (hw : Waits s t u) : s.out = some u ∧ ¬ Waits s u v := by
  have I := inv h
  have h1 : rank (s.pc u) < 1 := by
    have := waits_rank I hw
    rw [ht] at this
    exact this
  refine ⟨?_, fun h2 => ?_⟩
  · rcases hw with ⟨⟨k, hp⟩ | hp | hp, _⟩ | ⟨⟨k, hp⟩ | hp, _⟩ | ⟨_, hl⟩ <;> first | (rw [ht] at hp; cases hp) | exact hl
  · have := waits_rank I h2
    omega

theorem handshaking_hm {s : St n} {t : Fin n} (h : Handshaking s t) : holdsHm (s.pc t) = true := by
  obtain ⟨x, hx, h⟩ := h
  have : secHm x = true := by cases x <;> simp_all [secHm]
  rcases h with h | h | h | ⟨e, q, h⟩ | ⟨r, h⟩ | ⟨e, q, h⟩ <;> rw [h] <;> exact this

/-- C121: at most one goroutine runs a handshake. -/
theorem C121_one_handshake {raw : Bool} {s : St n} (h : Reachable raw s) (t u : Fin n) (ht : Handshaking s t) (hu : Handshaking s u) : t = u :=
  excl (inv h).hm (handshaking_hm ht) (handshaking_hm hu)

/-- C121: the first handshake is started at most once, however many goroutines call `Handshake`, `Read` and `Write`, and whether it succeeds
or not; those that return without an error do so after a handshake was completed. -/
theorem C121_first_handshake_once {raw : Bool} {s : St n} (h : Reachable raw s) :
    s.inits ≤ 1 ∧ ∀ t c, (t, c, Ret.ok) ∈ s.rets → (c = .handshake ∨ c = .read ∨ c = .write) → s.once = true :=
  ⟨(inv h).inits, (inv h).rets⟩

/-! #### after a failed handshake -/

theorem err_step {s s' : St n} {raw : Bool} {t : Fin n} (I : Inv s) (he : s.err = true) (k : Step raw t s s') :
    s'.err = true ∧ s'.inits = s.inits ∧ s'.renegs = s.renegs ∧ s'.complete = false := by
  have h1 := I.pcs t
  have h2 := I.comp
  cases k <;> simp only [St.goto, St.ret] at * <;> grind

/-- where a goroutine can be that called after a handshake failed -/
@[grind] def barred : PC → Bool
  | .idle => true
  | .hWant _ => true
  | .hCheck _ => true
  | .hRel1 _ b => !b
  | .cTop => true
  | .cShut => true
  | .nTop => true
  | .sWant => true
  | .sIn => true
  | _ => false

theorem barred_step {s s' : St n} {raw : Bool} {t : Fin n} (I : Inv s) (he : s.err = true) (k : Step raw t s s') (u : Fin n)
    (hb : barred (s.pc u) = true) : barred (s'.pc u) = true := by
  have h2 := I.comp
  cases k <;> simp only [St.goto, St.ret] at * <;> grind

theorem barred_ret {s s' : St n} {raw : Bool} {t : Fin n} (k : Step raw t s s') :
    s'.rets = s.rets ∨ ∃ c r, s'.rets = s.rets ++ [(t, c, r)] ∧
      (barred (s.pc t) = true → (c = .handshake ∨ c = .read ∨ c = .write) → r ≠ .ok) := by
  cases k <;> simp only [St.goto, St.ret] at * <;>
    first | exact .inl rfl | exact .inl trivial | exact .inr ⟨_, _, rfl, by grind⟩

/-- C121: a handshake that failed, the first one or a renegotiation, stays failed: no other is started, and every call of `Handshake`, `Read` or
`Write` made afterwards returns an error, whoever makes it. -/
theorem C121_failure_is_final {raw : Bool} {s s' : St n} (h : Reachable raw s) (he : s.err = true) (k : Steps raw s s') :
    s'.err = true ∧ s'.complete = false ∧ s'.inits = s.inits ∧ s'.renegs = s.renegs ∧
    ∃ new, s'.rets = s.rets ++ new ∧
      ∀ t c r, (t, c, r) ∈ new → s.pc t = .idle → (c = .handshake ∨ c = .read ∨ c = .write) → r ≠ .ok := by
  have I := inv h
  have key : s'.err = true ∧ s'.complete = false ∧ s'.inits = s.inits ∧ s'.renegs = s.renegs ∧
      (∀ t, s.pc t = .idle → barred (s'.pc t) = true) ∧
      ∃ new, s'.rets = s.rets ++ new ∧
        ∀ t c r, (t, c, r) ∈ new → s.pc t = .idle → (c = .handshake ∨ c = .read ∨ c = .write) → r ≠ .ok := by
    induction k with
    | refl =>
      refine ⟨he, ?_, rfl, rfl, fun t ht => by rw [ht]; rfl, [], by simp, by simp⟩
      cases hc : s.complete with
      | false => rfl
      | true => have := (I.comp hc).2; rw [he] at this; cases this
    | @tail b c u kb k ih =>
      obtain ⟨h1, h2, h3, h4, h5, new, h6, h7⟩ := ih
      have J := inv_steps I kb
      obtain ⟨g1, g2, g3, g4⟩ := err_step J h1 k
      refine ⟨g1, g4, g2.trans h3, g3.trans h4, fun t ht => barred_step J h1 k t (h5 t ht), ?_⟩
      rcases barred_ret k with e | ⟨cc, r, e, hr⟩
      · exact ⟨new, e.trans h6, h7⟩
      · refine ⟨new ++ [(u, cc, r)], by rw [e, h6, List.append_assoc], ?_⟩
        intro t c' r' hm ht hc
        rcases List.mem_append.1 hm with hm | hm
        · exact h7 t c' r' hm ht hc
        · obtain ⟨rfl, rfl, rfl⟩ : t = u ∧ c' = cc ∧ r' = r := by simpa using hm
          exact hr (h5 _ ht) hc
  obtain ⟨h1, h2, h3, h4, _, h5⟩ := key
  exact ⟨h1, h2, h3, h4, h5⟩

/-- The other half: `Write` fails only when something went wrong. False: a `Write` that passed `Handshake` when a renegotiation begins in another
goroutine may get `out` while that handshake is running; it then returns `alertInternalError`, although the renegotiation succeeds and the
connection goes on. -/
theorem C121_write_refused_violated : ∃ s : St 2, Reachable false s ∧ (1, Call.write, Ret.internal) ∈ s.rets ∧ s.err = false ∧ s.complete = true := by
  have h : Steps false (init 2) (init 2) := .refl _
  replace h := h.tail (.call _ 0 .read rfl)
  replace h := h.tail (.hLock _ 0 .read rfl rfl)
  replace h := h.tail (.hNeed _ 0 .read rfl rfl rfl)
  replace h := h.tail (.hLockIn _ 0 .read rfl rfl)
  replace h := h.tail (.hOk _ 0 .read rfl)
  replace h := h.tail (.hUnlockIn _ 0 .read true rfl)
  replace h := h.tail (.hUnlockRead _ 0 rfl)
  replace h := h.tail (.rLock _ 0 rfl rfl)
  replace h := h.tail (.call _ 1 .write rfl)
  replace h := h.tail (.hLock _ 1 .write rfl rfl)
  replace h := h.tail (.hDone _ 1 .write rfl rfl rfl)
  replace h := h.tail (.hUnlockWrite _ 1 rfl)
  replace h := h.tail (.rReneg _ 0 rfl rfl)
  replace h := h.tail (.rLockHm _ 0 rfl rfl)
  replace h := h.tail (.rReset _ 0 rfl)
  replace h := h.tail (.wLock _ 1 rfl rfl)
  replace h := h.tail (.wInternal _ 1 rfl rfl)
  replace h := h.tail (.oUnlockWrite _ 1 .internal rfl)
  replace h := h.tail (.gOk _ 0 rfl)
  exact ⟨_, h, by decide⟩

/-! ### C122 -/

/-- the records sent are below the sequence number in use -/
def Below (e q : Nat) (l : List (Nat × Nat)) : Prop := ∀ x ∈ l, x.1 < e ∨ x.1 = e ∧ x.2 < q

theorem below_put {e q : Nat} {l : List (Nat × Nat)} (h : Below e q l) : Below e (q + 1) (l ++ [(e, q)]) := by
  intro x hx
  rcases List.mem_append.1 hx with hx | hx
  · have := h x hx
    omega
  · simp only [List.mem_singleton] at hx
    subst hx
    exact .inr ⟨rfl, Nat.lt_succ_self _⟩

theorem below_ccs {e q : Nat} {l : List (Nat × Nat)} (h : Below e q l) : Below (e + 1) 0 (l ++ [(e, q)]) := by
  intro x hx
  rcases List.mem_append.1 hx with hx | hx
  · have := h x hx
    omega
  · simp only [List.mem_singleton] at hx
    subst hx
    exact .inl (Nat.lt_succ_self _)

theorem below_nodup {e q : Nat} {l : List (Nat × Nat)} (h : Below e q l) (hn : l.Nodup) : (l ++ [(e, q)]).Nodup := by
  rw [List.nodup_append]
  refine ⟨hn, by simp, ?_⟩
  intro x hx y hy he
  simp only [List.mem_singleton] at hy
  subst hy
  subst he
  have := h _ hx
  simp at this

/-- no alert without the lock; who has taken a sequence number has taken the current one -/
structure Seq (s : St n) : Prop where
  raw : ∀ t x e q, s.pc t ≠ .rawMid x e q
  mid : ∀ t d e q, s.pc t = .outMid d e q → e = s.epoch ∧ q = s.seq
  below : Below s.epoch s.seq s.sent
  nodup : s.sent.Nodup

theorem seq_step {s s' : St n} {t : Fin n} (I : Inv s) (S : Seq s) (k : Step false t s s') : Seq s' := by
  refine ⟨?_, ?_, ?_, ?_⟩
  · intro u
    have h1 := S.raw u
    have h2 := S.raw t
    cases k <;> simp only [St.goto, St.ret] at * <;> grind
  · intro u
    have h1 := S.mid u
    have h2 := S.raw t
    have e1 : holdsOut (s.pc t) = true → holdsOut (s.pc u) = true → t = u := excl I.out
    cases k <;> simp only [St.goto, St.ret] at * <;> grind
  · have h1 := S.mid t
    have h2 := S.raw t
    have h3 := S.below
    cases k <;> simp only [St.goto, St.ret] at * <;>
      first | exact h3 | exact absurd ‹_› (h2 _ _ _) | (obtain ⟨rfl, rfl⟩ := h1 _ _ _ ‹_›; exact below_put h3) |
        (obtain ⟨rfl, rfl⟩ := h1 _ _ _ ‹_›; exact below_ccs h3)
  · have h1 := S.mid t
    have h2 := S.raw t
    have h3 := S.below
    have h4 := S.nodup
    cases k <;> simp only [St.goto, St.ret] at * <;>
      first | exact h4 | exact absurd ‹_› (h2 _ _ _) | (obtain ⟨rfl, rfl⟩ := h1 _ _ _ ‹_›; exact below_nodup h3 h4)

/-- C122, without oversized handshake messages: no two records sent under one set of keys carry the same sequence number, whatever the
goroutines do. Missing: the case where the peer announces a handshake message of more than 65536 bytes (see the next theorem). -/
theorem C122_sequence_numbers_partial {s : St n} (h : Reachable false s) : s.sent.Nodup := by
  have key : Inv s ∧ Seq s := by
    unfold Reachable at h
    induction h with
    | refl =>
      exact ⟨inv_init, ⟨by simp [init], by simp [init], by simp [init, Below], by simp [init]⟩⟩
    | tail _ k ih => exact ⟨inv_step ih.1 k, seq_step ih.1 ih.2 k⟩
  exact key.2.nodup

/-- C122 is false with them: `readHandshake` sends its alert without holding `out` (tls/conn.go:964), so a `Write` in another goroutine may
protect its record with the same keys and the same sequence number. -/
theorem C122_unlocked_alert_violated : ∃ s : St 2, Reachable true s ∧ s.sent = [(0, 0), (1, 0), (1, 0)] := by
  have h : Steps true (init 2) (init 2) := .refl _
  replace h := h.tail (.call _ 0 .read rfl)
  replace h := h.tail (.hLock _ 0 .read rfl rfl)
  replace h := h.tail (.hNeed _ 0 .read rfl rfl rfl)
  replace h := h.tail (.hLockIn _ 0 .read rfl rfl)
  replace h := h.tail (.oStart _ 0 (.hs .read) rfl)
  replace h := h.tail (.oLock _ 0 (.sec (.hs .read)) rfl (by decide) rfl)
  replace h := h.tail (.oTake _ 0 (.sec (.hs .read)) rfl)
  replace h := h.tail (.oCcs _ 0 (.hs .read) 0 0 rfl (by decide))
  replace h := h.tail (.oDone _ 0 (.sec (.hs .read)) .ok rfl (by decide))
  replace h := h.tail (.oUnlockSec _ 0 (.hs .read) .ok rfl)
  replace h := h.tail (.hOk _ 0 .read rfl)
  replace h := h.tail (.hUnlockIn _ 0 .read true rfl)
  replace h := h.tail (.hUnlockRead _ 0 rfl)
  replace h := h.tail (.rLock _ 0 rfl rfl)
  replace h := h.tail (.call _ 1 .write rfl)
  replace h := h.tail (.hLock _ 1 .write rfl rfl)
  replace h := h.tail (.hDone _ 1 .write rfl rfl rfl)
  replace h := h.tail (.hUnlockWrite _ 1 rfl)
  replace h := h.tail (.wLock _ 1 rfl rfl)
  replace h := h.tail (.wPass _ 1 rfl rfl)
  replace h := h.tail (.oTake _ 1 .write rfl)
  replace h := h.tail (.rawTake _ 0 .read rfl rfl)
  replace h := h.tail (.oPut _ 1 .write _ _ rfl)
  replace h := h.tail (.rawPut _ 0 .read _ _ rfl)
  exact ⟨_, h, by decide⟩

/-! #### the hypotheses are met -/

/-- a chain of waiting: goroutine 2 reads and waits for 1, which found a renegotiation and waits for 0, which asks for the state -/
example : ∃ s : St 3, Reachable false s ∧ Waits s 2 1 ∧ Waits s 1 0 ∧ s.pc 2 ≠ .idle := by
  have h : Steps false (init 3) (init 3) := .refl _
  replace h := h.tail (.call _ 0 .ret rfl)
  replace h := h.tail (.hLock _ 0 .ret rfl rfl)
  replace h := h.tail (.hNeed _ 0 .ret rfl rfl rfl)
  replace h := h.tail (.hLockIn _ 0 .ret rfl rfl)
  replace h := h.tail (.hOk _ 0 .ret rfl)
  replace h := h.tail (.hUnlockIn _ 0 .ret true rfl)
  replace h := h.tail (.hUnlock _ 0 rfl)
  replace h := h.tail (.call _ 1 .read rfl)
  replace h := h.tail (.hLock _ 1 .read rfl rfl)
  replace h := h.tail (.hDone _ 1 .read rfl rfl rfl)
  replace h := h.tail (.hUnlockRead _ 1 rfl)
  replace h := h.tail (.call _ 2 .read rfl)
  replace h := h.tail (.hLock _ 2 .read rfl rfl)
  replace h := h.tail (.hDone _ 2 .read rfl rfl rfl)
  replace h := h.tail (.hUnlockRead _ 2 rfl)
  replace h := h.tail (.rLock _ 1 rfl rfl)
  replace h := h.tail (.rReneg _ 1 rfl rfl)
  replace h := h.tail (.sStart _ 0 rfl)
  replace h := h.tail (.sLock _ 0 rfl rfl)
  exact ⟨_, h, .inr (.inl ⟨.inr rfl, rfl⟩), .inl ⟨.inr (.inl rfl), rfl⟩, by decide⟩

/-- a failed handshake, another goroutine outside -/
example : ∃ s : St 2, Reachable false s ∧ s.err = true ∧ s.pc 1 = .idle := by
  have h : Steps false (init 2) (init 2) := .refl _
  replace h := h.tail (.call _ 0 .ret rfl)
  replace h := h.tail (.hLock _ 0 .ret rfl rfl)
  replace h := h.tail (.hNeed _ 0 .ret rfl rfl rfl)
  replace h := h.tail (.hLockIn _ 0 .ret rfl rfl)
  replace h := h.tail (.hFail _ 0 .ret rfl)
  replace h := h.tail (.hUnlockIn _ 0 .ret false rfl)
  exact ⟨_, h, rfl, rfl⟩

/-- a running handshake, another goroutine waiting in `Write` -/
example : ∃ s : St 2, Reachable false s ∧ Handshaking s 0 ∧ Waits s 1 0 := by
  have h : Steps false (init 2) (init 2) := .refl _
  replace h := h.tail (.call _ 0 .ret rfl)
  replace h := h.tail (.hLock _ 0 .ret rfl rfl)
  replace h := h.tail (.hNeed _ 0 .ret rfl rfl rfl)
  replace h := h.tail (.hLockIn _ 0 .ret rfl rfl)
  replace h := h.tail (.call _ 1 .write rfl)
  exact ⟨_, h, ⟨.hs .ret, by decide, .inl rfl⟩, .inl ⟨.inl ⟨.write, rfl⟩, rfl⟩⟩

end Verif.Tls.Locks
