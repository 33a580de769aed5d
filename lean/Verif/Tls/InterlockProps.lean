import Mathlib.Tactic.Ring
import Verif.Tls.CloseInterlock
/-!
C31: what holds in every interleaving.
-/
namespace Verif.Tls.Interlock
open Finset

variable {n : Nat}

/-- in `Write`, between the increment and the decrement of the counter -/
def flying : PC → Nat
  | .wHs | .wWant | .wIn | .wGo | .wOut _ | .wDec _ => 1
  | _ => 0

/-- in `Close`, after it won -/
def winning : PC → Nat
  | .cMode _ | .cShut | .nWant true | .nIn true | .nOut true => 1
  | _ => 0

def holds : PC → Bool
  | .wIn | .wGo | .wOut _ | .nIn _ | .nOut _ | .aIn | .aOut => true
  | _ => false

/-- number of `Write` calls in flight -/
def writers (s : St n) : Nat := ∑ t, flying (s.pc t)

/-- `Close` calls that returned something else than `errClosed` -/
def wins (r : Fin n × Call × Ret) : Bool := r.2.1 == .close && r.2.2 != .errClosed

/-- number of `Close` calls that got past the compare-and-swap so far -/
def closers (s : St n) : Nat := s.rets.countP wins + ∑ t, winning (s.pc t)

theorem sum_upd (f : PC → Nat) (p : Fin n → PC) (t : Fin n) (v : PC) :
    ∑ i, f (Function.update p t v i) + f (p t) = ∑ i, f (p i) + f v := by
  have h1 := Finset.add_sum_erase univ (fun i => f (p i)) (mem_univ t)
  have h2 := Finset.add_sum_erase univ (fun i => f (Function.update p t v i)) (mem_univ t)
  have h3 : ∑ i ∈ univ.erase t, f (Function.update p t v i) = ∑ i ∈ univ.erase t, f (p i) := by
    apply Finset.sum_congr rfl
    intro i hi
    rw [Function.update_of_ne (Finset.ne_of_mem_erase hi)]
  simp only [Function.update_self] at h2
  omega

theorem even_iff (m : Nat) : BitVec.ofNat 32 m &&& 1 = 0 ↔ m % 2 = 0 := by
  rw [← BitVec.toNat_inj]
  rw [BitVec.toNat_and, BitVec.toNat_ofNat, show BitVec.toNat (1 : BitVec 32) = 1 from rfl, show BitVec.toNat (0 : BitVec 32) = 0 from rfl,
    Nat.and_one_is_mod, show (2 : Nat) ^ 32 = 2 * 2 ^ 31 by norm_num, Nat.mod_mul_right_mod]

theorem or_one (m : Nat) (h : m % 2 = 0) : BitVec.ofNat 32 m ||| 1 = BitVec.ofNat 32 (m + 1) := by
  have h1 := (even_iff m).2 h
  have h2 := BitVec.add_eq_or_of_and_eq_zero _ _ h1
  rw [← h2, BitVec.ofNat_add]
  rfl

/-- the counter counts the writers, twice, plus one once a `Close` has won; at most one `Close` ever wins -/
structure Count (s : St n) : Prop where
  active : s.active = BitVec.ofNat 32 (2 * writers s + closers s)
  one : closers s ≤ 1

theorem writers_upd {s s1 : St n} {t : Fin n} {p : PC} (e : s1.pc = Function.update s.pc t p) :
    writers s1 + flying (s.pc t) = writers s + flying p := by
  unfold writers
  rw [e]
  exact sum_upd flying s.pc t p

theorem closers_upd {s s1 : St n} {t : Fin n} {p : PC} (e : s1.pc = Function.update s.pc t p) (r : s1.rets = s.rets) :
    closers s1 + winning (s.pc t) = closers s + winning p := by
  unfold closers
  rw [e, r, Nat.add_assoc, sum_upd winning s.pc t p, Nat.add_assoc]

theorem closers_ret {s s1 : St n} {t : Fin n} {c : Call} {r : Ret} (e : s1.pc = Function.update s.pc t .idle) (hr : s1.rets = s.rets ++ [(t, c, r)]) :
    closers s1 + winning (s.pc t) = closers s + (if wins (t, c, r) = true then 1 else 0) := by
  unfold closers
  rw [e, hr, List.countP_append, List.countP_singleton, Nat.add_assoc, sum_upd winning s.pc t .idle]
  rw [show winning .idle = 0 from rfl]
  generalize List.countP wins s.rets = a
  generalize (∑ i, winning (s.pc i)) = b
  omega

theorem count_goto {s : St n} (h : Count s) {t : Fin n} {p : PC} {s1 : St n} (e1 : s1.pc = Function.update s.pc t p) (e2 : s1.active = s.active)
    (e3 : s1.rets = s.rets) (hf : flying (s.pc t) = flying p) (hw : winning (s.pc t) = winning p) : Count s1 := by
  have b1 : writers s1 = writers s := by have := writers_upd e1; omega
  have b2 : closers s1 = closers s := by have := closers_upd e1 e3; omega
  exact ⟨by rw [e2, b1, b2, h.active], by rw [b2]; exact h.one⟩

theorem count_ret {s : St n} (h : Count s) {t : Fin n} {c : Call} {r : Ret} {s1 : St n} (e1 : s1.pc = Function.update s.pc t .idle) (e2 : s1.active = s.active)
    (e3 : s1.rets = s.rets ++ [(t, c, r)]) (hf : flying (s.pc t) = 0) (hw : winning (s.pc t) = (if wins (t, c, r) = true then 1 else 0)) : Count s1 := by
  have b1 : writers s1 = writers s := by have := writers_upd e1; rw [hf, show flying .idle = 0 from rfl] at this; omega
  have b2 : closers s1 = closers s := by have := closers_ret e1 e3; omega
  exact ⟨by rw [e2, b1, b2, h.active], by rw [b2]; exact h.one⟩

theorem count_step {s s' : St n} (H : Count s) (loaded : ∀ t x, s.pc t = .cCas x → x &&& 1 = 0) (k : Step s s') : Count s' := by
  cases k with
  | env b => exact ⟨H.active, H.one⟩
  | wStart t h => exact count_goto H rfl rfl rfl (by rw [h]; rfl) (by rw [h]; rfl)
  | wLoadClosed t h hx => exact count_ret H rfl rfl rfl (by rw [h]; rfl) (by rw [h]; rfl)
  | wLoad t h hx => exact count_goto H rfl rfl rfl (by rw [h]; rfl) (by rw [h]; rfl)
  | wCasFail t x h hx => exact count_goto H rfl rfl rfl (by rw [h]; rfl) (by rw [h]; rfl)
  | wCasOk t x h hx =>
    have b1 := writers_upd (s := s) (s1 := { s.goto t .wHs with active := x + 2 }) (t := t) (p := .wHs) rfl
    have b2 := closers_upd (s := s) (s1 := { s.goto t .wHs with active := x + 2 }) (t := t) (p := .wHs) rfl rfl
    rw [h] at b1 b2
    rw [show flying (.wCas x) = 0 from rfl, show flying .wHs = 1 from rfl] at b1
    rw [show winning (.wCas x) = 0 from rfl, show winning .wHs = 0 from rfl] at b2
    simp only [Nat.add_zero] at b1 b2
    refine ⟨?_, by rw [b2]; exact H.one⟩
    rw [b1, b2]
    show x + 2 = _
    rw [← hx, H.active]
    generalize writers s = w
    generalize closers s = c
    rw [show 2 * (w + 1) + c = (2 * w + c) + 2 by ring, BitVec.ofNat_add (2 * w + c) 2]
    rfl
  | wHsFail t h => exact count_goto H rfl rfl rfl (by rw [h]; rfl) (by rw [h]; rfl)
  | wHsOk t h => exact count_goto H rfl rfl rfl (by rw [h]; rfl) (by rw [h]; rfl)
  | wLock t h hl => exact count_goto H rfl rfl rfl (by rw [h]; rfl) (by rw [h]; rfl)
  | wErr t h hb => exact count_goto H rfl rfl rfl (by rw [h]; rfl) (by rw [h]; rfl)
  | wShut t h he hc hn => exact count_goto H rfl rfl rfl (by rw [h]; rfl) (by rw [h]; rfl)
  | wPass t h he hc hn => exact count_goto H rfl rfl rfl (by rw [h]; rfl) (by rw [h]; rfl)
  | wEmit t h ho => exact ⟨H.active, H.one⟩
  | wFail t h => exact count_goto H rfl rfl rfl (by rw [h]; rfl) (by rw [h]; rfl)
  | wDone t h => exact count_goto H rfl rfl rfl (by rw [h]; rfl) (by rw [h]; rfl)
  | wUnlock t r h => exact count_goto H rfl rfl rfl (by rw [h]; rfl) (by rw [h]; rfl)
  | wDec t r h =>
    have b1 := writers_upd (s := s) (s1 := { s.ret t .write r with active := s.active - 2 }) (t := t) (p := .idle) rfl
    have b2 := closers_ret (s := s) (s1 := { s.ret t .write r with active := s.active - 2 }) (t := t) (c := .write) (r := r) rfl rfl
    rw [h] at b1 b2
    rw [show flying (.wDec r) = 1 from rfl, show flying .idle = 0 from rfl] at b1
    rw [show winning (.wDec r) = 0 from rfl] at b2
    simp only [Nat.add_zero, wins, show (Call.write == Call.close) = false from rfl, Bool.false_and, Bool.false_eq_true, if_false] at b1 b2
    refine ⟨?_, by rw [b2]; exact H.one⟩
    rw [b2]
    show s.active - 2 = _
    have ha := H.active
    rw [← b1] at ha
    generalize writers ({ s.ret t .write r with active := s.active - 2 } : St n) = w at ha ⊢
    rw [ha, show 2 * (w + 1) + closers s = (2 * w + closers s) + 2 by ring, BitVec.ofNat_add (2 * w + closers s) 2]
    exact BitVec.add_sub_cancel _ _
  | cStart t h => exact count_goto H rfl rfl rfl (by rw [h]; rfl) (by rw [h]; rfl)
  | cLoadClosed t h hx => exact count_ret H rfl rfl rfl (by rw [h]; rfl) (by rw [h]; rfl)
  | cLoad t h hx => exact count_goto H rfl rfl rfl (by rw [h]; rfl) (by rw [h]; rfl)
  | cCasFail t x h hx => exact count_goto H rfl rfl rfl (by rw [h]; rfl) (by rw [h]; rfl)
  | cCasOk t x h hx =>
    have b1 := writers_upd (s := s) (s1 := { s.goto t (.cMode x) with active := x ||| 1 }) (t := t) (p := .cMode x) rfl
    have b2 := closers_upd (s := s) (s1 := { s.goto t (.cMode x) with active := x ||| 1 }) (t := t) (p := .cMode x) rfl rfl
    rw [h] at b1 b2
    rw [show flying (.cCas x) = 0 from rfl, show flying (.cMode x) = 0 from rfl] at b1
    rw [show winning (.cCas x) = 0 from rfl, show winning (.cMode x) = 1 from rfl] at b2
    simp only [Nat.add_zero] at b1 b2
    have h0 := loaded t x h
    rw [← hx, H.active, even_iff] at h0
    have hc : closers s = 0 := by have := H.one; omega
    refine ⟨?_, by rw [b2, hc]⟩
    rw [b1, b2]
    simp only
    rw [← hx, H.active, or_one _ h0, Nat.add_assoc]
  | cBusy t x h hx => exact count_goto H rfl rfl rfl (by rw [h]; rfl) (by rw [h]; rfl)
  | cEarly t x h hx hc => exact count_goto H rfl rfl rfl (by rw [h]; rfl) (by rw [h]; rfl)
  | cNotify t x h hx hc => exact count_goto H rfl rfl rfl (by rw [h]; rfl) (by rw [h]; rfl)
  | cShut t h => exact count_ret H rfl rfl rfl (by rw [h]; rfl) (by rw [h]; rfl)
  | nLock t f h hl => exact count_goto H rfl rfl rfl (by rw [h]; rfl) (by rw [h]; cases f <;> rfl)
  | nAlready t f h hn => exact count_goto H rfl rfl rfl (by rw [h]; rfl) (by rw [h]; cases f <;> rfl)
  | nSend t f h hn ho => exact count_goto H rfl rfl rfl (by rw [h]; rfl) (by rw [h]; cases f <;> rfl)
  | nSendFail t f h hn => exact count_goto H rfl rfl rfl (by rw [h]; rfl) (by rw [h]; cases f <;> rfl)
  | nUnlockClose t h => exact count_goto H rfl rfl rfl (by rw [h]; rfl) (by rw [h]; rfl)
  | nUnlock t h => exact count_ret H rfl rfl rfl (by rw [h]; rfl) (by rw [h]; rfl)
  | sStart t h => exact count_goto H rfl rfl rfl (by rw [h]; rfl) (by rw [h]; rfl)
  | sEarly t h hc => exact count_ret H rfl rfl rfl (by rw [h]; rfl) (by rw [h]; rfl)
  | sNotify t h hc => exact count_goto H rfl rfl rfl (by rw [h]; rfl) (by rw [h]; rfl)
  | aStart t h => exact count_goto H rfl rfl rfl (by rw [h]; rfl) (by rw [h]; rfl)
  | aLock t h hl => exact count_goto H rfl rfl rfl (by rw [h]; rfl) (by rw [h]; rfl)
  | aSend t h ho => exact count_goto H rfl rfl rfl (by rw [h]; rfl) (by rw [h]; rfl)
  | aSendFail t h => exact count_goto H rfl rfl rfl (by rw [h]; rfl) (by rw [h]; rfl)
  | aUnlock t h => exact count_ret H rfl rfl rfl (by rw [h]; rfl) (by rw [h]; rfl)

/-! ### the lock, what was loaded, the order of events -/

/-- events of this kind may not come after an event of that kind -/
def mayFollow (a b : Ev) : Prop :=
  match a with
  | .data => True
  | .notify => b ≠ .data ∧ b ≠ .notify
  | .alert => b ≠ .data
  | .shut => False

structure Inv (s : St n) : Prop where
  count : Count s
  loaded : ∀ t x, s.pc t = .cCas x ∨ s.pc t = .wCas x ∨ s.pc t = .cMode x → x &&& 1 = 0
  lock : ∀ t, s.lock = some t ↔ holds (s.pc t) = true
  going : ∀ t, s.pc t = .wGo → s.notified = false ∧ s.outErr = false
  told : ∀ t f, s.pc t = .nOut f → s.notified = true
  notified : ∀ t, (Ev.notify, t) ∈ s.log → s.notified = true
  alerted : ∀ t, (Ev.alert, t) ∈ s.log → s.outErr = true
  shut : (∃ t, (Ev.shut, t) ∈ s.log) ↔ s.netClosed = true
  shutRet : ∀ t, (Ev.shut, t) ∈ s.log ↔ (t, Call.close, Ret.ok) ∈ s.rets
  closeRet : ∀ t r, (t, Call.close, r) ∈ s.rets → r = .ok ∨ r = .errClosed
  order : s.log.Pairwise (fun a b => mayFollow a.1 b.1)

theorem holds_upd {s : St n} {l : Option (Fin n)} {t : Fin n} {p : PC} (h : ∀ t, s.lock = some t ↔ holds (s.pc t) = true)
    (hl : (l = s.lock ∧ holds (s.pc t) = holds p) ∨ (l = some t ∧ s.lock = none ∧ holds p = true) ∨ (l = none ∧ holds (s.pc t) = true ∧ holds p = false)) :
    ∀ u, l = some u ↔ holds (Function.update s.pc t p u) = true := by
  intro u
  by_cases hu : u = t
  · subst hu
    rw [Function.update_self]
    rcases hl with ⟨rfl, e⟩ | ⟨rfl, _, e⟩ | ⟨rfl, _, e⟩
    · rw [← e]; exact h u
    · simp [e]
    · simp [e]
  · rw [Function.update_of_ne hu]
    rcases hl with ⟨rfl, e⟩ | ⟨rfl, e, _⟩ | ⟨rfl, e, _⟩
    · exact h u
    · rw [← h u, e]; simp [Ne.symm hu]
    · have := (h t).2 e
      rw [← h u, this]; simp [Ne.symm hu]

theorem upd_cases {s : St n} {t : Fin n} {p : PC} {u : Fin n} {q : PC} (h : Function.update s.pc t p u = q) : (u = t ∧ p = q) ∨ (u ≠ t ∧ s.pc u = q) := by
  by_cases hu : u = t
  · subst hu; rw [Function.update_self] at h; exact .inl ⟨rfl, h⟩
  · rw [Function.update_of_ne hu] at h; exact .inr ⟨hu, h⟩

/-- what a step does to the log: nothing, or one event allowed at this point -/
def Logged (s s' : St n) (t : Fin n) (e : Option Ev) : Prop :=
  match e with
  | none => s'.log = s.log ∧ s'.netClosed = s.netClosed
  | some e => s'.log = s.log ++ [(e, t)] ∧ s.netClosed = false ∧ (e = .data → s.notified = false ∧ s.outErr = false) ∧
      (e = .notify → s.notified = false ∧ s'.notified = true) ∧ (e = .alert → s'.outErr = true) ∧ (s'.netClosed = true ↔ e = .shut)

theorem inv_upd {s s' : St n} (I : Inv s) (t : Fin n) (p : PC) (e : Option Ev) (r : Option (Call × Ret)) (hc : Count s')
    (hpc : s'.pc = Function.update s.pc t p) (hlog : Logged s s' t e)
    (hrets : s'.rets = s.rets ++ (r.map (fun x => (t, x))).toList)
    (hl : (s'.lock = s.lock ∧ holds (s.pc t) = holds p) ∨ (s'.lock = some t ∧ s.lock = none ∧ holds p = true) ∨
      (s'.lock = none ∧ holds (s.pc t) = true ∧ holds p = false))
    (hx : ∀ x, p = .cCas x ∨ p = .wCas x ∨ p = .cMode x → x &&& 1 = 0)
    (hgo : p = .wGo → s'.notified = false ∧ s'.outErr = false)
    (hflags : (s'.notified = s.notified ∧ s'.outErr = s.outErr) ∨ holds (s.pc t) = true)
    (htold : ∀ f, p = .nOut f → s'.notified = true)
    (hn : s.notified = true → s'.notified = true) (he : s.outErr = true → s'.outErr = true)
    (hr : ∀ q, r = some (.close, q) → q = .ok ∨ q = .errClosed) (hs : e = some .shut ↔ r = some (.close, .ok)) : Inv s' := by
  have hret : ∀ u x, (u, x) ∈ s'.rets ↔ (u, x) ∈ s.rets ∨ (u = t ∧ r = some x) := by
    intro u x
    rw [hrets, List.mem_append]
    cases r with
    | none => simp
    | some y => simp [Prod.mk.injEq, eq_comm]
  have hmem : ∀ u x, (x, u) ∈ s'.log ↔ (x, u) ∈ s.log ∨ (u = t ∧ e = some x) := by
    intro u x
    cases e with
    | none => rw [hlog.1]; simp
    | some y => rw [hlog.1, List.mem_append]; simp [Prod.mk.injEq, eq_comm, and_comm]
  refine ⟨hc, ?_, ?_, ?_, ?_, ?_, ?_, ?_, ?_, ?_, ?_⟩
  · intro u x hu
    rw [hpc] at hu
    rcases hu with hu | hu | hu <;> rcases upd_cases hu with ⟨_, h⟩ | ⟨_, h⟩
    · exact hx x (.inl h)
    · exact I.loaded u x (.inl h)
    · exact hx x (.inr (.inl h))
    · exact I.loaded u x (.inr (.inl h))
    · exact hx x (.inr (.inr h))
    · exact I.loaded u x (.inr (.inr h))
  · rw [hpc]; exact holds_upd I.lock hl
  · intro u hu
    rw [hpc] at hu
    rcases upd_cases hu with ⟨_, h⟩ | ⟨hne, h⟩
    · exact hgo h
    · rcases hflags with ⟨a, b⟩ | hh
      · rw [a, b]; exact I.going u h
      · have h1 := (I.lock t).2 hh
        have h2 := (I.lock u).2 (by rw [h]; rfl)
        rw [h1] at h2
        exact absurd (Option.some.inj h2).symm hne
  · intro u f hu
    rw [hpc] at hu
    rcases upd_cases hu with ⟨_, h⟩ | ⟨_, h⟩
    · exact htold f h
    · exact hn (I.told u f h)
  · intro u hu
    rcases (hmem _ _).1 hu with h | ⟨_, h⟩
    · exact hn (I.notified u h)
    · subst h; exact (hlog.2.2.2.1 rfl).2
  · intro u hu
    rcases (hmem _ _).1 hu with h | ⟨_, h⟩
    · exact he (I.alerted u h)
    · subst h; exact hlog.2.2.2.2.1 rfl
  · constructor
    · rintro ⟨u, hu⟩
      rcases (hmem _ _).1 hu with h | ⟨_, h⟩
      · have h0 := I.shut.1 ⟨u, h⟩
        cases e with
        | none => rw [hlog.2]; exact h0
        | some y => rw [hlog.2.1] at h0; cases h0
      · subst h; exact hlog.2.2.2.2.2.2 rfl
    · intro hc'
      cases e with
      | none =>
        rw [hlog.2] at hc'
        obtain ⟨u, hu⟩ := I.shut.2 hc'
        exact ⟨u, (hmem _ _).2 (.inl hu)⟩
      | some y =>
        have := hlog.2.2.2.2.2.1 hc'
        subst this
        exact ⟨t, (hmem _ _).2 (.inr ⟨rfl, rfl⟩)⟩
  · intro u
    rw [hmem, hret, I.shutRet u, hs]
  · intro u q hu
    rcases (hret _ _).1 hu with h | ⟨_, h⟩
    · exact I.closeRet u q h
    · exact hr q h
  · cases e with
    | none => rw [hlog.1]; exact I.order
    | some y =>
      obtain ⟨h1, h2, h3, h4, _, _⟩ := hlog
      rw [h1]
      refine List.pairwise_append.2 ⟨I.order, List.pairwise_singleton _ _, ?_⟩
      rintro ⟨x, u⟩ hx' ⟨z, v⟩ hz
      rw [List.mem_singleton] at hz
      obtain ⟨rfl, rfl⟩ := Prod.mk.inj hz
      cases x with
      | data => trivial
      | notify =>
        have hnn := I.notified u hx'
        refine ⟨fun hd => ?_, fun hd => ?_⟩
        · rw [(h3 hd).1] at hnn; cases hnn
        · rw [(h4 hd).1] at hnn; cases hnn
      | alert =>
        have hnn := I.alerted u hx'
        intro hd
        rw [(h3 hd).2] at hnn; cases hnn
      | shut =>
        have := I.shut.1 ⟨u, hx'⟩
        rw [h2] at this; cases this

/-- one goroutine past the compare-and-swap of `Close` means no other `Close` has shut the transport -/
theorem not_shut {s : St n} (I : Inv s) (t : Fin n) (h : winning (s.pc t) = 1) : s.netClosed = false := by
  by_contra hne
  obtain ⟨u, hu⟩ := I.shut.2 (by simpa using hne)
  have h1 := (I.shutRet u).1 hu
  have h2 : 0 < s.rets.countP wins := List.countP_pos_iff.2 ⟨_, h1, rfl⟩
  have h3 : winning (s.pc t) ≤ ∑ i, winning (s.pc i) := by
    rw [← Finset.add_sum_erase univ (fun i => winning (s.pc i)) (mem_univ t)]; exact Nat.le_add_right _ _
  have h4 := I.count.one
  unfold closers at h4
  omega

theorem inv_step {s s' : St n} (I : Inv s) (k : Step s s') : Inv s' := by
  have hC := count_step I.count (fun t x h => I.loaded t x (.inl h)) k
  have nox : ∀ (p : PC), (∀ x, p ≠ .cCas x ∧ p ≠ .wCas x ∧ p ≠ .cMode x) → ∀ x, p = .cCas x ∨ p = .wCas x ∨ p = .cMode x → x &&& 1 = 0 := by
    intro p hp x hx
    rcases hx with h | h | h
    · exact absurd h (hp x).1
    · exact absurd h (hp x).2.1
    · exact absurd h (hp x).2.2
  cases k with
  | env b => exact ⟨hC, I.loaded, I.lock, I.going, I.told, I.notified, I.alerted, I.shut, I.shutRet, I.closeRet, I.order⟩
  | wStart t h =>
    exact inv_upd I t _ none none hC rfl ⟨rfl, rfl⟩ (by simp [St.goto]) (.inl ⟨rfl, by rw [h]; rfl⟩) (nox _ (by intro x; simp)) (by simp) (.inl ⟨rfl, rfl⟩)
      (by simp) id id (by simp) (by simp)
  | wLoadClosed t h hx =>
    exact inv_upd I t .idle none (some (.write, .errClosed)) hC rfl ⟨rfl, rfl⟩ (by simp [St.ret]) (.inl ⟨rfl, by rw [h]; rfl⟩) (nox _ (by intro x; simp)) (by simp) (.inl ⟨rfl, rfl⟩)
      (by simp) id id (by simp) (by simp)
  | wLoad t h hx =>
    exact inv_upd I t _ none none hC rfl ⟨rfl, rfl⟩ (by simp [St.goto]) (.inl ⟨rfl, by rw [h]; rfl⟩) (by intro x hh; simp at hh; rw [← hh]; exact hx) (by simp) (.inl ⟨rfl, rfl⟩)
      (by simp) id id (by simp) (by simp)
  | wCasFail t x h hx =>
    exact inv_upd I t _ none none hC rfl ⟨rfl, rfl⟩ (by simp [St.goto]) (.inl ⟨rfl, by rw [h]; rfl⟩) (nox _ (by intro x; simp)) (by simp) (.inl ⟨rfl, rfl⟩)
      (by simp) id id (by simp) (by simp)
  | wCasOk t x h hx =>
    exact inv_upd I t .wHs none none hC rfl ⟨rfl, rfl⟩ (by simp [St.goto]) (.inl ⟨rfl, by rw [h]; rfl⟩) (nox _ (by intro x; simp)) (by simp) (.inl ⟨rfl, rfl⟩)
      (by simp) id id (by simp) (by simp)
  | wHsFail t h =>
    exact inv_upd I t _ none none hC rfl ⟨rfl, rfl⟩ (by simp [St.goto]) (.inl ⟨rfl, by rw [h]; rfl⟩) (nox _ (by intro x; simp)) (by simp) (.inl ⟨rfl, rfl⟩)
      (by simp) id id (by simp) (by simp)
  | wHsOk t h =>
    exact inv_upd I t _ none none hC rfl ⟨rfl, rfl⟩ (by simp [St.goto]) (.inl ⟨rfl, by rw [h]; rfl⟩) (nox _ (by intro x; simp)) (by simp) (.inl ⟨rfl, rfl⟩)
      (by simp) id id (by simp) (by simp)
  | wLock t h hl =>
    exact inv_upd I t .wIn none none hC rfl ⟨rfl, rfl⟩ (by simp [St.goto]) (.inr (.inl ⟨rfl, hl, rfl⟩)) (nox _ (by intro x; simp)) (by simp) (.inl ⟨rfl, rfl⟩)
      (by simp) id id (by simp) (by simp)
  | wErr t h hb =>
    exact inv_upd I t _ none none hC rfl ⟨rfl, rfl⟩ (by simp [St.goto]) (.inl ⟨rfl, by rw [h]; rfl⟩) (nox _ (by intro x; simp)) (by simp) (.inl ⟨rfl, rfl⟩)
      (by simp) id id (by simp) (by simp)
  | wShut t h he hc hn =>
    exact inv_upd I t _ none none hC rfl ⟨rfl, rfl⟩ (by simp [St.goto]) (.inl ⟨rfl, by rw [h]; rfl⟩) (nox _ (by intro x; simp)) (by simp) (.inl ⟨rfl, rfl⟩)
      (by simp) id id (by simp) (by simp)
  | wPass t h he hc hn =>
    exact inv_upd I t _ none none hC rfl ⟨rfl, rfl⟩ (by simp [St.goto]) (.inl ⟨rfl, by rw [h]; rfl⟩) (nox _ (by intro x; simp)) (fun _ => ⟨hn, he⟩) (.inl ⟨rfl, rfl⟩)
      (by simp) id id (by simp) (by simp)
  | wEmit t h ho =>
    have hg := I.going t h
    refine inv_upd I t .wGo (some .data) none hC ?_ ⟨rfl, ho, fun _ => hg, by simp, by simp, ?_⟩ (by simp [St.emit]) (.inl ⟨rfl, by rw [h]⟩) (nox _ (by intro x; simp)) (fun _ => hg) (.inl ⟨rfl, rfl⟩)
      (by simp) id id (by simp) (by simp)
    · rw [← h, Function.update_eq_self]; rfl
    · simp only [St.emit, ho]; simp
  | wFail t h =>
    exact inv_upd I t (.wOut .failed) none none hC rfl ⟨rfl, rfl⟩ (by simp [St.goto]) (.inl ⟨rfl, by rw [h]; rfl⟩) (nox _ (by intro x; simp)) (by simp) (.inr (by rw [h]; rfl))
      (by simp) id (fun _ => rfl) (by simp) (by simp)
  | wDone t h =>
    have hg := I.going t h
    exact inv_upd I t (.wOut .ok) none none hC rfl ⟨rfl, rfl⟩ (by simp [St.goto]) (.inl ⟨rfl, by rw [h]; rfl⟩) (nox _ (by intro x; simp)) (by simp) (.inr (by rw [h]; rfl))
      (by simp) id (fun hh => by rw [hg.2] at hh; cases hh) (by simp) (by simp)
  | wUnlock t r h =>
    exact inv_upd I t (.wDec r) none none hC rfl ⟨rfl, rfl⟩ (by simp [St.goto]) (.inr (.inr ⟨rfl, by rw [h]; rfl, rfl⟩)) (nox _ (by intro x; simp)) (by simp) (.inl ⟨rfl, rfl⟩)
      (by simp) id id (by simp) (by simp)
  | wDec t r h =>
    exact inv_upd I t .idle none (some (.write, r)) hC rfl ⟨rfl, rfl⟩ (by simp [St.ret]) (.inl ⟨rfl, by rw [h]; rfl⟩) (nox _ (by intro x; simp)) (by simp) (.inl ⟨rfl, rfl⟩)
      (by simp) id id (by simp) (by simp)
  | cStart t h =>
    exact inv_upd I t _ none none hC rfl ⟨rfl, rfl⟩ (by simp [St.goto]) (.inl ⟨rfl, by rw [h]; rfl⟩) (nox _ (by intro x; simp)) (by simp) (.inl ⟨rfl, rfl⟩)
      (by simp) id id (by simp) (by simp)
  | cLoadClosed t h hx =>
    exact inv_upd I t .idle none (some (.close, .errClosed)) hC rfl ⟨rfl, rfl⟩ (by simp [St.ret]) (.inl ⟨rfl, by rw [h]; rfl⟩) (nox _ (by intro x; simp)) (by simp) (.inl ⟨rfl, rfl⟩)
      (by simp) id id (by simp) (by simp)
  | cLoad t h hx =>
    exact inv_upd I t _ none none hC rfl ⟨rfl, rfl⟩ (by simp [St.goto]) (.inl ⟨rfl, by rw [h]; rfl⟩) (by intro x hh; simp at hh; rw [← hh]; exact hx) (by simp) (.inl ⟨rfl, rfl⟩)
      (by simp) id id (by simp) (by simp)
  | cCasFail t x h hx =>
    exact inv_upd I t _ none none hC rfl ⟨rfl, rfl⟩ (by simp [St.goto]) (.inl ⟨rfl, by rw [h]; rfl⟩) (nox _ (by intro x; simp)) (by simp) (.inl ⟨rfl, rfl⟩)
      (by simp) id id (by simp) (by simp)
  | cCasOk t x h hx =>
    exact inv_upd I t (.cMode x) none none hC rfl ⟨rfl, rfl⟩ (by simp [St.goto]) (.inl ⟨rfl, by rw [h]; rfl⟩)
      (by intro y hh; simp at hh; rw [← hh]; exact I.loaded t x (.inl h)) (by simp) (.inl ⟨rfl, rfl⟩)
      (by simp) id id (by simp) (by simp)
  | cBusy t x h hx =>
    exact inv_upd I t _ none none hC rfl ⟨rfl, rfl⟩ (by simp [St.goto]) (.inl ⟨rfl, by rw [h]; rfl⟩) (nox _ (by intro x; simp)) (by simp) (.inl ⟨rfl, rfl⟩)
      (by simp) id id (by simp) (by simp)
  | cEarly t x h hx hc =>
    exact inv_upd I t _ none none hC rfl ⟨rfl, rfl⟩ (by simp [St.goto]) (.inl ⟨rfl, by rw [h]; rfl⟩) (nox _ (by intro x; simp)) (by simp) (.inl ⟨rfl, rfl⟩)
      (by simp) id id (by simp) (by simp)
  | cNotify t x h hx hc =>
    exact inv_upd I t _ none none hC rfl ⟨rfl, rfl⟩ (by simp [St.goto]) (.inl ⟨rfl, by rw [h]; rfl⟩) (nox _ (by intro x; simp)) (by simp) (.inl ⟨rfl, rfl⟩)
      (by simp) id id (by simp) (by simp)
  | cShut t h =>
    exact inv_upd I t .idle (some .shut) (some (.close, .ok)) hC rfl ⟨rfl, not_shut I t (by rw [h]; rfl), by simp, by simp, by simp, by simp⟩ (by simp [St.ret, St.emit])
      (.inl ⟨rfl, by rw [h]; rfl⟩) (nox _ (by intro x; simp)) (by simp) (.inl ⟨rfl, rfl⟩) (by simp) id id (by simp) (by simp)
  | nLock t f h hl =>
    exact inv_upd I t (.nIn f) none none hC rfl ⟨rfl, rfl⟩ (by simp [St.goto]) (.inr (.inl ⟨rfl, hl, rfl⟩)) (nox _ (by intro x; simp)) (by simp) (.inl ⟨rfl, rfl⟩)
      (by simp) id id (by simp) (by simp)
  | nAlready t f h hn =>
    exact inv_upd I t _ none none hC rfl ⟨rfl, rfl⟩ (by simp [St.goto]) (.inl ⟨rfl, by rw [h]; rfl⟩) (nox _ (by intro x; simp)) (by simp) (.inl ⟨rfl, rfl⟩)
      (fun _ _ => hn) id id (by simp) (by simp)
  | nSend t f h hn ho =>
    exact inv_upd I t (.nOut f) (some .notify) none hC rfl ⟨rfl, ho, by simp, fun _ => ⟨hn, rfl⟩, by simp, by simp [St.emit, St.goto, ho]⟩ (by simp [St.goto, St.emit])
      (.inl ⟨rfl, by rw [h]; rfl⟩) (nox _ (by intro x; simp)) (by simp) (.inr (by rw [h]; rfl)) (fun _ _ => rfl) (fun _ => rfl) id (by simp) (by simp)
  | nSendFail t f h hn =>
    exact inv_upd I t (.nOut f) none none hC rfl ⟨rfl, rfl⟩ (by simp [St.goto])
      (.inl ⟨rfl, by rw [h]; rfl⟩) (nox _ (by intro x; simp)) (by simp) (.inr (by rw [h]; rfl)) (fun _ _ => rfl) (fun _ => rfl) id (by simp) (by simp)
  | nUnlockClose t h =>
    exact inv_upd I t .cShut none none hC rfl ⟨rfl, rfl⟩ (by simp [St.goto]) (.inr (.inr ⟨rfl, by rw [h]; rfl, rfl⟩)) (nox _ (by intro x; simp)) (by simp) (.inl ⟨rfl, rfl⟩)
      (by simp) id id (by simp) (by simp)
  | nUnlock t h =>
    exact inv_upd I t .idle none (some (.closeWrite, .ok)) hC rfl ⟨rfl, rfl⟩ (by simp [St.ret]) (.inr (.inr ⟨rfl, by rw [h]; rfl, rfl⟩)) (nox _ (by intro x; simp)) (by simp) (.inl ⟨rfl, rfl⟩)
      (by simp) id id (by simp) (by simp)
  | sStart t h =>
    exact inv_upd I t _ none none hC rfl ⟨rfl, rfl⟩ (by simp [St.goto]) (.inl ⟨rfl, by rw [h]; rfl⟩) (nox _ (by intro x; simp)) (by simp) (.inl ⟨rfl, rfl⟩)
      (by simp) id id (by simp) (by simp)
  | sEarly t h hc =>
    exact inv_upd I t .idle none (some (.closeWrite, .failed)) hC rfl ⟨rfl, rfl⟩ (by simp [St.ret]) (.inl ⟨rfl, by rw [h]; rfl⟩) (nox _ (by intro x; simp)) (by simp) (.inl ⟨rfl, rfl⟩)
      (by simp) id id (by simp) (by simp)
  | sNotify t h hc =>
    exact inv_upd I t _ none none hC rfl ⟨rfl, rfl⟩ (by simp [St.goto]) (.inl ⟨rfl, by rw [h]; rfl⟩) (nox _ (by intro x; simp)) (by simp) (.inl ⟨rfl, rfl⟩)
      (by simp) id id (by simp) (by simp)
  | aStart t h =>
    exact inv_upd I t _ none none hC rfl ⟨rfl, rfl⟩ (by simp [St.goto]) (.inl ⟨rfl, by rw [h]; rfl⟩) (nox _ (by intro x; simp)) (by simp) (.inl ⟨rfl, rfl⟩)
      (by simp) id id (by simp) (by simp)
  | aLock t h hl =>
    exact inv_upd I t .aIn none none hC rfl ⟨rfl, rfl⟩ (by simp [St.goto]) (.inr (.inl ⟨rfl, hl, rfl⟩)) (nox _ (by intro x; simp)) (by simp) (.inl ⟨rfl, rfl⟩)
      (by simp) id id (by simp) (by simp)
  | aSend t h ho =>
    exact inv_upd I t .aOut (some .alert) none hC rfl ⟨rfl, ho, by simp, by simp, fun _ => rfl, by simp [St.emit, St.goto, ho]⟩ (by simp [St.goto, St.emit])
      (.inl ⟨rfl, by rw [h]; rfl⟩) (nox _ (by intro x; simp)) (by simp) (.inr (by rw [h]; rfl)) (by simp) id (fun _ => rfl) (by simp) (by simp)
  | aSendFail t h =>
    exact inv_upd I t .aOut none none hC rfl ⟨rfl, rfl⟩ (by simp [St.goto])
      (.inl ⟨rfl, by rw [h]; rfl⟩) (nox _ (by intro x; simp)) (by simp) (.inr (by rw [h]; rfl)) (by simp) id (fun _ => rfl) (by simp) (by simp)
  | aUnlock t h =>
    exact inv_upd I t .idle none (some (.alert, .ok)) hC rfl ⟨rfl, rfl⟩ (by simp [St.ret]) (.inr (.inr ⟨rfl, by rw [h]; rfl, rfl⟩)) (nox _ (by intro x; simp)) (by simp) (.inl ⟨rfl, rfl⟩)
      (by simp) id id (by simp) (by simp)

theorem init_counts : writers (init n) = 0 ∧ closers (init n) = 0 := by
  have h1 : ∀ t : Fin n, flying ((init n).pc t) = 0 := fun _ => rfl
  have h2 : ∀ t : Fin n, winning ((init n).pc t) = 0 := fun _ => rfl
  constructor
  · unfold writers; rw [Finset.sum_congr rfl (fun t _ => h1 t), Finset.sum_const_zero]
  · unfold closers; rw [Finset.sum_congr rfl (fun t _ => h2 t), Finset.sum_const_zero]; rfl

theorem inv_init : Inv (init n) where
  count := ⟨by rw [init_counts.1, init_counts.2]; rfl, by rw [init_counts.2]; omega⟩
  loaded t x h := by rcases h with h | h | h <;> cases h
  lock t := ⟨fun h => (by cases h), fun h => (by cases h)⟩
  going t h := by cases h
  told t f h := by cases h
  notified t h := absurd h List.not_mem_nil
  alerted t h := absurd h List.not_mem_nil
  shut := ⟨fun ⟨_, h⟩ => absurd h List.not_mem_nil, fun h => by cases h⟩
  shutRet t := ⟨fun h => absurd h List.not_mem_nil, fun h => absurd h List.not_mem_nil⟩
  closeRet t r h := absurd h List.not_mem_nil
  order := List.Pairwise.nil

theorem inv_reachable {s : St n} (h : Reachable s) : Inv s := by
  induction h with
  | refl => exact inv_init
  | tail _ k ih => exact inv_step ih k

/-! ### the closed bit is for ever -/

theorem parity_add (x : BitVec 32) : (x + 2) &&& 1 = 0 ↔ x &&& 1 = 0 := by
  have hx : x = BitVec.ofNat 32 x.toNat := (BitVec.ofNat_toNat 32 x ▸ by simp)
  generalize x.toNat = m at hx
  subst hx
  rw [show (BitVec.ofNat 32 m + 2 : BitVec 32) = BitVec.ofNat 32 (m + 2) by rw [BitVec.ofNat_add]; rfl, even_iff, even_iff]
  omega

theorem parity_sub (x : BitVec 32) : (x - 2) &&& 1 = 0 ↔ x &&& 1 = 0 := by
  rw [← parity_add (x - 2), BitVec.sub_add_cancel]

theorem parity_or (x : BitVec 32) : (x ||| 1) &&& 1 ≠ 0 := by
  intro h
  have := congrArg (fun y => y.getLsbD 0) h
  simp [BitVec.getLsbD_and, BitVec.getLsbD_or] at this

theorem closed_step {s s' : St n} (k : Step s s') (h : s.active &&& 1 ≠ 0) : s'.active &&& 1 ≠ 0 := by
  cases k <;> first
    | exact h
    | (rename_i x _ hx; show (x + 2) &&& 1 ≠ 0; rw [← hx]; exact fun h0 => h ((parity_add _).1 h0))
    | exact fun h0 => h ((parity_sub _).1 h0)
    | exact parity_or _

theorem closed_steps {s s' : St n} (k : Steps s s') (h : s.active &&& 1 ≠ 0) : s'.active &&& 1 ≠ 0 := by
  induction k with
  | refl => exact h
  | tail _ k ih => exact closed_step k ih

/-- calls returned so far, by a step -/
theorem rets_step {s s' : St n} (k : Step s s') : s'.rets = s.rets ∨ ∃ t c r, s'.rets = s.rets ++ [(t, c, r)] := by
  cases k <;> first
    | exact .inl rfl
    | exact .inr ⟨_, _, _, rfl⟩

/-- `errClosed` is only returned once the closed bit is set -/
theorem errClosed_closed {s : St n} (h : Reachable s) : ∀ t c, (t, c, Ret.errClosed) ∈ s.rets → s.active &&& 1 ≠ 0 := by
  have key : (∀ t c, (t, c, Ret.errClosed) ∈ s.rets → s.active &&& 1 ≠ 0) ∧ ∀ t, s.pc t ≠ .wOut .errClosed ∧ s.pc t ≠ .wDec .errClosed := by
    induction h with
    | refl => exact ⟨fun t c h => absurd h List.not_mem_nil, fun t => ⟨(by intro h; cases h), (by intro h; cases h)⟩⟩
    | tail _ k ih =>
      rename_i a _ _
      obtain ⟨i1, i2⟩ := ih
      constructor
      · intro t c hm
        rcases (em ((t, c, Ret.errClosed) ∈ a.rets)) with h | h
        · exact closed_step k (i1 t c h)
        · cases k <;> first
            | exact absurd hm h
            | (simp only [St.ret, St.emit, St.goto, List.mem_append, List.mem_singleton, Prod.mk.injEq, h, false_or, reduceCtorEq, and_false] at hm; done)
            | (simp only [St.ret]; assumption)
            | (simp only [St.ret, St.emit, St.goto, List.mem_append, List.mem_singleton, Prod.mk.injEq, h, false_or] at hm
               obtain ⟨h1, h2, h3⟩ := hm
               subst h1; subst h3
               rename_i hp
               exact absurd hp (i2 _).2)
      · intro t
        cases k <;> (try simp only [St.goto, St.ret, St.emit]) <;> first
          | exact i2 t
          | (refine ⟨fun hh => ?_, fun hh => ?_⟩ <;> rcases upd_cases hh with ⟨_, h⟩ | ⟨_, h⟩ <;> first
              | (cases h; done)
              | exact (i2 t).1 h
              | exact (i2 t).2 h
              | (rw [PC.wDec.injEq] at h; subst h; rename_i hp; exact absurd hp (i2 _).1))
  exact key.1

/-- a `Close` that returned, with whatever result, has set the closed bit -/
theorem close_returned {s : St n} (h : Reachable s) (t : Fin n) (r : Ret) (hr : (t, Call.close, r) ∈ s.rets) : s.active &&& 1 ≠ 0 := by
  have I := inv_reachable h
  rcases I.closeRet t r hr with rfl | rfl
  · have h2 : 0 < s.rets.countP wins := List.countP_pos_iff.2 ⟨_, hr, rfl⟩
    rw [I.count.active, ne_eq, even_iff]
    have h4 := I.count.one
    have h5 : 0 < closers s := by unfold closers; omega
    omega
  · exact errClosed_closed h t _ hr

/-! ### the properties -/

/-- C31: at most one `Close` ever returns anything but `errClosed`. -/
theorem C31_one_close {s : St n} (h : Reachable s) : (s.rets.filter (fun r => r.2.1 == .close && r.2.2 != .errClosed)).length ≤ 1 := by
  have h1 := (inv_reachable h).count.one
  unfold closers at h1
  rw [← List.countP_eq_length_filter]
  exact Nat.le_trans (Nat.le_add_right _ _) h1

/-- steps seen from a goroutine that is not in flight and cannot get in flight -/
theorem step_grounded {a b : St n} (k : Step a b) (u : Fin n) (f : flying (a.pc u) = 0) (hx : ∀ x, a.pc u = .wCas x → a.active ≠ x) :
    flying (b.pc u) = 0 ∧ (b.rets = a.rets ∨ ∃ t c r, b.rets = a.rets ++ [(t, c, r)] ∧ (t = u → c = .write → r = .errClosed)) ∧
      (b.log = a.log ∨ ∃ e t, b.log = a.log ++ [(e, t)] ∧ (t = u → e ≠ .data)) := by
  have upd : ∀ (t : Fin n) (p : PC), (t = u → flying p = 0) → flying (Function.update a.pc t p u) = 0 := by
    intro t p hp
    by_cases hu : u = t
    · subst hu; rw [Function.update_self]; exact hp rfl
    · rw [Function.update_of_ne hu]; exact f
  have bad : ∀ {t : Fin n} {p : PC}, a.pc t = p → flying p = 1 → t = u → False := by
    intro t p h1 h2 h3
    subst h3
    rw [h1, h2] at f
    cases f
  have g : ∀ (t : Fin n) (p : PC) (s1 : St n), s1.pc = Function.update a.pc t p → s1.rets = a.rets → s1.log = a.log → (t = u → flying p = 0) →
      flying (s1.pc u) = 0 ∧ (s1.rets = a.rets ∨ ∃ t c r, s1.rets = a.rets ++ [(t, c, r)] ∧ (t = u → c = .write → r = .errClosed)) ∧
      (s1.log = a.log ∨ ∃ e t, s1.log = a.log ++ [(e, t)] ∧ (t = u → e ≠ .data)) := by
    intro t p s1 e1 e2 e3 hp
    exact ⟨by rw [e1]; exact upd t p hp, .inl e2, .inl e3⟩
  cases k with
  | env b => exact ⟨f, .inl rfl, .inl rfl⟩
  | wStart t h => exact g t _ _ rfl rfl rfl (fun _ => rfl)
  | wLoadClosed t h hx' => exact ⟨upd t _ (fun _ => rfl), .inr ⟨_, _, _, rfl, fun _ _ => rfl⟩, .inl rfl⟩
  | wLoad t h hx' => exact g t _ _ rfl rfl rfl (fun _ => rfl)
  | wCasFail t x h hx' => exact g t _ _ rfl rfl rfl (fun _ => rfl)
  | wCasOk t x h hx' => exact g t _ _ rfl rfl rfl (fun hu => by subst hu; exact absurd hx' (hx x h))
  | wHsFail t h => exact g t _ _ rfl rfl rfl (fun hu => (bad h rfl hu).elim)
  | wHsOk t h => exact g t _ _ rfl rfl rfl (fun hu => (bad h rfl hu).elim)
  | wLock t h hl => exact g t _ _ rfl rfl rfl (fun hu => (bad h rfl hu).elim)
  | wErr t h hb => exact g t _ _ rfl rfl rfl (fun hu => (bad h rfl hu).elim)
  | wShut t h he hc hn => exact g t _ _ rfl rfl rfl (fun hu => (bad h rfl hu).elim)
  | wPass t h he hc hn => exact g t _ _ rfl rfl rfl (fun hu => (bad h rfl hu).elim)
  | wEmit t h ho => exact ⟨f, .inl rfl, .inr ⟨_, _, rfl, fun hu => (bad h rfl hu).elim⟩⟩
  | wFail t h => exact g t _ _ rfl rfl rfl (fun hu => (bad h rfl hu).elim)
  | wDone t h => exact g t _ _ rfl rfl rfl (fun hu => (bad h rfl hu).elim)
  | wUnlock t r h => exact g t _ _ rfl rfl rfl (fun hu => (bad h rfl hu).elim)
  | wDec t r h => exact ⟨upd t _ (fun _ => rfl), .inr ⟨_, _, _, rfl, fun hu _ => (bad h rfl hu).elim⟩, .inl rfl⟩
  | cStart t h => exact g t _ _ rfl rfl rfl (fun _ => rfl)
  | cLoadClosed t h hx' => exact ⟨upd t _ (fun _ => rfl), .inr ⟨_, _, _, rfl, fun _ hc => by cases hc⟩, .inl rfl⟩
  | cLoad t h hx' => exact g t _ _ rfl rfl rfl (fun _ => rfl)
  | cCasFail t x h hx' => exact g t _ _ rfl rfl rfl (fun _ => rfl)
  | cCasOk t x h hx' => exact g t _ _ rfl rfl rfl (fun _ => rfl)
  | cBusy t x h hx' => exact g t _ _ rfl rfl rfl (fun _ => rfl)
  | cEarly t x h hx' hc => exact g t _ _ rfl rfl rfl (fun _ => rfl)
  | cNotify t x h hx' hc => exact g t _ _ rfl rfl rfl (fun _ => rfl)
  | cShut t h => exact ⟨upd t _ (fun _ => rfl), .inr ⟨_, _, _, rfl, fun _ hc => by cases hc⟩, .inr ⟨_, _, rfl, fun _ => by simp⟩⟩
  | nLock t f' h hl => exact g t _ _ rfl rfl rfl (fun _ => rfl)
  | nAlready t f' h hn => exact g t _ _ rfl rfl rfl (fun _ => rfl)
  | nSend t f' h hn ho => exact ⟨upd t _ (fun _ => rfl), .inl rfl, .inr ⟨_, _, rfl, fun _ => by simp⟩⟩
  | nSendFail t f' h hn => exact g t _ _ rfl rfl rfl (fun _ => rfl)
  | nUnlockClose t h => exact g t _ _ rfl rfl rfl (fun _ => rfl)
  | nUnlock t h => exact ⟨upd t _ (fun _ => rfl), .inr ⟨_, _, _, rfl, fun _ hc => by cases hc⟩, .inl rfl⟩
  | sStart t h => exact g t _ _ rfl rfl rfl (fun _ => rfl)
  | sEarly t h hc => exact ⟨upd t _ (fun _ => rfl), .inr ⟨_, _, _, rfl, fun _ hc => by cases hc⟩, .inl rfl⟩
  | sNotify t h hc => exact g t _ _ rfl rfl rfl (fun _ => rfl)
  | aStart t h => exact g t _ _ rfl rfl rfl (fun _ => rfl)
  | aLock t h hl => exact g t _ _ rfl rfl rfl (fun _ => rfl)
  | aSend t h ho => exact ⟨upd t _ (fun _ => rfl), .inl rfl, .inr ⟨_, _, rfl, fun _ => by simp⟩⟩
  | aSendFail t h => exact g t _ _ rfl rfl rfl (fun _ => rfl)
  | aUnlock t h => exact ⟨upd t _ (fun _ => rfl), .inr ⟨_, _, _, rfl, fun _ hc => by cases hc⟩, .inl rfl⟩

/-- C31: once a `Close` has returned (with any result), a goroutine that is not inside a call can never get a byte of application data out
again: its further `Write` calls all return `errClosed`, and no record of it reaches the transport, in any interleaving. -/
theorem C31_no_write_after_close {s s' : St n} (h : Reachable s) (t : Fin n) (r : Ret) (hr : (t, Call.close, r) ∈ s.rets) (u : Fin n) (hu : s.pc u = .idle)
    (k : Steps s s') : (∃ new, s'.rets = s.rets ++ new ∧ ∀ q, (u, Call.write, q) ∈ new → q = .errClosed) ∧
      (∃ new, s'.log = s.log ++ new ∧ (Ev.data, u) ∉ new) := by
  have hodd := close_returned h t r hr
  have key : flying (s'.pc u) = 0 ∧ (∃ new, s'.rets = s.rets ++ new ∧ ∀ q, (u, Call.write, q) ∈ new → q = .errClosed) ∧
      (∃ new, s'.log = s.log ++ new ∧ (Ev.data, u) ∉ new) := by
    induction k with
    | refl => exact ⟨by rw [hu]; rfl, ⟨[], by simp, by simp⟩, ⟨[], by simp, by simp⟩⟩
    | tail hs k ih =>
      rename_i a _
      obtain ⟨f, ⟨n1, e1, r1⟩, ⟨n2, e2, r2⟩⟩ := ih
      have ha := closed_steps hs hodd
      have I := inv_reachable (h.trans hs)
      have hx : ∀ x, a.pc u = .wCas x → a.active ≠ x := by
        intro x hx he
        exact ha (he ▸ I.loaded u x (.inr (.inl hx)))
      obtain ⟨g1, g2, g3⟩ := step_grounded k u f hx
      refine ⟨g1, ?_, ?_⟩
      · rcases g2 with g2 | ⟨t', c, q, g2, g2'⟩
        · exact ⟨n1, by rw [g2, e1], r1⟩
        · refine ⟨n1 ++ [(t', c, q)], by rw [g2, e1, List.append_assoc], ?_⟩
          intro q' hq
          rcases List.mem_append.1 hq with hq | hq
          · exact r1 q' hq
          · simp only [List.mem_singleton, Prod.mk.injEq] at hq
            rw [hq.2.2]
            exact g2' hq.1.symm hq.2.1.symm
      · rcases g3 with g3 | ⟨e, t', g3, g3'⟩
        · exact ⟨n2, by rw [g3, e2], r2⟩
        · refine ⟨n2 ++ [(e, t')], by rw [g3, e2, List.append_assoc], ?_⟩
          intro hq
          rcases List.mem_append.1 hq with hq | hq
          · exact r2 hq
          · simp only [List.mem_singleton, Prod.mk.injEq] at hq
            exact g3' hq.2.symm hq.1.symm
  exact key.2

/-- C31: what can follow what on the transport. After a close_notify there is no application data and no second close_notify; after any
other alert there is no application data; after the underlying `Close` there is nothing. -/
theorem C31_order {s : St n} (h : Reachable s) (l₁ l₂ : List (Ev × Fin n)) (e : Ev) (t : Fin n) (hl : s.log = l₁ ++ (e, t) :: l₂) :
    (e = .notify → ∀ x ∈ l₂, x.1 ≠ .data ∧ x.1 ≠ .notify) ∧ (e = .alert → ∀ x ∈ l₂, x.1 ≠ .data) ∧ (e = .shut → l₂ = []) := by
  have ho := (inv_reachable h).order
  rw [hl] at ho
  have h1 := (List.pairwise_cons.1 (List.pairwise_append.1 ho).2.1).1
  refine ⟨?_, ?_, ?_⟩
  · rintro rfl x hx; exact h1 x hx
  · rintro rfl x hx; exact h1 x hx
  · rintro rfl
    cases l₂ with
    | nil => rfl
    | cons x xs => exact (h1 x List.mem_cons_self).elim

/-- C31: close_notify is sent at most once, whoever calls `Close` and `CloseWrite` how often. -/
theorem C31_notify_once {s : St n} (h : Reachable s) : (s.log.filter (fun x => x.1 == .notify)).length ≤ 1 := by
  have ho := (inv_reachable h).order
  rw [← List.countP_eq_length_filter]
  generalize s.log = l at ho
  induction l with
  | nil => simp
  | cons x l ih =>
    obtain ⟨h1, h2⟩ := List.pairwise_cons.1 ho
    rw [List.countP_cons]
    by_cases hx : x.1 = .notify
    · have h0 : List.countP (fun x => x.1 == Ev.notify) l = 0 := by
        rw [List.countP_eq_zero]
        intro y hy
        have := h1 y hy
        rw [hx] at this
        simpa using this.2
      rw [h0]; split <;> omega
    · rw [if_neg (by simpa using hx)]
      exact ih h2

/-- C31: the transport is closed exactly by the `Close` calls that return without `errClosed`. -/
theorem C31_transport_closed {s : St n} (h : Reachable s) (t : Fin n) : (Ev.shut, t) ∈ s.log ↔ (t, Call.close, Ret.ok) ∈ s.rets :=
  (inv_reachable h).shutRet t

/-- C31: `Close` decides by the calls in flight. When its compare-and-swap succeeds, the value swapped out is 0 exactly if no `Write` is between
its own compare-and-swap and its return (as long as fewer than 2^31 are), and no `Close` won before. -/
theorem C31_close_sees_writers {s : St n} (h : Reachable s) (t : Fin n) (x : BitVec 32) (hp : s.pc t = .cCas x) (hx : s.active = x)
    (hw : writers s < 2 ^ 31) : (x = 0 ↔ ∀ u, flying (s.pc u) = 0) ∧ closers s = 0 := by
  have I := inv_reachable h
  have h0 := I.loaded t x (.inl hp)
  have ha := I.count.active
  rw [← hx, ha, even_iff] at h0
  have hc : closers s = 0 := by have := I.count.one; omega
  refine ⟨?_, hc⟩
  rw [hc, Nat.add_zero] at ha
  have hs : writers s = 0 ↔ ∀ u, flying (s.pc u) = 0 := by
    unfold writers
    rw [Finset.sum_eq_zero_iff]
    simp
  rw [← hx, ha, ← hs, ← BitVec.toNat_inj, BitVec.toNat_ofNat, Nat.mod_eq_of_lt (by rw [show (2 : Nat) ^ 32 = 2 * 2 ^ 31 by norm_num]; omega),
    show BitVec.toNat (0 : BitVec 32) = 0 from rfl]
  omega

/-- C31: a `Close` that finds no `Write` in flight after a completed handshake does not close the transport before a close_notify was attempted (by
itself or an earlier `CloseWrite`). -/
theorem C31_orderly_close {s s' : St n} (h : Reachable s) (t : Fin n) (hp : s.pc t = .nWant true) (k : Steps s s') :
    s'.notified = true ∨ ((Ev.shut, t) ∉ s'.log ∧ (t, Call.close, Ret.ok) ∉ s'.rets) := by
  have key : s'.notified = true ∨ s'.pc t = .nWant true ∨ s'.pc t = .nIn true := by
    induction k with
    | refl => exact .inr (.inl hp)
    | tail hs k ih =>
      rename_i a _
      have go : ∀ (u : Fin n) (p : PC), (u = t → a.pc u = .nWant true ∨ a.pc u = .nIn true → p = .nWant true ∨ p = .nIn true) →
          (a.pc t = .nWant true ∨ a.pc t = .nIn true) → (Function.update a.pc u p t = .nWant true ∨ Function.update a.pc u p t = .nIn true) := by
        intro u p hp' h1
        by_cases hu : t = u
        · subst hu; rw [Function.update_self]; exact hp' rfl h1
        · rw [Function.update_of_ne hu]; exact h1
      rcases ih with ih | ih
      · left
        cases k <;> first | exact ih | rfl
      · cases k with
        | env b => exact .inr ih
        | wEmit u h ho => exact .inr ih
        | nLock u f hu hl =>
          right
          refine go u (.nIn f) (fun e h1 => ?_) ih
          subst e
          rw [hu] at h1
          rcases h1 with h1 | h1
          · rw [PC.nWant.injEq] at h1; subst h1; exact .inr rfl
          · cases h1
        | nAlready u f hu hn => exact .inl hn
        | nSend u f hu hn ho => exact .inl rfl
        | nSendFail u f hu hn => exact .inl rfl
        | _ =>
          right
          refine go _ _ (fun e h1 => ?_) ih
          exfalso
          rcases h1 with h1 | h1 <;> simp_all
  rcases key with h1 | h1
  · exact .inl h1
  · right
    have I := inv_reachable (h.trans k)
    have hns := not_shut I t (by rcases h1 with h1 | h1 <;> rw [h1] <;> rfl)
    have hn : (Ev.shut, t) ∉ s'.log := fun hm => by
      have := I.shut.1 ⟨t, hm⟩
      rw [hns] at this; cases this
    exact ⟨hn, fun hm => hn ((I.shutRet t).2 hm)⟩

/-- a goroutine inside a call that is not waiting for the lock can take a step of its own -/
theorem can_step (s : St n) (u : Fin n) (h1 : s.pc u ≠ .idle) (h2 : s.lock = none ∨ holds (s.pc u) = true ∨ s.pc u = .cShut ∨ winning (s.pc u) = 1 ∧ ∀ f, s.pc u ≠ .nWant f) :
    ∃ s', Step s s' ∧ s'.pc u ≠ s.pc u := by
  have key : ∀ p, s.pc u = p → ∃ s', Step s s' ∧ s'.pc u ≠ s.pc u := by
    intro p hp
    have fin : ∀ (s' : St n) (q : PC), s'.pc = Function.update s.pc u q → q ≠ p → s'.pc u ≠ s.pc u := by
      intro s' q e hq
      rw [e, Function.update_self, hp]; exact hq
    cases p with
    | idle => exact absurd hp h1
    | wTry =>
      by_cases hx : s.active &&& 1 = 0
      · exact ⟨_, .wLoad s u hp hx, fin _ _ rfl (by simp)⟩
      · exact ⟨_, .wLoadClosed s u hp hx, fin _ .idle rfl (by simp)⟩
    | wCas x =>
      by_cases hx : s.active = x
      · exact ⟨_, .wCasOk s u x hp hx, fin _ .wHs rfl (by simp)⟩
      · exact ⟨_, .wCasFail s u x hp hx, fin _ .wTry rfl (by simp)⟩
    | wHs => exact ⟨_, .wHsOk s u hp, fin _ .wWant rfl (by simp)⟩
    | wWant =>
      rw [hp] at h2
      rcases h2 with h2 | h2 | h2 | h2
      · exact ⟨_, .wLock s u hp h2, fin _ .wIn rfl (by simp)⟩
      · cases h2
      · cases h2
      · cases h2.1
    | wIn =>
      by_cases hb : s.outErr = true ∨ s.complete = false
      · exact ⟨_, .wErr s u hp hb, fin _ (.wOut .failed) rfl (by simp)⟩
      · have he : s.outErr = false := by cases h : s.outErr <;> simp_all
        have hc : s.complete = true := by cases h : s.complete <;> simp_all
        cases hn : s.notified
        · exact ⟨_, .wPass s u hp he hc hn, fin _ .wGo rfl (by simp)⟩
        · exact ⟨_, .wShut s u hp he hc hn, fin _ (.wOut .errShutdown) rfl (by simp)⟩
    | wGo => exact ⟨_, .wDone s u hp, fin _ (.wOut .ok) rfl (by simp)⟩
    | wOut r => exact ⟨_, .wUnlock s u r hp, fin _ (.wDec r) rfl (by simp)⟩
    | wDec r => exact ⟨_, .wDec s u r hp, fin _ .idle rfl (by simp)⟩
    | cTry =>
      by_cases hx : s.active &&& 1 = 0
      · exact ⟨_, .cLoad s u hp hx, fin _ _ rfl (by simp)⟩
      · exact ⟨_, .cLoadClosed s u hp hx, fin _ .idle rfl (by simp)⟩
    | cCas x =>
      by_cases hx : s.active = x
      · exact ⟨_, .cCasOk s u x hp hx, fin _ (.cMode x) rfl (by simp)⟩
      · exact ⟨_, .cCasFail s u x hp hx, fin _ .cTry rfl (by simp)⟩
    | cMode x =>
      by_cases hx : x = 0
      · cases hc : s.complete
        · exact ⟨_, .cEarly s u x hp hx hc, fin _ .cShut rfl (by simp)⟩
        · exact ⟨_, .cNotify s u x hp hx hc, fin _ (.nWant true) rfl (by simp)⟩
      · exact ⟨_, .cBusy s u x hp hx, fin _ .cShut rfl (by simp)⟩
    | cShut => exact ⟨_, .cShut s u hp, fin _ .idle rfl (by simp)⟩
    | nWant f =>
      rw [hp] at h2
      rcases h2 with h2 | h2 | h2 | h2
      · exact ⟨_, .nLock s u f hp h2, fin _ (.nIn f) rfl (by simp)⟩
      · cases h2
      · cases h2
      · exact absurd rfl (h2.2 f)
    | nIn f =>
      cases hn : s.notified
      · exact ⟨_, .nSendFail s u f hp hn, fin _ (.nOut f) rfl (by simp)⟩
      · exact ⟨_, .nAlready s u f hp hn, fin _ (.nOut f) rfl (by simp)⟩
    | nOut f =>
      cases f
      · exact ⟨_, .nUnlock s u hp, fin _ .idle rfl (by simp)⟩
      · exact ⟨_, .nUnlockClose s u hp, fin _ .cShut rfl (by simp)⟩
    | sTop =>
      cases hc : s.complete
      · exact ⟨_, .sEarly s u hp hc, fin _ .idle rfl (by simp)⟩
      · exact ⟨_, .sNotify s u hp hc, fin _ (.nWant false) rfl (by simp)⟩
    | aWant =>
      rw [hp] at h2
      rcases h2 with h2 | h2 | h2 | h2
      · exact ⟨_, .aLock s u hp h2, fin _ .aIn rfl (by simp)⟩
      · cases h2
      · cases h2
      · cases h2.1
    | aIn => exact ⟨_, .aSendFail s u hp, fin _ .aOut rfl (by simp)⟩
    | aOut => exact ⟨_, .aUnlock s u hp, fin _ .idle rfl (by simp)⟩
  exact key _ rfl

/-- C31: no deadlock: as long as some call has not returned, some goroutine inside a call can take a step. -/
theorem C31_no_deadlock {s : St n} (h : Reachable s) (t : Fin n) (ht : s.pc t ≠ .idle) :
    ∃ (u : Fin n) (s' : St n), s.pc u ≠ .idle ∧ Step s s' ∧ s'.pc u ≠ s.pc u := by
  have I := inv_reachable h
  cases hl : s.lock with
  | none =>
    obtain ⟨s', k, e⟩ := can_step s t ht (.inl hl)
    exact ⟨t, s', ht, k, e⟩
  | some u =>
    have hu := (I.lock u).1 hl
    have hi : s.pc u ≠ .idle := fun e => by rw [e] at hu; cases hu
    obtain ⟨s', k, e⟩ := can_step s u hi (.inr (.inl hu))
    exact ⟨u, s', hi, k, e⟩

/-- C31: a `Close` that found a `Write` in flight interrupts it: it reaches the underlying `Close` in two steps of its own whoever holds the lock (a
writer stuck in the transport cannot hold it up), without sending a close_notify. -/
theorem C31_close_interrupts (s : St n) (t : Fin n) (x : BitVec 32) (hp : s.pc t = .cMode x) (hx : x ≠ 0) :
    ∃ s₁ s₂, Step s s₁ ∧ Step s₁ s₂ ∧ s₂.netClosed = true ∧ s₂.log = s.log ++ [(Ev.shut, t)] ∧ (t, Call.close, Ret.ok) ∈ s₂.rets ∧
      s₂.notified = s.notified := by
  refine ⟨_, _, .cBusy s t x hp hx, .cShut _ t (by simp [St.goto]), rfl, rfl, ?_, rfl⟩
  simp [St.ret]

/-- two goroutines: one writes a record, the other closes afterwards: the hypotheses of the theorems above are met by a real execution -/
example : ∃ s : St 2, Reachable s ∧ s.log = [(Ev.data, 0), (Ev.notify, 1), (Ev.shut, 1)] ∧
    s.rets = [(0, Call.write, Ret.ok), (1, Call.close, Ret.ok)] ∧ s.pc 0 = .idle := by
  have h0 : Reachable (init 2) := .refl _
  have h1 := h0.tail (.env _ true)
  have h2 := h1.tail (.wStart _ 0 rfl)
  have h3 := h2.tail (.wLoad _ 0 rfl (by decide))
  have h4 := h3.tail (.wCasOk _ 0 _ rfl rfl)
  have h5 := h4.tail (.wHsOk _ 0 rfl)
  have h6 := h5.tail (.wLock _ 0 rfl rfl)
  have h7 := h6.tail (.wPass _ 0 rfl rfl rfl rfl)
  have h8 := h7.tail (.wEmit _ 0 rfl rfl)
  have h9 := h8.tail (.wDone _ 0 rfl)
  have h10 := h9.tail (.wUnlock _ 0 _ rfl)
  have h11 := h10.tail (.wDec _ 0 _ rfl)
  have h12 := h11.tail (.cStart _ 1 rfl)
  have h13 := h12.tail (.cLoad _ 1 rfl (by decide))
  have h14 := h13.tail (.cCasOk _ 1 _ rfl rfl)
  have h15 := h14.tail (.cNotify _ 1 _ rfl (by decide) rfl)
  have h16 := h15.tail (.nLock _ 1 _ rfl rfl)
  have h17 := h16.tail (.nSend _ 1 _ rfl rfl rfl)
  have h18 := h17.tail (.nUnlockClose _ 1 rfl)
  have h19 := h18.tail (.cShut _ 1 rfl)
  exact ⟨_, h19, rfl, rfl, rfl⟩

end Verif.Tls.Interlock
