import Verif.Sm2.Asm.Machine
import Mathlib.Data.List.Nodup
import Mathlib.Tactic.Ring
import Mathlib.Tactic.LinearCombination
/-!
Hoare-style lemmas for the instruction sequences the field routines are made of.
-/
namespace Verif.Sm2.Asm

/-- nothing but the registers of `l` and the flags differs -/
def Same (l : List Reg) (s s' : St) : Prop :=
  (∀ r, r ∉ l → s'.r r = s.r r) ∧ s'.heap = s.heap ∧ s'.stk = s.stk ∧ s'.args = s.args ∧ s'.x = s.x

theorem Same.refl (l : List Reg) (s : St) : Same l s s := ⟨fun _ _ => rfl, rfl, rfl, rfl, rfl⟩

theorem Same.trans {l m n : List Reg} {a b c : St} (h : Same l a b) (k : Same m b c) (hl : l ⊆ n) (hm : m ⊆ n) : Same n a c :=
  ⟨fun r hr => (k.1 r (fun x => hr (hm x))).trans (h.1 r (fun x => hr (hl x))), k.2.1.trans h.2.1, k.2.2.1.trans h.2.2.1,
   k.2.2.2.1.trans h.2.2.2.1, k.2.2.2.2.trans h.2.2.2.2⟩

theorem Same.mono {l n : List Reg} {a b : St} (h : Same l a b) (hl : l ⊆ n) : Same n a b :=
  h.trans (Same.refl l b) hl hl

/-- the operand reads no register of `l` -/
def Src.avoids (l : List Reg) : Src → Prop
  | .reg r => r ∉ l
  | .mem b _ => b ∉ l
  | _ => True

instance (l : List Reg) (s : Src) : Decidable (s.avoids l) := by cases s <;> unfold Src.avoids <;> infer_instance

theorem Same.get {l : List Reg} {a b : St} (h : Same l a b) {s : Src} (hs : s.avoids l) : s.get b = s.get a := by
  obtain ⟨h1, h2, h3, h4, h5⟩ := h
  cases s with
  | reg r => exact h1 r hs
  | imm n => rfl
  | mem r o => simp only [Src.get, h2, h1 r hs]
  | stk o => simp only [Src.get, h3]
  | arg o => simp only [Src.get, h4]

theorem get_reg (s : St) (r : Reg) : (Src.reg r).get s = s.r r := rfl
theorem get_imm (s : St) (n : Nat) : (Src.imm n).get s = n := rfl
theorem get_mem (s : St) (b : Reg) (o : Nat) : (Src.mem b o).get s = s.heap (s.r b + o) := rfl
theorem get_stk (s : St) (o : Nat) : (Src.stk o).get s = s.stk o := rfl
theorem get_arg (s : St) (o : Nat) : (Src.arg o).get s = s.args o := rfl

theorem Same.setR (s : St) (d : Reg) (v : Nat) : Same [d] s (s.setR d v) :=
  ⟨fun r hr => by simp only [St.setR, upd_apply, if_neg (List.mem_singleton.not.1 hr)], rfl, rfl, rfl, rfl⟩

theorem mac_arith (a t m : Nat) (ha : a < B) (ht : t < B) (hm : m ≤ (B - 1) * (B - 1)) :
    ((a + t) % B + m % B) % B = (a + t + m) % B ∧
    (m / B + (if B ≤ a + t then 1 else 0)) % B = (m / B + (if B ≤ a + t then 1 else 0)) ∧
    ((m / B + (if B ≤ a + t then 1 else 0)) + (if B ≤ (a + t) % B + m % B then 1 else 0)) = (a + t + m) / B ∧
    (a + t + m) / B < B := by
  simp only [B] at *
  split <;> split <;> omega

theorem mul_bound {x y : Nat} (hx : x < B) (hy : y < B) : x * y ≤ (B - 1) * (B - 1) := Nat.mul_le_mul (by omega) (by omega)

/-- inequalities of registers from `Nodup`, both ways round -/
macro "regs" h:ident k:ident : tactic =>
  `(tactic| (have $k := List.nodup_reverse.2 $h
             simp only [List.reverse_cons, List.reverse_nil, List.nil_append, List.cons_append, List.nodup_cons, List.mem_cons, List.not_mem_nil, or_false,
               not_or, List.nodup_nil, and_true, not_false_eq_true] at $h:ident $k:ident))

/-- executes a block whose register names are told apart by `h`, `k` -/
macro "run" "[" l:Lean.Parser.Tactic.simpLemma,* "]" h:ident k:ident : tactic =>
  `(tactic| (simp only [exec_cons, exec_nil, step, St.put, St.setR, St.addTo, St.subTo, St.logic, get_reg, get_imm, carry, p2_32]
             simp only [upd_apply, reduceCtorEq, if_true, if_false, decide_eq_true_eq, Nat.add_zero, Nat.zero_add, $h:ident, $k:ident, $l,*]))

/-- the frame part of a block lemma -/
macro "frame" : tactic =>
  `(tactic| (refine ⟨fun r hr => ?_, rfl, rfl, rfl, rfl⟩
             simp only [List.mem_cons, List.not_mem_nil, or_false, not_or] at hr
             simp only [upd_apply, hr, if_false]))

/-- `(a, u) := a + t + x*y` : the multiply-accumulate step -/
def mac (src m : Src) (a t u : Reg) : List Instr :=
  [.movq src (.reg .AX), .mulq m, .addq (.reg t) a, .adcq (.imm 0) .DX, .addq (.reg .AX) a, .adcq (.imm 0) .DX, .movq (.reg .DX) (.reg u)]

theorem mac_spec (src m : Src) (a t u : Reg) (s : St) (bx : src.get s < B) (by' : m.get s < B) (ba : s.r a < B) (bt : s.r t < B)
    (hd : [.AX, .DX, a, t].Nodup) (hd2 : [.AX, .DX, a, u].Nodup) (hm : m.avoids [.AX]) :
    (exec (mac src m a t u) s).r a = (s.r a + s.r t + src.get s * m.get s) % B ∧
    (exec (mac src m a t u) s).r u = (s.r a + s.r t + src.get s * m.get s) / B ∧
    (exec (mac src m a t u) s).cf = false ∧
    Same [.AX, .DX, a, u] s (exec (mac src m a t u) s) := by
  regs hd hk
  regs hd2 hk2
  obtain ⟨e1, e2, e3, e4⟩ := mac_arith (s.r a) (s.r t) _ ba bt (mul_bound bx by')
  have g : m.get (s.setR .AX (src.get s)) = m.get s := (Same.setR s .AX (src.get s)).get hm
  simp only [mac, exec_cons, step, St.put]
  rw [g]
  generalize src.get s = x at *
  generalize Src.get s m = y at *
  run [hd2, hk2, e2, e3, Nat.mod_eq_of_lt e4] hd hk
  refine ⟨e1, trivial, ?_, ?_⟩
  · rw [decide_eq_false_iff_not]; omega
  · frame

/-- `(a, u) := a + x*y` -/
def mac0 (src m : Src) (a u : Reg) : List Instr :=
  [.movq src (.reg .AX), .mulq m, .addq (.reg .AX) a, .adcq (.imm 0) .DX, .movq (.reg .DX) (.reg u)]

theorem mac0_spec (src m : Src) (a u : Reg) (s : St) (bx : src.get s < B) (by' : m.get s < B) (ba : s.r a < B)
    (hd : [.AX, .DX, a, u].Nodup) (hm : m.avoids [.AX]) :
    (exec (mac0 src m a u) s).r a = (s.r a + src.get s * m.get s) % B ∧
    (exec (mac0 src m a u) s).r u = (s.r a + src.get s * m.get s) / B ∧
    (exec (mac0 src m a u) s).cf = false ∧
    Same [.AX, .DX, a, u] s (exec (mac0 src m a u) s) := by
  regs hd hk
  have hb := mul_bound bx by'
  have g : m.get (s.setR .AX (src.get s)) = m.get s := (Same.setR s .AX (src.get s)).get hm
  simp only [mac0, exec_cons, step, St.put]
  rw [g]
  generalize src.get s = x at *
  generalize Src.get s m = y at *
  run [] hd hk
  generalize x * y = w at *
  refine ⟨by simp only [B] at *; omega, by simp only [B] at *; split <;> omega, ?_, ?_⟩
  · rw [decide_eq_false_iff_not]; simp only [B] at *; split <;> omega
  · frame

/-- `(a, b) := x*y` -/
def mul0 (src m : Src) (a b : Reg) : List Instr := [.movq src (.reg .AX), .mulq m, .movq (.reg .AX) (.reg a), .movq (.reg .DX) (.reg b)]

theorem mul0_spec (src m : Src) (a b : Reg) (s : St) (hd : [.AX, .DX, a, b].Nodup) (hm : m.avoids [.AX]) :
    (exec (mul0 src m a b) s).r a = (src.get s * m.get s) % B ∧ (exec (mul0 src m a b) s).r b = (src.get s * m.get s) / B ∧
    Same [.AX, .DX, a, b] s (exec (mul0 src m a b) s) := by
  regs hd hk
  have g : m.get (s.setR .AX (src.get s)) = m.get s := (Same.setR s .AX (src.get s)).get hm
  simp only [mul0, exec_cons, step, St.put]
  rw [g]
  generalize src.get s = x at *
  generalize Src.get s m = y at *
  run [] hd hk
  refine ⟨trivial, trivial, ?_⟩
  frame

/-- `(a, b, c) += t + x*y` : the end of a row -/
def macEnd (src m : Src) (a t b c : Reg) : List Instr :=
  [.movq src (.reg .AX), .mulq m, .addq (.reg t) a, .adcq (.imm 0) .DX, .addq (.reg .AX) a, .adcq (.reg .DX) b, .adcq (.imm 0) c]

theorem macEnd_spec (src m : Src) (a t b c : Reg) (s : St) (bx : src.get s < B) (by' : m.get s < B) (ba : s.r a < B) (bt : s.r t < B)
    (bb : s.r b < B) (hd : [.AX, .DX, a, t, b, c].Nodup) (hm : m.avoids [.AX]) :
    (exec (macEnd src m a t b c) s).r a = (s.r a + s.r t + src.get s * m.get s) % B ∧
    (exec (macEnd src m a t b c) s).r b = (s.r b + (s.r a + s.r t + src.get s * m.get s) / B) % B ∧
    (exec (macEnd src m a t b c) s).r c = (s.r c + (s.r b + (s.r a + s.r t + src.get s * m.get s) / B) / B) % B ∧
    Same [.AX, .DX, a, b, c] s (exec (macEnd src m a t b c) s) := by
  regs hd hk
  obtain ⟨e1, e2, e3, e4⟩ := mac_arith (s.r a) (s.r t) _ ba bt (mul_bound bx by')
  have g : m.get (s.setR .AX (src.get s)) = m.get s := (Same.setR s .AX (src.get s)).get hm
  simp only [macEnd, exec_cons, step, St.put]
  rw [g]
  generalize src.get s = x at *
  generalize Src.get s m = y at *
  run [e2] hd hk
  have e5 : s.r b + (x * y / B + if B ≤ s.r a + s.r t then 1 else 0) + (if B ≤ (s.r a + s.r t) % B + x * y % B then 1 else 0) =
    s.r b + (s.r a + s.r t + x * y) / B := by rw [← e3, Nat.add_assoc]
  rw [e5]
  refine ⟨e1, rfl, ?_, ?_⟩
  · congr 2
    simp only [B] at *
    split <;> omega
  · frame

/-- registers outside a list, told apart by `h`, `k` -/
macro "far" h:ident k:ident : tactic =>
  `(tactic| simp only [List.map_cons, List.map_nil, List.mem_cons, List.not_mem_nil, or_false, $h:ident, $k:ident, or_self, not_false_eq_true, reduceCtorEq])

theorem sub_limb (a b : Nat) (ha : a < B) (hb : b ≤ B) :
    (a + B - b) % B + b = a + (if a < b then 1 else 0) * B ∧ (a + B - b) % B < B := by
  simp only [B] at *
  split <;> omega

theorem add_limb (a b : Nat) (h : a + b < 2 * B) : (a + b) % B + (if B ≤ a + b then 1 else 0) * B = a + b ∧ (a + b) % B < B := by
  simp only [B] at *
  split <;> omega

theorem sub_wrap {R V A f M : Nat} (h : R + V = A + f * M) (hR : R < M) (hV : V ≤ A + M) : R = (A + M - V) % M := by
  have e : R + M = A + M - V + f * M := by omega
  have : (R + M) % M = (A + M - V + f * M) % M := by rw [e]
  rw [Nat.add_mod_right, Nat.mod_eq_of_lt hR, Nat.add_mul_mod_self_right] at this
  exact this

theorem add_wrap {R A f M : Nat} (h : R + f * M = A) (hR : R < M) : R = A % M := by
  rw [← h, Nat.add_mul_mod_self_right, Nat.mod_eq_of_lt hR]

theorem bit_le (p : Prop) [Decidable p] : (if p then 1 else 0) ≤ 1 := by split <;> omega

theorem carry_le (s : St) : carry s ≤ 1 := bit_le _

theorem Same.r {l : List Reg} {a b : St} (h : Same l a b) {r : Reg} (hr : r ∉ l) : b.r r = a.r r := h.1 r hr

theorem adcq_spec (a : Src) (d : Reg) (s : St) (ha : a.get s < B) (hd : s.r d < B) :
    (step s (.adcq a d)).r d + carry (step s (.adcq a d)) * B = s.r d + a.get s + carry s ∧ (step s (.adcq a d)).r d < B ∧
    Same [d] s (step s (.adcq a d)) := by
  have h := add_limb (s.r d + a.get s) (carry s) (by have := carry_le s; omega)
  simp only [step, St.addTo]
  generalize carry s = k at *
  simp only [carry, decide_eq_true_eq, upd_apply, if_true]
  refine ⟨h.1, h.2, ?_⟩
  frame

theorem addq_spec (a : Src) (d : Reg) (s : St) (ha : a.get s < B) (hd : s.r d < B) :
    (step s (.addq a d)).r d + carry (step s (.addq a d)) * B = s.r d + a.get s ∧ (step s (.addq a d)).r d < B ∧
    Same [d] s (step s (.addq a d)) := by
  have h := add_limb (s.r d) (a.get s) (by omega)
  simp only [step, St.addTo, carry, decide_eq_true_eq, upd_apply, if_true] at *
  refine ⟨h.1, h.2, ?_⟩
  frame

theorem sbbq_spec (a : Src) (d : Reg) (s : St) (ha : a.get s < B) (hd : s.r d < B) :
    (step s (.sbbq a d)).r d + (a.get s + carry s) = s.r d + carry (step s (.sbbq a d)) * B ∧ (step s (.sbbq a d)).r d < B ∧
    Same [d] s (step s (.sbbq a d)) := by
  have h := sub_limb (s.r d) (a.get s + carry s) hd (by have := carry_le s; omega)
  simp only [step, St.subTo]
  generalize carry s = k at *
  simp only [carry, decide_eq_true_eq, upd_apply, if_true]
  refine ⟨h.1, h.2, ?_⟩
  frame

theorem subq_spec (a : Src) (d : Reg) (s : St) (ha : a.get s < B) (hd : s.r d < B) :
    (step s (.subq a d)).r d + a.get s = s.r d + carry (step s (.subq a d)) * B ∧ (step s (.subq a d)).r d < B ∧
    Same [d] s (step s (.subq a d)) := by
  have h := sub_limb (s.r d) (a.get s) hd (by omega)
  simp only [step, St.subTo, carry, decide_eq_true_eq, upd_apply, if_true] at *
  refine ⟨h.1, h.2, ?_⟩
  frame

/-- the number in a row of registers, lowest limb first -/
def val (s : St) : List Reg → Nat
  | [] => 0
  | r :: l => s.r r + B * val s l

/-- the registers hold words -/
def Wd (s : St) (l : List Reg) : Prop := ∀ r ∈ l, s.r r < B

theorem Wd.cons {s : St} {a : Reg} {l : List Reg} (h : s.r a < B) (k : Wd s l) : Wd s (a :: l) := by
  intro r hr
  rcases List.mem_cons.1 hr with rfl | hr
  · exact h
  · exact k r hr

theorem Wd.nil {s : St} : Wd s [] := by intro r hr; cases hr

theorem Wd.head {s : St} {a : Reg} {l : List Reg} (h : Wd s (a :: l)) : s.r a < B := h a (by simp)
theorem Wd.tail {s : St} {a : Reg} {l : List Reg} (h : Wd s (a :: l)) : Wd s l := fun r hr => h r (List.mem_cons_of_mem _ hr)

theorem Same.val {l : List Reg} {a b : St} (h : Same l a b) {m : List Reg} (hm : ∀ r ∈ m, r ∉ l) : val b m = val a m := by
  induction m with
  | nil => rfl
  | cons r m ih => simp only [Asm.val, h.r (hm r (by simp)), ih (fun r hr => hm r (List.mem_cons_of_mem _ hr))]

theorem Same.wd {l : List Reg} {a b : St} (h : Same l a b) {m : List Reg} (hm : ∀ r ∈ m, r ∉ l) (w : Wd a m) : Wd b m := by
  intro r hr
  rw [h.r (hm r hr)]
  exact w r hr

/-- a chain of `ADCQ`: the sources onto the registers, with the carry coming in -/
def adcs : List (Src × Reg) → List Instr
  | [] => []
  | (a, d) :: l => .adcq a d :: adcs l

/-- a chain of `SBBQ` -/
def sbbs : List (Src × Reg) → List Instr
  | [] => []
  | (a, d) :: l => .sbbq a d :: sbbs l

/-- the number in a row of operands -/
def sval (s : St) : List Src → Nat
  | [] => 0
  | a :: l => a.get s + B * sval s l

/-- no source reads a register written before it (or by the same instruction) in the chain -/
def Clean : List (Src × Reg) → Prop
  | [] => True
  | (_, d) :: l => (∀ p ∈ l, p.1.avoids [d] ∧ p.2 ≠ d) ∧ Clean l

instance decClean : (l : List (Src × Reg)) → Decidable (Clean l)
  | [] => .isTrue trivial
  | (_, _) :: l => @instDecidableAnd _ _ (List.decidableBAll _ _) (decClean l)

theorem Same.sval {l : List Reg} {a b : St} (h : Same l a b) {m : List Src} (hm : ∀ r ∈ m, r.avoids l) : sval b m = sval a m := by
  induction m with
  | nil => rfl
  | cons r m ih => simp only [Asm.sval, h.get (hm r (by simp)), ih (fun r hr => hm r (List.mem_cons_of_mem _ hr))]

theorem adcs_spec (l : List (Src × Reg)) : ∀ (s : St), (∀ p ∈ l, p.1.get s < B ∧ s.r p.2 < B) → Clean l →
    val (exec (adcs l) s) (l.map (·.2)) + carry (exec (adcs l) s) * B ^ l.length = val s (l.map (·.2)) + sval s (l.map (·.1)) + carry s ∧
    Wd (exec (adcs l) s) (l.map (·.2)) ∧ Same (l.map (·.2)) s (exec (adcs l) s) := by
  induction l with
  | nil => intro s _ _; exact ⟨by simp [adcs, val, sval], .nil, .refl _ _⟩
  | cons p l ih =>
    intro s hb hc
    obtain ⟨a, d⟩ := p
    obtain ⟨h1, h2, h3⟩ := adcq_spec a d s (hb (a, d) List.mem_cons_self).1 (hb (a, d) List.mem_cons_self).2
    have hl : ∀ p ∈ l, p.1.avoids [d] ∧ p.2 ≠ d := hc.1
    obtain ⟨k1, k2, k3⟩ := ih (step s (.adcq a d)) (by
      intro p hp
      have := hb p (List.mem_cons_of_mem _ hp)
      rw [h3.get (hl p hp).1, h3.r (by simp [(hl p hp).2])]
      exact this) hc.2
    have hd : d ∉ l.map (·.2) := by
      intro h
      obtain ⟨p, hp, e⟩ := List.mem_map.1 h
      exact (hl p hp).2 e
    simp only [adcs, exec_cons, List.map_cons, List.length_cons, val, sval]
    rw [h3.val (m := l.map (·.2)) (by intro r hr; obtain ⟨p, hp, rfl⟩ := List.mem_map.1 hr; simp [(hl p hp).2]),
      h3.sval (m := l.map (·.1)) (by intro r hr; obtain ⟨p, hp, rfl⟩ := List.mem_map.1 hr; exact (hl p hp).1)] at k1
    refine ⟨?_, .cons ?_ k2, h3.trans k3 (by simp) (by simp)⟩
    · rw [k3.r hd]
      generalize exec (adcs l) (step s (.adcq a d)) = s2 at *
      generalize carry (step s (.adcq a d)) = c at *
      generalize (step s (.adcq a d)).r d = v at *
      have e : v + B * Asm.val s2 (l.map (·.2)) + carry s2 * B ^ (l.length + 1) =
        v + B * (Asm.val s2 (l.map (·.2)) + carry s2 * B ^ l.length) := by ring
      rw [e, k1]
      have e2 : v + B * (Asm.val s (l.map (·.2)) + Asm.sval s (l.map (·.1)) + c) = (v + c * B) + B * (Asm.val s (l.map (·.2)) + Asm.sval s (l.map (·.1))) := by ring
      rw [e2, h1]
      ring
    · rw [k3.r hd]; exact h2

theorem sbbs_spec (l : List (Src × Reg)) : ∀ (s : St), (∀ p ∈ l, p.1.get s < B ∧ s.r p.2 < B) → Clean l →
    val (exec (sbbs l) s) (l.map (·.2)) + (sval s (l.map (·.1)) + carry s) = val s (l.map (·.2)) + carry (exec (sbbs l) s) * B ^ l.length ∧
    Wd (exec (sbbs l) s) (l.map (·.2)) ∧ Same (l.map (·.2)) s (exec (sbbs l) s) := by
  induction l with
  | nil => intro s _ _; exact ⟨by simp [sbbs, val, sval], .nil, .refl _ _⟩
  | cons p l ih =>
    intro s hb hc
    obtain ⟨a, d⟩ := p
    obtain ⟨h1, h2, h3⟩ := sbbq_spec a d s (hb (a, d) List.mem_cons_self).1 (hb (a, d) List.mem_cons_self).2
    have hl : ∀ p ∈ l, p.1.avoids [d] ∧ p.2 ≠ d := hc.1
    obtain ⟨k1, k2, k3⟩ := ih (step s (.sbbq a d)) (by
      intro p hp
      have := hb p (List.mem_cons_of_mem _ hp)
      rw [h3.get (hl p hp).1, h3.r (by simp [(hl p hp).2])]
      exact this) hc.2
    have hd : d ∉ l.map (·.2) := by
      intro h
      obtain ⟨p, hp, e⟩ := List.mem_map.1 h
      exact (hl p hp).2 e
    simp only [sbbs, exec_cons, List.map_cons, List.length_cons, val, sval]
    rw [h3.val (m := l.map (·.2)) (by intro r hr; obtain ⟨p, hp, rfl⟩ := List.mem_map.1 hr; simp [(hl p hp).2]),
      h3.sval (m := l.map (·.1)) (by intro r hr; obtain ⟨p, hp, rfl⟩ := List.mem_map.1 hr; exact (hl p hp).1)] at k1
    refine ⟨?_, .cons ?_ k2, h3.trans k3 (by simp) (by simp)⟩
    · rw [k3.r hd]
      generalize exec (sbbs l) (step s (.sbbq a d)) = s2 at *
      generalize carry (step s (.sbbq a d)) = c at *
      generalize (step s (.sbbq a d)).r d = v at *
      generalize Asm.val s2 (l.map (·.2)) = V2 at *
      generalize Asm.val s (l.map (·.2)) = V at *
      generalize Asm.sval s (l.map (·.1)) = W at *
      have e : v + B * V2 + (a.get s + B * W + carry s) + B * c = (v + (a.get s + carry s)) + B * (V2 + (W + c)) := by ring
      rw [h1, k1] at e
      have e2 : s.r d + c * B + B * (V + carry s2 * B ^ l.length) = (s.r d + B * V + carry s2 * B ^ (l.length + 1)) + B * c := by ring
      rw [e2] at e
      exact Nat.add_right_cancel e
    · rw [k3.r hd]; exact h2

/-- `ADDQ` followed by a chain of `ADCQ` -/
def adds : List (Src × Reg) → List Instr
  | [] => []
  | (a, d) :: l => .addq a d :: adcs l

/-- `SUBQ` followed by a chain of `SBBQ` -/
def subs : List (Src × Reg) → List Instr
  | [] => []
  | (a, d) :: l => .subq a d :: sbbs l

/-- the state with the carry cleared -/
def St.clc (s : St) : St := { s with cf := false }

theorem exec_adds (p : Src × Reg) (l : List (Src × Reg)) (s : St) : exec (adds (p :: l)) s = exec (adcs (p :: l)) s.clc := rfl
theorem exec_subs (p : Src × Reg) (l : List (Src × Reg)) (s : St) : exec (subs (p :: l)) s = exec (sbbs (p :: l)) s.clc := rfl

theorem val_clc (s : St) (l : List Reg) : val s.clc l = val s l := by
  induction l with
  | nil => rfl
  | cons r l ih => simp only [val, ih]; rfl

theorem get_clc (s : St) (a : Src) : a.get s.clc = a.get s := by cases a <;> rfl

theorem sval_clc (s : St) (l : List Src) : sval s.clc l = sval s l := by
  induction l with
  | nil => rfl
  | cons r l ih => simp only [sval, ih, get_clc]

theorem adds_spec (p : Src × Reg) (l : List (Src × Reg)) (s : St) (hb : ∀ q ∈ p :: l, q.1.get s < B ∧ s.r q.2 < B) (hc : Clean (p :: l)) :
    val (exec (adds (p :: l)) s) ((p :: l).map (·.2)) + carry (exec (adds (p :: l)) s) * B ^ (p :: l).length =
      val s ((p :: l).map (·.2)) + sval s ((p :: l).map (·.1)) ∧
    Wd (exec (adds (p :: l)) s) ((p :: l).map (·.2)) ∧ Same ((p :: l).map (·.2)) s (exec (adds (p :: l)) s) := by
  have h := adcs_spec (p :: l) s.clc (fun q hq => by rw [get_clc]; exact hb q hq) hc
  rw [exec_adds]
  rw [val_clc, sval_clc] at h
  exact h

theorem subs_spec (p : Src × Reg) (l : List (Src × Reg)) (s : St) (hb : ∀ q ∈ p :: l, q.1.get s < B ∧ s.r q.2 < B) (hc : Clean (p :: l)) :
    val (exec (subs (p :: l)) s) ((p :: l).map (·.2)) + sval s ((p :: l).map (·.1)) =
      val s ((p :: l).map (·.2)) + carry (exec (subs (p :: l)) s) * B ^ (p :: l).length ∧
    Wd (exec (subs (p :: l)) s) ((p :: l).map (·.2)) ∧ Same ((p :: l).map (·.2)) s (exec (subs (p :: l)) s) := by
  have h := sbbs_spec (p :: l) s.clc (fun q hq => by rw [get_clc]; exact hb q hq) hc
  rw [exec_subs]
  rw [val_clc, sval_clc] at h
  exact h

/-- an explicit list is a sublist of another -/
macro "sub" : tactic =>
  `(tactic| repeat (first | exact List.nil_sublist _ | with_reducible apply List.Sublist.cons_cons | apply List.Sublist.cons))

/-- inclusion of explicit lists of registers -/
macro "incl" : tactic =>
  `(tactic| simp only [List.map_cons, List.map_nil, List.cons_subset, List.mem_cons, List.nil_subset, true_or, or_true, and_self])

/-- the conditions of the chain lemmas, from facts about single registers -/
macro "cln" h:ident k:ident : tactic =>
  `(tactic| simp only [Clean, List.mem_cons, List.not_mem_nil, or_false, forall_eq_or_imp, forall_eq, Src.avoids, $h:ident, $k:ident, or_self, not_false_eq_true,
      reduceCtorEq, and_self, ne_eq, false_imp_iff, imp_true_iff, and_true, true_and, IsEmpty.forall_iff, implies_true])

end Verif.Sm2.Asm
