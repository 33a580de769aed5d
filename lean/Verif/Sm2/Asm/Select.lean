import Verif.Sm2.Asm.Mul
/-!
Table selection, conditional move and byte order of the amd64 assembly, executed for every input (sm2/sm2p256_amd64.s:50-130, 655-789).
-/
namespace Verif.Sm2.Asm

/-! ### 32-bit lanes -/

/-- the word with `v` in both lanes -/
def both (v : Nat) : Nat := v * 4294967297

theorem both_lo {v : Nat} (h : v < 4294967296) : both v % 4294967296 = v := by unfold both; omega
theorem both_hi {v : Nat} (h : v < 4294967296) : both v / 4294967296 = v := by unfold both; omega

/-- all ones or all zeros -/
def maskIf (p : Prop) [Decidable p] : Nat := if p then 18446744073709551615 else 0

theorem lanes_eq {a b : Nat} (ha : a < 4294967296) (hb : b < 4294967296) : lanes eqLane (both a) (both b) = maskIf (a = b) := by
  unfold lanes eqLane maskIf
  rw [both_lo ha, both_lo hb, both_hi ha, both_hi hb]
  split <;> rfl

theorem lanes_self (a : Nat) : lanes eqLane a a = 18446744073709551615 := by
  unfold lanes eqLane
  rw [if_pos rfl, if_pos rfl]

theorem lanes_one : lanes (fun p q => p + 4294967296 - q) 0 18446744073709551615 = 4294967297 := by decide +kernel

theorem lanes_add {a b : Nat} (ha : a < 4294967296) (hb : b < 4294967296) : lanes (· + ·) (both a) (both b) = both ((a + b) % 4294967296) := by
  unfold lanes
  rw [both_lo ha, both_lo hb, both_hi ha, both_hi hb]
  unfold both
  show (a + b) % 4294967296 + 4294967296 * ((a + b) % 4294967296) = _
  omega

theorem and_ones {a : Nat} (h : a < B) : a &&& 18446744073709551615 = a := by
  rw [show 18446744073709551615 = 2 ^ 64 - 1 from rfl, Nat.and_two_pow_sub_one_eq_mod]
  exact Nat.mod_eq_of_lt h

theorem and_mask {a : Nat} (p : Prop) [Decidable p] (h : a < B) : a &&& maskIf p = if p then a else 0 := by
  unfold maskIf
  split
  · exact and_ones h
  · exact Nat.and_zero a

/-- bitwise operations on both words of a register -/
def xorp (a b : Nat × Nat) : Nat × Nat := (a.1 ^^^ b.1, a.2 ^^^ b.2)
def andp (a b : Nat × Nat) : Nat × Nat := (a.1 &&& b.1, a.2 &&& b.2)

/-- the 16 bytes at `a` -/
def ld2 (h : Nat → Nat) (a : Nat) : Nat × Nat := (h a, h (a + 8))

/-! ### `sm2p256Select` -/

theorem selBody_spec (s : St) :
    (exec sm2p256SelectBody s).x .X13 = (lanes (· + ·) (s.x .X13).1 (s.x .X15).1, lanes (· + ·) (s.x .X13).2 (s.x .X15).2) ∧
    (exec sm2p256SelectBody s).x .X14 = s.x .X14 ∧ (exec sm2p256SelectBody s).x .X15 = s.x .X15 ∧
    (exec sm2p256SelectBody s).x .X0 = xorp (s.x .X0) (andp (ld2 s.heap (s.r .DI + 0)) (lanes eqLane (s.x .X13).1 (s.x .X14).1, lanes eqLane (s.x .X13).2 (s.x .X14).2)) ∧
    (exec sm2p256SelectBody s).x .X1 = xorp (s.x .X1) (andp (ld2 s.heap (s.r .DI + 16)) (lanes eqLane (s.x .X13).1 (s.x .X14).1, lanes eqLane (s.x .X13).2 (s.x .X14).2)) ∧
    (exec sm2p256SelectBody s).x .X2 = xorp (s.x .X2) (andp (ld2 s.heap (s.r .DI + 32)) (lanes eqLane (s.x .X13).1 (s.x .X14).1, lanes eqLane (s.x .X13).2 (s.x .X14).2)) ∧
    (exec sm2p256SelectBody s).x .X3 = xorp (s.x .X3) (andp (ld2 s.heap (s.r .DI + 48)) (lanes eqLane (s.x .X13).1 (s.x .X14).1, lanes eqLane (s.x .X13).2 (s.x .X14).2)) ∧
    (exec sm2p256SelectBody s).x .X4 = xorp (s.x .X4) (andp (ld2 s.heap (s.r .DI + 64)) (lanes eqLane (s.x .X13).1 (s.x .X14).1, lanes eqLane (s.x .X13).2 (s.x .X14).2)) ∧
    (exec sm2p256SelectBody s).x .X5 = xorp (s.x .X5) (andp (ld2 s.heap (s.r .DI + 80)) (lanes eqLane (s.x .X13).1 (s.x .X14).1, lanes eqLane (s.x .X13).2 (s.x .X14).2)) ∧
    (exec sm2p256SelectBody s).r .DI = (s.r .DI + 96) % B ∧ (exec sm2p256SelectBody s).r .DX = s.r .DX ∧
    (exec sm2p256SelectBody s).r .AX = (s.r .AX + B - 1) % B ∧ (exec sm2p256SelectBody s).heap = s.heap ∧
    ((exec sm2p256SelectBody s).zf = true ↔ (s.r .AX + B - 1) % B = 0) := by
  simp only [sm2p256SelectBody, exec_cons, exec_nil, step, St.put, St.setR, St.addTo, St.setX, St.putX, XOp.get, get_reg, get_imm]
  simp only [upd_apply, reduceCtorEq, if_true, if_false, decide_eq_true_eq, xorp, andp, ld2]
  exact ⟨trivial, trivial, trivial, trivial, trivial, trivial, trivial, trivial, trivial, trivial, trivial, trivial, trivial, trivial⟩

/-- word `j` of entry `idx` (counted from 1) among the first `n` entries, of `w` words each, of the table at `T`; zero if there is none -/
def tabWord (h : Nat → Nat) (T w n idx j : Nat) : Nat := if 1 ≤ idx ∧ idx ≤ n then h (T + 8 * w * (idx - 1) + 8 * j) else 0

theorem tabWord_step {h : Nat → Nat} {T w n idx j a : Nat} (ha : a = T + 8 * w * n + 8 * j) (hw : h a < B) :
    tabWord h T w n idx j ^^^ (h a &&& maskIf (n + 1 = idx)) = tabWord h T w (n + 1) idx j := by
  rw [and_mask _ hw]
  unfold tabWord
  by_cases e : n + 1 = idx
  · subst e
    rw [if_pos rfl, if_neg (by omega), if_pos (by omega), Nat.zero_xor, ha, Nat.add_sub_cancel]
  · rw [if_neg e, Nat.xor_zero]
    by_cases c : 1 ≤ idx ∧ idx ≤ n
    · rw [if_pos c, if_pos (by omega)]
    · rw [if_neg c, if_neg (by omega)]

theorem tabWord_zero (h : Nat → Nat) (T w idx j : Nat) : tabWord h T w 0 idx j = 0 := if_neg (by omega)

/-- two consecutive words -/
def tabPair (h : Nat → Nat) (T w n idx j : Nat) : Nat × Nat := (tabWord h T w n idx j, tabWord h T w n idx (j + 1))

theorem tabPair_step {h : Nat → Nat} {T w n idx j a i : Nat} (ha : a = T + 8 * w * n + 8 * j) (hw : h a < B) (hw' : h (a + 8) < B)
    (hi : i = n + 1) (hl : i < 4294967296) (hx : idx < 4294967296) :
    xorp (tabPair h T w n idx j) (andp (ld2 h a) (lanes eqLane (both i) (both idx), lanes eqLane (both i) (both idx))) = tabPair h T w (n + 1) idx j := by
  subst hi
  rw [lanes_eq hl hx]
  unfold xorp andp ld2 tabPair
  have e1 := tabWord_step (idx := idx) ha hw
  have e2 := tabWord_step (T := T) (w := w) (n := n) (idx := idx) (j := j + 1) (a := a + 8) (by rw [ha]; omega) hw'
  dsimp only
  rw [e1, e2]

/-- the loop of `sm2p256Select` after `i` entries -/
structure SelInv (h : Nat → Nat) (T res idx i : Nat) (s : St) : Prop where
  heap : s.heap = h
  di : s.r .DI = T + 96 * i
  dx : s.r .DX = res
  ax : s.r .AX = 16 - i
  x13 : s.x .X13 = (both (i + 1), both (i + 1))
  x14 : s.x .X14 = (both idx, both idx)
  x15 : s.x .X15 = (both 1, both 1)
  x0 : s.x .X0 = tabPair h T 12 i idx 0
  x1 : s.x .X1 = tabPair h T 12 i idx 2
  x2 : s.x .X2 = tabPair h T 12 i idx 4
  x3 : s.x .X3 = tabPair h T 12 i idx 6
  x4 : s.x .X4 = tabPair h T 12 i idx 8
  x5 : s.x .X5 = tabPair h T 12 i idx 10

theorem selInv_pass {h : Nat → Nat} {T res idx i : Nat} {s : St} (v : SelInv h T res idx i s) (hi : i < 16) (hT : T + 1536 < B) (hx : idx < 4294967296)
    (hw : ∀ a, T ≤ a → a < T + 1536 → h a < B) :
    SelInv h T res idx (i + 1) (exec sm2p256SelectBody s) ∧ ((exec sm2p256SelectBody s).zf = true ↔ i = 15) := by
  obtain ⟨b13, b14, b15, b0, b1, b2, b3, b4, b5, bdi, bdx, bax, bh, bz⟩ := selBody_spec s
  generalize exec sm2p256SelectBody s = s1 at *
  rw [v.heap, v.di, v.x13, v.x14] at b0 b1 b2 b3 b4 b5
  have hl : i + 1 < 4294967296 := by omega
  have h1 : (1 : Nat) < 4294967296 := by decide
  refine ⟨⟨bh.trans v.heap, ?_, bdx.trans v.dx, ?_, ?_, b14.trans v.x14, b15.trans v.x15, ?_, ?_, ?_, ?_, ?_, ?_⟩, ?_⟩
  · rw [bdi, v.di]
    simp only [B] at *
    omega
  · rw [bax, v.ax]
    simp only [B] at *
    omega
  · rw [b13, v.x13, v.x15, lanes_add hl h1]
    rw [Nat.mod_eq_of_lt (show i + 1 + 1 < 4294967296 by omega)]
  · rw [b0, v.x0]
    exact tabPair_step (by omega) (hw _ (by omega) (by omega)) (hw _ (by omega) (by omega)) rfl hl hx
  · rw [b1, v.x1]
    exact tabPair_step (by omega) (hw _ (by omega) (by omega)) (hw _ (by omega) (by omega)) rfl hl hx
  · rw [b2, v.x2]
    exact tabPair_step (by omega) (hw _ (by omega) (by omega)) (hw _ (by omega) (by omega)) rfl hl hx
  · rw [b3, v.x3]
    exact tabPair_step (by omega) (hw _ (by omega) (by omega)) (hw _ (by omega) (by omega)) rfl hl hx
  · rw [b4, v.x4]
    exact tabPair_step (by omega) (hw _ (by omega) (by omega)) (hw _ (by omega) (by omega)) rfl hl hx
  · rw [b5, v.x5]
    exact tabPair_step (by omega) (hw _ (by omega) (by omega)) (hw _ (by omega) (by omega)) rfl hl hx
  · rw [bz, v.ax]
    simp only [B] at *
    omega

theorem sel_loop {h : Nat → Nat} {T res idx : Nat} (hT : T + 1536 < B) (hx : idx < 4294967296) (hw : ∀ a, T ≤ a → a < T + 1536 → h a < B) (k : Nat) :
    ∀ (i fuel : Nat) (s : St), i + k + 1 = 16 → k + 1 ≤ fuel → SelInv h T res idx i s → SelInv h T res idx 16 (doWhile sm2p256SelectBody fuel s) := by
  induction k with
  | zero =>
    intro i fuel s hi hf v
    obtain ⟨f, rfl⟩ : ∃ f, fuel = f + 1 := ⟨fuel - 1, by omega⟩
    obtain ⟨p1, p2⟩ := selInv_pass v (by omega) hT hx hw
    rw [doWhile, if_pos (p2.2 (by omega))]
    have e : i + 1 = 16 := by omega
    rw [e] at p1
    exact p1
  | succ k ih =>
    intro i fuel s hi hf v
    obtain ⟨f, rfl⟩ : ∃ f, fuel = f + 1 := ⟨fuel - 1, by omega⟩
    obtain ⟨p1, p2⟩ := selInv_pass v (by omega) hT hx hw
    rw [doWhile, if_neg (fun c => by have := p2.1 c; omega)]
    exact ih (i + 1) f _ (by omega) (by omega) p1

theorem selPre_spec (s : St) : SelInv s.heap (s.args 24) (s.args 0) (s.args 48 % 4294967296) 0 (exec sm2p256SelectPre s) := by
  constructor
  all_goals
    simp only [sm2p256SelectPre, exec_cons, exec_nil, step, St.put, St.setR, St.setX, St.putX, XOp.get, get_imm, get_arg]
    try simp only [upd_apply, reduceCtorEq, if_true, if_false, Nat.xor_self, lanes_self, lanes_one, tabPair, tabWord_zero, Nat.mul_zero, Nat.add_zero, Nat.zero_add,
      Nat.sub_zero, Nat.mod_mod, both, Nat.one_mul]

/-- `n` words at `a` hold `f 0, f 1, …`, and no other word of memory differs from `h` -/
structure Stored (h h' : Nat → Nat) (a n : Nat) (f : Nat → Nat) : Prop where
  words : ∀ j < n, h' (a + 8 * j) = f j
  others : ∀ b, (∀ j < n, b ≠ a + 8 * j) → h' b = h b

/-- the routine: pre, loop, post -/
def runSelect (fuel : Nat) (s : St) : St := exec sm2p256SelectPost (doWhile sm2p256SelectBody fuel (exec sm2p256SelectPre s))

theorem select_exec (s : St) (fuel : Nat) (hf : 16 ≤ fuel) (hT : s.args 24 + 1536 < B) (hw : ∀ a, s.args 24 ≤ a → a < s.args 24 + 1536 → s.heap a < B) :
    Stored s.heap (runSelect fuel s).heap (s.args 0) 12 (fun j => tabWord s.heap (s.args 24) 12 16 (s.args 48 % 4294967296) j) := by
  have v := sel_loop hT (Nat.mod_lt (s.args 48) (by decide)) hw 15 0 fuel _ (by decide) (by omega) (selPre_spec s)
  unfold runSelect
  generalize doWhile sm2p256SelectBody fuel (exec sm2p256SelectPre s) = s1 at *
  obtain ⟨vh, -, vd, -, -, -, -, v0, v1, v2, v3, v4, v5⟩ := v
  simp only [sm2p256SelectPost, exec_cons, exec_nil, step, St.putX, XOp.get, vh, vd, v0, v1, v2, v3, v4, v5, tabPair]
  generalize s.args 0 = res
  constructor
  · intro j hj
    simp only [upd_apply, Nat.add_assoc, Nat.add_left_cancel_iff, Nat.reduceAdd]
    rcases j with _ | _ | _ | _ | _ | _ | _ | _ | _ | _ | _ | _ | j
    · rfl
    · rfl
    · rfl
    · rfl
    · rfl
    · rfl
    · rfl
    · rfl
    · rfl
    · rfl
    · rfl
    · rfl
    · omega
  · intro b hb
    have n0 := hb 0 (by decide)
    have n1 := hb 1 (by decide)
    have n2 := hb 2 (by decide)
    have n3 := hb 3 (by decide)
    have n4 := hb 4 (by decide)
    have n5 := hb 5 (by decide)
    have n6 := hb 6 (by decide)
    have n7 := hb 7 (by decide)
    have n8 := hb 8 (by decide)
    have n9 := hb 9 (by decide)
    have n10 := hb 10 (by decide)
    have n11 := hb 11 (by decide)
    simp only [Nat.reduceMul, Nat.mul_zero] at n0 n1 n2 n3 n4 n5 n6 n7 n8 n9 n10 n11
    simp only [upd_apply, Nat.add_assoc, Nat.reduceAdd, n0, n1, n2, n3, n4, n5, n6, n7, n8, n9, n10, n11, if_false]

/-! ### `sm2p256SelectBase` -/

theorem baseBody_spec (s : St) :
    (exec sm2p256SelectBaseBody s).x .X13 = (lanes (· + ·) (lanes (· + ·) (s.x .X13).1 (s.x .X15).1) (s.x .X15).1, lanes (· + ·) (lanes (· + ·) (s.x .X13).2 (s.x .X15).2) (s.x .X15).2) ∧
    (exec sm2p256SelectBaseBody s).x .X14 = s.x .X14 ∧ (exec sm2p256SelectBaseBody s).x .X15 = s.x .X15 ∧
    (exec sm2p256SelectBaseBody s).x .X0 = xorp (xorp (s.x .X0) (andp (ld2 s.heap (s.r .DI + 0)) (lanes eqLane (s.x .X13).1 (s.x .X14).1, lanes eqLane (s.x .X13).2 (s.x .X14).2)))
      (andp (ld2 s.heap (s.r .DI + 64)) (lanes eqLane (lanes (· + ·) (s.x .X13).1 (s.x .X15).1) (s.x .X14).1, lanes eqLane (lanes (· + ·) (s.x .X13).2 (s.x .X15).2) (s.x .X14).2)) ∧
    (exec sm2p256SelectBaseBody s).x .X1 = xorp (xorp (s.x .X1) (andp (ld2 s.heap (s.r .DI + 16)) (lanes eqLane (s.x .X13).1 (s.x .X14).1, lanes eqLane (s.x .X13).2 (s.x .X14).2)))
      (andp (ld2 s.heap (s.r .DI + 80)) (lanes eqLane (lanes (· + ·) (s.x .X13).1 (s.x .X15).1) (s.x .X14).1, lanes eqLane (lanes (· + ·) (s.x .X13).2 (s.x .X15).2) (s.x .X14).2)) ∧
    (exec sm2p256SelectBaseBody s).x .X2 = xorp (xorp (s.x .X2) (andp (ld2 s.heap (s.r .DI + 32)) (lanes eqLane (s.x .X13).1 (s.x .X14).1, lanes eqLane (s.x .X13).2 (s.x .X14).2)))
      (andp (ld2 s.heap (s.r .DI + 96)) (lanes eqLane (lanes (· + ·) (s.x .X13).1 (s.x .X15).1) (s.x .X14).1, lanes eqLane (lanes (· + ·) (s.x .X13).2 (s.x .X15).2) (s.x .X14).2)) ∧
    (exec sm2p256SelectBaseBody s).x .X3 = xorp (xorp (s.x .X3) (andp (ld2 s.heap (s.r .DI + 48)) (lanes eqLane (s.x .X13).1 (s.x .X14).1, lanes eqLane (s.x .X13).2 (s.x .X14).2)))
      (andp (ld2 s.heap (s.r .DI + 112)) (lanes eqLane (lanes (· + ·) (s.x .X13).1 (s.x .X15).1) (s.x .X14).1, lanes eqLane (lanes (· + ·) (s.x .X13).2 (s.x .X15).2) (s.x .X14).2)) ∧
    (exec sm2p256SelectBaseBody s).r .DI = (s.r .DI + 128) % B ∧ (exec sm2p256SelectBaseBody s).r .DX = s.r .DX ∧
    (exec sm2p256SelectBaseBody s).r .AX = (s.r .AX + B - 1) % B ∧ (exec sm2p256SelectBaseBody s).heap = s.heap ∧
    ((exec sm2p256SelectBaseBody s).zf = true ↔ (s.r .AX + B - 1) % B = 0) := by
  simp only [sm2p256SelectBaseBody, exec_cons, exec_nil, step, St.put, St.setR, St.addTo, St.setX, St.putX, XOp.get, get_reg, get_imm]
  simp only [upd_apply, reduceCtorEq, if_true, if_false, decide_eq_true_eq, xorp, andp, ld2]
  exact ⟨trivial, trivial, trivial, trivial, trivial, trivial, trivial, trivial, trivial, trivial, trivial, trivial⟩

/-- the loop of `sm2p256SelectBase` after `i` passes, that is `2*i` entries -/
structure BaseInv (h : Nat → Nat) (T res idx i : Nat) (s : St) : Prop where
  heap : s.heap = h
  di : s.r .DI = T + 128 * i
  dx : s.r .DX = res
  ax : s.r .AX = 32 - i
  x13 : s.x .X13 = (both (2 * i + 1), both (2 * i + 1))
  x14 : s.x .X14 = (both idx, both idx)
  x15 : s.x .X15 = (both 1, both 1)
  x0 : s.x .X0 = tabPair h T 8 (2 * i) idx 0
  x1 : s.x .X1 = tabPair h T 8 (2 * i) idx 2
  x2 : s.x .X2 = tabPair h T 8 (2 * i) idx 4
  x3 : s.x .X3 = tabPair h T 8 (2 * i) idx 6

theorem tabPair_step2 {h : Nat → Nat} {T n idx j a i : Nat} (ha : a = T + 128 * n + 8 * j) (w0 : h a < B) (w1 : h (a + 8) < B) (w2 : h (a + 64) < B) (w3 : h (a + 64 + 8) < B)
    (hi : i = 2 * n + 1) (hl : i + 1 < 4294967296) (hx : idx < 4294967296) :
    xorp (xorp (tabPair h T 8 (2 * n) idx j) (andp (ld2 h a) (lanes eqLane (both i) (both idx), lanes eqLane (both i) (both idx))))
      (andp (ld2 h (a + 64)) (lanes eqLane (lanes (· + ·) (both i) (both 1)) (both idx), lanes eqLane (lanes (· + ·) (both i) (both 1)) (both idx))) =
      tabPair h T 8 (2 * (n + 1)) idx j := by
  rw [lanes_add (show i < 4294967296 by omega) (show 1 < 4294967296 by decide), Nat.mod_eq_of_lt hl]
  rw [tabPair_step (w := 8) (by omega) w0 w1 hi (by omega) hx]
  rw [tabPair_step (w := 8) (n := 2 * n + 1) (by omega) w2 w3 (by omega) hl hx]
  rfl

theorem baseInv_pass {h : Nat → Nat} {T res idx i : Nat} {s : St} (v : BaseInv h T res idx i s) (hi : i < 32) (hT : T + 4096 < B) (hx : idx < 4294967296)
    (hw : ∀ a, T ≤ a → a < T + 4096 → h a < B) :
    BaseInv h T res idx (i + 1) (exec sm2p256SelectBaseBody s) ∧ ((exec sm2p256SelectBaseBody s).zf = true ↔ i = 31) := by
  obtain ⟨b13, b14, b15, b0, b1, b2, b3, bdi, bdx, bax, bh, bz⟩ := baseBody_spec s
  generalize exec sm2p256SelectBaseBody s = s1 at *
  rw [v.heap, v.di, v.x13, v.x14, v.x15] at b0 b1 b2 b3
  have hl : 2 * i + 1 + 1 < 4294967296 := by omega
  have h1 : (1 : Nat) < 4294967296 := by decide
  refine ⟨⟨bh.trans v.heap, ?_, bdx.trans v.dx, ?_, ?_, b14.trans v.x14, b15.trans v.x15, ?_, ?_, ?_, ?_⟩, ?_⟩
  · rw [bdi, v.di]
    simp only [B] at *
    omega
  · rw [bax, v.ax]
    simp only [B] at *
    omega
  · rw [b13, v.x13, v.x15, lanes_add (show 2 * i + 1 < 4294967296 by omega) h1, Nat.mod_eq_of_lt hl, lanes_add hl h1,
      Nat.mod_eq_of_lt (show 2 * i + 1 + 1 + 1 < 4294967296 by omega)]
    rfl
  · rw [b0, v.x0]
    exact tabPair_step2 (by omega) (hw _ (by omega) (by omega)) (hw _ (by omega) (by omega)) (hw _ (by omega) (by omega)) (hw _ (by omega) (by omega)) rfl hl hx
  · rw [b1, v.x1]
    exact tabPair_step2 (by omega) (hw _ (by omega) (by omega)) (hw _ (by omega) (by omega)) (hw _ (by omega) (by omega)) (hw _ (by omega) (by omega)) rfl hl hx
  · rw [b2, v.x2]
    exact tabPair_step2 (by omega) (hw _ (by omega) (by omega)) (hw _ (by omega) (by omega)) (hw _ (by omega) (by omega)) (hw _ (by omega) (by omega)) rfl hl hx
  · rw [b3, v.x3]
    exact tabPair_step2 (by omega) (hw _ (by omega) (by omega)) (hw _ (by omega) (by omega)) (hw _ (by omega) (by omega)) (hw _ (by omega) (by omega)) rfl hl hx
  · rw [bz, v.ax]
    simp only [B] at *
    omega

theorem base_loop {h : Nat → Nat} {T res idx : Nat} (hT : T + 4096 < B) (hx : idx < 4294967296) (hw : ∀ a, T ≤ a → a < T + 4096 → h a < B) (k : Nat) :
    ∀ (i fuel : Nat) (s : St), i + k + 1 = 32 → k + 1 ≤ fuel → BaseInv h T res idx i s → BaseInv h T res idx 32 (doWhile sm2p256SelectBaseBody fuel s) := by
  induction k with
  | zero =>
    intro i fuel s hi hf v
    obtain ⟨f, rfl⟩ : ∃ f, fuel = f + 1 := ⟨fuel - 1, by omega⟩
    obtain ⟨p1, p2⟩ := baseInv_pass v (by omega) hT hx hw
    rw [doWhile, if_pos (p2.2 (by omega))]
    have e : i + 1 = 32 := by omega
    rw [e] at p1
    exact p1
  | succ k ih =>
    intro i fuel s hi hf v
    obtain ⟨f, rfl⟩ : ∃ f, fuel = f + 1 := ⟨fuel - 1, by omega⟩
    obtain ⟨p1, p2⟩ := baseInv_pass v (by omega) hT hx hw
    rw [doWhile, if_neg (fun c => by have := p2.1 c; omega)]
    exact ih (i + 1) f _ (by omega) (by omega) p1

theorem basePre_spec (s : St) : BaseInv s.heap (s.args 24) (s.args 0) (s.args 48 % 4294967296) 0 (exec sm2p256SelectBasePre s) := by
  constructor
  all_goals
    simp only [sm2p256SelectBasePre, exec_cons, exec_nil, step, St.put, St.setR, St.setX, St.putX, XOp.get, get_imm, get_arg]
    try simp only [upd_apply, reduceCtorEq, if_true, if_false, Nat.xor_self, lanes_self, lanes_one, tabPair, tabWord_zero, Nat.mul_zero, Nat.add_zero, Nat.zero_add,
      Nat.sub_zero, Nat.mod_mod, both, Nat.one_mul]

/-- the routine: pre, loop, post -/
def runSelectBase (fuel : Nat) (s : St) : St := exec sm2p256SelectBasePost (doWhile sm2p256SelectBaseBody fuel (exec sm2p256SelectBasePre s))

theorem selectBase_exec (s : St) (fuel : Nat) (hf : 32 ≤ fuel) (hT : s.args 24 + 4096 < B) (hw : ∀ a, s.args 24 ≤ a → a < s.args 24 + 4096 → s.heap a < B) :
    Stored s.heap (runSelectBase fuel s).heap (s.args 0) 8 (fun j => tabWord s.heap (s.args 24) 8 64 (s.args 48 % 4294967296) j) := by
  have v := base_loop hT (Nat.mod_lt (s.args 48) (by decide)) hw 31 0 fuel _ (by decide) (by omega) (basePre_spec s)
  unfold runSelectBase
  generalize doWhile sm2p256SelectBaseBody fuel (exec sm2p256SelectBasePre s) = s1 at *
  obtain ⟨vh, -, vd, -, -, -, -, v0, v1, v2, v3⟩ := v
  simp only [sm2p256SelectBasePost, exec_cons, exec_nil, step, St.putX, XOp.get, vh, vd, v0, v1, v2, v3, tabPair]
  generalize s.args 0 = res
  constructor
  · intro j hj
    simp only [upd_apply, Nat.add_assoc, Nat.add_left_cancel_iff, Nat.reduceAdd]
    rcases j with _ | _ | _ | _ | _ | _ | _ | _ | j
    · rfl
    · rfl
    · rfl
    · rfl
    · rfl
    · rfl
    · rfl
    · rfl
    · omega
  · intro b hb
    have n0 := hb 0 (by decide)
    have n1 := hb 1 (by decide)
    have n2 := hb 2 (by decide)
    have n3 := hb 3 (by decide)
    have n4 := hb 4 (by decide)
    have n5 := hb 5 (by decide)
    have n6 := hb 6 (by decide)
    have n7 := hb 7 (by decide)
    simp only [Nat.reduceMul, Nat.mul_zero] at n0 n1 n2 n3 n4 n5 n6 n7
    simp only [upd_apply, Nat.add_assoc, Nat.reduceAdd, n0, n1, n2, n3, n4, n5, n6, n7, if_false]

/-! ### `sm2p256MovCond` -/

theorem notW_mask (p : Prop) [Decidable p] {a : Nat} (h : a < B) : notW (maskIf p) &&& a = if p then 0 else a := by
  rw [Nat.and_comm]
  unfold maskIf
  split
  · exact Nat.and_zero a
  · exact and_ones h

theorem mov_word (p : Prop) [Decidable p] {a b : Nat} (ha : a < B) (hb : b < B) : (notW (maskIf p) &&& a) ^^^ (b &&& maskIf p) = if p then b else a := by
  rw [notW_mask p ha, and_mask p hb]
  split
  · exact Nat.zero_xor b
  · exact Nat.xor_zero a

/-- `sm2p256MovCond` -/
theorem movCond_exec (s : St) (ha : ∀ j < 12, s.heap (s.args 24 + 8 * j) < B) (hb : ∀ j < 12, s.heap (s.args 48 + 8 * j) < B) :
    Stored s.heap (exec sm2p256MovCond s).heap (s.args 0) 12
      (fun j => if s.args 72 % 4294967296 = 0 then s.heap (s.args 48 + 8 * j) else s.heap (s.args 24 + 8 * j)) := by
  have hm : lanes eqLane (s.args 72 % 4294967296 * 4294967297) 0 = maskIf (s.args 72 % 4294967296 = 0) :=
    lanes_eq (a := s.args 72 % 4294967296) (b := 0) (Nat.mod_lt _ (by decide)) (by decide)
  simp only [sm2p256MovCond, exec_cons, exec_nil, step, St.put, St.setR, St.setX, St.putX, XOp.get, get_arg]
  simp only [upd_apply, reduceCtorEq, if_true, if_false, Nat.xor_self, hm]
  generalize s.args 0 = res
  constructor
  · intro j hj
    have wa := ha j hj
    have wb := hb j hj
    have e := mov_word (s.args 72 % 4294967296 = 0) wa wb
    simp only [upd_apply, Nat.add_assoc, Nat.add_left_cancel_iff, Nat.reduceAdd]
    rcases j with _ | _ | _ | _ | _ | _ | _ | _ | _ | _ | _ | _ | j
    · exact e
    · exact e
    · exact e
    · exact e
    · exact e
    · exact e
    · exact e
    · exact e
    · exact e
    · exact e
    · exact e
    · exact e
    · omega
  · intro b hb
    have n0 := hb 0 (by decide)
    have n1 := hb 1 (by decide)
    have n2 := hb 2 (by decide)
    have n3 := hb 3 (by decide)
    have n4 := hb 4 (by decide)
    have n5 := hb 5 (by decide)
    have n6 := hb 6 (by decide)
    have n7 := hb 7 (by decide)
    have n8 := hb 8 (by decide)
    have n9 := hb 9 (by decide)
    have n10 := hb 10 (by decide)
    have n11 := hb 11 (by decide)
    simp only [Nat.reduceMul, Nat.mul_zero] at n0 n1 n2 n3 n4 n5 n6 n7 n8 n9 n10 n11
    simp only [upd_apply, Nat.add_assoc, Nat.reduceAdd, n0, n1, n2, n3, n4, n5, n6, n7, n8, n9, n10, n11, if_false]

/-! ### byte order -/

/-- byte `i` of the memory at `a` (words are stored least significant byte first) -/
def byteAt (h : Nat → Nat) (a i : Nat) : Nat := h (a + 8 * (i / 8)) / 256 ^ (i % 8) % 256

/-- the big-endian number in the first `n` bytes at `a` -/
def beVal (h : Nat → Nat) (a : Nat) : Nat → Nat
  | 0 => 0
  | n + 1 => 256 * beVal h a n + byteAt h a n

theorem bswap_bytes {b0 b1 b2 b3 b4 b5 b6 b7 : Nat} (h0 : b0 < 256) (h1 : b1 < 256) (h2 : b2 < 256) (h3 : b3 < 256) (h4 : b4 < 256) (h5 : b5 < 256) (h6 : b6 < 256)
    (h7 : b7 < 256) :
    bswap (b0 + 256 * (b1 + 256 * (b2 + 256 * (b3 + 256 * (b4 + 256 * (b5 + 256 * (b6 + 256 * b7))))))) =
      b7 + 256 * (b6 + 256 * (b5 + 256 * (b4 + 256 * (b3 + 256 * (b2 + 256 * (b1 + 256 * b0)))))) := by
  have sp : ∀ b v : Nat, b < 256 → (b + 256 * v) % 256 = b ∧ (b + 256 * v) / 256 = v := by intro b v hb; omega
  have p2 : 2 ^ 16 = 2 ^ 8 * 256 := rfl
  have p3 : 2 ^ 24 = 2 ^ 16 * 256 := rfl
  have p4 : 2 ^ 32 = 2 ^ 24 * 256 := rfl
  have p5 : 2 ^ 40 = 2 ^ 32 * 256 := rfl
  have p6 : 2 ^ 48 = 2 ^ 40 * 256 := rfl
  have p7 : 2 ^ 56 = 2 ^ 48 * 256 := rfl
  generalize hv : b0 + 256 * (b1 + 256 * (b2 + 256 * (b3 + 256 * (b4 + 256 * (b5 + 256 * (b6 + 256 * b7)))))) = v
  have d1 : v / 2 ^ 8 = b1 + 256 * (b2 + 256 * (b3 + 256 * (b4 + 256 * (b5 + 256 * (b6 + 256 * b7))))) := by rw [← hv]; exact (sp _ _ h0).2
  have d2 : v / 2 ^ 16 = b2 + 256 * (b3 + 256 * (b4 + 256 * (b5 + 256 * (b6 + 256 * b7)))) := by rw [p2, ← Nat.div_div_eq_div_mul, d1]; exact (sp _ _ h1).2
  have d3 : v / 2 ^ 24 = b3 + 256 * (b4 + 256 * (b5 + 256 * (b6 + 256 * b7))) := by rw [p3, ← Nat.div_div_eq_div_mul, d2]; exact (sp _ _ h2).2
  have d4 : v / 2 ^ 32 = b4 + 256 * (b5 + 256 * (b6 + 256 * b7)) := by rw [p4, ← Nat.div_div_eq_div_mul, d3]; exact (sp _ _ h3).2
  have d5 : v / 2 ^ 40 = b5 + 256 * (b6 + 256 * b7) := by rw [p5, ← Nat.div_div_eq_div_mul, d4]; exact (sp _ _ h4).2
  have d6 : v / 2 ^ 48 = b6 + 256 * b7 := by rw [p6, ← Nat.div_div_eq_div_mul, d5]; exact (sp _ _ h5).2
  have d7 : v / 2 ^ 56 = b7 := by rw [p7, ← Nat.div_div_eq_div_mul, d6]; exact (sp _ _ h6).2
  have e0 : v % 256 = b0 := by rw [← hv]; exact (sp _ _ h0).1
  have e1 : v / 2 ^ 8 % 256 = b1 := by rw [d1]; exact (sp _ _ h1).1
  have e2 : v / 2 ^ 16 % 256 = b2 := by rw [d2]; exact (sp _ _ h2).1
  have e3 : v / 2 ^ 24 % 256 = b3 := by rw [d3]; exact (sp _ _ h3).1
  have e4 : v / 2 ^ 32 % 256 = b4 := by rw [d4]; exact (sp _ _ h4).1
  have e5 : v / 2 ^ 40 % 256 = b5 := by rw [d5]; exact (sp _ _ h5).1
  have e6 : v / 2 ^ 48 % 256 = b6 := by rw [d6]; exact (sp _ _ h6).1
  have e7 : v / 2 ^ 56 % 256 = b7 := by rw [d7]; exact Nat.mod_eq_of_lt h7
  unfold bswap
  rw [e0, e1, e2, e3, e4, e5, e6, e7]
  omega

theorem word_bytes {v : Nat} (h : v < B) : v = v % 256 + 256 * (v / 2 ^ 8 % 256 + 256 * (v / 2 ^ 16 % 256 + 256 * (v / 2 ^ 24 % 256 + 256 * (v / 2 ^ 32 % 256 +
    256 * (v / 2 ^ 40 % 256 + 256 * (v / 2 ^ 48 % 256 + 256 * (v / 2 ^ 56 % 256))))))) := by
  simp only [B] at h
  omega

theorem bswap_lt (v : Nat) : bswap v < B := by
  unfold bswap
  have h0 : v % 256 < 256 := Nat.mod_lt _ (by decide)
  have h1 : v / 2 ^ 8 % 256 < 256 := Nat.mod_lt _ (by decide)
  have h2 : v / 2 ^ 16 % 256 < 256 := Nat.mod_lt _ (by decide)
  have h3 : v / 2 ^ 24 % 256 < 256 := Nat.mod_lt _ (by decide)
  have h4 : v / 2 ^ 32 % 256 < 256 := Nat.mod_lt _ (by decide)
  have h5 : v / 2 ^ 40 % 256 < 256 := Nat.mod_lt _ (by decide)
  have h6 : v / 2 ^ 48 % 256 < 256 := Nat.mod_lt _ (by decide)
  have h7 : v / 2 ^ 56 % 256 < 256 := Nat.mod_lt _ (by decide)
  simp only [B]
  omega

theorem bswap_bswap {v : Nat} (h : v < B) : bswap (bswap v) = v := by
  have h0 : v % 256 < 256 := Nat.mod_lt _ (by decide)
  have h1 : v / 2 ^ 8 % 256 < 256 := Nat.mod_lt _ (by decide)
  have h2 : v / 2 ^ 16 % 256 < 256 := Nat.mod_lt _ (by decide)
  have h3 : v / 2 ^ 24 % 256 < 256 := Nat.mod_lt _ (by decide)
  have h4 : v / 2 ^ 32 % 256 < 256 := Nat.mod_lt _ (by decide)
  have h5 : v / 2 ^ 40 % 256 < 256 := Nat.mod_lt _ (by decide)
  have h6 : v / 2 ^ 48 % 256 < 256 := Nat.mod_lt _ (by decide)
  have h7 : v / 2 ^ 56 % 256 < 256 := Nat.mod_lt _ (by decide)
  conv_lhs => rw [word_bytes h, bswap_bytes h0 h1 h2 h3 h4 h5 h6 h7, bswap_bytes h7 h6 h5 h4 h3 h2 h1 h0]
  exact (word_bytes h).symm

theorem beVal_32 (h : Nat → Nat) (a : Nat) : beVal h a 32 = bswap (h (a + 24)) + B * (bswap (h (a + 16)) + B * (bswap (h (a + 8)) + B * bswap (h a))) := by
  simp only [beVal, byteAt, Nat.reduceDiv, Nat.reduceMod, Nat.reduceMul, Nat.add_zero, bswap, B, Nat.reducePow, Nat.div_one]
  omega

theorem swap_exec (s : St) :
    (exec sm2p256BigToLittle s).heap (s.args 0) = bswap (s.heap (s.args 24 + 24)) ∧ (exec sm2p256BigToLittle s).heap (s.args 0 + 8) = bswap (s.heap (s.args 24 + 16)) ∧
    (exec sm2p256BigToLittle s).heap (s.args 0 + 16) = bswap (s.heap (s.args 24 + 8)) ∧ (exec sm2p256BigToLittle s).heap (s.args 0 + 24) = bswap (s.heap (s.args 24)) ∧
    Elsewhere (s.args 0) s.heap (exec sm2p256BigToLittle s).heap := by
  simp only [sm2p256BigToLittle, exec_cons, exec_nil, step, St.put, St.setR, get_reg, get_arg, get_mem]
  simp only [upd_apply, reduceCtorEq, if_true, if_false, Nat.add_zero, Nat.left_eq_add, Nat.add_left_cancel_iff, Nat.reduceEqDiff, Nat.add_eq_left, OfNat.ofNat_ne_zero]
  refine ⟨trivial, trivial, trivial, trivial, ?_⟩
  intro x h0 h1 h2 h3
  simp only [upd_apply, h0, h1, h2, h3, if_false]

end Verif.Sm2.Asm
