import Verif.Sm2.Asm.Ord
/-!
`sm2p256OrdSqr` executed for every input (sm2/sm2p256_amd64.s:1078-1330).
-/
namespace Verif.Sm2.Asm

/-- second limb of the reduction step: product with `ord1`, carry into the third limb, subtraction of `k` from it -/
def midO (a1 a2 : Reg) : List Instr :=
  [.movq (.imm ord1) (.reg .AX), .mulq (.reg .R14), .addq (.reg .R15) a1, .adcq (.imm 0) .DX, .addq (.reg .AX) a1, .movq (.reg .R14) (.reg .R15),
   .adcq (.reg .DX) a2, .adcq (.imm 0) .R15, .subq (.reg .R14) a2, .sbbq (.imm 0) .R15]

/-- the same in the last step -/
def midO' (a1 a2 : Reg) : List Instr :=
  [.movq (.imm ord1) (.reg .AX), .mulq (.reg .R14), .addq (.reg .R15) a1, .adcq (.imm 0) .DX, .addq (.reg .AX) a1, .adcq (.imm 0) .DX, .movq (.reg .DX) (.reg .R15),
   .movq (.reg .R14) (.reg .R15), .adcq (.reg .DX) a2, .adcq (.imm 0) .R15, .subq (.reg .R14) a2, .sbbq (.imm 0) .R15]

theorem mid_arith {a x k h : Nat} (hk : k < B) (ha : a < B) (hh : h < B) : ((a + h) % B + B - k) % B = (a + h + B - k) % B := by
  simp only [B] at *
  omega

theorem midO_spec (a1 a2 : Reg) (s : St) (w : Wd s [.R14, .R15, a1, a2]) (hd : [.AX, .DX, .R14, .R15, a1, a2].Nodup) :
    (exec (midO a1 a2) s).r a1 = (s.r a1 + s.r .R15 + ord1 * s.r .R14) % B ∧
    (exec (midO a1 a2) s).r a2 = (s.r a2 + (s.r a1 + s.r .R15 + ord1 * s.r .R14) / B + B - s.r .R14) % B ∧
    Same [.AX, .DX, .R15, a1, a2] s (exec (midO a1 a2) s) := by
  have bk := w.head
  have bt := w.tail.head
  have b1 := w.tail.tail.head
  have b2 := w.tail.tail.tail.head
  regs hd hk
  have ho : ord1 < B := by decide
  obtain ⟨e1, e2, e3, e4⟩ := mac_arith (s.r a1) (s.r .R15) _ b1 bt (mul_bound ho bk)
  simp only [midO]
  generalize ord1 = y at *
  run [e2] hd hk
  have e5 : s.r a2 + (y * s.r .R14 / B + if B ≤ s.r a1 + s.r .R15 then 1 else 0) + (if B ≤ (s.r a1 + s.r .R15) % B + y * s.r .R14 % B then 1 else 0) =
    s.r a2 + (s.r a1 + s.r .R15 + y * s.r .R14) / B := by rw [← e3, Nat.add_assoc]
  rw [e5]
  refine ⟨e1, mid_arith (x := 0) bk b2 e4, ?_⟩
  frame

theorem midO'_spec (a1 a2 : Reg) (s : St) (w : Wd s [.R14, .R15, a1, a2]) (hd : [.AX, .DX, .R14, .R15, a1, a2].Nodup) :
    (exec (midO' a1 a2) s).r a1 = (s.r a1 + s.r .R15 + ord1 * s.r .R14) % B ∧
    (exec (midO' a1 a2) s).r a2 = (s.r a2 + (s.r a1 + s.r .R15 + ord1 * s.r .R14) / B + B - s.r .R14) % B ∧
    Same [.AX, .DX, .R15, a1, a2] s (exec (midO' a1 a2) s) := by
  have bk := w.head
  have bt := w.tail.head
  have b1 := w.tail.tail.head
  have b2 := w.tail.tail.tail.head
  regs hd hk
  have ho : ord1 < B := by decide
  obtain ⟨e1, e2, e3, e4⟩ := mac_arith (s.r a1) (s.r .R15) _ b1 bt (mul_bound ho bk)
  simp only [midO']
  generalize ord1 = y at *
  run [e2, e3, Nat.mod_eq_of_lt e4, Nat.not_le.2 e4] hd hk
  refine ⟨e1, mid_arith (x := 0) bk b2 e4, ?_⟩
  frame

/-- the last limbs of the reduction step -/
def lastO (a0 a3 : Reg) : List Instr :=
  [.movq (.reg .R14) (.reg .AX), .movq (.reg .R14) (.reg .DX), .movq (.reg .R14) (.reg a0), .shlq 32 .AX, .shrq 32 .DX, .subq (.reg .AX) a3, .sbbq (.reg .DX) a0]

theorem lastO_spec (a0 a3 : Reg) (s : St) (hd : [.AX, .DX, .R14, a0, a3].Nodup) :
    (exec (lastO a0 a3) s).r a3 = (s.r a3 + B - s.r .R14 * 4294967296 % B) % B ∧
    (exec (lastO a0 a3) s).r a0 = (s.r .R14 + B - (s.r .R14 / 4294967296 + (if s.r a3 < s.r .R14 * 4294967296 % B then 1 else 0))) % B ∧
    Same [.AX, .DX, a0, a3] s (exec (lastO a0 a3) s) := by
  regs hd hk
  simp only [lastO]
  run [] hd hk
  refine ⟨trivial, trivial, ?_⟩
  frame

/-- reduction step of `sm2p256OrdSqr` -/
def redOS (a0 a1 a2 a3 : Reg) : List Instr :=
  getK a0 ++ (mac0 (.imm ord0) (.reg .R14) a0 .R15 ++ (midO a1 a2 ++ lastO a0 a3))

/-- the last one -/
def redOS' (a0 a1 a2 a3 : Reg) : List Instr :=
  getK a0 ++ (mac0 (.imm ord0) (.reg .R14) a0 .R15 ++ (midO' a1 a2 ++ lastO a0 a3))

/-- what one reduction step of `sm2p256OrdSqr` computes, on limbs; `k` is the quotient digit -/
def sqRed (k a0 a1 a2 a3 : Nat) : Nat :=
  (a1 + (a0 + ord0 * k) / B + ord1 * k) % B + B * ((a2 + (a1 + (a0 + ord0 * k) / B + ord1 * k) / B + B - k) % B +
    B * ((a3 + B - k * 4294967296 % B) % B + B * ((k + B - (k / 4294967296 + (if a3 < k * 4294967296 % B then 1 else 0))) % B)))

/-- one reduction step of `sm2p256OrdSqr` -/
def sqStep (T : Nat) : Nat := sqRed (T % B * ordK0 % B) (T % B) (T / B % B) (T / B ^ 2 % B) (T / B ^ 3 % B)

theorem sqStep_limbs {a0 a1 a2 a3 : Nat} (h0 : a0 < B) (h1 : a1 < B) (h2 : a2 < B) (h3 : a3 < B) :
    sqStep (a0 + B * (a1 + B * (a2 + B * (a3 + B * 0)))) = sqRed (a0 * ordK0 % B) a0 a1 a2 a3 := by
  unfold sqStep
  generalize hT : a0 + B * (a1 + B * (a2 + B * (a3 + B * 0))) = T
  have e0 : T % B = a0 := by simp only [B] at *; omega
  have e1 : T / B % B = a1 := by simp only [B] at *; omega
  have e2 : T / B ^ 2 % B = a2 := by simp only [B] at *; omega
  have e3 : T / B ^ 3 % B = a3 := by simp only [B] at *; omega
  rw [e0, e1, e2, e3]

theorem redOS_both (a0 a1 a2 a3 : Reg) (mid : List Instr) (s : St) (w : Wd s [a0, a1, a2, a3]) (hd : [.AX, .DX, .R14, .R15, a0, a1, a2, a3].Nodup)
    (hm : ∀ s : St, Wd s [.R14, .R15, a1, a2] → (exec mid s).r a1 = (s.r a1 + s.r .R15 + ord1 * s.r .R14) % B ∧
      (exec mid s).r a2 = (s.r a2 + (s.r a1 + s.r .R15 + ord1 * s.r .R14) / B + B - s.r .R14) % B ∧ Same [.AX, .DX, .R15, a1, a2] s (exec mid s)) :
    val (exec (getK a0 ++ (mac0 (.imm ord0) (.reg .R14) a0 .R15 ++ (mid ++ lastO a0 a3))) s) [a1, a2, a3, a0] = sqStep (val s [a0, a1, a2, a3]) ∧
    Wd (exec (getK a0 ++ (mac0 (.imm ord0) (.reg .R14) a0 .R15 ++ (mid ++ lastO a0 a3))) s) [a1, a2, a3, a0] ∧
    Same [.AX, .DX, .R14, .R15, a0, a1, a2, a3] s (exec (getK a0 ++ (mac0 (.imm ord0) (.reg .R14) a0 .R15 ++ (mid ++ lastO a0 a3))) s) := by
  have b0 := w.head
  have b1 := w.tail.head
  have b2 := w.tail.tail.head
  have b3 := w.tail.tail.tail.head
  have hd' := hd
  regs hd' hk
  obtain ⟨h1, h2⟩ := getK_spec a0 s (by simp only [ne_eq, hd', hk, not_false_eq_true])
  simp only [exec_append]
  generalize exec (getK a0) s = s1 at *
  have z0 : s1.r a0 = s.r a0 := h2.r (by far hd' hk)
  have z1 : s1.r a1 = s.r a1 := h2.r (by far hd' hk)
  have z2 : s1.r a2 = s.r a2 := h2.r (by far hd' hk)
  have z3 : s1.r a3 = s.r a3 := h2.r (by far hd' hk)
  have hk14 : s1.r .R14 < B := by rw [h1]; exact mod_lt_B _
  have ho0 : ord0 < B := by decide
  obtain ⟨k1, k2, -, k3⟩ := mac0_spec (.imm ord0) (.reg .R14) a0 .R15 s1 ho0 hk14 (by rw [z0]; exact b0)
    (by simp only [List.nodup_cons, List.mem_cons, List.not_mem_nil, or_false, not_or, List.nodup_nil, and_true, not_false_eq_true, hd', hk, reduceCtorEq])
    (by simp only [Src.avoids, List.mem_cons, List.not_mem_nil, or_false, reduceCtorEq, not_false_eq_true])
  simp only [get_imm, get_reg] at k1 k2
  have k15 : (s1.r a0 + ord0 * s1.r .R14) / B < B := by rw [z0]; exact div_mul_lt b0 ho0 hk14
  generalize exec (mac0 (.imm ord0) (.reg .R14) a0 .R15) s1 = s2 at *
  have y14 : s2.r .R14 = s1.r .R14 := k3.r (by far hd' hk)
  have y1 : s2.r a1 = s.r a1 := (k3.r (by far hd' hk)).trans z1
  have y2 : s2.r a2 = s.r a2 := (k3.r (by far hd' hk)).trans z2
  have y3 : s2.r a3 = s.r a3 := (k3.r (by far hd' hk)).trans z3
  obtain ⟨m1, m2, m3⟩ := hm s2 (.cons (by rw [y14]; exact hk14) (.cons (by rw [k2]; exact k15) (.cons (by rw [y1]; exact b1) (.cons (by rw [y2]; exact b2) .nil))))
  generalize exec mid s2 = s3 at *
  have x14 : s3.r .R14 = s1.r .R14 := (m3.r (by far hd' hk)).trans y14
  have x3 : s3.r a3 = s.r a3 := (m3.r (by far hd' hk)).trans y3
  obtain ⟨l1, l2, l3⟩ := lastO_spec a0 a3 s3
    (by simp only [List.nodup_cons, List.mem_cons, List.not_mem_nil, or_false, not_or, List.nodup_nil, and_true, not_false_eq_true, hd', hk, reduceCtorEq])
  generalize exec (lastO a0 a3) s3 = s4 at *
  have v1 : s4.r a1 = s3.r a1 := l3.r (by far hd' hk)
  have v2 : s4.r a2 = s3.r a2 := l3.r (by far hd' hk)
  refine ⟨?_, ?_, ((h2.trans (n := [.AX, .DX, .R14, .R15, a0, a1, a2, a3]) k3 (by incl) (by incl)).trans (n := [.AX, .DX, .R14, .R15, a0, a1, a2, a3]) m3 (by incl) (by incl)).trans l3 (by incl) (by incl)⟩
  · simp only [val]
    rw [sqStep_limbs b0 b1 b2 b3, v1, v2, l1, l2, m1, m2, x14, x3, y1, y2, y14, k2, z0, h1, sqRed, Nat.mul_zero, Nat.add_zero]
  · refine .cons ?_ (.cons ?_ (.cons ?_ (.cons ?_ .nil)))
    · rw [v1, m1]; exact mod_lt_B _
    · rw [v2, m2]; exact mod_lt_B _
    · rw [l1]; exact mod_lt_B _
    · rw [l2]; exact mod_lt_B _

theorem redOS_spec (a0 a1 a2 a3 : Reg) (s : St) (w : Wd s [a0, a1, a2, a3]) (hd : [.AX, .DX, .R14, .R15, a0, a1, a2, a3].Nodup) :
    val (exec (redOS a0 a1 a2 a3) s) [a1, a2, a3, a0] = sqStep (val s [a0, a1, a2, a3]) ∧
    Wd (exec (redOS a0 a1 a2 a3) s) [a1, a2, a3, a0] ∧ Same [.AX, .DX, .R14, .R15, a0, a1, a2, a3] s (exec (redOS a0 a1 a2 a3) s) := by
  have hd' := hd
  regs hd' hk
  exact redOS_both a0 a1 a2 a3 (midO a1 a2) s w hd (fun s w => midO_spec a1 a2 s w
    (by simp only [List.nodup_cons, List.mem_cons, List.not_mem_nil, or_false, not_or, List.nodup_nil, and_true, not_false_eq_true, hd', hk, reduceCtorEq]))

theorem redOS'_spec (a0 a1 a2 a3 : Reg) (s : St) (w : Wd s [a0, a1, a2, a3]) (hd : [.AX, .DX, .R14, .R15, a0, a1, a2, a3].Nodup) :
    val (exec (redOS' a0 a1 a2 a3) s) [a1, a2, a3, a0] = sqStep (val s [a0, a1, a2, a3]) ∧
    Wd (exec (redOS' a0 a1 a2 a3) s) [a1, a2, a3, a0] ∧ Same [.AX, .DX, .R14, .R15, a0, a1, a2, a3] s (exec (redOS' a0 a1 a2 a3) s) := by
  have hd' := hd
  regs hd' hk
  exact redOS_both a0 a1 a2 a3 (midO' a1 a2) s w hd (fun s w => midO'_spec a1 a2 s w
    (by simp only [List.nodup_cons, List.mem_cons, List.not_mem_nil, or_false, not_or, List.nodup_nil, and_true, not_false_eq_true, hd', hk, reduceCtorEq]))

theorem ordSqr_split : sm2p256OrdSqrBody =
    sqrWideM ++ (redOS .R8 .R9 .R10 .R11 ++ (redOS .R9 .R10 .R11 .R8 ++ (redOS .R10 .R11 .R8 .R9 ++ (redOS' .R11 .R8 .R9 .R10 ++
    ([.xorq (.reg .R14) .R14] ++ (foldIn .R8 .R9 .R10 .R11 .R12 .R13 .CX .SI .R14 ++
    (condSubO .R8 .R9 .R10 .R11 .R12 .R13 .CX .R15 .R14 ++ (st4 .DI .R8 .R9 .R10 .R11 ++ [.movq (.reg .DI) (.reg .SI), .decq .BX])))))))) := by decide +kernel

/-- what one pass of `sm2p256OrdSqr` computes -/
def ordSqrT (x : Nat) : Nat := condSubQ (sqStep (sqStep (sqStep (sqStep (x * x % B ^ 4)))) + x * x / B ^ 4)

theorem st4_words (p a b c d : Reg) (s : St) (w : Wd s [a, b, c, d]) : Words (exec (st4 p a b c d) s).heap (s.r p) := by
  simp only [st4, exec_cons, exec_nil, step, St.put, get_reg, Words]
  simp only [upd_apply, Nat.left_eq_add, Nat.add_left_cancel_iff, Nat.reduceEqDiff, if_true, if_false, Nat.add_eq_left, OfNat.ofNat_ne_zero, Nat.add_zero]
  exact ⟨w.head, w.tail.head, w.tail.tail.head, w.tail.tail.tail.head⟩

theorem xorq_cf (r : Reg) (s : St) : (exec [.xorq (.reg r) r] s).cf = false := rfl

theorem tailO_spec (s : St) : (exec [.movq (.reg .DI) (.reg .SI), .decq .BX] s).heap = s.heap ∧
    (exec [.movq (.reg .DI) (.reg .SI), .decq .BX] s).r .DI = s.r .DI ∧ (exec [.movq (.reg .DI) (.reg .SI), .decq .BX] s).r .SI = s.r .DI ∧
    (exec [.movq (.reg .DI) (.reg .SI), .decq .BX] s).r .BX = (s.r .BX + B - 1) % B ∧
    ((exec [.movq (.reg .DI) (.reg .SI), .decq .BX] s).zf = true ↔ (s.r .BX + B - 1) % B = 0) := by
  simp only [exec_cons, exec_nil, step, St.put, St.setR, get_reg]
  simp only [upd_apply, reduceCtorEq, if_true, if_false, decide_eq_true_eq]
  exact ⟨trivial, trivial, trivial, trivial, trivial⟩

/-- one pass of the loop -/
theorem ordSqr_pass (s : St) (hx : Words s.heap (s.r .SI)) :
    ld4 (exec sm2p256OrdSqrBody s).heap (s.r .DI) = ordSqrT (ld4 s.heap (s.r .SI)) ∧
    Words (exec sm2p256OrdSqrBody s).heap (s.r .DI) ∧
    Elsewhere (s.r .DI) s.heap (exec sm2p256OrdSqrBody s).heap ∧
    (exec sm2p256OrdSqrBody s).r .DI = s.r .DI ∧ (exec sm2p256OrdSqrBody s).r .SI = s.r .DI ∧
    (exec sm2p256OrdSqrBody s).r .BX = (s.r .BX + B - 1) % B ∧
    ((exec sm2p256OrdSqrBody s).zf = true ↔ (s.r .BX + B - 1) % B = 0) := by
  rw [ordSqr_split]
  simp only [exec_append]
  obtain ⟨lo, hi, wl, wh, S2⟩ := sqrWideM_spec s hx
  generalize exec sqrWideM s = s2 at *
  have hdi2 : s2.r .DI = s.r .DI := S2.r (by decide)
  have hbx2 : s2.r .BX = s.r .BX := S2.r (by decide)
  have hh2 : s2.heap = s.heap := S2.2.1
  obtain ⟨a1, a2, a3⟩ := redOS_spec .R8 .R9 .R10 .R11 s2 wl (by decide)
  have vh3 := a3.val (m := [.R12, .R13, .CX, .SI]) (by decide)
  have wh3 := a3.wd (m := [.R12, .R13, .CX, .SI]) (by decide) wh
  generalize exec (redOS .R8 .R9 .R10 .R11) s2 = s3 at *
  have hdi3 : s3.r .DI = s.r .DI := (a3.r (by decide)).trans hdi2
  have hbx3 : s3.r .BX = s.r .BX := (a3.r (by decide)).trans hbx2
  have hh3 : s3.heap = s.heap := a3.2.1.trans hh2
  obtain ⟨b1, b2, b3⟩ := redOS_spec .R9 .R10 .R11 .R8 s3 a2 (by decide)
  have vh4 := b3.val (m := [.R12, .R13, .CX, .SI]) (by decide)
  have wh4 := b3.wd (m := [.R12, .R13, .CX, .SI]) (by decide) wh3
  generalize exec (redOS .R9 .R10 .R11 .R8) s3 = s4 at *
  have hdi4 : s4.r .DI = s.r .DI := (b3.r (by decide)).trans hdi3
  have hbx4 : s4.r .BX = s.r .BX := (b3.r (by decide)).trans hbx3
  have hh4 : s4.heap = s.heap := b3.2.1.trans hh3
  obtain ⟨c1, c2, c3⟩ := redOS_spec .R10 .R11 .R8 .R9 s4 b2 (by decide)
  have vh5 := c3.val (m := [.R12, .R13, .CX, .SI]) (by decide)
  have wh5 := c3.wd (m := [.R12, .R13, .CX, .SI]) (by decide) wh4
  generalize exec (redOS .R10 .R11 .R8 .R9) s4 = s5 at *
  have hdi5 : s5.r .DI = s.r .DI := (c3.r (by decide)).trans hdi4
  have hbx5 : s5.r .BX = s.r .BX := (c3.r (by decide)).trans hbx4
  have hh5 : s5.heap = s.heap := c3.2.1.trans hh4
  obtain ⟨d1, d2, d3⟩ := redOS'_spec .R11 .R8 .R9 .R10 s5 c2 (by decide)
  have vh6 := d3.val (m := [.R12, .R13, .CX, .SI]) (by decide)
  have wh6 := d3.wd (m := [.R12, .R13, .CX, .SI]) (by decide) wh5
  generalize exec (redOS' .R11 .R8 .R9 .R10) s5 = s6 at *
  have hdi6 : s6.r .DI = s.r .DI := (d3.r (by decide)).trans hdi5
  have hbx6 : s6.r .BX = s.r .BX := (d3.r (by decide)).trans hbx5
  have hh6 : s6.heap = s.heap := d3.2.1.trans hh5
  obtain ⟨x1, x2⟩ := xorq_spec .R14 s6
  have xc := xorq_cf .R14 s6
  have vh7 := x2.val (m := [.R12, .R13, .CX, .SI]) (by decide)
  have wh7 := x2.wd (m := [.R12, .R13, .CX, .SI]) (by decide) wh6
  have vl7 := x2.val (m := [.R8, .R9, .R10, .R11]) (by decide)
  have wl7 := x2.wd (m := [.R8, .R9, .R10, .R11]) (by decide) d2
  generalize exec [.xorq (.reg .R14) .R14] s6 = s7 at *
  have hdi7 : s7.r .DI = s.r .DI := (x2.r (by decide)).trans hdi6
  have hbx7 : s7.r .BX = s.r .BX := (x2.r (by decide)).trans hbx6
  have hh7 : s7.heap = s.heap := x2.2.1.trans hh6
  obtain ⟨p1, p2, p3⟩ := foldIn_spec .R8 .R9 .R10 .R11 .R12 .R13 .CX .SI .R14 s7 wl7 wh7 x1 xc (by decide)
  generalize exec (foldIn .R8 .R9 .R10 .R11 .R12 .R13 .CX .SI .R14) s7 = s8 at *
  have hdi8 : s8.r .DI = s.r .DI := (p3.r (by decide)).trans hdi7
  have hbx8 : s8.r .BX = s.r .BX := (p3.r (by decide)).trans hbx7
  have hh8 : s8.heap = s.heap := p3.2.1.trans hh7
  obtain ⟨u1, u2, u3⟩ := condSubO_spec .R8 .R9 .R10 .R11 .R12 .R13 .CX .R15 .R14 s8 p2 (by decide)
  generalize exec (condSubO .R8 .R9 .R10 .R11 .R12 .R13 .CX .R15 .R14) s8 = s9 at *
  have hdi9 : s9.r .DI = s.r .DI := (u3.r (by decide)).trans hdi8
  have hbx9 : s9.r .BX = s.r .BX := (u3.r (by decide)).trans hbx8
  have hh9 : s9.heap = s.heap := u3.2.1.trans hh8
  obtain ⟨v1, v2, v3⟩ := st4_spec .DI .R8 .R9 .R10 .R11 s9
  have vw := st4_words .DI .R8 .R9 .R10 .R11 s9 u2
  rw [hdi9] at v1 v2 vw
  rw [hh9] at v2
  have hdi10 : (exec (st4 .DI .R8 .R9 .R10 .R11) s9).r .DI = s.r .DI := by rw [v3.1, hdi9]
  have hbx10 : (exec (st4 .DI .R8 .R9 .R10 .R11) s9).r .BX = s.r .BX := by rw [v3.1, hbx9]
  generalize exec (st4 .DI .R8 .R9 .R10 .R11) s9 = s10 at *
  obtain ⟨t1, t2, t3, t4, t5⟩ := tailO_spec s10
  generalize exec [.movq (.reg .DI) (.reg .SI), .decq .BX] s10 = s11 at *
  rw [t1, t2, t3, t4, t5, hdi10, hbx10]
  refine ⟨?_, vw, v2, rfl, rfl, rfl, Iff.rfl⟩
  rw [v1, u1, p1, vl7, d1, c1, b1, a1, vh7, vh6, vh5, vh4, vh3, lo, hi, ordSqrT]

/-- `n` passes -/
theorem ordSqr_loop (n : Nat) : ∀ (fuel : Nat) (s : St), n + 1 ≤ fuel → n + 1 < B → s.r .BX = n + 1 → Words s.heap (s.r .SI) →
    ld4 (doWhile sm2p256OrdSqrBody fuel s).heap (s.r .DI) = ordSqrT^[n + 1] (ld4 s.heap (s.r .SI)) ∧
    Elsewhere (s.r .DI) s.heap (doWhile sm2p256OrdSqrBody fuel s).heap := by
  induction n with
  | zero =>
    intro fuel s hf hb hx hw
    obtain ⟨f, rfl⟩ : ∃ f, fuel = f + 1 := ⟨fuel - 1, by omega⟩
    obtain ⟨h1, -, h3, -, -, -, h7⟩ := ordSqr_pass s hw
    have hz : (exec sm2p256OrdSqrBody s).zf = true := h7.2 (by rw [hx]; decide +kernel)
    rw [doWhile, if_pos hz, Function.iterate_succ_apply, Function.iterate_zero, id]
    exact ⟨h1, h3⟩
  | succ n ih =>
    intro fuel s hf hb hx hw
    obtain ⟨f, rfl⟩ : ∃ f, fuel = f + 1 := ⟨fuel - 1, by omega⟩
    obtain ⟨h1, h2, h3, h4, h5, h6, h7⟩ := ordSqr_pass s hw
    have hd : (s.r .BX + B - 1) % B = n + 1 := by rw [hx]; simp only [B] at *; omega
    have hz : ¬ (exec sm2p256OrdSqrBody s).zf = true := by rw [h7, hd]; exact Nat.succ_ne_zero n
    rw [doWhile, if_neg hz]
    generalize exec sm2p256OrdSqrBody s = s1 at *
    obtain ⟨k1, k2⟩ := ih f s1 (by omega) (by omega) (by rw [h6, hd]) (by rw [h5]; exact h2)
    rw [h4] at k1 k2
    rw [h5, h1, ← Function.iterate_succ_apply] at k1
    refine ⟨k1, fun b b0 b1 b2 b3 => (k2 b b0 b1 b2 b3).trans (h3 b b0 b1 b2 b3)⟩

/-- the routine: the loop ends after `args 48` passes, whatever larger bound is put on it -/
def runOrdSqr (fuel : Nat) (s : St) : St := exec sm2p256OrdSqrPost (doWhile sm2p256OrdSqrBody fuel (exec sm2p256OrdSqrPre s))

theorem ordSqr_exec (s : St) (fuel : Nat) (hn : 1 ≤ s.args 48) (hb : s.args 48 < B) (hf : s.args 48 ≤ fuel) (hx : Words s.heap (s.args 24)) :
    ld4 (runOrdSqr fuel s).heap (s.args 0) = ordSqrT^[s.args 48] (ld4 s.heap (s.args 24)) ∧
    Elsewhere (s.args 0) s.heap (runOrdSqr fuel s).heap := by
  obtain ⟨n, hn⟩ : ∃ n, s.args 48 = n + 1 := ⟨s.args 48 - 1, by omega⟩
  unfold runOrdSqr
  rw [sm2p256OrdSqrPost, exec_nil]
  have e1 : (exec sm2p256OrdSqrPre s).r .DI = s.args 0 := rfl
  have e2 : (exec sm2p256OrdSqrPre s).r .SI = s.args 24 := rfl
  have e3 : (exec sm2p256OrdSqrPre s).r .BX = s.args 48 := rfl
  have e4 : (exec sm2p256OrdSqrPre s).heap = s.heap := rfl
  generalize exec sm2p256OrdSqrPre s = s1 at *
  have := ordSqr_loop n fuel s1 (by omega) (by omega) (by omega) (by rw [e4, e2]; exact hx)
  rw [e1, e2, e4] at this
  rw [hn]
  exact this

end Verif.Sm2.Asm
