import Verif.Sm2.Asm.PointAdd
/-!
`sm2p256NegCond`, and the negation at the start of `sm2p256PointAddAffineAsm`.
-/
namespace Verif.Sm2.Asm

/-- what `sm2p256NegCond` makes of its operand if the condition is not zero -/
def negI (y : Nat) : Nat := (P + B ^ 4 - y) % B ^ 4

/-- what `sm2p256PointAddAffineAsm` makes of the ordinate of its second operand if the sign is not zero -/
def negAff (y : Nat) : Nat := if y ≤ P ∧ B ^ 4 ≤ 2 * P - y then P - y else 2 * P - y

theorem tst_spec (d : Reg) (s : St) : (exec [.testq (.reg d) d] s).zf = decide (s.r d = 0) ∧ Same [] s (exec [.testq (.reg d) d] s) := by
  simp only [exec_cons, exec_nil, step, get_reg, Nat.and_self]
  refine ⟨trivial, ?_⟩
  frame

/-- a sequence of `CMOVQNE` -/
def cmovnes : List (Src × Reg) → List Instr
  | [] => []
  | (.reg a, d) :: l => .cmovne a d :: cmovnes l
  | _ :: l => cmovnes l

theorem cmovne_spec (a d : Reg) (s : St) : (step s (.cmovne a d)).r d = (if s.zf then s.r d else s.r a) ∧ (step s (.cmovne a d)).zf = s.zf ∧
    Same [d] s (step s (.cmovne a d)) := by
  simp only [step, St.setR]
  cases h : s.zf
  · simp only [Bool.false_eq_true, if_false]
    refine ⟨by simp only [upd_apply, if_true], trivial, ?_⟩
    frame
  · exact ⟨rfl, h, .refl _ _⟩

theorem cmovnes_spec (l : List (Src × Reg)) : ∀ (s : St), Regs l → Clean l →
    val (exec (cmovnes l) s) (l.map (·.2)) = (if s.zf then val s (l.map (·.2)) else sval s (l.map (·.1))) ∧
    ((∀ p ∈ l, p.1.get s < B ∧ s.r p.2 < B) → Wd (exec (cmovnes l) s) (l.map (·.2))) ∧ Same (l.map (·.2)) s (exec (cmovnes l) s) := by
  induction l with
  | nil => intro s _ _; exact ⟨by simp [cmovnes, val, sval], fun _ => .nil, .refl _ _⟩
  | cons p l ih =>
    intro s hr hc
    obtain ⟨a, d⟩ := p
    obtain ⟨a, rfl⟩ : ∃ r, a = .reg r := hr (a, d) List.mem_cons_self
    obtain ⟨h1, h2, h3⟩ := cmovne_spec a d s
    have hl : ∀ p ∈ l, p.1.avoids [d] ∧ p.2 ≠ d := hc.1
    obtain ⟨k1, k3, k4⟩ := ih (step s (.cmovne a d)) (fun p hp => hr p (List.mem_cons_of_mem _ hp)) hc.2
    have hd : d ∉ l.map (·.2) := by
      intro h
      obtain ⟨p, hp, e⟩ := List.mem_map.1 h
      exact (hl p hp).2 e
    simp only [cmovnes, exec_cons, List.map_cons, val, sval]
    rw [h3.sval (m := l.map (·.1)) (by intro r hr; obtain ⟨p, hp, rfl⟩ := List.mem_map.1 hr; exact (hl p hp).1),
      h3.val (m := l.map (·.2)) (by intro r hr; obtain ⟨p, hp, rfl⟩ := List.mem_map.1 hr; simp [(hl p hp).2]), h2] at k1
    refine ⟨?_, ?_, h3.trans k4 (by simp) (by simp)⟩
    · rw [k4.r hd, h1, k1, get_reg]
      cases s.zf <;> rfl
    · intro hb
      refine .cons ?_ (k3 ?_)
      · rw [k4.r hd, h1]
        have := hb (.reg a, d) List.mem_cons_self
        rw [get_reg] at this
        split
        · exact this.2
        · exact this.1
      · intro p hp
        rw [h3.get (hl p hp).1, h3.r (by simp [(hl p hp).2])]
        exact hb p (List.mem_cons_of_mem _ hp)

theorem negCond_split : sm2p256NegCond =
    movs [(.arg 0, .DI), (.arg 24, .R14), (.imm 0xffffffffffffffff, .R8), (.imm 0xffffffff00000000, .R9), (.imm 0xffffffffffffffff, .R10), (.imm 0xfffffffeffffffff, .R11)] ++
    (movs [(.mem .DI 0, .R13), (.mem .DI 8, .SI), (.mem .DI 16, .CX), (.mem .DI 24, .R15)] ++
    (subs [(.reg .R13, .R8), (.reg .SI, .R9), (.reg .CX, .R10), (.reg .R15, .R11)] ++ ([.testq (.reg .R14) .R14] ++
    (cmoveqs [(.reg .R13, .R8), (.reg .SI, .R9), (.reg .CX, .R10), (.reg .R15, .R11)] ++ st4 .DI .R8 .R9 .R10 .R11)))) := by decide +kernel

/-- `sm2/sm2p256_amd64.s:133-163` -/
theorem negCond_exec (s : St) (hx : Words s.heap (s.args 0)) :
    ld4 (exec sm2p256NegCond s).heap (s.args 0) = (if s.args 24 = 0 then ld4 s.heap (s.args 0) else negI (ld4 s.heap (s.args 0))) ∧
    Elsewhere (s.args 0) s.heap (exec sm2p256NegCond s).heap := by
  rw [negCond_split]
  simp only [exec_append]
  obtain ⟨a1, -, -, a4⟩ := movs_spec [(.arg 0, .DI), (.arg 24, .R14), (.imm 0xffffffffffffffff, .R8), (.imm 0xffffffff00000000, .R9), (.imm 0xffffffffffffffff, .R10), (.imm 0xfffffffeffffffff, .R11)] s (by decide)
  have hdi : (exec (movs [(.arg 0, .DI), (.arg 24, .R14), (.imm 0xffffffffffffffff, .R8), (.imm 0xffffffff00000000, .R9), (.imm 0xffffffffffffffff, .R10), (.imm 0xfffffffeffffffff, .R11)]) s).r .DI = s.args 0 := rfl
  have h14 : (exec (movs [(.arg 0, .DI), (.arg 24, .R14), (.imm 0xffffffffffffffff, .R8), (.imm 0xffffffff00000000, .R9), (.imm 0xffffffffffffffff, .R10), (.imm 0xfffffffeffffffff, .R11)]) s).r .R14 = s.args 24 := rfl
  have h8 : (exec (movs [(.arg 0, .DI), (.arg 24, .R14), (.imm 0xffffffffffffffff, .R8), (.imm 0xffffffff00000000, .R9), (.imm 0xffffffffffffffff, .R10), (.imm 0xfffffffeffffffff, .R11)]) s).r .R8 = 0xffffffffffffffff := rfl
  have h9 : (exec (movs [(.arg 0, .DI), (.arg 24, .R14), (.imm 0xffffffffffffffff, .R8), (.imm 0xffffffff00000000, .R9), (.imm 0xffffffffffffffff, .R10), (.imm 0xfffffffeffffffff, .R11)]) s).r .R9 = 0xffffffff00000000 := rfl
  have h10 : (exec (movs [(.arg 0, .DI), (.arg 24, .R14), (.imm 0xffffffffffffffff, .R8), (.imm 0xffffffff00000000, .R9), (.imm 0xffffffffffffffff, .R10), (.imm 0xfffffffeffffffff, .R11)]) s).r .R10 = 0xffffffffffffffff := rfl
  have h11 : (exec (movs [(.arg 0, .DI), (.arg 24, .R14), (.imm 0xffffffffffffffff, .R8), (.imm 0xffffffff00000000, .R9), (.imm 0xffffffffffffffff, .R10), (.imm 0xfffffffeffffffff, .R11)]) s).r .R11 = 0xfffffffeffffffff := rfl
  have hh := a4.2.1
  clear a1 a4
  generalize exec (movs [(.arg 0, .DI), (.arg 24, .R14), (.imm 0xffffffffffffffff, .R8), (.imm 0xffffffff00000000, .R9), (.imm 0xffffffffffffffff, .R10), (.imm 0xfffffffeffffffff, .R11)]) s = s1 at *
  obtain ⟨b1, -, b3, b4⟩ := movs_spec [(.mem .DI 0, .R13), (.mem .DI 8, .SI), (.mem .DI 16, .CX), (.mem .DI 24, .R15)] s1 (by decide)
  replace b3 := b3 (by bnd; simp only [get_mem, hh, hdi]; exact hx)
  generalize exec (movs [(.mem .DI 0, .R13), (.mem .DI 8, .SI), (.mem .DI 16, .CX), (.mem .DI 24, .R15)]) s1 = s2 at *
  simp only [List.map_cons, List.map_nil, sval, get_mem, hh, hdi, Nat.add_zero] at b1 b3
  have vy : val s2 [.R13, .SI, .CX, .R15] = ld4 s.heap (s.args 0) := b1
  have hdi2 : s2.r .DI = s.args 0 := (b4.r (by decide)).trans hdi
  have hh2 : s2.heap = s.heap := b4.2.1.trans hh
  have g8 := (b4.r (r := .R8) (by decide)).trans h8
  have g9 := (b4.r (r := .R9) (by decide)).trans h9
  have g10 := (b4.r (r := .R10) (by decide)).trans h10
  have g11 := (b4.r (r := .R11) (by decide)).trans h11
  have g14 := (b4.r (r := .R14) (by decide)).trans h14
  clear b1 b4 hdi h8 h9 h10 h11 h14 hh
  obtain ⟨c1, c2, c3⟩ := subs_spec (.reg .R13, .R8) [(.reg .SI, .R9), (.reg .CX, .R10), (.reg .R15, .R11)] s2 (by
    bnd
    rw [g8, g9, g10, g11]
    exact ⟨⟨b3.head, by decide⟩, ⟨b3.tail.head, by decide⟩, ⟨b3.tail.tail.head, by decide⟩, ⟨b3.tail.tail.tail.head, by decide⟩⟩) (by decide)
  have vy3 := c3.val (m := [.R13, .SI, .CX, .R15]) (by decide)
  have wy3 := c3.wd (m := [.R13, .SI, .CX, .R15]) (by decide) b3
  generalize exec (subs [(.reg .R13, .R8), (.reg .SI, .R9), (.reg .CX, .R10), (.reg .R15, .R11)]) s2 = s3 at *
  have hdi3 : s3.r .DI = s.args 0 := (c3.r (by decide)).trans hdi2
  have hh3 : s3.heap = s.heap := c3.2.1.trans hh2
  have g14' := (c3.r (r := .R14) (by decide)).trans g14
  have c1' : val s3 [.R8, .R9, .R10, .R11] + val s2 [.R13, .SI, .CX, .R15] = P + carry s3 * B ^ 4 := by
    have : val s2 [.R8, .R9, .R10, .R11] = P := by simp only [val, g8, g9, g10, g11]; decide
    rw [← this]
    exact c1
  rw [vy] at c1'
  obtain ⟨t1, t2⟩ := tst_spec .R14 s3
  have vy4 := t2.val (m := [.R13, .SI, .CX, .R15]) (by decide)
  have wy4 := t2.wd (m := [.R13, .SI, .CX, .R15]) (by decide) wy3
  have vz4 := t2.val (m := [.R8, .R9, .R10, .R11]) (by decide)
  have wz4 := t2.wd (m := [.R8, .R9, .R10, .R11]) (by decide) c2
  generalize exec [.testq (.reg .R14) .R14] s3 = s4 at *
  have hdi4 : s4.r .DI = s.args 0 := (t2.r (by decide)).trans hdi3
  have hh4 : s4.heap = s.heap := t2.2.1.trans hh3
  rw [g14'] at t1
  obtain ⟨l1, l2, l3⟩ := cmoveqs_spec [(.reg .R13, .R8), (.reg .SI, .R9), (.reg .CX, .R10), (.reg .R15, .R11)] s4 (by
    intro p hp
    simp only [List.mem_cons, List.not_mem_nil, or_false] at hp
    rcases hp with rfl | rfl | rfl | rfl <;> exact ⟨_, rfl⟩) (by decide)
  generalize exec (cmoveqs [(.reg .R13, .R8), (.reg .SI, .R9), (.reg .CX, .R10), (.reg .R15, .R11)]) s4 = s5 at *
  have hdi5 : s5.r .DI = s.args 0 := (l3.r (by decide)).trans hdi4
  have hh5 : s5.heap = s.heap := l3.2.1.trans hh4
  obtain ⟨v1, v2, -⟩ := st4_spec .DI .R8 .R9 .R10 .R11 s5
  rw [hdi5] at v1 v2
  rw [hh5] at v2
  refine ⟨?_, v2⟩
  rw [v1]
  have l1' : val s5 [.R8, .R9, .R10, .R11] = if s4.zf then val s4 [.R13, .SI, .CX, .R15] else val s4 [.R8, .R9, .R10, .R11] := l1
  rw [l1', t1, vy4, vy3, vy, vz4]
  simp only [decide_eq_true_eq]
  split
  · rfl
  · have hb : val s3 [.R8, .R9, .R10, .R11] < B ^ 4 := by
      have := c2.head
      have := c2.tail.head
      have := c2.tail.tail.head
      have := c2.tail.tail.tail.head
      simp only [val, B] at *
      omega
    have hx' : ld4 s.heap (s.args 0) < B ^ 4 := by
      have := hx.1
      have := hx.2.1
      have := hx.2.2.1
      have := hx.2.2.2
      simp only [ld4, B] at *
      omega
    exact sub_wrap c1' hb (by omega)

/-- `sm2/sm2p256_amd64.s:1981-1985` -/
def negTail : List Instr := [.testq (.reg .DX) .DX] ++ cmoveqs [(.reg .R10, .BX), (.reg .R11, .CX), (.reg .R12, .R8), (.reg .R13, .R9)]

theorem negTail_spec (s7 : St) (wy7 : Wd s7 [.R10, .R11, .R12, .R13]) (g2 : Wd s7 [.BX, .CX, .R8, .R9]) :
    val (exec negTail s7) [.BX, .CX, .R8, .R9] = (if s7.r .DX = 0 then val s7 [.R10, .R11, .R12, .R13] else val s7 [.BX, .CX, .R8, .R9]) ∧
    Wd (exec negTail s7) [.BX, .CX, .R8, .R9] ∧ Same [.BX, .CX, .R8, .R9] s7 (exec negTail s7) := by
  rw [negTail]
  simp only [exec_append]
  obtain ⟨t1, t2⟩ := tst_spec .DX s7
  have vy8 := t2.val (m := [.R10, .R11, .R12, .R13]) (by decide)
  have wy8 := t2.wd (m := [.R10, .R11, .R12, .R13]) (by decide) wy7
  have vb8 := t2.val (m := [.BX, .CX, .R8, .R9]) (by decide)
  have wb8 := t2.wd (m := [.BX, .CX, .R8, .R9]) (by decide) g2
  generalize exec [.testq (.reg .DX) .DX] s7 = s8 at *
  obtain ⟨l1, l2, l3⟩ := cmoveqs_spec [(.reg .R10, .BX), (.reg .R11, .CX), (.reg .R12, .R8), (.reg .R13, .R9)] s8 (by
    intro p hp
    simp only [List.mem_cons, List.not_mem_nil, or_false] at hp
    rcases hp with rfl | rfl | rfl | rfl <;> exact ⟨_, rfl⟩) (by decide)
  replace l2 := l2 (by bnd; exact ⟨⟨wy8.head, wb8.head⟩, ⟨wy8.tail.head, wb8.tail.head⟩, ⟨wy8.tail.tail.head, wb8.tail.tail.head⟩, wy8.tail.tail.tail.head, wb8.tail.tail.tail.head⟩)
  generalize exec (cmoveqs [(.reg .R10, .BX), (.reg .R11, .CX), (.reg .R12, .R8), (.reg .R13, .R9)]) s8 = s9 at *
  refine ⟨?_, l2, t2.trans l3 (by decide) (by decide)⟩
  have l1' : val s9 [.BX, .CX, .R8, .R9] = if s8.zf then val s8 [.R10, .R11, .R12, .R13] else val s8 [.BX, .CX, .R8, .R9] := l1
  rw [l1', t1, vy8, vb8]
  simp only [decide_eq_true_eq]

/-- `sm2/sm2p256_amd64.s:1954-1985` -/
def negC : List Instr :=
  movs [(.imm 0xffffffffffffffff, .BX), (.imm 0xffffffff00000000, .CX), (.imm 0xffffffffffffffff, .R8), (.imm 0xfffffffeffffffff, .R9)] ++
  ([.xorq (.reg .AX) .AX] ++ (subs [(.reg .R10, .BX), (.reg .R11, .CX), (.reg .R12, .R8), (.reg .R13, .R9), (.imm 0, .AX)] ++
  (movs [(.reg .BX, .R14), (.reg .CX, .R15), (.reg .R8, .DI), (.reg .R9, .SI)] ++
  (adds [(.imm 0xffffffffffffffff, .BX), (.imm 0xffffffff00000000, .CX), (.imm 0xffffffffffffffff, .R8), (.imm 0xfffffffeffffffff, .R9)] ++
  ([.adcq (.imm 0) .AX] ++ (cmovnes [(.reg .R14, .BX), (.reg .R15, .CX), (.reg .DI, .R8), (.reg .SI, .R9)] ++ negTail))))))

/-- the registers of the negation -/
abbrev negClob : List Reg := [.AX, .BX, .CX, .R8, .R9, .R14, .R15, .DI, .SI]

theorem adc_zf (a : Src) (d : Reg) (s : St) : (exec [.adcq a d] s).zf = decide ((exec [.adcq a d] s).r d = 0) := by
  simp only [exec_cons, exec_nil, step, St.addTo, upd_apply, if_true]

theorem neg_arith {Y D E d4 a c f : Nat} (hY : Y < B ^ 4) (hD : D < B ^ 4) (hE : E < B ^ 4) (h4 : d4 < B) (ha : a < B) (hc : c ≤ 1) (hf : f ≤ 1)
    {g : Nat} (h : D + B ^ 4 * d4 + Y = P + c * B ^ 5) (k : E + f * B ^ 4 = D + P) (l : a + g * B = d4 + 0 + f) :
    (a = 0 → E = negAff Y) ∧ (a ≠ 0 → D = negAff Y) := by
  have h' : (d4 = 0 ∧ c = 0 ∧ D + Y = P) ∨ (d4 = B - 1 ∧ c = 1 ∧ D + Y = P + B ^ 4) := by
    have : c = 0 ∨ c = 1 := by omega
    rcases this with rfl | rfl
    · left
      have : d4 = 0 := by simp only [B, P] at *; omega
      subst this
      refine ⟨rfl, rfl, by simpa using h⟩
    · right
      have : d4 = B - 1 := by simp only [B, P] at *; omega
      subst this
      refine ⟨rfl, rfl, by simp only [B, P] at *; omega⟩
  rw [negAff]
  rcases h' with ⟨rfl, rfl, h'⟩ | ⟨rfl, rfl, h'⟩
  · have hf' : f = 0 ∨ f = 1 := by omega
    rcases hf' with rfl | rfl
    · have : a = 0 := by simp only [B] at *; omega
      subst this
      refine ⟨fun _ => ?_, fun hh => absurd rfl hh⟩
      rw [if_neg (by simp only [B, P] at *; omega)]
      simp only [B, P] at *; omega
    · have : a = 1 := by simp only [B] at *; omega
      subst this
      refine ⟨fun hh => absurd hh (by decide), fun _ => ?_⟩
      rw [if_pos (by simp only [B, P] at *; omega)]
      simp only [B, P] at *; omega
  · have hf' : f = 1 := by simp only [B, P] at *; omega
    subst hf'
    have : a = 0 := by simp only [B] at *; omega
    subst this
    refine ⟨fun _ => ?_, fun hh => absurd rfl hh⟩
    rw [if_neg (by simp only [B, P] at *; omega)]
    simp only [B, P] at *; omega

theorem val4_lt {s : St} {a b c d : Reg} (w : Wd s [a, b, c, d]) : val s [a, b, c, d] < B ^ 4 := by
  have := w.head
  have := w.tail.head
  have := w.tail.tail.head
  have := w.tail.tail.tail.head
  simp only [val, B] at *
  omega

theorem negC_exec (s : St) (wy : Wd s [.R10, .R11, .R12, .R13]) :
    val (exec negC s) [.BX, .CX, .R8, .R9] = (if s.r .DX = 0 then val s [.R10, .R11, .R12, .R13] else negAff (val s [.R10, .R11, .R12, .R13])) ∧
    Wd (exec negC s) [.BX, .CX, .R8, .R9] ∧ Same negClob s (exec negC s) := by
  rw [negC]
  simp only [exec_append]
  obtain ⟨a1, -, a3, a4⟩ := movs_spec [(.imm 0xffffffffffffffff, .BX), (.imm 0xffffffff00000000, .CX), (.imm 0xffffffffffffffff, .R8), (.imm 0xfffffffeffffffff, .R9)] s (by decide)
  replace a3 := a3 (by bnd; decide)
  have vy1 := a4.val (m := [.R10, .R11, .R12, .R13]) (by decide)
  have wy1 := a4.wd (m := [.R10, .R11, .R12, .R13]) (by decide) wy
  generalize exec (movs [(.imm 0xffffffffffffffff, .BX), (.imm 0xffffffff00000000, .CX), (.imm 0xffffffffffffffff, .R8), (.imm 0xfffffffeffffffff, .R9)]) s = s1 at *
  have hP1 : val s1 [.BX, .CX, .R8, .R9] = P := a1.trans (by simp only [List.map_cons, List.map_nil, sval, get_imm]; decide)
  replace a3 : Wd s1 [.BX, .CX, .R8, .R9] := a3
  obtain ⟨b1, b2⟩ := xorq_spec .AX s1
  have vy2 := b2.val (m := [.R10, .R11, .R12, .R13]) (by decide)
  have wy2 := b2.wd (m := [.R10, .R11, .R12, .R13]) (by decide) wy1
  have hP2 := (b2.val (m := [.BX, .CX, .R8, .R9]) (by decide)).trans hP1
  have w2 := b2.wd (m := [.BX, .CX, .R8, .R9]) (by decide) a3
  generalize exec [.xorq (.reg .AX) .AX] s1 = s2 at *
  obtain ⟨c1, c2, c3⟩ := subs_spec (.reg .R10, .BX) [(.reg .R11, .CX), (.reg .R12, .R8), (.reg .R13, .R9), (.imm 0, .AX)] s2 (by
    bnd
    rw [b1]
    exact ⟨⟨wy2.head, w2.head⟩, ⟨wy2.tail.head, w2.tail.head⟩, ⟨wy2.tail.tail.head, w2.tail.tail.head⟩, ⟨wy2.tail.tail.tail.head, w2.tail.tail.tail.head⟩, by decide, by decide⟩) (by decide)
  have vy3 := c3.val (m := [.R10, .R11, .R12, .R13]) (by decide)
  have wy3 := c3.wd (m := [.R10, .R11, .R12, .R13]) (by decide) wy2
  generalize exec (subs [(.reg .R10, .BX), (.reg .R11, .CX), (.reg .R12, .R8), (.reg .R13, .R9), (.imm 0, .AX)]) s2 = s3 at *
  have wd3 : Wd s3 [.BX, .CX, .R8, .R9] := .cons c2.head (.cons c2.tail.head (.cons c2.tail.tail.head (.cons c2.tail.tail.tail.head .nil)))
  have w4 : s3.r .AX < B := c2.tail.tail.tail.tail.head
  have H : val s3 [.BX, .CX, .R8, .R9] + B ^ 4 * s3.r .AX + val s [.R10, .R11, .R12, .R13] = P + carry s3 * B ^ 5 := by
    rw [← vy1, ← vy2, ← hP2]
    simp only [List.map_cons, List.map_nil, val, sval, get_reg, get_imm, List.length_cons, List.length_nil, b1] at c1
    simp only [val]
    linear_combination c1
  clear c1
  obtain ⟨d1, -, d2, d3⟩ := movs_spec [(.reg .BX, .R14), (.reg .CX, .R15), (.reg .R8, .DI), (.reg .R9, .SI)] s3 (by decide)
  replace d2 := d2 (by bnd; exact ⟨wd3.head, wd3.tail.head, wd3.tail.tail.head, wd3.tail.tail.tail.head⟩)
  have vy4 := d3.val (m := [.R10, .R11, .R12, .R13]) (by decide)
  have wy4 := d3.wd (m := [.R10, .R11, .R12, .R13]) (by decide) wy3
  have vb4 := d3.val (m := [.BX, .CX, .R8, .R9]) (by decide)
  have wb4 := d3.wd (m := [.BX, .CX, .R8, .R9]) (by decide) wd3
  have eax4 := d3.r (r := .AX) (by decide)
  generalize exec (movs [(.reg .BX, .R14), (.reg .CX, .R15), (.reg .R8, .DI), (.reg .R9, .SI)]) s3 = s4 at *
  have vt4 : val s4 [.R14, .R15, .DI, .SI] = val s3 [.BX, .CX, .R8, .R9] := d1
  have wt4 : Wd s4 [.R14, .R15, .DI, .SI] := d2
  obtain ⟨e1, e2, e3⟩ := adds_spec (.imm 0xffffffffffffffff, .BX) [(.imm 0xffffffff00000000, .CX), (.imm 0xffffffffffffffff, .R8), (.imm 0xfffffffeffffffff, .R9)] s4 (by
    bnd
    exact ⟨⟨by decide, wb4.head⟩, ⟨by decide, wb4.tail.head⟩, ⟨by decide, wb4.tail.tail.head⟩, by decide, wb4.tail.tail.tail.head⟩) (by decide)
  have vy5 := e3.val (m := [.R10, .R11, .R12, .R13]) (by decide)
  have wy5 := e3.wd (m := [.R10, .R11, .R12, .R13]) (by decide) wy4
  have vt5 := e3.val (m := [.R14, .R15, .DI, .SI]) (by decide)
  have wt5 := e3.wd (m := [.R14, .R15, .DI, .SI]) (by decide) wt4
  have eax5 := e3.r (r := .AX) (by decide)
  generalize exec (adds [(.imm 0xffffffffffffffff, .BX), (.imm 0xffffffff00000000, .CX), (.imm 0xffffffffffffffff, .R8), (.imm 0xfffffffeffffffff, .R9)]) s4 = s5 at *
  replace e2 : Wd s5 [.BX, .CX, .R8, .R9] := e2
  have hP : sval s4 [.imm 0xffffffffffffffff, .imm 0xffffffff00000000, .imm 0xffffffffffffffff, .imm 0xfffffffeffffffff] = P := by
    simp only [sval, get_imm]; decide
  have E : val s5 [.BX, .CX, .R8, .R9] + carry s5 * B ^ 4 = val s3 [.BX, .CX, .R8, .R9] + P := by
    rw [← vb4, ← hP]; exact e1
  clear e1
  obtain ⟨f1, f2, f3⟩ := adcq_spec (.imm 0) .AX s5 (by rw [get_imm]; decide) (by rw [eax5, eax4]; exact w4)
  have fz := adc_zf (.imm 0) .AX s5
  rw [← exec_nil (step s5 _), ← exec_cons] at f1 f2 f3
  have vy6 := f3.val (m := [.R10, .R11, .R12, .R13]) (by decide)
  have wy6 := f3.wd (m := [.R10, .R11, .R12, .R13]) (by decide) wy5
  have vt6 := f3.val (m := [.R14, .R15, .DI, .SI]) (by decide)
  have wt6 := f3.wd (m := [.R14, .R15, .DI, .SI]) (by decide) wt5
  have vb6 := f3.val (m := [.BX, .CX, .R8, .R9]) (by decide)
  have wb6 := f3.wd (m := [.BX, .CX, .R8, .R9]) (by decide) e2
  generalize exec [.adcq (.imm 0) .AX] s5 = s6 at *
  rw [get_imm, eax5, eax4] at f1
  have AR := neg_arith (val4_lt wy) (val4_lt wd3) (val4_lt e2) w4 f2 (carry_le s3) (carry_le s5) H E f1
  obtain ⟨g1, g2, g3⟩ := cmovnes_spec [(.reg .R14, .BX), (.reg .R15, .CX), (.reg .DI, .R8), (.reg .SI, .R9)] s6 (by
    intro p hp
    simp only [List.mem_cons, List.not_mem_nil, or_false] at hp
    rcases hp with rfl | rfl | rfl | rfl <;> exact ⟨_, rfl⟩) (by decide)
  replace g2 := g2 (by bnd; exact ⟨⟨wt6.head, wb6.head⟩, ⟨wt6.tail.head, wb6.tail.head⟩, ⟨wt6.tail.tail.head, wb6.tail.tail.head⟩, wt6.tail.tail.tail.head, wb6.tail.tail.tail.head⟩)
  have vy7 := g3.val (m := [.R10, .R11, .R12, .R13]) (by decide)
  have wy7 := g3.wd (m := [.R10, .R11, .R12, .R13]) (by decide) wy6
  generalize exec (cmovnes [(.reg .R14, .BX), (.reg .R15, .CX), (.reg .DI, .R8), (.reg .SI, .R9)]) s6 = s7 at *
  replace g2 : Wd s7 [.BX, .CX, .R8, .R9] := g2
  have N : val s7 [.BX, .CX, .R8, .R9] = negAff (val s [.R10, .R11, .R12, .R13]) := by
    have g1' : val s7 [.BX, .CX, .R8, .R9] = if s6.zf then val s6 [.BX, .CX, .R8, .R9] else val s6 [.R14, .R15, .DI, .SI] := g1
    rw [g1', fz, vb6, vt6, vt5, vt4]
    simp only [decide_eq_true_eq]
    split
    · next h => exact AR.1 h
    · next h => exact AR.2 h
  obtain ⟨l1, l2, l3⟩ := negTail_spec s7 wy7 g2
  generalize exec negTail s7 = s9 at *
  have edx : s7.r .DX = s.r .DX := by
    rw [g3.r (r := .DX) (by decide), f3.r (r := .DX) (by decide), e3.r (r := .DX) (by decide), d3.r (r := .DX) (by decide), c3.r (r := .DX) (by decide), b2.r (r := .DX) (by decide), a4.r (r := .DX) (by decide)]
  refine ⟨?_, l2, ?_⟩
  · rw [l1, edx, vy7, vy6, vy5, vy4, vy3, vy2, vy1, N]
  · exact (((((((a4.trans (n := negClob) b2 (by decide) (by decide)).trans (n := negClob) c3 (by decide) (by decide)).trans (n := negClob) d3 (by decide) (by decide)).trans
      (n := negClob) e3 (by decide) (by decide)).trans (n := negClob) f3 (by decide) (by decide)).trans (n := negClob) g3 (by decide) (by decide)).trans l3 (by decide) (by decide))

end Verif.Sm2.Asm
