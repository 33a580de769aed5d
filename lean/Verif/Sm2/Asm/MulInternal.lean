import Verif.Sm2.Asm.FromMont
/-!
What `p256GmMulInternal` computes: the multiplication used by the point routines.
-/
namespace Verif.Sm2.Asm

/-- what `p256GmMulInternal` and `p256GmSqrInternal` make of the 512-bit product: its low half is reduced, then the high half is added -/
def redI (n : Nat) : Nat := redT (redT (redT (redT (n % B ^ 4)))) + n / B ^ 4

/-- what `p256GmMulInternal` computes -/
def mulI (x y : Nat) : Nat := condSub (redI (x * y))

/-- four reduction steps -/
def red4 (b0 b1 b2 b3 h : Reg) : List Instr := redS b0 b1 b2 b3 h ++ (redS b1 b2 b3 b0 h ++ (redS b2 b3 b0 b1 h ++ redS b3 b0 b1 b2 h))

theorem red4_spec (b0 b1 b2 b3 h : Reg) (s : St) (b : Wd s [b0, b1, b2, b3]) (hd : [.AX, .DX, b0, b1, b2, b3, h].Nodup) :
    val (exec (red4 b0 b1 b2 b3 h) s) [b0, b1, b2, b3] = redT (redT (redT (redT (val s [b0, b1, b2, b3])))) ∧
    Wd (exec (red4 b0 b1 b2 b3 h) s) [b0, b1, b2, b3] ∧ (exec (red4 b0 b1 b2 b3 h) s).cf = false ∧
    Same [.AX, .DX, b0, b1, b2, b3, h] s (exec (red4 b0 b1 b2 b3 h) s) := by
  have hd' := hd
  regs hd' hk
  obtain ⟨h1, h2, -, h3⟩ := redS_spec b0 b1 b2 b3 h s b hd
  simp only [red4, exec_append]
  generalize exec (redS b0 b1 b2 b3 h) s = s1 at *
  obtain ⟨k1, k2, -, k3⟩ := redS_spec b1 b2 b3 b0 h s1 h2 (by
    simp only [List.nodup_cons, List.mem_cons, List.not_mem_nil, or_false, List.nodup_nil, hd', hk, reduceCtorEq, not_false_eq_true, or_self, and_self])
  generalize exec (redS b1 b2 b3 b0 h) s1 = s2 at *
  obtain ⟨l1, l2, -, l3⟩ := redS_spec b2 b3 b0 b1 h s2 k2 (by
    simp only [List.nodup_cons, List.mem_cons, List.not_mem_nil, or_false, List.nodup_nil, hd', hk, reduceCtorEq, not_false_eq_true, or_self, and_self])
  generalize exec (redS b2 b3 b0 b1 h) s2 = s3 at *
  obtain ⟨m1, m2, m4, m3⟩ := redS_spec b3 b0 b1 b2 h s3 l2 (by
    simp only [List.nodup_cons, List.mem_cons, List.not_mem_nil, or_false, List.nodup_nil, hd', hk, reduceCtorEq, not_false_eq_true, or_self, and_self])
  generalize exec (redS b3 b0 b1 b2 h) s3 = s4 at *
  refine ⟨by rw [m1, l1, k1, h1], m2, m4, ?_⟩
  exact ((h3.trans (n := [.AX, .DX, b0, b1, b2, b3, h]) k3 (by incl) (by incl)).trans (n := [.AX, .DX, b0, b1, b2, b3, h]) l3 (by incl) (by incl)).trans m3 (by incl) (by incl)

/-- `MOVQ $0` -/
theorem mov0_spec (d : Reg) (s : St) : (exec [.movq (.imm 0) (.reg d)] s).r d = 0 ∧ (exec [.movq (.imm 0) (.reg d)] s).cf = s.cf ∧
    Same [d] s (exec [.movq (.imm 0) (.reg d)] s) := by
  simp only [exec_cons, exec_nil, step, St.put, St.setR, get_imm, upd_apply, if_true]
  refine ⟨trivial, trivial, ?_⟩
  frame

theorem fold_arith {z0 z1 z2 z3 z4 x0 x1 x2 x3 y0 y1 y2 y3 c : Nat} (hx0 : x0 < B) (hx1 : x1 < B) (hx2 : x2 < B) (hx3 : x3 < B)
    (hy0 : y0 < B) (hy1 : y1 < B) (hy2 : y2 < B) (hy3 : y3 < B)
    (h : z0 + B * (z1 + B * (z2 + B * (z3 + B * (z4 + B * 0)))) + c * B ^ 5 =
      x0 + B * (x1 + B * (x2 + B * (x3 + B * (0 + B * 0)))) + (y0 + B * (y1 + B * (y2 + B * (y3 + B * (0 + B * 0))))) + 0) :
    z0 + B * (z1 + B * (z2 + B * (z3 + B * (z4 + B * 0)))) = (x0 + B * (x1 + B * (x2 + B * (x3 + B * 0)))) + (y0 + B * (y1 + B * (y2 + B * (y3 + B * 0)))) := by
  have : c = 0 := by simp only [B] at *; omega
  subst this
  linarith

/-- addition of the half in `y` to the half in `x`, the carry into `e` -/
def foldIn (x0 x1 x2 x3 y0 y1 y2 y3 e : Reg) : List Instr :=
  adcs [(.reg y0, x0), (.reg y1, x1), (.reg y2, x2), (.reg y3, x3), (.imm 0, e)]

theorem foldIn_spec (x0 x1 x2 x3 y0 y1 y2 y3 e : Reg) (s : St) (wx : Wd s [x0, x1, x2, x3]) (wy : Wd s [y0, y1, y2, y3]) (he : s.r e = 0) (hc : s.cf = false)
    (hd : [x0, x1, x2, x3, y0, y1, y2, y3, e].Nodup) :
    val (exec (foldIn x0 x1 x2 x3 y0 y1 y2 y3 e) s) [x0, x1, x2, x3, e] = val s [x0, x1, x2, x3] + val s [y0, y1, y2, y3] ∧
    Wd (exec (foldIn x0 x1 x2 x3 y0 y1 y2 y3 e) s) [x0, x1, x2, x3, e] ∧
    Same [x0, x1, x2, x3, e] s (exec (foldIn x0 x1 x2 x3 y0 y1 y2 y3 e) s) := by
  regs hd hk
  obtain ⟨h1, h2, h3⟩ := adcs_spec [(.reg y0, x0), (.reg y1, x1), (.reg y2, x2), (.reg y3, x3), (.imm 0, e)] s (by
    bnd
    rw [he]
    exact ⟨⟨wy.head, wx.head⟩, ⟨wy.tail.head, wx.tail.head⟩, ⟨wy.tail.tail.head, wx.tail.tail.head⟩, ⟨wy.tail.tail.tail.head, wx.tail.tail.tail.head⟩, by decide, by decide⟩) (by cln hd hk)
  rw [foldIn]
  generalize exec (adcs [(.reg y0, x0), (.reg y1, x1), (.reg y2, x2), (.reg y3, x3), (.imm 0, e)]) s = s1 at *
  simp only [List.map_cons, List.map_nil, val, sval, get_reg, get_imm, List.length_cons, List.length_nil, he] at h1 h2 h3
  have c0 : carry s = 0 := (carry_cf s).2 hc
  rw [c0] at h1
  refine ⟨?_, h2, h3⟩
  simp only [val]
  exact fold_arith wx.head wx.tail.head wx.tail.tail.head wx.tail.tail.tail.head wy.head wy.tail.head wy.tail.tail.head wy.tail.tail.tail.head h1

theorem mulInternal_split : p256GmMulInternal =
    row0 (.reg .R10) (.reg .R10) (.reg .R10) (.reg .R10) (.reg .R14) (.reg .R15) (.reg .DI) (.reg .SI) .BX .CX .R8 .R9 .R10 ++
    (rowI (.reg .R11) (.reg .R11) (.reg .R11) (.reg .R11) (.reg .R14) (.reg .R15) (.reg .DI) (.reg .SI) .CX .R8 .R9 .R10 .BP .R11 ++
    (rowI (.reg .R12) (.reg .R12) (.reg .R12) (.reg .R12) (.reg .R14) (.reg .R15) (.reg .DI) (.reg .SI) .R8 .R9 .R10 .R11 .BP .R12 ++
    (rowI (.reg .R13) (.reg .R13) (.reg .R13) (.reg .R13) (.reg .R14) (.reg .R15) (.reg .DI) (.reg .SI) .R9 .R10 .R11 .R12 .BP .R13 ++
    (red4 .BX .CX .R8 .R9 .BP ++ ([.movq (.imm 0) (.reg .BP)] ++ (foldIn .R10 .R11 .R12 .R13 .BX .CX .R8 .R9 .BP ++
    condSubC .R10 .R11 .R12 .R13 .BX .CX .R8 .R9 [(.imm 0, .BP)])))))) := by decide +kernel

theorem halves {a0 a1 a2 a3 a4 a5 a6 a7 n : Nat} (h0 : a0 < B) (h1 : a1 < B) (h2 : a2 < B) (h3 : a3 < B)
    (h : a0 + B * (a1 + B * (a2 + B * (a3 + B * (a4 + B * (a5 + B * (a6 + B * a7)))))) = n) :
    a0 + B * (a1 + B * (a2 + B * (a3 + B * 0))) = n % B ^ 4 ∧ a4 + B * (a5 + B * (a6 + B * (a7 + B * 0))) = n / B ^ 4 := by
  have hl : a0 + B * (a1 + B * (a2 + B * (a3 + B * 0))) < B ^ 4 := by clear h; simp only [B] at *; omega
  have e : n = a0 + B * (a1 + B * (a2 + B * (a3 + B * 0))) + (a4 + B * (a5 + B * (a6 + B * (a7 + B * 0)))) * B ^ 4 := by
    rw [← h]; ring
  rw [e, Nat.add_mul_mod_self_right, Nat.mod_eq_of_lt hl, Nat.add_mul_div_right _ _ (Nat.pow_pos (by decide)), Nat.div_eq_of_lt hl, Nat.zero_add]
  exact ⟨rfl, rfl⟩

/-- the product of two four-limb numbers, row by row -/
theorem rows_arith {x0 x1 x2 x3 y0 y1 y2 y3 a0 a1 a2 a3 a4 b1 b2 b3 b4 b5 c2 c3 c4 c5 c6 d3 d4 d5 d6 d7 : Nat}
    (r0 : a0 + B * (a1 + B * (a2 + B * (a3 + B * (a4 + B * 0)))) = x0 * y0 + B * (x0 * y1 + B * (x0 * y2 + B * (x0 * y3))))
    (r1 : b1 + B * (b2 + B * (b3 + B * (b4 + B * (b5 + B * 0)))) = a1 + B * (a2 + B * (a3 + B * (a4 + B * 0))) + (x1 * y0 + B * (x1 * y1 + B * (x1 * y2 + B * (x1 * y3)))))
    (r2 : c2 + B * (c3 + B * (c4 + B * (c5 + B * (c6 + B * 0)))) = b2 + B * (b3 + B * (b4 + B * (b5 + B * 0))) + (x2 * y0 + B * (x2 * y1 + B * (x2 * y2 + B * (x2 * y3)))))
    (r3 : d3 + B * (d4 + B * (d5 + B * (d6 + B * (d7 + B * 0)))) = c3 + B * (c4 + B * (c5 + B * (c6 + B * 0))) + (x3 * y0 + B * (x3 * y1 + B * (x3 * y2 + B * (x3 * y3))))) :
    a0 + B * (b1 + B * (c2 + B * (d3 + B * (d4 + B * (d5 + B * (d6 + B * d7)))))) =
      (x0 + B * (x1 + B * (x2 + B * (x3 + B * 0)))) * (y0 + B * (y1 + B * (y2 + B * (y3 + B * 0)))) := by
  linear_combination r0 + B * r1 + B ^ 2 * r2 + B ^ 3 * r3

/-- the registers the routine may change -/
abbrev mulClob : List Reg := [.AX, .DX, .BX, .CX, .R8, .R9, .R10, .R11, .R12, .R13, .BP]

theorem mulInternal_exec (s : St) (wx : Wd s [.R10, .R11, .R12, .R13]) (wy : Wd s [.R14, .R15, .DI, .SI]) :
    val (exec p256GmMulInternal s) [.R10, .R11, .R12, .R13] = mulI (val s [.R10, .R11, .R12, .R13]) (val s [.R14, .R15, .DI, .SI]) ∧
    Wd (exec p256GmMulInternal s) [.R10, .R11, .R12, .R13] ∧ Same mulClob s (exec p256GmMulInternal s) := by
  have x0 := wx.head
  have x1 := wx.tail.head
  have x2 := wx.tail.tail.head
  have x3 := wx.tail.tail.tail.head
  have y0 := wy.head
  have y1 := wy.tail.head
  have y2 := wy.tail.tail.head
  have y3 := wy.tail.tail.tail.head
  rw [mulInternal_split]
  simp only [exec_append]
  obtain ⟨a1, a2, a3⟩ := row0_spec (.reg .R10) (.reg .R10) (.reg .R10) (.reg .R10) (.reg .R14) (.reg .R15) (.reg .DI) (.reg .SI) .BX .CX .R8 .R9 .R10 s
    (by bnd; exact ⟨x0, x0, x0, x0, y0, y1, y2, y3⟩) (by decide) (by decide)
  generalize exec (row0 (.reg .R10) (.reg .R10) (.reg .R10) (.reg .R10) (.reg .R14) (.reg .R15) (.reg .DI) (.reg .SI) .BX .CX .R8 .R9 .R10) s = s1 at *
  have e11 : s1.r .R11 = s.r .R11 := a3.r (by decide)
  have e12 : s1.r .R12 = s.r .R12 := a3.r (by decide)
  have e13 : s1.r .R13 = s.r .R13 := a3.r (by decide)
  have e14 : s1.r .R14 = s.r .R14 := a3.r (by decide)
  have e15 : s1.r .R15 = s.r .R15 := a3.r (by decide)
  have edi : s1.r .DI = s.r .DI := a3.r (by decide)
  have esi : s1.r .SI = s.r .SI := a3.r (by decide)
  obtain ⟨b1, b2, b3⟩ := rowI_spec (.reg .R11) (.reg .R11) (.reg .R11) (.reg .R11) (.reg .R14) (.reg .R15) (.reg .DI) (.reg .SI) .CX .R8 .R9 .R10 .BP .R11 s1
    (by bnd; rw [e11, e14, e15, edi, esi]; exact ⟨x1, x1, x1, x1, y0, y1, y2, y3⟩) a2.tail (by decide) (by decide) (by decide)
  generalize exec (rowI (.reg .R11) (.reg .R11) (.reg .R11) (.reg .R11) (.reg .R14) (.reg .R15) (.reg .DI) (.reg .SI) .CX .R8 .R9 .R10 .BP .R11) s1 = s2 at *
  have f12 : s2.r .R12 = s.r .R12 := (b3.r (by decide)).trans e12
  have f13 : s2.r .R13 = s.r .R13 := (b3.r (by decide)).trans e13
  have f14 : s2.r .R14 = s.r .R14 := (b3.r (by decide)).trans e14
  have f15 : s2.r .R15 = s.r .R15 := (b3.r (by decide)).trans e15
  have fdi : s2.r .DI = s.r .DI := (b3.r (by decide)).trans edi
  have fsi : s2.r .SI = s.r .SI := (b3.r (by decide)).trans esi
  have fbx : s2.r .BX = s1.r .BX := b3.r (by decide)
  obtain ⟨c1, c2, c3⟩ := rowI_spec (.reg .R12) (.reg .R12) (.reg .R12) (.reg .R12) (.reg .R14) (.reg .R15) (.reg .DI) (.reg .SI) .R8 .R9 .R10 .R11 .BP .R12 s2
    (by bnd; rw [f12, f14, f15, fdi, fsi]; exact ⟨x2, x2, x2, x2, y0, y1, y2, y3⟩) b2.tail (by decide) (by decide) (by decide)
  generalize exec (rowI (.reg .R12) (.reg .R12) (.reg .R12) (.reg .R12) (.reg .R14) (.reg .R15) (.reg .DI) (.reg .SI) .R8 .R9 .R10 .R11 .BP .R12) s2 = s3 at *
  have g13 : s3.r .R13 = s.r .R13 := (c3.r (by decide)).trans f13
  have g14 : s3.r .R14 = s.r .R14 := (c3.r (by decide)).trans f14
  have g15 : s3.r .R15 = s.r .R15 := (c3.r (by decide)).trans f15
  have gdi : s3.r .DI = s.r .DI := (c3.r (by decide)).trans fdi
  have gsi : s3.r .SI = s.r .SI := (c3.r (by decide)).trans fsi
  have gbx : s3.r .BX = s1.r .BX := (c3.r (by decide)).trans fbx
  have gcx : s3.r .CX = s2.r .CX := c3.r (by decide)
  obtain ⟨d1, d2, d3⟩ := rowI_spec (.reg .R13) (.reg .R13) (.reg .R13) (.reg .R13) (.reg .R14) (.reg .R15) (.reg .DI) (.reg .SI) .R9 .R10 .R11 .R12 .BP .R13 s3
    (by bnd; rw [g13, g14, g15, gdi, gsi]; exact ⟨x3, x3, x3, x3, y0, y1, y2, y3⟩) c2.tail (by decide) (by decide) (by decide)
  generalize exec (rowI (.reg .R13) (.reg .R13) (.reg .R13) (.reg .R13) (.reg .R14) (.reg .R15) (.reg .DI) (.reg .SI) .R9 .R10 .R11 .R12 .BP .R13) s3 = s4 at *
  have hbx : s4.r .BX = s1.r .BX := (d3.r (by decide)).trans gbx
  have hcx : s4.r .CX = s2.r .CX := (d3.r (by decide)).trans gcx
  have h8 : s4.r .R8 = s3.r .R8 := d3.r (by decide)
  simp only [get_reg, e11, e12, e13, e14, e15, edi, esi, f12, f13, f14, f15, fdi, fsi, g13, g14, g15, gdi, gsi, val] at a1 b1 c1 d1
  have A := rows_arith a1 b1 c1 d1
  rw [← hbx, ← hcx, ← h8] at A
  have w8 : Wd s4 [.BX, .CX, .R8, .R9] := by
    refine .cons ?_ (.cons ?_ (.cons ?_ (.cons d2.head .nil)))
    · rw [hbx]; exact a2.head
    · rw [hcx]; exact b2.head
    · rw [h8]; exact c2.head
  obtain ⟨lo, hi⟩ := halves w8.head w8.tail.head w8.tail.tail.head w8.tail.tail.tail.head A
  have wh : Wd s4 [.R10, .R11, .R12, .R13] := d2.tail
  have S4 : Same mulClob s s4 := ((a3.trans (n := mulClob) b3 (by decide) (by decide)).trans (n := mulClob) c3 (by decide) (by decide)).trans (n := mulClob) d3 (by decide) (by decide)
  clear A a1 a2 a3 b1 b2 b3 c1 c2 c3 d1 d2 d3
  obtain ⟨m1, m2, m3, m4⟩ := red4_spec .BX .CX .R8 .R9 .BP s4 w8 (by decide)
  have kh := m4.val (m := [.R10, .R11, .R12, .R13]) (by decide)
  have wh5 := m4.wd (m := [.R10, .R11, .R12, .R13]) (by decide) wh
  generalize exec (red4 .BX .CX .R8 .R9 .BP) s4 = s5 at *
  obtain ⟨n1, n2, n3⟩ := mov0_spec .BP s5
  have ql := n3.val (m := [.BX, .CX, .R8, .R9]) (by decide)
  have qh := n3.val (m := [.R10, .R11, .R12, .R13]) (by decide)
  have wl6 := n3.wd (m := [.BX, .CX, .R8, .R9]) (by decide) m2
  have wh6 := n3.wd (m := [.R10, .R11, .R12, .R13]) (by decide) wh5
  generalize exec [.movq (.imm 0) (.reg .BP)] s5 = s6 at *
  obtain ⟨p1, p2, p3⟩ := foldIn_spec .R10 .R11 .R12 .R13 .BX .CX .R8 .R9 .BP s6 wh6 wl6 n1 (n2.trans m3) (by decide)
  generalize exec (foldIn .R10 .R11 .R12 .R13 .BX .CX .R8 .R9 .BP) s6 = s7 at *
  obtain ⟨u1, u2, u3⟩ := condSub5_spec .R10 .R11 .R12 .R13 .BX .CX .R8 .R9 .BP s7 p2 (by decide)
  generalize exec (condSubC .R10 .R11 .R12 .R13 .BX .CX .R8 .R9 [(.imm 0, .BP)]) s7 = s8 at *
  refine ⟨?_, u2, ?_⟩
  · rw [u1, p1, ql, qh, m1, kh, mulI, redI]
    simp only [val] at lo hi ⊢
    rw [lo, hi, Nat.add_comm]
  · exact (((S4.trans (n := mulClob) m4 (by decide) (by decide)).trans (n := mulClob) n3 (by decide) (by decide)).trans (n := mulClob) p3 (by decide) (by decide)).trans u3 (by decide) (by decide)

end Verif.Sm2.Asm
