import Verif.Sm2.Asm.SqrInternal
/-!
`p256GmSqrInternal` and `sm2p256Sqr` executed for every input.
-/
namespace Verif.Sm2.Asm

/-- products of different limbs in `p256GmSqrInternal` -/
def offI : List Instr :=
  mul0 (.reg .R10) (.reg .R11) .CX .R8 ++ (mac0 (.reg .R10) (.reg .R12) .R8 .R9 ++ (mac0 (.reg .R10) (.reg .R13) .R9 .R14 ++
    (mac0 (.reg .R11) (.reg .R12) .R9 .BP ++ (mac (.reg .R11) (.reg .R13) .R14 .BP .R15 ++ mac0 (.reg .R12) (.reg .R13) .R15 .DI))))

/-- the sum of products of different limbs -/
def offSum (x0 x1 x2 x3 : Nat) : Nat := x0 * x1 + B * (x0 * x2 + B * (x0 * x3 + x1 * x2 + B * (x1 * x3 + B * (x2 * x3))))

theorem div_lt_B {x y : Nat} (hx : x < B) (hy : y < B) : x * y / B < B := by
  have := div_mul_lt (a := 0) (by decide) hx hy
  rwa [Nat.zero_add] at this

theorem offI_spec (s : St) (w : Wd s [.R10, .R11, .R12, .R13]) :
    val (exec offI s) [.CX, .R8, .R9, .R14, .R15, .DI] = offSum (s.r .R10) (s.r .R11) (s.r .R12) (s.r .R13) ∧
    Wd (exec offI s) [.CX, .R8, .R9, .R14, .R15, .DI] ∧ Same [.AX, .DX, .CX, .R8, .R9, .R14, .BP, .R15, .DI] s (exec offI s) := by
  have x0 := w.head
  have x1 := w.tail.head
  have x2 := w.tail.tail.head
  have x3 := w.tail.tail.tail.head
  obtain ⟨a1, a2, a3⟩ := mul0_spec (.reg .R10) (.reg .R11) .CX .R8 s (by decide) (by decide)
  simp only [offI, exec_append]
  generalize exec (mul0 (.reg .R10) (.reg .R11) .CX .R8) s = s1 at *
  have e10 : s1.r .R10 = s.r .R10 := a3.r (by decide)
  have e11 : s1.r .R11 = s.r .R11 := a3.r (by decide)
  have e12 : s1.r .R12 = s.r .R12 := a3.r (by decide)
  have e13 : s1.r .R13 = s.r .R13 := a3.r (by decide)
  have w8 : s1.r .R8 < B := by rw [a2]; exact div_lt_B x0 x1
  obtain ⟨b1, b2, -, b3⟩ := mac0_spec (.reg .R10) (.reg .R12) .R8 .R9 s1 (by rw [get_reg, e10]; exact x0) (by rw [get_reg, e12]; exact x2) w8 (by decide) (by decide)
  generalize exec (mac0 (.reg .R10) (.reg .R12) .R8 .R9) s1 = s2 at *
  simp only [get_reg, e10, e11, e12, e13] at a1 a2 b1 b2
  have f10 : s2.r .R10 = s.r .R10 := (b3.r (by decide)).trans e10
  have f11 : s2.r .R11 = s.r .R11 := (b3.r (by decide)).trans e11
  have f12 : s2.r .R12 = s.r .R12 := (b3.r (by decide)).trans e12
  have f13 : s2.r .R13 = s.r .R13 := (b3.r (by decide)).trans e13
  have fcx : s2.r .CX = s1.r .CX := b3.r (by decide)
  have w9 : s2.r .R9 < B := by rw [b2]; exact div_mul_lt w8 x0 x2
  obtain ⟨c1, c2, -, c3⟩ := mac0_spec (.reg .R10) (.reg .R13) .R9 .R14 s2 (by rw [get_reg, f10]; exact x0) (by rw [get_reg, f13]; exact x3) w9 (by decide) (by decide)
  generalize exec (mac0 (.reg .R10) (.reg .R13) .R9 .R14) s2 = s3 at *
  simp only [get_reg, f10, f11, f12, f13] at c1 c2
  have g11 : s3.r .R11 = s.r .R11 := (c3.r (by decide)).trans f11
  have g12 : s3.r .R12 = s.r .R12 := (c3.r (by decide)).trans f12
  have g13 : s3.r .R13 = s.r .R13 := (c3.r (by decide)).trans f13
  have gcx : s3.r .CX = s1.r .CX := (c3.r (by decide)).trans fcx
  have g8 : s3.r .R8 = s2.r .R8 := c3.r (by decide)
  have w9' : s3.r .R9 < B := by rw [c1]; exact mod_lt_B _
  have w14 : s3.r .R14 < B := by rw [c2]; exact div_mul_lt w9 x0 x3
  obtain ⟨d1, d2, -, d3⟩ := mac0_spec (.reg .R11) (.reg .R12) .R9 .BP s3 (by rw [get_reg, g11]; exact x1) (by rw [get_reg, g12]; exact x2) w9' (by decide) (by decide)
  generalize exec (mac0 (.reg .R11) (.reg .R12) .R9 .BP) s3 = s4 at *
  simp only [get_reg, g11, g12, g13] at d1 d2
  have h11 : s4.r .R11 = s.r .R11 := (d3.r (by decide)).trans g11
  have h12 : s4.r .R12 = s.r .R12 := (d3.r (by decide)).trans g12
  have h13 : s4.r .R13 = s.r .R13 := (d3.r (by decide)).trans g13
  have hcx : s4.r .CX = s1.r .CX := (d3.r (by decide)).trans gcx
  have h8 : s4.r .R8 = s2.r .R8 := (d3.r (by decide)).trans g8
  have h14 : s4.r .R14 = s3.r .R14 := d3.r (by decide)
  have wbp : s4.r .BP < B := by rw [d2]; exact div_mul_lt w9' x1 x2
  obtain ⟨i1, i2, -, i3⟩ := mac_spec (.reg .R11) (.reg .R13) .R14 .BP .R15 s4 (by rw [get_reg, h11]; exact x1) (by rw [get_reg, h13]; exact x3) (by rw [h14]; exact w14) wbp (by decide) (by decide) (by decide)
  generalize exec (mac (.reg .R11) (.reg .R13) .R14 .BP .R15) s4 = s5 at *
  simp only [get_reg, h11, h12, h13, h14] at i1 i2
  have j12 : s5.r .R12 = s.r .R12 := (i3.r (by decide)).trans h12
  have j13 : s5.r .R13 = s.r .R13 := (i3.r (by decide)).trans h13
  have jcx : s5.r .CX = s1.r .CX := (i3.r (by decide)).trans hcx
  have j8 : s5.r .R8 = s2.r .R8 := (i3.r (by decide)).trans h8
  have j9 : s5.r .R9 = s4.r .R9 := i3.r (by decide)
  have w15 : s5.r .R15 < B := by rw [i2]; exact div_mul_lt' w14 wbp x1 x3
  obtain ⟨k1, k2, -, k3⟩ := mac0_spec (.reg .R12) (.reg .R13) .R15 .DI s5 (by rw [get_reg, j12]; exact x2) (by rw [get_reg, j13]; exact x3) w15 (by decide) (by decide)
  generalize exec (mac0 (.reg .R12) (.reg .R13) .R15 .DI) s5 = s6 at *
  simp only [get_reg, j12, j13] at k1 k2
  have lcx : s6.r .CX = s1.r .CX := (k3.r (by decide)).trans jcx
  have l8 : s6.r .R8 = s2.r .R8 := (k3.r (by decide)).trans j8
  have l9 : s6.r .R9 = s4.r .R9 := (k3.r (by decide)).trans j9
  have l14 : s6.r .R14 = s5.r .R14 := k3.r (by decide)
  refine ⟨?_, ?_, ?_⟩
  · simp only [val, offSum, lcx, l8, l9, l14]
    exact off_arith a1 a2 b1 b2 c1 c2 d1 d2 i1 i2 k1 k2
  · refine .cons ?_ (.cons ?_ (.cons ?_ (.cons ?_ (.cons ?_ (.cons ?_ .nil)))))
    · rw [lcx, a1]; exact mod_lt_B _
    · rw [l8, b1]; exact mod_lt_B _
    · rw [l9, d1]; exact mod_lt_B _
    · rw [l14, i1]; exact mod_lt_B _
    · rw [k1]; exact mod_lt_B _
    · rw [k2]; exact div_mul_lt w15 x2 x3
  · exact ((((a3.trans (n := [.AX, .DX, .CX, .R8, .R9, .R14, .BP, .R15, .DI]) b3 (by decide) (by decide)).trans (n := [.AX, .DX, .CX, .R8, .R9, .R14, .BP, .R15, .DI]) c3 (by decide) (by decide)).trans
      (n := [.AX, .DX, .CX, .R8, .R9, .R14, .BP, .R15, .DI]) d3 (by decide) (by decide)).trans (n := [.AX, .DX, .CX, .R8, .R9, .R14, .BP, .R15, .DI]) i3 (by decide) (by decide)).trans k3 (by decide) (by decide)

/-- the 512-bit square in `p256GmSqrInternal` -/
def sqrWide : List Instr :=
  offI ++ (dbl6 .CX .R8 .R9 .R14 .R15 .DI .SI ++ (sq0 (.reg .R10) .BX .R10 ++ (sqAdd (.reg .R11) .R10 .CX .R8 ++ (sqAdd (.reg .R12) .R10 .R9 .R14 ++
    sqEnd (.reg .R13) .R10 .R15 .DI .SI))))

/-- the registers `p256GmSqrInternal` may change -/
abbrev sqrClob : List Reg := [.AX, .DX, .BX, .CX, .R8, .R9, .R10, .R11, .R12, .R13, .R14, .R15, .DI, .SI, .BP]

theorem sqrWide_spec (s : St) (w : Wd s [.R10, .R11, .R12, .R13]) :
    val (exec sqrWide s) [.BX, .CX, .R8, .R9] = val s [.R10, .R11, .R12, .R13] * val s [.R10, .R11, .R12, .R13] % B ^ 4 ∧
    val (exec sqrWide s) [.R14, .R15, .DI, .SI] = val s [.R10, .R11, .R12, .R13] * val s [.R10, .R11, .R12, .R13] / B ^ 4 ∧
    Wd (exec sqrWide s) [.BX, .CX, .R8, .R9] ∧ Wd (exec sqrWide s) [.R14, .R15, .DI, .SI] ∧ Same sqrClob s (exec sqrWide s) := by
  have x0 := w.head
  have x1 := w.tail.head
  have x2 := w.tail.tail.head
  have x3 := w.tail.tail.tail.head
  obtain ⟨a1, a2, a3⟩ := offI_spec s w
  simp only [sqrWide, exec_append]
  generalize exec offI s = s1 at *
  obtain ⟨b1, b2, b3⟩ := dbl6_spec .CX .R8 .R9 .R14 .R15 .DI .SI s1 a2 (by decide)
  generalize exec (dbl6 .CX .R8 .R9 .R14 .R15 .DI .SI) s1 = s2 at *
  have e10 : s2.r .R10 = s.r .R10 := (b3.r (by decide)).trans (a3.r (by decide))
  have e11 : s2.r .R11 = s.r .R11 := (b3.r (by decide)).trans (a3.r (by decide))
  have e12 : s2.r .R12 = s.r .R12 := (b3.r (by decide)).trans (a3.r (by decide))
  have e13 : s2.r .R13 = s.r .R13 := (b3.r (by decide)).trans (a3.r (by decide))
  rw [a1] at b1
  have S2 : Same sqrClob s s2 := a3.trans b3 (by decide) (by decide)
  clear a1 a2 a3 b3
  obtain ⟨c1, c2, c3⟩ := sq0_spec (.reg .R10) .BX .R10 s2 (by rw [get_reg, e10]; exact x0) (by decide)
  rw [get_reg, e10] at c1
  generalize exec (sq0 (.reg .R10) .BX .R10) s2 = s3 at *
  have f11 : s3.r .R11 = s.r .R11 := (c3.r (by decide)).trans e11
  have f12 : s3.r .R12 = s.r .R12 := (c3.r (by decide)).trans e12
  have f13 : s3.r .R13 = s.r .R13 := (c3.r (by decide)).trans e13
  have v3 := c3.val (m := [.CX, .R8, .R9, .R14, .R15, .DI, .SI]) (by decide)
  have w3 := c3.wd (m := [.CX, .R8, .R9, .R14, .R15, .DI, .SI]) (by decide) b2
  rw [b1] at v3
  have S3 : Same sqrClob s s3 := S2.trans c3 (by decide) (by decide)
  clear b1 b2 c3
  obtain ⟨d1, d2, d3⟩ := sqAdd_spec (.reg .R11) .R10 .CX .R8 s3 (by rw [get_reg, f11]; exact x1) (.cons w3.head (.cons w3.tail.head (.cons c2.tail.head .nil))) (by decide)
  rw [get_reg, f11] at d1
  generalize exec (sqAdd (.reg .R11) .R10 .CX .R8) s3 = s4 at *
  have g12 : s4.r .R12 = s.r .R12 := (d3.r (by decide)).trans f12
  have g13 : s4.r .R13 = s.r .R13 := (d3.r (by decide)).trans f13
  have gbx : s4.r .BX = s3.r .BX := d3.r (by decide)
  have w4 := d3.wd (m := [.R9, .R14, .R15, .DI, .SI]) (by decide) w3.tail.tail
  have g9 : s4.r .R9 = s3.r .R9 := d3.r (by decide)
  have g14 : s4.r .R14 = s3.r .R14 := d3.r (by decide)
  have g15 : s4.r .R15 = s3.r .R15 := d3.r (by decide)
  have gdi : s4.r .DI = s3.r .DI := d3.r (by decide)
  have gsi : s4.r .SI = s3.r .SI := d3.r (by decide)
  have S4 : Same sqrClob s s4 := S3.trans d3 (by decide) (by decide)
  clear d3
  obtain ⟨i1, i2, i3⟩ := sqAdd_spec (.reg .R12) .R10 .R9 .R14 s4 (by rw [get_reg, g12]; exact x2) (.cons w4.head (.cons w4.tail.head (.cons d2.tail.tail.head .nil))) (by decide)
  rw [get_reg, g12] at i1
  generalize exec (sqAdd (.reg .R12) .R10 .R9 .R14) s4 = s5 at *
  have h13 : s5.r .R13 = s.r .R13 := (i3.r (by decide)).trans g13
  have hbx : s5.r .BX = s3.r .BX := (i3.r (by decide)).trans gbx
  have hcx : s5.r .CX = s4.r .CX := i3.r (by decide)
  have h8 : s5.r .R8 = s4.r .R8 := i3.r (by decide)
  have w5 := i3.wd (m := [.R15, .DI, .SI]) (by decide) w4.tail.tail
  have h15 : s5.r .R15 = s3.r .R15 := (i3.r (by decide)).trans g15
  have hdi : s5.r .DI = s3.r .DI := (i3.r (by decide)).trans gdi
  have hsi : s5.r .SI = s3.r .SI := (i3.r (by decide)).trans gsi
  have S5 : Same sqrClob s s5 := S4.trans i3 (by decide) (by decide)
  clear i3
  obtain ⟨j1, j2, j3⟩ := sqEnd_spec (.reg .R13) .R10 .R15 .DI .SI s5 (by rw [get_reg, h13]; exact x3) (.cons w5.head (.cons w5.tail.head (.cons w5.tail.tail.head (.cons i2.tail.tail.head .nil)))) (by decide)
  rw [get_reg, h13] at j1
  generalize exec (sqEnd (.reg .R13) .R10 .R15 .DI .SI) s5 = s6 at *
  have kbx : s6.r .BX = s3.r .BX := (j3.r (by decide)).trans hbx
  have kcx : s6.r .CX = s4.r .CX := (j3.r (by decide)).trans hcx
  have k8 : s6.r .R8 = s4.r .R8 := (j3.r (by decide)).trans h8
  have k9 : s6.r .R9 = s5.r .R9 := j3.r (by decide)
  have k14 : s6.r .R14 = s5.r .R14 := j3.r (by decide)
  simp only [val, g9, g14, h15, hdi, hsi] at v3 c1 d1 i1 j1
  have A := sqr_arith x0 x1 x2 x3 rfl v3 c1 d1 i1 j1
  rw [← kbx, ← kcx, ← k8, ← k9, ← k14] at A
  have wl : Wd s6 [.BX, .CX, .R8, .R9] := by
    refine .cons ?_ (.cons ?_ (.cons ?_ (.cons ?_ .nil)))
    · rw [kbx]; exact c2.head
    · rw [kcx]; exact d2.head
    · rw [k8]; exact d2.tail.head
    · rw [k9]; exact i2.head
  obtain ⟨lo, hi⟩ := halves wl.head wl.tail.head wl.tail.tail.head wl.tail.tail.tail.head A
  refine ⟨lo, hi, wl, ?_, S5.trans j3 (by decide) (by decide)⟩
  refine .cons ?_ j2
  rw [k14]; exact i2.tail.head

theorem sqrInternal_split' : p256GmSqrInternal =
    sqrWide ++ (red4 .BX .CX .R8 .R9 .BP ++ ([.movq (.imm 0) (.reg .BP)] ++ (foldIn .R14 .R15 .DI .SI .BX .CX .R8 .R9 .BP ++
    condSubK .R14 .R15 .DI .SI .R10 .R11 .R12 .R13 .BP))) := by decide +kernel

/-- what `p256GmSqrInternal` computes, and what it leaves in `t0..t3` -/
theorem sqrInternal_exec (s : St) (w : Wd s [.R10, .R11, .R12, .R13]) :
    val (exec p256GmSqrInternal s) [.R10, .R11, .R12, .R13] = mulI (val s [.R10, .R11, .R12, .R13]) (val s [.R10, .R11, .R12, .R13]) ∧
    Wd (exec p256GmSqrInternal s) [.R10, .R11, .R12, .R13] ∧ Wd (exec p256GmSqrInternal s) [.R14, .R15, .DI, .SI] ∧ Same sqrClob s (exec p256GmSqrInternal s) := by
  rw [sqrInternal_split']
  simp only [exec_append]
  obtain ⟨lo, hi, w8, wh, S4⟩ := sqrWide_spec s w
  generalize exec sqrWide s = s4 at *
  obtain ⟨m1, m2, m3, m4⟩ := red4_spec .BX .CX .R8 .R9 .BP s4 w8 (by decide)
  have kh := m4.val (m := [.R14, .R15, .DI, .SI]) (by decide)
  have wh5 := m4.wd (m := [.R14, .R15, .DI, .SI]) (by decide) wh
  generalize exec (red4 .BX .CX .R8 .R9 .BP) s4 = s5 at *
  obtain ⟨n1, n2, n3⟩ := mov0_spec .BP s5
  have ql := n3.val (m := [.BX, .CX, .R8, .R9]) (by decide)
  have qh := n3.val (m := [.R14, .R15, .DI, .SI]) (by decide)
  have wl6 := n3.wd (m := [.BX, .CX, .R8, .R9]) (by decide) m2
  have wh6 := n3.wd (m := [.R14, .R15, .DI, .SI]) (by decide) wh5
  generalize exec [.movq (.imm 0) (.reg .BP)] s5 = s6 at *
  obtain ⟨p1, p2, p3⟩ := foldIn_spec .R14 .R15 .DI .SI .BX .CX .R8 .R9 .BP s6 wh6 wl6 n1 (n2.trans m3) (by decide)
  generalize exec (foldIn .R14 .R15 .DI .SI .BX .CX .R8 .R9 .BP) s6 = s7 at *
  obtain ⟨u1, u2, u3⟩ := condSubK_spec .R14 .R15 .DI .SI .R10 .R11 .R12 .R13 .BP s7 p2 (by decide)
  generalize exec (condSubK .R14 .R15 .DI .SI .R10 .R11 .R12 .R13 .BP) s7 = s8 at *
  refine ⟨?_, u2, ?_, ?_⟩
  · rw [u1, p1, ql, qh, m1, kh, lo, hi, mulI, redI, Nat.add_comm]
  · exact u3.wd (m := [.R14, .R15, .DI, .SI]) (by decide) (.cons p2.head (.cons p2.tail.head (.cons p2.tail.tail.head (.cons p2.tail.tail.tail.head .nil))))
  · exact (((S4.trans (n := sqrClob) m4 (by decide) (by decide)).trans (n := sqrClob) n3 (by decide) (by decide)).trans (n := sqrClob) p3 (by decide) (by decide)).trans u3 (by decide) (by decide)

end Verif.Sm2.Asm
