import Verif.Sm2.Asm.Sqr
/-!
`sm2p256Sqr` executed for every input.
-/
namespace Verif.Sm2.Asm

/-- products of different limbs in `sm2p256Sqr` -/
def offM : List Instr :=
  [.movq (.mem .SI 0) (.reg .R14)] ++ (mul0 (.mem .SI 8) (.reg .R14) .R9 .R10 ++ (mac0 (.mem .SI 16) (.reg .R14) .R10 .R11 ++ (mac0 (.mem .SI 24) (.reg .R14) .R11 .R12 ++
    ([.movq (.mem .SI 8) (.reg .R14)] ++ (mac0 (.mem .SI 16) (.reg .R14) .R11 .R15 ++ (mac (.mem .SI 24) (.reg .R14) .R12 .R15 .R13 ++
    ([.movq (.mem .SI 16) (.reg .R14)] ++ mac0 (.mem .SI 24) (.reg .R14) .R13 .CX)))))))

theorem ldq_spec (b : Reg) (o : Nat) (d : Reg) (s : St) : (exec [.movq (.mem b o) (.reg d)] s).r d = s.heap (s.r b + o) ∧
    Same [d] s (exec [.movq (.mem b o) (.reg d)] s) := by
  obtain ⟨k1, -, k2⟩ := movq_spec (.mem b o) d s
  exact ⟨k1, k2⟩

theorem offM_spec (s : St) (w : Words s.heap (s.r .SI)) :
    val (exec offM s) [.R9, .R10, .R11, .R12, .R13, .CX] =
      offSum (s.heap (s.r .SI)) (s.heap (s.r .SI + 8)) (s.heap (s.r .SI + 16)) (s.heap (s.r .SI + 24)) ∧
    Wd (exec offM s) [.R9, .R10, .R11, .R12, .R13, .CX] ∧ Same [.AX, .DX, .R9, .R10, .R11, .R12, .R13, .R14, .R15, .CX] s (exec offM s) := by
  obtain ⟨x0, x1, x2, x3⟩ := w
  obtain ⟨z1, z2⟩ := ldq_spec .SI 0 .R14 s
  simp only [offM, exec_append]
  generalize exec [.movq (.mem .SI 0) (.reg .R14)] s = s0 at *
  have si0 : s0.r .SI = s.r .SI := z2.r (by decide)
  have hh0 : s0.heap = s.heap := z2.2.1
  rw [Nat.add_zero] at z1
  obtain ⟨a1, a2, a3⟩ := mul0_spec (.mem .SI 8) (.reg .R14) .R9 .R10 s0 (by decide) (by decide)
  generalize exec (mul0 (.mem .SI 8) (.reg .R14) .R9 .R10) s0 = s1 at *
  simp only [get_reg, get_mem, si0, hh0, z1] at a1 a2
  rw [Nat.mul_comm] at a1 a2
  have si1 : s1.r .SI = s.r .SI := (a3.r (by decide)).trans si0
  have hh1 : s1.heap = s.heap := a3.2.1.trans hh0
  have t1 : s1.r .R14 = s.heap (s.r .SI) := (a3.r (by decide)).trans z1
  have w10 : s1.r .R10 < B := by rw [a2]; exact div_lt_B x0 x1
  obtain ⟨b1, b2, -, b3⟩ := mac0_spec (.mem .SI 16) (.reg .R14) .R10 .R11 s1 (by rw [get_mem, hh1, si1]; exact x2) (by rw [get_reg, t1]; exact x0) w10 (by decide) (by decide)
  generalize exec (mac0 (.mem .SI 16) (.reg .R14) .R10 .R11) s1 = s2 at *
  simp only [get_reg, get_mem, si1, hh1, t1] at b1 b2
  rw [Nat.mul_comm (s.heap (s.r .SI + 16))] at b1 b2
  have si2 : s2.r .SI = s.r .SI := (b3.r (by decide)).trans si1
  have hh2 : s2.heap = s.heap := b3.2.1.trans hh1
  have t2 : s2.r .R14 = s.heap (s.r .SI) := (b3.r (by decide)).trans t1
  have f9 : s2.r .R9 = s1.r .R9 := b3.r (by decide)
  have w11 : s2.r .R11 < B := by rw [b2]; exact div_mul_lt w10 x0 x2
  obtain ⟨c1, c2, -, c3⟩ := mac0_spec (.mem .SI 24) (.reg .R14) .R11 .R12 s2 (by rw [get_mem, hh2, si2]; exact x3) (by rw [get_reg, t2]; exact x0) w11 (by decide) (by decide)
  generalize exec (mac0 (.mem .SI 24) (.reg .R14) .R11 .R12) s2 = s3 at *
  simp only [get_reg, get_mem, si2, hh2, t2] at c1 c2
  rw [Nat.mul_comm (s.heap (s.r .SI + 24))] at c1 c2
  have si3 : s3.r .SI = s.r .SI := (c3.r (by decide)).trans si2
  have hh3 : s3.heap = s.heap := c3.2.1.trans hh2
  have g9 : s3.r .R9 = s1.r .R9 := (c3.r (by decide)).trans f9
  have g10 : s3.r .R10 = s2.r .R10 := c3.r (by decide)
  have w11' : s3.r .R11 < B := by rw [c1]; exact mod_lt_B _
  have w12 : s3.r .R12 < B := by rw [c2]; exact div_mul_lt w11 x0 x3
  obtain ⟨y1, y2⟩ := ldq_spec .SI 8 .R14 s3
  generalize exec [.movq (.mem .SI 8) (.reg .R14)] s3 = s4 at *
  rw [hh3, si3] at y1
  have si4 : s4.r .SI = s.r .SI := (y2.r (by decide)).trans si3
  have hh4 : s4.heap = s.heap := y2.2.1.trans hh3
  have h9 : s4.r .R9 = s1.r .R9 := (y2.r (by decide)).trans g9
  have h10 : s4.r .R10 = s2.r .R10 := (y2.r (by decide)).trans g10
  have h11 : s4.r .R11 = s3.r .R11 := y2.r (by decide)
  have h12 : s4.r .R12 = s3.r .R12 := y2.r (by decide)
  obtain ⟨d1, d2, -, d3⟩ := mac0_spec (.mem .SI 16) (.reg .R14) .R11 .R15 s4 (by rw [get_mem, hh4, si4]; exact x2) (by rw [get_reg, y1]; exact x1) (by rw [h11]; exact w11') (by decide) (by decide)
  generalize exec (mac0 (.mem .SI 16) (.reg .R14) .R11 .R15) s4 = s5 at *
  simp only [get_reg, get_mem, si4, hh4, y1, h11] at d1 d2
  rw [Nat.mul_comm (s.heap (s.r .SI + 16))] at d1 d2
  have si5 : s5.r .SI = s.r .SI := (d3.r (by decide)).trans si4
  have hh5 : s5.heap = s.heap := d3.2.1.trans hh4
  have t5 : s5.r .R14 = s.heap (s.r .SI + 8) := (d3.r (by decide)).trans y1
  have i9 : s5.r .R9 = s1.r .R9 := (d3.r (by decide)).trans h9
  have i10 : s5.r .R10 = s2.r .R10 := (d3.r (by decide)).trans h10
  have i12 : s5.r .R12 = s3.r .R12 := (d3.r (by decide)).trans h12
  have w15 : s5.r .R15 < B := by rw [d2]; exact div_mul_lt w11' x1 x2
  obtain ⟨i1, i2, -, i3⟩ := mac_spec (.mem .SI 24) (.reg .R14) .R12 .R15 .R13 s5 (by rw [get_mem, hh5, si5]; exact x3) (by rw [get_reg, t5]; exact x1) (by rw [i12]; exact w12) w15 (by decide) (by decide) (by decide)
  generalize exec (mac (.mem .SI 24) (.reg .R14) .R12 .R15 .R13) s5 = s6 at *
  simp only [get_reg, get_mem, si5, hh5, t5, i12] at i1 i2
  rw [Nat.mul_comm (s.heap (s.r .SI + 24))] at i1 i2
  have si6 : s6.r .SI = s.r .SI := (i3.r (by decide)).trans si5
  have hh6 : s6.heap = s.heap := i3.2.1.trans hh5
  have j9 : s6.r .R9 = s1.r .R9 := (i3.r (by decide)).trans i9
  have j10 : s6.r .R10 = s2.r .R10 := (i3.r (by decide)).trans i10
  have j11 : s6.r .R11 = s5.r .R11 := i3.r (by decide)
  have w13 : s6.r .R13 < B := by rw [i2]; exact div_mul_lt' w12 w15 x1 x3
  obtain ⟨u1, u2⟩ := ldq_spec .SI 16 .R14 s6
  generalize exec [.movq (.mem .SI 16) (.reg .R14)] s6 = s7 at *
  rw [hh6, si6] at u1
  have si7 : s7.r .SI = s.r .SI := (u2.r (by decide)).trans si6
  have hh7 : s7.heap = s.heap := u2.2.1.trans hh6
  have k9 : s7.r .R9 = s1.r .R9 := (u2.r (by decide)).trans j9
  have k10 : s7.r .R10 = s2.r .R10 := (u2.r (by decide)).trans j10
  have k11 : s7.r .R11 = s5.r .R11 := (u2.r (by decide)).trans j11
  have k12 : s7.r .R12 = s6.r .R12 := u2.r (by decide)
  have k13 : s7.r .R13 = s6.r .R13 := u2.r (by decide)
  obtain ⟨k1, k2, -, k3⟩ := mac0_spec (.mem .SI 24) (.reg .R14) .R13 .CX s7 (by rw [get_mem, hh7, si7]; exact x3) (by rw [get_reg, u1]; exact x2) (by rw [k13]; exact w13) (by decide) (by decide)
  generalize exec (mac0 (.mem .SI 24) (.reg .R14) .R13 .CX) s7 = s8 at *
  simp only [get_reg, get_mem, si7, hh7, u1, k13] at k1 k2
  rw [Nat.mul_comm (s.heap (s.r .SI + 24))] at k1 k2
  have l9 : s8.r .R9 = s1.r .R9 := (k3.r (by decide)).trans k9
  have l10 : s8.r .R10 = s2.r .R10 := (k3.r (by decide)).trans k10
  have l11 : s8.r .R11 = s5.r .R11 := (k3.r (by decide)).trans k11
  have l12 : s8.r .R12 = s6.r .R12 := (k3.r (by decide)).trans k12
  refine ⟨?_, ?_, ?_⟩
  · simp only [val, offSum, l9, l10, l11, l12]
    exact off_arith a1 a2 b1 b2 c1 c2 d1 d2 i1 i2 k1 k2
  · refine .cons ?_ (.cons ?_ (.cons ?_ (.cons ?_ (.cons ?_ (.cons ?_ .nil)))))
    · rw [l9, a1]; exact mod_lt_B _
    · rw [l10, b1]; exact mod_lt_B _
    · rw [l11, d1]; exact mod_lt_B _
    · rw [l12, i1]; exact mod_lt_B _
    · rw [k1]; exact mod_lt_B _
    · rw [k2]; exact div_mul_lt w13 x2 x3
  · exact (((((((z2.trans (n := [.AX, .DX, .R9, .R10, .R11, .R12, .R13, .R14, .R15, .CX]) a3 (by decide) (by decide)).trans (n := [.AX, .DX, .R9, .R10, .R11, .R12, .R13, .R14, .R15, .CX]) b3 (by decide) (by decide)).trans
      (n := [.AX, .DX, .R9, .R10, .R11, .R12, .R13, .R14, .R15, .CX]) c3 (by decide) (by decide)).trans (n := [.AX, .DX, .R9, .R10, .R11, .R12, .R13, .R14, .R15, .CX]) y2 (by decide) (by decide)).trans
      (n := [.AX, .DX, .R9, .R10, .R11, .R12, .R13, .R14, .R15, .CX]) d3 (by decide) (by decide)).trans (n := [.AX, .DX, .R9, .R10, .R11, .R12, .R13, .R14, .R15, .CX]) i3 (by decide) (by decide)).trans
      (n := [.AX, .DX, .R9, .R10, .R11, .R12, .R13, .R14, .R15, .CX]) u2 (by decide) (by decide)).trans k3 (by decide) (by decide)

/-- the 512-bit square in `sm2p256Sqr` -/
def sqrWideM : List Instr :=
  offM ++ (dbl6 .R9 .R10 .R11 .R12 .R13 .CX .R15 ++ (sq0 (.mem .SI 0) .R8 .R14 ++ (sqAdd (.mem .SI 8) .R14 .R9 .R10 ++ (sqAdd (.mem .SI 16) .R14 .R11 .R12 ++
    (sqEnd (.mem .SI 24) .R14 .R13 .CX .R15 ++ [.movq (.reg .R15) (.reg .SI)])))))

/-- the registers `sm2p256Sqr` may change before it stores its result -/
abbrev sqrClobM : List Reg := [.AX, .DX, .CX, .R8, .R9, .R10, .R11, .R12, .R13, .R14, .R15, .SI]

theorem sqrWideM_spec (s : St) (w : Words s.heap (s.r .SI)) :
    val (exec sqrWideM s) [.R8, .R9, .R10, .R11] = ld4 s.heap (s.r .SI) * ld4 s.heap (s.r .SI) % B ^ 4 ∧
    val (exec sqrWideM s) [.R12, .R13, .CX, .SI] = ld4 s.heap (s.r .SI) * ld4 s.heap (s.r .SI) / B ^ 4 ∧
    Wd (exec sqrWideM s) [.R8, .R9, .R10, .R11] ∧ Wd (exec sqrWideM s) [.R12, .R13, .CX, .SI] ∧ Same sqrClobM s (exec sqrWideM s) := by
  obtain ⟨a1, a2, a3⟩ := offM_spec s w
  obtain ⟨x0, x1, x2, x3⟩ := w
  simp only [sqrWideM, exec_append]
  generalize exec offM s = s1 at *
  obtain ⟨b1, b2, b3⟩ := dbl6_spec .R9 .R10 .R11 .R12 .R13 .CX .R15 s1 a2 (by decide)
  generalize exec (dbl6 .R9 .R10 .R11 .R12 .R13 .CX .R15) s1 = s2 at *
  rw [a1] at b1
  have S2 : Same sqrClobM s s2 := a3.trans b3 (by decide) (by decide)
  have hh2 : s2.heap = s.heap := S2.2.1
  have si2 : s2.r .SI = s.r .SI := (b3.r (by decide)).trans (a3.r (by decide))
  clear a1 a2 a3 b3
  obtain ⟨c1, c2, c3⟩ := sq0_spec (.mem .SI 0) .R8 .R14 s2 (by rw [get_mem, hh2, si2]; exact x0) (by decide)
  rw [get_mem, hh2, si2, Nat.add_zero] at c1
  generalize exec (sq0 (.mem .SI 0) .R8 .R14) s2 = s3 at *
  have v3 := c3.val (m := [.R9, .R10, .R11, .R12, .R13, .CX, .R15]) (by decide)
  have w3 := c3.wd (m := [.R9, .R10, .R11, .R12, .R13, .CX, .R15]) (by decide) b2
  rw [b1] at v3
  have hh3 : s3.heap = s.heap := c3.2.1.trans hh2
  have si3 : s3.r .SI = s.r .SI := (c3.r (by decide)).trans si2
  have S3 : Same sqrClobM s s3 := S2.trans c3 (by decide) (by decide)
  clear b1 b2 c3
  obtain ⟨d1, d2, d3⟩ := sqAdd_spec (.mem .SI 8) .R14 .R9 .R10 s3 (by rw [get_mem, hh3, si3]; exact x1) (.cons w3.head (.cons w3.tail.head (.cons c2.tail.head .nil))) (by decide)
  rw [get_mem, hh3, si3] at d1
  generalize exec (sqAdd (.mem .SI 8) .R14 .R9 .R10) s3 = s4 at *
  have hh4 : s4.heap = s.heap := d3.2.1.trans hh3
  have si4 : s4.r .SI = s.r .SI := (d3.r (by decide)).trans si3
  have g8 : s4.r .R8 = s3.r .R8 := d3.r (by decide)
  have w4 := d3.wd (m := [.R11, .R12, .R13, .CX, .R15]) (by decide) w3.tail.tail
  have g11 : s4.r .R11 = s3.r .R11 := d3.r (by decide)
  have g12 : s4.r .R12 = s3.r .R12 := d3.r (by decide)
  have g13 : s4.r .R13 = s3.r .R13 := d3.r (by decide)
  have gcx : s4.r .CX = s3.r .CX := d3.r (by decide)
  have g15 : s4.r .R15 = s3.r .R15 := d3.r (by decide)
  have S4 : Same sqrClobM s s4 := S3.trans d3 (by decide) (by decide)
  clear d3
  obtain ⟨i1, i2, i3⟩ := sqAdd_spec (.mem .SI 16) .R14 .R11 .R12 s4 (by rw [get_mem, hh4, si4]; exact x2) (.cons w4.head (.cons w4.tail.head (.cons d2.tail.tail.head .nil))) (by decide)
  rw [get_mem, hh4, si4] at i1
  generalize exec (sqAdd (.mem .SI 16) .R14 .R11 .R12) s4 = s5 at *
  have hh5 : s5.heap = s.heap := i3.2.1.trans hh4
  have si5 : s5.r .SI = s.r .SI := (i3.r (by decide)).trans si4
  have h8 : s5.r .R8 = s3.r .R8 := (i3.r (by decide)).trans g8
  have h9 : s5.r .R9 = s4.r .R9 := i3.r (by decide)
  have h10 : s5.r .R10 = s4.r .R10 := i3.r (by decide)
  have w5 := i3.wd (m := [.R13, .CX, .R15]) (by decide) w4.tail.tail
  have h13 : s5.r .R13 = s3.r .R13 := (i3.r (by decide)).trans g13
  have hcx : s5.r .CX = s3.r .CX := (i3.r (by decide)).trans gcx
  have h15 : s5.r .R15 = s3.r .R15 := (i3.r (by decide)).trans g15
  have S5 : Same sqrClobM s s5 := S4.trans i3 (by decide) (by decide)
  clear i3
  obtain ⟨j1, j2, j3⟩ := sqEnd_spec (.mem .SI 24) .R14 .R13 .CX .R15 s5 (by rw [get_mem, hh5, si5]; exact x3) (.cons w5.head (.cons w5.tail.head (.cons w5.tail.tail.head (.cons i2.tail.tail.head .nil)))) (by decide)
  rw [get_mem, hh5, si5] at j1
  generalize exec (sqEnd (.mem .SI 24) .R14 .R13 .CX .R15) s5 = s6 at *
  have k8 : s6.r .R8 = s3.r .R8 := (j3.r (by decide)).trans h8
  have k9 : s6.r .R9 = s4.r .R9 := (j3.r (by decide)).trans h9
  have k10 : s6.r .R10 = s4.r .R10 := (j3.r (by decide)).trans h10
  have k11 : s6.r .R11 = s5.r .R11 := j3.r (by decide)
  have k12 : s6.r .R12 = s5.r .R12 := j3.r (by decide)
  simp only [val, g11, g12, h13, hcx, h15] at v3 c1 d1 i1 j1
  have A := sqr_arith x0 x1 x2 x3 rfl v3 c1 d1 i1 j1
  rw [← k8, ← k9, ← k10, ← k11, ← k12] at A
  have wl : Wd s6 [.R8, .R9, .R10, .R11] := by
    refine .cons ?_ (.cons ?_ (.cons ?_ (.cons ?_ .nil)))
    · rw [k8]; exact c2.head
    · rw [k9]; exact d2.head
    · rw [k10]; exact d2.tail.head
    · rw [k11]; exact i2.head
  obtain ⟨lo, hi⟩ := halves wl.head wl.tail.head wl.tail.tail.head wl.tail.tail.tail.head A
  obtain ⟨m1, -, m3⟩ := mov_spec .R15 .SI s6
  have hl := m3.val (m := [.R8, .R9, .R10, .R11]) (by decide)
  have wl' := m3.wd (m := [.R8, .R9, .R10, .R11]) (by decide) wl
  generalize exec [.movq (.reg .R15) (.reg .SI)] s6 = s7 at *
  have n12 : s7.r .R12 = s6.r .R12 := m3.r (by decide)
  have n13 : s7.r .R13 = s6.r .R13 := m3.r (by decide)
  have ncx : s7.r .CX = s6.r .CX := m3.r (by decide)
  refine ⟨?_, ?_, wl', ?_, (S5.trans (n := sqrClobM) j3 (by decide) (by decide)).trans m3 (by decide) (by decide)⟩
  · rw [hl, ld4]
    exact lo
  · simp only [val, n12, n13, ncx, m1]
    rw [ld4]
    exact hi
  · refine .cons ?_ (.cons ?_ (.cons ?_ (.cons ?_ .nil)))
    · rw [n12, k12]; exact i2.tail.head
    · rw [n13]; exact j2.head
    · rw [ncx]; exact j2.tail.head
    · rw [m1]; exact j2.tail.tail.head

theorem sqr_split : sm2p256Sqr =
    movs [(.arg 0, .DI), (.arg 24, .SI)] ++ (sqrWideM ++ (redS .R8 .R9 .R10 .R11 .R15 ++ (redS .R9 .R10 .R11 .R8 .R15 ++ (redS .R10 .R11 .R8 .R9 .R15 ++
    ([.xorq (.reg .R14) .R14] ++ (redS .R11 .R8 .R9 .R10 .R15 ++ (foldIn .R8 .R9 .R10 .R11 .R12 .R13 .CX .SI .R14 ++
    (condSubC .R8 .R9 .R10 .R11 .R12 .R13 .CX .R15 [(.imm 0, .R14)] ++ st4 .DI .R8 .R9 .R10 .R11)))))))) := by decide +kernel

/-- `sm2/sm2p256_amd64.s:165-334`: the routine stores `mulI` of its operand with itself at the result and changes no other memory -/
theorem sqr_exec (s : St) (hx : Words s.heap (s.args 24)) :
    ld4 (exec sm2p256Sqr s).heap (s.args 0) = mulI (ld4 s.heap (s.args 24)) (ld4 s.heap (s.args 24)) ∧
    Elsewhere (s.args 0) s.heap (exec sm2p256Sqr s).heap := by
  rw [sqr_split]
  simp only [exec_append]
  obtain ⟨-, -, -, h2⟩ := movs_spec [(.arg 0, .DI), (.arg 24, .SI)] s (by decide)
  have hdi : (exec (movs [(.arg 0, .DI), (.arg 24, .SI)]) s).r .DI = s.args 0 := rfl
  have hsi : (exec (movs [(.arg 0, .DI), (.arg 24, .SI)]) s).r .SI = s.args 24 := rfl
  have hh := h2.2.1
  clear h2
  generalize exec (movs [(.arg 0, .DI), (.arg 24, .SI)]) s = s1 at *
  obtain ⟨lo, hi, wl, wh, S2⟩ := sqrWideM_spec s1 (by rw [hh, hsi]; exact hx)
  rw [hh, hsi] at lo hi
  generalize exec sqrWideM s1 = s2 at *
  have hdi2 : s2.r .DI = s.args 0 := (S2.r (by decide)).trans hdi
  have hh2 : s2.heap = s.heap := S2.2.1.trans hh
  obtain ⟨a1, a2, -, a3⟩ := redS_spec .R8 .R9 .R10 .R11 .R15 s2 wl (by decide)
  have vh3 := a3.val (m := [.R12, .R13, .CX, .SI]) (by decide)
  have wh3 := a3.wd (m := [.R12, .R13, .CX, .SI]) (by decide) wh
  generalize exec (redS .R8 .R9 .R10 .R11 .R15) s2 = s3 at *
  have hdi3 : s3.r .DI = s.args 0 := (a3.r (by decide)).trans hdi2
  have hh3 : s3.heap = s.heap := a3.2.1.trans hh2
  obtain ⟨b1, b2, -, b3⟩ := redS_spec .R9 .R10 .R11 .R8 .R15 s3 a2 (by decide)
  have vh4 := b3.val (m := [.R12, .R13, .CX, .SI]) (by decide)
  have wh4 := b3.wd (m := [.R12, .R13, .CX, .SI]) (by decide) wh3
  generalize exec (redS .R9 .R10 .R11 .R8 .R15) s3 = s4 at *
  have hdi4 : s4.r .DI = s.args 0 := (b3.r (by decide)).trans hdi3
  have hh4 : s4.heap = s.heap := b3.2.1.trans hh3
  obtain ⟨c1, c2, -, c3⟩ := redS_spec .R10 .R11 .R8 .R9 .R15 s4 b2 (by decide)
  have vh5 := c3.val (m := [.R12, .R13, .CX, .SI]) (by decide)
  have wh5 := c3.wd (m := [.R12, .R13, .CX, .SI]) (by decide) wh4
  generalize exec (redS .R10 .R11 .R8 .R9 .R15) s4 = s5 at *
  have hdi5 : s5.r .DI = s.args 0 := (c3.r (by decide)).trans hdi4
  have hh5 : s5.heap = s.heap := c3.2.1.trans hh4
  obtain ⟨x1, x2⟩ := xorq_spec .R14 s5
  have vh6 := x2.val (m := [.R12, .R13, .CX, .SI]) (by decide)
  have wh6 := x2.wd (m := [.R12, .R13, .CX, .SI]) (by decide) wh5
  have vl6 := x2.val (m := [.R11, .R8, .R9, .R10]) (by decide)
  have wl6 := x2.wd (m := [.R11, .R8, .R9, .R10]) (by decide) c2
  generalize exec [.xorq (.reg .R14) .R14] s5 = s6 at *
  have hdi6 : s6.r .DI = s.args 0 := (x2.r (by decide)).trans hdi5
  have hh6 : s6.heap = s.heap := x2.2.1.trans hh5
  obtain ⟨d1, d2, d4, d3⟩ := redS_spec .R11 .R8 .R9 .R10 .R15 s6 wl6 (by decide)
  have vh7 := d3.val (m := [.R12, .R13, .CX, .SI]) (by decide)
  have wh7 := d3.wd (m := [.R12, .R13, .CX, .SI]) (by decide) wh6
  generalize exec (redS .R11 .R8 .R9 .R10 .R15) s6 = s7 at *
  have hdi7 : s7.r .DI = s.args 0 := (d3.r (by decide)).trans hdi6
  have hh7 : s7.heap = s.heap := d3.2.1.trans hh6
  have e14 : s7.r .R14 = 0 := (d3.r (by decide)).trans x1
  obtain ⟨p1, p2, p3⟩ := foldIn_spec .R8 .R9 .R10 .R11 .R12 .R13 .CX .SI .R14 s7 d2 wh7 e14 d4 (by decide)
  generalize exec (foldIn .R8 .R9 .R10 .R11 .R12 .R13 .CX .SI .R14) s7 = s8 at *
  have hdi8 : s8.r .DI = s.args 0 := (p3.r (by decide)).trans hdi7
  have hh8 : s8.heap = s.heap := p3.2.1.trans hh7
  obtain ⟨u1, u2, u3⟩ := condSub5_spec .R8 .R9 .R10 .R11 .R12 .R13 .CX .R15 .R14 s8 p2 (by decide)
  generalize exec (condSubC .R8 .R9 .R10 .R11 .R12 .R13 .CX .R15 [(.imm 0, .R14)]) s8 = s9 at *
  have hdi9 : s9.r .DI = s.args 0 := (u3.r (by decide)).trans hdi8
  have hh9 : s9.heap = s.heap := u3.2.1.trans hh8
  obtain ⟨v1, v2, -⟩ := st4_spec .DI .R8 .R9 .R10 .R11 s9
  rw [hdi9] at v1 v2
  rw [hh9] at v2
  refine ⟨?_, v2⟩
  rw [v1, u1, p1, d1, vl6, c1, b1, a1, vh7, vh6, vh5, vh4, vh3, lo, hi, mulI, redI]

end Verif.Sm2.Asm
