import Verif.Sm2.Asm.Mul
/-!
What `sm2p256FromMont` computes, for every input.
-/
namespace Verif.Sm2.Asm

/-- what `sm2p256FromMont` computes -/
def fromMontT (x : Nat) : Nat := condSub (redT (redT (redT (redT x))))

/-- a round of `sm2p256FromMont` -/
def roundF (a0 a1 a2 a3 h a4 : Reg) : List Instr := [.xorq (.reg a4) a4] ++ redF a0 a1 a2 a3 h a4

theorem roundF_spec (a0 a1 a2 a3 h a4 : Reg) (s : St) (b : Wd s [a0, a1, a2, a3]) (hd : [.AX, .DX, a0, a1, a2, a3, h, a4].Nodup) :
    val (exec (roundF a0 a1 a2 a3 h a4) s) [a1, a2, a3, a4] = redT (val s [a0, a1, a2, a3]) ∧
    Wd (exec (roundF a0 a1 a2 a3 h a4) s) [a1, a2, a3, a4] ∧
    Same [.AX, .DX, a0, a1, a2, a3, h, a4] s (exec (roundF a0 a1 a2 a3 h a4) s) := by
  obtain ⟨h1, h2⟩ := xorq_spec a4 s
  simp only [roundF, exec_append]
  generalize exec [.xorq (.reg a4) a4] s = s1 at *
  have hd' := hd
  regs hd' hk
  have hn : ∀ r ∈ [a0, a1, a2, a3], r ∉ [a4] := by
    simp only [List.mem_cons, List.not_mem_nil, or_false, forall_eq_or_imp, forall_eq, hd', hk, not_false_eq_true, and_self]
  obtain ⟨k1, k2, k3⟩ := redF_spec a0 a1 a2 a3 h a4 s1 (h2.wd hn b) h1 hd
  rw [h2.val hn] at k1
  exact ⟨k1, k2, h2.trans k3 (by incl) (by incl)⟩

theorem fromMont_split : sm2p256FromMont =
    movs [(.arg 0, .DI), (.arg 24, .SI)] ++ (movs [(.mem .SI 0, .R8), (.mem .SI 8, .R9), (.mem .SI 16, .R10), (.mem .SI 24, .R11)] ++
    (roundF .R8 .R9 .R10 .R11 .R15 .R12 ++ (roundF .R9 .R10 .R11 .R12 .R15 .R13 ++ (roundF .R10 .R11 .R12 .R13 .R15 .R8 ++
    (roundF .R11 .R12 .R13 .R8 .R15 .R9 ++ (condSubC .R12 .R13 .R8 .R9 .SI .R11 .R14 .R15 [] ++ st4 .DI .R12 .R13 .R8 .R9)))))) := by
  decide +kernel

/-- `sm2/sm2p256_amd64.s:556-651`: the routine stores `fromMontT` of its operand at the result and changes no other memory -/
theorem fromMont_exec (s : St) (hx : Words s.heap (s.args 24)) :
    ld4 (exec sm2p256FromMont s).heap (s.args 0) = fromMontT (ld4 s.heap (s.args 24)) ∧
    Elsewhere (s.args 0) s.heap (exec sm2p256FromMont s).heap := by
  obtain ⟨x0, x1, x2, x3⟩ := hx
  rw [fromMont_split]
  simp only [exec_append]
  obtain ⟨-, -, -, h2⟩ := movs_spec [(.arg 0, .DI), (.arg 24, .SI)] s (by decide)
  have hdi : (exec (movs [(.arg 0, .DI), (.arg 24, .SI)]) s).r .DI = s.args 0 := rfl
  have hsi : (exec (movs [(.arg 0, .DI), (.arg 24, .SI)]) s).r .SI = s.args 24 := rfl
  have hh := h2.2.1
  clear h2
  generalize exec (movs [(.arg 0, .DI), (.arg 24, .SI)]) s = s1 at *
  obtain ⟨k1, -, k2, k3⟩ := movs_spec [(.mem .SI 0, .R8), (.mem .SI 8, .R9), (.mem .SI 16, .R10), (.mem .SI 24, .R11)] s1 (by decide)
  replace k2 := k2 (by
    bnd
    simp only [get_mem, hh, hsi]
    exact ⟨x0, x1, x2, x3⟩)
  generalize exec (movs [(.mem .SI 0, .R8), (.mem .SI 8, .R9), (.mem .SI 16, .R10), (.mem .SI 24, .R11)]) s1 = s2 at *
  simp only [List.map_cons, List.map_nil] at k1 k2 k3
  have T0 : val s2 [.R8, .R9, .R10, .R11] = ld4 s.heap (s.args 24) := by
    rw [k1]; simp only [sval, get_mem, hh, hsi, ld4, Nat.add_zero, Nat.mul_zero]
  have hdi2 : s2.r .DI = s.args 0 := (k3.r (by decide)).trans hdi
  have hh2 : s2.heap = s.heap := k3.2.1.trans hh
  obtain ⟨a1, a2, a3⟩ := roundF_spec .R8 .R9 .R10 .R11 .R15 .R12 s2 k2 (by decide)
  rw [T0] at a1
  generalize exec (roundF .R8 .R9 .R10 .R11 .R15 .R12) s2 = s3 at *
  have hdi3 : s3.r .DI = s.args 0 := (a3.r (by decide)).trans hdi2
  have hh3 : s3.heap = s.heap := a3.2.1.trans hh2
  obtain ⟨b1, b2, b3⟩ := roundF_spec .R9 .R10 .R11 .R12 .R15 .R13 s3 a2 (by decide)
  rw [a1] at b1
  generalize exec (roundF .R9 .R10 .R11 .R12 .R15 .R13) s3 = s4 at *
  have hdi4 : s4.r .DI = s.args 0 := (b3.r (by decide)).trans hdi3
  have hh4 : s4.heap = s.heap := b3.2.1.trans hh3
  obtain ⟨c1, c2, c3⟩ := roundF_spec .R10 .R11 .R12 .R13 .R15 .R8 s4 b2 (by decide)
  rw [b1] at c1
  generalize exec (roundF .R10 .R11 .R12 .R13 .R15 .R8) s4 = s5 at *
  have hdi5 : s5.r .DI = s.args 0 := (c3.r (by decide)).trans hdi4
  have hh5 : s5.heap = s.heap := c3.2.1.trans hh4
  obtain ⟨d1, d2, d3⟩ := roundF_spec .R11 .R12 .R13 .R8 .R15 .R9 s5 c2 (by decide)
  rw [c1] at d1
  generalize exec (roundF .R11 .R12 .R13 .R8 .R15 .R9) s5 = s6 at *
  have hdi6 : s6.r .DI = s.args 0 := (d3.r (by decide)).trans hdi5
  have hh6 : s6.heap = s.heap := d3.2.1.trans hh5
  obtain ⟨u1, u2, u3⟩ := condSub4_spec .R12 .R13 .R8 .R9 .SI .R11 .R14 .R15 s6 d2 (by decide)
  rw [d1] at u1
  generalize exec (condSubC .R12 .R13 .R8 .R9 .SI .R11 .R14 .R15 []) s6 = s7 at *
  have hdi7 : s7.r .DI = s.args 0 := (u3.r (by decide)).trans hdi6
  have hh7 : s7.heap = s.heap := u3.2.1.trans hh6
  obtain ⟨v1, v2, -⟩ := st4_spec .DI .R12 .R13 .R8 .R9 s7
  rw [hdi7] at v1 v2
  rw [hh7] at v2
  exact ⟨by rw [v1, u1, fromMontT], v2⟩

end Verif.Sm2.Asm
