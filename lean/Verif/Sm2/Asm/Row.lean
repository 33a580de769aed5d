import Verif.Sm2.Asm.Red
/-!
Rows of the schoolbook multiplication, and the final conditional subtraction.
-/
namespace Verif.Sm2.Asm

theorem Src.avoids.mono {a : Src} {l m : List Reg} (h : a.avoids m) (hl : l ⊆ m) : a.avoids l := by
  cases a with
  | reg r => exact fun x => h (hl x)
  | mem b o => exact fun x => h (hl x)
  | imm n => trivial
  | stk n => trivial
  | arg n => trivial

attribute [local irreducible] Src.avoids

/-- first row: `(a0, …, a4) := x*y` -/
def row0 (s0 s1 s2 s3 m0 m1 m2 m3 : Src) (a0 a1 a2 a3 a4 : Reg) : List Instr :=
  mul0 s0 m0 a0 a1 ++ (mac0 s1 m1 a1 a2 ++ (mac0 s2 m2 a2 a3 ++ mac0 s3 m3 a3 a4))

theorem div_mul_lt {a x y : Nat} (ha : a < B) (hx : x < B) (hy : y < B) : (a + x * y) / B < B := by
  rw [Nat.div_lt_iff_lt_mul (by decide)]
  have := mul_bound hx hy
  simp only [B] at *
  omega

theorem div_mul_lt' {a t x y : Nat} (ha : a < B) (ht : t < B) (hx : x < B) (hy : y < B) : (a + t + x * y) / B < B := by
  rw [Nat.div_lt_iff_lt_mul (by decide)]
  have := mul_bound hx hy
  simp only [B] at *
  omega

theorem mod_lt_B (x : Nat) : x % B < B := Nat.mod_lt _ (by decide)

theorem row0_spec (s0 s1 s2 s3 m0 m1 m2 m3 : Src) (a0 a1 a2 a3 a4 : Reg) (s : St)
    (hb : ∀ a ∈ [s0, s1, s2, s3, m0, m1, m2, m3], a.get s < B)
    (ha : ∀ a ∈ [s0, s1, s2, s3, m0, m1, m2, m3], a.avoids [.AX, .DX, a0, a1, a2, a3])
    (hd : [.AX, .DX, a0, a1, a2, a3, a4].Nodup) :
    val (exec (row0 s0 s1 s2 s3 m0 m1 m2 m3 a0 a1 a2 a3 a4) s) [a0, a1, a2, a3, a4] =
      s0.get s * m0.get s + B * (s1.get s * m1.get s + B * (s2.get s * m2.get s + B * (s3.get s * m3.get s))) ∧
    Wd (exec (row0 s0 s1 s2 s3 m0 m1 m2 m3 a0 a1 a2 a3 a4) s) [a0, a1, a2, a3, a4] ∧
    Same [.AX, .DX, a0, a1, a2, a3, a4] s (exec (row0 s0 s1 s2 s3 m0 m1 m2 m3 a0 a1 a2 a3 a4) s) := by
  simp only [List.mem_cons, List.not_mem_nil, or_false, forall_eq_or_imp, forall_eq] at hb ha
  obtain ⟨b0, b1, b2, b3, c0, c1, c2, c3⟩ := hb
  obtain ⟨u0, u1, u2, u3, v0, v1, v2, v3⟩ := ha
  obtain ⟨h1, h2, h3⟩ := mul0_spec s0 m0 a0 a1 s (hd.sublist (by sub)) (v0.mono (by incl))
  have hd' := hd
  simp only [row0, exec_append]
  generalize exec (mul0 s0 m0 a0 a1) s = t1 at *
  have e1 : s1.get t1 = s1.get s := h3.get (u1.mono (by incl))
  have e2 : s2.get t1 = s2.get s := h3.get (u2.mono (by incl))
  have e3 : s3.get t1 = s3.get s := h3.get (u3.mono (by incl))
  have f1 : m1.get t1 = m1.get s := h3.get (v1.mono (by incl))
  have f2 : m2.get t1 = m2.get s := h3.get (v2.mono (by incl))
  have f3 : m3.get t1 = m3.get s := h3.get (v3.mono (by incl))
  have d0 : t1.r a0 < B := h1 ▸ mod_lt_B _
  have d1 : t1.r a1 < B := by rw [h2, Nat.div_lt_iff_lt_mul (by decide)]; have := mul_bound b0 c0; simp only [B] at *; omega
  obtain ⟨i1, i2, -, i3⟩ := mac0_spec s1 m1 a1 a2 t1 (e1 ▸ b1) (f1 ▸ c1) d1 (hd.sublist (by sub)) (v1.mono (by incl))
  generalize exec (mac0 s1 m1 a1 a2) t1 = t2 at *
  have e2' : s2.get t2 = s2.get s := (i3.get (u2.mono (by incl))).trans e2
  have e3' : s3.get t2 = s3.get s := (i3.get (u3.mono (by incl))).trans e3
  have f2' : m2.get t2 = m2.get s := (i3.get (v2.mono (by incl))).trans f2
  have f3' : m3.get t2 = m3.get s := (i3.get (v3.mono (by incl))).trans f3
  rw [e1, f1] at i1 i2
  have d2 : t2.r a2 < B := by rw [i2]; exact div_mul_lt d1 b1 c1
  obtain ⟨j1, j2, -, j3⟩ := mac0_spec s2 m2 a2 a3 t2 (e2' ▸ b2) (f2' ▸ c2) d2 (hd.sublist (by sub)) (v2.mono (by incl))
  generalize exec (mac0 s2 m2 a2 a3) t2 = t3 at *
  have e3'' : s3.get t3 = s3.get s := (j3.get (u3.mono (by incl))).trans e3'
  have f3'' : m3.get t3 = m3.get s := (j3.get (v3.mono (by incl))).trans f3'
  rw [e2', f2'] at j1 j2
  have d3 : t3.r a3 < B := by rw [j2]; exact div_mul_lt d2 b2 c2
  obtain ⟨k1, k2, -, k3⟩ := mac0_spec s3 m3 a3 a4 t3 (e3'' ▸ b3) (f3'' ▸ c3) d3 (hd.sublist (by sub)) (v3.mono (by incl))
  generalize exec (mac0 s3 m3 a3 a4) t3 = t4 at *
  rw [e3'', f3''] at k1 k2
  have d4 : t4.r a4 < B := by rw [k2]; exact div_mul_lt d3 b3 c3
  regs hd' hk
  have g0 : t4.r a0 = t1.r a0 := ((k3.r (by far hd' hk)).trans (j3.r (by far hd' hk))).trans (i3.r (by far hd' hk))
  have g1 : t4.r a1 = t2.r a1 := (k3.r (by far hd' hk)).trans (j3.r (by far hd' hk))
  have g2 : t4.r a2 = t3.r a2 := k3.r (by far hd' hk)
  refine ⟨?_, ?_, ?_⟩
  · simp only [val, g0, g1, g2, h1, i1, j1, k1, k2]
    have A0 := Nat.mod_add_div (s0.get s * m0.get s) B
    have A1 := Nat.mod_add_div (t1.r a1 + s1.get s * m1.get s) B
    have A2 := Nat.mod_add_div (t2.r a2 + s2.get s * m2.get s) B
    have A3 := Nat.mod_add_div (t3.r a3 + s3.get s * m3.get s) B
    rw [← h2] at A0
    rw [← i2] at A1
    rw [← j2] at A2
    linear_combination A0 + B * A1 + B ^ 2 * A2 + B ^ 3 * A3
  · refine .cons ?_ (.cons ?_ (.cons ?_ (.cons ?_ (.cons d4 .nil))))
    · rw [g0]; exact d0
    · rw [g1, i1]; exact mod_lt_B _
    · rw [g2, j1]; exact mod_lt_B _
    · rw [k1]; exact mod_lt_B _
  · exact ((h3.trans (n := [.AX, .DX, a0, a1, a2, a3, a4]) i3 (by incl) (by incl)).trans (n := [.AX, .DX, a0, a1, a2, a3, a4]) j3 (by incl) (by incl)).trans k3 (by incl) (by incl)

/-- a later row, up to its last product: the carry is in `t` -/
def rowP (s0 s1 s2 m0 m1 m2 : Src) (a0 a1 a2 t : Reg) : List Instr :=
  mac0 s0 m0 a0 t ++ (mac s1 m1 a1 t t ++ mac s2 m2 a2 t t)

theorem rowP_spec (s0 s1 s2 m0 m1 m2 : Src) (a0 a1 a2 t : Reg) (s : St)
    (hb : ∀ a ∈ [s0, s1, s2, m0, m1, m2], a.get s < B) (hw : Wd s [a0, a1, a2])
    (ha : ∀ a ∈ [s0, s1, s2, m0, m1, m2], a.avoids [.AX, .DX, a0, a1, a2, t])
    (hd : [.AX, .DX, a0, a1, a2, t].Nodup) :
    val (exec (rowP s0 s1 s2 m0 m1 m2 a0 a1 a2 t) s) [a0, a1, a2, t] =
      val s [a0, a1, a2] + (s0.get s * m0.get s + B * (s1.get s * m1.get s + B * (s2.get s * m2.get s))) ∧
    Wd (exec (rowP s0 s1 s2 m0 m1 m2 a0 a1 a2 t) s) [a0, a1, a2, t] ∧
    Same [.AX, .DX, a0, a1, a2, t] s (exec (rowP s0 s1 s2 m0 m1 m2 a0 a1 a2 t) s) := by
  simp only [List.mem_cons, List.not_mem_nil, or_false, forall_eq_or_imp, forall_eq] at hb ha
  obtain ⟨b0, b1, b2, c0, c1, c2⟩ := hb
  obtain ⟨u0, u1, u2, v0, v1, v2⟩ := ha
  have w0 := hw.head
  have w1 := hw.tail.head
  have w2 := hw.tail.tail.head
  obtain ⟨h1, h2, -, h3⟩ := mac0_spec s0 m0 a0 t s b0 c0 w0 (hd.sublist (by sub)) (v0.mono (by incl))
  have hd' := hd
  regs hd' hk
  simp only [rowP, exec_append]
  generalize exec (mac0 s0 m0 a0 t) s = t1 at *
  have e1 : s1.get t1 = s1.get s := h3.get (u1.mono (by incl))
  have e2 : s2.get t1 = s2.get s := h3.get (u2.mono (by incl))
  have f1 : m1.get t1 = m1.get s := h3.get (v1.mono (by incl))
  have f2 : m2.get t1 = m2.get s := h3.get (v2.mono (by incl))
  have x1 : t1.r a1 = s.r a1 := h3.r (by far hd' hk)
  have x2 : t1.r a2 = s.r a2 := h3.r (by far hd' hk)
  have d0 : t1.r t < B := by rw [h2]; exact div_mul_lt w0 b0 c0
  obtain ⟨i1, i2, -, i3⟩ := mac_spec s1 m1 a1 t t t1 (e1 ▸ b1) (f1 ▸ c1) (x1 ▸ w1) d0 (hd.sublist (by sub)) (hd.sublist (by sub)) (v1.mono (by incl))
  generalize exec (mac s1 m1 a1 t t) t1 = t2 at *
  have e2' : s2.get t2 = s2.get s := (i3.get (u2.mono (by incl))).trans e2
  have f2' : m2.get t2 = m2.get s := (i3.get (v2.mono (by incl))).trans f2
  have x2' : t2.r a2 = s.r a2 := (i3.r (by far hd' hk)).trans x2
  rw [e1, f1, x1] at i1 i2
  have d1 : t2.r t < B := by rw [i2]; exact div_mul_lt' w1 d0 b1 c1
  obtain ⟨j1, j2, -, j3⟩ := mac_spec s2 m2 a2 t t t2 (e2' ▸ b2) (f2' ▸ c2) (x2' ▸ w2) d1 (hd.sublist (by sub)) (hd.sublist (by sub)) (v2.mono (by incl))
  generalize exec (mac s2 m2 a2 t t) t2 = t3 at *
  rw [e2', f2', x2'] at j1 j2
  have g0 : t3.r a0 = t1.r a0 := (j3.r (by far hd' hk)).trans (i3.r (by far hd' hk))
  have g1 : t3.r a1 = t2.r a1 := j3.r (by far hd' hk)
  refine ⟨?_, ?_, ?_⟩
  · simp only [val, g0, g1, h1, i1, j1, j2]
    have A0 := Nat.mod_add_div (s.r a0 + s0.get s * m0.get s) B
    have A1 := Nat.mod_add_div (s.r a1 + t1.r t + s1.get s * m1.get s) B
    have A2 := Nat.mod_add_div (s.r a2 + t2.r t + s2.get s * m2.get s) B
    rw [← h2] at A0
    rw [← i2] at A1
    linear_combination A0 + B * A1 + B ^ 2 * A2
  · refine .cons ?_ (.cons ?_ (.cons ?_ (.cons ?_ .nil)))
    · rw [g0, h1]; exact mod_lt_B _
    · rw [g1, i1]; exact mod_lt_B _
    · rw [j1]; exact mod_lt_B _
    · rw [j2]; exact div_mul_lt' w2 d1 b2 c2
  · exact (h3.trans (n := [.AX, .DX, a0, a1, a2, t]) i3 (by incl) (by incl)).trans j3 (by incl) (by incl)

/-- a later row of the full product: `(a0, …, a3, u) := (a0, …, a3) + x*y` -/
def rowI (s0 s1 s2 s3 m0 m1 m2 m3 : Src) (a0 a1 a2 a3 t u : Reg) : List Instr :=
  rowP s0 s1 s2 m0 m1 m2 a0 a1 a2 t ++ mac s3 m3 a3 t u

theorem rowI_spec (s0 s1 s2 s3 m0 m1 m2 m3 : Src) (a0 a1 a2 a3 t u : Reg) (s : St)
    (hb : ∀ a ∈ [s0, s1, s2, s3, m0, m1, m2, m3], a.get s < B) (hw : Wd s [a0, a1, a2, a3])
    (ha : ∀ a ∈ [s0, s1, s2, s3, m0, m1, m2, m3], a.avoids [.AX, .DX, a0, a1, a2, t])
    (hd : [.AX, .DX, a0, a1, a2, a3, t].Nodup) (hd2 : [.AX, .DX, a0, a1, a2, a3, u].Nodup) :
    val (exec (rowI s0 s1 s2 s3 m0 m1 m2 m3 a0 a1 a2 a3 t u) s) [a0, a1, a2, a3, u] =
      val s [a0, a1, a2, a3] + (s0.get s * m0.get s + B * (s1.get s * m1.get s + B * (s2.get s * m2.get s + B * (s3.get s * m3.get s)))) ∧
    Wd (exec (rowI s0 s1 s2 s3 m0 m1 m2 m3 a0 a1 a2 a3 t u) s) [a0, a1, a2, a3, u] ∧
    Same [.AX, .DX, a0, a1, a2, a3, t, u] s (exec (rowI s0 s1 s2 s3 m0 m1 m2 m3 a0 a1 a2 a3 t u) s) := by
  simp only [List.mem_cons, List.not_mem_nil, or_false, forall_eq_or_imp, forall_eq] at hb ha
  obtain ⟨b0, b1, b2, b3, c0, c1, c2, c3⟩ := hb
  obtain ⟨u0, u1, u2, u3, v0, v1, v2, v3⟩ := ha
  have w0 := hw.head
  have w1 := hw.tail.head
  have w2 := hw.tail.tail.head
  have w3 := hw.tail.tail.tail.head
  obtain ⟨h1, h2, h3⟩ := rowP_spec s0 s1 s2 m0 m1 m2 a0 a1 a2 t s
    (by simp only [List.mem_cons, List.not_mem_nil, or_false, forall_eq_or_imp, forall_eq]; exact ⟨b0, b1, b2, c0, c1, c2⟩)
    (.cons w0 (.cons w1 (.cons w2 .nil)))
    (by simp only [List.mem_cons, List.not_mem_nil, or_false, forall_eq_or_imp, forall_eq]; exact ⟨u0, u1, u2, v0, v1, v2⟩)
    (hd.sublist (by sub))
  have hd' := hd
  regs hd' hk
  have hd2' := hd2
  regs hd2' hk2
  simp only [rowI, exec_append]
  generalize exec (rowP s0 s1 s2 m0 m1 m2 a0 a1 a2 t) s = t1 at *
  have e3 : s3.get t1 = s3.get s := h3.get u3
  have f3 : m3.get t1 = m3.get s := h3.get v3
  have x3 : t1.r a3 = s.r a3 := h3.r (by far hd' hk)
  have d := h2.tail.tail.tail.head
  obtain ⟨i1, i2, -, i3⟩ := mac_spec s3 m3 a3 t u t1 (e3 ▸ b3) (f3 ▸ c3) (x3 ▸ w3) d (hd.sublist (by sub)) (hd2.sublist (by sub)) (v3.mono (by incl))
  generalize exec (mac s3 m3 a3 t u) t1 = t2 at *
  rw [e3, f3, x3] at i1 i2
  have g0 : t2.r a0 = t1.r a0 := i3.r (by far hd2' hk2)
  have g1 : t2.r a1 = t1.r a1 := i3.r (by far hd2' hk2)
  have g2 : t2.r a2 = t1.r a2 := i3.r (by far hd2' hk2)
  refine ⟨?_, ?_, h3.trans i3 (by incl) (by incl)⟩
  · simp only [val] at h1
    simp only [val, g0, g1, g2, i1, i2]
    have A := Nat.mod_add_div (s.r a3 + t1.r t + s3.get s * m3.get s) B
    linear_combination h1 + B ^ 3 * A
  · refine .cons ?_ (.cons ?_ (.cons ?_ (.cons ?_ (.cons ?_ .nil))))
    · rw [g0]; exact h2.head
    · rw [g1]; exact h2.tail.head
    · rw [g2]; exact h2.tail.tail.head
    · rw [i1]; exact mod_lt_B _
    · rw [i2]; exact div_mul_lt' w3 d b3 c3

/-- a later row of the interleaved product: `(a0, …, a5) += x*y` -/
def rowE (s0 s1 s2 s3 m0 m1 m2 m3 : Src) (a0 a1 a2 a3 t a4 a5 : Reg) : List Instr :=
  rowP s0 s1 s2 m0 m1 m2 a0 a1 a2 t ++ macEnd s3 m3 a3 t a4 a5

theorem rowE_spec (s0 s1 s2 s3 m0 m1 m2 m3 : Src) (a0 a1 a2 a3 t a4 a5 : Reg) (s : St)
    (hb : ∀ a ∈ [s0, s1, s2, s3, m0, m1, m2, m3], a.get s < B) (hw : Wd s [a0, a1, a2, a3, a4]) (h5 : s.r a5 + 1 < B)
    (ha : ∀ a ∈ [s0, s1, s2, s3, m0, m1, m2, m3], a.avoids [.AX, .DX, a0, a1, a2, t])
    (hd : [.AX, .DX, a0, a1, a2, a3, t, a4, a5].Nodup) :
    val (exec (rowE s0 s1 s2 s3 m0 m1 m2 m3 a0 a1 a2 a3 t a4 a5) s) [a0, a1, a2, a3, a4, a5] =
      val s [a0, a1, a2, a3, a4, a5] + (s0.get s * m0.get s + B * (s1.get s * m1.get s + B * (s2.get s * m2.get s + B * (s3.get s * m3.get s)))) ∧
    Wd (exec (rowE s0 s1 s2 s3 m0 m1 m2 m3 a0 a1 a2 a3 t a4 a5) s) [a0, a1, a2, a3, a4] ∧
    (exec (rowE s0 s1 s2 s3 m0 m1 m2 m3 a0 a1 a2 a3 t a4 a5) s).r a5 ≤ s.r a5 + 1 ∧
    Same [.AX, .DX, a0, a1, a2, a3, t, a4, a5] s (exec (rowE s0 s1 s2 s3 m0 m1 m2 m3 a0 a1 a2 a3 t a4 a5) s) := by
  simp only [List.mem_cons, List.not_mem_nil, or_false, forall_eq_or_imp, forall_eq] at hb ha
  obtain ⟨b0, b1, b2, b3, c0, c1, c2, c3⟩ := hb
  obtain ⟨u0, u1, u2, u3, v0, v1, v2, v3⟩ := ha
  have w0 := hw.head
  have w1 := hw.tail.head
  have w2 := hw.tail.tail.head
  have w3 := hw.tail.tail.tail.head
  have w4 := hw.tail.tail.tail.tail.head
  obtain ⟨h1, h2, h3⟩ := rowP_spec s0 s1 s2 m0 m1 m2 a0 a1 a2 t s
    (by simp only [List.mem_cons, List.not_mem_nil, or_false, forall_eq_or_imp, forall_eq]; exact ⟨b0, b1, b2, c0, c1, c2⟩)
    (.cons w0 (.cons w1 (.cons w2 .nil)))
    (by simp only [List.mem_cons, List.not_mem_nil, or_false, forall_eq_or_imp, forall_eq]; exact ⟨u0, u1, u2, v0, v1, v2⟩)
    (hd.sublist (by sub))
  have hd' := hd
  regs hd' hk
  simp only [rowE, exec_append]
  generalize exec (rowP s0 s1 s2 m0 m1 m2 a0 a1 a2 t) s = t1 at *
  have e3 : s3.get t1 = s3.get s := h3.get u3
  have f3 : m3.get t1 = m3.get s := h3.get v3
  have x3 : t1.r a3 = s.r a3 := h3.r (by far hd' hk)
  have x4 : t1.r a4 = s.r a4 := h3.r (by far hd' hk)
  have x5 : t1.r a5 = s.r a5 := h3.r (by far hd' hk)
  have d := h2.tail.tail.tail.head
  obtain ⟨i1, i2, i4, i3⟩ := macEnd_spec s3 m3 a3 t a4 a5 t1 (e3 ▸ b3) (f3 ▸ c3) (x3 ▸ w3) d (x4 ▸ w4) (hd.sublist (by sub)) (v3.mono (by incl))
  generalize exec (macEnd s3 m3 a3 t a4 a5) t1 = t2 at *
  rw [e3, f3, x3] at i1
  rw [e3, f3, x3, x4] at i2
  rw [e3, f3, x3, x4, x5] at i4
  have g0 : t2.r a0 = t1.r a0 := i3.r (by far hd' hk)
  have g1 : t2.r a1 = t1.r a1 := i3.r (by far hd' hk)
  have g2 : t2.r a2 = t1.r a2 := i3.r (by far hd' hk)
  have q := div_mul_lt' w3 d b3 c3
  have A := Nat.mod_add_div (s.r a3 + t1.r t + s3.get s * m3.get s) B
  have A4 := Nat.mod_add_div (s.r a4 + (s.r a3 + t1.r t + s3.get s * m3.get s) / B) B
  have q4 : (s.r a4 + (s.r a3 + t1.r t + s3.get s * m3.get s) / B) / B ≤ 1 := by
    generalize (s.r a3 + t1.r t + s3.get s * m3.get s) / B = z at *
    clear A A4 h1 i4 i2
    simp only [B] at *
    omega
  rw [Nat.mod_eq_of_lt (by omega)] at i4
  refine ⟨?_, ?_, by omega, h3.trans i3 (by incl) (by incl)⟩
  · simp only [val] at h1
    simp only [val, g0, g1, g2, i1, i2, i4]
    linear_combination h1 + B ^ 3 * A + B ^ 4 * A4
  · refine .cons ?_ (.cons ?_ (.cons ?_ (.cons ?_ (.cons ?_ .nil))))
    · rw [g0]; exact h2.head
    · rw [g1]; exact h2.tail.head
    · rw [g2]; exact h2.tail.tail.head
    · rw [i1]; exact mod_lt_B _
    · rw [i2]; exact mod_lt_B _

end Verif.Sm2.Asm
