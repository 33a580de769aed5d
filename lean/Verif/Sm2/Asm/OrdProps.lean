import Verif.Sm2.Asm.OrdSqr
import Mathlib.Tactic.NormNum
import Mathlib.Data.Int.ModEq
import Mathlib.RingTheory.Coprime.Lemmas
/-!
C131: the order-field routines of the amd64 assembly, `sm2p256OrdMul` and `sm2p256OrdSqr`, and `Inverse`, which is built on them.
-/
namespace Verif.Sm2.Asm

/-! ### multiplication -/

theorem ordK_lt (T : Nat) : ordK T < B := Nat.mod_lt _ (by decide)

/-- the accumulator after the four rounds of `sm2p256OrdMul` -/
def ordAcc (x y : Nat) : Nat := ordStep (ordStep (ordStep (ordStep (x * limb y 0) + x * limb y 1) + x * limb y 2) + x * limb y 3)

theorem ordMulT_acc (x y : Nat) : ordMulT x y = condSubQ (ordAcc x y) := rfl

theorem limbs_sumQ {y : Nat} (hy : y < B ^ 4) : limb y 0 + B * (limb y 1 + B * (limb y 2 + B * limb y 3)) = y := by
  simp only [limb, B] at *
  omega

theorem ordAcc_spec (x y : Nat) (hy : y < B ^ 4) : ∃ K, K < B ^ 4 ∧ ordAcc x y * B ^ 4 = x * y + K * Q := by
  refine ⟨ordK (x * limb y 0) + B * (ordK (ordStep (x * limb y 0) + x * limb y 1) +
    B * (ordK (ordStep (ordStep (x * limb y 0) + x * limb y 1) + x * limb y 2) +
    B * ordK (ordStep (ordStep (ordStep (x * limb y 0) + x * limb y 1) + x * limb y 2) + x * limb y 3))), ?_, ?_⟩
  · have h0 := ordK_lt (x * limb y 0)
    have h1 := ordK_lt (ordStep (x * limb y 0) + x * limb y 1)
    have h2 := ordK_lt (ordStep (ordStep (x * limb y 0) + x * limb y 1) + x * limb y 2)
    have h3 := ordK_lt (ordStep (ordStep (ordStep (x * limb y 0) + x * limb y 1) + x * limb y 2) + x * limb y 3)
    simp only [B] at *
    omega
  · have e := limbs_sumQ hy
    unfold ordAcc
    have s0 := ordStep_mul (x * limb y 0)
    generalize ordStep (x * limb y 0) = T0 at *
    have s1 := ordStep_mul (T0 + x * limb y 1)
    generalize ordStep (T0 + x * limb y 1) = T1 at *
    have s2 := ordStep_mul (T1 + x * limb y 2)
    generalize ordStep (T1 + x * limb y 2) = T2 at *
    have s3 := ordStep_mul (T2 + x * limb y 3)
    generalize ordStep (T2 + x * limb y 3) = T3 at *
    have e' : x * y = x * limb y 0 + B * (x * limb y 1 + B * (x * limb y 2 + B * (x * limb y 3))) := by
      conv_lhs => rw [← e]
      ring
    rw [e']
    generalize Q = q at *
    generalize B = b at *
    linear_combination b ^ 3 * s3 + b ^ 2 * s2 + b * s1 + s0

theorem Q_pos : 0 < Q := by decide +kernel
theorem Q_lt : Q < B ^ 4 := by decide +kernel

theorem condSubQ_spec {T : Nat} (hT : T < B ^ 4 + Q) : condSubQ T ≡ T [MOD Q] ∧ condSubQ T < B ^ 4 ∧ (T < 2 * Q → condSubQ T < Q) := by
  have hq := Q_lt
  unfold condSubQ
  split
  · exact ⟨rfl, by omega, fun _ => by assumption⟩
  · rename_i h
    rw [Nat.mod_eq_of_lt (by omega)]
    refine ⟨?_, by omega, fun _ => by omega⟩
    have : T = T - Q + Q := by omega
    conv_rhs => rw [this]
    simp [Nat.ModEq]

theorem acc_bound {T x y K : Nat} (hx : x < B ^ 4) (hK : K < B ^ 4) (h : T * B ^ 4 = x * y + K * Q) : T < y + Q := by
  have hq := Q_pos
  have h1 : x * y ≤ B ^ 4 * y := Nat.mul_le_mul_right _ hx.le
  have h2 : K * Q < B ^ 4 * Q := Nat.mul_lt_mul_of_pos_right hK hq
  have h3 : T * B ^ 4 < (y + Q) * B ^ 4 := by
    rw [h, Nat.add_mul]
    nlinarith
  exact Nat.lt_of_mul_lt_mul_right h3

/-- the Montgomery product of `sm2p256OrdMul` -/
theorem ordMulT_spec (x y : Nat) (hx : x < B ^ 4) (hy : y < B ^ 4) :
    ordMulT x y * B ^ 4 ≡ x * y [MOD Q] ∧ ordMulT x y < B ^ 4 ∧ (x ≤ Q ∨ y ≤ Q → ordMulT x y < Q) := by
  obtain ⟨K, hK, h⟩ := ordAcc_spec x y hy
  rw [ordMulT_acc]
  have b1 := acc_bound hx hK h
  have b2 := acc_bound hy hK (by rw [h, Nat.mul_comm x y])
  obtain ⟨c1, c2, c3⟩ := condSubQ_spec (T := ordAcc x y) (by omega)
  refine ⟨?_, c2, fun ho => c3 (by omega)⟩
  have := c1.mul_right (B ^ 4)
  rw [h] at this
  refine this.trans ?_
  simp [Nat.ModEq]

/-! ### squaring -/

/-- the sum that the third word of the accumulator receives in a reduction step: the word itself, plus the carry of the second word, minus the quotient digit.
It must fit a word, since its carry or borrow is not propagated (the two instructions that did are commented out in the source). -/
def third (T : Nat) : Int :=
  (T / B ^ 2 % B : Nat) + (((T / B % B + (T % B + ord0 * ordK T) / B + ord1 * ordK T) / B : Nat) : Int) - (ordK T : Int)

/-- the carry (or borrow) out of the third word that the step loses -/
def lost (T : Nat) : Int := third T / (B : Int)

theorem k_small {k b : Nat} (hk : k < B) (hb : b = 0 ∨ (b = 1 ∧ 0 < k * 4294967296 % B)) :
    (k + B - (k / 4294967296 + b)) % B = k - (k / 4294967296 + b) ∧ k / 4294967296 + b ≤ k := by
  simp only [B] at *
  omega

theorem sq_arith {k a0 a1 a2 a3 t v : Nat} (hk : k < B) (h2 : a2 < B) (h3 : a3 < B) (hv : v < B * B)
    (ht : t * B = a0 + ord0 * k) (hv' : v = a1 + t + ord1 * k) :
    ((v % B + B * ((a2 + v / B + B - k) % B + B * ((a3 + B - k * 4294967296 % B) % B + B * ((k + B - (k / 4294967296 + (if a3 < k * 4294967296 % B then 1 else 0))) % B))) : Nat) : Int) * B =
      ((a0 + B * (a1 + B * (a2 + B * (a3 + B * 0))) : Nat) : Int) + k * Q - ((a2 : Int) + ((v / B : Nat) : Int) - k) / (B : Int) * B ^ 3 := by
  have hs : k * 4294967296 % B + B * (k / 4294967296) = k * 4294967296 := by simp only [B] at *; omega
  have hl : k * 4294967296 % B < B := mod_lt_B _
  have hvd : v / B < B := Nat.div_lt_of_lt_mul hv
  have hvm := Nat.mod_add_div v B
  have e2 : (((a2 + v / B + B - k) % B : Nat) : Int) = (a2 : Int) + ((v / B : Nat) : Int) - k - ((a2 : Int) + ((v / B : Nat) : Int) - k) / (B : Int) * B := by
    clear hs hl ht hv' hvm
    generalize v / B = h at *
    simp only [B] at *
    omega
  have e3 : ((((a3 + B - k * 4294967296 % B) % B + B * ((k + B - (k / 4294967296 + (if a3 < k * 4294967296 % B then 1 else 0))) % B) : Nat)) : Int) =
      (a3 : Int) + k * B - k * 4294967296 := by
    obtain ⟨f1, f2⟩ := k_small (b := if a3 < k * 4294967296 % B then 1 else 0) hk (by split <;> omega)
    rw [f1]
    clear f1 e2 hvm hvd ht hv' hv
    generalize k * 4294967296 % B = l at *
    generalize k / 4294967296 = m at *
    simp only [B] at *
    split <;> rename_i hc <;> simp only [hc, if_true, if_false] at f2 <;> omega
  have hq : (Q : Int) = (ord0 : Nat) + (B : Nat) * (ord1 : Nat) - (B : Nat) ^ 2 + (B : Nat) ^ 4 - 4294967296 * (B : Nat) ^ 3 := by decide +kernel
  have hti : (t : Int) * (B : Nat) = a0 + (ord0 : Nat) * k := by exact_mod_cast ht
  have hvi : (v : Int) = a1 + t + (ord1 : Nat) * k := by exact_mod_cast hv'
  have hvmi : ((v % B : Nat) : Int) + ((B : Nat) : Int) * ((v / B : Nat) : Int) = v := by exact_mod_cast hvm
  clear hs hl hvd hvm ht hv' hk h2 h3 hv
  generalize (a3 + B - k * 4294967296 % B) % B = m3 at *
  generalize (k + B - (k / 4294967296 + (if a3 < k * 4294967296 % B then 1 else 0))) % B = m4 at *
  generalize (a2 + v / B + B - k) % B = m2 at *
  generalize v % B = vm at *
  generalize v / B = vd at *
  generalize ((a2 : Int) + (vd : Int) - k) / (B : Int) = c at *
  rw [hq]
  generalize ord0 = o0 at *
  generalize ord1 = o1 at *
  generalize B = b at *
  simp only [Nat.cast_add, Nat.cast_mul, Nat.cast_zero] at e3 ⊢
  linear_combination (b : Int) ^ 2 * e2 + (b : Int) ^ 3 * e3 + b * hvmi + b * hvi + hti

theorem sqStep_spec (T : Nat) (hT : T < B ^ 4) : (sqStep T : Int) * B = T + ordK T * Q - lost T * B ^ 3 := by
  have hk := ordK_lt T
  have h0 : T % B < B := mod_lt_B _
  have h1 : T / B % B < B := mod_lt_B _
  have h2 : T / B ^ 2 % B < B := mod_lt_B _
  have h3 : T / B ^ 3 % B < B := mod_lt_B _
  have hs : T % B + B * (T / B % B + B * (T / B ^ 2 % B + B * (T / B ^ 3 % B + B * 0))) = T := by
    clear hk h0 h1 h2 h3
    simp only [B] at *
    omega
  have hex : (T % B + ord0 * ordK T) % B = 0 := by
    have := mont_exact B ordK0 ord0 0 (T % B) (by decide +kernel)
    rw [Nat.mod_mod, Nat.mul_zero, Nat.add_zero, Nat.mul_comm _ ord0] at this
    exact this
  have ht : (T % B + ord0 * ordK T) / B * B = T % B + ord0 * ordK T := Nat.div_mul_cancel (Nat.dvd_of_mod_eq_zero hex)
  have ho0 : ord0 < B := by decide
  have ho1 : ord1 < B := by decide
  have htl : (T % B + ord0 * ordK T) / B < B := div_mul_lt h0 ho0 hk
  have hvl : T / B % B + (T % B + ord0 * ordK T) / B + ord1 * ordK T < B * B := by
    have := mul_bound ho1 hk
    have e : (B - 1) * (B - 1) + 2 * (B - 1) < B * B := by decide
    omega
  have := sq_arith (k := ordK T) (a0 := T % B) (a1 := T / B % B) (a2 := T / B ^ 2 % B) (a3 := T / B ^ 3 % B) hk h2 h3 hvl ht rfl
  rw [hs] at this
  exact this

theorem sqStep_lt (T : Nat) : sqStep T < B ^ 4 := by
  unfold sqStep sqRed
  have a := mod_lt_B (T / B % B + (T % B + ord0 * (T % B * ordK0 % B)) / B + ord1 * (T % B * ordK0 % B))
  generalize (T / B % B + (T % B + ord0 * (T % B * ordK0 % B)) / B + ord1 * (T % B * ordK0 % B)) % B = p at *
  have b := mod_lt_B (T / B ^ 2 % B + (T / B % B + (T % B + ord0 * (T % B * ordK0 % B)) / B + ord1 * (T % B * ordK0 % B)) / B + B - T % B * ordK0 % B)
  generalize (T / B ^ 2 % B + (T / B % B + (T % B + ord0 * (T % B * ordK0 % B)) / B + ord1 * (T % B * ordK0 % B)) / B + B - T % B * ordK0 % B) % B = q at *
  have c := mod_lt_B (T / B ^ 3 % B + B - T % B * ordK0 % B * 4294967296 % B)
  generalize (T / B ^ 3 % B + B - T % B * ordK0 % B * 4294967296 % B) % B = r at *
  generalize hs : (T % B * ordK0 % B + B - (T % B * ordK0 % B / 4294967296 + (if T / B ^ 3 % B < T % B * ordK0 % B * 4294967296 % B then 1 else 0))) % B = t
  have d : t < B := by rw [← hs]; exact mod_lt_B _
  clear hs
  simp only [B] at *
  omega

theorem third_range (T : Nat) : -(B : Int) < third T ∧ third T < 2 * B := by
  have hk := ordK_lt T
  have h0 : T % B < B := mod_lt_B _
  have h1 : T / B % B < B := mod_lt_B _
  have h2 : T / B ^ 2 % B < B := mod_lt_B _
  have ho0 : ord0 < B := by decide
  have ho1 : ord1 < B := by decide
  have htl : (T % B + ord0 * ordK T) / B < B := div_mul_lt h0 ho0 hk
  have hvl : T / B % B + (T % B + ord0 * ordK T) / B + ord1 * ordK T < B * B := by
    have := mul_bound ho1 hk
    have e : (B - 1) * (B - 1) + 2 * (B - 1) < B * B := by decide
    omega
  have hv := Nat.div_lt_of_lt_mul hvl
  unfold third
  generalize (T / B % B + (T % B + ord0 * ordK T) / B + ord1 * ordK T) / B = h at *
  generalize T / B ^ 2 % B = a at *
  omega

theorem lost_range (T : Nat) : lost T = -1 ∨ lost T = 0 ∨ lost T = 1 := by
  have := third_range T
  unfold lost
  generalize third T = t at *
  simp only [B] at *
  omega

/-- a carry is lost exactly if the sum does not fit the word -/
theorem lost_iff (T : Nat) : lost T = 0 ↔ 0 ≤ third T ∧ third T < B := by
  have := third_range T
  unfold lost
  generalize third T = t at *
  simp only [B] at *
  omega

/-- the carries lost by the four steps, as one number -/
def lostSum (T : Nat) : Int :=
  lost T + B * (lost (sqStep T) + B * (lost (sqStep (sqStep T)) + B * lost (sqStep (sqStep (sqStep T)))))

/-- the quotient digits of the four steps, as one number -/
def sqK (T : Nat) : Nat := ordK T + B * (ordK (sqStep T) + B * (ordK (sqStep (sqStep T)) + B * ordK (sqStep (sqStep (sqStep T)))))

theorem sqStep4 (T : Nat) (hT : T < B ^ 4) :
    (sqStep (sqStep (sqStep (sqStep T))) : Int) * B ^ 4 = T + sqK T * Q - B ^ 3 * lostSum T := by
  unfold sqK lostSum
  have s0 := sqStep_spec T hT
  have w0 := sqStep_lt T
  generalize sqStep T = T0 at *
  have s1 := sqStep_spec T0 w0
  have w1 := sqStep_lt T0
  generalize sqStep T0 = T1 at *
  have s2 := sqStep_spec T1 w1
  have w2 := sqStep_lt T1
  generalize sqStep T1 = T2 at *
  have s3 := sqStep_spec T2 w2
  generalize sqStep T2 = T3 at *
  generalize Q = q at *
  generalize B = b at *
  simp only [Nat.cast_add, Nat.cast_mul]
  linear_combination (b : Int) ^ 3 * s3 + (b : Int) ^ 2 * s2 + b * s1 + s0

/-- what one squaring stores, exactly: `x² - 2^192·(lost carries)`, divided by `2^256` -/
theorem ordSqrT_spec (x : Nat) (hx : x < Q) :
    (ordSqrT x : Int) * B ^ 4 ≡ x * x - B ^ 3 * lostSum (x * x % B ^ 4) [ZMOD Q] ∧ ordSqrT x < B ^ 4 := by
  have hT : x * x % B ^ 4 < B ^ 4 := Nat.mod_lt _ (by decide)
  have h4 := sqStep4 _ hT
  have hl : sqStep (sqStep (sqStep (sqStep (x * x % B ^ 4)))) < B ^ 4 := sqStep_lt _
  have hm := Nat.mod_add_div (x * x) (B ^ 4)
  have hh : x * x / B ^ 4 < Q := by
    have := Q_lt
    apply Nat.div_lt_of_lt_mul
    calc x * x ≤ B ^ 4 * x := Nat.mul_le_mul_right _ (by omega)
      _ < B ^ 4 * Q := Nat.mul_lt_mul_of_pos_left hx (by decide)
  unfold ordSqrT
  obtain ⟨c1, c2, -⟩ := condSubQ_spec (T := sqStep (sqStep (sqStep (sqStep (x * x % B ^ 4)))) + x * x / B ^ 4) (by omega)
  refine ⟨?_, c2⟩
  have c1' := ((Int.natCast_modEq_iff).2 c1).mul_right ((B : Int) ^ 4)
  refine c1'.trans ?_
  have hmi : ((x * x % B ^ 4 : Nat) : Int) + (B : Int) ^ 4 * ((x * x / B ^ 4 : Nat) : Int) = (x : Int) * x := by exact_mod_cast hm
  have e : (((sqStep (sqStep (sqStep (sqStep (x * x % B ^ 4)))) + x * x / B ^ 4 : Nat)) : Int) * B ^ 4 =
      x * x - B ^ 3 * lostSum (x * x % B ^ 4) + Q * sqK (x * x % B ^ 4) := by
    rw [Nat.cast_add]
    linear_combination h4 + hmi
  rw [e]
  exact Int.modEq_iff_dvd.2 ⟨-(sqK (x * x % B ^ 4)), by ring⟩

theorem lostSum_zero (T : Nat) : lostSum T = 0 ↔ lost T = 0 ∧ lost (sqStep T) = 0 ∧ lost (sqStep (sqStep T)) = 0 ∧ lost (sqStep (sqStep (sqStep T))) = 0 := by
  have h0 := lost_range T
  have h1 := lost_range (sqStep T)
  have h2 := lost_range (sqStep (sqStep T))
  have h3 := lost_range (sqStep (sqStep (sqStep T)))
  unfold lostSum
  simp only [B] at *
  omega

theorem lostSum_range (T : Nat) : -(Q : Int) < lostSum T ∧ lostSum T < Q := by
  have h0 := lost_range T
  have h1 := lost_range (sqStep T)
  have h2 := lost_range (sqStep (sqStep T))
  have h3 := lost_range (sqStep (sqStep (sqStep T)))
  have hq : (Q : Int) = 115792089210356248756420345214020892766061623724957744567843809356293439045923 := by decide +kernel
  rw [hq]
  unfold lostSum
  simp only [B] at *
  omega

theorem coprime_BQ : IsCoprime (Q : Int) ((B : Int) ^ 3) := by
  rw [Int.isCoprime_iff_gcd_eq_one]
  decide +kernel

/-- one squaring is right exactly if no step loses a carry -/
theorem ordSqrT_iff (x : Nat) (hx : x < Q) : ordSqrT x * B ^ 4 ≡ x * x [MOD Q] ↔
    lost (x * x % B ^ 4) = 0 ∧ lost (sqStep (x * x % B ^ 4)) = 0 ∧ lost (sqStep (sqStep (x * x % B ^ 4))) = 0 ∧ lost (sqStep (sqStep (sqStep (x * x % B ^ 4)))) = 0 := by
  rw [← lostSum_zero]
  obtain ⟨h, -⟩ := ordSqrT_spec x hx
  have hr := lostSum_range (x * x % B ^ 4)
  generalize lostSum (x * x % B ^ 4) = L at *
  rw [← Int.natCast_modEq_iff]
  push_cast
  constructor
  · intro k
    have h1 : (Q : Int) ∣ B ^ 3 * L := by
      have := Int.modEq_iff_dvd.1 (h.symm.trans k)
      have e : (x : Int) * x - (x * x - B ^ 3 * L) = B ^ 3 * L := by ring
      rwa [e] at this
    have h2 := coprime_BQ.dvd_of_dvd_mul_left h1
    exact Int.eq_zero_of_abs_lt_dvd h2 (abs_lt.2 hr)
  · intro k
    rw [k] at h
    simpa using h

end Verif.Sm2.Asm
