import Verif.Sm2.Amd64.Recode
import Verif.Sm2.Prime
/-!
What the assembly point routines are assumed to do (`LawfulAsm`): *incomplete* addition - correct for
two distinct nonzero points, the point at infinity (and the flag) for two equal points, nothing
promised when an operand is infinity.  These laws are proved for the formulas of the assembly source
in `Amd64/Jacobian.lean`.
-/
namespace Verif.Sm2.Amd64
open Verif Verif.Sm2

structure LawfulAsm (a : Asm) (G : Type) [AddCommGroup G] where
  g : G
  enc : G → Coord
  Rep : a.J → G → Prop
  RepA : a.A → G → Prop
  order : ∀ Q : G, N • Q = 0
  g_ne : g ≠ 0
  enc_zero : enc 0 = (0, 0)
  enc_inj : Function.Injective enc
  enc_lt : ∀ Q, (enc Q).1 < P ∧ (enc Q).2 < P
  add_ne : ∀ p p' Q Q', Rep p Q → Rep p' Q' → Q ≠ 0 → Q' ≠ 0 → Q ≠ Q' →
    Rep (a.add p p').1 (Q + Q') ∧ (a.add p p').2 = false
  add_eq : ∀ p p' Q, Rep p Q → Rep p' Q → Q ≠ 0 → Rep (a.add p p').1 0 ∧ (a.add p p').2 = true
  dbl : ∀ p Q, Rep p Q → Rep (a.dbl p) (Q + Q)
  neg : ∀ p Q, Rep p Q → Rep (a.neg p) (-Q)
  negA : ∀ p Q, RepA p Q → RepA (a.negA p) (-Q)
  negB : ∀ p Q, RepA p Q → RepA (a.negB p) (-Q)
  addA_ne : ∀ p p' Q Q', Rep p Q → RepA p' Q' → Q ≠ 0 → Q ≠ Q' → Rep (a.addA p p') (Q + Q')
  toJ : ∀ p Q, RepA p Q → Rep (a.toJ p) Q
  zeroJ : Rep a.zeroJ 0
  normalize : ∀ p Q, Rep p Q → Q ≠ 0 → RepA (a.normalize p) Q
  ofCoord : ∀ Q, Q ≠ 0 → Rep (a.ofCoord (enc Q).1 (enc Q).2) Q
  coord : ∀ p Q, Rep p Q → a.toCoord p = enc Q
  coord_zeroA : a.toCoord (a.toJ a.zeroA) = (0, 0)
  base : Rep a.basePoint g

namespace LawfulAsm
variable {a : Asm} {G : Type} [AddCommGroup G] (L : LawfulAsm a G)
include L

theorem zsmul_eq_zero {Q : G} (hQ : Q ≠ 0) (m : Int) : m • Q = 0 ↔ (N : Int) ∣ m := by
  constructor
  · intro h
    by_contra hn
    apply hQ
    have hcop : Int.gcd m N = 1 := by
      rw [Int.gcd_comm, Int.gcd, Int.natAbs_natCast]
      exact (Nat.Prime.coprime_iff_not_dvd N_prime).2 (by rwa [← Int.natCast_dvd])
    have hb := Int.gcd_eq_gcd_ab m N
    rw [hcop] at hb
    have : ((1 : Nat) : Int) • Q = 0 := by
      rw [hb, add_zsmul, mul_comm, mul_zsmul, h, zsmul_zero, zero_add, mul_comm, mul_zsmul,
        natCast_zsmul, L.order, zsmul_zero]
    simpa using this
  · rintro ⟨q, rfl⟩
    rw [mul_comm, mul_zsmul, natCast_zsmul, L.order, zsmul_zero]

theorem zsmul_inj {Q : G} (hQ : Q ≠ 0) (m m' : Int) : m • Q = m' • Q ↔ (N : Int) ∣ m - m' := by
  rw [← L.zsmul_eq_zero hQ, sub_zsmul, ← sub_eq_add_neg, sub_eq_zero]

theorem not_dvd_small {m : Int} (h0 : m ≠ 0) (h1 : -(N : Int) < m) (h2 : m < N) : ¬ (N : Int) ∣ m := by
  rintro ⟨q, rfl⟩
  have hN : (0 : Int) < N := by have := N_prime.pos; omega
  have q1 : q < 1 := by
    by_contra hc
    have : (N : Int) * 1 ≤ N * q := Int.mul_le_mul_of_nonneg_left (by omega) hN.le
    omega
  have q2 : -1 < q := by
    by_contra hc
    have : (N : Int) * q ≤ N * (-1) := Int.mul_le_mul_of_nonneg_left (by omega) hN.le
    omega
  have : q = 0 := by omega
  subst this
  simp at h0

theorem dblN (n : Nat) (p : a.J) (Q : G) (h : L.Rep p Q) : L.Rep (Amd64.dblN a n p) ((2 ^ n : Int) • Q) := by
  induction n generalizing p Q with
  | zero => simpa [Amd64.dblN] using h
  | succ n ih =>
    rw [Amd64.dblN]
    have := ih _ _ (L.dbl p Q h)
    rwa [← two_zsmul, ← mul_zsmul, ← pow_succ] at this

/-! ### tables -/
theorem rowBase_rep (base : a.J) (Q : G) (hQ : Q ≠ 0) (h : L.Rep base Q) (j : Nat) (hj : j < 64) :
    L.Rep (rowBase a base j) (((j : Int) + 1) • Q) := by
  induction j with
  | zero => simpa [rowBase] using h
  | succ j ih =>
    cases j with
    | zero =>
      have := L.dbl base Q h
      rw [← two_zsmul] at this
      exact this
    | succ j =>
      rw [rowBase]
      have hN : (64 : Int) < N := by decide
      have h1 := ih (by omega)
      have := L.add_ne _ _ _ _ h1 h
        (by rw [Ne, L.zsmul_eq_zero hQ]; apply L.not_dvd_small <;> push_cast <;> omega) hQ
        (by
          intro he
          have he' : (((j + 1 : Nat) : Int) + 1) • Q = (1 : Int) • Q := by rw [one_zsmul]; exact he
          rw [L.zsmul_inj hQ] at he'
          revert he'
          apply L.not_dvd_small <;> push_cast <;> omega)
      have h2 := this.1
      rw [show (((j + 1 + 1 : Nat) : Int) + 1) = (((j + 1 : Nat) : Int) + 1) + 1 by push_cast; ring, add_zsmul, one_zsmul]
      exact h2

theorem pow_not_dvd (m i : Nat) (hm : 0 < m) (hm2 : m < N) : ¬ (N : Int) ∣ ((128 ^ i * m : Nat) : Int) := by
  rw [Int.natCast_dvd_natCast, N_prime.dvd_mul]
  rintro (h | h)
  · have := N_prime.dvd_of_dvd_pow h
    have := Nat.le_of_dvd (by decide) this
    have : 128 < N := by decide
    omega
  · have := Nat.le_of_dvd hm h; omega

theorem cell_rep (t2 : a.J) (Q : G) (hQ : Q ≠ 0) (m : Nat) (hm : 0 < m) (hm2 : m < N)
    (h : L.Rep t2 ((m : Int) • Q)) (i : Nat) : L.RepA (cell a t2 i) (((128 ^ i * m : Nat) : Int) • Q) := by
  induction i with
  | zero =>
    have := L.normalize _ _ h (by
      have := L.pow_not_dvd m 0 hm hm2
      rw [Ne, L.zsmul_eq_zero hQ]; simpa using this)
    simpa [cell] using this
  | succ i ih =>
    rw [cell]
    have h1 := L.dblN 7 _ _ (L.toJ _ _ ih)
    rw [← mul_zsmul] at h1
    have e : (2 ^ 7 : Int) * ((128 ^ i * m : Nat) : Int) = ((128 ^ (i + 1) * m : Nat) : Int) := by
      push_cast; ring
    rw [e] at h1
    exact L.normalize _ _ h1 (by
      rw [Ne, L.zsmul_eq_zero hQ]; exact L.pow_not_dvd m (i + 1) hm hm2)

theorem buildTable_rep (base : a.J) (Q : G) (hQ : Q ≠ 0) (h : L.Rep base Q) (i j : Nat) (hj : j < 64) :
    L.RepA (buildTable a base i j) (((128 ^ i * (j + 1) : Nat) : Int) • Q) := by
  have hN : 64 < N := by decide
  apply L.cell_rep _ Q hQ (j + 1) (by omega) (by omega)
  exact_mod_cast L.rowBase_rep base Q hQ h j hj

/-! ### fixed-base (table) multiplication -/

omit L in
theorem rest_bounds (k i : Nat) :
    -((128 ^ i : Nat) : Int) ≤ 2 * ((k : Int) - ((128 ^ i : Nat) : Int) * (rest 7 k i : Int)) ∧
    2 * ((k : Int) - ((128 ^ i : Nat) : Int) * (rest 7 k i : Int)) < ((128 ^ i : Nat) : Int) := by
  have e : (2 : Nat) ^ (7 * i) = 128 ^ i := by rw [pow_mul]; norm_num
  have hm : 0 < 128 ^ i := Nat.pow_pos (by decide)
  have hr : rest 7 k i = (2 * k / 128 ^ i + 1) / 2 := by rw [rest, e]
  have h1 := Nat.div_add_mod (2 * k) (128 ^ i)
  have h2 := Nat.mod_lt (2 * k) hm
  rw [hr]
  generalize 128 ^ i = M at *
  generalize 2 * k / M = q at *
  generalize 2 * k % M = ρ at *
  rcases Nat.even_or_odd' q with ⟨c, rfl | rfl⟩
  · have : (2 * c + 1) / 2 = c := by omega
    rw [this]
    have h3 : M * (2 * c) = 2 * (M * c) := by ring
    rw [h3] at h1
    have h4 : ((M : Int) * (c : Int)) = ((M * c : Nat) : Int) := by push_cast; rfl
    rw [h4]
    omega
  · have : (2 * c + 1 + 1) / 2 = c + 1 := by omega
    rw [this]
    have h3 : M * (2 * c + 1) = 2 * (M * (c + 1)) - M := by
      have : M * (2 * c + 1) + M = 2 * (M * (c + 1)) := by ring
      omega
    have h5 : M ≤ M * (c + 1) := Nat.le_mul_of_pos_right _ (by omega)
    rw [h3] at h1
    have h4 : ((M : Int) * ((c + 1 : Nat) : Int)) = ((M * (c + 1) : Nat) : Int) := by push_cast; rfl
    rw [h4]
    omega

/-- loop invariant before window `i` -/
def PreInv (Q : G) (k i zero : Nat) (p : a.J) : Prop :=
  let S : Int := k - ((128 ^ i : Nat) : Int) * rest 7 k i
  (zero = 0 ∧ S = 0 ∧ p = a.toJ a.zeroA) ∨ (zero ≠ 0 ∧ S ≠ 0 ∧ L.Rep p (S • Q))

theorem signed_entry (neg : a.A → a.A) (hneg : ∀ p Q, L.RepA p Q → L.RepA (neg p) (-Q))
    (tbl : Table a) (Q : G) (i w : Nat)
    (ht : ∀ j < 64, L.RepA (tbl i j) (((128 ^ i * (j + 1) : Nat) : Int) • Q))
    (hw : w < 256) (hs : digit 7 w ≠ 0) :
    let q := selectBase a tbl i (digit 7 w).natAbs
    L.RepA (if (if 128 ≤ w then 1 else 0) = 0 then q else neg q) ((((128 ^ i : Nat) : Int) * digit 7 w) • Q) := by
  intro q
  have hb := digit_bounds 7 w (by simpa using hw)
  norm_num at hb
  have hq : q = tbl i ((digit 7 w).natAbs - 1) := by
    show selectBase _ _ _ _ = _
    rw [selectBase, if_neg (by omega)]
  have h1 := ht ((digit 7 w).natAbs - 1) (by omega)
  rw [show (digit 7 w).natAbs - 1 + 1 = (digit 7 w).natAbs by omega] at h1
  have hsign := digit_sign7 w hw
  by_cases h128 : 128 ≤ w
  · rw [if_neg (by simp [h128]), hq]
    have := hneg _ _ h1
    rw [← neg_zsmul] at this
    rw [if_pos h128] at hsign
    have e : ((128 ^ i : Nat) : Int) * digit 7 w = -((128 ^ i * (digit 7 w).natAbs : Nat) : Int) := by
      conv_lhs => rw [hsign]
      push_cast; ring
    rw [e]; exact this
  · rw [if_pos (by simp [h128]), hq]
    rw [if_neg h128] at hsign
    have e : ((128 ^ i : Nat) : Int) * digit 7 w = ((128 ^ i * (digit 7 w).natAbs : Nat) : Int) := by
      conv_lhs => rw [hsign]
      push_cast; ring
    rw [e]; exact h1

theorem preInv_step (neg : a.A → a.A) (hneg : ∀ p Q, L.RepA p Q → L.RepA (neg p) (-Q)) (tbl : Table a) (Q : G) (hQ : Q ≠ 0) (k i zero : Nat) (p : a.J) (hi : i ≤ 36) (hk : k < N)
    (ht : ∀ j < 64, L.RepA (tbl i j) (((128 ^ i * (j + 1) : Nat) : Int) • Q))
    (hinv : L.PreInv Q k i zero p) (w : Nat) (hw : w = 2 * k / 2 ^ (7 * i) % 256) :
    L.PreInv Q k (i + 1) (zero ||| (digit 7 w).natAbs)
      (addAffineN a neg p (selectBase a tbl i (digit 7 w).natAbs) (if 128 ≤ w then 1 else 0) (digit 7 w).natAbs zero) := by
  have hw256 : w < 256 := by rw [hw]; exact Nat.mod_lt _ (by decide)
  have hstep := rest_step7 k i
  rw [← hw] at hstep
  have hb0 := rest_bounds k i
  have hb1 := rest_bounds k (i + 1)
  have hdb := digit_bounds 7 w (by simpa using hw256)
  norm_num at hdb
  -- S (i+1) = S i + 128^i * d
  have hS : (k : Int) - ((128 ^ (i + 1) : Nat) : Int) * rest 7 k (i + 1) =
      (k - ((128 ^ i : Nat) : Int) * rest 7 k i) + ((128 ^ i : Nat) : Int) * digit 7 w := by
    rw [hstep]; push_cast; ring
  have hmpos : 0 < 128 ^ i := Nat.pow_pos (by decide)
  have hm1 : ((128 ^ (i + 1) : Nat) : Int) = 128 * ((128 ^ i : Nat) : Int) := by push_cast; ring
  have hr37 : i = 36 → rest 7 k (i + 1) = 0 := by
    rintro rfl
    have : N < 2 ^ 256 := by decide
    unfold rest
    have : 2 * k / 2 ^ (7 * (36 + 1)) = 0 := Nat.div_eq_of_lt (by
      have : (2 : Nat) ^ (7 * (36 + 1)) = 8 * 2 ^ 256 := by rw [show 7 * (36 + 1) = 3 + 256 from rfl, pow_add]; rfl
      omega)
    omega
  have hm36 : i = 36 → ((128 ^ i : Nat) : Int) = 2 ^ 252 := by rintro rfl; norm_num
  have hmle : i ≠ 36 → ((128 ^ i : Nat) : Int) ≤ 2 ^ 245 := by
    intro hne
    have : 128 ^ i ≤ 128 ^ 35 := Nat.pow_le_pow_right (by decide) (by omega)
    have e : (128 : Nat) ^ 35 = 2 ^ 245 := by norm_num
    rw [e] at this
    exact_mod_cast this
  unfold PreInv at hinv ⊢
  simp only at hinv ⊢
  rw [hS]
  rw [hS, hm1] at hb1
  set S : Int := k - ((128 ^ i : Nat) : Int) * rest 7 k i with hSdef
  set d := digit 7 w with hd
  set M : Int := ((128 ^ i : Nat) : Int) with hM
  have hMpos : 0 < M := by rw [hM]; exact_mod_cast hmpos
  have hMd : d ≠ 0 → (M ≤ M * d ∨ M * d ≤ -M) := by
    intro h0
    rcases lt_or_gt_of_ne h0 with h | h
    · right
      have : M * d ≤ M * (-1) := Int.mul_le_mul_of_nonneg_left (by omega) hMpos.le
      omega
    · left
      have : M * 1 ≤ M * d := Int.mul_le_mul_of_nonneg_left (by omega) hMpos.le
      omega
  have hent := L.signed_entry neg hneg tbl Q i w ht hw256
  simp only at hent
  rw [← hd, ← hM] at hent
  unfold addAffineN
  simp only
  rcases hinv with ⟨hz, hS0, hp⟩ | ⟨hz, hS0, hp⟩
  · -- nothing added so far
    by_cases hd0 : d = 0
    · left
      refine ⟨by simp [hz, hd0], by rw [hS0, hd0]; simp, ?_⟩
      rw [if_pos hz]
      have hwe : w ≠ 255 := by
        intro h255
        -- k is a multiple of 128^i, so the window is even
        have e : (2 : Nat) ^ (7 * i) = 128 ^ i := by rw [pow_mul]; norm_num
        have hk' : (k : Int) = M * rest 7 k i := by omega
        have hk2 : k = 128 ^ i * rest 7 k i := by rw [hM] at hk'; exact_mod_cast hk'
        rw [h255, e, hk2, show 2 * (128 ^ i * rest 7 k i) = 128 ^ i * (2 * rest 7 k i) by ring,
          Nat.mul_div_cancel_left _ hmpos] at hw
        omega
      have hlt : ¬ 128 ≤ w := by
        intro h
        apply hwe
        rw [hd] at hd0
        unfold digit at hd0
        norm_num [h] at hd0
        omega
      simp [hlt, selectBase, hd0]
    · right
      refine ⟨by rw [hz]; simpa using hd0, ?_, ?_⟩
      · have := hMd hd0; omega
      · rw [if_pos hz, hS0, zero_add]
        exact L.toJ _ _ (hent hd0)
  · by_cases hd0 : d = 0
    · right
      refine ⟨by simpa [hd0] using hz, by rw [hd0]; simpa using hS0, ?_⟩
      rw [if_neg hz, hd0]
      simpa using hp
    · right
      have hcase := hMd hd0
      have hNlit : (N : Int) = 115792089210356248756420345214020892766061623724957744567843809356293439045923 := by
        norm_num [N]
      refine ⟨by
        intro h0
        rw [Nat.or_eq_zero_iff] at h0
        exact hz h0.1, by omega, ?_⟩
      rw [if_neg hz, if_neg (by simpa using hd0)]
      rw [add_zsmul]
      have hSsmall : -(N : Int) < S ∧ S < N := by
        by_cases h36 : i = 36
        · rw [hm36 h36] at hb0; rw [hNlit]; omega
        · have := hmle h36; rw [hNlit]; omega
      apply L.addA_ne _ _ _ _ hp (hent hd0)
      · rw [Ne, L.zsmul_eq_zero hQ]
        exact L.not_dvd_small hS0 hSsmall.1 hSsmall.2
      · rw [Ne, L.zsmul_inj hQ]
        by_cases h36 : i = 36
        · have hMv := hm36 h36
          have hr := hr37 h36
          have hSk : S + M * d = k := by
            rw [← hS, hr]; simp
          rintro ⟨c, hc⟩
          rw [hMv] at hSk hc hb0 hcase
          have hkI : (k : Int) < N := by exact_mod_cast hk
          have hk0 : (0 : Int) ≤ k := by omega
          rw [hNlit] at hc hkI
          have hc1 : c = 0 ∨ c = -1 := by omega
          rcases hc1 with rfl | rfl
          · omega
          · omega
        · have h1 := hmle h36
          have hMd2 : -(64 * M) ≤ M * d ∧ M * d ≤ 64 * M := by
            constructor
            · have : M * (-64) ≤ M * d := Int.mul_le_mul_of_nonneg_left (by omega) hMpos.le
              omega
            · have : M * d ≤ M * 64 := Int.mul_le_mul_of_nonneg_left (by omega) hMpos.le
              omega
          apply L.not_dvd_small
          · omega
          · rw [hNlit]; omega
          · rw [hNlit]; omega

theorem preLoop_inv (tbl : Table a) (Q : G) (hQ : Q ≠ 0) (k : Nat) (hk : k < N)
    (ht : ∀ i < 37, ∀ j < 64, L.RepA (tbl i j) (((128 ^ i * (j + 1) : Nat) : Int) • Q))
    (fuel i zero : Nat) (p : a.J) (hi : 1 ≤ i) (hf : i + fuel = 37) (hinv : L.PreInv Q k i zero p) :
    ∃ z, L.PreInv Q k 37 z (preLoop a tbl (fromBig k) fuel i (7 * i - 1) zero p) := by
  induction fuel generalizing i zero p with
  | zero =>
    have : i = 37 := by omega
    subst this
    exact ⟨zero, hinv⟩
  | succ fuel ih =>
    rw [preLoop]
    have hk256 : k < 2 ^ 256 := by
      have : N < 2 ^ 256 := by decide
      omega
    have hw := window_spec k (7 * i - 1) 8 hk256 (by omega) (by decide)
    have e : k / 2 ^ (7 * i - 1) = 2 * k / 2 ^ (7 * i) := by
      have : 2 ^ (7 * i) = 2 * 2 ^ (7 * i - 1) := by rw [← pow_succ']; congr 1; omega
      rw [this, Nat.mul_div_mul_left _ _ (by decide)]
    rw [e] at hw
    have hwb : (window (fromBig k) (7 * i - 1) (BitVec.ofNat 64 (2 ^ 8 - 1))).toNat < 256 := by
      rw [hw]; exact Nat.mod_lt _ (by decide)
    have hm : (0xff : W64) = BitVec.ofNat 64 (2 ^ 8 - 1) := rfl
    simp only [hm, boothW7_spec _ hwb]
    have := L.preInv_step a.negB L.negB tbl Q hQ k i zero p (by omega) hk (ht i (by omega)) hinv _ hw
    have h2 := ih (i + 1) _ _ (by omega) (by omega) this
    rw [show 7 * (i + 1) - 1 = 7 * i - 1 + 7 by omega] at h2
    exact h2

/-- Table multiplication is exact for every scalar below `N`. -/
theorem preMult_spec (tbl : Table a) (Q : G) (hQ : Q ≠ 0) (k : Nat) (hk : k < N)
    (ht : ∀ i < 37, ∀ j < 64, L.RepA (tbl i j) (((128 ^ i * (j + 1) : Nat) : Int) • Q)) :
    (k = 0 ∧ preMult a tbl (fromBig k) = a.toJ a.zeroA) ∨
    (k ≠ 0 ∧ L.Rep (preMult a tbl (fromBig k)) (k • Q)) := by
  have hw := window0_spec k 8 (by decide)
  have hwb : (((fromBig k).get 0 <<< 1) &&& BitVec.ofNat 64 (2 ^ 8 - 1)).toNat < 256 := by
    rw [hw]; exact Nat.mod_lt _ (by decide)
  have h0 : L.PreInv Q k 0 0 (a.toJ a.zeroA) := by
    left; refine ⟨rfl, ?_, rfl⟩; simp [rest_zero]
  have h1 := L.preInv_step a.negA L.negA tbl Q hQ k 0 0 _ (by omega) hk (ht 0 (by omega)) h0
    (((fromBig k).get 0 <<< 1) &&& BitVec.ofNat 64 (2 ^ 8 - 1)).toNat (by rw [hw]; simp)
  have hm : (0xff : W64) = BitVec.ofNat 64 (2 ^ 8 - 1) := rfl
  have hpm : preMult a tbl (fromBig k) = preLoop a tbl (fromBig k) 36 1 6
      (0 ||| (digit 7 (((fromBig k).get 0 <<< 1) &&& BitVec.ofNat 64 (2 ^ 8 - 1)).toNat).natAbs)
      (addAffineN a a.negA (a.toJ a.zeroA) (selectBase a tbl 0 (digit 7 (((fromBig k).get 0 <<< 1) &&& BitVec.ofNat 64 (2 ^ 8 - 1)).toNat).natAbs)
        (if 128 ≤ (((fromBig k).get 0 <<< 1) &&& BitVec.ofNat 64 (2 ^ 8 - 1)).toNat then 1 else 0)
        (digit 7 (((fromBig k).get 0 <<< 1) &&& BitVec.ofNat 64 (2 ^ 8 - 1)).toNat).natAbs 0) := by
    unfold preMult addAffineN
    simp only [hm, boothW7_spec _ hwb, Nat.zero_or, if_true]
  obtain ⟨z, hz⟩ := L.preLoop_inv tbl Q hQ k hk ht 36 1 _ _ (by omega) (by omega) h1
  rw [show 7 * 1 - 1 = 6 from rfl, ← hpm] at hz
  have hr : rest 7 k 37 = 0 := by
    have : N < 2 ^ 256 := by decide
    unfold rest
    have : 2 * k / 2 ^ (7 * 37) = 0 := Nat.div_eq_of_lt (by
      have : (2 : Nat) ^ (7 * 37) = 8 * 2 ^ 256 := by rw [show 7 * 37 = 3 + 256 from rfl, pow_add]; rfl
      omega)
    omega
  unfold PreInv at hz
  simp only [hr] at hz
  rcases hz with ⟨_, h2, h3⟩ | ⟨_, h2, h3⟩
  · left
    refine ⟨by simpa using h2, h3⟩
  · right
    refine ⟨by simpa using h2, by simpa using h3⟩

end LawfulAsm
end Verif.Sm2.Amd64
