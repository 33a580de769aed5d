import Verif.Sm2.Amd64.Laws
/-!
Variable-base multiplication (`p256ScalarMult`) with the incomplete assembly addition: exact for every
scalar except `N - 6`.
-/
namespace Verif.Sm2.Amd64
open Verif Verif.Sm2
namespace LawfulAsm
variable {a : Asm} {G : Type} [AddCommGroup G] (L : LawfulAsm a G)
include L

theorem small_ne {Q : G} (hQ : Q ≠ 0) (m : Nat) (h0 : 0 < m) (h : m < 64) : (m : Int) • Q ≠ 0 := by
  rw [Ne, L.zsmul_eq_zero hQ]
  have hN : (64 : Int) < N := by decide
  apply L.not_dvd_small <;> omega

theorem addOne {p q : a.J} {Q : G} (hQ : Q ≠ 0) (m : Nat) (h0 : 1 < m) (h : m < 64)
    (hp : L.Rep p ((m : Int) • Q)) (hq : L.Rep q Q) : L.Rep (a.add p q).1 (((m + 1 : Nat) : Int) • Q) := by
  have := (L.add_ne p q _ _ hp hq (L.small_ne hQ m (by omega) h) hQ (by
    intro he
    have he' : (m : Int) • Q = (1 : Int) • Q := by rw [one_zsmul]; exact he
    rw [L.zsmul_inj hQ] at he'
    revert he'
    have hN : (64 : Int) < N := by decide
    apply L.not_dvd_small <;> omega)).1
  push_cast
  rw [add_zsmul, one_zsmul]
  exact this

theorem dblM {p : a.J} {Q : G} (m : Nat) (hp : L.Rep p ((m : Int) • Q)) : L.Rep (a.dbl p) (((2 * m : Nat) : Int) • Q) := by
  have := L.dbl _ _ hp
  rw [← add_zsmul] at this
  rwa [show ((2 * m : Nat) : Int) = (m : Int) + m by push_cast; ring]

/-- the table holds `1·Q .. 16·Q` -/
theorem precomp_rep {p : a.J} {Q : G} (hQ : Q ≠ 0) (hp : L.Rep p Q) (j : Nat) (hj : j ≤ 16) :
    L.Rep (select a (precomp a p) j) ((j : Int) • Q) := by
  have h1 : L.Rep p (((1 : Nat) : Int) • Q) := by simpa using hp
  have h2 := L.dblM 1 h1
  have h4 := L.dblM _ h2
  have h8 := L.dblM _ h4
  have h16 := L.dblM _ h8
  have h3 := L.addOne hQ _ (by decide) (by decide) h2 hp
  have h5 := L.addOne hQ _ (by decide) (by decide) h4 hp
  have h9 := L.addOne hQ _ (by decide) (by decide) h8 hp
  have h6 := L.dblM _ h3
  have h10 := L.dblM _ h5
  have h7 := L.addOne hQ _ (by decide) (by decide) h6 hp
  have h11 := L.addOne hQ _ (by decide) (by decide) h10 hp
  have h12 := L.dblM _ h6
  have h14 := L.dblM _ h7
  have h13 := L.addOne hQ _ (by decide) (by decide) h12 hp
  have h15 := L.addOne hQ _ (by decide) (by decide) h14 hp
  have h0 : L.Rep a.zeroJ (((0 : Nat) : Int) • Q) := by simpa using L.zeroJ
  interval_cases j
  all_goals first | exact h0 | exact h1 | exact h2 | exact h3 | exact h4 | exact h5 | exact h6 | exact h7 | exact h8 | exact h9 | exact h10 | exact h11 | exact h12 | exact h13 | exact h14 | exact h15 | exact h16

theorem smStep_rep (pre : List a.J) (Q : G) (hQ : Q ≠ 0)
    (hpre : ∀ j ≤ 16, L.Rep (select a pre j) ((j : Int) • Q)) (p : a.J) (S : Int) (zr : Nat) (w : W64)
    (hw : w.toNat < 64) (hp : L.Rep p (S • Q)) (hz : zr = 0 → S = 0) (hnz : zr ≠ 0 → ¬ (N : Int) ∣ S)
    (hne : zr ≠ 0 → digit 5 w.toNat ≠ 0 → ¬ (N : Int) ∣ S - digit 5 w.toNat) :
    L.Rep (smStep a pre p zr w).1 ((S + digit 5 w.toNat) • Q) ∧
    (smStep a pre p zr w).2 = zr ||| (digit 5 w.toNat).natAbs := by
  have hb := digit_bounds 5 w.toNat (by simpa using hw)
  norm_num at hb
  unfold smStep
  simp only [boothW5_spec w hw]
  refine ⟨?_, trivial⟩
  have hsign := digit_sign5 w.toNat hw
  have ht0 : L.Rep (if (if 32 ≤ w.toNat then 1 else 0) = 0 then select a pre (digit 5 w.toNat).natAbs
      else a.neg (select a pre (digit 5 w.toNat).natAbs)) (digit 5 w.toNat • Q) := by
    have h1 := hpre (digit 5 w.toNat).natAbs (by omega)
    by_cases h32 : 32 ≤ w.toNat
    · rw [if_neg (by simp [h32])]
      rw [if_pos h32] at hsign
      have := L.neg _ _ h1
      rw [← neg_zsmul, ← hsign] at this
      exact this
    · rw [if_pos (by simp [h32])]
      rw [if_neg h32] at hsign
      rwa [← hsign] at h1
  by_cases hz0 : zr = 0
  · rw [if_pos hz0, hz hz0, zero_add]; exact ht0
  · rw [if_neg hz0]
    by_cases hd : digit 5 w.toNat = 0
    · rw [if_pos (by simp [hd]), hd, add_zero]; exact hp
    · rw [if_neg (by simpa using hd), add_zsmul]
      refine (L.add_ne _ _ _ _ hp ht0 ?_ ?_ ?_).1
      · rw [Ne, L.zsmul_eq_zero hQ]; exact hnz hz0
      · rw [Ne, L.zsmul_eq_zero hQ]
        have hN : (64 : Int) < N := by decide
        apply L.not_dvd_small hd <;> omega
      · rw [Ne, L.zsmul_inj hQ]; exact hne hz0 hd

/-- invariant after window `i` -/
def SmInv (Q : G) (k i zr : Nat) (p : a.J) : Prop :=
  L.Rep p ((rest 5 k i : Int) • Q) ∧ (zr = 0 ↔ rest 5 k i = 0)

omit L in
theorem rest_small (k i : Nat) (hi : 1 ≤ i) (hk : k < N) : (32 * rest 5 k i : Int) ≤ N + 16 := by
  unfold rest
  have h32 : (32 : Nat) ≤ 2 ^ (5 * i) := by
    calc (32:Nat) = 2 ^ 5 := rfl
      _ ≤ 2 ^ (5 * i) := Nat.pow_le_pow_right (by decide) (by omega)
  have : 2 * k / 2 ^ (5 * i) ≤ 2 * k / 32 := Nat.div_le_div_left h32 (by decide)
  omega

theorem dvd_cases {m : Int} (h : (N : Int) ∣ m) (h1 : -(N : Int) < m) (h2 : m < 2 * N) : m = 0 ∨ m = N := by
  by_contra hc
  rw [not_or] at hc
  by_cases hm : m < N
  · exact L.not_dvd_small hc.1 h1 hm h
  · exact L.not_dvd_small (m := m - N) (by omega) (by omega) (by omega) (Int.dvd_sub h (Int.dvd_refl _))

theorem smInv_step (pre : List a.J) (Q : G) (hQ : Q ≠ 0)
    (hpre : ∀ j ≤ 16, L.Rep (select a pre j) ((j : Int) • Q)) (k i zr : Nat) (p : a.J) (hk : k < N)
    (hinv : L.SmInv Q k (i + 1) zr p) (w : W64) (hw : w.toNat = 2 * k / 2 ^ (5 * i) % 64)
    (hgood : i = 0 → k ≠ N - 6) :
    L.SmInv Q k i (smStep a pre (Amd64.dblN a 5 p) zr w).2 (smStep a pre (Amd64.dblN a 5 p) zr w).1 := by
  obtain ⟨hp, hz⟩ := hinv
  have hw64 : w.toNat < 64 := by rw [hw]; exact Nat.mod_lt _ (by decide)
  have hstep := rest_step5 k i
  rw [← hw] at hstep
  have hb := digit_bounds 5 w.toNat (by simpa using hw64)
  norm_num at hb
  have hd := L.dblN 5 _ _ hp
  rw [← mul_zsmul] at hd
  have e : ((2 : Int) ^ 5) = 32 := by norm_num
  rw [e] at hd
  have hsm := rest_small k (i + 1) (by omega) hk
  have hNlit : (N : Int) = 115792089210356248756420345214020892766061623724957744567843809356293439045923 := by
    norm_num [N]
  have hkI : (k : Int) < N := by exact_mod_cast hk
  have h1 := L.smStep_rep pre Q hQ hpre (Amd64.dblN a 5 p) _ zr w hw64 hd
    (by intro h; rw [hz.1 h]; simp)
    (by
      intro h
      have h0 : rest 5 k (i + 1) ≠ 0 := fun h' => h (hz.2 h')
      intro hc
      rcases L.dvd_cases hc (by rw [hNlit]; omega) (by rw [hNlit] at hsm ⊢; omega) with h2 | h2
      · omega
      · rw [hNlit] at h2; omega)
    (by
      intro h hdn
      have h0 : rest 5 k (i + 1) ≠ 0 := fun h' => h (hz.2 h')
      intro hc
      rcases L.dvd_cases hc (by rw [hNlit]; omega) (by rw [hNlit] at hsm ⊢; omega) with h2 | h2
      · omega
      · cases i with
        | zero =>
          rw [rest_zero] at hstep
          have hg := hgood rfl
          have hg' : (k : Int) ≠ N - 6 := by
            have : 6 ≤ N := by decide
            omega
          clear hc h hgood hk hsm hz hd hp hpre
          rw [hNlit] at h2 hg' hkI
          omega
        | succ i =>
          have hsm2 := rest_small k (i + 1) (by omega) hk
          rw [hNlit] at h2 hsm2
          omega)
  unfold SmInv
  refine ⟨?_, ?_⟩
  · rw [hstep]; exact h1.1
  · rw [h1.2, Nat.or_eq_zero_iff, hz]
    omega

theorem smLoop_inv (pre : List a.J) (Q : G) (hQ : Q ≠ 0)
    (hpre : ∀ j ≤ 16, L.Rep (select a pre j) ((j : Int) • Q)) (k : Nat) (hk : k < N) (i zr : Nat) (p : a.J)
    (hi : i ≤ 50) (hinv : L.SmInv Q k (i + 1) zr p) :
    L.SmInv Q k 1 (smLoop a pre (fromBig k) (5 * (i + 1) - 1) p zr).2
      (smLoop a pre (fromBig k) (5 * (i + 1) - 1) p zr).1 := by
  induction i generalizing zr p with
  | zero => rw [smLoop]; exact hinv
  | succ i ih =>
    rw [smLoop, dif_pos (by omega)]
    simp only
    rw [show 5 * (i + 1 + 1) - 1 - 5 = 5 * (i + 1) - 1 by omega]
    have hk256 : k < 2 ^ 256 := by
      have : N < 2 ^ 256 := by decide
      omega
    have hw := window_spec k (5 * (i + 1) - 1) 6 hk256 (by omega) (by decide)
    have e : k / 2 ^ (5 * (i + 1) - 1) = 2 * k / 2 ^ (5 * (i + 1)) := by
      have : 2 ^ (5 * (i + 1)) = 2 * 2 ^ (5 * (i + 1) - 1) := by rw [← pow_succ']; congr 1
      rw [this, Nat.mul_div_mul_left _ _ (by decide)]
    rw [e] at hw
    exact ih _ _ (by omega) (L.smInv_step pre Q hQ hpre k (i + 1) zr p hk hinv _ hw (by omega))

theorem smTop (pre : List a.J) (Q : G) 
    (hpre : ∀ j ≤ 16, L.Rep (select a pre j) ((j : Int) • Q)) (k : Nat) (hk : k < N) (w : W64)
    (hw : w = ((fromBig k).get (254 / 64) >>> (254 % 64)) &&& 0x3f) :
    L.SmInv Q k 51 (boothW5 w).1 (select a pre (boothW5 w).1) := by
  have hk256 : k < 2 ^ 256 := by
    have : N < 2 ^ 256 := by decide
    omega
  have h := window_spec k 254 6 hk256 (by decide) (by decide)
  have hm : (0x3f : W64) = BitVec.ofNat 64 (2 ^ 6 - 1) := rfl
  rw [window, if_neg (by decide), ← hm, ← hw] at h
  have hlt : k / 2 ^ 254 < 4 := Nat.div_lt_of_lt_mul (by
    have : (2 : Nat) ^ 254 * 4 = 2 ^ 256 := by norm_num
    omega)
  rw [Nat.mod_eq_of_lt (by omega)] at h
  have hr : rest 5 k 51 = (k / 2 ^ 254 + 1) / 2 := by
    unfold rest
    have : (2 : Nat) ^ (5 * 51) = 2 * 2 ^ 254 := by rw [← pow_succ']
    rw [this, Nat.mul_div_mul_left _ _ (by decide)]
  have hd : (digit 5 w.toNat).natAbs = rest 5 k 51 := by
    rw [hr, ← h]
    unfold digit
    rw [if_neg (by norm_num; omega)]
    omega
  rw [boothW5_spec w (by omega)]
  simp only [hd]
  refine ⟨?_, Iff.rfl⟩
  apply hpre
  omega

/-- `p256ScalarMult` is exact for every scalar below `N` other than `N - 6`. -/
theorem scalarMultJ_spec (p : a.J) (Q : G) (hQ : Q ≠ 0) (hp : L.Rep p Q) (k : Nat) (hk : k < N) (hk6 : k ≠ N - 6) :
    L.Rep (scalarMultJ a p (fromBig k)) (k • Q) := by
  have hpre := L.precomp_rep hQ hp
  unfold scalarMultJ
  simp only
  have h1 := L.smTop _ Q hpre k hk _ rfl
  have h2 := L.smLoop_inv _ Q hQ hpre k hk 50 _ _ (by decide) h1
  have hw := window0_spec k 6 (by decide)
  have h3 := L.smInv_step _ Q hQ hpre k 0 _ _ hk h2 _ (by rw [hw]; simp) (fun _ => hk6)
  have h4 := h3.1
  rw [rest_zero, natCast_zsmul] at h4
  exact h4

/-- At `N - 6` the last addition adds a point to itself with the incomplete formula and the returned
"equal" flag is dropped: the result is infinity. -/
theorem scalarMultJ_bad (p : a.J) (Q : G) (hQ : Q ≠ 0) (hp : L.Rep p Q) :
    L.Rep (scalarMultJ a p (fromBig (N - 6))) 0 := by
  have hpre := L.precomp_rep hQ hp
  have hk : N - 6 < N := by decide
  unfold scalarMultJ
  simp only
  have h1 := L.smTop _ Q hpre (N - 6) hk _ rfl
  have h2 := L.smLoop_inv _ Q hQ hpre (N - 6) hk 50 _ _ (by decide) h1
  have hw := window0_spec (N - 6) 6 (by decide)
  have hm : (0x3f : W64) = BitVec.ofNat 64 (2 ^ 6 - 1) := rfl
  rw [hm]
  have hwv : (((fromBig (N - 6)).get 0 <<< 1) &&& BitVec.ofNat 64 (2 ^ 6 - 1)).toNat = 58 := by
    rw [hw]; decide +kernel
  have hR : rest 5 (N - 6) 1 = (N - 3) / 32 := by unfold rest; decide +kernel
  rw [show 5 * (50 + 1) - 1 = 254 from rfl] at h2
  obtain ⟨hp2, hz2⟩ := h2
  rw [hR] at hp2 hz2
  have hd := L.dblN 5 _ _ hp2
  rw [← mul_zsmul] at hd
  have e : ((2 : Int) ^ 5 * (((N - 3) / 32 : Nat) : Int)) = N - 3 := by decide +kernel
  rw [e, sub_zsmul, natCast_zsmul, L.order, zero_add] at hd
  unfold smStep
  simp only [boothW5_spec _ (show (((fromBig (N - 6)).get 0 <<< 1) &&& BitVec.ofNat 64 (2 ^ 6 - 1)).toNat < 64 by rw [hwv]; decide)]
  rw [hwv]
  have hdig : (digit 5 58).natAbs = 3 := by decide
  rw [hdig]
  have hz0 : ¬ (smLoop a (precomp a p) (fromBig (N - 6)) 254
      (select a (precomp a p) (boothW5 ((fromBig (N - 6)).get (254 / 64) >>> (254 % 64) &&& BitVec.ofNat 64 (2 ^ 6 - 1))).1)
      (boothW5 ((fromBig (N - 6)).get (254 / 64) >>> (254 % 64) &&& BitVec.ofNat 64 (2 ^ 6 - 1))).1).2 = 0 := by
    rw [← hm, hz2]; decide +kernel
  rw [if_neg hz0, if_neg (by decide), if_neg (by decide)]
  have h3 := L.neg _ _ (hpre 3 (by decide))
  have hne : -((3 : Int) • Q) ≠ 0 := by
    rw [neg_ne_zero]; exact L.small_ne hQ 3 (by decide) (by decide)
  exact (L.add_eq _ _ _ hd h3 hne).1

end LawfulAsm
end Verif.Sm2.Amd64
