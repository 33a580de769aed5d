import Verif.Sm2.Params
import Mathlib.NumberTheory.LucasPrimality
import Mathlib.Tactic.NormNum.Prime
import Mathlib.Algebra.BigOperators.Associated
/-!
The field size `P` and the group order `N` of the SM2 curve are prime: Pratt certificates, checked
by the kernel (the certificates were computed outside Lean; nothing is trusted about them).
-/
namespace Verif.Sm2

/-- Square-and-multiply, least significant bit first, with fuel (evaluated by the kernel). -/
def powModF : Nat → Nat → Nat → Nat → Nat → Nat
  | 0, _, _, _, acc => acc
  | f+1, m, a, e, acc =>
    powModF f m (a * a % m) (e / 2) (if e % 2 = 1 then acc * a % m else acc)

theorem powModF_spec (f m a e acc : Nat) (h : e < 2 ^ f) :
    ((powModF f m a e acc : Nat) : ZMod m) = (acc : ZMod m) * (a : ZMod m) ^ e := by
  induction f generalizing a e acc with
  | zero => simp at h; simp [powModF, h]
  | succ f ih =>
    rw [powModF, ih _ _ _ (by omega)]
    have he : (a : ZMod m) ^ e = (a : ZMod m) ^ (e % 2) * ((a : ZMod m) * a) ^ (e / 2) := by
      rw [← pow_two, ← pow_mul, ← pow_add]
      congr 1; omega
    rw [he, ZMod.natCast_mod]
    rcases Nat.mod_two_eq_zero_or_one e with h2 | h2 <;> simp [h2, mul_assoc]

theorem pratt (p a : Nat) (fs : List Nat) (hp : 1 < p) (hprod : fs.prod = p - 1)
    (hprime : ∀ q ∈ fs, Nat.Prime q) (h1 : p - 1 < 2 ^ 256 ∧ powModF 256 p a (p - 1) 1 % p = 1)
    (h2 : ∀ q ∈ fs, powModF 256 p a ((p - 1) / q) 1 % p ≠ 1) : Nat.Prime p := by
  have key : ∀ e, e < 2 ^ 256 → ((powModF 256 p a e 1 % p = 1) ↔ (a : ZMod p) ^ e = 1) := by
    intro e he
    have := powModF_spec 256 p a e 1 he
    rw [Nat.cast_one, one_mul] at this
    rw [← this]
    have : ((powModF 256 p a e 1 : Nat) : ZMod p) = 1 ↔ powModF 256 p a e 1 ≡ 1 [MOD p] := by
      rw [← ZMod.natCast_eq_natCast_iff]; simp
    rw [this, Nat.ModEq, Nat.mod_eq_of_lt hp]
  refine lucas_primality p (a : ZMod p) ((key _ h1.1).1 h1.2) ?_
  intro q hq hdvd
  have hmem : q ∈ fs := by
    rw [← hprod] at hdvd
    obtain ⟨f, hf, hqf⟩ := (Prime.dvd_prod_iff hq.prime).1 hdvd
    rcases (Nat.dvd_prime (hprime f hf)).1 hqf with h | h
    · exact absurd h hq.one_lt.ne'
    · exact h ▸ hf
  intro hcon
  exact h2 q hmem ((key _ (lt_of_le_of_lt (Nat.div_le_self _ _) h1.1)).2 hcon)

theorem prime_10042883 : Nat.Prime 10042883 := by
  refine pratt 10042883 2 [2, 1013, 4957] (by decide) (by decide +kernel) ?_ (by decide +kernel) (by decide +kernel)
  intro q hq
  simp only [List.mem_cons, List.not_mem_nil, or_false] at hq
  rcases hq with rfl | rfl | rfl
  · norm_num
  · norm_num
  · norm_num

theorem prime_2368433183657 : Nat.Prime 2368433183657 := by
  refine pratt 2368433183657 3 [2, 2, 2, 41, 719, 10042883] (by decide) (by decide +kernel) ?_ (by decide +kernel) (by decide +kernel)
  intro q hq
  simp only [List.mem_cons, List.not_mem_nil, or_false] at hq
  rcases hq with rfl | rfl | rfl | rfl | rfl | rfl
  · norm_num
  · norm_num
  · norm_num
  · norm_num
  · norm_num
  · exact prime_10042883

theorem prime_3258964060712033 : Nat.Prime 3258964060712033 := by
  refine pratt 3258964060712033 3 [2, 2, 2, 2, 2, 43, 2368433183657] (by decide) (by decide +kernel) ?_ (by decide +kernel) (by decide +kernel)
  intro q hq
  simp only [List.mem_cons, List.not_mem_nil, or_false] at hq
  rcases hq with rfl | rfl | rfl | rfl | rfl | rfl | rfl
  · norm_num
  · norm_num
  · norm_num
  · norm_num
  · norm_num
  · norm_num
  · exact prime_2368433183657

theorem prime_17965699 : Nat.Prime 17965699 := by
  refine pratt 17965699 2 [2, 3, 71, 181, 233] (by decide) (by decide +kernel) ?_ (by decide +kernel) (by decide +kernel)
  intro q hq
  simp only [List.mem_cons, List.not_mem_nil, or_false] at hq
  rcases hq with rfl | rfl | rfl | rfl | rfl
  · norm_num
  · norm_num
  · norm_num
  · norm_num
  · norm_num

theorem prime_12149 : Nat.Prime 12149 := by
  refine pratt 12149 2 [2, 2, 3037] (by decide) (by decide +kernel) ?_ (by decide +kernel) (by decide +kernel)
  intro q hq
  simp only [List.mem_cons, List.not_mem_nil, or_false] at hq
  rcases hq with rfl | rfl | rfl
  · norm_num
  · norm_num
  · norm_num

theorem prime_107615843 : Nat.Prime 107615843 := by
  refine pratt 107615843 2 [2, 43, 103, 12149] (by decide) (by decide +kernel) ?_ (by decide +kernel) (by decide +kernel)
  intro q hq
  simp only [List.mem_cons, List.not_mem_nil, or_false] at hq
  rcases hq with rfl | rfl | rfl | rfl
  · norm_num
  · norm_num
  · norm_num
  · exact prime_12149

theorem prime_5801 : Nat.Prime 5801 := by
  refine pratt 5801 3 [2, 2, 2, 5, 5, 29] (by decide) (by decide +kernel) ?_ (by decide +kernel) (by decide +kernel)
  intro q hq
  simp only [List.mem_cons, List.not_mem_nil, or_false] at hq
  rcases hq with rfl | rfl | rfl | rfl | rfl | rfl
  · norm_num
  · norm_num
  · norm_num
  · norm_num
  · norm_num
  · norm_num

theorem prime_9061163 : Nat.Prime 9061163 := by
  refine pratt 9061163 2 [2, 11, 71, 5801] (by decide) (by decide +kernel) ?_ (by decide +kernel) (by decide +kernel)
  intro q hq
  simp only [List.mem_cons, List.not_mem_nil, or_false] at hq
  rcases hq with rfl | rfl | rfl | rfl
  · norm_num
  · norm_num
  · norm_num
  · exact prime_5801

theorem prime_5636460199499 : Nat.Prime 5636460199499 := by
  refine pratt 5636460199499 2 [2, 31, 79, 127, 9061163] (by decide) (by decide +kernel) ?_ (by decide +kernel) (by decide +kernel)
  intro q hq
  simp only [List.mem_cons, List.not_mem_nil, or_false] at hq
  rcases hq with rfl | rfl | rfl | rfl | rfl
  · norm_num
  · norm_num
  · norm_num
  · norm_num
  · exact prime_9061163

theorem prime_101456283590983 : Nat.Prime 101456283590983 := by
  refine pratt 101456283590983 3 [2, 3, 3, 5636460199499] (by decide) (by decide +kernel) ?_ (by decide +kernel) (by decide +kernel)
  intro q hq
  simp only [List.mem_cons, List.not_mem_nil, or_false] at hq
  rcases hq with rfl | rfl | rfl | rfl
  · norm_num
  · norm_num
  · norm_num
  · exact prime_5636460199499

theorem prime_84163 : Nat.Prime 84163 := by
  refine pratt 84163 2 [2, 3, 13, 13, 83] (by decide) (by decide +kernel) ?_ (by decide +kernel) (by decide +kernel)
  intro q hq
  simp only [List.mem_cons, List.not_mem_nil, or_false] at hq
  rcases hq with rfl | rfl | rfl | rfl | rfl
  · norm_num
  · norm_num
  · norm_num
  · norm_num
  · norm_num

theorem prime_2566129871 : Nat.Prime 2566129871 := by
  refine pratt 2566129871 7 [2, 5, 3049, 84163] (by decide) (by decide +kernel) ?_ (by decide +kernel) (by decide +kernel)
  intro q hq
  simp only [List.mem_cons, List.not_mem_nil, or_false] at hq
  rcases hq with rfl | rfl | rfl | rfl
  · norm_num
  · norm_num
  · norm_num
  · exact prime_84163

theorem prime_18120927127286907576013935251791662753637 : Nat.Prime 18120927127286907576013935251791662753637 := by
  refine pratt 18120927127286907576013935251791662753637 6 [2, 2, 3, 3, 17965699, 107615843, 2566129871, 101456283590983] (by decide) (by decide +kernel) ?_ (by decide +kernel) (by decide +kernel)
  intro q hq
  simp only [List.mem_cons, List.not_mem_nil, or_false] at hq
  rcases hq with rfl | rfl | rfl | rfl | rfl | rfl | rfl | rfl
  · norm_num
  · norm_num
  · norm_num
  · norm_num
  · exact prime_17965699
  · exact prime_107615843
  · exact prime_2566129871
  · exact prime_101456283590983

theorem prime_125197554539772723432468576818475380947471091418362477724521 : Nat.Prime 125197554539772723432468576818475380947471091418362477724521 := by
  refine pratt 125197554539772723432468576818475380947471091418362477724521 3 [2, 2, 2, 5, 53, 3258964060712033, 18120927127286907576013935251791662753637] (by decide) (by decide +kernel) ?_ (by decide +kernel) (by decide +kernel)
  intro q hq
  simp only [List.mem_cons, List.not_mem_nil, or_false] at hq
  rcases hq with rfl | rfl | rfl | rfl | rfl | rfl | rfl
  · norm_num
  · norm_num
  · norm_num
  · norm_num
  · norm_num
  · exact prime_3258964060712033
  · exact prime_18120927127286907576013935251791662753637

theorem prime_110899 : Nat.Prime 110899 := by
  refine pratt 110899 3 [2, 3, 3, 61, 101] (by decide) (by decide +kernel) ?_ (by decide +kernel) (by decide +kernel)
  intro q hq
  simp only [List.mem_cons, List.not_mem_nil, or_false] at hq
  rcases hq with rfl | rfl | rfl | rfl | rfl
  · norm_num
  · norm_num
  · norm_num
  · norm_num
  · norm_num

theorem prime_117774739 : Nat.Prime 117774739 := by
  refine pratt 117774739 2 [2, 3, 3, 59, 110899] (by decide) (by decide +kernel) ?_ (by decide +kernel) (by decide +kernel)
  intro q hq
  simp only [List.mem_cons, List.not_mem_nil, or_false] at hq
  rcases hq with rfl | rfl | rfl | rfl | rfl
  · norm_num
  · norm_num
  · norm_num
  · norm_num
  · exact prime_110899

theorem prime_1413296869 : Nat.Prime 1413296869 := by
  refine pratt 1413296869 6 [2, 2, 3, 117774739] (by decide) (by decide +kernel) ?_ (by decide +kernel) (by decide +kernel)
  intro q hq
  simp only [List.mem_cons, List.not_mem_nil, or_false] at hq
  rcases hq with rfl | rfl | rfl | rfl
  · norm_num
  · norm_num
  · norm_num
  · exact prime_117774739

theorem prime_14057 : Nat.Prime 14057 := by
  refine pratt 14057 3 [2, 2, 2, 7, 251] (by decide) (by decide +kernel) ?_ (by decide +kernel) (by decide +kernel)
  intro q hq
  simp only [List.mem_cons, List.not_mem_nil, or_false] at hq
  rcases hq with rfl | rfl | rfl | rfl | rfl
  · norm_num
  · norm_num
  · norm_num
  · norm_num
  · norm_num

theorem prime_7759 : Nat.Prime 7759 := by
  refine pratt 7759 3 [2, 3, 3, 431] (by decide) (by decide +kernel) ?_ (by decide +kernel) (by decide +kernel)
  intro q hq
  simp only [List.mem_cons, List.not_mem_nil, or_false] at hq
  rcases hq with rfl | rfl | rfl | rfl
  · norm_num
  · norm_num
  · norm_num
  · norm_num

theorem prime_115792089210356248756420345214020892766061623724957744567843809356293439045923 : Nat.Prime 115792089210356248756420345214020892766061623724957744567843809356293439045923 := by
  refine pratt 115792089210356248756420345214020892766061623724957744567843809356293439045923 3 [2, 3, 7759, 14057, 1413296869, 125197554539772723432468576818475380947471091418362477724521] (by decide) (by decide +kernel) ?_ (by decide +kernel) (by decide +kernel)
  intro q hq
  simp only [List.mem_cons, List.not_mem_nil, or_false] at hq
  rcases hq with rfl | rfl | rfl | rfl | rfl | rfl
  · norm_num
  · norm_num
  · exact prime_7759
  · exact prime_14057
  · exact prime_1413296869
  · exact prime_125197554539772723432468576818475380947471091418362477724521

theorem prime_71209 : Nat.Prime 71209 := by
  refine pratt 71209 7 [2, 2, 2, 3, 3, 23, 43] (by decide) (by decide +kernel) ?_ (by decide +kernel) (by decide +kernel)
  intro q hq
  simp only [List.mem_cons, List.not_mem_nil, or_false] at hq
  rcases hq with rfl | rfl | rfl | rfl | rfl | rfl | rfl
  · norm_num
  · norm_num
  · norm_num
  · norm_num
  · norm_num
  · norm_num
  · norm_num

theorem prime_54983 : Nat.Prime 54983 := by
  refine pratt 54983 5 [2, 37, 743] (by decide) (by decide +kernel) ?_ (by decide +kernel) (by decide +kernel)
  intro q hq
  simp only [List.mem_cons, List.not_mem_nil, or_false] at hq
  rcases hq with rfl | rfl | rfl
  · norm_num
  · norm_num
  · norm_num

theorem prime_3079049 : Nat.Prime 3079049 := by
  refine pratt 3079049 3 [2, 2, 2, 7, 54983] (by decide) (by decide +kernel) ?_ (by decide +kernel) (by decide +kernel)
  intro q hq
  simp only [List.mem_cons, List.not_mem_nil, or_false] at hq
  rcases hq with rfl | rfl | rfl | rfl | rfl
  · norm_num
  · norm_num
  · norm_num
  · norm_num
  · exact prime_54983

theorem prime_6158099 : Nat.Prime 6158099 := by
  refine pratt 6158099 2 [2, 3079049] (by decide) (by decide +kernel) ?_ (by decide +kernel) (by decide +kernel)
  intro q hq
  simp only [List.mem_cons, List.not_mem_nil, or_false] at hq
  rcases hq with rfl | rfl
  · norm_num
  · exact prime_3079049

theorem prime_34511 : Nat.Prime 34511 := by
  refine pratt 34511 7 [2, 5, 7, 17, 29] (by decide) (by decide +kernel) ?_ (by decide +kernel) (by decide +kernel)
  intro q hq
  simp only [List.mem_cons, List.not_mem_nil, or_false] at hq
  rcases hq with rfl | rfl | rfl | rfl | rfl
  · norm_num
  · norm_num
  · norm_num
  · norm_num
  · norm_num

theorem prime_363761 : Nat.Prime 363761 := by
  refine pratt 363761 3 [2, 2, 2, 2, 5, 4547] (by decide) (by decide +kernel) ?_ (by decide +kernel) (by decide +kernel)
  intro q hq
  simp only [List.mem_cons, List.not_mem_nil, or_false] at hq
  rcases hq with rfl | rfl | rfl | rfl | rfl | rfl
  · norm_num
  · norm_num
  · norm_num
  · norm_num
  · norm_num
  · norm_num

theorem prime_4773264379806847 : Nat.Prime 4773264379806847 := by
  refine pratt 4773264379806847 3 [2, 3, 7, 11, 823, 34511, 363761] (by decide) (by decide +kernel) ?_ (by decide +kernel) (by decide +kernel)
  intro q hq
  simp only [List.mem_cons, List.not_mem_nil, or_false] at hq
  rcases hq with rfl | rfl | rfl | rfl | rfl | rfl | rfl
  · norm_num
  · norm_num
  · norm_num
  · norm_num
  · norm_num
  · exact prime_34511
  · exact prime_363761

theorem prime_66013261729388519804782124120027 : Nat.Prime 66013261729388519804782124120027 := by
  refine pratt 66013261729388519804782124120027 2 [2, 13, 1213, 71209, 6158099, 4773264379806847] (by decide) (by decide +kernel) ?_ (by decide +kernel) (by decide +kernel)
  intro q hq
  simp only [List.mem_cons, List.not_mem_nil, or_false] at hq
  rcases hq with rfl | rfl | rfl | rfl | rfl | rfl
  · norm_num
  · norm_num
  · norm_num
  · exact prime_71209
  · exact prime_6158099
  · exact prime_4773264379806847

theorem prime_5711 : Nat.Prime 5711 := by
  refine pratt 5711 19 [2, 5, 571] (by decide) (by decide +kernel) ?_ (by decide +kernel) (by decide +kernel)
  intro q hq
  simp only [List.mem_cons, List.not_mem_nil, or_false] at hq
  rcases hq with rfl | rfl | rfl
  · norm_num
  · norm_num
  · norm_num

theorem prime_3017783777 : Nat.Prime 3017783777 := by
  refine pratt 3017783777 3 [2, 2, 2, 2, 2, 7, 7, 337, 5711] (by decide) (by decide +kernel) ?_ (by decide +kernel) (by decide +kernel)
  intro q hq
  simp only [List.mem_cons, List.not_mem_nil, or_false] at hq
  rcases hq with rfl | rfl | rfl | rfl | rfl | rfl | rfl | rfl | rfl
  · norm_num
  · norm_num
  · norm_num
  · norm_num
  · norm_num
  · norm_num
  · norm_num
  · norm_num
  · exact prime_5711

theorem prime_4641351449027 : Nat.Prime 4641351449027 := by
  refine pratt 4641351449027 2 [2, 769, 3017783777] (by decide) (by decide +kernel) ?_ (by decide +kernel) (by decide +kernel)
  intro q hq
  simp only [List.mem_cons, List.not_mem_nil, or_false] at hq
  rcases hq with rfl | rfl | rfl
  · norm_num
  · norm_num
  · exact prime_3017783777

theorem prime_8214737 : Nat.Prime 8214737 := by
  refine pratt 8214737 3 [2, 2, 2, 2, 67, 79, 97] (by decide) (by decide +kernel) ?_ (by decide +kernel) (by decide +kernel)
  intro q hq
  simp only [List.mem_cons, List.not_mem_nil, or_false] at hq
  rcases hq with rfl | rfl | rfl | rfl | rfl | rfl | rfl
  · norm_num
  · norm_num
  · norm_num
  · norm_num
  · norm_num
  · norm_num
  · norm_num

theorem prime_417514796639753 : Nat.Prime 417514796639753 := by
  refine pratt 417514796639753 3 [2, 2, 2, 7, 367, 2473, 8214737] (by decide) (by decide +kernel) ?_ (by decide +kernel) (by decide +kernel)
  intro q hq
  simp only [List.mem_cons, List.not_mem_nil, or_false] at hq
  rcases hq with rfl | rfl | rfl | rfl | rfl | rfl | rfl
  · norm_num
  · norm_num
  · norm_num
  · norm_num
  · norm_num
  · norm_num
  · exact prime_8214737

theorem prime_179429 : Nat.Prime 179429 := by
  refine pratt 179429 2 [2, 2, 31, 1447] (by decide) (by decide +kernel) ?_ (by decide +kernel) (by decide +kernel)
  intro q hq
  simp only [List.mem_cons, List.not_mem_nil, or_false] at hq
  rcases hq with rfl | rfl | rfl | rfl
  · norm_num
  · norm_num
  · norm_num
  · norm_num

theorem prime_5303 : Nat.Prime 5303 := by
  refine pratt 5303 5 [2, 11, 241] (by decide) (by decide +kernel) ?_ (by decide +kernel) (by decide +kernel)
  intro q hq
  simp only [List.mem_cons, List.not_mem_nil, or_false] at hq
  rcases hq with rfl | rfl | rfl
  · norm_num
  · norm_num
  · norm_num

theorem prime_348253387243 : Nat.Prime 348253387243 := by
  refine pratt 348253387243 3 [2, 3, 61, 5303, 179429] (by decide) (by decide +kernel) ?_ (by decide +kernel) (by decide +kernel)
  intro q hq
  simp only [List.mem_cons, List.not_mem_nil, or_false] at hq
  rcases hq with rfl | rfl | rfl | rfl | rfl
  · norm_num
  · norm_num
  · norm_num
  · exact prime_5303
  · exact prime_179429

theorem prime_30223 : Nat.Prime 30223 := by
  refine pratt 30223 3 [2, 3, 3, 23, 73] (by decide) (by decide +kernel) ?_ (by decide +kernel) (by decide +kernel)
  intro q hq
  simp only [List.mem_cons, List.not_mem_nil, or_false] at hq
  rcases hq with rfl | rfl | rfl | rfl | rfl
  · norm_num
  · norm_num
  · norm_num
  · norm_num
  · norm_num

theorem prime_115792089210356248756420345214020892766250353991924191454421193933289684991999 : Nat.Prime 115792089210356248756420345214020892766250353991924191454421193933289684991999 := by
  refine pratt 115792089210356248756420345214020892766250353991924191454421193933289684991999 13 [2, 43, 30223, 348253387243, 4641351449027, 417514796639753, 66013261729388519804782124120027] (by decide) (by decide +kernel) ?_ (by decide +kernel) (by decide +kernel)
  intro q hq
  simp only [List.mem_cons, List.not_mem_nil, or_false] at hq
  rcases hq with rfl | rfl | rfl | rfl | rfl | rfl | rfl
  · norm_num
  · norm_num
  · exact prime_30223
  · exact prime_348253387243
  · exact prime_4641351449027
  · exact prime_417514796639753
  · exact prime_66013261729388519804782124120027

theorem N_prime : Nat.Prime N :=
  prime_115792089210356248756420345214020892766061623724957744567843809356293439045923
theorem P_prime : Nat.Prime P :=
  prime_115792089210356248756420345214020892766250353991924191454421193933289684991999

instance : Fact (Nat.Prime N) := ⟨N_prime⟩
instance : Fact (Nat.Prime P) := ⟨P_prime⟩

end Verif.Sm2
