import Verif.Sm2.Asm.OrdProps
import Verif.Sm2.Amd64.EndToEnd
/-!
C131: multiplication and squaring modulo the order of the group in the amd64 assembly, and `Inverse`, which is built on them.

`ld4 h a` is the 256-bit number in the four words at address `a` of memory `h` (least significant first), `Words h a` says that they are words,
`Elsewhere a h h'` that no other word of memory differs. `s.args 0`, `s.args 24` and `s.args 48` are the data pointers of the slices `res`, `in1`, `in2`
(for `sm2p256OrdSqr` the third argument is the number of squarings).
-/
namespace Verif.Sm2.Asm

/-- **C131**: `sm2p256OrdMul(res, in1, in2)` stores a number congruent to `in1·in2·2^-256` modulo the order, for all 256-bit operands, also if
`res` overlaps an operand; it is reduced as soon as one operand is; no other memory is written. -/
theorem C131_ordMul (s : St) (hx : Words s.heap (s.args 24)) (hy : Words s.heap (s.args 48)) :
    ld4 (exec sm2p256OrdMul s).heap (s.args 0) * 2 ^ 256 ≡ ld4 s.heap (s.args 24) * ld4 s.heap (s.args 48) [MOD Verif.Sm2.N] ∧
    ld4 (exec sm2p256OrdMul s).heap (s.args 0) < 2 ^ 256 ∧
    (ld4 s.heap (s.args 24) < Verif.Sm2.N ∨ ld4 s.heap (s.args 48) < Verif.Sm2.N → ld4 (exec sm2p256OrdMul s).heap (s.args 0) < Verif.Sm2.N) ∧
    Elsewhere (s.args 0) s.heap (exec sm2p256OrdMul s).heap := by
  obtain ⟨h1, h2⟩ := ordMul_exec s hx hy
  have bd : ∀ a, Words s.heap a → ld4 s.heap a < B ^ 4 := by
    rintro a ⟨w0, w1, w2, w3⟩
    simp only [ld4, B] at *
    omega
  have e : (2 : Nat) ^ 256 = B ^ 4 := by decide +kernel
  obtain ⟨k1, k2, k3⟩ := ordMulT_spec _ _ (bd _ hx) (bd _ hy)
  rw [h1, e, ← Q_eq]
  exact ⟨k1, k2, fun h => k3 (by omega), h2⟩

/-- **C131**: `sm2p256OrdSqr(res, in, n)` with `n ≥ 1` is `n` applications of what it does with `n = 1`, ends after `n` passes (any larger bound gives the
same result) and writes no other memory. -/
theorem C131_ordSqr_count : ∃ f : Nat → Nat,
    ∀ (s : St) (fuel : Nat), 1 ≤ s.args 48 → s.args 48 < 2 ^ 64 → s.args 48 ≤ fuel → Words s.heap (s.args 24) →
      ld4 (runOrdSqr fuel s).heap (s.args 0) = f^[s.args 48] (ld4 s.heap (s.args 24)) ∧ Elsewhere (s.args 0) s.heap (runOrdSqr fuel s).heap :=
  ⟨ordSqrT, fun s fuel h1 h2 h3 h4 => ordSqr_exec s fuel h1 h2 h3 h4⟩

/-- **C131, what holds of the squaring**: for a reduced operand one squaring is right exactly if, in each of the four reduction steps, the sum that
the third word of the accumulator receives fits a word (`third`); the carry or borrow of that word is dropped by the code. -/
theorem C131_ordSqr_partial (s : St) (fuel : Nat) (hn : s.args 48 = 1) (hf : 1 ≤ fuel) (hx : Words s.heap (s.args 24)) (hq : ld4 s.heap (s.args 24) < Verif.Sm2.N) :
    ld4 (runOrdSqr fuel s).heap (s.args 0) * 2 ^ 256 ≡ ld4 s.heap (s.args 24) * ld4 s.heap (s.args 24) [MOD Verif.Sm2.N] ↔
    ∀ i < 4, 0 ≤ third (sqStep^[i] (ld4 s.heap (s.args 24) * ld4 s.heap (s.args 24) % 2 ^ 256)) ∧
      third (sqStep^[i] (ld4 s.heap (s.args 24) * ld4 s.heap (s.args 24) % 2 ^ 256)) < 2 ^ 64 := by
  obtain ⟨h1, -⟩ := ordSqr_exec s fuel (by omega) (by rw [hn]; decide) (by omega) hx
  rw [hn, Function.iterate_succ_apply, Function.iterate_zero, id] at h1
  have e : (2 : Nat) ^ 256 = B ^ 4 := by decide +kernel
  rw [h1, e, ← Q_eq]
  rw [← Q_eq] at hq
  rw [ordSqrT_iff _ hq, lost_iff, lost_iff, lost_iff, lost_iff]
  have e2 : (2 : Int) ^ 64 = (B : Int) := by decide +kernel
  rw [e2]
  generalize ld4 s.heap (s.args 24) * ld4 s.heap (s.args 24) % B ^ 4 = T
  constructor
  · rintro ⟨a, b, c, d⟩ i hi
    rcases i with _ | _ | _ | _ | i
    · exact a
    · exact b
    · exact c
    · exact d
    · omega
  · intro h
    exact ⟨h 0 (by decide), h 1 (by decide), h 2 (by decide), h 3 (by decide)⟩

/-- memory with the number `x` at address 64 and an empty result at 0 -/
def sqState (x : Nat) : St where
  r := fun _ => 0
  x := fun _ => (0, 0)
  cf := false
  zf := false
  heap := fun a => if a = 64 then x % B else if a = 72 then x / B % B else if a = 80 then x / B ^ 2 % B else if a = 88 then x / B ^ 3 % B else 0
  stk := fun _ => 0
  args := fun a => if a = 24 then 64 else if a = 48 then 1 else 0

theorem sqState_words (x : Nat) : Words (sqState x).heap ((sqState x).args 24) := by
  refine ⟨?_, ?_, ?_, ?_⟩ <;> exact mod_lt_B _

theorem sqState_ld (x : Nat) (hx : x < B ^ 4) : ld4 (sqState x).heap ((sqState x).args 24) = x := by
  show x % B + B * (x / B % B + B * (x / B ^ 2 % B + B * (x / B ^ 3 % B))) = x
  simp only [B] at *
  omega

/-- **C131 is violated**: `sm2p256OrdSqr` squares the Montgomery form of one (`2^256 mod n`) wrongly. -/
theorem C131_ordSqr_violated : ∃ s : St, s.args 48 = 1 ∧ Words s.heap (s.args 24) ∧ ld4 s.heap (s.args 24) < Verif.Sm2.N ∧
    ∀ fuel, 1 ≤ fuel → ¬ ld4 (runOrdSqr fuel s).heap (s.args 0) * 2 ^ 256 ≡ ld4 s.heap (s.args 24) * ld4 s.heap (s.args 24) [MOD Verif.Sm2.N] := by
  have hl : B ^ 4 - Q < B ^ 4 := by decide +kernel
  refine ⟨sqState (B ^ 4 - Q), rfl, sqState_words _, ?_, fun fuel hf => ?_⟩
  · rw [sqState_ld _ hl]
    decide +kernel
  · obtain ⟨h1, -⟩ := ordSqr_exec (sqState (B ^ 4 - Q)) fuel (show 1 ≤ 1 by decide) (show 1 < B by decide) hf (sqState_words _)
    have e1 : (sqState (B ^ 4 - Q)).args 48 = 1 := rfl
    rw [e1, Function.iterate_succ_apply, Function.iterate_zero, id] at h1
    rw [h1, sqState_ld _ hl]
    unfold Nat.ModEq
    decide +kernel

/-- a case in which no carry is lost: the Montgomery form of three -/
example : ∃ s : St, s.args 48 = 1 ∧ Words s.heap (s.args 24) ∧ ld4 s.heap (s.args 24) = 3 * 2 ^ 256 % Verif.Sm2.N ∧
    ld4 (runOrdSqr 1 s).heap (s.args 0) * 2 ^ 256 ≡ ld4 s.heap (s.args 24) * ld4 s.heap (s.args 24) [MOD Verif.Sm2.N] := by
  have hl : 3 * B ^ 4 % Q < B ^ 4 := by decide +kernel
  refine ⟨sqState (3 * B ^ 4 % Q), rfl, sqState_words _, ?_, ?_⟩
  · rw [sqState_ld _ hl]
    decide +kernel
  · obtain ⟨h1, -⟩ := ordSqr_exec (sqState (3 * B ^ 4 % Q)) 1 (show 1 ≤ 1 by decide) (show 1 < B by decide) (show 1 ≤ 1 by decide) (sqState_words _)
    have e1 : (sqState (3 * B ^ 4 % Q)).args 48 = 1 := rfl
    rw [e1, Function.iterate_succ_apply, Function.iterate_zero, id] at h1
    rw [h1, sqState_ld _ hl]
    unfold Nat.ModEq
    decide +kernel

/-! ### `Inverse` with the routines as they are -/

/-- the table of sm2/sm2p256_amd64.go:135-142: from `l`, `m` more pairs of entries (one squaring, one multiplication by the first entry) -/
def invTable (x : Nat) : Nat → List Nat → List Nat
  | 0, l => l
  | m + 1, l =>
    let l1 := l ++ [ordSqrT (l.getD ((l.length + 1) / 2 - 1) 0)]
    invTable x m (l1 ++ [ordMulT (l1.getD l.length 0) x])

/-- `sm2p256OrdSqr(x, x, n)` -/
def sqn : Nat → Nat → Nat
  | 0, x => x
  | n + 1, x => sqn n (ordSqrT x)

/-- `Inverse`, sm2/sm2p256_amd64.go:109-191, with what the assembly routines compute -/
def realInverse (k : Int) : Nat :=
  let k : Nat := k.natAbs % Verif.Sm2.N
  let x0 := ordMulT k Amd64.ordRR
  let t := invTable x0 7 [x0]
  let f := t.getD 14 0
  let ff := ordMulT (sqn 4 f) f
  let f4 := ordMulT (sqn 8 ff) ff
  let f8 := ordMulT (sqn 16 f4) f4
  let x := ordMulT (sqn 64 f8) f8
  let x := ordMulT (sqn 32 x) f8
  let x := Amd64.expLo.foldl (fun x e => ordMulT (sqn 4 x) (t.getD (e - 1) 0)) x
  ordMulT x 1

/-- **C131 is violated**: `Inverse(1)` is not 1 — which no exponent could explain: the squarings are wrong. -/
theorem C131_inverse_violated : realInverse 1 ≠ 1 ∧ realInverse 1 = 8223837305468663279886201152218386999265265768049832001770175277865009893904 := by
  have : realInverse 1 = 8223837305468663279886201152218386999265265768049832001770175277865009893904 := by decide +kernel
  exact ⟨by rw [this]; decide, this⟩

end Verif.Sm2.Asm
