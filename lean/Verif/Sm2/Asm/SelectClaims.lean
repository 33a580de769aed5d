import Verif.Sm2.Asm.Select
/-!
C132: table selection, conditional move and byte order in the amd64 assembly.

`s.heap` is memory as words (by address), `s.args 0, 24, 48, 72` the arguments on the stack. `Stored h h' a n f` says that after the call the `n` words at `a` are
`f 0, …, f (n-1)` and no other word differs; `ld4` reads a little-endian 256-bit number, `beVal h a 32` the big-endian number in the 32 bytes at `a`.
-/
namespace Verif.Sm2.Asm

/-- **C132**: `sm2p256Select(point, table, idx)` stores entry `idx` (12 words, counted from 1) of the 16 entries, and zeros for an index whose low
32 bits are not 1..16; it reads the table only, and ends after 16 passes. -/
theorem C132_select (s : St) (fuel : Nat) (hf : 16 ≤ fuel) (hT : s.args 24 + 16 * 96 < 2 ^ 64)
    (hw : ∀ a, s.args 24 ≤ a → a < s.args 24 + 16 * 96 → s.heap a < 2 ^ 64) :
    Stored s.heap (runSelect fuel s).heap (s.args 0) 12 (fun j =>
      if 1 ≤ s.args 48 % 2 ^ 32 ∧ s.args 48 % 2 ^ 32 ≤ 16 then s.heap (s.args 24 + 96 * (s.args 48 % 2 ^ 32 - 1) + 8 * j) else 0) :=
  select_exec s fuel hf hT hw

/-- **C132**: `sm2p256SelectBase(point, table, idx)` stores entry `idx` (8 words, counted from 1) of the 64 entries, and zeros for an index whose
low 32 bits are not 1..64. -/
theorem C132_selectBase (s : St) (fuel : Nat) (hf : 32 ≤ fuel) (hT : s.args 24 + 64 * 64 < 2 ^ 64)
    (hw : ∀ a, s.args 24 ≤ a → a < s.args 24 + 64 * 64 → s.heap a < 2 ^ 64) :
    Stored s.heap (runSelectBase fuel s).heap (s.args 0) 8 (fun j =>
      if 1 ≤ s.args 48 % 2 ^ 32 ∧ s.args 48 % 2 ^ 32 ≤ 64 then s.heap (s.args 24 + 64 * (s.args 48 % 2 ^ 32 - 1) + 8 * j) else 0) :=
  selectBase_exec s fuel hf hT hw

/-- **C132**: `sm2p256MovCond(res, a, b, cond)` copies `b` (12 words) if the low 32 bits of `cond` are zero and `a` otherwise, also if `res` overlaps them. -/
theorem C132_movCond (s : St) (ha : ∀ j < 12, s.heap (s.args 24 + 8 * j) < 2 ^ 64) (hb : ∀ j < 12, s.heap (s.args 48 + 8 * j) < 2 ^ 64) :
    Stored s.heap (exec sm2p256MovCond s).heap (s.args 0) 12
      (fun j => if s.args 72 % 2 ^ 32 = 0 then s.heap (s.args 48 + 8 * j) else s.heap (s.args 24 + 8 * j)) :=
  movCond_exec s ha hb

/-- **C132**: `sm2p256BigToLittle(res, in)` stores the big-endian number in the 32 bytes of `in` as four words, least significant first. -/
theorem C132_bigToLittle (s : St) :
    ld4 (exec sm2p256BigToLittle s).heap (s.args 0) = beVal s.heap (s.args 24) 32 ∧ Words (exec sm2p256BigToLittle s).heap (s.args 0) ∧
    Elsewhere (s.args 0) s.heap (exec sm2p256BigToLittle s).heap := by
  obtain ⟨h0, h1, h2, h3, h4⟩ := swap_exec s
  refine ⟨?_, ?_, h4⟩
  · rw [ld4, h0, h1, h2, h3, beVal_32]
  · unfold Words
    rw [h0, h1, h2, h3]
    exact ⟨bswap_lt _, bswap_lt _, bswap_lt _, bswap_lt _⟩

/-- **C132**: `sm2p256LittleToBig(res, in)` (the same instructions) stores the number in the four words of `in` as 32 big-endian bytes. -/
theorem C132_littleToBig (s : St) (hw : Words s.heap (s.args 24)) :
    beVal (exec sm2p256BigToLittle s).heap (s.args 0) 32 = ld4 s.heap (s.args 24) ∧ Elsewhere (s.args 0) s.heap (exec sm2p256BigToLittle s).heap := by
  obtain ⟨h0, h1, h2, h3, h4⟩ := swap_exec s
  refine ⟨?_, h4⟩
  rw [ld4, beVal_32, h0, h1, h2, h3, bswap_bswap hw.1, bswap_bswap hw.2.1, bswap_bswap hw.2.2.1, bswap_bswap hw.2.2.2]

/-- a table at 1000 with 1, 2, 3, … in its words, result at 0, index 5 -/
def tabState : St where
  r := fun _ => 7
  x := fun _ => (3, 9)
  cf := true
  zf := false
  heap := fun a => if 1000 ≤ a ∧ a < 2 ^ 32 then (a - 1000) / 8 + 1 else 0
  stk := fun _ => 0
  args := fun a => if a = 24 then 1000 else if a = 48 then 5 else 0

/-- the hypotheses are met: entry 5 of a table of 12-word entries starts with word 48, of 8-word entries with word 32 -/
example : (runSelect 16 tabState).heap 0 = 49 ∧ (runSelectBase 32 tabState).heap 0 = 33 := by
  have hw : ∀ a, tabState.heap a < 2 ^ 64 := by
    intro a
    show (if 1000 ≤ a ∧ a < 2 ^ 32 then (a - 1000) / 8 + 1 else 0) < 2 ^ 64
    split <;> omega
  have h1 := (C132_select tabState 16 (by decide) (by decide) (fun a _ _ => hw a)).words 0 (by decide)
  have h2 := (C132_selectBase tabState 32 (by decide) (by decide) (fun a _ _ => hw a)).words 0 (by decide)
  exact ⟨h1, h2⟩

/-- `beVal` reads the most significant byte first -/
example : beVal (fun a => if a = 24 then 0x0201000000000000 else 0) 0 32 = 0x0102 := by decide +kernel

end Verif.Sm2.Asm
