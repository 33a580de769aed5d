import Verif.Go
/-!
Model of `internal/subtle/aliasing.go` (the two build variants compute the same thing).

A slice is the address of its first element and its length; addresses are 64-bit machine words compared as unsigned numbers.
-/
namespace Verif.Subtle
open Verif

/-- a `[]byte`: `&x[0]` (when not empty) and `len(x)` -/
structure Slice where
  base : BitVec 64
  len : Nat

/-- `uintptr(unsafe.Pointer(&x[i]))` -/
def Slice.addr (x : Slice) (i : Nat) : BitVec 64 := x.base + BitVec.ofNat 64 i

/-- internal/subtle/aliasing.go:17-21 `AnyOverlap` -/
def anyOverlap (x y : Slice) : Bool :=
  decide (x.len > 0) && decide (y.len > 0) && decide (x.addr 0 ≤ y.addr (y.len - 1)) && decide (y.addr 0 ≤ x.addr (x.len - 1))

/-- internal/subtle/aliasing.go:29-34 `InexactOverlap` -/
def inexactOverlap (x y : Slice) : Bool :=
  if x.len = 0 ∨ y.len = 0 ∨ x.addr 0 = y.addr 0 then false else anyOverlap x y

/-- the runtime never lets a slice wrap around the address space -/
def Slice.Real (x : Slice) : Prop := x.base.toNat + x.len ≤ 2 ^ 64

/-- the slice occupies the address -/
def Slice.Covers (x : Slice) (a : Nat) : Prop := ∃ i, i < x.len ∧ a = x.base.toNat + i

theorem addr_toNat (x : Slice) (h : x.Real) (i : Nat) (hi : i < x.len) : (x.addr i).toNat = x.base.toNat + i := by
  unfold Slice.addr Slice.Real at *
  rw [BitVec.toNat_add, BitVec.toNat_ofNat, Nat.add_mod_mod, Nat.mod_eq_of_lt (by omega)]

/-- C53: `AnyOverlap` is true exactly when the two slices share an address. -/
theorem C53_any (x y : Slice) (hx : x.Real) (hy : y.Real) : anyOverlap x y = true ↔ ∃ a, x.Covers a ∧ y.Covers a := by
  unfold anyOverlap
  simp only [Bool.and_eq_true, decide_eq_true_eq]
  constructor
  · rintro ⟨⟨⟨h1, h2⟩, h3⟩, h4⟩
    rw [BitVec.le_def, addr_toNat x hx 0 h1, addr_toNat y hy _ (by omega)] at h3
    rw [BitVec.le_def, addr_toNat y hy 0 h2, addr_toNat x hx _ (by omega)] at h4
    refine ⟨max x.base.toNat y.base.toNat, ⟨max x.base.toNat y.base.toNat - x.base.toNat, by omega, by omega⟩,
      ⟨max x.base.toNat y.base.toNat - y.base.toNat, by omega, by omega⟩⟩
  · rintro ⟨a, ⟨i, hi, e⟩, ⟨j, hj, e'⟩⟩
    refine ⟨⟨⟨by omega, by omega⟩, ?_⟩, ?_⟩
    · rw [BitVec.le_def, addr_toNat x hx 0 (by omega), addr_toNat y hy _ (by omega)]; omega
    · rw [BitVec.le_def, addr_toNat y hy 0 (by omega), addr_toNat x hx _ (by omega)]; omega

/-- C53: `InexactOverlap` is true exactly when they share an address at different indices. -/
theorem C53_inexact (x y : Slice) (hx : x.Real) (hy : y.Real) :
    inexactOverlap x y = true ↔ ∃ i j, i < x.len ∧ j < y.len ∧ x.base.toNat + i = y.base.toNat + j ∧ i ≠ j := by
  unfold inexactOverlap
  by_cases h : x.len = 0 ∨ y.len = 0 ∨ x.addr 0 = y.addr 0
  · rw [if_pos h]
    constructor
    · intro h; cases h
    · rintro ⟨i, j, hi, hj, e, hn⟩
      exfalso
      rcases h with h | h | h
      · omega
      · omega
      · have := congrArg BitVec.toNat h
        rw [addr_toNat x hx 0 (by omega), addr_toNat y hy 0 (by omega)] at this
        omega
  · rw [if_neg h, C53_any x y hx hy]
    simp only [not_or] at h
    have hne : x.base.toNat ≠ y.base.toNat := by
      intro e
      apply h.2.2
      apply BitVec.eq_of_toNat_eq
      rw [addr_toNat x hx 0 (by omega), addr_toNat y hy 0 (by omega), e]
    constructor
    · rintro ⟨a, ⟨i, hi, e⟩, ⟨j, hj, e'⟩⟩
      exact ⟨i, j, hi, hj, by omega, by omega⟩
    · rintro ⟨i, j, hi, hj, e, _⟩
      exact ⟨x.base.toNat + i, ⟨i, hi, rfl⟩, ⟨j, hj, e⟩⟩

/-- two overlapping slices of one array, and the empty slice, which overlaps nothing -/
example : anyOverlap ⟨0x1000, 4⟩ ⟨0x1003, 4⟩ = true ∧ inexactOverlap ⟨0x1000, 4⟩ ⟨0x1003, 4⟩ = true ∧ inexactOverlap ⟨0x1000, 4⟩ ⟨0x1000, 8⟩ = false ∧
    anyOverlap ⟨0x1000, 4⟩ ⟨0x1004, 4⟩ = false ∧ anyOverlap ⟨0x1000, 0⟩ ⟨0x1000, 4⟩ = false ∧ Slice.Real ⟨0x1000, 4⟩ := by
  refine ⟨by decide, by decide, by decide, by decide, by decide, by unfold Slice.Real; decide⟩

end Verif.Subtle
