/-
Common vocabulary of the model: bytes, Go outcomes (value / error / run-time panic), slices as
lists, big-endian integers.
-/
namespace Verif

abbrev Byte := BitVec 8
abbrev Bytes := List Byte
abbrev W32 := BitVec 32

/-- Outcome of a Go function: a value, a non-nil error (its message), or a run-time panic. -/
inductive Res (α : Type) where
  | ok (a : α)
  | err (msg : String)
  | panic
deriving DecidableEq, Repr

namespace Res
def bind {α β : Type} : Res α → (α → Res β) → Res β
  | ok a, f => f a
  | err e, _ => err e
  | panic, _ => panic
def map {α β : Type} (f : α → β) : Res α → Res β
  | ok a => ok (f a)
  | err e => err e
  | panic => panic
instance : Monad Res where
  pure := ok
  bind := bind
@[simp] theorem pure_eq {α : Type} (a : α) : (pure a : Res α) = ok a := rfl
@[simp] theorem ok_bind {α β : Type} (a : α) (f : α → Res β) : (ok a >>= f) = f a := rfl
@[simp] theorem err_bind {α β : Type} (e : String) (f : α → Res β) : (err e >>= f) = err e := rfl
@[simp] theorem panic_bind {α β : Type} (f : α → Res β) : ((panic : Res α) >>= f) = panic := rfl
/-- The call returned (with a value or an error): it did not panic. -/
def returns {α : Type} : Res α → Prop
  | panic => False
  | _ => True
instance {α : Type} (r : Res α) : Decidable r.returns := by
  cases r <;> unfold returns <;> infer_instance
theorem bind_eq_ok {α β : Type} {x : Res α} {f : α → Res β} {b : β} :
    (x >>= f) = ok b ↔ ∃ a, x = ok a ∧ f a = ok b := by
  cases x <;> simp
end Res

/-- Go `copy(dst[off:], src)`: overwrite the bytes of `dst` starting at `off`, as many as fit.
The length of `dst` does not change. -/
def copyAt (dst : Bytes) (off : Nat) (src : Bytes) : Bytes :=
  dst.take off ++ (src.take (dst.length - off)) ++ dst.drop (off + min src.length (dst.length - off))

/-- Number of bytes Go's `copy(dst[off:], src)` copies. -/
def copyCount (dst : Bytes) (off : Nat) (src : Bytes) : Nat := min (dst.length - off) src.length

theorem getD_append_left {α : Type} (l l' : List α) (d : α) (n : Nat) (h : n < l.length) :
    (l ++ l').getD n d = l.getD n d := by
  simp [List.getD_eq_getElem?_getD, List.getElem?_append_left h]

theorem getD_append_right {α : Type} (l l' : List α) (d : α) (n : Nat) (h : l.length ≤ n) :
    (l ++ l').getD n d = l'.getD (n - l.length) d := by
  simp [List.getD_eq_getElem?_getD, List.getElem?_append_right h]

/-- `new(big.Int).SetBytes(b)`: unsigned big-endian value. -/
def beNat (b : Bytes) : Nat := b.foldl (fun acc x => acc * 256 + x.toNat) 0

/-- The `k` low-order bytes of `n`, most significant first. -/
def beFixed : Nat → Nat → Bytes
  | 0, _ => []
  | k+1, n => beFixed k (n / 256) ++ [BitVec.ofNat 8 n]

@[simp] theorem beFixed_length (k n : Nat) : (beFixed k n).length = k := by
  induction k generalizing n with
  | zero => rfl
  | succ k ih => simp [beFixed, ih]

theorem beNat_append_single (b : Bytes) (x : Byte) : beNat (b ++ [x]) = beNat b * 256 + x.toNat := by
  simp [beNat, List.foldl_append]

theorem beNat_foldl (b : Bytes) (acc : Nat) :
    b.foldl (fun acc x => acc * 256 + x.toNat) acc = acc * 256 ^ b.length + beNat b := by
  induction b generalizing acc with
  | nil => simp [beNat]
  | cons x b ih =>
    simp only [beNat, List.foldl_cons, List.length_cons]
    rw [ih, ih (0 * 256 + x.toNat)]
    simp only [Nat.pow_succ, Nat.add_mul, Nat.mul_assoc, Nat.mul_comm 256, Nat.zero_mul,
      Nat.zero_add, Nat.add_assoc]

theorem beNat_append (a b : Bytes) : beNat (a ++ b) = beNat a * 256 ^ b.length + beNat b := by
  rw [beNat, List.foldl_append, beNat_foldl]; rfl

@[simp] theorem beNat_nil : beNat [] = 0 := rfl

theorem beNat_cons (x : Byte) (b : Bytes) : beNat (x :: b) = x.toNat * 256 ^ b.length + beNat b := by
  have := beNat_append [x] b
  simpa [beNat] using this

theorem beNat_lt (b : Bytes) : beNat b < 256 ^ b.length := by
  induction b with
  | nil => simp
  | cons x b ih =>
    rw [beNat_cons, List.length_cons, Nat.pow_succ]
    have hx : x.toNat < 256 := x.isLt
    have : x.toNat * 256 ^ b.length + 256 ^ b.length ≤ 256 ^ b.length * 256 := by
      rw [← Nat.succ_mul, Nat.mul_comm (256 ^ b.length)]
      exact Nat.mul_le_mul_right _ hx
    omega

theorem beNat_beFixed (k n : Nat) : beNat (beFixed k n) = n % 256 ^ k := by
  induction k generalizing n with
  | zero => simp [beFixed, Nat.mod_one]
  | succ k ih =>
    rw [beFixed, beNat_append_single, ih, Nat.pow_succ, Nat.mul_comm (256 ^ k) 256, Nat.mod_mul]
    simp [BitVec.toNat_ofNat]; omega

theorem beNat_beFixed_of_lt {k n : Nat} (h : n < 256 ^ k) : beNat (beFixed k n) = n := by
  rw [beNat_beFixed, Nat.mod_eq_of_lt h]

theorem beFixed_beNat (b : Bytes) : beFixed b.length (beNat b) = b := by
  suffices ∀ r : Bytes, beFixed r.reverse.length (beNat r.reverse) = r.reverse by
    simpa using this b.reverse
  intro r
  induction r with
  | nil => rfl
  | cons x r ih =>
    rw [List.reverse_cons, List.length_append, List.length_singleton, beFixed, beNat_append_single]
    have h1 : (beNat r.reverse * 256 + x.toNat) / 256 = beNat r.reverse := by
      have := x.isLt; omega
    have h2 : BitVec.ofNat 8 (beNat r.reverse * 256 + x.toNat) = x := by
      apply BitVec.eq_of_toNat_eq
      rw [BitVec.toNat_ofNat]
      have := x.isLt; omega
    rw [h1, h2, ih]

theorem beFixed_inj {k a b : Nat} (ha : a < 256 ^ k) (hb : b < 256 ^ k)
    (h : beFixed k a = beFixed k b) : a = b := by
  rw [← beNat_beFixed_of_lt ha, ← beNat_beFixed_of_lt hb, h]

/-- Minimal big-endian encoding, `(*big.Int).Bytes()`: no leading zero byte, empty for 0. -/
def natBytes (n : Nat) : Bytes :=
  if _h : n = 0 then [] else natBytes (n / 256) ++ [BitVec.ofNat 8 n]
termination_by n
decreasing_by exact Nat.div_lt_self (Nat.pos_of_ne_zero _h) (by decide)

theorem beNat_natBytes (n : Nat) : beNat (natBytes n) = n := by
  induction n using Nat.strongRecOn with
  | _ n ih =>
    rw [natBytes]
    split
    · simp [*]
    · rename_i h
      rw [beNat_append_single, ih _ (Nat.div_lt_self (Nat.pos_of_ne_zero h) (by decide))]
      simp [BitVec.toNat_ofNat]; omega

theorem natBytes_length_le {n k : Nat} (h : n < 256 ^ k) : (natBytes n).length ≤ k := by
  induction k generalizing n with
  | zero =>
    have : n = 0 := by simpa using h
    simp [this, natBytes]
  | succ k ih =>
    rw [natBytes]
    split
    · simp
    · simp only [List.length_append, List.length_singleton]
      have := ih (n := n / 256) (by rw [Nat.pow_succ] at h; omega)
      omega

/-- Left-padding the minimal encoding with zero bytes to `k` bytes gives the fixed-width encoding. -/
theorem pad_natBytes {n k : Nat} (h : n < 256 ^ k) :
    List.replicate (k - (natBytes n).length) (0 : Byte) ++ natBytes n = beFixed k n := by
  have hl := natBytes_length_le h
  have hz : ∀ j, beNat (List.replicate j (0 : Byte)) = 0 := by
    intro j
    induction j with
    | zero => rfl
    | succ j ih => rw [List.replicate_succ, beNat_cons, ih]; simp
  have e : beNat (List.replicate (k - (natBytes n).length) (0 : Byte) ++ natBytes n) = n := by
    rw [beNat_append, hz, beNat_natBytes]; simp
  have l : (List.replicate (k - (natBytes n).length) (0 : Byte) ++ natBytes n).length = k := by
    simp; omega
  have := beFixed_beNat (List.replicate (k - (natBytes n).length) (0 : Byte) ++ natBytes n)
  rw [e, l] at this
  exact this.symm

end Verif
