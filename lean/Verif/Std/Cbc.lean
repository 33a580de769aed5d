import Verif.Go
/-!
Cipher block chaining as in Go's `crypto/cipher` (`NewCBCEncrypter`, `NewCBCDecrypter`, standard
library, not in /repo), over an arbitrary block function.
-/
namespace Verif.Std
open Verif

def xorB (a b : Bytes) : Bytes := List.zipWith (· ^^^ ·) a b

theorem xorB_length (a b : Bytes) : (xorB a b).length = min a.length b.length := by simp [xorB]

theorem xorB_cancel (a b : Bytes) (h : a.length = b.length) : xorB (xorB a b) b = a := by
  induction a generalizing b with
  | nil => simp [xorB]
  | cons x a ih =>
    cases b with
    | nil => simp at h
    | cons y b =>
      have := ih b (by simpa using h)
      simp only [xorB, List.zipWith_cons_cons] at this ⊢
      rw [this, BitVec.xor_assoc, BitVec.xor_self, BitVec.xor_zero]

/-- `CryptBlocks` of an encrypter with block function `E`, block size `bs`, `n` blocks: the
ciphertext and the chaining value left in the object. -/
def cbcEnc (E : Bytes → Bytes) (bs : Nat) : Nat → Bytes → Bytes → Bytes × Bytes
  | 0, iv, _ => ([], iv)
  | n+1, iv, data =>
    let c := E (xorB (data.take bs) iv)
    let r := cbcEnc E bs n c (data.drop bs)
    (c ++ r.1, r.2)

/-- `CryptBlocks` of a decrypter with block function `D`. -/
def cbcDec (D : Bytes → Bytes) (bs : Nat) : Nat → Bytes → Bytes → Bytes × Bytes
  | 0, iv, _ => ([], iv)
  | n+1, iv, data =>
    let p := xorB (D (data.take bs)) iv
    let r := cbcDec D bs n (data.take bs) (data.drop bs)
    (p ++ r.1, r.2)

theorem cbcEnc_length (E : Bytes → Bytes) (bs n : Nat) (iv data : Bytes)
    (hE : ∀ b, b.length = bs → (E b).length = bs) (hiv : iv.length = bs) (hd : data.length = n * bs) :
    (cbcEnc E bs n iv data).1.length = n * bs ∧ (cbcEnc E bs n iv data).2.length = bs := by
  induction n generalizing iv data with
  | zero => simp [cbcEnc, hiv]
  | succ n ih =>
    have hl : (data.take bs).length = bs := by simp [hd, Nat.succ_mul]
    have hc := hE (xorB (data.take bs) iv) (by rw [xorB_length, hl, hiv, Nat.min_self])
    have := ih (E (xorB (data.take bs) iv)) (data.drop bs) hc (by simp [hd, Nat.succ_mul])
    refine ⟨?_, this.2⟩
    simp only [cbcEnc, List.length_append, hc, this.1, Nat.succ_mul]
    omega

theorem cbcDec_length (D : Bytes → Bytes) (bs n : Nat) (iv data : Bytes)
    (hD : ∀ b, b.length = bs → (D b).length = bs) (hiv : iv.length = bs) (hd : data.length = n * bs) :
    (cbcDec D bs n iv data).1.length = n * bs ∧ (cbcDec D bs n iv data).2.length = bs := by
  induction n generalizing iv data with
  | zero => simp [cbcDec, hiv]
  | succ n ih =>
    have hl : (data.take bs).length = bs := by simp [hd, Nat.succ_mul]
    have hc := hD (data.take bs) hl
    have := ih (data.take bs) (data.drop bs) hl (by simp [hd, Nat.succ_mul])
    refine ⟨?_, this.2⟩
    simp only [cbcDec, List.length_append, xorB_length, hc, hiv, this.1, Nat.succ_mul]
    omega

/-- decrypting an encryption returns the data, and both objects end with the same chaining value -/
theorem cbcDec_cbcEnc (E D : Bytes → Bytes) (bs n : Nat) (iv data : Bytes)
    (hE : ∀ b, b.length = bs → (E b).length = bs) (hDE : ∀ b, b.length = bs → D (E b) = b)
    (hiv : iv.length = bs) (hd : data.length = n * bs) :
    cbcDec D bs n iv (cbcEnc E bs n iv data).1 = (data, (cbcEnc E bs n iv data).2) := by
  induction n generalizing iv data with
  | zero =>
    have : data = [] := List.eq_nil_of_length_eq_zero (by simpa using hd)
    simp [cbcDec, cbcEnc, this]
  | succ n ih =>
    have hl : (data.take bs).length = bs := by simp [hd, Nat.succ_mul]
    have hx : (xorB (data.take bs) iv).length = bs := by rw [xorB_length, hl, hiv, Nat.min_self]
    have hc := hE _ hx
    have := ih (E (xorB (data.take bs) iv)) (data.drop bs) hc (by simp [hd, Nat.succ_mul])
    simp only [cbcDec, cbcEnc]
    rw [List.take_left' hc, List.drop_left' hc, this, hDE _ hx, xorB_cancel _ _ (by rw [hl, hiv])]
    simp

end Verif.Std
