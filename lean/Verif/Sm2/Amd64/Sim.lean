import Verif.Sm2.Amd64.Model
/-!
Two collections of assembly routines that agree operation by operation agree on whole multiplications: the Go code
of `sm2p256_amd64.go` treats points as opaque.
-/
namespace Verif.Sm2.Amd64
open Verif Verif.Sm2

/-- relations between the points of `a` and of `b` that every routine respects -/
structure Sim (a b : Asm) where
  RJ : a.J → b.J → Prop
  RA : a.A → b.A → Prop
  add : ∀ {p p' q q'}, RJ p p' → RJ q q' → RJ (a.add p q).1 (b.add p' q').1
  dbl : ∀ {p p'}, RJ p p' → RJ (a.dbl p) (b.dbl p')
  neg : ∀ {p p'}, RJ p p' → RJ (a.neg p) (b.neg p')
  negA : ∀ {p p'}, RA p p' → RA (a.negA p) (b.negA p')
  negB : ∀ {p p'}, RA p p' → RA (a.negB p) (b.negB p')
  addA : ∀ {p p' q q'}, RJ p p' → RA q q' → RJ (a.addA p q) (b.addA p' q')
  toJ : ∀ {p p'}, RA p p' → RJ (a.toJ p) (b.toJ p')
  zeroJ : RJ a.zeroJ b.zeroJ
  zeroA : RA a.zeroA b.zeroA
  ofCoord : ∀ x y, RJ (a.ofCoord x y) (b.ofCoord x y)
  normalize : ∀ {p p'}, RJ p p' → RA (a.normalize p) (b.normalize p')
  base : RJ a.basePoint b.basePoint

namespace Sim
variable {a b : Asm} (S : Sim a b)
include S

theorem rowBase {p : a.J} {p' : b.J} (h : S.RJ p p') : ∀ j, S.RJ (Amd64.rowBase a p j) (Amd64.rowBase b p' j)
  | 0 => h
  | 1 => S.dbl h
  | j + 2 => S.add (rowBase h (j + 1)) h

theorem dblN : ∀ (k : Nat) {p : a.J} {p' : b.J}, S.RJ p p' → S.RJ (Amd64.dblN a k p) (Amd64.dblN b k p')
  | 0, _, _, h => h
  | k + 1, _, _, h => dblN k (S.dbl h)

theorem cell {p : a.J} {p' : b.J} (h : S.RJ p p') : ∀ i, S.RA (Amd64.cell a p i) (Amd64.cell b p' i)
  | 0 => S.normalize h
  | i + 1 => S.normalize (S.dblN 7 (S.toJ (cell h i)))

theorem buildTable {p : a.J} {p' : b.J} (h : S.RJ p p') (i j : Nat) :
    S.RA (Amd64.buildTable a p i j) (Amd64.buildTable b p' i j) := S.cell (S.rowBase h j) i

/-- entry by entry -/
def RT (t : Table a) (t' : Table b) : Prop := ∀ i j, S.RA (t i j) (t' i j)

theorem selectBase {t : Table a} {t' : Table b} (h : S.RT t t') (i k : Nat) :
    S.RA (Amd64.selectBase a t i k) (Amd64.selectBase b t' i k) := by
  unfold Amd64.selectBase
  split
  · exact S.zeroA
  · exact h _ _

theorem ifA {c : Prop} [Decidable c] {p q : a.A} {p' q' : b.A} (h : S.RA p p') (k : S.RA q q') :
    S.RA (if c then p else q) (if c then p' else q') := by split <;> assumption
theorem ifJ {c : Prop} [Decidable c] {p q : a.J} {p' q' : b.J} (h : S.RJ p p') (k : S.RJ q q') :
    S.RJ (if c then p else q) (if c then p' else q') := by split <;> assumption

theorem addAffine {p : a.J} {p' : b.J} {q : a.A} {q' : b.A} (h : S.RJ p p') (k : S.RA q q') (sign sel zero : Nat) :
    S.RJ (Amd64.addAffine a p q sign sel zero) (Amd64.addAffine b p' q' sign sel zero) := by
  unfold Amd64.addAffine addAffineN
  have e := S.ifA (c := sign = 0) k (S.negB k)
  exact S.ifJ (S.toJ e) (S.ifJ h (S.addA h e))

theorem preLoop {t : Table a} {t' : Table b} (h : S.RT t t') (s : Limbs) : ∀ (fuel i index zero : Nat) {p : a.J} {p' : b.J},
    S.RJ p p' → S.RJ (Amd64.preLoop a t s fuel i index zero p) (Amd64.preLoop b t' s fuel i index zero p')
  | 0, _, _, _, _, _, k => k
  | fuel + 1, i, index, zero, _, _, k => preLoop h s fuel (i + 1) (index + 7) _ (S.addAffine k (S.selectBase h i _) _ _ _)

theorem preMult {t : Table a} {t' : Table b} (h : S.RT t t') (s : Limbs) :
    S.RJ (Amd64.preMult a t s) (Amd64.preMult b t' s) := by
  unfold Amd64.preMult
  have e := S.selectBase h 0 (boothW7 ((s.get 0 <<< 1) &&& 0xff)).1
  exact S.preLoop h s _ _ _ _ (S.toJ (S.ifA e (S.negA e)))

theorem precomp {p : a.J} {p' : b.J} (h : S.RJ p p') : List.Forall₂ S.RJ (Amd64.precomp a p) (Amd64.precomp b p') := by
  unfold Amd64.precomp
  have h2 := S.dbl h
  have h4 := S.dbl h2
  have h8 := S.dbl h4
  have h16 := S.dbl h8
  have h3 := S.add h2 h
  have h5 := S.add h4 h
  have h9 := S.add h8 h
  have h6 := S.dbl h3
  have h10 := S.dbl h5
  have h7 := S.add h6 h
  have h11 := S.add h10 h
  have h12 := S.dbl h6
  have h14 := S.dbl h7
  have h13 := S.add h12 h
  have h15 := S.add h14 h
  exact .cons h (.cons h2 (.cons h3 (.cons h4 (.cons h5 (.cons h6 (.cons h7 (.cons h8 (.cons h9 (.cons h10 (.cons h11 (.cons h12
    (.cons h13 (.cons h14 (.cons h15 (.cons h16 .nil)))))))))))))))

omit S in
theorem getD_rel {α β : Type} {r : α → β → Prop} {l : List α} {l' : List β} (h : List.Forall₂ r l l') {d : α} {d' : β} (hd : r d d') :
    ∀ i, r (l.getD i d) (l'.getD i d') := by
  induction h with
  | nil => intro i; simpa using hd
  | cons h1 _ ih =>
    intro i
    cases i with
    | zero => simpa using h1
    | succ i => simpa using ih i

theorem select {l : List a.J} {l' : List b.J} (h : List.Forall₂ S.RJ l l') (i : Nat) : S.RJ (Amd64.select a l i) (Amd64.select b l' i) := by
  unfold Amd64.select
  exact S.ifJ S.zeroJ (getD_rel h S.zeroJ _)

theorem smStep {l : List a.J} {l' : List b.J} (h : List.Forall₂ S.RJ l l') {p : a.J} {p' : b.J} (k : S.RJ p p') (zero : Nat) (w : W64) :
    S.RJ (Amd64.smStep a l p zero w).1 (Amd64.smStep b l' p' zero w).1 ∧ (Amd64.smStep a l p zero w).2 = (Amd64.smStep b l' p' zero w).2 := by
  refine ⟨?_, rfl⟩
  unfold Amd64.smStep
  have e := S.select h (boothW5 w).1
  have e2 := S.ifJ (c := (boothW5 w).2 = 0) e (S.neg e)
  exact S.ifJ e2 (S.ifJ k (S.add k e2))

theorem smLoop {l : List a.J} {l' : List b.J} (h : List.Forall₂ S.RJ l l') (s : Limbs) (index : Nat) : ∀ {p : a.J} {p' : b.J} (zero : Nat), S.RJ p p' →
    S.RJ (Amd64.smLoop a l s index p zero).1 (Amd64.smLoop b l' s index p' zero).1 ∧
    (Amd64.smLoop a l s index p zero).2 = (Amd64.smLoop b l' s index p' zero).2 := by
  induction index using Nat.strongRecOn with
  | ind index ih =>
    intro p p' zero k
    rw [Amd64.smLoop, Amd64.smLoop.eq_1 b]
    by_cases hi : index > 4
    · rw [dif_pos hi, dif_pos hi]
      dsimp only
      obtain ⟨h1, h2⟩ := S.smStep h (S.dblN 5 k) zero (window s (index - 5) 0x3f)
      rw [h2]
      exact ih _ (by omega) _ h1
    · rw [dif_neg hi, dif_neg hi]
      exact ⟨k, rfl⟩

theorem scalarMultJ {p : a.J} {p' : b.J} (h : S.RJ p p') (s : Limbs) : S.RJ (Amd64.scalarMultJ a p s) (Amd64.scalarMultJ b p' s) := by
  unfold Amd64.scalarMultJ
  have hp := S.precomp h
  obtain ⟨h1, h2⟩ := S.smLoop hp s 254 (boothW5 ((s.get (254 / 64) >>> (254 % 64)) &&& 0x3f)).1 (S.select hp (boothW5 ((s.get (254 / 64) >>> (254 % 64)) &&& 0x3f)).1)
  dsimp only
  rw [h2]
  exact (S.smStep hp (S.dblN 5 h1) _ _).1

theorem combinedJ {t : Table a} {t' : Table b} (h : S.RT t t') (s k : Bytes)
    (hf : (a.add (Amd64.preMult a (Amd64.baseTable a) (getScalar s)) (Amd64.preMult a t (getScalar k))).2 =
      (b.add (Amd64.preMult b (Amd64.baseTable b) (getScalar s)) (Amd64.preMult b t' (getScalar k))).2) :
    S.RJ (Amd64.combinedJ a t s k) (Amd64.combinedJ b t' s k) := by
  have h1 := S.preMult (t := Amd64.baseTable a) (t' := Amd64.baseTable b) (fun i j => S.buildTable S.base i j) (getScalar s)
  have h2 := S.preMult h (getScalar k)
  unfold Amd64.combinedJ copyConditional
  dsimp only
  rw [hf]
  exact S.ifJ h2 (S.ifJ h1 (S.ifJ (S.dbl h1) (S.add h1 h2)))

end Sim
end Verif.Sm2.Amd64
