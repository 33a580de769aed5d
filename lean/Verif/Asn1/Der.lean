import Verif.Go
import Mathlib.Tactic.Push
import Mathlib.Tactic.ByContra
import Mathlib.Logic.Basic
/-!
DER as Go's `encoding/asn1` (standard library, Go 1.16, not in /repo) writes and reads it, for the few
ASN.1 types the repository uses.  Trusted reading of the library; the code of /repo only supplies the
Go struct types.  Simplifications: identifier octets in high-tag-number form are always rejected (the
library parses them and then finds a tag mismatch); errors carry no text (`none`).
-/
namespace Verif.Der
open Verif

/-- `appendLength` / the length octets written by `marshalField`. -/
def encLen (n : Nat) : Bytes :=
  if n < 128 then [BitVec.ofNat 8 n]
  else BitVec.ofNat 8 (128 + (natBytes n).length) :: natBytes n

/-- identifier, length, contents -/
def encTLV (id : Byte) (c : Bytes) : Bytes := id :: (encLen c.length ++ c)

/-- the length loop of `parseTagAndLength` (long form). -/
def parseLenBytes : Nat → Nat → Bytes → Option (Nat × Bytes)
  | 0, acc, b => some (acc, b)
  | _+1, _, [] => none
  | k+1, acc, x :: b =>
    if 2 ^ 23 ≤ acc then none
    else if acc * 256 + x.toNat = 0 then none
    else parseLenBytes k (acc * 256 + x.toNat) b

/-- `parseTagAndLength`: identifier octet, length, and the bytes after the header. -/
def parseHdr : Bytes → Option (Byte × Nat × Bytes)
  | id :: l :: rest =>
    if id &&& 0x1f = 0x1f then none
    else if l.toNat < 128 then some (id, l.toNat, rest)
    else if l.toNat = 128 then none
    else match parseLenBytes (l.toNat - 128) 0 rest with
      | none => none
      | some (n, r) => if n < 128 then none else some (id, n, r)
  | _ => none

/-- `parseField` for a mandatory element with identifier octet `id`: contents and what follows. -/
def parseTLV (id : Byte) (b : Bytes) : Option (Bytes × Bytes) :=
  match parseHdr b with
  | none => none
  | some (id', n, r) =>
    if id' ≠ id then none
    else if r.length < n then none
    else some (r.take n, r.drop n)

/-- `makeBigInt`: minimal two's complement, big-endian. -/
def encIntBody (n : Int) : Bytes :=
  match n with
  | .ofNat 0 => [0]
  | .ofNat (k+1) =>
    let b := natBytes (k+1)
    if 128 ≤ (b.headD 0).toNat then 0 :: b else b
  | .negSucc m =>
    let b := (natBytes m).map (fun x => ~~~x)
    if b = [] ∨ (b.headD 0).toNat < 128 then 0xff :: b else b

/-- `checkInteger` and `parseBigInt`. -/
def parseIntBody (b : Bytes) : Option Int :=
  match b with
  | [] => none
  | x :: t =>
    if (x = 0 ∧ t ≠ [] ∧ (t.headD 0).toNat < 128) ∨ (x = 0xff ∧ t ≠ [] ∧ 128 ≤ (t.headD 0).toNat) then none
    else if 128 ≤ x.toNat then some (Int.negSucc (beNat (b.map (fun x => ~~~x))))
    else some (beNat b)

def encInt (n : Int) : Bytes := encTLV 0x02 (encIntBody n)
def encOctets (b : Bytes) : Bytes := encTLV 0x04 b
def encSeq (fields : List Bytes) : Bytes := encTLV 0x30 fields.flatten

/-- a `*big.Int` field -/
def parseInt (b : Bytes) : Option (Int × Bytes) :=
  match parseTLV 0x02 b with
  | none => none
  | some (c, r) => (parseIntBody c).map (·, r)

/-- an `int` field on a 64-bit platform: `parseInt64` (at most 8 bytes). -/
def parseInt64 (b : Bytes) : Option (Int × Bytes) :=
  match parseTLV 0x02 b with
  | none => none
  | some (c, r) => if 8 < c.length then none else (parseIntBody c).map (·, r)

/-- a `[]byte` field -/
def parseOctets (b : Bytes) : Option (Bytes × Bytes) := parseTLV 0x04 b

/-- a struct: the contents of the SEQUENCE and the bytes after it. (The caller parses the fields
from the contents; the library ignores further elements inside the SEQUENCE.) -/
def parseSeq (b : Bytes) : Option (Bytes × Bytes) := parseTLV 0x30 b

/-! ## Lemmas -/

theorem natBytes_pos {n : Nat} (h : n ≠ 0) : natBytes n = natBytes (n / 256) ++ [BitVec.ofNat 8 n] := by
  rw [natBytes]; simp [h]

theorem natBytes_ne_nil {n : Nat} (h : n ≠ 0) : natBytes n ≠ [] := by
  rw [natBytes_pos h]; simp

/-- the minimal encoding has no leading zero byte -/
theorem natBytes_head {n : Nat} (h : n ≠ 0) : ((natBytes n).headD 0).toNat ≠ 0 := by
  induction n using Nat.strongRecOn with
  | _ n ih =>
    rw [natBytes_pos h]
    by_cases h2 : n / 256 = 0
    · rw [h2, show natBytes 0 = [] by rw [natBytes]; simp]
      simp [BitVec.toNat_ofNat]; omega
    · have := ih _ (Nat.div_lt_self (by omega) (by decide)) h2
      have hne := natBytes_ne_nil h2
      cases hb : natBytes (n / 256) with
      | nil => exact absurd hb hne
      | cons x t => rw [hb] at this; simpa using this

theorem parseLenBytes_ok (bs r : Bytes) (acc : Nat)
    (hf : acc * 256 ^ bs.length + beNat bs < 2 ^ 31)
    (h0 : acc ≠ 0 ∨ bs = [] ∨ (bs.headD 0).toNat ≠ 0) :
    parseLenBytes bs.length acc (bs ++ r) = some (acc * 256 ^ bs.length + beNat bs, r) := by
  induction bs generalizing acc with
  | nil => simp [parseLenBytes]
  | cons x t ih =>
    rw [beNat_cons] at hf ⊢
    simp only [List.length_cons, Nat.pow_succ] at hf ⊢
    have hp : 0 < 256 ^ t.length := Nat.pow_pos (by decide)
    have e : acc * (256 ^ t.length * 256) + (x.toNat * 256 ^ t.length + beNat t)
        = (acc * 256 + x.toNat) * 256 ^ t.length + beNat t := by
      rw [Nat.add_mul]
      have : acc * (256 ^ t.length * 256) = acc * 256 * 256 ^ t.length := by
        rw [Nat.mul_comm (256 ^ t.length), Nat.mul_assoc]
      omega
    rw [e] at hf ⊢
    have hlt : acc * 256 + x.toNat < 2 ^ 31 := by
      have : acc * 256 + x.toNat ≤ (acc * 256 + x.toNat) * 256 ^ t.length := Nat.le_mul_of_pos_right _ hp
      omega
    have hnz : acc * 256 + x.toNat ≠ 0 := by
      rcases h0 with h | h | h
      · omega
      · cases h
      · have : x.toNat ≠ 0 := by simpa using h
        omega
    show parseLenBytes (t.length + 1) acc (x :: (t ++ r)) = _
    rw [parseLenBytes, if_neg (by omega), if_neg hnz]
    exact ih _ hf (Or.inl hnz)

theorem encLen_length_le (n : Nat) (h : n < 2 ^ 31) : (encLen n).length ≤ 5 := by
  rw [encLen]; split
  · simp
  · have := natBytes_length_le (n := n) (k := 4) (by omega)
    simp; omega

theorem parseHdr_encTLV (id : Byte) (n : Nat) (r : Bytes) (hid : id &&& 0x1f ≠ 0x1f) (h : n < 2 ^ 31) :
    parseHdr (id :: (encLen n ++ r)) = some (id, n, r) := by
  rw [encLen]
  split
  · rename_i hs
    have : (BitVec.ofNat 8 n).toNat = n := by rw [BitVec.toNat_ofNat]; omega
    simp only [List.singleton_append, parseHdr, this, if_neg hid, if_pos hs]
  · rename_i hs
    have hl := natBytes_length_le (n := n) (k := 4) (by omega)
    have hn0 : n ≠ 0 := by omega
    have hl0 : (natBytes n).length ≠ 0 := by
      intro h0; exact natBytes_ne_nil hn0 (List.length_eq_zero_iff.mp h0)
    have ht : (BitVec.ofNat 8 (128 + (natBytes n).length)).toNat = 128 + (natBytes n).length := by
      rw [BitVec.toNat_ofNat]; omega
    simp only [List.cons_append, parseHdr, ht, if_neg hid]
    rw [if_neg (by omega), if_neg (by omega)]
    have e := parseLenBytes_ok (natBytes n) r 0 (by rw [beNat_natBytes]; omega)
      (Or.inr (Or.inr (natBytes_head hn0)))
    rw [show 128 + (natBytes n).length - 128 = (natBytes n).length by omega, e, beNat_natBytes]
    simp; omega

/-- a written element followed by anything is read back -/
theorem parseTLV_encTLV (id : Byte) (c r : Bytes) (hid : id &&& 0x1f ≠ 0x1f) (h : c.length < 2 ^ 31) :
    parseTLV id (encTLV id c ++ r) = some (c, r) := by
  have e : encTLV id c ++ r = id :: (encLen c.length ++ (c ++ r)) := by simp [encTLV]
  rw [parseTLV, e, parseHdr_encTLV id c.length (c ++ r) hid h]
  simp

theorem parseTLV_encTLV' (id : Byte) (c : Bytes) (hid : id &&& 0x1f ≠ 0x1f) (h : c.length < 2 ^ 31) :
    parseTLV id (encTLV id c) = some (c, []) := by
  have := parseTLV_encTLV id c [] hid h
  simpa using this

theorem map_compl_compl (b : Bytes) : (b.map (fun x => ~~~x)).map (fun x => ~~~x) = b := by
  simp [List.map_map, Function.comp_def]

theorem compl_toNat (x : Byte) : (~~~x).toNat = 255 - x.toNat := by
  rw [BitVec.toNat_not]

/-- INTEGER bodies round-trip, for every integer -/
theorem parseIntBody_encIntBody (n : Int) : parseIntBody (encIntBody n) = some n := by
  match n with
  | .ofNat 0 => rfl
  | .ofNat (k+1) =>
    have hh := natBytes_head (n := k + 1) (by omega)
    have hne := natBytes_ne_nil (n := k + 1) (by omega)
    have hv := beNat_natBytes (k + 1)
    cases hb : natBytes (k + 1) with
    | nil => exact absurd hb hne
    | cons x t =>
      rw [hb] at hh hv
      simp only [List.headD_cons] at hh
      rw [encIntBody]
      simp only [hb, List.headD_cons]
      by_cases h : 128 ≤ x.toNat
      · rw [if_pos h, parseIntBody]
        have : ¬ ((0:Byte) = 0 ∧ x :: t ≠ [] ∧ x.toNat < 128 ∨ (0:Byte) = 0xff ∧ x :: t ≠ [] ∧ 128 ≤ x.toNat) := by
          rintro (⟨-, -, h'⟩ | ⟨h', -⟩)
          · omega
          · exact absurd h' (by decide)
        rw [show (x :: t).headD 0 = x from rfl, if_neg this, if_neg (by decide), beNat_cons]
        simp [hv]
      · rw [if_neg h, parseIntBody]
        have hx0 : x ≠ 0 := by rintro rfl; exact hh rfl
        have hxf : x ≠ 0xff := by rintro rfl; exact h (by decide)
        rw [if_neg (by rintro (⟨h', -⟩ | ⟨h', -⟩); exacts [hx0 h', hxf h']), if_neg h, hv]
        rfl
  | .negSucc m =>
    rw [encIntBody]
    cases hb : (natBytes m).map (fun x => ~~~x) with
    | nil =>
      have hm : m = 0 := by
        by_contra h
        exact natBytes_ne_nil h (by simpa using hb)
      subst hm
      rw [if_pos (Or.inl rfl)]
      rfl
    | cons x t =>
      have hm : m ≠ 0 := by
        rintro rfl
        rw [show natBytes 0 = [] by rw [natBytes]; simp] at hb
        simp at hb
      have hback : (x :: t).map (fun x => ~~~x) = natBytes m := by rw [← hb, map_compl_compl]
      have hv : beNat ((x :: t).map (fun x => ~~~x)) = m := by rw [hback, beNat_natBytes]
      have hhd : (~~~x).toNat ≠ 0 := by
        have := natBytes_head hm
        rw [← hback] at this
        simpa using this
      by_cases h : x.toNat < 128
      · rw [show (x :: t).headD 0 = x from rfl, if_pos (Or.inr h), parseIntBody]
        rw [if_neg, if_pos (by decide)]
        · have e : beNat (List.map (fun x => ~~~x) ((0xff:Byte) :: x :: t)) = m := by
            rw [List.map_cons, beNat_cons, hv, show (~~~(0xff:Byte)).toNat = 0 by decide]
            simp
          rw [e]
        · simp only [List.headD_cons]
          rintro (⟨h', -⟩ | ⟨-, -, h'⟩)
          · exact absurd h' (by decide)
          · omega
      · rw [if_neg (by rintro (h' | h'); exacts [absurd h' (by simp), h h']), parseIntBody]
        rw [if_neg, if_pos (by omega), hv]
        rintro (⟨h', -⟩ | ⟨h', -⟩)
        · rw [h'] at h; exact h (by decide)
        · rw [h'] at hhd; exact hhd (by decide)

theorem encIntBody_length {n : Int} {k : Nat} (h : n.natAbs < 256 ^ k) : (encIntBody n).length ≤ k + 1 := by
  match n with
  | .ofNat 0 => simp [encIntBody]
  | .ofNat (j+1) =>
    have := natBytes_length_le (n := j+1) (k := k) (by simp only [Int.ofNat_eq_natCast, Int.natAbs_natCast] at h; exact h)
    simp only [encIntBody]; split <;> simp <;> omega
  | .negSucc m =>
    have := natBytes_length_le (n := m) (k := k) (by simp [Int.natAbs_negSucc] at h; omega)
    simp only [encIntBody]; split <;> simp <;> omega

theorem parseInt_encInt (n : Int) (r : Bytes) (h : (encIntBody n).length < 2 ^ 31) :
    parseInt (encInt n ++ r) = some (n, r) := by
  rw [parseInt, encInt, parseTLV_encTLV 0x02 _ r (by decide) h]
  simp [parseIntBody_encIntBody]

theorem parseOctets_encOctets (b r : Bytes) (h : b.length < 2 ^ 31) :
    parseOctets (encOctets b ++ r) = some (b, r) :=
  parseTLV_encTLV 0x04 b r (by decide) h

theorem parseSeq_encSeq (fs : List Bytes) (r : Bytes) (h : fs.flatten.length < 2 ^ 31) :
    parseSeq (encSeq fs ++ r) = some (fs.flatten, r) :=
  parseTLV_encTLV 0x30 _ r (by decide) h

theorem encTLV_length (id : Byte) (c : Bytes) (h : c.length < 2 ^ 31) :
    (encTLV id c).length ≤ c.length + 6 := by
  have := encLen_length_le c.length h
  simp [encTLV]; omega

/-! ## Uniqueness: what is read is what would be written -/

theorem beNat_pos_of_head {x : Byte} {t : Bytes} (h : x.toNat ≠ 0) : beNat (x :: t) ≠ 0 := by
  rw [beNat_cons]
  have : 0 < 256 ^ t.length := Nat.pow_pos (by decide)
  have := Nat.mul_pos (Nat.pos_of_ne_zero h) this
  omega

/-- a byte string without leading zero is the minimal encoding of its value -/
theorem natBytes_beNat (b : Bytes) (h : b = [] ∨ (b.headD 0).toNat ≠ 0) : natBytes (beNat b) = b := by
  suffices H : ∀ r : Bytes, (r.reverse = [] ∨ (r.reverse.headD 0).toNat ≠ 0) →
      natBytes (beNat r.reverse) = r.reverse by
    have := H b.reverse (by simpa using h)
    simpa using this
  intro r
  induction r with
  | nil => intro _; simp [natBytes]
  | cons x r ih =>
    intro h
    rw [List.reverse_cons] at h ⊢
    rw [beNat_append_single]
    have hx := x.isLt
    have hnz : beNat r.reverse * 256 + x.toNat ≠ 0 := by
      rcases h with h | h
      · simp at h
      · cases hr : r.reverse with
        | nil => rw [hr] at h; simp at h; simp; exact h
        | cons y t =>
          rw [hr] at h
          have : y.toNat ≠ 0 := by simpa using h
          have := beNat_pos_of_head (t := t) this
          omega
    rw [natBytes_pos hnz]
    have h1 : (beNat r.reverse * 256 + x.toNat) / 256 = beNat r.reverse := by omega
    have h2 : BitVec.ofNat 8 (beNat r.reverse * 256 + x.toNat) = x := by
      apply BitVec.eq_of_toNat_eq
      rw [BitVec.toNat_ofNat]; omega
    rw [h1, h2, ih]
    cases hr : r.reverse with
    | nil => left; rfl
    | cons y t =>
      rw [hr] at h
      right
      simpa using h

theorem parseIntBody_unique (b : Bytes) (n : Int) (h : parseIntBody b = some n) : encIntBody n = b := by
  cases b with
  | nil => simp [parseIntBody] at h
  | cons x t =>
    rw [parseIntBody] at h
    split at h
    · simp at h
    rename_i hmin
    push Not at hmin
    obtain ⟨hm1, hm2⟩ := hmin
    split at h
    · rename_i hneg
      simp only [Option.some.injEq] at h
      subst h
      rw [encIntBody]
      by_cases hxf : x = 0xff
      · subst hxf
        cases t with
        | nil =>
          rw [show beNat (List.map (fun x => ~~~x) [(0xff:Byte)]) = 0 by decide,
            show natBytes 0 = [] by rw [natBytes]; simp]
          simp
        | cons y t =>
          have hy := hm2 rfl (by simp)
          simp only [List.headD_cons] at hy
          have e : natBytes (beNat (List.map (fun x => ~~~x) ((0xff:Byte) :: y :: t)))
              = List.map (fun x => ~~~x) (y :: t) := by
            rw [List.map_cons, beNat_cons]
            have : (~~~(0xff:Byte)).toNat = 0 := by decide
            rw [this, Nat.zero_mul, Nat.zero_add]
            apply natBytes_beNat
            right
            simp only [List.map_cons, List.headD_cons]
            rw [compl_toNat]; omega
          rw [e, map_compl_compl]
          rw [if_pos (Or.inr (by simp only [List.headD_cons]; omega))]
      · have e : natBytes (beNat (List.map (fun x => ~~~x) (x :: t))) = List.map (fun x => ~~~x) (x :: t) := by
          apply natBytes_beNat
          right
          simp only [List.map_cons, List.headD_cons]
          rw [compl_toNat]
          have : x.toNat ≠ 255 := by
            intro h; apply hxf; apply BitVec.eq_of_toNat_eq; rw [h]; rfl
          have := x.isLt
          omega
        rw [e, map_compl_compl]
        rw [if_neg (by rintro (h' | h'); exacts [absurd h' (by simp), absurd h' (by simp only [List.headD_cons]; omega)])]
    · rename_i hpos
      simp only [Option.some.injEq] at h
      subst h
      by_cases hx0 : x = 0
      · subst hx0
        cases t with
        | nil => rfl
        | cons y t =>
          have hy := hm1 rfl (by simp)
          simp only [List.headD_cons] at hy
          have hb : beNat ((0:Byte) :: y :: t) = beNat (y :: t) := by rw [beNat_cons]; simp
          have hnz := beNat_pos_of_head (x := y) (t := t) (by omega)
          have e := natBytes_beNat (y :: t) (Or.inr (by simp; omega))
          rw [hb]
          obtain ⟨k, hk⟩ := Nat.exists_eq_succ_of_ne_zero hnz
          rw [hk] at e ⊢
          show encIntBody (Int.ofNat (k+1)) = _
          rw [encIntBody]
          simp only [Nat.succ_eq_add_one] at e
          simp only [e, List.headD_cons]
          rw [if_pos (by omega)]
      · have hxn : x.toNat ≠ 0 := by
          intro h; apply hx0; apply BitVec.eq_of_toNat_eq; rw [h]; rfl
        have hnz := beNat_pos_of_head (x := x) (t := t) hxn
        have e := natBytes_beNat (x :: t) (Or.inr (by simpa using hxn))
        obtain ⟨k, hk⟩ := Nat.exists_eq_succ_of_ne_zero hnz
        rw [hk] at e ⊢
        show encIntBody (Int.ofNat (k+1)) = _
        rw [encIntBody]
        simp only [Nat.succ_eq_add_one] at e
        simp only [e, List.headD_cons]
        rw [if_neg hpos]

theorem parseLenBytes_inv (k : Nat) (acc : Nat) (b r : Bytes) (n : Nat)
    (h : parseLenBytes k acc b = some (n, r)) (h0 : acc = 0 → k ≠ 0) :
    ∃ bs, bs.length = k ∧ b = bs ++ r ∧ n = acc * 256 ^ k + beNat bs ∧
      (acc = 0 → (bs.headD 0).toNat ≠ 0) ∧ (acc < 2 ^ 31 → n < 2 ^ 31) := by
  induction k generalizing acc b with
  | zero =>
    simp only [parseLenBytes, Option.some.injEq, Prod.mk.injEq] at h
    exact ⟨[], rfl, by simpa using h.2, by simp [h.1], fun h => absurd rfl (h0 h), by omega⟩
  | succ k ih =>
    cases b with
    | nil => simp [parseLenBytes] at h
    | cons x b =>
      rw [parseLenBytes] at h
      split at h
      · simp at h
      split at h
      · simp at h
      rename_i h1 h2
      obtain ⟨bs, e1, e2, e3, e4, e5⟩ := ih _ _ h (by intro h'; exact absurd h' h2)
      refine ⟨x :: bs, by simp [e1], by simp [e2], ?_, ?_, ?_⟩
      · rw [e3, beNat_cons, e1, Nat.pow_succ, Nat.add_mul]
        have : acc * (256 ^ k * 256) = acc * 256 * 256 ^ k := by
          rw [Nat.mul_comm (256 ^ k), Nat.mul_assoc]
        omega
      · intro ha; simp only [List.headD_cons]; omega
      · intro _; apply e5; have := x.isLt; omega

/-- the length octets accepted are exactly the ones written -/
theorem parseHdr_inv (b r : Bytes) (id : Byte) (n : Nat) (h : parseHdr b = some (id, n, r)) :
    b = id :: (encLen n ++ r) ∧ n < 2 ^ 31 ∧ id &&& 0x1f ≠ 0x1f := by
  match b with
  | [] => simp [parseHdr] at h
  | [_] => simp [parseHdr] at h
  | id' :: l :: rest =>
    rw [parseHdr] at h
    split at h
    · simp at h
    rename_i hid
    have hl := l.isLt
    split at h
    · rename_i hs
      simp only [Option.some.injEq, Prod.mk.injEq] at h
      obtain ⟨rfl, rfl, rfl⟩ := h
      refine ⟨?_, by omega, hid⟩
      rw [encLen, if_pos hs]
      simp
    split at h
    · simp at h
    rename_i h1 h2
    split at h
    · simp at h
    rename_i m r' hp
    split at h
    · simp at h
    rename_i hmin
    simp only [Option.some.injEq, Prod.mk.injEq] at h
    obtain ⟨rfl, rfl, rfl⟩ := h
    obtain ⟨bs, e1, e2, e3, e4, e5⟩ := parseLenBytes_inv _ _ _ _ _ hp (by omega)
    refine ⟨?_, e5 (by decide), hid⟩
    rw [encLen, if_neg hmin]
    have hm : m = beNat bs := by rw [e3]; simp
    have hb : natBytes m = bs := by rw [hm]; exact natBytes_beNat bs (Or.inr (e4 rfl))
    rw [hb, e1, e2]
    have : BitVec.ofNat 8 (128 + (l.toNat - 128)) = l := by
      apply BitVec.eq_of_toNat_eq; rw [BitVec.toNat_ofNat]; omega
    rw [this]; rfl

theorem parseTLV_inv (id : Byte) (b c r : Bytes) (h : parseTLV id b = some (c, r)) :
    b = encTLV id c ++ r ∧ c.length < 2 ^ 31 := by
  rw [parseTLV] at h
  split at h
  · simp at h
  rename_i id' n r' hp
  obtain ⟨e1, e2, e3⟩ := parseHdr_inv _ _ _ _ hp
  split at h
  · simp at h
  rename_i hid
  simp only [ne_eq, not_not] at hid
  split at h
  · simp at h
  rename_i hl
  simp only [Option.some.injEq, Prod.mk.injEq] at h
  obtain ⟨rfl, rfl⟩ := h
  subst hid
  have : (r'.take n).length = n := by simp; omega
  rw [encTLV, this]
  refine ⟨?_, by omega⟩
  rw [e1]; simp

theorem parseInt_inv (b r : Bytes) (n : Int) (h : parseInt b = some (n, r)) : b = encInt n ++ r := by
  rw [parseInt] at h
  split at h
  · simp at h
  rename_i c r' hp
  simp only [Option.map_eq_some_iff, Prod.mk.injEq] at h
  obtain ⟨m, h1, rfl, rfl⟩ := h
  obtain ⟨e, -⟩ := parseTLV_inv _ _ _ _ hp
  rw [encInt, parseIntBody_unique _ _ h1, e]

end Verif.Der
