import Verif.Keys.Model
/-!
More of Go's `encoding/asn1` (standard library, Go 1.16, not in /repo), as `x509/x509.go` uses it for certificates:
headers in full (class, constructed bit, tag number, also in high-tag-number form), `RawValue`, `SEQUENCE OF`, optional
fields. Trusted reading of the library, like Verif/Asn1/Der.lean.
-/
namespace Verif.X509.Asn1
open Verif

/-- `tagAndLength` -/
structure Hdr where
  cls : Nat
  compound : Bool
  tag : Nat
  len : Nat
deriving DecidableEq, Repr

/-- the length octets, the second half of `parseTagAndLength` -/
def lenOctets : Bytes → Option (Nat × Bytes)
  | [] => none
  | l :: rest =>
    if l.toNat < 128 then some (l.toNat, rest)
    else if l.toNat = 128 then none
    else match Der.parseLenBytes (l.toNat - 128) 0 rest with
      | none => none
      | some (n, r) => if n < 128 then none else some (n, r)

/-- `parseTagAndLength` -/
def hdr : Bytes → Option (Hdr × Bytes)
  | [] => none
  | id :: rest =>
    if id &&& 0x1f = 0x1f then
      match Keys.parseBase128 5 0 rest with
      | none => none
      | some (t, r) =>
        if t < 31 then none
        else (lenOctets r).map fun x => (⟨id.toNat / 64, id &&& 0x20 ≠ 0, t, x.1⟩, x.2)
    else (lenOctets rest).map fun x => (⟨id.toNat / 64, id &&& 0x20 ≠ 0, id.toNat % 32, x.1⟩, x.2)

/-- `RawValue` -/
structure Elem where
  h : Hdr
  body : Bytes
  full : Bytes
deriving DecidableEq, Repr

/-- a mandatory `RawValue`: one element of any kind, and what follows -/
def elem (b : Bytes) : Option (Elem × Bytes) :=
  match hdr b with
  | none => none
  | some (h, r) =>
    if r.length < h.len then none
    else some (⟨h, r.take h.len, b.take (b.length - r.length + h.len)⟩, r.drop h.len)

/-- the identifier octet of a header, for tag numbers below 31 -/
def Hdr.is (h : Hdr) (id : Byte) : Bool :=
  h.cls == id.toNat / 64 && h.compound == (id &&& 0x20 ≠ 0) && h.tag == id.toNat % 32

/-- class and tag number only (a `RawValue` field with a tag does not look at the constructed bit) -/
def Hdr.isTag (h : Hdr) (id : Byte) : Bool := h.cls == id.toNat / 64 && h.tag == id.toNat % 32

/-- elements up to the end (`fuel` is the number of bytes) -/
def elemsN : Nat → Bytes → Option (List Elem)
  | _, [] => some []
  | 0, _ => none
  | f + 1, b =>
    match elem b with
    | none => none
    | some (e, r) => (elemsN f r).map (e :: ·)

def elems (b : Bytes) : Option (List Elem) := elemsN b.length b

/-- `parseSequenceOf` for elements with identifier octet `id`: the bodies -/
def seqOf (id : Byte) (b : Bytes) : Option (List Bytes) :=
  match elems b with
  | none => none
  | some l => if l.all (fun e => e.h.is id) then some (l.map (·.body)) else none

/-- an optional field whose header must satisfy `p`: absent at the end of the data and when the header is another -/
def optWhere (p : Hdr → Bool) (b : Bytes) : Option (Option Elem × Bytes) :=
  if b = [] then some (none, [])
  else match hdr b with
    | none => none
    | some (h, r) =>
      if p h then
        if r.length < h.len then none
        else some (some ⟨h, r.take h.len, b.take (b.length - r.length + h.len)⟩, r.drop h.len)
      else some (none, b)

/-- an optional field with identifier octet `id` -/
def opt (id : Byte) (b : Bytes) : Option (Option Elem × Bytes) := optWhere (·.is id) b

/-- `asn1.Unmarshal` into something with identifier `id`, followed by the caller's check for trailing data -/
def only (id : Byte) (b : Bytes) : Option Bytes :=
  match Der.parseTLV id b with
  | some (c, []) => some c
  | _ => none

/-- `parseBool` -/
def boolBody : Bytes → Option Bool
  | [x] => if x = 0 then some false else if x = 0xff then some true else none
  | _ => none

/-- `makeObjectIdentifier` refuses these -/
def validOID : Keys.OID → Bool
  | a :: b :: _ => a < 2 && b < 40 || a == 2
  | _ => false

/-- `asn1.Marshal` of an `ObjectIdentifier` (arcs are naturals: negative arcs of the Go `[]int` are not modelled) -/
def marshalOID (o : Keys.OID) : Option Bytes := if validOID o then some (Keys.encOIDTLV o) else none

/-! ## Object identifiers round-trip -/

/-- arcs that `parseBase128Int` can read: below 2^31 (the first two are combined) -/
def OIDok (o : Keys.OID) : Prop :=
  validOID o = true ∧ match o with
    | a :: b :: r => a * 40 + b < 2 ^ 31 ∧ ∀ x ∈ r, x < 2 ^ 31
    | _ => False

instance (o : Keys.OID) : Decidable (OIDok o) := by
  unfold OIDok
  match o with
  | [] => exact inferInstance
  | [_] => exact inferInstance
  | a :: b :: r => exact inferInstance

theorem base128_spec (n : Nat) : (Keys.base128 n).foldl (fun a d => a * 128 + d) 0 = n ∧ (∀ d ∈ Keys.base128 n, d < 128) ∧
    Keys.base128 n = (Keys.base128 n).dropLast ++ [n % 128] := by
  induction n using Nat.strongRecOn with
  | _ n ih =>
    rw [Keys.base128]
    split
    · rename_i h
      simp [Nat.mod_eq_of_lt h, h]
    · rename_i h
      obtain ⟨h1, h2, _⟩ := ih (n / 128) (Nat.div_lt_self (by omega) (by decide))
      refine ⟨?_, ?_, ?_⟩
      · rw [List.foldl_append, h1]; simp only [List.foldl_cons, List.foldl_nil]; omega
      · intro d hd
        rcases List.mem_append.1 hd with hd | hd
        · exact h2 d hd
        · simp at hd; omega
      · simp

theorem base128_length (n k : Nat) (h : n < 128 ^ k) (hk : 0 < k) : (Keys.base128 n).length ≤ k := by
  induction k generalizing n with
  | zero => omega
  | succ k ih =>
    rw [Keys.base128]
    split
    · simp
    · rename_i hn
      have h' : n / 128 < 128 ^ k := by
        rw [Nat.pow_succ] at h
        exact Nat.div_lt_of_lt_mul (by omega)
      have hk0 : 0 < k := by
        rcases Nat.eq_zero_or_pos k with h0 | h0
        · subst h0; simp at h'; omega
        · exact h0
      have := ih (n / 128) h' hk0
      simp; omega

theorem foldl128_ge (l : List Nat) (a : Nat) : a ≤ l.foldl (fun a d => a * 128 + d) a := by
  induction l generalizing a with
  | nil => simp
  | cons x l ih => simp only [List.foldl_cons]; exact Nat.le_trans (by omega) (ih _)

theorem parseBase128_digits (ds : List Nat) (f : Nat) (hf : f < 128) (hd : ∀ d ∈ ds, d < 128) (k acc : Nat) (r : Bytes)
    (hk : ds.length < k) (hv : (ds ++ [f]).foldl (fun a d => a * 128 + d) acc < 2 ^ 31) :
    Keys.parseBase128 k acc (ds.map (fun x => BitVec.ofNat 8 (128 + x)) ++ [BitVec.ofNat 8 f] ++ r) =
      some ((ds ++ [f]).foldl (fun a d => a * 128 + d) acc, r) := by
  induction ds generalizing k acc with
  | nil =>
    obtain ⟨k, rfl⟩ : ∃ j, k = j + 1 := ⟨k - 1, by simp at hk; omega⟩
    have e : (BitVec.ofNat 8 f).toNat = f := by rw [BitVec.toNat_ofNat]; omega
    simp only [List.map_nil, List.nil_append, List.singleton_append, Keys.parseBase128, e]
    simp only [List.nil_append, List.foldl_cons, List.foldl_nil] at hv ⊢
    rw [if_pos hf, Nat.mod_eq_of_lt hf, if_pos hv]
  | cons d ds ih =>
    obtain ⟨k, rfl⟩ : ∃ j, k = j + 1 := ⟨k - 1, by simp at hk; omega⟩
    have hd0 := hd d (List.mem_cons_self)
    have e : (BitVec.ofNat 8 (128 + d)).toNat = 128 + d := by rw [BitVec.toNat_ofNat]; omega
    simp only [List.map_cons, List.cons_append, Keys.parseBase128, e]
    rw [if_neg (by omega), show (128 + d) % 128 = d by omega]
    simp only [List.cons_append, List.foldl_cons] at hv ⊢
    have := ih (fun x hx => hd x (List.mem_cons_of_mem _ hx)) k (acc * 128 + d) (by simp at hk; omega) hv
    simpa using this

theorem parseBase128_enc (n : Nat) (r : Bytes) (h : n < 2 ^ 31) :
    Keys.parseBase128 5 0 (Keys.encBase128 n ++ r) = some (n, r) := by
  obtain ⟨h1, h2, h3⟩ := base128_spec n
  have hl := base128_length n 5 (by omega) (by decide)
  have hlen : (Keys.base128 n).dropLast.length < 5 := by
    have := congrArg List.length h3
    rw [List.length_append] at this
    simp only [List.length_singleton] at this
    omega
  unfold Keys.encBase128
  have := parseBase128_digits (Keys.base128 n).dropLast (n % 128) (Nat.mod_lt _ (by decide))
    (fun d hd => h2 d (List.mem_of_mem_dropLast hd)) 5 0 r hlen (by rw [← h3, h1]; exact h)
  rw [← h3, h1] at this
  exact this

theorem encBase128_ne_nil (n : Nat) : Keys.encBase128 n ≠ [] := by simp [Keys.encBase128]

theorem parseArcs_enc (l : List Nat) (h : ∀ x ∈ l, x < 2 ^ 31) (f : Nat) (hf : l.length ≤ f) :
    Keys.parseArcs f (l.flatMap Keys.encBase128) = some l := by
  induction l generalizing f with
  | nil => cases f <;> rfl
  | cons x l ih =>
    obtain ⟨f, rfl⟩ : ∃ j, f = j + 1 := ⟨f - 1, by simp at hf; omega⟩
    rw [List.flatMap_cons]
    have e := parseBase128_enc x (l.flatMap Keys.encBase128) (h x List.mem_cons_self)
    have i := ih (fun y hy => h y (List.mem_cons_of_mem _ hy)) f (by simp at hf; omega)
    cases hc : Keys.encBase128 x ++ l.flatMap Keys.encBase128 with
    | nil => exact absurd (List.append_eq_nil_iff.1 hc).1 (encBase128_ne_nil x)
    | cons a t =>
      rw [hc] at e
      simp [Keys.parseArcs, e, i]

theorem flatMap_len (l : List Nat) : l.length ≤ (l.flatMap Keys.encBase128).length := by
  induction l with
  | nil => simp
  | cons x l ih =>
    have : 0 < (Keys.encBase128 x).length := List.length_pos_iff.2 (encBase128_ne_nil x)
    simp only [List.flatMap_cons, List.length_append, List.length_cons]
    omega

/-- every valid object identifier with readable arcs round-trips -/
theorem parseOIDBody_enc (o : Keys.OID) (h : OIDok o) : Keys.parseOIDBody (Keys.encOID o) = some o := by
  obtain ⟨hv, ha⟩ := h
  match o, hv, ha with
  | a :: b :: r, hv, ⟨hab, hr⟩ =>
    unfold Keys.parseOIDBody Keys.encOID
    rw [if_neg (by intro h; exact encBase128_ne_nil _ (List.append_eq_nil_iff.1 h).1)]
    simp only [parseBase128_enc _ _ hab, Option.bind_eq_bind, Option.bind_some,
      parseArcs_enc r hr _ (flatMap_len r)]
    simp only [validOID, Bool.or_eq_true, Bool.and_eq_true, decide_eq_true_eq, beq_iff_eq] at hv
    rcases hv with ⟨h1, h2⟩ | rfl
    · rw [if_pos (by omega)]
      rw [show (a * 40 + b) / 40 = a by omega, show (a * 40 + b) % 40 = b by omega]
    · by_cases hb : 2 * 40 + b < 80
      · omega
      · rw [if_neg hb, show 2 * 40 + b - 80 = b by omega]

theorem parseOID_enc (o : Keys.OID) (h : OIDok o) (r : Bytes) (hl : (Keys.encOID o).length < 2 ^ 31) :
    Keys.parseOID (Keys.encOIDTLV o ++ r) = some (o, r) := by
  unfold Keys.parseOID Keys.encOIDTLV
  rw [Der.parseTLV_encTLV 0x06 _ r (by decide) hl]
  simp [parseOIDBody_enc o h]

/-! ## Elements round-trip -/

theorem lenOctets_enc (n : Nat) (r : Bytes) (h : n < 2 ^ 31) : lenOctets (Der.encLen n ++ r) = some (n, r) := by
  have := Der.parseHdr_encTLV 0x30 n r (by decide) h
  cases hc : Der.encLen n ++ r with
  | nil =>
    rw [hc] at this
    cases this
  | cons l t =>
    rw [hc] at this
    rw [Der.parseHdr, if_neg (by decide)] at this
    simp only [lenOctets]
    by_cases h1 : l.toNat < 128
    · rw [if_pos h1] at this ⊢
      simpa using this
    · rw [if_neg h1] at this ⊢
      by_cases h2 : l.toNat = 128
      · rw [if_pos h2] at this; cases this
      · rw [if_neg h2] at this ⊢
        cases hp : Der.parseLenBytes (l.toNat - 128) 0 t with
        | none => rw [hp] at this; cases this
        | some x =>
          obtain ⟨m, q⟩ := x
          rw [hp] at this
          simp only at this ⊢
          by_cases h3 : m < 128
          · rw [if_pos h3] at this; cases this
          · rw [if_neg h3] at this ⊢
            simpa using this

/-- the header written for identifier octet `id` (tag number below 31) and a body of `n` bytes -/
def hdrOf (id : Byte) (n : Nat) : Hdr := ⟨id.toNat / 64, id &&& 0x20 ≠ 0, id.toNat % 32, n⟩

theorem hdr_enc (id : Byte) (n : Nat) (r : Bytes) (hid : id &&& 0x1f ≠ 0x1f) (h : n < 2 ^ 31) :
    hdr (id :: (Der.encLen n ++ r)) = some (hdrOf id n, r) := by
  simp only [hdr]
  rw [if_neg hid, lenOctets_enc n r h]
  rfl

theorem elem_enc (id : Byte) (c r : Bytes) (hid : id &&& 0x1f ≠ 0x1f) (h : c.length < 2 ^ 31) :
    elem (Der.encTLV id c ++ r) = some (⟨hdrOf id c.length, c, Der.encTLV id c⟩, r) := by
  have e : Der.encTLV id c ++ r = id :: (Der.encLen c.length ++ (c ++ r)) := by simp [Der.encTLV]
  unfold elem
  rw [e, hdr_enc id c.length (c ++ r) hid h, ← e]
  have hln : (hdrOf id c.length).len = c.length := rfl
  simp only
  rw [if_neg (by rw [hln]; simp), hln]
  have : (Der.encTLV id c ++ r).take ((Der.encTLV id c ++ r).length - (c ++ r).length + c.length) = Der.encTLV id c := by
    rw [List.length_append, List.length_append,
      show (Der.encTLV id c).length + r.length - (c.length + r.length) + c.length = (Der.encTLV id c).length by
        have : c.length ≤ (Der.encTLV id c).length := by simp [Der.encTLV]; omega
        omega]
    simp
  rw [this]
  simp

theorem encTLV_pos (id : Byte) (c : Bytes) : 0 < (Der.encTLV id c).length := by simp [Der.encTLV]

theorem encTLV_len (id : Byte) (c : Bytes) : c.length + 2 ≤ (Der.encTLV id c).length := by
  have : 1 ≤ (Der.encLen c.length).length := by
    unfold Der.encLen; split <;> simp
  simp [Der.encTLV]; omega

theorem elemsN_enc (l : List (Byte × Bytes)) (h : ∀ x ∈ l, x.1 &&& 0x1f ≠ 0x1f ∧ x.2.length < 2 ^ 31) (f : Nat) (hf : l.length ≤ f) :
    elemsN f (l.flatMap (fun x => Der.encTLV x.1 x.2)) =
      some (l.map fun x => ⟨hdrOf x.1 x.2.length, x.2, Der.encTLV x.1 x.2⟩) := by
  induction l generalizing f with
  | nil => cases f <;> rfl
  | cons x l ih =>
    obtain ⟨f, rfl⟩ : ∃ j, f = j + 1 := ⟨f - 1, by simp at hf; omega⟩
    have hx := h x List.mem_cons_self
    have e := elem_enc x.1 x.2 (l.flatMap (fun x => Der.encTLV x.1 x.2)) hx.1 hx.2
    have i := ih (fun y hy => h y (List.mem_cons_of_mem _ hy)) f (by simp at hf; omega)
    rw [List.flatMap_cons]
    cases hc : Der.encTLV x.1 x.2 ++ l.flatMap (fun x => Der.encTLV x.1 x.2) with
    | nil =>
      have := encTLV_pos x.1 x.2
      rw [(List.append_eq_nil_iff.1 hc).1] at this
      simp at this
    | cons a t =>
      rw [hc] at e
      simp only [elemsN, e, i, List.map_cons, Option.map_some]

theorem elems_enc (l : List (Byte × Bytes)) (h : ∀ x ∈ l, x.1 &&& 0x1f ≠ 0x1f ∧ x.2.length < 2 ^ 31) :
    elems (l.flatMap (fun x => Der.encTLV x.1 x.2)) = some (l.map fun x => ⟨hdrOf x.1 x.2.length, x.2, Der.encTLV x.1 x.2⟩) := by
  refine elemsN_enc l h _ ?_
  clear h
  induction l with
  | nil => simp
  | cons x l ih =>
    have := encTLV_pos x.1 x.2
    simp only [List.flatMap_cons, List.length_append, List.length_cons]; omega

theorem hdrOf_is (id : Byte) (n : Nat) : (hdrOf id n).is id = true := by simp [hdrOf, Hdr.is]

theorem seqOf_enc (id : Byte) (hid : id &&& 0x1f ≠ 0x1f) (l : List Bytes) (h : ∀ x ∈ l, x.length < 2 ^ 31) :
    seqOf id (l.flatMap (Der.encTLV id)) = some l := by
  have e := elems_enc (l.map (fun x => (id, x))) (by
    intro x hx
    obtain ⟨y, hy, rfl⟩ := List.mem_map.1 hx
    exact ⟨hid, h y hy⟩)
  rw [List.flatMap_map] at e
  unfold seqOf
  rw [e]
  simp only
  rw [if_pos]
  · simp [Function.comp_def]
  · simp [hdrOf_is]

theorem opt_enc (id : Byte) (c r : Bytes) (hid : id &&& 0x1f ≠ 0x1f) (h : c.length < 2 ^ 31) :
    opt id (Der.encTLV id c ++ r) = some (some ⟨hdrOf id c.length, c, Der.encTLV id c⟩, r) := by
  have e : Der.encTLV id c ++ r = id :: (Der.encLen c.length ++ (c ++ r)) := by simp [Der.encTLV]
  have he := elem_enc id c r hid h
  unfold elem at he
  unfold opt optWhere
  rw [if_neg (by rw [e]; simp)]
  cases hh : hdr (Der.encTLV id c ++ r) with
  | none => rw [hh] at he; cases he
  | some x =>
    obtain ⟨h', r'⟩ := x
    rw [hh] at he
    have h2 : h' = hdrOf id c.length := by
      rw [e, hdr_enc id c.length (c ++ r) hid h] at hh
      exact (Prod.mk.inj (Option.some.inj hh)).1.symm
    subst h2
    simp only [hdrOf_is, if_true] at he ⊢
    split at he
    · cases he
    · rename_i hn
      rw [if_neg hn]
      obtain ⟨h3, h4⟩ := Prod.mk.inj (Option.some.inj he)
      rw [h3, h4]

theorem opt_nil (id : Byte) : opt id [] = some (none, []) := rfl

/-- another element first: the field is absent -/
theorem opt_other (id id' : Byte) (c r : Bytes) (hid : id' &&& 0x1f ≠ 0x1f) (h : c.length < 2 ^ 31) (hne : (hdrOf id' c.length).is id = false) :
    opt id (Der.encTLV id' c ++ r) = some (none, Der.encTLV id' c ++ r) := by
  have e : Der.encTLV id' c ++ r = id' :: (Der.encLen c.length ++ (c ++ r)) := by simp [Der.encTLV]
  unfold opt optWhere
  rw [if_neg (by rw [e]; simp), e, hdr_enc id' c.length (c ++ r) hid h]
  simp [hne]

theorem only_enc (id : Byte) (c : Bytes) (hid : id &&& 0x1f ≠ 0x1f) (h : c.length < 2 ^ 31) : only id (Der.encTLV id c) = some c := by
  unfold only
  rw [Der.parseTLV_encTLV' id c hid h]

end Verif.X509.Asn1
