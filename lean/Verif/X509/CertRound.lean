import Verif.X509.Cert
import Verif.X509.ExtProps
/-!
Round trips of the pieces of a certificate: what `CreateCertificate` writes is what `ParseCertificate` reads (lemmas for C97–C99).
-/
namespace Verif.X509
open Verif Asn1

/-! ## elements -/

theorem optWhere_enc (p : Hdr → Bool) (id : Byte) (c r : Bytes) (hid : id &&& 0x1f ≠ 0x1f) (h : c.length < 2 ^ 31)
    (hp : p (hdrOf id c.length) = true) :
    optWhere p (Der.encTLV id c ++ r) = some (some ⟨hdrOf id c.length, c, Der.encTLV id c⟩, r) := by
  have e : Der.encTLV id c ++ r = id :: (Der.encLen c.length ++ (c ++ r)) := by simp [Der.encTLV]
  have he := elem_enc id c r hid h
  unfold elem at he
  unfold optWhere
  rw [if_neg (by rw [e]; simp)]
  cases hh : hdr (Der.encTLV id c ++ r) with
  | none => rw [hh] at he; cases he
  | some x =>
    obtain ⟨h', r'⟩ := x
    rw [hh] at he
    have h2 : h' = hdrOf id c.length := by
      rw [e, hdr_enc id c.length (c ++ r) hid h] at hh
      exact (Prod.mk.inj (Option.some.inj hh)).1.symm
    subst h2
    simp only [hp, if_true] at he ⊢
    split at he
    · cases he
    · rename_i hn
      rw [if_neg hn]
      obtain ⟨h3, h4⟩ := Prod.mk.inj (Option.some.inj he)
      rw [h3, h4]

/-- an explicit field, present -/
theorem explicit_enc (outer inner : Byte) (c r : Bytes) (ho : outer &&& 0x1f ≠ 0x1f) (hc : outer &&& 0x20 ≠ 0)
    (hi : inner &&& 0x1f ≠ 0x1f) (h : (Der.encTLV inner c).length < 2 ^ 31) :
    explicit outer inner (Der.encTLV outer (Der.encTLV inner c) ++ r) = some (some ⟨hdrOf inner c.length, c, Der.encTLV inner c⟩, r) := by
  have hcl : c.length < 2 ^ 31 := tlv_len h
  have e : Der.encTLV outer (Der.encTLV inner c) ++ r =
      outer :: (Der.encLen (Der.encTLV inner c).length ++ (Der.encTLV inner c ++ r)) := by simp [Der.encTLV]
  have e2 : Der.encTLV inner c ++ r = inner :: (Der.encLen c.length ++ (c ++ r)) := by simp [Der.encTLV]
  unfold explicit
  rw [if_neg (by rw [e]; simp), e, hdr_enc outer _ _ ho h]
  simp only
  rw [if_neg (by rw [e2]; simp)]
  have ht : (hdrOf outer (Der.encTLV inner c).length).isTag outer = true := by simp [hdrOf, Hdr.isTag]
  have hcp : (hdrOf outer (Der.encTLV inner c).length).compound = true := by simp only [hdrOf, decide_eq_true_eq]; exact hc
  rw [ht, hcp]
  have hl0 : (hdrOf outer (Der.encTLV inner c).length).len ≠ 0 := by
    show (Der.encTLV inner c).length ≠ 0
    have := encTLV_pos inner c
    omega
  simp only [Bool.or_true, Bool.and_true, if_true]
  rw [if_neg hl0]
  have hh := hdr_enc inner c.length (c ++ r) hi hcl
  rw [← e2] at hh
  rw [hh]
  simp only [hdrOf_is, if_true]
  have hln : (hdrOf inner c.length).len = c.length := rfl
  rw [hln, if_neg (by simp)]
  have : (Der.encTLV inner c ++ r).take ((Der.encTLV inner c ++ r).length - (c ++ r).length + c.length) = Der.encTLV inner c := by
    rw [List.length_append, List.length_append,
      show (Der.encTLV inner c).length + r.length - (c.length + r.length) + c.length = (Der.encTLV inner c).length by
        have := encTLV_len inner c
        omega]
    simp
  rw [this]
  simp

theorem explicit_nil (outer inner : Byte) : explicit outer inner [] = some (none, []) := rfl

/-! ## algorithm identifiers -/

/-- parameters of an algorithm: none, or one element -/
def ParamsOk (p : Bytes) : Prop := p = [] ∨ ∃ id c, id &&& 0x1f ≠ 0x1f ∧ p = Der.encTLV id c

theorem algIdBody_enc (a : AlgId) (ho : OIDok a.oid) (hp : ParamsOk a.params)
    (hl : (Keys.encOIDTLV a.oid ++ a.params).length < 2 ^ 31) : algIdBody (Keys.encOIDTLV a.oid ++ a.params) = some a := by
  have hoid : (Keys.encOID a.oid).length < 2 ^ 31 := by
    have := encTLV_len 0x06 (Keys.encOID a.oid)
    rw [List.length_append, Keys.encOIDTLV] at hl
    omega
  unfold algIdBody
  rw [parseOID_enc a.oid ho a.params hoid]
  simp only [Option.bind_eq_bind, Option.bind_some]
  rcases hp with hp | ⟨id, c, hid, hp⟩
  · rw [hp]
    obtain ⟨o, p⟩ := a
    simp only at hp
    subst hp
    rfl
  · have hc : c.length < 2 ^ 31 := by
      have := encTLV_len id c
      rw [List.length_append, hp] at hl
      omega
    have := optWhere_enc (fun _ => true) id c [] hid hc rfl
    rw [List.append_nil] at this
    rw [hp, this]
    simp only [Option.bind_some, Option.map_some, Option.getD_some]
    rw [← hp]

theorem algId_enc (a : AlgId) (ho : OIDok a.oid) (hp : ParamsOk a.params) (hl : (encAlgId a).length < 2 ^ 31) (r : Bytes) :
    algId (encAlgId a ++ r) = some (a, r) := by
  have hb : (Keys.encOIDTLV a.oid ++ a.params).length < 2 ^ 31 := tlv_len hl
  unfold algId encAlgId
  rw [Der.parseTLV_encTLV 0x30 _ r (by decide) hb]
  simp [algIdBody_enc a ho hp hb]

/-! ## bit strings, keys -/

theorem bitString_enc (b r : Bytes) (h : (encBits b).length < 2 ^ 31) : bitString (encBits b ++ r) = some (b, r) := by
  have hb : (0 :: b : Bytes).length < 2 ^ 31 := tlv_len h
  unfold bitString encBits
  rw [Der.parseTLV_encTLV 0x03 _ r (by decide) hb]
  simp [Keys.parseBitStringBody, Keys.rightAlign, Nat.mod_one]

theorem seqField_enc (c r : Bytes) (h : c.length < 2 ^ 31) :
    seqField (Der.encTLV 0x30 c ++ r) = some (⟨hdrOf 0x30 c.length, c, Der.encTLV 0x30 c⟩, r) := by
  unfold seqField
  rw [elem_enc 0x30 c r (by decide) h]
  simp only [hdrOf_is, if_true]

theorem spkiField_enc (a : AlgId) (bits r : Bytes) (ho : OIDok a.oid) (hp : ParamsOk a.params) (h : (encSpki a bits).length < 2 ^ 31) :
    spkiField (encSpki a bits ++ r) = some (⟨encSpki a bits, a, bits⟩, r) := by
  have hb : (encAlgId a ++ encBits bits).length < 2 ^ 31 := tlv_len h
  have h1 : (encAlgId a).length < 2 ^ 31 := by rw [List.length_append] at hb; omega
  have h2 : (encBits bits).length < 2 ^ 31 := by rw [List.length_append] at hb; omega
  have e3 := bitString_enc bits [] h2
  rw [List.append_nil] at e3
  unfold spkiField encSpki
  rw [seqField_enc _ r hb]
  simp [spkiBody, algId_enc a ho hp h1, e3]

/-! ## extensions -/

def extBody (e : Extension) : Bytes :=
  Keys.encOIDTLV e.id ++ (if e.critical then Der.encTLV 0x01 [0xff] else []) ++ Der.encTLV 0x04 e.value

theorem encExt_eq {e : Extension} {y : Bytes} (h : encExt e = .ok y) : y = Der.encTLV 0x30 (extBody e) := by
  unfold encExt at h
  obtain ⟨o, ho, h⟩ := Res.bind_eq_ok.1 h
  rw [oidRes_eq ho] at h
  simp only [Res.ok.injEq] at h
  exact h.symm

theorem parseCritical_enc (c : Bool) (v : Bytes) (h : v.length < 2 ^ 31) :
    parseCritical ((if c then Der.encTLV 0x01 [0xff] else []) ++ Der.encTLV 0x04 v) = some (c, Der.encTLV 0x04 v) := by
  unfold parseCritical
  cases c with
  | true =>
    simp only [if_true]
    rw [opt_enc 0x01 [0xff] _ (by decide) (by simp)]
    rfl
  | false =>
    have := opt_other 0x01 0x04 v [] (by decide) h (by simp [hdrOf, Hdr.is])
    rw [List.append_nil] at this
    simp only [Bool.false_eq_true, if_false, List.nil_append, this]

theorem parseExt_enc (e : Extension) (ho : OIDok e.id) (h : (extBody e).length < 2 ^ 31) : parseExt (extBody e) = some e := by
  unfold extBody at h ⊢
  rw [List.append_assoc] at h ⊢
  have h1 : (Keys.encOID e.id).length < 2 ^ 31 := by
    have := encTLV_len 0x06 (Keys.encOID e.id)
    rw [List.length_append, Keys.encOIDTLV] at h
    omega
  have h2 : e.value.length < 2 ^ 31 := by
    have := encTLV_len 0x04 e.value
    rw [List.length_append, List.length_append] at h
    omega
  unfold parseExt
  rw [parseOID_enc e.id ho _ h1]
  simp only [Option.bind_eq_bind, Option.bind_some]
  rw [parseCritical_enc _ _ h2]
  simp only [Option.bind_some]
  rw [Der.parseTLV_encTLV' 0x04 _ (by decide) h2]
  rfl

theorem parseExts_enc (exts : List Extension) (xs : Bytes) (hx : marshalAll encExt exts = .ok xs) (ho : ∀ e ∈ exts, OIDok e.id)
    (h : (Der.encTLV 0x30 xs).length < 2 ^ 31) : parseExts (Der.encTLV 0xa3 (Der.encTLV 0x30 xs)) = some exts := by
  have hm : xs = exts.flatMap (fun e => Der.encTLV 0x30 (extBody e)) :=
    marshalAll_flatMap _ hx (fun e _ y hy => encExt_eq hy)
  have hxs : xs.length < 2 ^ 31 := tlv_len h
  have hlen : ∀ e ∈ exts, (extBody e).length < 2 ^ 31 := by
    intro e he
    have h1 := flatMap_len_le (fun e => Der.encTLV 0x30 (extBody e)) exts e he
    have h2 := encTLV_len 0x30 (extBody e)
    rw [← hm] at h1
    omega
  have hx' := explicit_enc 0xa3 0x30 xs [] (by decide) (by decide) (by decide) h
  rw [List.append_nil] at hx'
  unfold parseExts
  rw [hx']
  simp only
  have hs := seqOf_enc 0x30 (by decide) (exts.map extBody) (by
    intro b hb
    obtain ⟨e, he, rfl⟩ := List.mem_map.1 hb
    exact hlen e he)
  rw [List.flatMap_map] at hs
  rw [hm, hs]
  simp only
  have := parseAll_map parseExt extBody id exts (fun e he => parseExt_enc e (ho e he) (hlen e he))
  rw [this]
  simp

end Verif.X509
