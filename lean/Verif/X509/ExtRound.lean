import Verif.X509.Ext
/-!
Round trips of the single extensions: what `buildExtensions` writes (x509/x509.go:1571-1749) is what the loop of
`parseCertificate` (1227-1449) reads.
-/
namespace Verif.X509
open Verif Asn1

/-! ## Key usage -/

theorem rev_zero : ∀ n < 256, (reverseBits (BitVec.ofNat 8 n) = 0 ↔ n = 0) := by decide +kernel

theorem rev_bit : ∀ n < 256, ∀ i < 8, (reverseBits (BitVec.ofNat 8 n)).getLsbD (7 - i) = (BitVec.ofNat 8 n).getLsbD i := by
  decide +kernel

theorem single_byte : ∀ n < 256, parseKeyUsage (encBitString [reverseBits (BitVec.ofNat 8 n)] (asn1BitLength [reverseBits (BitVec.ofNat 8 n)]))
    = some (n : Int) := by decide +kernel

theorem tz_facts : ∀ n < 256, n ≠ 0 → trailingZeros (BitVec.ofNat 8 n) < 8 ∧ n % 2 ^ trailingZeros (BitVec.ofNat 8 n) = 0 := by
  decide +kernel

theorem byte_bits : ∀ n < 256, n = (List.range 8).foldl (fun u i => if (BitVec.ofNat 8 n).getLsbD i then u + 2 ^ i else u) 0 := by
  decide +kernel

theorem low_bit : ∀ n < 256, (BitVec.ofNat 8 n).getLsbD 0 = decide (n % 2 = 1) := by decide +kernel

theorem byte_cases (b : Byte) : ∃ n < 256, b = BitVec.ofNat 8 n := ⟨b.toNat, b.isLt, by simp⟩

theorem foldl_int_nat (p : Nat → Bool) (l : List Nat) (a : Nat) :
    l.foldl (fun (u : Int) i => if p i then u + 2 ^ i else u) (a : Int) = ((l.foldl (fun u i => if p i then u + 2 ^ i else u) a : Nat) : Int) := by
  induction l generalizing a with
  | nil => rfl
  | cons x l ih =>
    simp only [List.foldl_cons]
    by_cases h : p x
    · simp only [h, if_true]
      have := ih (a + 2 ^ x)
      rw [← this]; push_cast; rfl
    · simp only [h]
      exact ih a

theorem foldl_congr' {α : Type} (p q : Nat → Bool) (g : α → Nat → α) (l : List Nat) (a : α) (h : ∀ i ∈ l, p i = q i) :
    l.foldl (fun u i => if p i then g u i else u) a = l.foldl (fun u i => if q i then g u i else u) a := by
  induction l generalizing a with
  | nil => rfl
  | cons x l ih =>
    simp only [List.foldl_cons, h x List.mem_cons_self]
    exact ih _ (fun i hi => h i (List.mem_cons_of_mem _ hi))

theorem two_bytes (m n : Nat) (hm : m < 256) (hn : n < 256) (h0 : n ≠ 0) :
    parseKeyUsage (encBitString [reverseBits (BitVec.ofNat 8 m), reverseBits (BitVec.ofNat 8 n)]
      (asn1BitLength [reverseBits (BitVec.ofNat 8 m), reverseBits (BitVec.ofNat 8 n)])) = some ((m + 256 * (n % 2) : Nat) : Int) := by
  have h1 : reverseBits (BitVec.ofNat 8 n) ≠ 0 := fun h => h0 ((rev_zero n hn).1 h)
  obtain ⟨v, hv, hv'⟩ := byte_cases (reverseBits (BitVec.ofNat 8 n))
  have hv0 : v ≠ 0 := by rintro rfl; exact h1 hv'
  obtain ⟨t1, t2⟩ := tz_facts v hv hv0
  rw [← hv'] at t1 t2
  generalize ht : trailingZeros (reverseBits (BitVec.ofNat 8 n)) = t at t1 t2
  have hl : asn1BitLength [reverseBits (BitVec.ofNat 8 m), reverseBits (BitVec.ofNat 8 n)] = 16 - t := by
    show bitLengthRev [reverseBits (BitVec.ofNat 8 n), reverseBits (BitVec.ofNat 8 m)] = _
    simp only [bitLengthRev]
    rw [if_neg h1, ht]; simp
  rw [hl]
  unfold parseKeyUsage encBitString
  rw [only_enc 0x03 _ (by decide) (by simp)]
  have hp : (8 - (16 - t) % 8) % 8 = t := by omega
  have hpn : (BitVec.ofNat 8 t).toNat = t := by rw [BitVec.toNat_ofNat]; omega
  have hb : Keys.parseBitStringBody (BitVec.ofNat 8 ((8 - (16 - t) % 8) % 8) ::
      [reverseBits (BitVec.ofNat 8 m), reverseBits (BitVec.ofNat 8 n)]) =
      some ([reverseBits (BitVec.ofNat 8 m), reverseBits (BitVec.ofNat 8 n)], t) := by
    rw [hp]
    simp only [Keys.parseBitStringBody, hpn]
    rw [if_neg]
    rintro (h | h | h)
    · omega
    · cases h.1
    · apply h
      simp only [List.getLastD_cons, List.getLastD_nil]
      rw [hv', BitVec.toNat_ofNat, Nat.mod_eq_of_lt hv]; exact t2
  simp only [Option.bind_eq_bind, Option.bind_some, hb, List.length_cons, List.length_nil]
  congr 1
  rw [show List.range 9 = List.range 8 ++ [8] from rfl, List.foldl_append]
  rw [foldl_congr' _ (fun i => (BitVec.ofNat 8 m).getLsbD i) _ (List.range 8) (0 : Int)]
  · have := foldl_int_nat (fun i => (BitVec.ofNat 8 m).getLsbD i) (List.range 8) 0
    rw [Int.natCast_zero] at this
    rw [this, ← byte_bits m hm]
    have h8 : bitAt [reverseBits (BitVec.ofNat 8 m), reverseBits (BitVec.ofNat 8 n)] ((0 + 1 + 1) * 8 - t) 8 = decide (n % 2 = 1) := by
      unfold bitAt
      have := rev_bit n hn 0 (by omega)
      simp only [Nat.sub_zero] at this
      rw [show (decide (8 < (0 + 1 + 1) * 8 - t)) = true from by simp; omega]
      show (true && (reverseBits (BitVec.ofNat 8 n)).getLsbD 7) = _
      rw [this]
      simp only [Bool.true_and]
      exact low_bit n hn
    simp only [List.foldl_cons, List.foldl_nil, h8]
    rcases Nat.mod_two_eq_zero_or_one n with h | h <;> simp [h]
  · intro i hi
    have hi8 := List.mem_range.1 hi
    unfold bitAt
    rw [show (decide (i < (0 + 1 + 1) * 8 - t)) = true from by simp; omega, show i / 8 = 0 from by omega, show i % 8 = i from by omega]
    exact rev_bit m hm i hi8

theorem keyUsage_round (k : Int) : parseKeyUsage (keyUsageValue k) = some (k % 512) := by
  obtain ⟨m, hm, hm'⟩ := byte_cases (BitVec.ofInt 8 k)
  obtain ⟨n, hn, hn'⟩ := byte_cases (BitVec.ofInt 8 (k / 256))
  have e1 : (m : Int) = k % 256 := by
    have := congrArg BitVec.toNat hm'
    rw [BitVec.toNat_ofInt, BitVec.toNat_ofNat] at this
    omega
  have e2 : (n : Int) = (k / 256) % 256 := by
    have := congrArg BitVec.toNat hn'
    rw [BitVec.toNat_ofInt, BitVec.toNat_ofNat] at this
    omega
  unfold keyUsageValue
  simp only
  rw [hm', hn']
  by_cases h0 : n = 0
  · subst h0
    rw [if_neg (by rw [not_not]; exact (rev_zero 0 (by omega)).2 rfl), single_byte m hm]
    congr 1; omega
  · rw [if_pos (fun h => h0 ((rev_zero n hn).1 h)), two_bytes m n hm hn h0]
    congr 1; push_cast; omega

/-! ## Basic constraints -/

theorem natBytes_top {n : Nat} (hn : 0 < n) (h : n < 2 ^ 63) (hl : (natBytes n).length = 8) : ((natBytes n).headD 0).toNat < 128 := by
  cases hc : natBytes n with
  | nil => rw [hc] at hl; cases hl
  | cons x t =>
    rw [hc] at hl
    have hv := beNat_natBytes n
    rw [hc] at hv
    have : beNat (x :: t) = x.toNat * 256 ^ t.length + beNat t := by
      have := beNat_append [x] t
      simpa [beNat] using this
    rw [this, show t.length = 7 from by simpa using hl] at hv
    simp only [List.headD_cons]
    omega

theorem encIntBody_int64 {n : Int} (h1 : -2 ^ 63 ≤ n) (h2 : n < 2 ^ 63) : (Der.encIntBody n).length ≤ 8 := by
  rcases n with (_ | k) | m
  · decide
  · have hk : k + 1 < 2 ^ 63 := by simp only [Int.ofNat_eq_natCast] at h2; omega
    have hl := natBytes_length_le (n := k + 1) (k := 8) (by omega)
    unfold Der.encIntBody
    simp only
    split
    · rename_i h
      by_cases h8 : (natBytes (k + 1)).length = 8
      · have := natBytes_top (by omega) hk h8; omega
      · simp only [List.length_cons]; omega
    · exact hl
  · have hk : m < 2 ^ 63 := by omega
    have hl := natBytes_length_le (n := m) (k := 8) (by omega)
    unfold Der.encIntBody
    simp only
    split
    · rename_i h
      by_cases h8 : (natBytes m).length = 8
      · exfalso
        have hm : 0 < m := by
          rcases Nat.eq_zero_or_pos m with h | h
          · subst h; simp [natBytes] at h8
          · exact h
        have ht := natBytes_top hm hk h8
        cases hc : natBytes m with
        | nil => rw [hc] at h8; cases h8
        | cons x t =>
          rw [hc] at h ht
          simp only [List.map_cons, List.headD_cons, reduceCtorEq, false_or] at h ht
          have : (~~~x).toNat = 255 - x.toNat := by simp [BitVec.toNat_not]
          omega
      · simp only [List.length_cons, List.length_map]; omega
    · rw [List.length_map]; exact hl

theorem bc_round (isCA : Bool) (m : Int) (zero : Bool) (h1 : -2 ^ 63 ≤ m) (h2 : m < 2 ^ 63) :
    parseBasicConstraints (basicConstraintsValue isCA m zero) = some (isCA, if m = 0 ∧ zero = false then -1 else m) := by
  unfold basicConstraintsValue
  simp only
  generalize hx : (if m = 0 ∧ zero = false then -1 else m) = x
  have hx1 : -2 ^ 63 ≤ x := by rw [← hx]; split <;> omega
  have hx2 : x < 2 ^ 63 := by rw [← hx]; split <;> omega
  have hl := encIntBody_int64 hx1 hx2
  have hlen : (Der.encInt x).length ≤ 10 := by
    unfold Der.encInt Der.encTLV Der.encLen
    rw [if_pos (by omega)]; simp; omega
  unfold parseBasicConstraints
  rw [only_enc 0x30 _ (by decide) (by
    have h3 : (Der.encTLV 0x01 [0xff]).length = 3 := rfl
    rw [List.length_append]
    have a1 : (if isCA = true then Der.encTLV 0x01 [0xff] else []).length ≤ 3 := by
      split
      · exact Nat.le_of_eq h3
      · exact Nat.zero_le _
    have a2 : (if x = -1 then [] else Der.encInt x).length ≤ 10 := by
      split
      · simp
      · exact hlen
    omega)]
  have e2 : ∀ (b : Bool), (do
      let (i, _) ← opt 0x02 (if x = -1 then [] else Der.encInt x)
      match i with
      | none => some (b, -1)
      | some e => if 8 < e.body.length then none else (Der.parseIntBody e.body).map (b, ·)) = some (b, x) := by
    intro b
    by_cases hm : x = -1
    · rw [if_pos hm, opt_nil]; simp [hm]
    · rw [if_neg hm]
      have := opt_enc 0x02 (Der.encIntBody x) [] (by decide) (by omega)
      rw [List.append_nil] at this
      show (do
      let (i, _) ← opt 0x02 (Der.encTLV 0x02 (Der.encIntBody x))
      match i with
      | none => some (b, -1)
      | some e => if 8 < e.body.length then none else (Der.parseIntBody e.body).map (b, ·)) = some (b, x)
      rw [this]
      simp only [Option.bind_eq_bind, Option.bind_some]
      rw [if_neg (by omega), Der.parseIntBody_encIntBody]; rfl
  cases isCA
  · simp only [Option.bind_eq_bind, Option.bind_some]
    have : opt 0x01 ([] ++ (if x = -1 then [] else Der.encInt x)) = some (none, if x = -1 then [] else Der.encInt x) := by
      rw [List.nil_append]
      by_cases hm : x = -1
      · rw [if_pos hm, opt_nil]
      · rw [if_neg hm]
        have := opt_other 0x01 0x02 (Der.encIntBody x) [] (by decide) (by omega) (by simp [hdrOf, Hdr.is])
        rw [List.append_nil] at this
        exact this
    simp only [Bool.false_eq_true, if_false, this, Option.bind_some]
    exact e2 false
  · simp only [Option.bind_eq_bind, Option.bind_some]
    have := opt_enc 0x01 [0xff] (if x = -1 then [] else Der.encInt x) (by decide) (by simp)
    simp only [if_true, this, Option.bind_some]
    have : boolBody [0xff] = some true := rfl
    rw [this]
    exact e2 true

/-! ## The other extensions -/

theorem flatMap_len_le {α : Type} (f : α → Bytes) (l : List α) (x : α) (h : x ∈ l) : (f x).length ≤ (l.flatMap f).length := by
  induction l with
  | nil => cases h
  | cons y l ih =>
    rw [List.flatMap_cons, List.length_append]
    rcases List.mem_cons.1 h with rfl | h
    · omega
    · have := ih h; omega

theorem tlv_len {id : Byte} {c : Bytes} {k : Nat} (h : (Der.encTLV id c).length < k) : c.length < k := by
  have := encTLV_len id c; omega

theorem marshalAll_inv {α : Type} {f : α → Res Bytes} {l : List α} {b : Bytes} (h : marshalAll f l = .ok b) :
    ∃ g : List Bytes, l.length = g.length ∧ b = g.flatten ∧ ∀ i (hi : i < l.length) (hg : i < g.length), f l[i] = .ok g[i] := by
  induction l generalizing b with
  | nil => simp only [marshalAll, Res.ok.injEq] at h; exact ⟨[], rfl, h.symm, fun i hi => by simp at hi⟩
  | cons x l ih =>
    simp only [marshalAll] at h
    obtain ⟨a, ha, h⟩ := Res.bind_eq_ok.1 h
    obtain ⟨r, hr, h⟩ := Res.bind_eq_ok.1 h
    simp only [Res.ok.injEq] at h
    obtain ⟨g, hg, hb, hi⟩ := ih hr
    refine ⟨a :: g, by simp [hg], by rw [← h, hb]; rfl, ?_⟩
    intro i h1 h2
    cases i with
    | zero => exact ha
    | succ i => exact hi i (by simpa using h1) (by simpa using h2)

/-- when every item is written by `h` -/
theorem marshalAll_flatMap {α : Type} {f : α → Res Bytes} (h : α → Bytes) {l : List α} {b : Bytes} (hb : marshalAll f l = .ok b)
    (hf : ∀ x ∈ l, ∀ y, f x = .ok y → y = h x) : b = l.flatMap h := by
  induction l generalizing b with
  | nil => simp only [marshalAll, Res.ok.injEq] at hb; exact hb.symm
  | cons x l ih =>
    simp only [marshalAll] at hb
    obtain ⟨a, ha, hb⟩ := Res.bind_eq_ok.1 hb
    obtain ⟨r, hr, hb⟩ := Res.bind_eq_ok.1 hb
    simp only [Res.ok.injEq] at hb
    rw [← hb, List.flatMap_cons, hf x List.mem_cons_self a ha, ih hr (fun y hy => hf y (List.mem_cons_of_mem _ hy))]

theorem marshalAll_ok {α : Type} {f : α → Res Bytes} {l : List α} {b : Bytes} (hb : marshalAll f l = .ok b) :
    ∀ x ∈ l, ∃ y, f x = .ok y := by
  induction l generalizing b with
  | nil => intro x hx; cases hx
  | cons x l ih =>
    simp only [marshalAll] at hb
    obtain ⟨a, ha, hb⟩ := Res.bind_eq_ok.1 hb
    obtain ⟨r, hr, hb⟩ := Res.bind_eq_ok.1 hb
    intro y hy
    rcases List.mem_cons.1 hy with rfl | hy
    · exact ⟨a, ha⟩
    · exact ih hr y hy

theorem parseAll_map {α β : Type} (f : Bytes → Option β) (g : α → Bytes) (h : α → β) (l : List α) (hf : ∀ x ∈ l, f (g x) = some (h x)) :
    parseAll f (l.map g) = some (l.map h) := by
  induction l with
  | nil => rfl
  | cons x l ih =>
    simp only [List.map_cons, parseAll, hf x List.mem_cons_self, ih (fun y hy => hf y (List.mem_cons_of_mem _ hy))]
    rfl

theorem oidRes_eq {o : OID} {y : Bytes} (h : oidRes o = .ok y) : y = Der.encTLV 0x06 (Keys.encOID o) := by
  unfold oidRes marshalOID at h
  split at h
  · rename_i b hb
    split at hb
    · simp only [Option.some.injEq] at hb; simp only [Res.ok.injEq] at h; rw [← h, ← hb]; rfl
    · cases hb
  · cases h

/-- the identifiers of an extended key usage list -/
def ekuOIDs (us : List Int) (unknown : List OID) : List OID := us.filterMap oidFromEku ++ unknown

theorem ekuTable_back : ∀ p ∈ ekuTable, ekuFromOID p.2 = some p.1 ∧ OIDok p.2 := by decide +kernel

theorem oidFromEku_mem {u : Int} {o : OID} (h : oidFromEku u = some o) : (u, o) ∈ ekuTable := by
  unfold oidFromEku at h
  cases hf : ekuTable.find? (fun p => u == p.1) with
  | none => rw [hf] at h; cases h
  | some p =>
    rw [hf] at h
    have h1 := List.find?_some hf
    have h2 := List.mem_of_find?_eq_some hf
    simp only [Option.map_some, Option.some.injEq] at h
    have : u = p.1 := by simpa using h1
    rw [← h, this]; exact h2

theorem ekuMarshal {us : List Int} {a : Bytes} (ha : marshalAll ekuRes us = .ok a) :
    a = (us.filterMap oidFromEku).flatMap (fun o => Der.encTLV 0x06 (Keys.encOID o)) := by
  induction us generalizing a with
  | nil => simp only [marshalAll, Res.ok.injEq] at ha; exact ha.symm
  | cons u us ih =>
    simp only [marshalAll] at ha
    obtain ⟨x, hx, ha⟩ := Res.bind_eq_ok.1 ha
    obtain ⟨r, hr, ha⟩ := Res.bind_eq_ok.1 ha
    simp only [Res.ok.injEq] at ha
    unfold ekuRes at hx
    split at hx
    · rename_i o ho
      rw [List.filterMap_cons_some ho, List.flatMap_cons, ← ha, oidRes_eq hx, ih hr]
    · cases hx

theorem eku_round (us : List Int) (unknown : List OID) (v : Bytes) (h : extKeyUsageValue us unknown = .ok v) (hv : v.length < 2 ^ 31)
    (hok : ∀ o ∈ unknown, OIDok o) : parseEKUs v = some (ekuOIDs us unknown) := by
  unfold extKeyUsageValue at h
  obtain ⟨a, ha, h⟩ := Res.bind_eq_ok.1 h
  obtain ⟨b, hb, h⟩ := Res.bind_eq_ok.1 h
  simp only [Res.ok.injEq] at h
  have hb' := marshalAll_flatMap (fun o => Der.encTLV 0x06 (Keys.encOID o)) hb (fun x _ y hy => oidRes_eq hy)
  have ha' := ekuMarshal ha
  have e : v = Der.encTLV 0x30 (((ekuOIDs us unknown).map Keys.encOID).flatMap (Der.encTLV 0x06)) := by
    rw [← h, ha', hb', ekuOIDs, List.flatMap_map, List.flatMap_append]
  have hl : ∀ x ∈ (ekuOIDs us unknown).map Keys.encOID, x.length < 2 ^ 31 := by
    intro x hx
    have h1 := flatMap_len_le (Der.encTLV 0x06) _ x hx
    rw [e] at hv
    have h2 := tlv_len hv
    exact tlv_len (Nat.lt_of_le_of_lt h1 h2)
  unfold parseEKUs
  rw [e, only_enc 0x30 _ (by decide) (by rw [e] at hv; exact tlv_len hv)]
  simp only [Option.bind_eq_bind, Option.bind_some, seqOf_enc 0x06 (by decide) _ hl]
  rw [parseAll_map Keys.parseOIDBody Keys.encOID id]
  · rw [List.map_id]
  · intro o ho
    apply parseOIDBody_enc
    rcases List.mem_append.1 ho with ho | ho
    · obtain ⟨u, _, hu⟩ := List.mem_filterMap.1 ho
      exact (ekuTable_back _ (oidFromEku_mem hu)).2
    · exact hok o ho

/-- the purposes read back -/
theorem eku_split (us : List Int) (unknown : List OID) (hus : ∀ u ∈ us, (oidFromEku u).isSome) (hun : ∀ o ∈ unknown, ekuFromOID o = none) :
    (ekuOIDs us unknown).filterMap ekuFromOID = us ∧ (ekuOIDs us unknown).filter (fun o => (ekuFromOID o).isNone) = unknown := by
  have h2 : unknown.filterMap ekuFromOID = [] := by
    rw [List.filterMap_eq_nil_iff]; exact hun
  have h3 : unknown.filter (fun o => (ekuFromOID o).isNone) = unknown := by
    rw [List.filter_eq_self]; intro o ho; rw [hun o ho]; rfl
  have h1 : (us.filterMap oidFromEku).filterMap ekuFromOID = us ∧ (us.filterMap oidFromEku).filter (fun o => (ekuFromOID o).isNone) = [] := by
    clear h2 h3 hun
    induction us with
    | nil => exact ⟨rfl, rfl⟩
    | cons u us ih =>
      obtain ⟨o, ho⟩ := Option.isSome_iff_exists.1 (hus u List.mem_cons_self)
      obtain ⟨i1, i2⟩ := ih (fun x hx => hus x (List.mem_cons_of_mem _ hx))
      have hb := (ekuTable_back _ (oidFromEku_mem ho)).1
      simp only at hb
      rw [List.filterMap_cons_some ho, List.filterMap_cons_some hb, i1]
      refine ⟨rfl, ?_⟩
      rw [List.filter_cons_of_neg (by rw [hb]; simp), i2]
  unfold ekuOIDs
  rw [List.filterMap_append, List.filter_append, h1.1, h1.2, h2, h3]
  exact ⟨List.append_nil _, rfl⟩

theorem aki_round (aki : Bytes) (h : (authKeyIdValue aki).length < 2 ^ 31) : parseAuthKeyId (authKeyIdValue aki) = some aki := by
  unfold authKeyIdValue at h ⊢
  unfold parseAuthKeyId
  rw [only_enc 0x30 _ (by decide) (tlv_len h)]
  by_cases hn : aki = []
  · subst hn; rfl
  · rw [if_neg hn] at h ⊢
    have := opt_enc 0x80 aki [] (by decide) (tlv_len (tlv_len h))
    rw [List.append_nil] at this
    simp only [Option.bind_eq_bind, Option.bind_some, this, Option.map_some, Option.getD_some]

theorem ski_round (b : Bytes) (h : (Der.encOctets b).length < 2 ^ 31) : only 0x04 (Der.encOctets b) = some b :=
  only_enc 0x04 b (by decide) (tlv_len h)

theorem aia_round (ocsp issuers : List Bytes) (h : (aiaValue ocsp issuers).length < 2 ^ 31) :
    ∃ l, parseAIA (aiaValue ocsp issuers) = some l ∧ accessUris oidOcsp l = ocsp ∧ accessUris oidIssuers l = issuers := by
  let body : OID × Bytes → Bytes := fun x => Keys.encOIDTLV x.1 ++ Der.encTLV 0x86 x.2
  let items : List (OID × Bytes) := ocsp.map (fun u => (oidOcsp, u)) ++ issuers.map (fun u => (oidIssuers, u))
  have e : aiaValue ocsp issuers = Der.encTLV 0x30 ((items.map body).flatMap (Der.encTLV 0x30)) := by
    unfold aiaValue
    simp only [items, body, List.map_append, List.map_map, List.flatMap_append, List.flatMap_map]
    rfl
  have hl : ∀ x ∈ items.map body, x.length < 2 ^ 31 := by
    intro x hx
    have h1 := flatMap_len_le (Der.encTLV 0x30) _ x hx
    rw [e] at h
    exact tlv_len (Nat.lt_of_le_of_lt h1 (tlv_len h))
  refine ⟨items.map (fun x => (x.1, ⟨hdrOf 0x86 x.2.length, x.2, Der.encTLV 0x86 x.2⟩)), ?_, ?_, ?_⟩
  · unfold parseAIA
    rw [e, only_enc 0x30 _ (by decide) (by rw [e] at h; exact tlv_len h)]
    simp only [Option.bind_eq_bind, Option.bind_some, seqOf_enc 0x30 (by decide) _ hl]
    apply parseAll_map
    intro x hx
    have hx' : x.1 = oidOcsp ∨ x.1 = oidIssuers := by
      rcases List.mem_append.1 hx with h | h
      · obtain ⟨y, _, rfl⟩ := List.mem_map.1 h; exact .inl rfl
      · obtain ⟨y, _, rfl⟩ := List.mem_map.1 h; exact .inr rfl
    have hok : OIDok x.1 ∧ (Keys.encOID x.1).length < 2 ^ 31 := by
      rcases hx' with h | h <;> rw [h] <;> decide +kernel
    have hb := hl _ (List.mem_map_of_mem hx)
    have hlen : x.2.length < 2 ^ 31 := by
      have : (Der.encTLV 0x86 x.2).length ≤ (body x).length := by simp [body]
      exact tlv_len (Nat.lt_of_le_of_lt this hb)
    have h2 := elem_enc 0x86 x.2 [] (by decide) hlen
    rw [List.append_nil] at h2
    unfold parseAccess
    show ((Keys.parseOID (Keys.encOIDTLV x.1 ++ Der.encTLV 0x86 x.2)).bind _) = _
    rw [parseOID_enc x.1 hok.1 _ hok.2]
    simp only [Option.bind_eq_bind, Option.bind_some, h2]
  all_goals
    unfold accessUris
    simp only [items, List.map_append, List.map_map, List.filterMap_append, List.filterMap_map, Function.comp_def]
  · have h0 : issuers.filterMap (fun u => if (hdrOf 0x86 u.length).tag = 6 ∧ oidIssuers = oidOcsp then some u else none) = [] := by
      rw [List.filterMap_eq_nil_iff]; intro u _; rw [if_neg]; rintro ⟨_, h⟩; revert h; decide
    have h1 : ocsp.filterMap (fun u => if (hdrOf 0x86 u.length).tag = 6 ∧ True then some u else none) = ocsp := by
      conv_rhs => rw [← List.filterMap_some (l := ocsp)]
      congr
    simp only [and_true] at h1 ⊢
    rw [h0, h1, List.append_nil]
  · have h0 : ocsp.filterMap (fun u => if (hdrOf 0x86 u.length).tag = 6 ∧ oidOcsp = oidIssuers then some u else none) = [] := by
      rw [List.filterMap_eq_nil_iff]; intro u _; rw [if_neg]; rintro ⟨_, h⟩; revert h; decide
    have h1 : issuers.filterMap (fun u => if (hdrOf 0x86 u.length).tag = 6 ∧ True then some u else none) = issuers := by
      conv_rhs => rw [← List.filterMap_some (l := issuers)]
      congr
    simp only [and_true] at h1 ⊢
    rw [h0, h1, List.nil_append]

theorem sanFold_names (t : Byte) (ht : t = 0x82 ∨ t = 0x81) (l : List Bytes) (rest : List Elem) (s : List Bytes × List Bytes × List Bytes) :
    sanFold (l.map (fun x => ⟨hdrOf t x.length, x, Der.encTLV t x⟩) ++ rest) s =
      sanFold rest (if t = 0x82 then (s.1 ++ l, s.2.1, s.2.2) else (s.1, s.2.1 ++ l, s.2.2)) := by
  induction l generalizing s with
  | nil => simp
  | cons x l ih =>
    rcases ht with rfl | rfl
    · simp only [List.map_cons, List.cons_append, sanFold]
      have : sanStep s ⟨hdrOf 0x82 x.length, x, Der.encTLV 0x82 x⟩ = some (s.1 ++ [x], s.2.1, s.2.2) := by
        unfold sanStep
        have ht : (hdrOf 0x82 x.length).tag = 2 := rfl
        simp only [ht]
        rfl
      rw [this]
      simp only
      rw [ih]
      simp
    · simp only [List.map_cons, List.cons_append, sanFold]
      have : sanStep s ⟨hdrOf 0x81 x.length, x, Der.encTLV 0x81 x⟩ = some (s.1, s.2.1 ++ [x], s.2.2) := by
        unfold sanStep
        have ht : (hdrOf 0x81 x.length).tag = 1 := rfl
        simp only [ht]
        rfl
      rw [this]
      simp only
      rw [ih]
      simp

theorem sanFold_ips (l : List Bytes) (h : ∀ x ∈ l, x.length = 4 ∨ x.length = 16) (s : List Bytes × List Bytes × List Bytes) :
    sanFold (l.map (fun x => ⟨hdrOf 0x87 x.length, x, Der.encTLV 0x87 x⟩)) s = some (s.1, s.2.1, s.2.2 ++ l) := by
  induction l generalizing s with
  | nil => simp [sanFold]
  | cons x l ih =>
    simp only [List.map_cons, sanFold]
    have : sanStep s ⟨hdrOf 0x87 x.length, x, Der.encTLV 0x87 x⟩ = some (s.1, s.2.1, s.2.2 ++ [x]) := by
      unfold sanStep
      have ht : (hdrOf 0x87 x.length).tag = 7 := rfl
      have hx := h x List.mem_cons_self
      simp only [ht, if_pos hx]
      rfl
    rw [this]
    simp only
    rw [ih (fun y hy => h y (List.mem_cons_of_mem _ hy))]
    simp

theorem ipBytes_length {ip : Bytes} (h : ip.length = 4 ∨ ip.length = 16) : (ipBytes ip).length = 4 ∨ (ipBytes ip).length = 16 := by
  unfold ipBytes to4
  split
  · rename_i h; exact .inl h
  · split
    · rename_i h; left; simp [h.1]
    · exact h

/-- the elements `sanValue` writes -/
def sanItems (dns emails ips : List Bytes) : List (Byte × Bytes) :=
  dns.map (fun x => (0x82, x)) ++ emails.map (fun x => (0x81, x)) ++ (ips.map ipBytes).map (fun x => (0x87, x))

theorem san_elems (dns emails ips : List Bytes) (h : (sanValue dns emails ips).length < 2 ^ 31) :
    parseSAN (sanValue dns emails ips) = sanFold (dns.map (fun x => ⟨hdrOf 0x82 x.length, x, Der.encTLV 0x82 x⟩) ++
      (emails.map (fun x => ⟨hdrOf 0x81 x.length, x, Der.encTLV 0x81 x⟩) ++
       (ips.map ipBytes).map (fun x => ⟨hdrOf 0x87 x.length, x, Der.encTLV 0x87 x⟩))) ([], [], []) := by
  have e : sanValue dns emails ips = Der.encTLV 0x30 ((sanItems dns emails ips).flatMap (fun x => Der.encTLV x.1 x.2)) := by
    unfold sanValue sanItems
    simp only [List.flatMap_append, List.flatMap_map]
  have hl : ∀ x ∈ sanItems dns emails ips, x.1 &&& 0x1f ≠ 0x1f ∧ x.2.length < 2 ^ 31 := by
    intro x hx
    constructor
    · unfold sanItems at hx
      rcases List.mem_append.1 hx with hx | hx
      · rcases List.mem_append.1 hx with hx | hx <;> obtain ⟨y, _, rfl⟩ := List.mem_map.1 hx <;> dsimp only <;> decide
      · obtain ⟨y, _, rfl⟩ := List.mem_map.1 hx
        dsimp only
        decide
    · have h1 := flatMap_len_le (fun x => Der.encTLV x.1 x.2) _ x hx
      rw [e] at h
      exact tlv_len (Nat.lt_of_le_of_lt h1 (tlv_len h))
  unfold parseSAN
  have h2 := elem_enc 0x30 ((sanItems dns emails ips).flatMap (fun x => Der.encTLV x.1 x.2)) [] (by decide) (by rw [e] at h; exact tlv_len h)
  rw [List.append_nil] at h2
  rw [e, h2]
  simp only
  rw [if_pos ⟨rfl, rfl, rfl⟩, elems_enc _ hl]
  simp only
  unfold sanItems
  simp only [List.map_append, List.map_map, List.append_assoc]
  rfl

theorem san_round (dns emails ips : List Bytes) (h : (sanValue dns emails ips).length < 2 ^ 31)
    (hip : ∀ x ∈ ips, x.length = 4 ∨ x.length = 16) :
    parseSAN (sanValue dns emails ips) = some (dns, emails, ips.map ipBytes) := by
  rw [san_elems dns emails ips h, sanFold_names 0x82 (.inl rfl), if_pos rfl, sanFold_names 0x81 (.inr rfl), if_neg (by decide), sanFold_ips]
  · rfl
  · intro x hx
    obtain ⟨y, hy, rfl⟩ := List.mem_map.1 hx
    exact ipBytes_length (hip y hy)

theorem policies_round (l : List OID) (v : Bytes) (h : policiesValue l = .ok v) (hv : v.length < 2 ^ 31) (hok : ∀ o ∈ l, OIDok o) :
    parsePolicies v = some l := by
  unfold policiesValue at h
  obtain ⟨b, hb, h⟩ := Res.bind_eq_ok.1 h
  simp only [Res.ok.injEq] at h
  have hb' := marshalAll_flatMap (fun o => Der.encTLV 0x30 (Keys.encOIDTLV o)) hb (by
    intro x _ y hy
    unfold policyRes at hy
    obtain ⟨a, ha, hy⟩ := Res.bind_eq_ok.1 hy
    simp only [Res.ok.injEq] at hy
    rw [← hy, oidRes_eq ha]; rfl)
  have e : v = Der.encTLV 0x30 ((l.map Keys.encOIDTLV).flatMap (Der.encTLV 0x30)) := by rw [← h, hb', List.flatMap_map]
  have hl : ∀ x ∈ l.map Keys.encOIDTLV, x.length < 2 ^ 31 := by
    intro x hx
    have h1 := flatMap_len_le (Der.encTLV 0x30) _ x hx
    rw [e] at hv
    exact tlv_len (Nat.lt_of_le_of_lt h1 (tlv_len hv))
  unfold parsePolicies
  rw [e, only_enc 0x30 _ (by decide) (by rw [e] at hv; exact tlv_len hv)]
  simp only [Option.bind_eq_bind, Option.bind_some, seqOf_enc 0x30 (by decide) _ hl]
  rw [parseAll_map parsePolicy Keys.encOIDTLV id, List.map_id]
  intro o ho
  have := parseOID_enc o (hok o ho) [] (tlv_len (id := 0x06) (hl _ (List.mem_map_of_mem ho)))
  rw [List.append_nil] at this
  unfold parsePolicy
  rw [this]; rfl

/-- the contents of a subtree -/
def subtreeBody (s : Bytes) : Bytes := if s = [] then [] else Der.encTLV 0x82 s

theorem subtreeRes_eq {s y : Bytes} (h : subtreeRes s = .ok y) : y = Der.encTLV 0x30 (subtreeBody s) ∧ isIA5 s = true := by
  unfold subtreeRes at h
  unfold subtreeBody
  split at h
  · rename_i hs
    simp only [Res.ok.injEq] at h
    rw [if_pos hs, hs]
    exact ⟨h.symm, rfl⟩
  · rename_i hs
    split at h
    · simp only [Res.ok.injEq] at h
      rw [if_neg hs]
      exact ⟨h.symm, by assumption⟩
    · cases h

theorem parseSubtree_enc (s : Bytes) (h : (subtreeBody s).length < 2 ^ 31) (hs : isIA5 s = true) : parseSubtree (subtreeBody s) = some s := by
  unfold subtreeBody at h ⊢
  unfold parseSubtree
  by_cases hn : s = []
  · subst hn; rfl
  · rw [if_neg hn] at h ⊢
    have := opt_enc 0x82 s [] (by decide) (tlv_len h)
    rw [List.append_nil] at this
    rw [this]
    simp only [ia5Body, if_pos hs]

theorem subtrees_enc (id : Byte) (hid : id &&& 0x1f ≠ 0x1f) (l : List Bytes) (r : Bytes)
    (h : (Der.encTLV id (l.flatMap (fun s => Der.encTLV 0x30 (subtreeBody s)))).length < 2 ^ 31) (hs : ∀ s ∈ l, isIA5 s = true) :
    parseSubtrees id (Der.encTLV id (l.flatMap (fun s => Der.encTLV 0x30 (subtreeBody s))) ++ r) = some (l, r) := by
  unfold parseSubtrees
  rw [opt_enc id _ r hid (tlv_len h)]
  simp only
  have e : l.flatMap (fun s => Der.encTLV 0x30 (subtreeBody s)) = (l.map subtreeBody).flatMap (Der.encTLV 0x30) := by rw [List.flatMap_map]
  have hl : ∀ x ∈ l.map subtreeBody, x.length < 2 ^ 31 := by
    intro x hx
    have h1 := flatMap_len_le (Der.encTLV 0x30) _ x hx
    rw [e] at h
    exact tlv_len (Nat.lt_of_le_of_lt h1 (tlv_len h))
  rw [e, seqOf_enc 0x30 (by decide) _ hl]
  simp only
  rw [parseAll_map parseSubtree subtreeBody _root_.id, List.map_id]
  · rfl
  · intro s hs'
    exact parseSubtree_enc s (hl _ (List.mem_map_of_mem hs')) (hs s hs')

theorem getDNSNames_id (c : Bool) (l : List Bytes) (h : ∀ s ∈ l, s ≠ []) : getDNSNames c l = some l := by
  induction l with
  | nil => rfl
  | cons s l ih =>
    simp only [getDNSNames]
    rw [if_neg (h s List.mem_cons_self), ih (fun x hx => h x (List.mem_cons_of_mem _ hx))]
    rfl

theorem nc_parse (p x : List Bytes) (c : Bool) (v : Bytes) (h : nameConstraintsValue p x = .ok v) (hv : v.length < 2 ^ 31) :
    parseNameConstraints c v = (do
      let p ← getDNSNames c p
      let x ← getDNSNames c x
      some (p, x)) := by
  unfold nameConstraintsValue at h
  obtain ⟨a, ha, h⟩ := Res.bind_eq_ok.1 h
  obtain ⟨b, hb, h⟩ := Res.bind_eq_ok.1 h
  simp only [Res.ok.injEq] at h
  have ha' := marshalAll_flatMap (fun s => Der.encTLV 0x30 (subtreeBody s)) ha (fun x _ y hy => (subtreeRes_eq hy).1)
  have hb' := marshalAll_flatMap (fun s => Der.encTLV 0x30 (subtreeBody s)) hb (fun x _ y hy => (subtreeRes_eq hy).1)
  have hpa : ∀ s ∈ p, isIA5 s = true := by
    intro s hs; obtain ⟨y, hy⟩ := marshalAll_ok ha s hs; exact (subtreeRes_eq hy).2
  have hpb : ∀ s ∈ x, isIA5 s = true := by
    intro s hs; obtain ⟨y, hy⟩ := marshalAll_ok hb s hs; exact (subtreeRes_eq hy).2
  rw [← h, ha', hb'] at hv
  have hl := tlv_len hv
  rw [List.length_append] at hl
  unfold parseNameConstraints
  rw [← h, ha', hb', only_enc 0x30 _ (by decide) (tlv_len hv)]
  have h2 := subtrees_enc 0xa1 (by decide) x [] (by omega) hpb
  rw [List.append_nil] at h2
  simp only [Option.bind_eq_bind, Option.bind_some, subtrees_enc 0xa0 (by decide) p _ (by omega) hpa, h2]

theorem nc_round (p x : List Bytes) (c : Bool) (v : Bytes) (h : nameConstraintsValue p x = .ok v) (hv : v.length < 2 ^ 31)
    (hp : ∀ s ∈ p, s ≠ []) (hx : ∀ s ∈ x, s ≠ []) : parseNameConstraints c v = some (p, x) := by
  rw [nc_parse p x c v h hv, getDNSNames_id c p hp, getDNSNames_id c x hx]
  rfl

theorem optTag_enc (id : Byte) (c r : Bytes) (hid : id &&& 0x1f ≠ 0x1f) (h : c.length < 2 ^ 31) :
    optWhere (·.isTag id) (Der.encTLV id c ++ r) = some (some ⟨hdrOf id c.length, c, Der.encTLV id c⟩, r) := by
  have e := opt_enc id c r hid h
  have hh : hdr (Der.encTLV id c ++ r) = some (hdrOf id c.length, c ++ r) := by
    have e : Der.encTLV id c ++ r = id :: (Der.encLen c.length ++ (c ++ r)) := by simp [Der.encTLV]
    rw [e, hdr_enc id c.length (c ++ r) hid h]
  unfold opt optWhere at e
  unfold optWhere
  rw [hh] at e ⊢
  simp only at e ⊢
  have h1 : (hdrOf id c.length).isTag id = true := by simp [hdrOf, Hdr.isTag]
  rw [if_neg (by simp [Der.encTLV]), if_pos (hdrOf_is id _)] at e
  rw [if_neg (by simp [Der.encTLV]), if_pos h1]
  exact e

theorem crldp_round (rdnOk : Bytes → Bool) (l : List Bytes) (h : (crlDPValue l).length < 2 ^ 31) :
    parseCRLDPs rdnOk (crlDPValue l) = some l := by
  let body : Bytes → Bytes := fun u => Der.encTLV 0xa0 (Der.encTLV 0xa0 (Der.encTLV 0x86 u))
  have e : crlDPValue l = Der.encTLV 0x30 ((l.map body).flatMap (Der.encTLV 0x30)) := by
    unfold crlDPValue
    rw [List.flatMap_map]
  have hl : ∀ x ∈ l.map body, x.length < 2 ^ 31 := by
    intro x hx
    have h1 := flatMap_len_le (Der.encTLV 0x30) _ x hx
    rw [e] at h
    exact tlv_len (Nat.lt_of_le_of_lt h1 (tlv_len h))
  unfold parseCRLDPs
  rw [e, only_enc 0x30 _ (by decide) (by rw [e] at h; exact tlv_len h)]
  simp only [Option.bind_eq_bind, Option.bind_some, seqOf_enc 0x30 (by decide) _ hl]
  rw [parseAll_map (parseDP rdnOk) body (Der.encTLV 0x86)]
  · simp only [Option.bind_some]
    have hll : ∀ u ∈ l, u.length < 2 ^ 31 := fun u hu => tlv_len (tlv_len (tlv_len (hl _ (List.mem_map_of_mem hu))))
    clear h e hl
    induction l with
    | nil => rfl
    | cons u l ih =>
      simp only [List.map_cons, dpUris]
      rw [if_neg (by simp [Der.encTLV])]
      have h2 := elem_enc 0x86 u [] (by decide) (hll u List.mem_cons_self)
      rw [List.append_nil] at h2
      rw [h2, ih (fun x hx => hll x (List.mem_cons_of_mem _ hx))]
      rfl
  · intro u hu
    have hb := hl _ (List.mem_map_of_mem hu)
    have h1 := opt_enc 0xa0 (Der.encTLV 0xa0 (Der.encTLV 0x86 u)) [] (by decide) (tlv_len hb)
    have h2 := optTag_enc 0xa0 (Der.encTLV 0x86 u) [] (by decide) (tlv_len (tlv_len hb))
    rw [List.append_nil] at h1 h2
    have h3 : parseDPName rdnOk (Der.encTLV 0xa0 (Der.encTLV 0x86 u)) = some (Der.encTLV 0x86 u) := by
      unfold parseDPName
      rw [h2]
      simp only [Option.bind_eq_bind, Option.bind_some, opt_nil, Option.map_some, Option.getD_some]
    unfold parseDP
    show ((opt 0xa0 (Der.encTLV 0xa0 (Der.encTLV 0xa0 (Der.encTLV 0x86 u)))).bind _) = _
    rw [h1]
    simp only [Option.bind_some, h3]
    rfl

end Verif.X509
