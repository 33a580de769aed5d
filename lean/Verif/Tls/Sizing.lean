import Verif.Tls.Live
/-!
C133: dynamic record sizing (tls/conn.go:769-849): how large the records of a `Write` are.
-/
namespace Verif.Tls
open Verif Verif.Std

namespace Spec
/-- bytes of the record that carries `n` payload bytes: 5 header bytes, the explicit IV or nonce, the payload, the MAC
(`m` bytes) or the AEAD tag, and for CBC padding (at least one byte) to whole blocks -/
def recordLen (v : Version) (m : Nat) : Shape → Nat → Nat
  | .none, n => 5 + n + m
  | .stream, n => 5 + n + m
  | .aead x o, n => 5 + x + (n + m) + o
  | .cbc bs, n => 5 + (if explicitIVVersion v then bs else 0) + ((n + m) / bs + 1) * bs

/-- the primitives produce as many bytes as they advertise: the MAC, the AEAD's overhead, the block cipher -/
structure SizesLawful (hc : HalfConn) : Prop where
  mac : ∀ m, hc.mac = some m → m.Lawful
  aead : ∀ a, hc.cipher = some (.aead a) → ∀ n p ad, (a.raw.sealF n p ad).length = p.length + a.raw.overhead
  cbc : ∀ bs d f iv, hc.cipher = some (.cbc bs d f iv) → d = false ∧ 0 < bs ∧ iv.length = bs ∧ ∀ b, b.length = bs → (f b).length = bs

/-- the largest payload of the next record: everything when sizing is off, for records other than application data,
once 128 KiB were sent and after 1001 records; else `pkt + 1` segments' worth -/
def limit (sizing : Bool) (P pkt bytes : Nat) : Nat :=
  if sizing = false ∨ 128 * 1024 ≤ bytes ∨ 1000 < pkt then 16384 else min 16384 (P * (pkt + 1))

/-- payload sizes of the records for `rest` bytes of data, when `pkt` records were sized and `bytes` bytes sent before;
`len n` is the length of a record with `n` payload bytes -/
def sizes (sizing : Bool) (P : Nat) (len : Nat → Nat) : Nat → Nat → Nat → Nat → List Nat
  | 0, _, _, _ => []
  | fuel + 1, pkt, bytes, rest =>
    if rest = 0 then []
    else
      let k := min rest (limit sizing P pkt bytes)
      k :: sizes sizing P len fuel (if sizing = false ∨ 128 * 1024 ≤ bytes then pkt else pkt + 1) (bytes + len k) (rest - k)
end Spec

theorem appendMac_length (hc : HalfConn) (hl : Spec.SizesLawful hc) (b : Bytes) (e : Nat) :
    (hc.appendMac b e).length = b.length + hc.macSize := by
  unfold HalfConn.appendMac HalfConn.macSize
  cases hm : hc.mac with
  | none => rfl
  | some m => simp only [List.length_append, hl.mac m hm _ _ _]

theorem sealPayload_len (hc : HalfConn) (hl : Spec.SizesLawful hc) (b : Bytes) (e n : Nat) (he : e = hc.writeIVLen)
    (hb : b.length = 5 + e + (n + hc.macSize)) (r : Bytes) (c : Option Cipher)
    (h : hc.sealPayload b e = .ok (r, c)) : r.length = Spec.recordLen hc.version hc.macSize (shape hc.cipher) n ∧
      (∀ a, c = some (.aead a) → ∀ n p ad, (a.raw.sealF n p ad).length = p.length + a.raw.overhead) ∧
      (∀ bs d f iv, c = some (.cbc bs d f iv) → d = false ∧ 0 < bs ∧ iv.length = bs ∧ ∀ b, b.length = bs → (f b).length = bs) := by
  unfold HalfConn.sealPayload at h
  unfold HalfConn.writeIVLen at he
  cases hca : hc.cipher with
  | none =>
    rw [hca] at h he
    cases h
    simp only at he
    refine ⟨?_, fun a ha => (by cases ha), fun _ _ _ _ ha => (by cases ha)⟩
    simp only [shape, Spec.recordLen]; omega
  | some cc =>
    rw [hca] at h he
    cases cc with
    | stream ks pos =>
      simp only at he h
      obtain ⟨h, hc2⟩ := Prod.mk.inj (Res.ok.inj h)
      subst h
      subst hc2
      refine ⟨?_, fun a ha => (by cases ha), fun _ _ _ _ ha => (by cases ha)⟩
      simp only [shape, Spec.recordLen, List.length_append, xorStream_length, List.length_take, List.length_drop]; omega
    | aead a =>
      simp only at he h
      obtain ⟨h, hc2⟩ := Prod.mk.inj (Res.ok.inj h)
      simp only [Aead.sealW] at h hc2
      subst h
      subst hc2
      refine ⟨?_, fun a' ha => (by cases ha; exact hl.aead a hca), fun _ _ _ _ ha => (by cases ha)⟩
      simp only [shape, Spec.recordLen, List.length_append, List.length_take, hl.aead a hca, List.length_drop]; omega
    | cbc bs dec f iv =>
      obtain ⟨hd, hbs, hiv, hf⟩ := hl.cbc bs dec f iv hca
      subst hd
      simp only at he h
      have hP : (b.drop (5 + e)).length = n + hc.macSize := by rw [List.length_drop]; omega
      have hivl : (if e > 0 then (b.drop 5).take e else iv).length = bs := by
        split
        · rename_i h0
          rw [List.length_take, List.length_drop]
          have : e = bs := by rw [he]; rw [he] at h0; split at h0 <;> simp_all
          omega
        · exact hiv
      generalize hpp : padToBlockSize (b.drop (5 + e)) bs = pp at h
      obtain ⟨p1, p2⟩ := pp
      have hp1 : p1.length = (n + hc.macSize) / bs * bs := by
        have := congrArg Prod.fst hpp
        simp only [padToBlockSize] at this
        rw [← this, List.length_take, hP]
        have := Nat.div_add_mod (n + hc.macSize) bs
        rw [Nat.mul_comm] at this
        omega
      have hp2 : p2.length = bs := by
        have := congrArg Prod.snd hpp
        simp only [padToBlockSize] at this
        rw [← this, List.length_append, List.length_drop, List.length_replicate, hP]
        have := Nat.mod_lt (n + hc.macSize) hbs
        have := Nat.mod_le (n + hc.macSize) bs
        omega
      generalize (if e > 0 then (b.drop 5).take e else iv) = iv' at h hivl
      simp only [cryptBlocks] at h
      rw [if_neg (by rw [hp1]; simp)] at h
      simp only [Bool.false_eq_true, if_false] at h
      rw [if_neg (by rw [hp2]; simp)] at h
      simp only at h
      obtain ⟨l1, l1'⟩ := cbcEnc_length f bs (p1.length / bs) iv' p1 hf hivl (by rw [hp1, Nat.mul_div_cancel _ hbs])
      obtain ⟨l2, l2'⟩ := cbcEnc_length f bs (p2.length / bs) (cbcEnc f bs (p1.length / bs) iv' p1).2 p2 hf l1'
        (by rw [hp2, Nat.div_self hbs, Nat.one_mul])
      obtain ⟨h, hc2⟩ := Prod.mk.inj (Res.ok.inj h)
      subst h
      subst hc2
      have m1 : p1.length / bs * bs = (n + hc.macSize) / bs * bs := by rw [hp1, Nat.mul_div_cancel _ hbs]
      have m2 : p2.length / bs * bs = bs := by rw [hp2, Nat.div_self hbs, Nat.one_mul]
      refine ⟨?_, ?_, ?_⟩
      · simp only [shape, Spec.recordLen, List.length_append, List.length_take, l1, l2, Nat.add_mul, Nat.one_mul, ← he, m1, m2]
        omega
      · intro a ha; cases ha
      · intro bs' d' f' iv'' ha
        cases ha
        exact ⟨rfl, hbs, l2', hf⟩

theorem writeOne_length (hc hc' : HalfConn) (hl : Spec.SizesLawful hc) (hdr iv data r : Bytes) (h3 : hdr.length = 3)
    (hev : (hc.evOf iv).length = hc.writeIVLen) (h : hc.writeOne hdr iv data = .ok (r, hc')) :
    r.length = Spec.recordLen hc.version hc.macSize (shape hc.cipher) data.length ∧ Spec.SizesLawful hc' := by
  have hmac := (writeOne_shape _ _ _ _ _ _ h).2.1
  rw [writeOne_eq] at h
  unfold HalfConn.encrypt at h
  split at h
  · rename_i r' c hs
    obtain ⟨k1, k2, k3⟩ := sealPayload_len hc hl _ _ data.length rfl
      (by rw [appendMac_length hc hl]; simp only [List.length_append, len16_length, h3, hev]; omega) r' c hs
    have h5 : 5 ≤ r'.length := by
      rw [k1]; cases shape hc.cipher <;> simp only [Spec.recordLen] <;> omega
    split at h
    · rename_i hc2 hi
      obtain ⟨h1, h2⟩ := Prod.mk.inj (Res.ok.inj h)
      have hcip : hc'.cipher = c := by
        unfold HalfConn.incSeq at hi
        split at hi
        · cases hi
        · have := Res.ok.inj hi
          rw [← h2, ← this]
      refine ⟨?_, ?_, ?_, ?_⟩
      · rw [← h1, ← k1]
        simp only [List.length_append, List.length_take, len16_length, List.length_drop]; omega
      · rw [hmac]; exact hl.mac
      · rw [hcip]; exact k2
      · rw [hcip]; exact k3
    · cases h
    · cases h
  · cases h
  · cases h

/-- the explicit part has its length: random bytes for CBC, the sequence number for GCM -/
theorem evOf_len (hc : HalfConn) (iv : Bytes) (h8 : hc.seq.length = 8)
    (hiv : hc.writeIVLen ≠ 0 → hc.ivIsSeq = false → iv.length = hc.writeIVLen) : (hc.evOf iv).length = hc.writeIVLen := by
  cases hca : hc.cipher with
  | none => simp [HalfConn.evOf, HalfConn.writeIVLen, hca]
  | some cc =>
    cases cc with
    | stream _ _ => simp [HalfConn.evOf, HalfConn.writeIVLen, hca]
    | aead a => exact (evOf_length_aead hc iv a hca h8).1
    | cbc bs d f v =>
      have hs : hc.ivIsSeq = false := by simp [HalfConn.ivIsSeq, hca]
      unfold HalfConn.evOf
      by_cases h0 : hc.writeIVLen = 0
      · rw [if_pos h0]; simpa using h0.symm
      · rw [if_neg h0, hs]; exact hiv h0 hs

/-- C133: the number of bytes the record layer puts on the wire for a payload depends only on the payload's length, the
suite and the version, and is header + explicit IV + payload + MAC or tag + padding. -/
theorem C133_record_length (hc hc' : HalfConn) (hl : Spec.SizesLawful hc) (hdr iv data r : Bytes) (h3 : hdr.length = 3)
    (h8 : hc.seq.length = 8) (hiv : iv.length = hc.writeIVLen) (h : hc.writeOne hdr iv data = .ok (r, hc')) :
    r.length = Spec.recordLen hc.version hc.macSize (shape hc.cipher) data.length :=
  (writeOne_length hc hc' hl hdr iv data r h3 (evOf_len hc iv h8 (fun _ _ => hiv)) h).1

/-- with a suite of the tables the computed payload is exactly the largest one whose record fits in a segment -/
theorem segmentPayload_exact (hc : HalfConn) (hu : Spec.UsesSuite hc) (n : Nat) :
    (n : Int) ≤ hc.segmentPayload hc.writeIVLen ↔ Spec.recordLen hc.version hc.macSize (shape hc.cipher) n ≤ 1208 := by
  rcases hu with ⟨h1, h2⟩ | ⟨s, hmem, hs, hm⟩
  · have hsh : shape hc.cipher = .none := by rw [h1]; rfl
    have hm : hc.macSize = 0 := by unfold HalfConn.macSize; rw [h2]
    rw [segment_of_shape hc _ _ hsh rfl, writeIVLen_of_shape hc _ hsh, hsh, hm]
    simp only [Shape.segment, Shape.ivLen, Spec.recordLen]; omega
  · rw [segment_of_shape hc _ _ hs hm, writeIVLen_of_shape hc _ hs, hs, hm]
    have key : (∀ t ∈ cipherSuites, Spec.macSize t.mac ≤ 32 ∧ ((t.cipher = .aesGCM ∨ t.cipher = .chacha) → Spec.macSize t.mac = 0)) ∧
        (∀ t ∈ gmCipherSuites, Spec.macSize t.mac ≤ 32 ∧ ((t.cipher = .aesGCM ∨ t.cipher = .chacha) → Spec.macSize t.mac = 0)) := by
      constructor <;> decide +kernel
    have hmle : Spec.macSize s.mac ≤ 32 ∧ ((s.cipher = .aesGCM ∨ s.cipher = .chacha) → Spec.macSize s.mac = 0) := by
      rcases hmem with h | h
      · exact key.1 s h
      · exact key.2 s h
    have b16a : (BitVec.ofInt 64 (1208 - 5 - ((16 : Nat) : Int)) &&& ~~~ (BitVec.ofInt 64 (((16 : Nat) : Int) - 1))).toInt = 1184 := by decide +kernel
    have b16b : (BitVec.ofInt 64 (1208 - 5 - ((0 : Nat) : Int)) &&& ~~~ (BitVec.ofInt 64 (((16 : Nat) : Int) - 1))).toInt = 1200 := by decide +kernel
    have b8a : (BitVec.ofInt 64 (1208 - 5 - ((8 : Nat) : Int)) &&& ~~~ (BitVec.ofInt 64 (((8 : Nat) : Int) - 1))).toInt = 1192 := by decide +kernel
    have b8b : (BitVec.ofInt 64 (1208 - 5 - ((0 : Nat) : Int)) &&& ~~~ (BitVec.ofInt 64 (((8 : Nat) : Int) - 1))).toInt = 1200 := by decide +kernel
    obtain ⟨hmle, hm0⟩ := hmle
    generalize Spec.macSize s.mac = m at hmle hm0
    cases hk : s.cipher with
    | rc4 => simp only [Spec.cipherShape, Shape.segment, Shape.ivLen, Spec.recordLen]; omega
    | des3 =>
      simp only [Spec.cipherShape, Shape.segment, Shape.ivLen, Spec.recordLen]
      by_cases hx : explicitIVVersion hc.version = true
      · rw [if_pos hx, b8a]; omega
      · rw [if_neg hx, b8b]; omega
    | aesCBC =>
      simp only [Spec.cipherShape, Shape.segment, Shape.ivLen, Spec.recordLen]
      by_cases hx : explicitIVVersion hc.version = true
      · rw [if_pos hx, b16a]; omega
      · rw [if_neg hx, b16b]; omega
    | sm4CBC =>
      simp only [Spec.cipherShape, Shape.segment, Shape.ivLen, Spec.recordLen]
      by_cases hx : explicitIVVersion hc.version = true
      · rw [if_pos hx, b16a]; omega
      · rw [if_neg hx, b16b]; omega
    | aesGCM => simp only [Spec.cipherShape, Shape.segment, Shape.ivLen, Spec.recordLen, hm0 (Or.inl hk)]; omega
    | chacha => simp only [Spec.cipherShape, Shape.segment, Shape.ivLen, Spec.recordLen, hm0 (Or.inr hk)]; omega

/-- C133: on a connection that has not sent application data yet, for every suite and version, the payload of the first
application data record is limited to exactly the payloads whose record (header, IV, MAC or tag and padding included)
fits in one 1208-byte segment: none that fits is cut, none that does not is sent whole. -/
theorem C133_first_segment (c : Conn) (hu : Spec.UsesSuite c.out) (hd : c.sizingDisabled = false) (hb : c.bytesSent < 128 * 1024)
    (hp : c.packetsSent = 0) (n : Nat) :
    (n : Int) ≤ (c.maxPayloadSizeForWrite typAppData c.out.writeIVLen).1 ↔
      Spec.recordLen c.out.version c.out.macSize (shape c.out.cipher) n ≤ 1208 := by
  rw [← segmentPayload_exact c.out hu n]
  obtain ⟨_, h2⟩ := segmentPayload_bounds c.out hu
  unfold Conn.maxPayloadSizeForWrite
  rw [hd, hp]
  simp only [bne_self_eq_false, Bool.or_self, Bool.false_eq_true, if_false]
  rw [if_neg (by omega), if_neg (by omega)]
  simp only [Nat.cast_zero, zero_add, mul_one]
  rw [if_neg (by omega)]

/-- the model's choice is the specification's -/
theorem maxPayload_limit (c : Conn) (hu : Spec.UsesSuite c.out) (typ : Byte) :
    (c.maxPayloadSizeForWrite typ c.out.writeIVLen).1.toNat =
      Spec.limit (!c.sizingDisabled && typ == typAppData) (c.out.segmentPayload c.out.writeIVLen).toNat c.packetsSent c.bytesSent ∧
    (c.maxPayloadSizeForWrite typ c.out.writeIVLen).2 =
      { c with packetsSent := if (!c.sizingDisabled && typ == typAppData) = false ∨ 128 * 1024 ≤ c.bytesSent then c.packetsSent else c.packetsSent + 1 } := by
  obtain ⟨h1, h2⟩ := segmentPayload_bounds c.out hu
  unfold Conn.maxPayloadSizeForWrite Spec.limit
  by_cases hd : (c.sizingDisabled || typ != typAppData) = true
  · have hs : (!c.sizingDisabled && typ == typAppData) = false := by
      cases hsd : c.sizingDisabled <;> simp_all
    rw [if_pos hd, if_pos (Or.inl hs), if_pos (Or.inl hs)]
    exact ⟨rfl, rfl⟩
  · have hs : ¬ (!c.sizingDisabled && typ == typAppData) = false := by
      cases hsd : c.sizingDisabled <;> simp_all
    rw [if_neg hd]
    by_cases hb : 128 * 1024 ≤ c.bytesSent
    · rw [if_pos hb, if_pos (Or.inr (Or.inl hb)), if_pos (Or.inr hb)]
      exact ⟨rfl, rfl⟩
    · rw [if_neg hb]
      rw [show (if (!c.sizingDisabled && typ == typAppData) = false ∨ 128 * 1024 ≤ c.bytesSent then c.packetsSent else c.packetsSent + 1) = c.packetsSent + 1
        from if_neg (by tauto)]
      by_cases hk : c.packetsSent > 1000
      · simp only
        rw [if_pos hk, if_pos (by omega)]
        exact ⟨rfl, rfl⟩
      · simp only
        have hlim : ¬ ((!c.sizingDisabled && typ == typAppData) = false ∨ 128 * 1024 ≤ c.bytesSent ∨ 1000 < c.packetsSent) := by
          rintro (h | h | h)
          · exact hs h
          · exact hb h
          · exact hk h
        rw [if_neg hk, if_neg hlim]
        refine ⟨?_, rfl⟩
        generalize hseg : c.out.segmentPayload c.out.writeIVLen = g at h1 h2
        obtain ⟨g', rfl⟩ : ∃ g' : Nat, g = g' := ⟨g.toNat, by omega⟩
        have hc : HalfConn.segmentPayload ({ c with packetsSent := c.packetsSent + 1 } : Conn).out c.out.writeIVLen = (g' : Int) := hseg
        simp only [Int.toNat_natCast]
        rw [show ((g' : Int) * ((c.packetsSent : Int) + 1)) = ((g' * (c.packetsSent + 1) : Nat) : Int) by push_cast; ring]
        generalize g' * (c.packetsSent + 1) = z
        split <;> omega

theorem write_bytes (c : Conn) (data : Bytes) (c' : Conn) (hb : c.buffering = false) (h : c.write data = (none, c')) :
    c'.bytesSent = c.bytesSent + data.length ∧ c'.packetsSent = c.packetsSent ∧ c'.sizingDisabled = c.sizingDisabled ∧
      c'.buffering = false ∧ c'.wire = c.wire ++ data ∧ c'.out = c.out := by
  unfold Conn.write at h
  rw [if_neg (by rw [hb]; simp)] at h
  unfold Conn.netWrite at h
  split at h
  · cases congrArg Prod.fst h
  · have h := congrArg Prod.snd h
    simp only at h
    subst h
    exact ⟨rfl, rfl, rfl, hb, rfl, rfl⟩
  · have h := congrArg Prod.snd h
    simp only at h
    subst h
    exact ⟨rfl, rfl, rfl, hb, rfl, rfl⟩

theorem recHdr_length (c : Conn) (typ : Byte) : (c.recHdr typ).length = 3 := rfl

/-- what one successful loop does: the fragments have the sizes of the specification -/
theorem writeLoop_sizes (fuel : Nat) : ∀ (c : Conn) (typ : Byte) (data : Bytes) (n n' : Nat) (c' : Conn),
    Spec.UsesSuite c.out → Spec.SizesLawful c.out → c.out.seq.length = 8 → c.buffering = false →
    Conn.writeLoop fuel c typ data n = .ok (n', none, c') →
    ∃ (items : List (Bytes × Bytes × Bytes)) (rs : List Bytes),
      (items.map (fun x => x.2.2)).flatten = data ∧
      items.map (fun x => x.2.2.length) =
        Spec.sizes (!c.sizingDisabled && typ == typAppData) (c.out.segmentPayload c.out.writeIVLen).toNat
          (Spec.recordLen c.out.version c.out.macSize (shape c.out.cipher)) fuel c.packetsSent c.bytesSent data.length ∧
      rs.map List.length = items.map (fun x => Spec.recordLen c.out.version c.out.macSize (shape c.out.cipher) x.2.2.length) ∧
      sendAll c.out items = .ok (rs, c'.out) ∧ c'.wire = c.wire ++ rs.flatten ∧
      c'.bytesSent = c.bytesSent + rs.flatten.length := by
  induction fuel with
  | zero =>
    intro c typ data n n' c' hu hl h8 hb h
    unfold Conn.writeLoop at h
    by_cases h0 : data.length = 0
    · rw [if_pos h0] at h
      simp only [Res.ok.injEq, Prod.mk.injEq, true_and] at h
      obtain ⟨rfl, rfl⟩ := h
      exact ⟨[], [], by rw [List.eq_nil_of_length_eq_zero h0]; rfl, rfl, rfl, rfl, by simp, by simp⟩
    · rw [if_neg h0] at h; cases h
  | succ fuel ih =>
    intro c typ data n n' c' hu hl h8 hb h
    unfold Conn.writeLoop at h
    by_cases h0 : data.length = 0
    · rw [if_pos h0] at h
      simp only [Res.ok.injEq, Prod.mk.injEq, true_and] at h
      obtain ⟨rfl, rfl⟩ := h
      exact ⟨[], [], by rw [List.eq_nil_of_length_eq_zero h0]; rfl, by simp [Spec.sizes, h0], rfl, rfl, by simp, by simp⟩
    · rw [if_neg h0] at h
      simp only at h
      obtain ⟨hm1, hm2⟩ := C28_max_payload c typ hu
      obtain ⟨hlim, hp⟩ := maxPayload_limit c hu typ
      generalize hmax : (c.maxPayloadSizeForWrite typ c.out.writeIVLen).1 = mx at h hm1 hm2 hlim
      generalize hpk : (if (!c.sizingDisabled && typ == typAppData) = false ∨ 128 * 1024 ≤ c.bytesSent then c.packetsSent else c.packetsSent + 1) = p at hp
      rw [hp] at h
      simp only at h
      rw [if_neg (by omega)] at h
      generalize hmm : min data.length mx.toNat = m at h
      have hmle : m ≤ data.length := by omega
      by_cases hr : (c.out.writeIVLen != 0 && !c.out.ivIsSeq && decide (c.rand.length < c.out.writeIVLen)) = true
      · rw [if_pos hr] at h
        cases (Prod.mk.inj (Prod.mk.inj (Res.ok.inj h)).2).1
      · rw [if_neg hr] at h
        generalize hc1 : (if (c.out.writeIVLen != 0 && !c.out.ivIsSeq) = true then
            ({ c with packetsSent := p, rand := c.rand.drop c.out.writeIVLen } : Conn) else { c with packetsSent := p }) = c1 at h
        have f1 : c1.out = c.out ∧ c1.vers = c.vers ∧ c1.wire = c.wire ∧ c1.bytesSent = c.bytesSent ∧ c1.buffering = c.buffering ∧
            c1.packetsSent = p ∧ c1.sizingDisabled = c.sizingDisabled := by
          rw [← hc1]; split <;> exact ⟨rfl, rfl, rfl, rfl, rfl, rfl, rfl⟩
        obtain ⟨f1, f2, f3, f4, f5, f6, f7⟩ := f1
        rw [f1] at h
        cases hw : c.out.writeOne (c1.recHdr typ) (c.rand.take c.out.writeIVLen) (data.take m) with
        | err x => rw [hw] at h; cases h
        | panic => rw [hw] at h; cases h
        | ok bo =>
          obtain ⟨b, out'⟩ := bo
          rw [hw] at h
          simp only at h
          cases hwr : ({ c1 with out := out' } : Conn).write b with
          | mk er c2 =>
            rw [hwr] at h
            cases er with
            | some er =>
              simp only at h
              cases (Prod.mk.inj (Prod.mk.inj (Res.ok.inj h)).2).1
            | none =>
              simp only at h
              have hu' := usesSuite_writeOne _ _ _ _ _ _ hw hu
              have hev : (c.out.evOf (c.rand.take c.out.writeIVLen)).length = c.out.writeIVLen := by
                apply evOf_len _ _ h8
                intro hne hseq
                rw [List.length_take]
                rw [hseq] at hr
                simp [hne] at hr
                omega
              obtain ⟨hlen, hl'⟩ := writeOne_length _ _ hl _ _ _ _ (recHdr_length _ _) hev hw
              obtain ⟨w1, w2, w3, w4, w5, w6⟩ := write_bytes { c1 with out := out' } b c2 (by simp only; rw [f5, hb]) hwr
              simp only at w1 w2 w3 w5 w6
              obtain ⟨s1, s2, s3, _, _, _⟩ := writeOne_shape _ _ _ _ _ _ hw
              have hq := (writeOne_seq _ _ _ _ _ _ h8 hw).1
              obtain ⟨items, rs, i1, i2, i3, i4, i5, i6⟩ := ih c2 typ (data.drop m) (n + m) n' c' (by rw [w6]; exact hu') (by rw [w6]; exact hl')
                (by rw [w6, hq, beFixed_length]) w4 h
              have hms : out'.macSize = c.out.macSize := by unfold HalfConn.macSize; rw [s2]
              have hivl : out'.writeIVLen = c.out.writeIVLen := by
                rw [writeIVLen_of_shape out' _ rfl, writeIVLen_of_shape c.out _ rfl, s1, s3]
              rw [w6, s1, s3, hms] at i2 i3
              rw [hivl, segmentPayload_shape c.out out' _ s1 hms, w1, w2, w3, f4, f6, f7] at i2
              have hm' : (data.take m).length = m := by rw [List.length_take]; omega
              rw [hm'] at hlen
              refine ⟨(c1.recHdr typ, c.rand.take c.out.writeIVLen, data.take m) :: items, b :: rs, ?_, ?_, ?_, ?_, ?_, ?_⟩
              · simp only [List.map_cons, List.flatten_cons, i1, List.take_append_drop]
              · simp only [List.map_cons, i2, Spec.sizes, if_neg h0, hm', List.length_drop, ← hlim, hmm, hpk, hlen]
              · simp only [List.map_cons, i3, hm', hlen]
              · simp only [sendAll, hw]
                rw [← w6, i4]
              · rw [i5, w5, f3]; simp
              · rw [i6, w1, f4]; simp; omega

/-- C133: `writeRecord` with a suite of the tables over a transport that takes the bytes: the payloads of the records, in
order, have exactly the sizes of the specification (one segment's worth for the first sized record, two for the second, …,
at most 16384; full records after 128 KiB or 1001 records, with sizing disabled and for other record types), the records
are as long as `recordLen` says, and exactly their bytes are counted as sent. -/
theorem C133_sizes (c : Conn) (typ : Byte) (data : Bytes) (n : Nat) (c' : Conn) (hu : Spec.UsesSuite c.out)
    (hl : Spec.SizesLawful c.out) (h8 : c.out.seq.length = 8) (hb : c.buffering = false) (htyp : typ ≠ typCCS)
    (h : c.writeRecord typ data = .ok (n, none, c')) :
    ∃ (P : Nat) (items : List (Bytes × Bytes × Bytes)) (rs : List Bytes),
      (∀ k, k ≤ P ↔ Spec.recordLen c.out.version c.out.macSize (shape c.out.cipher) k ≤ 1208) ∧
      (items.map (fun x => x.2.2)).flatten = data ∧
      items.map (fun x => x.2.2.length) =
        Spec.sizes (!c.sizingDisabled && typ == typAppData) P
          (Spec.recordLen c.out.version c.out.macSize (shape c.out.cipher)) data.length c.packetsSent c.bytesSent data.length ∧
      rs.map List.length = items.map (fun x => Spec.recordLen c.out.version c.out.macSize (shape c.out.cipher) x.2.2.length) ∧
      sendAll c.out items = .ok (rs, c'.out) ∧ c'.wire = c.wire ++ rs.flatten ∧
      c'.bytesSent = c.bytesSent + rs.flatten.length := by
  unfold Conn.writeRecord at h
  cases hw : Conn.writeLoop data.length c typ data 0 with
  | err x => rw [hw] at h; cases h
  | panic => rw [hw] at h; cases h
  | ok r =>
    obtain ⟨k, er, c2⟩ := r
    rw [hw] at h
    cases er with
    | some e => simp only at h; cases (Prod.mk.inj (Prod.mk.inj (Res.ok.inj h)).2).1
    | none =>
      simp only at h
      rw [if_neg htyp] at h
      simp only [Res.ok.injEq, Prod.mk.injEq, true_and] at h
      obtain ⟨rfl, rfl⟩ := h
      obtain ⟨items, rs, i⟩ := writeLoop_sizes _ _ _ _ _ _ _ hu hl h8 hb hw
      refine ⟨(c.out.segmentPayload c.out.writeIVLen).toNat, items, rs, ?_, i⟩
      intro k
      rw [← segmentPayload_exact c.out hu]
      have := (segmentPayload_bounds c.out hu).1
      omega

/-! ### consequences of the specification -/

theorem limit_mono (sizing : Bool) (P pkt pkt' bytes bytes' : Nat) (hp : pkt ≤ pkt') (hb : bytes ≤ bytes') :
    Spec.limit sizing P pkt bytes ≤ Spec.limit sizing P pkt' bytes' := by
  unfold Spec.limit
  split
  · rename_i h
    rw [if_pos (by rcases h with h | h | h <;> [exact Or.inl h; (right; left; omega); (right; right; omega)])]
  · split
    · omega
    · have : P * (pkt + 1) ≤ P * (pkt' + 1) := Nat.mul_le_mul_left _ (by omega)
      omega

theorem sizes_sum (sizing : Bool) (P : Nat) (hP : 0 < P) (len : Nat → Nat) (fuel : Nat) : ∀ (pkt bytes rest : Nat), rest ≤ fuel →
    (Spec.sizes sizing P len fuel pkt bytes rest).sum = rest ∧ ∀ k ∈ Spec.sizes sizing P len fuel pkt bytes rest, 1 ≤ k ∧ k ≤ 16384 := by
  induction fuel with
  | zero => intro pkt bytes rest h; simp [Spec.sizes]; omega
  | succ fuel ih =>
    intro pkt bytes rest h
    unfold Spec.sizes
    by_cases h0 : rest = 0
    · rw [if_pos h0]; simp [h0]
    · rw [if_neg h0]
      have hl : 1 ≤ Spec.limit sizing P pkt bytes ∧ Spec.limit sizing P pkt bytes ≤ 16384 := by
        unfold Spec.limit
        split
        · omega
        · have : 1 ≤ P * (pkt + 1) := Nat.mul_pos hP (by omega)
          omega
      simp only
      generalize hk : min rest (Spec.limit sizing P pkt bytes) = k
      obtain ⟨i1, i2⟩ := ih (if sizing = false ∨ 128 * 1024 ≤ bytes then pkt else pkt + 1) (bytes + len k) (rest - k) (by omega)
      refine ⟨?_, ?_⟩
      · rw [List.sum_cons, i1]; omega
      · intro x hx
        rcases List.mem_cons.1 hx with rfl | hx
        · omega
        · exact i2 x hx

theorem sizes_lower (sizing : Bool) (P : Nat) (len : Nat → Nat) (L : Nat) (fuel : Nat) : ∀ (pkt bytes rest : Nat),
    L ≤ Spec.limit sizing P pkt bytes → ∀ k ∈ (Spec.sizes sizing P len fuel pkt bytes rest).dropLast, L ≤ k := by
  induction fuel with
  | zero => intro pkt bytes rest h k hk; simp [Spec.sizes] at hk
  | succ fuel ih =>
    intro pkt bytes rest h k hk
    unfold Spec.sizes at hk
    by_cases h0 : rest = 0
    · rw [if_pos h0] at hk; simp at hk
    · rw [if_neg h0] at hk
      simp only at hk
      generalize hm : min rest (Spec.limit sizing P pkt bytes) = m at hk
      generalize hr : Spec.sizes sizing P len fuel (if sizing = false ∨ 128 * 1024 ≤ bytes then pkt else pkt + 1) (bytes + len m) (rest - m) = r at hk
      cases r with
      | nil => simp at hk
      | cons y ys =>
        rw [List.dropLast_cons_of_ne_nil (by simp)] at hk
        rcases List.mem_cons.1 hk with hkm | hk
        · rw [hkm]
          have : rest - m ≠ 0 := by
            intro h
            rw [h] at hr
            cases fuel with
            | zero => cases hr
            | succ f => simp [Spec.sizes] at hr
          omega
        · rw [← hr] at hk
          refine ih _ _ _ ?_ k hk
          exact h.trans (limit_mono _ _ _ _ _ _ (by split <;> omega) (by omega))

/-- C133: the sizes of a call cover the data: they add up to its length, each is between 1 and 16384; and they never get
smaller, except that the last record carries what is left. -/
theorem C133_nondecreasing (sizing : Bool) (P : Nat) (hP : 0 < P) (len : Nat → Nat) (pkt bytes rest : Nat) :
    (Spec.sizes sizing P len rest pkt bytes rest).sum = rest ∧
    (∀ k ∈ Spec.sizes sizing P len rest pkt bytes rest, 1 ≤ k ∧ k ≤ 16384) ∧
    (Spec.sizes sizing P len rest pkt bytes rest).dropLast.Pairwise (· ≤ ·) := by
  refine ⟨(sizes_sum sizing P hP len rest pkt bytes rest (Nat.le_refl _)).1, (sizes_sum sizing P hP len rest pkt bytes rest (Nat.le_refl _)).2, ?_⟩
  suffices h : ∀ fuel pkt bytes rest, (Spec.sizes sizing P len fuel pkt bytes rest).dropLast.Pairwise (· ≤ ·) from h _ _ _ _
  intro fuel
  induction fuel with
  | zero => intro pkt bytes rest; simp [Spec.sizes]
  | succ fuel ih =>
    intro pkt bytes rest
    unfold Spec.sizes
    split
    · simp
    · simp only
      generalize hm : min rest (Spec.limit sizing P pkt bytes) = m
      have hi := ih (if sizing = false ∨ 128 * 1024 ≤ bytes then pkt else pkt + 1) (bytes + len m) (rest - m)
      have hlow := sizes_lower sizing P len m fuel (if sizing = false ∨ 128 * 1024 ≤ bytes then pkt else pkt + 1) (bytes + len m) (rest - m)
        ((show m ≤ Spec.limit sizing P pkt bytes by omega).trans (limit_mono _ _ _ _ _ _ (by split <;> omega) (by omega)))
      generalize Spec.sizes sizing P len fuel (if sizing = false ∨ 128 * 1024 ≤ bytes then pkt else pkt + 1) (bytes + len m) (rest - m) = r at hi hlow
      cases r with
      | nil => simp
      | cons y ys =>
        rw [List.dropLast_cons_of_ne_nil (by simp)]
        exact List.pairwise_cons.2 ⟨hlow, hi⟩

/-- C133: with sizing disabled, for records other than application data, and once 128 KiB were sent, every record but the
last is full. -/
theorem C133_full (sizing : Bool) (P : Nat) (len : Nat → Nat) (pkt bytes rest : Nat) (h : sizing = false ∨ 128 * 1024 ≤ bytes) :
    ∀ k ∈ (Spec.sizes sizing P len rest pkt bytes rest).dropLast, 16384 ≤ k :=
  sizes_lower sizing P len 16384 rest pkt bytes rest (by
    unfold Spec.limit
    rw [if_pos (by tauto)])

/-! ### examples -/

namespace SizingExample
/-- a GCM connection after the handshake -/
def gcm : Conn :=
  { vers := vTLS12, handshakeComplete := true,
    out := { version := vTLS12, cipher := some (.aead ⟨⟨16, fun _ p _ => p ++ List.replicate 16 0, fun _ _ _ => none⟩, .fixed (List.replicate 12 0)⟩) } }

/-- the hypotheses of the theorems above hold of it -/
example : Spec.UsesSuite gcm.out ∧ Spec.SizesLawful gcm.out ∧ gcm.out.seq.length = 8 ∧ gcm.buffering = false := by
  refine ⟨Or.inr ?_, ?_, rfl, rfl⟩
  · have : ∃ s ∈ cipherSuites, s.cipher = .aesGCM ∧ s.mac = .none := by decide +kernel
    obtain ⟨s, hs, h1, h2⟩ := this
    exact ⟨s, Or.inl hs, by rw [h1]; rfl, by rw [h2]; rfl⟩
  · refine ⟨?_, ?_, ?_⟩
    · intro m hm; cases hm
    · intro a ha n p ad
      cases ha
      simp
    · intro bs d f iv h; cases h

/-- the first record of a GCM connection carries 1179 bytes, the second 2358, … ; 5000 bytes make three records -/
example : Spec.sizes true 1179 (Spec.recordLen vTLS12 0 (.aead 8 16)) 5000 0 0 5000 = [1179, 2358, 1463] := by
  decide +kernel

example : (gcm.maxPayloadSizeForWrite typAppData gcm.out.writeIVLen).1 = 1179 := by decide +kernel
end SizingExample

end Verif.Tls
