import Verif.Tls.WriteProps
/-!
C89: the IVs of CBC records. From TLS 1.1 on, and in GM SSL (GM/T 0024), every CBC record carries its own IV, drawn
from the random source; below TLS 1.1 the IV is the last block of the record before.
-/
namespace Verif.Tls
open Verif Verif.Std

namespace Spec
/-- RFC 5246 §6.2.3.2 / GM/T 0024-2014 §6.3.3.4.4: payload, MAC, then 1..`bs` padding bytes each holding the padding
length less one -/
def cbcPlain (bs : Nat) (mac : Bytes → Bytes → Bytes → Bytes) (seq : Nat) (hdr payload : Bytes) : Bytes :=
  let m := payload ++ mac (beFixed 8 seq) (hdr ++ beFixed 2 payload.length) payload
  let k := bs - m.length % bs
  m ++ List.replicate k (BitVec.ofNat 8 (k - 1))

/-- one record with its own IV: header, length, IV, CBC ciphertext under that IV -/
def explicitRecord (E : Bytes → Bytes) (bs : Nat) (mac : Bytes → Bytes → Bytes → Bytes) (seq : Nat) (hdr iv payload : Bytes) : Bytes :=
  let p := cbcPlain bs mac seq hdr payload
  let body := iv ++ (cbcEnc E bs (p.length / bs) iv p).1
  hdr ++ beFixed 2 (body.length % 65536) ++ body

/-- the records for a list of payloads, record `i` with the `i`-th block of `rand` as IV and sequence number `seq + i` -/
def explicitRecords (E : Bytes → Bytes) (bs : Nat) (mac : Bytes → Bytes → Bytes → Bytes) (hdr : Bytes) : Nat → Bytes → List Bytes → Bytes
  | _, _, [] => []
  | seq, rand, p :: ps =>
    explicitRecord E bs mac seq hdr (rand.take bs) p ++ explicitRecords E bs mac hdr (seq + 1) (rand.drop bs) ps

/-- the records for a list of payloads without explicit IV: the chaining value runs on from record to record; with the
final chaining value -/
def chainedRecords (E : Bytes → Bytes) (bs : Nat) (mac : Bytes → Bytes → Bytes → Bytes) (hdr : Bytes) : Nat → Bytes → List Bytes → Bytes
  | _, _, [] => []
  | seq, iv, p :: ps =>
    let q := cbcPlain bs mac seq hdr p
    let r := cbcEnc E bs (q.length / bs) iv q
    hdr ++ beFixed 2 (r.1.length % 65536) ++ r.1 ++ chainedRecords E bs mac hdr (seq + 1) r.2 ps
end Spec

theorem len16_mod (n : Nat) : len16 (n : Int) = beFixed 2 (n % 65536) := by
  unfold len16; congr 1

theorem cbc_two (E : Bytes → Bytes) (bs : Nat) (hb : 0 < bs) (iv P : Bytes) :
    ∃ r, cryptBlocks bs false E iv (padToBlockSize P bs).1 = .ok r ∧
      ∃ r2, cryptBlocks bs false E r.2 (padToBlockSize P bs).2 = .ok r2 ∧
      (r.1 ++ r2.1, r2.2) =
        (let k := bs - P.length % bs
         let q := P ++ List.replicate k (BitVec.ofNat 8 (k - 1))
         cbcEnc E bs (q.length / bs) iv q) := by
  obtain ⟨h1, h2, h3⟩ := padToBlockSize_spec P bs hb
  refine ⟨_, by unfold cryptBlocks; rw [if_neg (by omega)], _, by unfold cryptBlocks; rw [if_neg (by rw [h2]; simp)], ?_⟩
  simp only
  rw [← h3]
  have hd : (padToBlockSize P bs).1.length = (padToBlockSize P bs).1.length / bs * bs := by
    have := Nat.div_add_mod (padToBlockSize P bs).1.length bs
    rw [Nat.mul_comm]; omega
  have h4 : ((padToBlockSize P bs).1 ++ (padToBlockSize P bs).2).length / bs = (padToBlockSize P bs).1.length / bs + 1 := by
    rw [List.length_append, h2, Nat.add_div_right _ hb]
  rw [h4, cbcEnc_append E bs _ 1 iv _ _ hd, h2, Nat.div_self hb]
  simp

/-- one record written with a CBC cipher -/
theorem writeOne_cbc (hc hc' : HalfConn) (bs : Nat) (E : Bytes → Bytes) (iv0 : Bytes) (m : Mac) (hdr iv data r : Bytes)
    (hca : hc.cipher = some (.cbc bs false E iv0)) (hm : hc.mac = some m) (hb : 0 < bs) (h3 : hdr.length = 3)
    (h8 : hc.seq.length = 8) (hl : data.length < 65536)
    (hiv : explicitIVVersion hc.version = true → iv.length = bs)
    (h : hc.writeOne hdr iv data = .ok (r, hc')) :
    hc'.mac = hc.mac ∧ hc'.version = hc.version ∧ hc'.seq = beFixed 8 (beNat hc.seq + 1) ∧
    (let q := Spec.cbcPlain bs m.mac (beNat hc.seq) hdr data
     if explicitIVVersion hc.version then
       r = Spec.explicitRecord E bs m.mac (beNat hc.seq) hdr iv data ∧
       hc'.cipher = some (.cbc bs false E (cbcEnc E bs (q.length / bs) iv q).2)
     else
       r = hdr ++ beFixed 2 ((cbcEnc E bs (q.length / bs) iv0 q).1.length % 65536) ++ (cbcEnc E bs (q.length / bs) iv0 q).1 ∧
       hc'.cipher = some (.cbc bs false E (cbcEnc E bs (q.length / bs) iv0 q).2)) := by
  have hseq : beFixed 8 (beNat hc.seq) = hc.seq := by have := beFixed_beNat hc.seq; rwa [h8] at this
  have hL : (len16 (data.length : Int)).length = 2 := by simp [len16, beFixed_length]
  have hlen : len16 (data.length : Int) = beFixed 2 data.length := by
    rw [len16_mod, Nat.mod_eq_of_lt hl]
  unfold HalfConn.writeOne at h
  simp only [HalfConn.writeIVLen, HalfConn.ivIsSeq, hca] at h
  generalize hev : (if (if explicitIVVersion hc.version = true then bs else 0) = 0 then ([] : Bytes) else
      if false = true then copyAt (List.replicate (if explicitIVVersion hc.version = true then bs else 0) 0) 0 hc.seq else iv) = ev at h
  have hev' : ev.length = (if explicitIVVersion hc.version = true then bs else 0) := by
    rw [← hev]
    by_cases hx : explicitIVVersion hc.version = true
    · simp only [hx, if_true]
      rw [if_neg (by omega)]; simp [hiv hx]
    · simp [hx]
  rw [← hev'] at h
  unfold HalfConn.encrypt HalfConn.appendMac at h
  rw [hm] at h
  simp only at h
  rw [rec_take5 hdr _ ev data h3 hL, rec_dropE hdr _ ev data h3 hL, List.append_assoc _ data, hlen] at h
  have hL2 : (beFixed 2 data.length).length = 2 := beFixed_length _ _
  unfold HalfConn.sealPayload at h
  rw [hca] at h
  simp only at h
  generalize hP : data ++ m.mac hc.seq (hdr ++ beFixed 2 data.length) data = P at h
  rw [rec_drop5 hdr _ ev P h3 hL2, rec_dropE hdr _ ev P h3 hL2, rec_takeE hdr _ ev P h3 hL2, List.take_left' rfl] at h
  generalize hiv' : (if ev.length > 0 then ev else iv0) = iv' at h
  obtain ⟨r1, e1, r2, e2, e3⟩ := cbc_two E bs hb iv' P
  rw [e1] at h
  simp only at h
  rw [e2] at h
  simp only at h
  have hq : (let k := bs - P.length % bs
         P ++ List.replicate k (BitVec.ofNat 8 (k - 1))) = Spec.cbcPlain bs m.mac (beNat hc.seq) hdr data := by
    unfold Spec.cbcPlain
    rw [hseq, hP]
  simp only at hq e3
  rw [hq] at e3
  generalize hqq : Spec.cbcPlain bs m.mac (beNat hc.seq) hdr data = q at e3
  have e4 := (Prod.mk.inj e3).1
  have e5 := (Prod.mk.inj e3).2
  rw [e4, e5] at h
  cases hinc : ({ hc with cipher := some (Cipher.cbc bs false E (cbcEnc E bs (q.length / bs) iv' q).2), mac := some m } : HalfConn).incSeq with
  | err x => rw [hinc] at h; cases h
  | panic => rw [hinc] at h; cases h
  | ok hc2 =>
    rw [hinc] at h
    simp only [Res.ok.injEq, Prod.mk.injEq] at h
    obtain ⟨hr, rfl⟩ := h
    have hi := incSeq_eq ({ hc with cipher := some (Cipher.cbc bs false E (cbcEnc E bs (q.length / bs) iv' q).2), mac := some m } : HalfConn) h8
    rw [hinc] at hi
    split at hi
    · have hi := Res.ok.inj hi
      have hr2 : r = hdr ++ beFixed 2 ((ev ++ (cbcEnc E bs (q.length / bs) iv' q).1).length % 65536) ++ (ev ++ (cbcEnc E bs (q.length / bs) iv' q).1) := by
        rw [← hr, rec_take3 hdr _ ev _ h3 hL2, rec_drop5 hdr _ ev _ h3 hL2]
        congr 2
        rw [← len16_mod]
        congr 1
        simp only [List.length_append, h3, hL2]
        omega
      rw [hi]
      refine ⟨hm.symm, rfl, rfl, ?_⟩
      simp only
      by_cases hx : explicitIVVersion hc.version = true
      · rw [if_pos hx] at hev' ⊢
        have : ev = iv := by
          rw [← hev]; simp only [hx, if_true]; rw [if_neg (by omega)]; simp
        subst this
        rw [if_pos (by omega)] at hiv'
        subst hiv'
        refine ⟨?_, rfl⟩
        rw [hr2]; unfold Spec.explicitRecord; simp only [hqq]
      · rw [if_neg hx] at hev' ⊢
        have : ev = [] := List.eq_nil_of_length_eq_zero hev'
        subst this
        rw [if_neg (by simp)] at hiv'
        subst hiv'
        exact ⟨by rw [hr2]; simp, rfl⟩
    · cases hi

/-- the write loop with a CBC cipher -/
theorem writeLoop_cbc (bs : Nat) (E : Bytes → Bytes) (m : Mac) (hb : 0 < bs) (fuel : Nat) :
    ∀ (c : Conn) (iv0 : Bytes) (typ : Byte) (data : Bytes) (n n' : Nat) (c' : Conn),
    Spec.UsesSuite c.out → (c.buffering = false → c.sendBuf = []) →
    c.out.cipher = some (.cbc bs false E iv0) → c.out.mac = some m → c.out.seq.length = 8 →
    beNat c.out.seq + data.length < 2 ^ 64 →
    Conn.writeLoop fuel c typ data n = .ok (n', none, c') →
    ∃ ps : List Bytes, ps.flatten = data ∧ (∀ p ∈ ps, 1 ≤ p.length ∧ p.length ≤ 16384) ∧
      (if explicitIVVersion c.out.version then
        c'.emitted = c.emitted ++ Spec.explicitRecords E bs m.mac (c.recHdr typ) (beNat c.out.seq) c.rand ps ∧
        c'.rand = c.rand.drop (ps.length * bs) ∧ ps.length * bs ≤ c.rand.length
      else
        c'.emitted = c.emitted ++ Spec.chainedRecords E bs m.mac (c.recHdr typ) (beNat c.out.seq) iv0 ps ∧ c'.rand = c.rand) := by
  induction fuel with
  | zero =>
    intro c iv0 typ data n n' c' hu hsb hca hm h8 hsq h
    unfold Conn.writeLoop at h
    by_cases hl : data.length = 0
    · rw [if_pos hl] at h
      simp only [Res.ok.injEq, Prod.mk.injEq, true_and] at h
      obtain ⟨rfl, rfl⟩ := h
      refine ⟨[], by rw [List.eq_nil_of_length_eq_zero hl]; rfl, fun x hx => absurd hx List.not_mem_nil, ?_⟩
      split <;> simp [Spec.explicitRecords, Spec.chainedRecords]
    · rw [if_neg hl] at h; cases h
  | succ fuel ih =>
    intro c iv0 typ data n n' c' hu hsb hca hm h8 hsq h
    unfold Conn.writeLoop at h
    by_cases hl : data.length = 0
    · rw [if_pos hl] at h
      simp only [Res.ok.injEq, Prod.mk.injEq, true_and] at h
      obtain ⟨rfl, rfl⟩ := h
      refine ⟨[], by rw [List.eq_nil_of_length_eq_zero hl]; rfl, fun x hx => absurd hx List.not_mem_nil, ?_⟩
      split <;> simp [Spec.explicitRecords, Spec.chainedRecords]
    · rw [if_neg hl] at h
      simp only at h
      obtain ⟨hm1, hm2⟩ := C28_max_payload c typ hu
      obtain ⟨p, hp⟩ := maxPayload_conn c typ c.out.writeIVLen
      generalize hmax : (c.maxPayloadSizeForWrite typ c.out.writeIVLen).1 = mx at h hm1 hm2
      rw [hp] at h
      simp only at h
      rw [if_neg (by omega)] at h
      generalize hmm : min data.length mx.toNat = k at h
      have hm0 : 1 ≤ k := by omega
      have hmle : k ≤ data.length := by omega
      have hm16 : k ≤ 16384 := by omega
      have hseq : c.out.ivIsSeq = false := by unfold HalfConn.ivIsSeq; rw [hca]
      have hlen : c.out.writeIVLen = if explicitIVVersion c.out.version = true then bs else 0 := by
        unfold HalfConn.writeIVLen; rw [hca]
      by_cases hr : (c.out.writeIVLen != 0 && !c.out.ivIsSeq && decide (c.rand.length < c.out.writeIVLen)) = true
      · rw [if_pos hr] at h
        cases (Prod.mk.inj (Prod.mk.inj (Res.ok.inj h)).2).1
      · rw [if_neg hr] at h
        generalize hc1 : (if (c.out.writeIVLen != 0 && !c.out.ivIsSeq) = true then
            ({ c with packetsSent := p, rand := c.rand.drop c.out.writeIVLen } : Conn) else { c with packetsSent := p }) = c1 at h
        have f1 : c1.out = c.out ∧ c1.vers = c.vers ∧ c1.inp = c.inp ∧ c1.emitted = c.emitted ∧ c1.buffering = c.buffering ∧ c1.sendBuf = c.sendBuf ∧
            c1.rand = c.rand.drop c.out.writeIVLen := by
          rw [← hc1]; split
          · exact ⟨rfl, rfl, rfl, rfl, rfl, rfl, rfl⟩
          · rename_i hz
            rw [hseq] at hz
            have : c.out.writeIVLen = 0 := by simpa using hz
            exact ⟨rfl, rfl, rfl, rfl, rfl, rfl, by rw [this]; rfl⟩
        obtain ⟨f1, f2, f3, f4, f5, f6, f7⟩ := f1
        have hhdr : c1.recHdr typ = c.recHdr typ := by unfold Conn.recHdr; rw [f2]
        rw [hhdr, f1] at h
        cases hw : c.out.writeOne (c.recHdr typ) (c.rand.take c.out.writeIVLen) (data.take k) with
        | err x => rw [hw] at h; cases h
        | panic => rw [hw] at h; cases h
        | ok bo =>
          obtain ⟨b, out'⟩ := bo
          rw [hw] at h
          simp only at h
          cases hwr : ({ c1 with out := out' } : Conn).write b with
          | mk er c2 =>
            rw [hwr] at h
            cases er with
            | some er =>
              simp only at h
              cases (Prod.mk.inj (Prod.mk.inj (Res.ok.inj h)).2).1
            | none =>
              simp only at h
              have hu' := usesSuite_writeOne _ _ _ _ _ _ hw hu
              obtain ⟨w1, w2, w3, w4, w5, w6, w7⟩ := write_ok { c1 with out := out' } b c2 (by simp only; rw [f5, f6]; exact hsb) hwr
              simp only at w2 w3 w4 w7
              have hiv : explicitIVVersion c.out.version = true → (c.rand.take c.out.writeIVLen).length = bs := by
                intro hx
                rw [hx, if_pos rfl] at hlen
                rw [hseq, hlen] at hr
                simp at hr
                rw [hlen, List.length_take]
                have := hr (by omega)
                omega
              have e64 : (c.recHdr typ).length = 3 := rfl
              obtain ⟨g1, g2, g3, g4⟩ := writeOne_cbc c.out out' bs E iv0 m (c.recHdr typ) (c.rand.take c.out.writeIVLen) (data.take k) b hca hm hb e64 h8
                (by rw [List.length_take]; omega) hiv hw
              have hb2 : beNat out'.seq = beNat c.out.seq + 1 := by
                rw [g3, beNat_beFixed_of_lt]; omega
              have hc2 : ∃ iv1, out'.cipher = some (.cbc bs false E iv1) := by
                simp only at g4
                split at g4
                · exact ⟨_, g4.2⟩
                · exact ⟨_, g4.2⟩
              obtain ⟨iv1, hc2⟩ := hc2
              obtain ⟨ps, i1, i2, i3⟩ := ih c2 iv1 typ (data.drop k) (n + k) n' c' (by rw [w2]; exact hu') w5 (by rw [w2]; exact hc2) (by rw [w2, g1]; exact hm)
                (by rw [w2, g3, beFixed_length]) (by rw [w2, hb2, List.length_drop]; omega) h
              have hem : ({ c1 with out := out' } : Conn).emitted = c.emitted := by rw [← f4]; rfl
              have hhdr2 : c2.recHdr typ = c.recHdr typ := by unfold Conn.recHdr; rw [w3, f2]
              refine ⟨data.take k :: ps, by simp [i1], ?_, ?_⟩
              · intro x hx
                rcases List.mem_cons.1 hx with rfl | hx
                · simp only [List.length_take]; omega
                · exact i2 x hx
              · rw [w2, g2, hb2, hhdr2, w7, f7, w1, hem] at i3
                rw [hlen] at g4 i3
                by_cases hx : explicitIVVersion c.out.version = true
                · simp only [hx, if_true] at i3 g4 ⊢
                  obtain ⟨j1, j2, j3⟩ := i3
                  refine ⟨?_, ?_, ?_⟩
                  · rw [j1, g4.1]; simp [Spec.explicitRecords]
                  · rw [j2, List.drop_drop, List.length_cons, Nat.succ_mul]; congr 1; omega
                  · have := hiv hx
                    rw [hlen, if_pos hx, List.length_take] at this
                    rw [List.length_drop] at j3
                    rw [List.length_cons, Nat.succ_mul]; omega
                · simp only [hx] at i3 g4 ⊢
                  simp only [Bool.false_eq_true, if_false] at i3 g4 ⊢
                  obtain ⟨j1, j2⟩ := i3
                  have hiv1 := g4.2
                  rw [hc2] at hiv1
                  simp only [Option.some.injEq, Cipher.cbc.injEq, true_and] at hiv1
                  refine ⟨?_, by rw [j2]; rfl⟩
                  rw [j1, g4.1, hiv1]; simp [Spec.chainedRecords]

theorem writeRecord_loop (c c' : Conn) (typ : Byte) (data : Bytes) (n : Nat) (htyp : typ ≠ typCCS)
    (h : c.writeRecord typ data = .ok (n, none, c')) : ∃ k, Conn.writeLoop data.length c typ data 0 = .ok (k, none, c') := by
  unfold Conn.writeRecord at h
  cases hw : Conn.writeLoop data.length c typ data 0 with
  | err x => rw [hw] at h; cases h
  | panic => rw [hw] at h; cases h
  | ok r =>
    obtain ⟨k, er, c2⟩ := r
    rw [hw] at h
    cases er with
    | some e => simp only at h; cases (Prod.mk.inj (Prod.mk.inj (Res.ok.inj h)).2).1
    | none =>
      simp only at h
      rw [if_neg htyp] at h
      simp only [Res.ok.injEq, Prod.mk.injEq, true_and] at h
      obtain ⟨rfl, rfl⟩ := h
      exact ⟨k, rfl⟩

/-- C89: in TLS 1.1 and later, and in GM SSL (version 0x0101), a successful write with a CBC suite puts on the wire one
record per payload, each carrying its own IV, and the IVs are consecutive, disjoint blocks of the connection's random
source: no IV is reused and none can be computed from earlier records. -/
theorem C89_explicit_iv (c c' : Conn) (typ : Byte) (data iv0 : Bytes) (n bs : Nat) (E : Bytes → Bytes) (m : Mac)
    (hv : 0x0302 ≤ c.out.version.toNat ∨ c.out.version = 0x0101)
    (hca : c.out.cipher = some (.cbc bs false E iv0)) (hm : c.out.mac = some m) (hb : 0 < bs) (hu : Spec.UsesSuite c.out)
    (hsb : c.buffering = false → c.sendBuf = []) (h8 : c.out.seq.length = 8)
    (hsq : beNat c.out.seq + data.length < 2 ^ 64) (htyp : typ ≠ typCCS)
    (h : c.writeRecord typ data = .ok (n, none, c')) :
    ∃ ps : List Bytes, ps.flatten = data ∧ (∀ p ∈ ps, 1 ≤ p.length ∧ p.length ≤ 16384) ∧
      c'.emitted = c.emitted ++ Spec.explicitRecords E bs m.mac (c.recHdr typ) (beNat c.out.seq) c.rand ps ∧
      c'.rand = c.rand.drop (ps.length * bs) ∧ ps.length * bs ≤ c.rand.length := by
  have hx : explicitIVVersion c.out.version = true := by
    unfold explicitIVVersion vGMSSL
    rcases hv with h | h
    · simp [h]
    · simp [h]
  obtain ⟨k, hw⟩ := writeRecord_loop c c' typ data n htyp h
  obtain ⟨ps, i1, i2, i3⟩ := writeLoop_cbc bs E m hb _ c iv0 typ data 0 k c' hu hsb hca hm h8 hsq hw
  rw [if_pos hx] at i3
  exact ⟨ps, i1, i2, i3⟩

/-- C89: below TLS 1.1 (SSL 3.0 and TLS 1.0) the records carry no IV: the chaining value runs on from the last
ciphertext block, and no random byte is used. -/
theorem C89_implicit_iv (c c' : Conn) (typ : Byte) (data iv0 : Bytes) (n bs : Nat) (E : Bytes → Bytes) (m : Mac)
    (hv : c.out.version = 0x0300 ∨ c.out.version = 0x0301)
    (hca : c.out.cipher = some (.cbc bs false E iv0)) (hm : c.out.mac = some m) (hb : 0 < bs) (hu : Spec.UsesSuite c.out)
    (hsb : c.buffering = false → c.sendBuf = []) (h8 : c.out.seq.length = 8)
    (hsq : beNat c.out.seq + data.length < 2 ^ 64) (htyp : typ ≠ typCCS)
    (h : c.writeRecord typ data = .ok (n, none, c')) :
    ∃ ps : List Bytes, ps.flatten = data ∧ (∀ p ∈ ps, 1 ≤ p.length ∧ p.length ≤ 16384) ∧
      c'.emitted = c.emitted ++ Spec.chainedRecords E bs m.mac (c.recHdr typ) (beNat c.out.seq) iv0 ps ∧ c'.rand = c.rand := by
  have hx : explicitIVVersion c.out.version = false := by
    unfold explicitIVVersion vGMSSL
    rcases hv with h | h <;> simp [h]
  obtain ⟨k, hw⟩ := writeRecord_loop c c' typ data n htyp h
  obtain ⟨ps, i1, i2, i3⟩ := writeLoop_cbc bs E m hb _ c iv0 typ data 0 k c' hu hsb hca hm h8 hsq hw
  rw [hx] at i3
  exact ⟨ps, i1, i2, i3⟩

namespace IvExample
/-- a GM SSL connection with a CBC suite (identity block function, constant MAC) and 64 random bytes -/
def m : Mac := { size := 32, mac := fun _ _ _ => List.replicate 32 5 }
def conn : Conn :=
  { vers := 0x0101, haveVers := true, rand := (List.range 64).map (BitVec.ofNat 8),
    out := { version := 0x0101, cipher := some (.cbc 16 false id (List.replicate 16 0)), mac := some m } }

/-- the hypotheses of `C89_explicit_iv` are met: the write succeeds, consumes 16 random bytes, and they appear after the header -/
example : Spec.UsesSuite conn.out ∧
    (match conn.writeRecord typAppData [1, 2, 3] with
     | .ok (n, none, c') => decide (n = 3 ∧ c'.rand = conn.rand.drop 16 ∧ (c'.wire.drop 5).take 16 = conn.rand.take 16 ∧ c'.wire.length = 5 + 16 + 48)
     | _ => false) = true := by
  refine ⟨.inr ⟨⟨0xe013, 16, 32, 16, .eccGM, false, true, false, false, false, .sm4CBC, .sm3⟩, .inr (by simp [gmCipherSuites]), rfl, rfl⟩, ?_⟩
  decide +kernel

/-- the same in TLS 1.0: no IV on the wire and no random byte used -/
example : (match ({ conn with vers := 0x0301, out := { conn.out with version := 0x0301 } } : Conn).writeRecord typHandshake [1, 2, 3] with
     | .ok (n, none, c') => decide (n = 3 ∧ c'.rand = conn.rand ∧ c'.wire.length = 5 + 48)
     | _ => false) = true := by decide +kernel
end IvExample

end Verif.Tls
