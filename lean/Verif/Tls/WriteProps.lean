import Verif.Tls.Conn
import Verif.Tls.RecordHistory
/-!
C28: what `Write` puts on the wire.
-/
namespace Verif.Tls
open Verif Verif.Std

/-! ### record sizes for the suites in the tables -/

namespace Spec
/-- the MAC of a suite: none for the AEAD suites, else HMAC (or the SSL 3.0 MAC) with SHA-1, SHA-256, SM3 -/
def macSize : MacKind → Nat
  | .none => 0
  | .sha1 => 20
  | .sha256 => 32
  | .sm3 => 32

/-- the cipher object of a suite: RC4 is a stream; 3DES, AES and SM4 are CBC with 8- and 16-byte blocks; GCM and
ChaCha20-Poly1305 are AEADs with a 16-byte tag and an 8-byte, resp. no, explicit nonce -/
def cipherShape : CipherKind → Shape
  | .rc4 => .stream
  | .des3 => .cbc 8
  | .aesCBC => .cbc 16
  | .sm4CBC => .cbc 16
  | .aesGCM => .aead 8 16
  | .chacha => .aead 0 16

/-- a half connection before the first key change, or one using a suite of the tables -/
def UsesSuite (hc : HalfConn) : Prop :=
  (hc.cipher = none ∧ hc.mac = none) ∨
  ∃ s, (s ∈ cipherSuites ∨ s ∈ gmCipherSuites) ∧ shape hc.cipher = cipherShape s.cipher ∧ hc.macSize = macSize s.mac
end Spec

theorem segmentPayload_shape (hc hc' : HalfConn) (e : Nat) (hs : shape hc'.cipher = shape hc.cipher) (hm : hc'.macSize = hc.macSize) :
    hc'.segmentPayload e = hc.segmentPayload e := by
  unfold HalfConn.segmentPayload
  rw [hm]
  cases ho : hc.cipher with
  | none =>
    cases ho' : hc'.cipher with
    | none => rfl
    | some c => rw [ho, ho'] at hs; cases c <;> cases hs
  | some c =>
    cases ho' : hc'.cipher with
    | none => rw [ho, ho'] at hs; cases c <;> cases hs
    | some c' =>
      rw [ho, ho'] at hs
      cases c with
      | stream _ _ => cases c' <;> first | rfl | cases hs
      | aead a =>
        cases c' with
        | aead a' => simp only [shape, Shape.aead.injEq] at hs; simp only [hs.2]
        | stream _ _ => cases hs
        | cbc _ _ _ _ => cases hs
      | cbc bs _ _ _ =>
        cases c' with
        | aead a' => cases hs
        | stream _ _ => cases hs
        | cbc bs' _ _ _ => simp only [shape, Shape.cbc.injEq] at hs; simp only [hs]

/-- `segmentPayload` read off the shape -/
def Shape.segment (m e : Nat) : Shape → Int
  | .none => 1208 - 5 - e
  | .stream => 1208 - 5 - e - m
  | .aead _ o => 1208 - 5 - e - o
  | .cbc bs => (BitVec.ofInt 64 (1208 - 5 - (e : Int)) &&& ~~~ (BitVec.ofInt 64 ((bs : Int) - 1))).toInt - 1 - m

/-- `writeIVLen` read off the shape -/
def Shape.ivLen (v : Version) : Shape → Nat
  | .none => 0
  | .stream => 0
  | .aead x _ => x
  | .cbc bs => if explicitIVVersion v then bs else 0

theorem segment_of_shape (hc : HalfConn) (s : Shape) (m : Nat) (hs : shape hc.cipher = s) (hm : hc.macSize = m) (e : Nat) :
    hc.segmentPayload e = s.segment m e := by
  subst hs hm
  unfold HalfConn.segmentPayload
  cases hc.cipher with
  | none => rfl
  | some c => cases c <;> rfl

theorem writeIVLen_of_shape (hc : HalfConn) (s : Shape) (hs : shape hc.cipher = s) :
    hc.writeIVLen = s.ivLen hc.version := by
  subst hs
  unfold HalfConn.writeIVLen
  cases hc.cipher with
  | none => rfl
  | some c => cases c <;> rfl

/-- with a suite of the tables a segment always has room: at least one payload byte, at most 1203 -/
theorem segmentPayload_bounds (hc : HalfConn) (hu : Spec.UsesSuite hc) :
    1 ≤ hc.segmentPayload hc.writeIVLen ∧ hc.segmentPayload hc.writeIVLen ≤ 1203 := by
  rcases hu with ⟨h1, h2⟩ | ⟨s, hmem, hs, hm⟩
  · have hsh : shape hc.cipher = .none := by rw [h1]; rfl
    rw [segment_of_shape hc _ _ hsh rfl, writeIVLen_of_shape hc _ hsh]
    simp [Shape.segment, Shape.ivLen]
  · rw [segment_of_shape hc _ _ hs hm, writeIVLen_of_shape hc _ hs]
    have key : (∀ t ∈ cipherSuites, Spec.macSize t.mac ≤ 32) ∧ (∀ t ∈ gmCipherSuites, Spec.macSize t.mac ≤ 32) := by
      constructor <;> decide +kernel
    have hmle : Spec.macSize s.mac ≤ 32 := by
      rcases hmem with h | h
      · exact key.1 s h
      · exact key.2 s h
    have b16a : (BitVec.ofInt 64 (1208 - 5 - ((16 : Nat) : Int)) &&& ~~~ (BitVec.ofInt 64 (((16 : Nat) : Int) - 1))).toInt = 1184 := by decide +kernel
    have b16b : (BitVec.ofInt 64 (1208 - 5 - ((0 : Nat) : Int)) &&& ~~~ (BitVec.ofInt 64 (((16 : Nat) : Int) - 1))).toInt = 1200 := by decide +kernel
    have b8a : (BitVec.ofInt 64 (1208 - 5 - ((8 : Nat) : Int)) &&& ~~~ (BitVec.ofInt 64 (((8 : Nat) : Int) - 1))).toInt = 1192 := by decide +kernel
    have b8b : (BitVec.ofInt 64 (1208 - 5 - ((0 : Nat) : Int)) &&& ~~~ (BitVec.ofInt 64 (((8 : Nat) : Int) - 1))).toInt = 1200 := by decide +kernel
    cases hk : s.cipher with
    | rc4 => simp only [Spec.cipherShape, Shape.segment, Shape.ivLen]; omega
    | des3 =>
      simp only [Spec.cipherShape, Shape.segment, Shape.ivLen]
      by_cases hx : explicitIVVersion hc.version = true
      · rw [if_pos hx, b8a]; omega
      · rw [if_neg hx, b8b]; omega
    | aesCBC =>
      simp only [Spec.cipherShape, Shape.segment, Shape.ivLen]
      by_cases hx : explicitIVVersion hc.version = true
      · rw [if_pos hx, b16a]; omega
      · rw [if_neg hx, b16b]; omega
    | sm4CBC =>
      simp only [Spec.cipherShape, Shape.segment, Shape.ivLen]
      by_cases hx : explicitIVVersion hc.version = true
      · rw [if_pos hx, b16a]; omega
      · rw [if_neg hx, b16b]; omega
    | aesGCM => simp only [Spec.cipherShape, Shape.segment, Shape.ivLen]; omega
    | chacha => simp only [Spec.cipherShape, Shape.segment, Shape.ivLen]; omega

/-- C28: for every suite, record type and value of the byte and packet counters the payload size chosen for the next
record is between 1 and 16384. -/
theorem C28_max_payload (c : Conn) (typ : Byte) (hu : Spec.UsesSuite c.out) :
    1 ≤ (c.maxPayloadSizeForWrite typ c.out.writeIVLen).1 ∧ (c.maxPayloadSizeForWrite typ c.out.writeIVLen).1 ≤ 16384 := by
  obtain ⟨h1, _⟩ := segmentPayload_bounds c.out hu
  unfold Conn.maxPayloadSizeForWrite
  split
  · simp
  · split
    · simp
    · simp only
      split
      · simp
      · simp only
        split
        · simp
        · rename_i h
          have : 1 ≤ c.out.segmentPayload c.out.writeIVLen * ((c.packetsSent : Int) + 1) := by
            calc (1 : Int) = 1 * 1 := by norm_num
              _ ≤ _ := Int.mul_le_mul h1 (by omega) (by norm_num) (by omega)
          omega

theorem maxPayload_conn (c : Conn) (typ : Byte) (e : Nat) :
    ∃ p, (c.maxPayloadSizeForWrite typ e).2 = { c with packetsSent := p } := by
  unfold Conn.maxPayloadSizeForWrite
  split
  · exact ⟨c.packetsSent, rfl⟩
  · split
    · exact ⟨c.packetsSent, rfl⟩
    · simp only
      split
      · exact ⟨_, rfl⟩
      · exact ⟨_, rfl⟩

/-! ### the shape of the sending half never changes between key changes -/

theorem sealPayload_shape (hc : HalfConn) (b : Bytes) (e : Nat) (r : Bytes) (c : Option Cipher)
    (h : hc.sealPayload b e = .ok (r, c)) : shape c = shape hc.cipher := by
  unfold HalfConn.sealPayload at h
  cases hca : hc.cipher with
  | none => rw [hca] at h; cases h; rfl
  | some cc =>
    rw [hca] at h
    cases cc with
    | stream ks pos => cases h; rfl
    | cbc bs dec f iv =>
      simp only at h
      split at h
      · split at h
        · cases h; rfl
        · cases h
        · cases h
      · cases h
      · cases h
    | aead a =>
      simp only at h
      have h2 := congrArg Prod.snd (Res.ok.inj h)
      simp only [Aead.sealW] at h2
      subst h2
      simp only [shape, wrap_after_explicit]

theorem writeOne_shape (hc hc' : HalfConn) (hdr iv data r : Bytes) (h : hc.writeOne hdr iv data = .ok (r, hc')) :
    shape hc'.cipher = shape hc.cipher ∧ hc'.mac = hc.mac ∧ hc'.version = hc.version ∧ hc'.err = hc.err ∧
      hc'.nextCipher = hc.nextCipher ∧ hc'.nextMac = hc.nextMac := by
  rw [writeOne_eq] at h
  unfold HalfConn.encrypt at h
  split at h
  · rename_i r' c hs
    have hsh := sealPayload_shape _ _ _ _ _ hs
    unfold HalfConn.incSeq at h
    split at h
    · rename_i hc2 heq
      split at heq
      · cases heq
      · have heq := Res.ok.inj heq
        have h2 := congrArg Prod.snd (Res.ok.inj h)
        simp only at h2
        subst h2 heq
        exact ⟨hsh, rfl, rfl, rfl, rfl, rfl⟩
    · cases h
    · cases h
  · cases h
  · cases h

theorem usesSuite_writeOne (hc hc' : HalfConn) (hdr iv data r : Bytes) (h : hc.writeOne hdr iv data = .ok (r, hc'))
    (hu : Spec.UsesSuite hc) : Spec.UsesSuite hc' := by
  obtain ⟨h1, h2, _, _, _, _⟩ := writeOne_shape _ _ _ _ _ _ h
  rcases hu with ⟨a, b⟩ | ⟨s, hmem, hs, hm⟩
  · left
    rw [a] at h1
    refine ⟨?_, by rw [h2, b]⟩
    cases hc' : hc'.cipher with
    | none => rfl
    | some c => rw [hc'] at h1; cases c <;> cases h1
  · right
    refine ⟨s, hmem, by rw [h1, hs], ?_⟩
    unfold HalfConn.macSize at hm ⊢
    rw [h2]; exact hm

/-- all bytes handed to the transport or waiting in the handshake buffer -/
def Conn.emitted (c : Conn) : Bytes := c.wire ++ c.sendBuf

/-- what a successful underlying write does -/
theorem write_ok (c : Conn) (data : Bytes) (c' : Conn) (hsb : c.buffering = false → c.sendBuf = []) (h : c.write data = (none, c')) :
    c'.emitted = c.emitted ++ data ∧ c'.out = c.out ∧ c'.vers = c.vers ∧ c'.inp = c.inp ∧ (c'.buffering = false → c'.sendBuf = []) ∧
      c'.buffering = c.buffering ∧ c'.rand = c.rand := by
  unfold Conn.write at h
  by_cases hb : c.buffering = true
  · rw [if_pos hb] at h
    have h := congrArg Prod.snd h
    simp only at h
    subst h
    simp [Conn.emitted, hb]
  · rw [if_neg hb] at h
    have hb' : c.buffering = false := by simpa using hb
    have hs := hsb hb'
    unfold Conn.netWrite at h
    split at h
    · cases congrArg Prod.fst h
    · have h := congrArg Prod.snd h
      simp only at h
      subst h
      simp [Conn.emitted, hs]
    · have h := congrArg Prod.snd h
      simp only at h
      subst h
      simp [Conn.emitted, hs]

/-- what `sendAll` is given by the write loop: one item per record -/
theorem writeLoop_spec (fuel : Nat) : ∀ (c : Conn) (typ : Byte) (data : Bytes) (n n' : Nat) (c' : Conn),
    Spec.UsesSuite c.out → (c.buffering = false → c.sendBuf = []) →
    Conn.writeLoop fuel c typ data n = .ok (n', none, c') →
    n' = n + data.length ∧
    ∃ (items : List (Bytes × Bytes × Bytes)) (rs : List Bytes),
      (items.map (fun x => x.2.2)).flatten = data ∧
      (∀ x ∈ items, x.1 = c.recHdr typ ∧ 1 ≤ x.2.2.length ∧ x.2.2.length ≤ 16384 ∧ (∀ bs, shape c.out.cipher = .cbc bs → explicitIVVersion c.out.version = true → x.2.1.length = bs)) ∧
      sendAll c.out items = .ok (rs, c'.out) ∧ c'.emitted = c.emitted ++ rs.flatten ∧
      Spec.UsesSuite c'.out ∧ c'.vers = c.vers ∧ c'.inp = c.inp ∧ (c'.buffering = false → c'.sendBuf = []) := by
  induction fuel with
  | zero =>
    intro c typ data n n' c' hu hsb h
    unfold Conn.writeLoop at h
    by_cases hl : data.length = 0
    · rw [if_pos hl] at h
      simp only [Res.ok.injEq, Prod.mk.injEq, true_and] at h
      obtain ⟨rfl, rfl⟩ := h
      exact ⟨by omega, [], [], by rw [List.eq_nil_of_length_eq_zero hl]; rfl, fun x hx => absurd hx List.not_mem_nil, rfl, by simp, hu, rfl, rfl, hsb⟩
    · rw [if_neg hl] at h; cases h
  | succ fuel ih =>
    intro c typ data n n' c' hu hsb h
    unfold Conn.writeLoop at h
    by_cases hl : data.length = 0
    · rw [if_pos hl] at h
      simp only [Res.ok.injEq, Prod.mk.injEq, true_and] at h
      obtain ⟨rfl, rfl⟩ := h
      exact ⟨by omega, [], [], by rw [List.eq_nil_of_length_eq_zero hl]; rfl, fun x hx => absurd hx List.not_mem_nil, rfl, by simp, hu, rfl, rfl, hsb⟩
    · rw [if_neg hl] at h
      simp only at h
      obtain ⟨hm1, hm2⟩ := C28_max_payload c typ hu
      obtain ⟨p, hp⟩ := maxPayload_conn c typ c.out.writeIVLen
      generalize hmax : (c.maxPayloadSizeForWrite typ c.out.writeIVLen).1 = mx at h hm1 hm2
      rw [hp] at h
      simp only at h
      rw [if_neg (by omega)] at h
      generalize hmm : min data.length mx.toNat = m at h
      have hm0 : 1 ≤ m := by omega
      have hmle : m ≤ data.length := by omega
      have hm16 : m ≤ 16384 := by omega
      by_cases hr : (c.out.writeIVLen != 0 && !c.out.ivIsSeq && decide (c.rand.length < c.out.writeIVLen)) = true
      · rw [if_pos hr] at h
        cases (Prod.mk.inj (Prod.mk.inj (Res.ok.inj h)).2).1
      · rw [if_neg hr] at h
        generalize hc1 : (if (c.out.writeIVLen != 0 && !c.out.ivIsSeq) = true then
            ({ c with packetsSent := p, rand := c.rand.drop c.out.writeIVLen } : Conn) else { c with packetsSent := p }) = c1 at h
        have f1 : c1.out = c.out ∧ c1.vers = c.vers ∧ c1.inp = c.inp ∧ c1.emitted = c.emitted ∧ c1.buffering = c.buffering ∧ c1.sendBuf = c.sendBuf := by
          rw [← hc1]; split <;> exact ⟨rfl, rfl, rfl, rfl, rfl, rfl⟩
        obtain ⟨f1, f2, f3, f4, f5, f6⟩ := f1
        have hhdr : c1.recHdr typ = c.recHdr typ := by unfold Conn.recHdr; rw [f2]
        rw [hhdr, f1] at h
        cases hw : c.out.writeOne (c.recHdr typ) (c.rand.take c.out.writeIVLen) (data.take m) with
        | err x => rw [hw] at h; cases h
        | panic => rw [hw] at h; cases h
        | ok bo =>
          obtain ⟨b, out'⟩ := bo
          rw [hw] at h
          simp only at h
          cases hwr : ({ c1 with out := out' } : Conn).write b with
          | mk er c2 =>
            rw [hwr] at h
            cases er with
            | some er =>
              simp only at h
              cases (Prod.mk.inj (Prod.mk.inj (Res.ok.inj h)).2).1
            | none =>
              simp only at h
              have hu' := usesSuite_writeOne _ _ _ _ _ _ hw hu
              obtain ⟨w1, w2, w3, w4, w5, w6, w7⟩ := write_ok { c1 with out := out' } b c2 (by simp only; rw [f5, f6]; exact hsb) hwr
              simp only at w2 w3 w4
              obtain ⟨hn, items, rs, i1, i2, i3, i4, i5, i6, i7, i8⟩ := ih c2 typ (data.drop m) (n + m) n' c' (by rw [w2]; exact hu') w5 h
              obtain ⟨s1, s2, s3, _, _, _⟩ := writeOne_shape _ _ _ _ _ _ hw
              refine ⟨by rw [hn, List.length_drop]; omega, (c.recHdr typ, c.rand.take c.out.writeIVLen, data.take m) :: items, b :: rs, ?_, ?_, ?_, ?_, i5, ?_, ?_, i8⟩
              · simp only [List.map_cons, List.flatten_cons, i1, List.take_append_drop]
              · intro x hx
                rcases List.mem_cons.1 hx with rfl | hx
                · refine ⟨rfl, by simp only [List.length_take]; omega, by simp only [List.length_take]; omega, ?_⟩
                  intro bs hbs hexp
                  have hlen := writeIVLen_of_shape c.out _ hbs
                  simp only [Shape.ivLen, hexp, if_true] at hlen
                  have hseq : c.out.ivIsSeq = false := by
                    unfold HalfConn.ivIsSeq
                    cases hcc : c.out.cipher with
                    | none => rfl
                    | some cc => rw [hcc] at hbs; cases cc <;> first | rfl | cases hbs
                  rw [hseq, hlen] at hr
                  simp only [List.length_take, hlen]
                  by_cases hb0 : bs = 0
                  · omega
                  · simp [hb0] at hr; omega
                · obtain ⟨a1, a2, a3, a4⟩ := i2 x hx
                  refine ⟨by rw [a1]; unfold Conn.recHdr; rw [w3, f2], a2, a3, ?_⟩
                  intro bs hbs hexp
                  exact a4 bs (by rw [w2, s1, hbs]) (by rw [w2, s3, hexp])
              · simp only [sendAll, hw]
                rw [← w2, i3]
              · rw [i4, w1]
                have : ({ c1 with out := out' } : Conn).emitted = c.emitted := by
                  rw [← f4]; rfl
                rw [this]
                simp
              · rw [i6, w3, f2]
              · rw [i7, w4, f3]

/-- C28: `writeRecord` for a suite of the tables, when it reports no error: the records put on the wire carry
nonempty payloads of at most 16384 bytes whose concatenation is exactly the data, and all bytes are counted. -/
theorem C28_fragmentation (c : Conn) (typ : Byte) (data : Bytes) (n : Nat) (c' : Conn) (hu : Spec.UsesSuite c.out)
    (hsb : c.buffering = false → c.sendBuf = []) (htyp : typ ≠ typCCS)
    (h : c.writeRecord typ data = .ok (n, none, c')) :
    n = data.length ∧ ∃ (items : List (Bytes × Bytes × Bytes)) (rs : List Bytes),
      (items.map (fun x => x.2.2)).flatten = data ∧
      (∀ x ∈ items, x.1 = c.recHdr typ ∧ 1 ≤ x.2.2.length ∧ x.2.2.length ≤ 16384) ∧
      sendAll c.out items = .ok (rs, c'.out) ∧ c'.emitted = c.emitted ++ rs.flatten := by
  unfold Conn.writeRecord at h
  cases hw : Conn.writeLoop data.length c typ data 0 with
  | err x => rw [hw] at h; cases h
  | panic => rw [hw] at h; cases h
  | ok r =>
    obtain ⟨k, er, c2⟩ := r
    rw [hw] at h
    cases er with
    | some e => simp only at h; cases (Prod.mk.inj (Prod.mk.inj (Res.ok.inj h)).2).1
    | none =>
      simp only at h
      rw [if_neg htyp] at h
      simp only [Res.ok.injEq, Prod.mk.injEq, true_and] at h
      obtain ⟨rfl, rfl⟩ := h
      obtain ⟨hn, items, rs, i1, i2, i3, i4, _⟩ := writeLoop_spec _ _ _ _ _ _ _ hu hsb hw
      exact ⟨by omega, items, rs, i1, fun x hx => ⟨(i2 x hx).1, (i2 x hx).2.1, (i2 x hx).2.2.1⟩, i3, i4⟩

end Verif.Tls
