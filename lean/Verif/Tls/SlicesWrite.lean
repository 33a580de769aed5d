import Verif.Tls.Slices
/-!
C144, continued: the writing loop of the record layer (tls/conn.go:867-929) with checked indexes, on a recycled block whose
old contents are arbitrary.
-/
namespace Verif.Tls
open Verif Verif.Std

/-- tls/conn.go:912-921: `explicitIV := b.data[5:5+e]`, filled with the sequence number or with random bytes (`iv`: what
`io.ReadFull` delivered; the error case is in the loop) -/
def HalfConn.fillIVGo (hc : HalfConn) (b iv : Bytes) (e : Nat) : Res Bytes :=
  if e > 0 then do
    let dst ← goRange b 5 (5 + (e : Int))
    .ok (b.take 5 ++ copyAt dst 0 (if hc.ivIsSeq then hc.seq else iv) ++ b.drop (5 + e))
  else .ok b

/-- tls/conn.go:900-923: one record built in the block `b0`; `data` is all that is left to write, `m` how much of it goes
into this record -/
def HalfConn.writeOneGo (hc : HalfConn) (stale : Nat → Byte) (ad0 b0 : Bytes) (typ : Byte) (vers : Version) (iv data : Bytes) (m : Nat) :
    Res (Bytes × HalfConn) := do
  let e := hc.writeIVLen
  let b ← goResize stale b0 (5 + (e : Int) + (m : Int))
  let b ← goSet b 0 typ
  let b ← goSet b 1 ((vers >>> 8).truncate 8)
  let b ← goSet b 2 (vers.truncate 8)
  let b ← goSet b 3 (hiByte m)
  let b ← goSet b 4 (loByte m)
  let b ← hc.fillIVGo b iv e
  let dst ← goFrom b (5 + (e : Int))
  hc.encryptGo stale ad0 (b.take (5 + e) ++ copyAt dst 0 data) e

/-- tls/conn.go:872-929: the loop; `b0` is the block, reused from record to record -/
def Conn.writeLoopGo (stale : Nat → Byte) (ad0 : Bytes) : Nat → Bytes → Conn → Byte → Bytes → Nat → Res (Nat × Option String × Conn)
  | fuel, b0, c, typ, data, n =>
    if data.length = 0 then .ok (n, none, c)
    else match fuel with
    | 0 => .panic
    | fuel + 1 =>
      let e := c.out.writeIVLen
      let r := c.maxPayloadSizeForWrite typ e
      let c := r.2
      if r.1 ≤ 0 then .panic
      else
        let m := if (data.length : Int) > r.1 then r.1.toNat else data.length
        let needRand := e != 0 && !c.out.ivIsSeq
        if needRand && decide (c.rand.length < e) then .ok (n, some "rand error", c)
        else
          let iv := c.rand.take e
          let c := if needRand then { c with rand := c.rand.drop e } else c
          match c.out.writeOneGo stale ad0 b0 typ (if c.vers = 0 then vTLS10 else c.vers) iv data m with
          | .ok (b, out') =>
            match ({ c with out := out' } : Conn).write b with
            | (some err, c) => .ok (n, some err, c)
            | (none, c) =>
              match goFrom data m with
              | .ok rest => Conn.writeLoopGo stale ad0 fuel b c typ rest (n + m)
              | .err x => .err x
              | .panic => .panic
          | .err x => .err x
          | .panic => .panic

theorem goResize_any (stale : Nat → Byte) (s : Bytes) (k : Nat) : ∃ r : Bytes, r.length = k ∧ goResize stale s (k : Int) = .ok r := by
  refine ⟨s.take k ++ (List.range (k - s.length)).map stale, ?_, ?_⟩
  · simp only [List.length_append, List.length_take, List.length_map, List.length_range]; omega
  · unfold goResize
    rw [if_pos (by omega)]
    simp only [Int.toNat_natCast]

theorem copyAt_fill (dst src : Bytes) (h : dst.length ≤ src.length) : copyAt dst 0 src = src.take dst.length := by
  unfold copyAt
  rw [List.take_zero, List.nil_append, Nat.sub_zero, List.drop_of_length_le (by omega), List.append_nil]

/-- the explicit part as the model has it -/
theorem fillIVGo_ok (hc : HalfConn) (H E D iv : Bytes) (hH : H.length = 5) (hE : E.length = hc.writeIVLen) (h8 : hc.seq.length = 8)
    (hiv : hc.writeIVLen ≠ 0 → hc.ivIsSeq = false → iv.length = hc.writeIVLen) :
    hc.fillIVGo (H ++ E ++ D) iv hc.writeIVLen = .ok (H ++ hc.evOf iv ++ D) := by
  have hev := evOf_len hc iv h8 hiv
  unfold HalfConn.fillIVGo
  by_cases h0 : hc.writeIVLen = 0
  · rw [if_neg (by omega)]
    rw [h0] at hev hE
    rw [List.eq_nil_of_length_eq_zero hE, List.eq_nil_of_length_eq_zero hev]
  · rw [if_pos (by omega), show (5 : Int) = ((5 : Nat) : Int) by rfl, goRange_ok _ _ _ (by simp only [List.length_append]; omega), Res.ok_bind]
    have h1 : ((H ++ E ++ D).drop 5).take hc.writeIVLen = E := by
      rw [List.append_assoc, ← hH, List.drop_left, ← hE, List.take_left]
    have h2 : (H ++ E ++ D).take 5 = H := by rw [List.append_assoc, ← hH, List.take_left]
    have h3 : (H ++ E ++ D).drop (5 + hc.writeIVLen) = D := by
      rw [← hH, ← hE, ← List.length_append, List.drop_left]
    rw [h1, h2, h3]
    congr 3
    unfold HalfConn.evOf at hev ⊢
    rw [if_neg h0] at hev ⊢
    by_cases hs : hc.ivIsSeq = true
    · rw [if_pos hs] at hev ⊢
      rw [if_pos hs]
      have h88 : hc.writeIVLen ≤ 8 := by
        unfold HalfConn.ivIsSeq at hs
        unfold HalfConn.writeIVLen
        cases hca : hc.cipher with
        | none => rw [hca] at hs; cases hs
        | some cc =>
          rw [hca] at hs
          cases cc with
          | stream _ _ => cases hs
          | cbc _ _ _ _ => cases hs
          | aead a =>
            simp only
            unfold Aead.explicitNonceLen
            split <;> omega
      rw [copyAt_fill _ _ (by omega), copyAt_fill _ _ (by rw [List.length_replicate]; omega), List.length_replicate, hE]
    · rw [if_neg hs] at hev ⊢
      rw [if_neg hs, copyAt_fill _ _ (by omega), List.take_of_length_le (by omega)]

theorem writeOneGo_eq (hc : HalfConn) (stale : Nat → Byte) (ad0 b0 : Bytes) (typ : Byte) (vers : Version) (iv data : Bytes) (m : Nat)
    (h13 : ad0.length = 13) (h8 : hc.seq.length = 8) (hl : Spec.SizesLawful hc) (hm : m ≤ data.length)
    (hiv : hc.writeIVLen ≠ 0 → hc.ivIsSeq = false → iv.length = hc.writeIVLen) :
    hc.writeOneGo stale ad0 b0 typ vers iv data m =
      hc.writeOne [typ, (vers >>> 8).truncate 8, vers.truncate 8] iv (data.take m) := by
  have hev := evOf_len hc iv h8 hiv
  rw [writeOne_eq]
  unfold HalfConn.writeOneGo
  obtain ⟨r, hr, hg⟩ := goResize_any stale b0 (5 + hc.writeIVLen + m)
  simp only
  rw [show (5 + (hc.writeIVLen : Int) + (m : Int)) = ((5 + hc.writeIVLen + m : Nat) : Int) by omega, hg, Res.ok_bind]
  match r, hr, (show 5 ≤ r.length by omega) with
  | x0 :: x1 :: x2 :: x3 :: x4 :: q, hr, _ =>
    have hq : q.length = hc.writeIVLen + m := by simp only [List.length_cons] at hr; omega
    rw [show (0 : Int) = ((0 : Nat) : Int) by rfl, goSet_ok _ _ _ (by simp), Res.ok_bind,
      show (1 : Int) = ((1 : Nat) : Int) by rfl, goSet_ok _ _ _ (by simp), Res.ok_bind,
      show (2 : Int) = ((2 : Nat) : Int) by rfl, goSet_ok _ _ _ (by simp), Res.ok_bind,
      show (3 : Int) = ((3 : Nat) : Int) by rfl, goSet_ok _ _ _ (by simp), Res.ok_bind,
      show (4 : Int) = ((4 : Nat) : Int) by rfl, goSet_ok _ _ _ (by simp), Res.ok_bind]
    have hb : (((((x0 :: x1 :: x2 :: x3 :: x4 :: q).set 0 typ).set 1 ((vers >>> 8).truncate 8)).set 2 (vers.truncate 8)).set 3
        (hiByte m)).set 4 (loByte m) =
        ([typ, (vers >>> 8).truncate 8, vers.truncate 8] ++ len16 m) ++ q.take hc.writeIVLen ++ q.drop hc.writeIVLen := by
      rw [List.append_assoc, List.take_append_drop, ← hiByte_loByte]
      rfl
    rw [hb, fillIVGo_ok hc _ _ _ iv (by simp [len16_length]) (by rw [List.length_take]; omega) h8 hiv, Res.ok_bind]
    generalize hH : [typ, (vers >>> 8).truncate 8, vers.truncate 8] ++ len16 (m : Int) = H
    have hHl : H.length = 5 := by rw [← hH]; simp [len16_length]
    have hHe : (H ++ hc.evOf iv).length = 5 + hc.writeIVLen := by rw [List.length_append, hHl, hev]
    rw [show (5 + (hc.writeIVLen : Int)) = ((5 + hc.writeIVLen : Nat) : Int) by omega,
      goFrom_ok _ _ (by rw [List.length_append]; omega), Res.ok_bind, ← hHe, List.drop_left, List.take_left,
      copyAt_fill _ _ (by rw [List.length_drop]; omega), List.length_drop, hq, show hc.writeIVLen + m - hc.writeIVLen = m by omega,
      encryptGo_eq hc stale ad0 _ _ h13 h8 hl rfl (by rw [List.length_append]; omega)]
    rw [List.length_take, Nat.min_eq_left hm, hH]

/-- **C144 (writing).** Whatever is written, in whatever block it is built and over whatever stale bytes: building the records
with checked indexes and slices never panics where `writeLoop` does not, and puts the same bytes on the wire. -/
theorem C144_write (stale : Nat → Byte) (ad0 : Bytes) (h13 : ad0.length = 13) (fuel : Nat) : ∀ (b0 : Bytes) (c : Conn) (typ : Byte)
    (data : Bytes) (n : Nat), Spec.SizesLawful c.out → c.out.seq.length = 8 →
    Conn.writeLoopGo stale ad0 fuel b0 c typ data n = Conn.writeLoop fuel c typ data n := by
  induction fuel with
  | zero => intro b0 c typ data n _ _; rfl
  | succ fuel ih =>
    intro b0 c typ data n hl h8
    unfold Conn.writeLoopGo Conn.writeLoop
    by_cases h0 : data.length = 0
    · rw [if_pos h0, if_pos h0]
    · rw [if_neg h0, if_neg h0]
      simp only
      have hout : ∃ p, (c.maxPayloadSizeForWrite typ c.out.writeIVLen).2 = { c with packetsSent := p } := by
        unfold Conn.maxPayloadSizeForWrite
        split
        · exact ⟨_, rfl⟩
        · split
          · exact ⟨_, rfl⟩
          · simp only
            split <;> exact ⟨_, rfl⟩
      obtain ⟨p, hp0⟩ := hout
      rw [hp0]
      simp only
      generalize (c.maxPayloadSizeForWrite typ c.out.writeIVLen).1 = mx
      by_cases hp : mx ≤ 0
      · rw [if_pos hp, if_pos hp]
      · rw [if_neg hp, if_neg hp]
        have hmm : (if (data.length : Int) > mx then mx.toNat else data.length) = min data.length mx.toNat := by
          split <;> omega
        rw [hmm]
        generalize hm : min data.length mx.toNat = m
        have hmle : m ≤ data.length := by omega
        by_cases hr : (c.out.writeIVLen != 0 && !c.out.ivIsSeq && decide (c.rand.length < c.out.writeIVLen)) = true
        · rw [if_pos hr, if_pos hr]
        · rw [if_neg hr, if_neg hr]
          generalize hc1 : (if (c.out.writeIVLen != 0 && !c.out.ivIsSeq) = true then
            ({ c with packetsSent := p, rand := c.rand.drop c.out.writeIVLen } : Conn) else { c with packetsSent := p }) = c1
          have f1 : c1.out = c.out := by rw [← hc1]; split <;> rfl
          have hiv : c.out.writeIVLen ≠ 0 → c.out.ivIsSeq = false → (c.rand.take c.out.writeIVLen).length = c.out.writeIVLen := by
            intro hne hseq
            rw [List.length_take]
            rw [hseq] at hr
            simp [hne] at hr
            omega
          rw [f1, writeOneGo_eq c.out stale ad0 b0 typ _ _ data m h13 h8 hl hmle hiv]
          change (match c.out.writeOne (c1.recHdr typ) _ _ with | .ok (b, out') => _ | .err x => _ | .panic => _) = _
          cases hw : c.out.writeOne (c1.recHdr typ) (c.rand.take c.out.writeIVLen) (data.take m) with
          | err x => rfl
          | panic => rfl
          | ok bo =>
            obtain ⟨b, out'⟩ := bo
            simp only
            have hl' := (writeOne_length _ _ hl _ _ _ _ (recHdr_length _ _) (evOf_len _ _ h8 hiv) hw).2
            have hq := (writeOne_seq _ _ _ _ _ _ h8 hw).1
            cases hwr : ({ c1 with out := out' } : Conn).write b with
            | mk er c2 =>
              cases er with
              | some er => rfl
              | none =>
                simp only
                have ho2 : c2.out = out' := by
                  unfold Conn.write at hwr
                  split at hwr
                  · rw [← (Prod.mk.inj hwr).2]
                  · unfold Conn.netWrite at hwr
                    split at hwr <;> rw [← (Prod.mk.inj hwr).2]
                rw [goFrom_ok _ _ hmle]
                exact ih b c2 typ (data.drop m) (n + m) (by rw [ho2]; exact hl') (by rw [ho2, hq, beFixed_length])

/-! ### examples -/

/-- a CBC half that encrypts with two-byte blocks (explicit IV) and a one-byte MAC -/
def toyCbcOut : HalfConn :=
  { version := 0x0302, cipher := some (.cbc 2 false (fun b => b) [0, 0]), mac := some ⟨1, fun _ _ _ => [7]⟩ }

/-- the hypotheses of `C144_encrypt` and `C144_write` hold of it -/
example : Spec.SizesLawful toyCbcOut ∧ toyCbcOut.seq.length = 8 ∧ toyCbcOut.writeIVLen = 2 := by
  refine ⟨⟨?_, ?_, ?_⟩, rfl, by decide⟩
  · intro m hm
    cases hm
    intro _ _ _
    rfl
  · intro a ha; cases ha
  · intro bs d f iv h
    cases h
    exact ⟨rfl, by decide, rfl, fun b hb => hb⟩

/-- two bytes of data in a block full of nines -/
example : (Conn.writeLoopGo (fun _ => 9) (List.replicate 13 3) 2 (List.replicate 6 9)
    { out := toyCbcOut, vers := 0x0302, rand := [4, 5] } 23 [1, 2] 0).map (fun r => (r.1, r.2.2.wire)) =
    .ok (2, [23, 3, 2, 0, 6, 4, 5, 5, 7, 2, 7]) := by decide +kernel

end Verif.Tls
