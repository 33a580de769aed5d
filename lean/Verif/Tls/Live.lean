import Verif.Tls.Establish
/-!
Liveness of `Write` and complete connections: from the master secret to the bytes read by the peer.
-/
namespace Verif.Tls
open Verif Verif.Std

/-- the connection can write `k` more records: a suite of the tables, sequence numbers and random bytes left (16 for each), a transport that takes
everything, no error yet and not shut down -/
structure CanWrite (k : Nat) (c : Conn) : Prop where
  suite : Spec.UsesSuite c.out
  seq8 : c.out.seq.length = 8
  room : beNat c.out.seq + k < 2 ^ 64
  rand : 16 * k ≤ c.rand.length
  net : c.writes = []
  noErr : c.out.err = none
  complete : c.handshakeComplete = true
  open_ : c.closeNotifySent = false

theorem writeOne_seq (hc hc' : HalfConn) (hdr iv data r : Bytes) (h8 : hc.seq.length = 8) (h : hc.writeOne hdr iv data = .ok (r, hc')) :
    hc'.seq = beFixed 8 (beNat hc.seq + 1) ∧ beNat hc.seq + 1 < 2 ^ 64 := by
  rw [writeOne_eq] at h
  unfold HalfConn.encrypt at h
  split at h
  · rename_i r' c hs
    rw [incSeq_eq { hc with cipher := c } h8] at h
    split at h
    · rename_i hc2 heq
      split at heq
      · rename_i hlt
        have heq := Res.ok.inj heq
        have h2 := congrArg Prod.snd (Res.ok.inj h)
        simp only at h2
        subst heq
        subst h2
        exact ⟨rfl, hlt⟩
      · cases heq
    · cases h
    · cases h
  · cases h
  · cases h

theorem write_net (c : Conn) (data : Bytes) (h : c.writes = []) :
    ∃ c', c.write data = (none, c') ∧ c'.out = c.out ∧ c'.rand = c.rand ∧ c'.writes = [] ∧ c'.handshakeComplete = c.handshakeComplete ∧
      c'.closeNotifySent = c.closeNotifySent ∧ c'.vers = c.vers := by
  unfold Conn.write Conn.netWrite
  split
  · exact ⟨_, rfl, rfl, rfl, h, rfl, rfl, rfl⟩
  · rw [h]
    exact ⟨_, rfl, rfl, rfl, rfl, rfl, rfl, rfl⟩

theorem writeLoop_live (fuel : Nat) : ∀ (c : Conn) (typ : Byte) (data : Bytes) (n k : Nat), data.length ≤ fuel → CanWrite (data.length + k) c →
    ∃ c', Conn.writeLoop fuel c typ data n = .ok (n + data.length, none, c') ∧ CanWrite k c' ∧ c'.vers = c.vers := by
  induction fuel with
  | zero =>
    intro c typ data n k hf hw
    have h0 : data = [] := List.eq_nil_of_length_eq_zero (by omega)
    subst h0
    exact ⟨c, writeLoop_nil _ _ _ _, by simpa using hw, rfl⟩
  | succ fuel ih =>
    intro c typ data n k hf hw
    by_cases hl : data.length = 0
    · have h0 : data = [] := List.eq_nil_of_length_eq_zero hl
      subst h0
      exact ⟨c, writeLoop_nil _ _ _ _, by simpa using hw, rfl⟩
    unfold Conn.writeLoop
    rw [if_neg hl]
    obtain ⟨hm1, hm2⟩ := C28_max_payload c typ hw.suite
    obtain ⟨p, hp⟩ := maxPayload_conn c typ c.out.writeIVLen
    dsimp only
    rw [hp]
    generalize hmax : (c.maxPayloadSizeForWrite typ c.out.writeIVLen).1 = mx at hm1 hm2 ⊢
    rw [if_neg (by omega)]
    generalize hmm : min data.length mx.toNat = m
    have hm0 : 1 ≤ m := by omega
    have hmle : m ≤ data.length := by omega
    have hiv := (usesSuite_bounds c.out hw.suite).2.1
    have hra := hw.rand
    dsimp only
    rw [if_neg (by simp; intro _ _; omega)]
    generalize hc1 : (if (c.out.writeIVLen != 0 && !c.out.ivIsSeq) = true then
            ({ c with packetsSent := p, rand := c.rand.drop c.out.writeIVLen } : Conn) else { c with packetsSent := p }) = c1
    have f1 : c1.out = c.out ∧ c1.vers = c.vers ∧ c1.writes = [] ∧ c1.handshakeComplete = true ∧ c1.closeNotifySent = false ∧ 16 * (data.length - 1 + k) ≤ c1.rand.length := by
      rw [← hc1]
      split
      · refine ⟨rfl, rfl, hw.net, hw.complete, hw.open_, ?_⟩
        simp only [List.length_drop]; omega
      · refine ⟨rfl, rfl, hw.net, hw.complete, hw.open_, ?_⟩
        simp only; omega
    obtain ⟨f1, f2, f3, f4, f5, f6⟩ := f1
    rw [f1]
    have hroom := hw.room
    obtain ⟨r, o', hone⟩ := writeOne_total c.out ⟨hw.suite, hw.seq8, by omega⟩ (c1.recHdr typ) (c.rand.take c.out.writeIVLen) (data.take m)
    rw [hone]
    obtain ⟨c2, g1, g2, g3, g4, g5, g6, g7⟩ := write_net ({ c1 with out := o' } : Conn) r f3
    simp only [g1]
    obtain ⟨q1, q2⟩ := writeOne_seq _ _ _ _ _ _ hw.seq8 hone
    obtain ⟨_, _, _, s4, _, _⟩ := writeOne_shape _ _ _ _ _ _ hone
    have hnext : CanWrite ((data.drop m).length + k) c2 := by
      refine ⟨?_, ?_, ?_, ?_, g4, ?_, by rw [g5]; exact f4, by rw [g6]; exact f5⟩
      · rw [g2]; exact usesSuite_writeOne _ _ _ _ _ _ hone hw.suite
      · rw [g2]; simp only; rw [q1, beFixed_length]
      · rw [g2]; simp only; rw [q1, beNat_beFixed, Nat.mod_eq_of_lt (by rw [show (256 : Nat) ^ 8 = 2 ^ 64 by norm_num]; exact q2), List.length_drop]; omega
      · rw [g3]; simp only [List.length_drop]; omega
      · rw [g2]; simp only; rw [s4]; exact hw.noErr
    obtain ⟨c3, e1, e2, e3⟩ := ih c2 typ (data.drop m) (n + m) k (by rw [List.length_drop]; omega) hnext
    refine ⟨c3, ?_, e2, by rw [e3, g7]; exact f2⟩
    rw [e1, List.length_drop]
    congr 2
    omega

theorem writeRecord_live (c : Conn) (typ : Byte) (data : Bytes) (k : Nat) (ht : typ ≠ typCCS) (hw : CanWrite (data.length + k) c) :
    ∃ c', c.writeRecord typ data = .ok (data.length, none, c') ∧ CanWrite k c' ∧ c'.vers = c.vers := by
  obtain ⟨c', h1, h2, h3⟩ := writeLoop_live data.length c typ data 0 k (Nat.le_refl _) hw
  refine ⟨c', ?_, h2, h3⟩
  unfold Conn.writeRecord
  rw [h1]
  simp only [Nat.zero_add]
  rw [if_neg ht]

/-- C28: on a connection that is open and whose transport takes everything, `Write` returns `len(b)` and no error, for every buffer: it never
panics, never loops and never writes short. -/
theorem C28_write_succeeds (c : Conn) (b : Bytes) (k : Nat) (hw : CanWrite (b.length + k) c) :
    ∃ c', c.writeApp b = .ok (b.length, none, c') ∧ CanWrite k c' := by
  unfold Conn.writeApp
  rw [hw.noErr]
  simp only [hw.complete, hw.open_, Bool.not_true, Bool.false_eq_true, if_false]
  by_cases hs : c.splits b = true
  · rw [if_pos hs]
    have hb : 1 < b.length := by
      simp only [Conn.splits, Bool.and_eq_true, decide_eq_true_eq] at hs
      exact hs.1.1.1
    obtain ⟨c1, h1, h2, _⟩ := writeRecord_live c typAppData (b.take 1) (b.length - 1 + k) (by decide)
      (by rw [show (b.take 1).length + (b.length - 1 + k) = b.length + k by rw [List.length_take]; omega]; exact hw)
    rw [h1]
    simp only
    rw [show (List.take 1 b).length = 1 by rw [List.length_take]; omega]
    obtain ⟨c2, k1, k2, _⟩ := writeRecord_live c1 typAppData (b.drop 1) k (by decide) (by rw [List.length_drop]; exact h2)
    rw [k1]
    simp only
    rw [show (List.drop 1 b).length + 1 = b.length by rw [List.length_drop]; omega]
    refine ⟨_, rfl, ?_⟩
    rw [show ({ c2 with out := { c2.out with err := none } } : Conn) = c2 by rw [← k2.noErr]]
    exact k2
  · rw [if_neg hs]
    simp only [List.drop_zero, Nat.add_zero]
    obtain ⟨c2, k1, k2, _⟩ := writeRecord_live c typAppData b k (by decide) hw
    rw [k1]
    simp only
    refine ⟨_, rfl, ?_⟩
    rw [show ({ c2 with out := { c2.out with err := none } } : Conn) = c2 by rw [← k2.noErr]]
    exact k2

theorem writeDatas_live (datas : List Bytes) : ∀ (c : Conn) (k : Nat), CanWrite (datas.flatten.length + k) c →
    ∃ c', writeDatas datas c = .ok (none, c') ∧ CanWrite k c' := by
  induction datas with
  | nil => intro c k h; exact ⟨c, rfl, by simpa using h⟩
  | cons d ds ih =>
    intro c k h
    obtain ⟨c1, h1, h2⟩ := C28_write_succeeds c d (ds.flatten.length + k) (by
      rw [List.flatten_cons, List.length_append] at h
      rw [← Nat.add_assoc]; exact h)
    obtain ⟨c2, k1, k2⟩ := ih c1 k h2
    exact ⟨c2, by simp only [writeDatas, h1, k1], k2⟩

/-- C78, from the master secret on: two ends at one version derive their keys from one master secret and the same randoms with any suite usable at that
version, change keys and complete the handshake. Then, for every sequence of `Write` calls of the client, all of them succeed, and the server, reading
with buffers of any sizes, gets exactly the bytes written. (And the same with the roles exchanged.) The hypotheses about the ends are what holds in
every handshake at this point: no error so far, nothing buffered, and `k` fresh random bytes and sequence numbers for `k` bytes. -/
theorem C78_session (P : Prims) (hP : P.Lawful) (s : Suite) (master cr sr : Bytes) (a b : Conn) (hv : a.vers = b.vers) (hu : Spec.Usable a.vers s)
    (ha : a.out.err = none) (hb : b.inp.err = none) (ha' : a.inp.err = none) (hb' : b.out.err = none)
    (hna : a.writes = []) (hnb : b.writes = []) (hca : a.closeNotifySent = false) (hcb : b.closeNotifySent = false)
    (hsa : a.buffering = false → a.sendBuf = []) (hsb : b.buffering = false → b.sendBuf = [])
    (hha : a.hand = []) (hhb : b.hand = []) (hia : a.input = none) (hib : b.input = none)
    (reneg : Conn → Res (Option String × Conn)) (peek : Bool) (buf : Nat → Nat) :
    ∃ a1 b1 ao ai bo bi, a.clientEstablish P s master cr sr = .ok a1 ∧ b.serverEstablish P s master cr sr = .ok b1 ∧
      a1.out.changeCipherSpec = some ao ∧ a1.inp.changeCipherSpec = some ai ∧ b1.out.changeCipherSpec = some bo ∧ b1.inp.changeCipherSpec = some bi ∧
      (∀ datas : List Bytes, datas.flatten.length < 2 ^ 64 → 16 * datas.flatten.length ≤ a.rand.length →
        ∃ a2 w b2, writeDatas datas { a1 with out := ao, inp := ai, handshakeComplete := true } = .ok (none, a2) ∧ a2.emitted = a.emitted ++ w ∧
          readFull reneg peek buf datas.flatten.length datas.flatten.length { b1 with out := bo, inp := bi, handshakeComplete := true, stream := w } =
            .ok (datas.flatten, none, b2)) ∧
      (∀ datas : List Bytes, datas.flatten.length < 2 ^ 64 → 16 * datas.flatten.length ≤ b.rand.length →
        ∃ b2 w a2, writeDatas datas { b1 with out := bo, inp := bi, handshakeComplete := true } = .ok (none, b2) ∧ b2.emitted = b.emitted ++ w ∧
          readFull reneg peek buf datas.flatten.length datas.flatten.length { a1 with out := ao, inp := ai, handshakeComplete := true, stream := w } =
            .ok (datas.flatten, none, a2)) := by
  obtain ⟨kc, ks, h1, h2, h3, h4, h5⟩ := C41_endpoints_agree P.hashes a.vers s hu master cr sr
  have hm := usable_mem hu
  obtain ⟨o1, i1, o2, i2, p1, p2, p3, p4, p5, p6, p7, p8, p9, p10⟩ := keyHalf_pair P hP a.vers s hm kc.out (h5 _ (by simp)).2 a.out b.inp
  obtain ⟨q1, j1, q2, j2, r1, r2, r3, r4, r5, r6, r7, r8, r9, r10⟩ := keyHalf_pair P hP a.vers s hm kc.inp (h5 _ (by simp)).2 b.out a.inp
  have hv0 : a.vers ≠ 0 := by
    rcases hu with ⟨_, h | ⟨_, h | h | h⟩⟩ | ⟨_, h⟩ <;> rw [h] <;> decide
  have hlt : a.vers.toNat < 0x1000 := by
    rcases hu with ⟨_, h | ⟨_, h | h | h⟩⟩ | ⟨_, h⟩ <;> rw [h] <;> decide
  have zero8 : beNat (List.replicate 8 (0 : Byte)) = 0 := by decide
  refine ⟨{ a with inp := j1, out := o1 }, { b with inp := i1, out := q1 }, o2, j2, q2, i2, ?_, ?_, p3, r4, r3, p4, ?_, ?_⟩
  · simp only [Conn.clientEstablish, h1, r2, p1]
  · rw [h3] at p1 p2
    rw [h4] at r1 r2
    simp only [Conn.serverEstablish, ← hv, h2, p2, r1]
  · intro datas hlen hrand
    obtain ⟨a2, e1, _⟩ := writeDatas_live datas ({ a with inp := j2, out := o2, handshakeComplete := true } : Conn) 0
      ⟨p6, by simp [p8], by simp only [p8, zero8]; omega, by simpa using hrand, hna, by simp only [p9, ha], rfl, hca⟩
    obtain ⟨items, w, _, hem⟩ := writeDatas_emits datas ({ a with inp := j2, out := o2, handshakeComplete := true } : Conn) a2 p6 hsa e1
    obtain ⟨b2, f1, _⟩ := C78_data_delivery reneg peek buf datas ({ a with inp := j2, out := o2, handshakeComplete := true } : Conn) a2
      ({ b with inp := i2, out := q2, handshakeComplete := true, stream := w } : Conn) w [] e1 hem.emitted (by simp) (by simp) p6 hsa p5
      (by simp only [p10, hb]) rfl hhb hib (fun _ => by simp only [Conn.wireVersion, if_neg hv0, ← hv]) (fun _ => by simp only [Conn.wireVersion, if_neg hv0]; exact hlt)
    exact ⟨a2, w, b2, e1, hem.emitted, f1⟩
  · intro datas hlen hrand
    have hv0' : b.vers ≠ 0 := hv ▸ hv0
    obtain ⟨b2, e1, _⟩ := writeDatas_live datas ({ b with inp := i2, out := q2, handshakeComplete := true } : Conn) 0
      ⟨r6, by simp [r8], by simp only [r8, zero8]; omega, by simpa using hrand, hnb, by simp only [r9, hb'], rfl, hcb⟩
    obtain ⟨items, w, _, hem⟩ := writeDatas_emits datas ({ b with inp := i2, out := q2, handshakeComplete := true } : Conn) b2 r6 hsb e1
    obtain ⟨a2, f1, _⟩ := C78_data_delivery reneg peek buf datas ({ b with inp := i2, out := q2, handshakeComplete := true } : Conn) b2
      ({ a with inp := j2, out := o2, handshakeComplete := true, stream := w } : Conn) w [] e1 hem.emitted (by simp) (by simp) r6 hsb r5
      (by simp only [r10, ha']) rfl hha hia (fun _ => by simp only [Conn.wireVersion, if_neg hv0', hv]) (fun _ => by simp only [Conn.wireVersion, if_neg hv0']; exact hv ▸ hlt)
    exact ⟨b2, w, a2, e1, hem.emitted, f1⟩

/-! ### the hypotheses are met -/

namespace Example
/-- a stand-in hash of `n + 1` bytes -/
def hash (n : Nat) : HashFn := ⟨fun m => List.replicate (n + 1) (BitVec.ofNat 8 m.length), n + 1, 64, fun _ => by simp, by omega⟩

/-- stand-ins for the library: XOR block ciphers and an AEAD with a constant tag -/
def prims : Prims where
  hashes := ⟨hash 15, rfl, hash 19, rfl, hash 31, hash 47⟩
  rc4 k i := k.getD (i % k.length) 0
  des3E _ b := b.map (· ^^^ 0x5a)
  des3D _ b := b.map (· ^^^ 0x5a)
  aesE _ b := b.map (· ^^^ 0xa5)
  aesD _ b := b.map (· ^^^ 0xa5)
  gcm _ := ⟨16, fun _ p _ => p ++ List.replicate 16 1, fun _ c _ => if c.length < 16 then none else some (c.take (c.length - 16))⟩
  chacha _ := ⟨16, fun _ p _ => p ++ List.replicate 16 2, fun _ c _ => if c.length < 16 then none else some (c.take (c.length - 16))⟩

theorem prims_lawful : prims.Lawful where
  des3Len _ b h := by simpa [prims] using h
  des3Inv _ b _ := by simp [prims, Function.comp_def, BitVec.xor_assoc]
  aesLen _ b h := by simpa [prims] using h
  aesInv _ b _ := by simp [prims, Function.comp_def, BitVec.xor_assoc]
  gcm _ := ⟨⟨fun _ _ _ => by simp [prims], fun _ _ _ => by simp [prims]⟩, rfl⟩
  chacha _ := ⟨⟨fun _ _ _ => by simp [prims], fun _ _ _ => by simp [prims]⟩, rfl⟩
  sha256 := rfl

/-- a GM connection (SM4-CBC with HMAC-SM3 of this repository) meets every hypothesis of `C78_session`, with 4096 random bytes -/
example (master cr sr : Bytes) := C78_session prims prims_lawful ⟨0xe013, 16, 32, 16, .eccGM, false, true, false, false, false, .sm4CBC, .sm3⟩ master cr sr
  { vers := vGMSSL, isClient := true, rand := List.replicate 4096 7 } { vers := vGMSSL, haveVers := true, rand := List.replicate 4096 9 }
  rfl (.inr ⟨by simp [gmCipherSuites], rfl⟩) rfl rfl rfl rfl rfl rfl rfl rfl (fun _ => rfl) (fun _ => rfl) rfl rfl rfl rfl
  (fun c => .ok (none, c)) true (fun _ => 100)
end Example

end Verif.Tls
