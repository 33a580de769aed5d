import Verif.Tls.Live
import Verif.Tls.Reassembly
/-!
Concrete connections that meet the hypotheses of C24–C30 and C78 (record layer).
-/
namespace Verif.Tls.RecordExample
open Verif Verif.Tls

/-! ### a CBC pair with explicit IVs (GM SSL) and an AEAD pair (TLS 1.2) -/

/-- a MAC that depends on everything it authenticates -/
def m : Mac := { size := 32, mac := fun s h d => List.replicate 32 (((s ++ h ++ d).map BitVec.toNat).sum : Nat) }

def sender : HalfConn := { version := vGMSSL, cipher := some (.cbc 16 false (fun b => b.map (· ^^^ 0x5a)) (List.replicate 16 0)), mac := some m }
def receiver : HalfConn := { version := vGMSSL, cipher := some (.cbc 16 true (fun b => b.map (· ^^^ 0x5a)) (List.replicate 16 0)), mac := some m }

theorem cbc_paired : Paired sender receiver where
  seqEq := rfl
  seq8 := rfl
  versionEq := rfl
  macEq := rfl
  macLawful := fun m' h => by
    have : m' = m := by simpa [sender] using h.symm
    subst this
    intro s h d
    simp [m]
  ciphers := ⟨rfl, by decide, by decide, fun b h => by simpa using h, fun b h => by
    simp [Function.comp_def, BitVec.xor_assoc], rfl, rfl, .inl (by decide), rfl⟩

def aead (f : Bytes) : Aead := ⟨(Example.prims.gcm []), .fixed f⟩
def aSender : HalfConn := { version := vTLS12, cipher := some (.aead (aead (List.replicate 12 3))), mac := none }
def aReceiver : HalfConn := { version := vTLS12, cipher := some (.aead (aead (List.replicate 12 3))), mac := none }

theorem aead_paired : Paired aSender aReceiver where
  seqEq := rfl
  seq8 := rfl
  versionEq := rfl
  macEq := rfl
  macLawful := fun m' h => by simp [aSender] at h
  ciphers := ⟨rfl, (Example.prims_lawful.gcm []).1, rfl, rfl, rfl⟩

/-- C25_history_round_trip: three records, one of them empty, over the CBC pair -/
example := C25_history_round_trip [([22, 1, 1], List.replicate 16 1, [1, 2, 3]), ([23, 1, 1], List.replicate 16 2, []), ([23, 1, 1], List.replicate 16 3, [9])]
  sender receiver cbc_paired (by
    intro x hx
    refine ⟨?_, ?_, fun bs hbs => ?_⟩
    · revert x; decide
    · revert x; decide
    · have : bs = 16 := by simpa [sender, shape] using hbs.symm
      subst this
      revert x; decide) (by decide) (by decide)

/-- C25_record_round_trip over the AEAD pair: 8 bytes of explicit nonce -/
example := C25_record_round_trip aSender aReceiver aead_paired [23, 3, 3] (List.replicate 8 0) [1, 2, 3] rfl (by decide +kernel) (by decide) (by decide) (by decide)

/-! ### C24: histories -/

/-- two records in the clear, a key change to an AEAD, two records, and a second key change that does not happen -/
def ops : List Op :=
  [.record [22, 3, 3] [] [1], .record [22, 3, 3] [] [2], .prepare vTLS12 (some (.aead (aead (List.replicate 12 3)))) none, .changeKeys,
   .record [23, 3, 3] (beFixed 8 0) [3], .record [23, 3, 3] (beFixed 8 1) [4], .changeKeys, .record [23, 3, 3] (beFixed 8 2) [5]]

theorem ops_wf : ∀ o ∈ ops, OpWF o ∧ OpHdr o := by
  intro o ho
  simp only [ops, List.mem_cons, List.not_mem_nil, or_false] at ho
  rcases ho with rfl | rfl | rfl | rfl | rfl | rfl | rfl | rfl <;> exact ⟨by first | trivial | rfl, by first | trivial | rfl⟩

example := C24_no_repeat ops {} 0 ⟨rfl, trivial, trivial⟩ ops_wf
/-- five records are protected: 0, 1 in the clear, then 0, 1, 2 under the key -/
example : (runOps {} 0 ops).map (fun u => (u.epoch, beNat u.seq)) = [(0, 0), (0, 1), (1, 0), (1, 1), (1, 2)] := by decide +kernel
example : seqsIn 1 (runOps {} 0 ops) = List.range 3 := by decide +kernel

/-- C24_no_wrap: the last sequence number -/
example : ({ sender with seq := List.replicate 8 255 } : HalfConn).incSeq = .panic :=
  (C24_no_wrap { sender with seq := List.replicate 8 255 } rfl).1

/-- C24_key_change: the successor of the state after `prepareCipherSpec` -/
example : ∃ hc', (({} : HalfConn).prepareCipherSpec vTLS12 aSender.cipher none).changeCipherSpec = some hc' ∧ hc'.seq = List.replicate 8 0 :=
  ⟨_, rfl, rfl⟩

/-! ### C26: what is accepted -/

def plain : Bytes := [23, 1, 1] ++ len16 3 ++ List.replicate 16 7 ++ [1, 2, 3]

/-- the sender's record is accepted with its payload, so the hypotheses of C26_accept_mac hold of a real record; … -/
example : (match sender.encrypt plain 16 with
    | .ok (r, _) => (match receiver.decrypt r with | .ok (some d, _) => decide (d = [1, 2, 3]) | _ => false)
    | _ => false) = true := by decide +kernel
/-- … one with another type byte is not -/
example : (match sender.encrypt plain 16 with
    | .ok (r, _) => (match receiver.decrypt (22 :: r.drop 1) with | .ok (none, _) => true | _ => false)
    | _ => false) = true := by decide +kernel
/-- and a repeated one is not: the sequence number has moved on -/
example : (match sender.encrypt plain 16 with
    | .ok (r, _) => (match receiver.decrypt r with
      | .ok (_, rc) => (match rc.decrypt r with | .ok (none, _) => true | _ => false)
      | _ => false)
    | _ => false) = true := by decide +kernel
/-- the hypothesis of C26_accept_aead on the AEAD: nothing shorter than the tag is opened -/
example : ∀ n c ad p, (aead (List.replicate 12 3)).raw.openF n c ad = some p → c.length = p.length + (aead (List.replicate 12 3)).raw.overhead := by
  intro n c ad p h
  simp only [aead, Example.prims] at h ⊢
  split at h
  · cases h
  · have := Option.some.inj h
    subst this
    simp only [List.length_take]
    omega

/-! ### C28: fragmentation -/

def conn : Conn := { vers := vGMSSL, haveVers := true, rand := List.replicate 64 6, out := sender, handshakeComplete := true }

theorem conn_suite : Spec.UsesSuite conn.out :=
  .inr ⟨⟨0xe013, 16, 32, 16, .eccGM, false, true, false, false, false, .sm4CBC, .sm3⟩, .inr (by simp [gmCipherSuites]), rfl, rfl⟩

/-- 1200 bytes of application data leave in two records -/
example : (match conn.writeRecord 23 (List.replicate 1200 1) with
    | .ok (n, none, c') => decide (n = 1200 ∧ beNat c'.out.seq = 2)
    | _ => false) = true := by decide +kernel
example := C28_max_payload conn 23 conn_suite

/-! ### C29, C30: reading -/

/-- two handshake messages in three records in the clear, cut inside the first header and inside the second message -/
def m1 : Bytes := [1, 0, 0, 3, 7, 8, 9]
def m2 : Bytes := [14, 0, 0, 0]
def wire : Bytes := [22, 3, 3, 0, 2, 1, 0] ++ ([22, 3, 3, 0, 6, 0, 3, 7, 8, 9, 14] ++ [22, 3, 3, 0, 3, 0, 0, 0])
def reader : Conn := { vers := vTLS12, haveVers := true, stream := wire ++ [99] }

theorem reader_sent : Sent reader {} { seq := beFixed 8 3 } 22 vTLS12 [([], [1, 0]), ([], [0, 3, 7, 8, 9, 14]), ([], [0, 0, 0])] [99] where
  paired := { seqEq := rfl, seq8 := rfl, versionEq := rfl, macEq := rfl, macLawful := (fun m' h => nomatch h), ciphers := trivial }
  suite := .inl ⟨rfl, rfl⟩
  sizes := by
    intro x hx
    simp only [List.mem_cons, List.not_mem_nil, or_false] at hx
    rcases hx with rfl | rfl | rfl <;> exact ⟨by decide, by simp [IvOk, shape]⟩
  noErr := rfl
  version := ⟨fun _ => rfl, fun h => by cases h⟩
  bytes := ⟨[[22, 3, 3, 0, 2, 1, 0], [22, 3, 3, 0, 6, 0, 3, 7, 8, 9, 14], [22, 3, 3, 0, 3, 0, 0, 0]], rfl, rfl⟩

example := C29_reassembly (fun _ => true) [m1, m2] reader {} { seq := beFixed 8 3 } vTLS12
  [([], [1, 0]), ([], [0, 3, 7, 8, 9, 14]), ([], [0, 0, 0])] [99] [] reader_sent rfl (by
    intro x hx
    simp only [List.mem_cons, List.not_mem_nil, or_false] at hx
    rcases hx with rfl | rfl
    · exact ⟨⟨1, [7, 8, 9], rfl, by decide, by decide⟩, rfl⟩
    · exact ⟨⟨14, [], rfl, by decide, by decide⟩, rfl⟩) rfl

/-- C29_oversize: a header announcing 2^17 bytes -/
example := C29_oversize (fun _ => true) { reader with hand := [11, 2, 0, 0] } ⟨.inl ⟨rfl, rfl⟩, rfl, by decide⟩ (by decide) (by decide)

/-- C30_always_returns, with the CBC keys on both sides -/
example := C30_always_returns { reader with out := sender, inp := receiver } 22 ⟨conn_suite, rfl, by decide⟩
  ⟨rfl, by decide, fun bs h => by
    have : bs = 16 := by simpa [receiver, shape] using h.symm
    omega⟩

/-- C30: a record of another version, a record too long, the end of the stream -/
example : Spec.Malformed { reader with stream := [22, 3, 1, 0, 1, 5] } 22 :=
  .version 22 vTLS10 1 [5] (by decide) rfl rfl (by decide)
example : Spec.Malformed { reader with stream := [22, 3, 3, 0x50, 0, 5] } 22 :=
  .oversized 22 vTLS12 0x5000 [5] (by decide) rfl (by decide)
example : Spec.Malformed { reader with stream := [22, 3, 3] } 22 := .noHeader (by decide)
/-- and a well-formed record is accepted -/
example : (match reader.readRecord 22 with
    | .ok (none, c') => decide (c'.hand = [1, 0] ∧ beNat c'.inp.seq = 1)
    | _ => false) = true := by decide +kernel

end Verif.Tls.RecordExample
