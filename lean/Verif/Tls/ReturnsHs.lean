import Verif.Tls.Returns
import Verif.Tls.HsKeys
import Verif.Tls.SrvKeys
/-!
C143: a connection whose `Handshake` has returned nil is in use.
-/
namespace Verif.Tls
open Verif Verif.Std Verif.Tls.Wire

theorem newCBC_shape {bs : Nat} {isRead : Bool} {E D : Bytes → Bytes} {iv : Bytes} {ci : Cipher} (h : newCBC bs isRead E D iv = .ok ci) : shape (some ci) = .cbc bs := by
  unfold newCBC at h
  split at h
  · cases h
  · rw [← Res.ok.inj h]; rfl

theorem newCipherFor_shape {P : Prims} (hP : P.Lawful) {k : CipherKind} {key iv : Bytes} {r : Bool} {ci : Cipher} (h : newCipherFor P k key iv r = .ok ci) :
    shape (some ci) = Spec.cipherShape k := by
  unfold newCipherFor at h
  cases k with
  | rc4 =>
    dsimp only at h
    split at h
    · cases h
    · rw [← Res.ok.inj h]; rfl
  | des3 =>
    dsimp only at h
    split at h
    · cases h
    · exact newCBC_shape h
  | aesCBC =>
    dsimp only at h
    split at h
    · cases h
    · exact newCBC_shape h
  | sm4CBC =>
    dsimp only at h
    split at h
    · exact newCBC_shape h
    · cases h
  | aesGCM =>
    dsimp only at h
    split at h
    · cases h
    · rw [← Res.ok.inj h]
      simp [shape, Aead.explicitNonceLen, Spec.cipherShape, (hP.gcm key).2]
  | chacha =>
    dsimp only at h
    split at h
    · cases h
    · rw [← Res.ok.inj h]
      simp [shape, Aead.explicitNonceLen, Spec.cipherShape, (hP.chacha key).2]

theorem fresh_usesSuite {P : Prims} (hP : P.Lawful) {s : Suite} (hs : s ∈ cipherSuites ∨ s ∈ gmCipherSuites) {v : Version} {key iv mk : Bytes} {r : Bool} {ci : Cipher} {hc : HalfConn}
    (h : newCipherFor P s.cipher key iv r = .ok ci) (hf : Spec.Fresh hc v ci (newMacFor P s.mac v mk)) : Spec.UsesSuite hc := by
  refine .inr ⟨s, hs, by rw [hf.cipher]; exact newCipherFor_shape hP h, ?_⟩
  unfold HalfConn.macSize
  rw [hf.mac]
  cases hm : newMacFor P s.mac v mk with
  | none => cases hk : s.mac <;> rw [hk] at hm <;> first | rfl | cases hm
  | some m => exact (newMac_lawful P hP _ _ _ m hm).2

theorem wrote_suite {a b : HalfConn} (h : Spec.Wrote a b) (hu : Spec.UsesSuite a) (h8 : a.seq.length = 8) : Spec.UsesSuite b ∧ b.seq.length = 8 := by
  induction h with
  | refl => exact ⟨hu, h8⟩
  | step hdr iv data x _ w ih =>
    obtain ⟨i1, i2⟩ := ih
    exact ⟨usesSuite_writeOne _ _ _ _ _ _ w i1, by rw [(writeOne_seq _ _ _ _ _ _ i2 w).1, beFixed_length]⟩

theorem opened_shape {a b : HalfConn} (h : Spec.Opened a b) (hb : ∀ bs, shape a.cipher = .cbc bs → 0 < bs) (h8 : a.seq.length = 8) :
    shape b.cipher = shape a.cipher ∧ b.seq.length = 8 := by
  induction h with
  | refl => exact ⟨rfl, h8⟩
  | @step b d x data _ w ih =>
    obtain ⟨i1, i2⟩ := ih
    refine ⟨?_, by rw [(decrypt_seq _ _ _ _ i2 w).1, beFixed_length]⟩
    obtain ⟨r, c, ho, hs⟩ := openPayload_total b x (fun bs h => hb bs (by rw [← i1]; exact h))
    rw [← i1, ← hs]
    unfold HalfConn.decrypt at w
    rw [ho] at w
    cases r with
    | none => simp at w
    | some p =>
      dsimp only at w
      split at w
      · simp at w
      · split at w
        · rename_i hc' hi
          have := congrArg Prod.snd (Res.ok.inj w)
          simp only at this
          subst this
          have hl : ({ b with cipher := c } : HalfConn).seq.length = 8 := i2
          rw [incSeq_eq _ hl] at hi
          split at hi
          · rw [← Res.ok.inj hi]
          · cases hi
        · cases w
        · cases w

/-- the call of `Handshake` records that it succeeded -/
theorem handshake_done {α : Type} {P : Prims} {gm : Bool} {p : Hs α} {c c' : Conn} (h1 : c.handshakeErr = none) (h2 : c.handshakeComplete = false)
    (h : c.handshake (p.asHandshake P gm) = .ok (none, c')) :
    c'.handshakeComplete = true ∧ c'.handshakeErr = none ∧ c'.isClient = c.isClient ∧ c'.policy = c.policy := by
  unfold Conn.handshake at h
  rw [h1] at h
  dsimp only at h
  rw [if_neg (by rw [h2]; decide)] at h
  unfold Conn.runHandshake at h
  generalize p.asHandshake P gm _ = x at h
  cases x with
  | ok y =>
    obtain ⟨e, d⟩ := y
    cases e with
    | none =>
      simp only [Option.isNone_none, if_true, Res.ok.injEq, Prod.mk.injEq, true_and] at h
      rw [← h]
      exact ⟨rfl, rfl, rfl, rfl⟩
    | some e => simp at h
  | err => simp at h
  | panic => simp at h

theorem zeros8_len : (List.replicate 8 (0 : Byte)).length = 8 := by simp

/-- **C143, after a client handshake.** If `Handshake` of a client, with the policy RenegotiateNever, returns nil on a new connection, the connection is in use
from then on (and `C143_history` applies), as long as the sequence numbers last. -/
theorem C143_after_client (P : Prims) (hP : P.Lawful) (K : KaEnv) (Z : ClientStart) (rk rs : Bytes) (c c' : Conn) (hren : Z.S.renegotiation = c.ren) (hpol : c.policy = 0)
    (h1 : c.handshakeErr = none) (h2 : c.handshakeComplete = false) (h3 : c.haveVers = false)
    (h : c.handshake ((clientProg K Z rk rs).asHandshake P Z.S.gm) = .ok (none, c'))
    (k : Nat) (ho : beNat c'.out.seq + k < 2 ^ 64) (hi : beNat c'.inp.seq + c'.stream.length < 2 ^ 64) : Spec.Running k c' := by
  obtain ⟨r, sh, ch, items, sent, hran, hS, hsend, _, _, hread⟩ := C136_keys_partial P K Z rk rs c c' hren h1 h2 h3 h
  obtain ⟨d1, d2, d3, d4⟩ := handshake_done h1 h2 h
  have hr := hread (.inr (by simp [Conn.ren, Conn.renegotiation, hpol]))
  have hsu : r.S.suite ∈ cipherSuites ∨ r.S.suite ∈ gmCipherSuites := by
    rw [hS]
    show ch.suite ∈ cipherSuites ∨ ch.suite ∈ gmCipherSuites
    have hre := hran.choice
    unfold ClientStart.react at hre
    split at hre
    · right
      unfold readServerHelloGM at hre
      split at hre
      · cases hre
      · split at hre
        · cases hre
        · rename_i su hsu
          split at hre
          · cases hre
          · rw [← Except.ok.inj hre]; exact mutual_mem hsu
    · left
      unfold readServerHello at hre
      split at hre
      · cases hre
      · split at hre
        · cases hre
        · rename_i su hsu
          split at hre
          · cases hre
          · rw [← Except.ok.inj hre]; exact mutual_mem hsu
  obtain ⟨k1, x1, y1, _, a2, a3, a4⟩ := hsend
  obtain ⟨k2, x2, y2, _, b2, b3, b4⟩ := hr
  obtain ⟨u1, u2⟩ := wrote_suite a4 (fresh_usesSuite hP hsu a2 a3) (by rw [a3.seq]; exact zeros8_len)
  have hbl := usesSuite_blocks (fresh_usesSuite hP hsu b2 b3)
  obtain ⟨v1, v2⟩ := opened_shape b4 hbl (by rw [b3.seq]; exact zeros8_len)
  exact ⟨d1, d2, .inr (d4.trans hpol), u1, u2, ho, fun bs hb => hbl bs (by rw [← v1]; exact hb), v2, hi⟩

/-- **C143, after a server handshake.** -/
theorem C143_after_server (P : Prims) (hP : P.Lawful) (K : KaEnv) (gm : Bool) (start : ClientHelloMsg → Option (ServerStart K.auth.x509.curve)) (c c' : Conn) (hs : c.isClient = false)
    (h1 : c.handshakeErr = none) (h2 : c.handshakeComplete = false) (h : c.handshake ((serverProg K gm start).asHandshake P gm) = .ok (none, c'))
    (k : Nat) (ho : beNat c'.out.seq + k < 2 ^ 64) (hi : beNat c'.inp.seq + c'.stream.length < 2 ^ 64) : Spec.Running k c' := by
  obtain ⟨ch, Z, x, items, sent, r, hran, hcase⟩ := C138_server P K gm start c c' hs h1 h2 h
  obtain ⟨o, hr, hd, _⟩ := hran.ran
  obtain ⟨g1, g2, _⟩ := serverProg_keys hs hr hd
  obtain ⟨e1, e2, _⟩ := handshake_conn_any h1 h2 h hr hd
  obtain ⟨d1, d2, d3, d4⟩ := handshake_done h1 h2 h
  rw [← e1] at g1
  rw [← e2] at g2
  have hsx : r.S.suite = x.suite := by
    rcases hcase with ⟨_, _, _, ⟨key, hS⟩, _⟩ | ⟨st, _, _, _, hS, _⟩ <;> rw [hS] <;> rfl
  have hsu : r.S.suite ∈ cipherSuites ∨ r.S.suite ∈ gmCipherSuites := by
    rw [hsx]
    have hre := hran.choice
    unfold ServerStart.react at hre
    split at hre
    · right
      cases hres : x.resume with
      | none => exact (C38_gm_first_mutual _ _ _ _ _ hre hres).1.1
      | some st =>
        obtain ⟨_, s, hm, _, hx⟩ := (C51_gm_server _ _ _ _ _ hre st).1 hres
        rw [hx hres]; exact hm
    · left
      cases hres : x.resume with
      | none =>
        obtain ⟨cert, _, _, hf⟩ := C38_first_mutual _ _ _ _ _ hre hres
        exact hf.1.1
      | some st =>
        obtain ⟨_, s, hm, _, cert, _, _, hx⟩ := (C51_server _ _ _ _ _ hre st).1 hres
        rw [hx hres]; exact hm
  obtain ⟨k1, x1, y1, _, a2, a3, a4⟩ := g1
  obtain ⟨k2, x2, y2, _, b2, b3, b4⟩ := g2
  obtain ⟨u1, u2⟩ := wrote_suite a4 (fresh_usesSuite hP hsu a2 a3) (by rw [a3.seq]; exact zeros8_len)
  have hbl := usesSuite_blocks (fresh_usesSuite hP hsu b2 b3)
  obtain ⟨v1, v2⟩ := opened_shape b4 hbl (by rw [b3.seq]; exact zeros8_len)
  exact ⟨d1, d2, .inl (d3.trans hs), u1, u2, ho, fun bs hb => hbl bs (by rw [← v1]; exact hb), v2, hi⟩

/-! ### the hypotheses are met -/

theorem toyPrims_lawful : toyPrims.Lawful where
  des3Len _ b h := h
  des3Inv _ b _ := rfl
  aesLen _ b h := h
  aesInv _ b _ := rfl
  gcm _ := ⟨⟨fun _ _ _ => by simp [toyPrims, toyAead], fun _ _ _ => by simp [toyPrims, toyAead]⟩, rfl⟩
  chacha _ := ⟨⟨fun _ _ _ => by simp [toyPrims, toyAead], fun _ _ _ => by simp [toyPrims, toyAead]⟩, rfl⟩
  sha256 := rfl

/-- the toy handshakes of HsExamples and SrvExamples complete with small sequence numbers, and then answer three more calls -/
def toyAfter (r : Res (Option String × Conn)) : Option (Option String × List Nat × Option String) :=
  match r with
  | .ok (e, c) =>
    match Conn.calls easyLife [.write [1, 2, 3], .read true 10, .close] c with
    | .ok d => some (e, [beNat c.out.seq, beNat c.inp.seq, c.stream.length, beNat d.out.seq], d.inp.err)
    | _ => none
  | _ => none

example : toyAfter (toySrvRun .requireAndVerifyClientCert (fun _ => .ok [42]) (250 :: List.replicate 11 0)) = some (none, [1, 1, 0, 3], some "EOF") := by decide +kernel
example : toyAfter (toyRun (174 :: List.replicate 11 0)) = some (none, [1, 1, 0, 3], some "EOF") := by decide +kernel

end Verif.Tls
