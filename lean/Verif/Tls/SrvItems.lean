import Verif.Tls.HsItems
import Verif.Tls.SrvProg
/-!
The server's program on a list of messages is the server of `ServerAuth`, `ServerFlight` and `Resume`.
-/
namespace Verif.Tls
open Verif Verif.Tls.Wire

theorem writes_append : ∀ (a b : List Bytes) (fh : FinishedHash), fh.writes (a ++ b) = (do let x ← fh.writes a; x.writes b) := by
  intro a
  induction a with
  | nil => intro b fh; rfl
  | cons m a ih =>
    intro b fh
    simp only [List.cons_append, FinishedHash.writes]
    cases fh.write m with
    | ok x => exact ih b x
    | err e => rfl
    | panic => rfl

theorem emit_encode {fh fh' : FinishedHash} {m : Message} {i : Item} (h : emit fh m = .ok (fh', i)) : ∃ b, encode m = .ok (b, i) ∧ fh.write b = .ok fh' := by
  unfold emit at h
  obtain ⟨⟨b, m'⟩, h1, h2⟩ := Res.bind_eq_ok.mp h
  obtain ⟨f, h3, h4⟩ := Res.bind_eq_ok.mp h2
  simp only [Res.ok.injEq, Prod.mk.injEq] at h4
  obtain ⟨rfl, rfl⟩ := h4
  exact ⟨b, by simp only [encode, h1, Res.ok_bind], h3⟩

theorem emitProg_encode {ren : Bool} {fh : FinishedHash} {m : Message} {l : List Item} {fh' : FinishedHash} {s r : List Item}
    (h : (emitProg fh m).items ren l = .ok (fh', s, r)) : ∃ b i, encode m = .ok (b, i) ∧ fh.write b = .ok fh' ∧ s = [i] ∧ r = l := by
  obtain ⟨i, h1, h2, h3⟩ := emitProg_items h
  obtain ⟨b, h4, h5⟩ := emit_encode h1
  exact ⟨b, i, h4, h5, h2, h3⟩

theorem srvCertsProg_items {ren : Bool} {E : AuthEnv} {S : ServerHs} {cs : List Bytes} {l : List Item} {p : PeerId} {s r : List Item}
    (h : (srvCertsProg E S cs).items ren l = .ok (p, s, r)) : processCertsFromClient E S cs = .ok p ∧ s = [] ∧ r = l := by
  unfold srvCertsProg at h
  unfold processCertsFromClient
  cases hp : parseAll E.parse cs with
  | none => rw [hp] at h; cases h
  | some certs =>
    rw [hp] at h
    dsimp only at h ⊢
    obtain ⟨chains, hc, h1⟩ := items_lift_do h; clear h
    obtain ⟨hb, h2⟩ := items_check_do h1; clear h1
    simp only [hc, Res.ok_bind, hb]
    cases certs with
    | nil => obtain ⟨rfl, rfl, rfl⟩ := items_ret h2; exact ⟨rfl, rfl, rfl⟩
    | cons leaf rest =>
      dsimp only at h2 ⊢
      split at h2
      · rename_i hk
        obtain ⟨rfl, rfl, rfl⟩ := items_ret h2
        rw [if_neg (by decide), if_pos hk]; exact ⟨rfl, rfl, rfl⟩
      · cases h2

theorem clientCertProg_items {ren : Bool} {E : AuthEnv} {S : ServerHs} {fh : FinishedHash} {l : List Item} {p : (PeerId × List Bytes) × FinishedHash} {s r : List Item}
    (h : (clientCertProg E S fh).items ren l = .ok (p, s, r)) : clientCertPhase E S fh l = .ok (p.1.1, p.2, r) ∧ s = [] ∧
      (S.auth = .noClientCert ∧ p.1.2 = [] ∨ S.auth ≠ .noClientCert ∧ ∃ cm, l = .msg (.certificate cm) :: r ∧ p.1.2 = cm.certificates) := by
  unfold clientCertProg at h
  unfold clientCertPhase
  split at h
  · rename_i ha
    rw [if_pos ha]
    obtain ⟨m, l', rfl, h1⟩ := items_read h; clear h
    have hne : S.auth ≠ .noClientCert := by intro e; rw [e] at ha; exact absurd ha (by decide)
    cases m with
    | certificate cm =>
      dsimp only at h1
      obtain ⟨x, hx, h2⟩ := items_lift_do h1; clear h1
      obtain ⟨f, hf, h3⟩ := items_lift_do h2; clear h2
      simp only [readMsg, Res.ok_bind, hx, hf]
      split at h3
      · cases h3
      · rename_i hn
        rw [if_neg hn]
        obtain ⟨a, s1, r1, s2, h4, h5, rfl⟩ := items_do h3; clear h3
        obtain ⟨g, rfl, rfl⟩ := srvCertsProg_items h4
        obtain ⟨rfl, rfl, rfl⟩ := items_ret h5
        simp only [g, Res.ok_bind]
        exact ⟨trivial, rfl, Or.inr ⟨hne, cm, rfl, rfl⟩⟩
    | _ => cases h1
  · rename_i ha
    rw [if_neg ha]
    obtain ⟨rfl, rfl, rfl⟩ := items_ret h
    refine ⟨rfl, rfl, Or.inl ⟨?_, rfl⟩⟩
    cases hs : S.auth <;> rw [hs] at ha <;> first | rfl | exact absurd (by decide) ha

theorem ckxProg_items {ren : Bool} {E : AuthEnv} {S : ServerHs} {fh : FinishedHash} {l : List Item} {p : Bytes × FinishedHash} {s r : List Item}
    (h : (ckxProg E S fh).items ren l = .ok (p, s, r)) : ckxPhase E S fh l = .ok (p.1, p.2, r) ∧ s = [] := by
  unfold ckxProg at h
  unfold ckxPhase
  obtain ⟨m, l', rfl, h1⟩ := items_read h; clear h
  cases m with
  | clientKeyExchange ckx =>
    dsimp only at h1
    obtain ⟨x, hx, h2⟩ := items_lift_do h1; clear h1
    obtain ⟨f, hf, h3⟩ := items_lift_do h2; clear h2
    obtain ⟨pre, hpre, h4⟩ := items_lift_do h3; clear h3
    obtain ⟨ms, hms, h5⟩ := items_lift_do h4; clear h4
    obtain ⟨hk, h6⟩ := items_check_do h5; clear h5
    obtain ⟨rfl, rfl, rfl⟩ := items_ret h6
    simp only [readMsg, Res.ok_bind, hx, hf, hpre, hms, hk]
    exact ⟨rfl, trivial⟩
  | _ => cases h1

theorem certVerifyProg_items {ren : Bool} {E : AuthEnv} {S : ServerHs} {p : PeerId} {ms : Bytes} {fh : FinishedHash} {l : List Item} {q : FinishedHash} {s r : List Item}
    (h : (certVerifyProg E S p ms fh).items ren l = .ok (q, s, r)) : certVerifyPhase E S p ms fh l = .ok (q, r) ∧ s = [] := by
  unfold certVerifyProg at h
  unfold certVerifyPhase
  cases hp : p.pub with
  | none => rw [hp] at h; obtain ⟨rfl, rfl, rfl⟩ := items_ret h; exact ⟨rfl, rfl⟩
  | some pub =>
    rw [hp] at h
    dsimp only at h ⊢
    obtain ⟨m, l', rfl, h1⟩ := items_read h; clear h
    cases m with
    | certificateVerify cv =>
      dsimp only at h1
      obtain ⟨a, ha, h2⟩ := items_lift_do h1; clear h1
      obtain ⟨d, hd, h3⟩ := items_lift_do h2; clear h2
      obtain ⟨ok, hok, h4⟩ := items_lift_do h3; clear h3
      obtain ⟨hb, h5⟩ := items_check_do h4; clear h4
      obtain ⟨x, hx, h6⟩ := items_lift_do h5; clear h5
      obtain ⟨hf, rfl, rfl⟩ := items_lift h6
      subst hb
      simp only [readMsg, Res.ok_bind, ha, hd, hok, hx, hf]
      exact ⟨rfl, trivial⟩
    | _ => cases h1

theorem clientFinProg_items {ren : Bool} {ms : Bytes} {fh : FinishedHash} {m : Message} {l : List Item} {q : FinishedHash} {s r : List Item}
    (h : (clientFinProg ms fh m).items ren l = .ok (q, s, r)) : ∃ fin x y, m = .finished fin ∧ fh.clientSum ms = .ok x ∧
      ¬(x.1.length ≠ fin.verifyData.length ∨ x.1 ≠ fin.verifyData) ∧ fin.marshal = .ok y ∧ x.2.write y.1 = .ok q ∧ s = [] ∧ r = l := by
  unfold clientFinProg at h
  cases m with
  | finished fin =>
    dsimp only at h
    obtain ⟨x, hx, h2⟩ := items_lift_do h; clear h
    split at h2
    · cases h2
    · rename_i hne
      obtain ⟨y, hy, h3⟩ := items_lift_do h2; clear h2
      obtain ⟨hf, rfl, rfl⟩ := items_lift h3
      exact ⟨fin, x, y, rfl, hx, hne, hy, hf, rfl, rfl⟩
  | _ => cases h

theorem srvReadFinishedProg_items {S : ServerHs} {ms : Bytes} {fh : FinishedHash} {l : List Item} {q : FinishedHash} {s r : List Item}
    (h : (srvReadFinishedProg S ms fh).items false l = .ok (q, s, r)) : serverReadFinished S ms fh l = .ok (q, r) ∧ s = [] := by
  unfold srvReadFinishedProg at h
  unfold serverReadFinished nextProtoPhase
  match l, h with
  | .ccs :: .msg m :: l, h =>
    change (if S.npn = true then _ else _ : Hs FinishedHash).items false l = .ok (q, s, r) at h
    cases hn : S.npn with
    | true =>
      rw [hn, if_pos rfl] at h
      cases m with
      | nextProto np =>
        dsimp only at h
        obtain ⟨x, hx, h2⟩ := items_lift_do h; clear h
        obtain ⟨f, hf, h3⟩ := items_lift_do h2; clear h2
        obtain ⟨m, l', rfl, h4⟩ := items_read h3; clear h3
        obtain ⟨fin, x', y, rfl, e1, e2, e3, e4, rfl, rfl⟩ := clientFinProg_items h4
        simp only [readCCS, readMsg, Res.ok_bind, if_true, hx, hf, e1, if_neg e2, e3, e4]
        exact ⟨trivial, trivial⟩
      | _ => cases h
    | false =>
      rw [hn, if_neg (by decide)] at h
      obtain ⟨fin, x', y, rfl, e1, e2, e3, e4, rfl, rfl⟩ := clientFinProg_items h
      simp only [readCCS, readMsg, Res.ok_bind, Bool.false_eq_true, if_false, e1, if_neg e2, e3, e4]
      exact ⟨trivial, trivial⟩

theorem srvTicketProg_items {ren : Bool} {t : Bool} {enc : Res Bytes} {fh : FinishedHash} {l : List Item} {q : FinishedHash} {s r : List Item}
    (h : (srvTicketProg t enc fh).items ren l = .ok (q, s, r)) : sendTicket t enc fh = .ok (q, s) ∧ r = l := by
  unfold srvTicketProg at h
  unfold sendTicket
  split at h
  · rename_i ht
    obtain ⟨x, hx, h2⟩ := items_lift_do h; clear h
    obtain ⟨i, h3, rfl, rfl⟩ := emitProg_items h2
    simp only [if_pos ht, hx, Res.ok_bind, h3]
    exact ⟨trivial, trivial⟩
  · rename_i ht
    obtain ⟨rfl, rfl, rfl⟩ := items_ret h
    rw [if_neg ht]; exact ⟨rfl, rfl⟩

theorem srvFinishedProg_items {ren : Bool} {ms : Bytes} {fh : FinishedHash} {l : List Item} {q : FinishedHash} {s r : List Item}
    (h : (srvFinishedProg ms fh).items ren l = .ok (q, s, r)) :
    ∃ x i, fh.serverSum ms = .ok x ∧ emit x.2 (.finished { raw := none, verifyData := x.1 }) = .ok (q, i) ∧ s = [.ccs, i] ∧ r = l := by
  unfold srvFinishedProg at h
  obtain ⟨⟨a, s', r'⟩, h1, h2⟩ := map_ok_inv h
  simp only [Prod.mk.injEq] at h2
  obtain ⟨rfl, rfl, rfl⟩ := h2
  obtain ⟨x, hx, h3⟩ := items_lift_do h1
  obtain ⟨i, h4, rfl, rfl⟩ := emitProg_items h3
  exact ⟨x, i, hx, h4, rfl, rfl⟩

theorem srvEnd_items {ren ticket : Bool} {enc : Res Bytes} {ms : Bytes} {fh q1 q2 : FinishedHash} {l s1 r1 s2 r2 : List Item} {p : PeerId} {rest : List Item}
    (h1 : (srvTicketProg ticket enc fh).items ren l = .ok (q1, s1, r1)) (h2 : (srvFinishedProg ms q1).items ren r1 = .ok (q2, s2, r2)) :
    serverEnd ticket enc ⟨p, ms, fh, rest⟩ = .ok (q2, s1 ++ s2) ∧ r2 = l := by
  obtain ⟨g1, rfl⟩ := srvTicketProg_items h1
  obtain ⟨x, i, g2, g3, rfl, rfl⟩ := srvFinishedProg_items h2
  unfold serverEnd
  simp only [g1, g2, g3, Res.ok_bind]
  exact ⟨trivial, trivial⟩

/-- an optional message of the flight -/
theorem srvStatusProg_items {ren : Bool} {c : Sm2.Curve} {T : ServerSide c} {fh : FinishedHash} {l : List Item} {q : FinishedHash} {s r : List Item}
    (h : (srvStatusProg T fh).items ren l = .ok (q, s, r)) : ∃ bs, sendStatus T = .ok (bs, s) ∧ fh.writes bs = .ok q ∧ r = l := by
  unfold srvStatusProg at h
  unfold sendStatus
  split at h
  · rename_i ht
    obtain ⟨b, i, h1, h2, rfl, rfl⟩ := emitProg_encode h
    refine ⟨[b], by simp only [if_pos ht, h1, Res.ok_bind], ?_, rfl⟩
    simp only [FinishedHash.writes, h2, Res.ok_bind]
  · rename_i ht
    obtain ⟨rfl, rfl, rfl⟩ := items_ret h
    exact ⟨[], by rw [if_neg ht], rfl, rfl⟩

theorem srvSkxProg_items {ren : Bool} {key : Option Bytes} {fh : FinishedHash} {l : List Item} {q : FinishedHash} {s r : List Item}
    (h : (srvSkxProg key fh).items ren l = .ok (q, s, r)) : ∃ bs, sendSKX key = .ok (bs, s) ∧ fh.writes bs = .ok q ∧ r = l := by
  cases key with
  | none => obtain ⟨rfl, rfl, rfl⟩ := items_ret h; exact ⟨[], rfl, rfl, rfl⟩
  | some key =>
    obtain ⟨b, i, h1, h2, rfl, rfl⟩ := emitProg_encode h
    refine ⟨[b], by simp only [sendSKX, h1, Res.ok_bind], ?_, rfl⟩
    simp only [FinishedHash.writes, h2, Res.ok_bind]

theorem srvReqProg_items {ren : Bool} {c : Sm2.Curve} {T : ServerSide c} {fh : FinishedHash} {l : List Item} {q : FinishedHash} {s r : List Item}
    (h : (srvReqProg T fh).items ren l = .ok (q, s, r)) : ∃ bs, sendReq T = .ok (bs, s) ∧ fh.writes bs = .ok q ∧ r = l := by
  unfold srvReqProg at h
  unfold sendReq
  split at h
  · rename_i ht
    obtain ⟨b, i, h1, h2, rfl, rfl⟩ := emitProg_encode h
    refine ⟨[b], by simp only [if_pos ht, h1, Res.ok_bind], ?_, rfl⟩
    simp only [FinishedHash.writes, h2, Res.ok_bind]
  · rename_i ht
    obtain ⟨rfl, rfl, rfl⟩ := items_ret h
    exact ⟨[], by rw [if_neg ht], rfl, rfl⟩

theorem srvFlightProg_items {ren : Bool} {K : KaEnv} {T : ServerSide K.auth.x509.curve} {rand : Bytes} {fh : FinishedHash} {l : List Item}
    {q : Option EcdheServer × FinishedHash} {s r : List Item} (h : (srvFlightProg K T rand fh).items ren l = .ok (q, s, r)) :
    ∃ w, serverFlight K T rand = .ok w ∧ w.key = q.1 ∧ w.items = s ∧ fh.writes w.bytes = .ok q.2 ∧ r = l := by
  unfold srvFlightProg at h
  obtain ⟨f1, s1, r1, t1, h1, h2, rfl⟩ := items_do h; clear h
  obtain ⟨f2, s2, r2, t2, h3, h4, rfl⟩ := items_do h2; clear h2
  obtain ⟨k, hk, h5⟩ := items_lift_do h4; clear h4
  obtain ⟨f3, s3, r3, t3, h6, h7, rfl⟩ := items_do h5; clear h5
  obtain ⟨f4, s4, r4, t4, h8, h9, rfl⟩ := items_do h7; clear h7
  obtain ⟨f5, s5, r5, t5, h10, h11, rfl⟩ := items_do h9; clear h9
  obtain ⟨rfl, rfl, rfl⟩ := items_ret h11
  obtain ⟨b1, i1, a1, a2, rfl, rfl⟩ := emitProg_encode h1
  obtain ⟨b2, c1, c2, rfl⟩ := srvStatusProg_items h3
  obtain ⟨b3, d1, d2, rfl⟩ := srvSkxProg_items h6
  obtain ⟨b4, e1, e2, rfl⟩ := srvReqProg_items h8
  obtain ⟨b5, i5, g1, g2, rfl, rfl⟩ := emitProg_encode h10
  refine ⟨⟨k.1, b1 :: (b2 ++ b3 ++ b4 ++ [b5]), i1 :: (s2 ++ s3 ++ s4 ++ [i5])⟩, ?_, rfl, ?_, ?_, rfl⟩
  · unfold serverFlight
    simp only [a1, c1, hk, d1, e1, g1, Res.ok_bind]
  · simp only [List.append_assoc, List.cons_append, List.nil_append, List.append_nil]
  · simp only [FinishedHash.writes, a2, Res.ok_bind, writes_append, c2, d2, e2, g2]

/-- the full handshake -/
theorem srvFullProg_items {K : KaEnv} {T : ServerSide K.auth.x509.curve} {box : SessionState → Res Bytes} {rk rc : Bytes} {ch : ClientHelloMsg} {hello : ServerHelloMsg}
    {l : List Item} {r : ServerRes} {sent rest : List Item} (h : (srvFullProg K T box rk rc ch hello).items false l = .ok (r, sent, rest)) :
    ∃ (hb sb : Bytes) (ch' : ClientHelloMsg) (m : Message) (w : ServerSent) (d : ServerDone) (e : List Item),
      ch.marshal = .ok (hb, ch') ∧ (Message.serverHello hello).marshal = .ok (sb, m) ∧ serverFlight K T rk = .ok w ∧
      serverFull K.auth (T.hs w.key rc) ([hb, sb] ++ w.bytes) l = .ok d ∧ d.rest = rest ∧
      serverEnd T.ticket (box ⟨T.vers, T.suite.id, d.master, r.certsSent, false⟩) d = .ok (r.fh, e) ∧ sent = .msg m :: (w.items ++ e) ∧
      r.S = T.hs w.key rc ∧ r.hellos = [hb, sb] ∧ r.resumed = none ∧ r.peer = d.peer ∧ r.master = d.master ∧
      (T.auth = .noClientCert ∧ r.certsSent = [] ∨ T.auth ≠ .noClientCert ∧ ∃ cm l', l = .msg (.certificate cm) :: l' ∧ r.certsSent = cm.certificates) := by
  unfold srvFullProg at h
  change (Hs.lift none ((T.hs (K := K) none rc).newHash K.auth) >>= _ : Hs ServerRes).items false l = _ at h
  obtain ⟨f0, hf0, h1⟩ := items_lift_do h; clear h
  obtain ⟨⟨hb, ch'⟩, hx, h2⟩ := items_lift_do h1; clear h1
  obtain ⟨⟨sb, m⟩, hy, h3⟩ := items_lift_do h2; clear h2
  obtain ⟨f1, hf1, h4⟩ := items_lift_do h3; clear h3
  obtain ⟨⟨a, s', r'⟩, h5, h6⟩ := map_ok_inv h4; clear h4
  simp only [Prod.mk.injEq] at h6
  obtain ⟨rfl, rfl, rfl⟩ := h6
  obtain ⟨k, s1, r1, t1, h7, h8, rfl⟩ := items_do h5; clear h5
  obtain ⟨w, g1, g2, g3, g4, rfl⟩ := srvFlightProg_items h7
  change (srvAnswerProg K.auth (T.hs k.1 rc) k.2 >>= _ : Hs ServerRes).items false _ = _ at h8
  obtain ⟨an, s2, r2, t2, h9, h10, rfl⟩ := items_do h8; clear h8
  change (srvReadFinishedProg (T.hs k.1 rc) an.2.1 an.2.2 >>= _ : Hs ServerRes).items false _ = _ at h10
  obtain ⟨f2, s3, r3, t3, h11, h12, rfl⟩ := items_do h10; clear h10
  change (srvTicketProg T.ticket (box ⟨T.vers, T.suite.id, an.2.1, an.1.2, false⟩) f2 >>= _ : Hs ServerRes).items false _ = _ at h12
  obtain ⟨f3, s4, r4, t4, h13, h14, rfl⟩ := items_do h12; clear h12
  obtain ⟨f4, s5, r5, t5, h15, h16, rfl⟩ := items_do h14; clear h14
  change (Hs.ret _ : Hs ServerRes).items false _ = _ at h16
  obtain ⟨rfl, rfl, rfl⟩ := items_ret h16
  unfold srvAnswerProg at h9
  obtain ⟨p, u1, v1, w1, j1, j2, rfl⟩ := items_do h9; clear h9
  obtain ⟨ms, u2, v2, w2, j3, j4, rfl⟩ := items_do j2; clear j2
  obtain ⟨f5, u3, v3, w3, j5, j6, rfl⟩ := items_do j4; clear j4
  obtain ⟨rfl, rfl, rfl⟩ := items_ret j6
  obtain ⟨q1, rfl, q2⟩ := clientCertProg_items j1
  obtain ⟨q3, rfl⟩ := ckxProg_items j3
  obtain ⟨q4, rfl⟩ := certVerifyProg_items j5
  obtain ⟨q5, rfl⟩ := srvReadFinishedProg_items h11
  dsimp only at h13 h15 q5
  obtain ⟨q6, rfl⟩ := srvEnd_items (p := p.1.1) (rest := rest) h13 h15
  refine ⟨hb, sb, ch', m, w, ⟨p.1.1, ms.1, f2, rest⟩, s4 ++ s5, hx, hy, g1, ?_, rfl, q6, ?_, by rw [g2], rfl, rfl, rfl, rfl, ?_⟩
  · unfold serverFull
    have hn : (T.hs (K := K) w.key rc).newHash K.auth = .ok f0 := hf0
    rw [hn, Res.ok_bind]
    have ha : (T.hs (K := K) w.key rc).auth = T.auth := rfl
    dsimp only at hf1
    dsimp only
    rw [ha, writes_append, hf1, Res.ok_bind, g4, Res.ok_bind, g2]
    simp only [Res.ok_bind, q1, q3, q4, q5]
  · simp only [g3, List.nil_append, List.append_nil]
  · rcases q2 with ⟨y1, y2⟩ | ⟨y1, cm, y2, y3⟩
    · exact Or.inl ⟨y1, y2⟩
    · exact Or.inr ⟨y1, cm, _, y2, y3⟩

/-- the abbreviated handshake -/
theorem srvResumeProg_items {E : AuthEnv} {S : ServerHs} {box : SessionState → Res Bytes} {ch : ClientHelloMsg} {hello : ServerHelloMsg} {st : SessionState}
    {l : List Item} {r : ServerRes} {sent rest : List Item} (h : (srvResumeProg E S box ch hello st).items false l = .ok (r, sent, rest)) :
    ∃ (hb sb : Bytes) (ch' : ClientHelloMsg) (m : Message) (w : ServerResuming), ch.marshal = .ok (hb, ch') ∧ (Message.serverHello hello).marshal = .ok (sb, m) ∧
      serverResumed E S st box [hb, sb] l = .ok (w, r.fh, rest) ∧ sent = .msg m :: w.sent ∧ r.S = S ∧ r.hellos = [hb, sb] ∧ r.resumed = some st ∧ r.peer = w.peer ∧
      r.certsSent = st.certificates ∧ r.master = st.masterSecret := by
  unfold srvResumeProg at h
  change (Hs.lift none (newFinishedHash E.hashes S.vers S.suite) >>= _ : Hs ServerRes).items false l = _ at h
  obtain ⟨f0, hf0, h1⟩ := items_lift_do h; clear h
  obtain ⟨⟨hb, ch'⟩, hx, h2⟩ := items_lift_do h1; clear h1
  obtain ⟨⟨sb, m⟩, hy, h3⟩ := items_lift_do h2; clear h2
  obtain ⟨f1, hf1, h4⟩ := items_lift_do h3; clear h3
  obtain ⟨⟨a, s', r'⟩, h5, h6⟩ := map_ok_inv h4; clear h4
  simp only [Prod.mk.injEq] at h6
  obtain ⟨rfl, rfl, rfl⟩ := h6
  obtain ⟨p, s1, r1, t1, h7, h8, rfl⟩ := items_do h5; clear h5
  have hp : serverResume E S st = .ok p ∧ s1 = [] ∧ r1 = l := by
    unfold serverResume
    unfold srvAgainProg at h7
    split at h7
    · rename_i hc; rw [if_pos hc]; exact srvCertsProg_items h7
    · rename_i hc; rw [if_neg hc]; obtain ⟨rfl, rfl, rfl⟩ := items_ret h7; exact ⟨rfl, rfl, rfl⟩
  obtain ⟨hp, rfl, rfl⟩ := hp
  change (srvTicketProg st.usedOldKey (box (renewedState S st)) f1 >>= _ : Hs ServerRes).items false _ = _ at h8
  obtain ⟨f3, s4, r4, t4, h13, h14, rfl⟩ := items_do h8; clear h8
  obtain ⟨f4, s5, r5, t5, h15, h16, rfl⟩ := items_do h14; clear h14
  change (srvReadFinishedProg S st.masterSecret f4 >>= _ : Hs ServerRes).items false _ = _ at h16
  obtain ⟨f6, s6, r6, t6, h17, h18, rfl⟩ := items_do h16; clear h16
  obtain ⟨rfl, rfl, rfl⟩ := items_ret h18
  obtain ⟨g1, rfl⟩ := srvTicketProg_items h13
  obtain ⟨x, i, g2, g3, rfl, rfl⟩ := srvFinishedProg_items h15
  obtain ⟨g4, rfl⟩ := srvReadFinishedProg_items h17
  refine ⟨hb, sb, ch', m, ⟨p, f4, s4 ++ [.ccs, i]⟩, hx, hy, ?_, ?_, rfl, rfl, rfl, rfl, rfl, rfl⟩
  · unfold serverResumed serverResuming
    simp only [hf0, hf1, hp, g1, g2, g3, g4, Res.ok_bind]
  · simp only [List.nil_append, List.append_nil]

theorem srvHelloProg_items {c : Sm2.Curve} {ren gm : Bool} {start : ClientHelloMsg → Option (ServerStart c)} {l : List Item} {x : ClientHelloMsg × ServerStart c × ServerChoice}
    {sent rest : List Item} (h : (srvHelloProg gm start).items ren l = .ok (x, sent, rest)) :
    l = .msg (.clientHello x.1) :: rest ∧ start x.1 = some x.2.1 ∧ x.2.1.react gm x.1 = .ok x.2.2 ∧ sent = [] := by
  unfold srvHelloProg at h
  obtain ⟨m, l', rfl, h1⟩ := items_read h; clear h
  cases m with
  | clientHello ch =>
    dsimp only at h1
    split at h1
    · cases h1
    · rename_i Z hz
      split at h1
      · cases h1
      · change (match Z.react gm ch with | .error a => Hs.fail a.code "ClientHello" | .ok r => Hs.ret (ch, Z, r)).items ren l' = _ at h1
        split at h1
        · cases h1
        · rename_i r hr
          obtain ⟨rfl, rfl, rfl⟩ := items_ret h1
          exact ⟨rfl, hz, hr, rfl⟩
  | _ => cases h1

/-- the whole server -/
theorem serverProg_items {K : KaEnv} {gm : Bool} {start : ClientHelloMsg → Option (ServerStart K.auth.x509.curve)} {l : List Item} {z : ServerChoice × ServerRes}
    {sent rest : List Item} (h : (serverProg K gm start).items false l = .ok (z, sent, rest)) :
    ∃ (ch ch' : ClientHelloMsg) (Z : ServerStart K.auth.x509.curve) (l' : List Item) (hb sb : Bytes) (m : Message) (sent' : List Item),
      l = .msg (.clientHello ch) :: l' ∧ start ch = some Z ∧ Z.react gm ch = .ok z.1 ∧ ch.marshal = .ok (hb, ch') ∧
      (Message.serverHello (Z.helloMsg gm ch z.1)).marshal = .ok (sb, m) ∧ sent = .msg m :: sent' ∧ z.2.hellos = [hb, sb] ∧
      ((z.1.resume = none ∧ z.2.resumed = none ∧ ∃ (w : ServerSent) (d : ServerDone) (e : List Item),
          serverFlight K (Z.side gm ch z.1) Z.randKx = .ok w ∧ serverFull K.auth ((Z.side gm ch z.1).hs w.key Z.randCkx) ([hb, sb] ++ w.bytes) l' = .ok d ∧ d.rest = rest ∧
          serverEnd (Z.side gm ch z.1).ticket (Z.box ⟨z.1.vers, z.1.suite.id, d.master, z.2.certsSent, false⟩) d = .ok (z.2.fh, e) ∧ sent' = w.items ++ e ∧
          z.2.S = (Z.side gm ch z.1).hs w.key Z.randCkx ∧ z.2.peer = d.peer ∧ z.2.master = d.master ∧
          (Z.cfg.clientAuth = .noClientCert ∧ z.2.certsSent = [] ∨
            Z.cfg.clientAuth ≠ .noClientCert ∧ ∃ cm l2, l' = .msg (.certificate cm) :: l2 ∧ z.2.certsSent = cm.certificates)) ∨
       (∃ (st : SessionState) (w : ServerResuming), z.1.resume = some st ∧ z.2.resumed = some st ∧
          serverResumed K.auth ((Z.side gm ch z.1).hs (K := K) none Z.randCkx) st Z.box [hb, sb] l' = .ok (w, z.2.fh, rest) ∧ sent' = w.sent ∧
          z.2.S = (Z.side gm ch z.1).hs (K := K) none Z.randCkx ∧ z.2.peer = w.peer ∧ z.2.certsSent = st.certificates ∧ z.2.master = st.masterSecret)) := by
  unfold serverProg at h
  obtain ⟨⟨ch, Z, r⟩, s1, r1, t1, h1, h2, rfl⟩ := items_do h; clear h
  obtain ⟨rfl, h3, h4, rfl⟩ := srvHelloProg_items h1
  dsimp only at h2 h3 h4
  cases hr : r.resume with
  | none =>
    rw [hr] at h2
    dsimp only at h2
    obtain ⟨q, s2, r2, t2, h5, h6, rfl⟩ := items_do h2; clear h2
    obtain ⟨rfl, rfl, rfl⟩ := items_ret h6
    obtain ⟨hb, sb, ch', m, w, d, e, a1, a2, a3, a4, a5, a6, rfl, a8, a9, a10, a11, a12, a13⟩ := srvFullProg_items h5
    refine ⟨ch, ch', Z, r1, hb, sb, m, w.items ++ e, rfl, h3, h4, a1, a2, ?_, a9, Or.inl ⟨hr, a10, w, d, e, a3, a4, a5, a6, rfl, a8, a11, a12, a13⟩⟩
    simp only [List.nil_append, List.append_nil]
  | some st =>
    rw [hr] at h2
    dsimp only at h2
    obtain ⟨q, s2, r2, t2, h5, h6, rfl⟩ := items_do h2; clear h2
    obtain ⟨rfl, rfl, rfl⟩ := items_ret h6
    obtain ⟨hb, sb, ch', m, w, a1, a2, a3, rfl, a5, a6, a7, a8, a9, a10⟩ := srvResumeProg_items h5
    refine ⟨ch, ch', Z, r1, hb, sb, m, w.sent, rfl, h3, h4, a1, a2, ?_, a6, Or.inr ⟨st, w, hr, a7, a3, rfl, a5, a8, a9, a10⟩⟩
    simp only [List.nil_append, List.append_nil]

end Verif.Tls
