import Verif.Tls.Resume
import Verif.Tls.HonestProps
/-!
C123: resumed handshakes.
-/
namespace Verif.Tls
open Verif Verif.Tls.Wire

namespace Spec
/-- What a client sends to end an abbreviated handshake: ChangeCipherSpec, NextProtocol if the server announced it, Finished. -/
structure ClientEnd (items rest : List Item) where
  nextProto : Option (NextProtoMsg × Bytes)
  finished : FinishedMsg
  order : items = [Item.ccs] ++ (nextProto.map fun x => Item.msg (.nextProto x.1)).toList ++ [Item.msg (.finished finished)] ++ rest
  nextProto_bytes : ∀ x, nextProto = some x → Encodes (.nextProto x.1) x.2
end Spec

theorem clientFinish_inv' {S : ClientHs} {c : ClientSent} {items : List Item} {d : ClientDone} (h : clientFinish S c items = .ok d) :
    ∃ (G : Spec.ServerEnd items d.rest) (f : FinishedHash) (b : Bytes), G.ccs = d.switched ∧ (S.renegotiation = false → d.switched = true) ∧
      G.ticket.isSome = S.ticket ∧ (G.ticket.map fun x => x.1.ticket) = d.ticket ∧
      (c.fh.app (Spec.bytesOf G.ticket)).serverSum c.master = .ok (G.finished.verifyData, f) ∧
      Spec.Encodes (.finished G.finished) b ∧ d.fh = f.app b := by
  unfold clientFinish at h
  obtain ⟨⟨t, f1, it1⟩, ht, h⟩ := Res.bind_eq_ok.1 h
  dsimp only at h
  obtain ⟨⟨sw, it2⟩, hc, h⟩ := Res.bind_eq_ok.1 h
  dsimp only at h
  obtain ⟨⟨m, it3⟩, hm, h⟩ := Res.bind_eq_ok.1 h
  have hi3 := readMsg_inv hm
  obtain ⟨tk, hi1, htb, hf1, hti, htt⟩ := ticketPhase_inv ht
  obtain ⟨hi2, hsw⟩ := clientReadCCS_inv hc
  cases m with
  | finished fin =>
    dsimp only at h
    obtain ⟨⟨verify, f2⟩, hv, h⟩ := Res.bind_eq_ok.1 h
    dsimp only at h
    split at h
    · cases h
    rename_i hne
    push Not at hne
    obtain ⟨⟨b, c'⟩, hb, h⟩ := Res.bind_eq_ok.1 h
    obtain ⟨f3, hf3, h⟩ := Res.bind_eq_ok.1 h
    simp only [Res.ok.injEq] at h
    subst h
    refine ⟨⟨tk, sw, fin, by rw [hi1, hi2, hi3]; simp, htb⟩, f2, b, rfl, hsw, hti, htt, ?_, ?_, write_app hf3⟩
    · dsimp only
      rw [← hf1, hv, hne.2]
    · exact ⟨.finished c', by simp [Message.marshal, hb, Res.map]⟩
  | _ => cases h

/-! ### the hash object, server first -/

theorem serverSum_client {h h' : FinishedHash} {master vd : Bytes} (e : h.serverSum master = .ok (vd, h')) :
    h' = { h with server := h'.server, serverMD5 := h'.serverMD5 } ∧ (h.version ≠ vSSL30 → h' = h) := by
  unfold FinishedHash.serverSum at e
  by_cases hv : h.version = vSSL30
  · rw [if_pos hv] at e
    split at e
    · simp only [Res.ok.injEq, Prod.mk.injEq] at e
      refine ⟨?_, fun hne => absurd hv hne⟩
      rw [← e.2]
    · cases e
  · rw [if_neg hv] at e
    obtain ⟨sm, _, e⟩ := Res.bind_eq_ok.1 e
    obtain ⟨o, _, e⟩ := Res.bind_eq_ok.1 e
    simp only [Res.ok.injEq, Prod.mk.injEq] at e
    rw [← e.2]
    exact ⟨rfl, fun _ => rfl⟩

theorem clientSum_only {h h' : FinishedHash} {m vd : Bytes} (hv : h.version = vSSL30)
    (hh : h' = { h with server := h'.server, serverMD5 := h'.serverMD5 }) (b : Bytes) {g : FinishedHash}
    (e : (h'.app b).clientSum m = .ok (vd, g)) : ∃ g', (h.app b).clientSum m = .ok (vd, g') := by
  have hv' : (h'.app b).version = vSSL30 := by rw [hh]; exact hv
  have hs : (h'.app b).client = (h.app b).client := by rw [hh]; rfl
  have hm : (h'.app b).clientMD5 = (h.app b).clientMD5 := by rw [hh]; rfl
  have hk : (h'.app b).hash = (h.app b).hash := by rw [hh]; rfl
  unfold FinishedHash.clientSum at e ⊢
  rw [if_pos hv', hs, hm, hk] at e
  rw [if_pos (show (h.app b).version = vSSL30 from hv)]
  cases hsm : (h.app b).clientMD5 with
  | none => rw [hsm] at e; cases e
  | some x =>
    rw [hsm] at e
    simp only [Res.ok.injEq, Prod.mk.injEq] at e ⊢
    exact ⟨_, e.1, rfl⟩

/-- after the server's own Finished: the client's is over the same bytes -/
theorem client_after_server {h h' g : FinishedHash} {master vd b vd' : Bytes} (e : h.serverSum master = .ok (vd, h'))
    (e' : (h'.app b).clientSum master = .ok (vd', g)) : ∃ g', (h.app b).clientSum master = .ok (vd', g') := by
  obtain ⟨a, b'⟩ := serverSum_client e
  by_cases hv : h.version = vSSL30
  · exact clientSum_only hv a b e'
  · rw [b' hv] at e'
    exact ⟨g, e'⟩

/-! ### C123 -/

/-- **C123, client.** A client that completes a resumed handshake has the master secret, certificates and chains of the session it had cached. The server sent a
ticket if it announced one, ChangeCipherSpec (necessarily, if renegotiation is not allowed) and a Finished that is the standard's function of the cached master secret
and of the messages exchanged; the client's own Finished covers the same messages and the server's Finished. What it caches next differs from the
cached session at most in the ticket. For GM: `Spec.serverFinishedData` is the SM3 one. -/
theorem C123_client (E : AuthEnv) (S : ClientHs) (s : SavedSession) (hellos : List Bytes) (items : List Item) (r : ClientResumed)
    (h : clientResume E S s hellos items = .ok r) :
    r.master = s.master ∧ r.certs = s.certs ∧ r.chains = s.chains ∧
    ∃ (G : Spec.ServerEnd items r.rest) (A : Spec.ClientEnd r.sent []) (fb : Bytes),
      Spec.Encodes (.finished G.finished) fb ∧ G.ticket.isSome = S.ticket ∧ G.ccs = r.switched ∧ (S.renegotiation = false → G.ccs = true) ∧
      G.finished.verifyData = Spec.serverFinishedData E S.gm S.vers S.suite s.master (hellos.flatten ++ Spec.bytesOf G.ticket) ∧
      A.finished.verifyData = Spec.clientFinishedData E S.gm S.vers S.suite s.master
        (hellos.flatten ++ Spec.bytesOf G.ticket ++ fb ++ Spec.bytesOf A.nextProto) ∧
      (A.nextProto.map fun x => x.1.proto) = S.nextProto ∧
      (G.ticket = none → r.session = s) ∧
      ∀ x, G.ticket = some x → r.session = ⟨x.1.ticket, S.vers, S.suite.id, s.master, s.certs, s.chains⟩ := by
  unfold clientResume at h
  obtain ⟨h0, hh, h⟩ := Res.bind_eq_ok.1 h
  obtain ⟨f1, hf, h⟩ := Res.bind_eq_ok.1 h
  obtain ⟨d, hd, h⟩ := Res.bind_eq_ok.1 h
  obtain ⟨⟨f2, sent⟩, hs, h⟩ := Res.bind_eq_ok.1 h
  simp only [Res.ok.injEq] at h
  subst h
  obtain ⟨G, f, b, g1, g2, g3, g4, g5, g6, g7⟩ := clientFinish_inv' hd
  obtain ⟨np, fin, fb, f3, a1, a2, a3, a4, a5, a6⟩ := clientSendFinished_inv hs
  refine ⟨rfl, rfl, rfl, G, ⟨np, fin, by rw [a1]; simp, a2⟩, b, g6, g3, g1, fun hr => g1.trans (g2 hr), ?_, ?_, a3, ?_, ?_⟩
  · dsimp only at g5
    rw [writes_app hf, app_app, discard_app] at g5
    obtain ⟨g, hg⟩ := serverSum_discard g5
    exact server_finished_spec (S := S.asServer) hh _ _ _ hg
  · dsimp only
    rw [g7, app_app] at a5
    dsimp only at g5
    obtain ⟨g, hg⟩ := client_after_server g5 a5
    rw [writes_app hf, app_app, app_app, discard_app] at hg
    obtain ⟨g', hg'⟩ := clientSum_discard hg
    have := finished_spec (S := S.asServer) hh _ _ _ hg'
    rw [this]
    simp only [List.append_assoc]
    rfl
  · intro hn
    rw [hn] at g4
    rw [← g4]
    rfl
  · intro x hx
    rw [hx] at g4
    rw [← g4]
    rfl

theorem sendTicket_inv {t : Bool} {x : Res Bytes} {fh fh' : FinishedHash} {sent : List Item} (h : sendTicket t x fh = .ok (fh', sent)) :
    ∃ tk : Option (NewSessionTicketMsg × Bytes), sent = (tk.map fun x => Item.msg (.newSessionTicket x.1)).toList ∧
      (∀ y, tk = some y → Spec.Encodes (.newSessionTicket y.1) y.2 ∧ x = .ok y.1.ticket) ∧ tk.isSome = t ∧ fh' = fh.app (Spec.bytesOf tk) := by
  unfold sendTicket at h
  split at h
  · rename_i ht
    obtain ⟨b, hb, h⟩ := Res.bind_eq_ok.1 h
    obtain ⟨⟨f, i⟩, he, h⟩ := Res.bind_eq_ok.1 h
    simp only [Res.ok.injEq, Prod.mk.injEq] at h
    obtain ⟨rfl, rfl⟩ := h
    obtain ⟨c, m', hm, hi, hc, hf⟩ := emit_inv he
    obtain ⟨b', hbm⟩ : ∃ b', NewSessionTicketMsg.marshal { raw := none, ticket := b } = .ok (b', { raw := some b', ticket := b }) := ⟨_, rfl⟩
    rw [Message.marshal, hbm] at hm
    simp only [Res.map, Res.ok.injEq, Prod.mk.injEq] at hm
    obtain ⟨rfl, rfl⟩ := hm
    refine ⟨some (⟨some b', b⟩, b'), by rw [hi]; rfl, ?_, by simp [ht], hf⟩
    rintro y ⟨⟩
    exact ⟨hc, hb⟩
  · rename_i ht
    simp only [Res.ok.injEq, Prod.mk.injEq] at h
    obtain ⟨rfl, rfl⟩ := h
    exact ⟨none, rfl, nofun, by simpa using ht, by simp [Spec.bytesOf, app_nil]⟩

/-- **C123, server.** A server that completes a resumed handshake used the master secret of the ticket; the client's Finished is the standard's function of it and of
all messages exchanged, including the server's own Finished. The client's identity is what the ticket's certificates are worth under the present
configuration (C47). A new ticket is sent if and only if the one presented was sealed with an old key, and holds the same session. -/
theorem C123_server (E : AuthEnv) (S : ServerHs) (st : SessionState) (box : SessionState → Res Bytes) (hellos : List Bytes) (items : List Item)
    (w : ServerResuming) (fh : FinishedHash) (rest : List Item) (h : serverResumed E S st box hellos items = .ok (w, fh, rest)) :
    serverResume E S st = .ok w.peer ∧
    ∃ (G : Spec.ServerEnd w.sent []) (A : Spec.ClientEnd items rest) (fb : Bytes),
      Spec.Encodes (.finished G.finished) fb ∧ G.ccs = true ∧ G.ticket.isSome = st.usedOldKey ∧ A.nextProto.isSome = S.npn ∧
      G.finished.verifyData = Spec.serverFinishedData E false S.vers S.suite st.masterSecret (hellos.flatten ++ Spec.bytesOf G.ticket) ∧
      A.finished.verifyData = Spec.clientFinishedData E false S.vers S.suite st.masterSecret
        (hellos.flatten ++ Spec.bytesOf G.ticket ++ fb ++ Spec.bytesOf A.nextProto) ∧
      ∀ x, G.ticket = some x → box ⟨S.vers, S.suite.id, st.masterSecret, st.certificates, false⟩ = .ok x.1.ticket := by
  unfold serverResumed at h
  obtain ⟨w', hw, h⟩ := Res.bind_eq_ok.1 h
  obtain ⟨⟨f1, it⟩, hf, h⟩ := Res.bind_eq_ok.1 h
  simp only [Res.ok.injEq, Prod.mk.injEq] at h
  obtain ⟨rfl, rfl, rfl⟩ := h
  unfold serverResuming at hw
  obtain ⟨h0, hh, hw⟩ := Res.bind_eq_ok.1 hw
  obtain ⟨f2, hf2, hw⟩ := Res.bind_eq_ok.1 hw
  obtain ⟨p, hp, hw⟩ := Res.bind_eq_ok.1 hw
  obtain ⟨⟨f3, t⟩, ht, hw⟩ := Res.bind_eq_ok.1 hw
  dsimp only at hw
  obtain ⟨⟨vd, f4⟩, hv, hw⟩ := Res.bind_eq_ok.1 hw
  dsimp only at hw
  obtain ⟨⟨f5, i⟩, he, hw⟩ := Res.bind_eq_ok.1 hw
  simp only [Res.ok.injEq] at hw
  subst hw
  obtain ⟨tk, t1, t2, t3, t4⟩ := sendTicket_inv ht
  obtain ⟨m', b, hi, hvd, hb, hf5⟩ := emit_finished he
  obtain ⟨np, fin, f6, n1, n2, n3, n4⟩ := serverReadFinished_inv hf
  have hh' : ({ S with gm := false } : ServerHs).newHash E = .ok h0 := by
    unfold ServerHs.newHash
    rw [if_neg (by simp)]
    exact hh
  subst t4
  rw [writes_app hf2, app_app, discard_app] at hv
  refine ⟨hp, ⟨tk, true, m', by rw [t1, hi]; simp, fun x hx => (t2 x hx).1⟩, ⟨np, fin, n1, n2⟩, b, hb, rfl, t3, n3, ?_, ?_, ?_⟩
  · dsimp only
    rw [hvd]
    obtain ⟨g, hg⟩ := serverSum_discard hv
    exact server_finished_spec (S := { S with gm := false }) hh' _ _ _ hg
  · dsimp only at n4 ⊢
    rw [hf5, app_app] at n4
    obtain ⟨g, hg⟩ := client_after_server hv n4
    rw [← discard_app, app_app, discard_app] at hg
    obtain ⟨g', hg'⟩ := clientSum_discard hg
    have := finished_spec (S := { S with gm := false }) hh' _ _ _ hg'
    rw [this]
    simp only [List.append_assoc]
  · intro x hx
    exact (t2 x hx).2

/-! ### honest ends -/

theorem nextProto_fwd {S : ClientHs} {T : ServerHs} (h : T.npn = S.nextProto.isSome) :
    ∃ np : Option (NextProtoMsg × Bytes),
      (∀ fh : FinishedHash, fh.Writable → sendNextProto S fh = .ok (fh.app (Spec.bytesOf np), listed .nextProto np)) ∧
      ∀ (fh : FinishedHash) (rest : List Item), fh.Writable →
        nextProtoPhase T fh (listed .nextProto np ++ rest) = .ok (fh.app (Spec.bytesOf np), rest) := by
  cases hp : S.nextProto with
  | none =>
    refine ⟨none, fun fh _ => ?_, fun fh rest _ => ?_⟩
    · rw [sendNextProto, hp, Spec.bytesOf, app_nil]; rfl
    · rw [nextProtoPhase, h, hp, Spec.bytesOf, app_nil]; rfl
  | some pr =>
    obtain ⟨b, hbm⟩ : ∃ b, NextProtoMsg.marshal { raw := none, proto := pr } = .ok (b, { raw := some b, proto := pr }) := ⟨_, rfl⟩
    refine ⟨some (⟨some b, pr⟩, b), fun fh w => ?_, fun fh rest w => ?_⟩
    · rw [sendNextProto, hp]
      dsimp only
      rw [emit_ok w (b := b) (m' := .nextProto ⟨some b, pr⟩) (by rw [Message.marshal, hbm]; rfl), Res.ok_bind]
      rfl
    · have e : listed Message.nextProto (some (⟨some b, pr⟩, b)) ++ rest = .msg (.nextProto ⟨some b, pr⟩) :: rest := rfl
      have hm : NextProtoMsg.marshal ⟨some b, pr⟩ = .ok (b, ⟨some b, pr⟩) := rfl
      rw [nextProtoPhase, h, hp, Option.isSome_some, if_pos rfl, e, readMsg, Res.ok_bind]
      dsimp only
      rw [hm, Res.ok_bind]
      dsimp only
      rw [fhwrite_ok w, Res.ok_bind]
      rfl

theorem ticket_fwd {S : ClientHs} {t : Bool} (h : S.ticket = t) {tk : Bytes} {x : Res Bytes} (hx : t = true → x = .ok tk) :
    ∃ nt : Option (NewSessionTicketMsg × Bytes),
      (∀ fh : FinishedHash, fh.Writable → sendTicket t x fh = .ok (fh.app (Spec.bytesOf nt), listed .newSessionTicket nt)) ∧
      ∀ (fh : FinishedHash) (rest : List Item), fh.Writable →
        ticketPhase S fh (listed .newSessionTicket nt ++ rest) = .ok (if t then some tk else none, fh.app (Spec.bytesOf nt), rest) := by
  cases ht : t with
  | false =>
    refine ⟨none, fun fh _ => ?_, fun fh rest _ => ?_⟩
    · rw [sendTicket, Spec.bytesOf, app_nil]; rfl
    · rw [ticketPhase, h, ht, Spec.bytesOf, app_nil]; rfl
  | true =>
    obtain ⟨b, hbm⟩ : ∃ b, NewSessionTicketMsg.marshal { raw := none, ticket := tk } = .ok (b, { raw := some b, ticket := tk }) := ⟨_, rfl⟩
    refine ⟨some (⟨some b, tk⟩, b), fun fh w => ?_, fun fh rest w => ?_⟩
    · rw [sendTicket, if_pos rfl, hx ht, Res.ok_bind, emit_ok w (b := b) (m' := .newSessionTicket ⟨some b, tk⟩) (by rw [Message.marshal, hbm]; rfl), Res.ok_bind]
      rfl
    · have e : listed Message.newSessionTicket (some (⟨some b, tk⟩, b)) ++ rest = .msg (.newSessionTicket ⟨some b, tk⟩) :: rest := rfl
      have hm : NewSessionTicketMsg.marshal ⟨some b, tk⟩ = .ok (b, ⟨some b, tk⟩) := rfl
      rw [ticketPhase, h, ht, if_pos rfl, e, readMsg, Res.ok_bind]
      dsimp only
      rw [hm, Res.ok_bind]
      dsimp only
      rw [fhwrite_ok w, Res.ok_bind]
      rfl

theorem serverSum_good {h h' : FinishedHash} {master vd : Bytes} (g : h.Good) (e : h.serverSum master = .ok (vd, h')) : h'.Good := by
  refine ⟨serverSum_writable g.writable e, ?_, ?_⟩
  · rw [(serverSum_client e).1]
    exact g.sums
  · rw [(serverSum_client e).1]
    exact g.sumOk

/-- **C123, honest ends.** A standard client and a standard server that resume the same session - the server has from the ticket the master secret the client has
cached - with the same hellos complete the handshake, for every version from SSL 3.0 to TLS 1.2, with and without NPN, whether or not the server renews the ticket.
Both end with the same transcript, the keys were switched and nothing is left unread; the client then holds the new ticket, if there is one, and
otherwise the old one. -/
theorem C123_honest (E : AuthEnv) (S : ClientHs) (T : ServerHs) (s : SavedSession) (st : SessionState) (box : SessionState → Res Bytes) (hellos : List Bytes)
    (hgm : S.gm = false) (hv : AnyVersion S.vers) (hvers : T.vers = S.vers) (hsuite : T.suite = S.suite) (hmaster : st.masterSecret = s.master)
    (hticket : S.ticket = st.usedOldKey) (hnpn : T.npn = S.nextProto.isSome) (p : PeerId) (hp : serverResume E T st = .ok p) (tk : Bytes)
    (hbox : st.usedOldKey = true → box ⟨T.vers, T.suite.id, st.masterSecret, st.certificates, false⟩ = .ok tk) :
    ∃ w r fh, serverResuming E T st box hellos = .ok w ∧ clientResume E S s hellos w.sent = .ok r ∧
      serverResumed E T st box hellos r.sent = .ok (w, fh, []) ∧ r.rest = [] ∧ r.fh = fh ∧ r.switched = true ∧ w.peer = p ∧
      r.master = st.masterSecret ∧ r.session.master = s.master ∧ r.session.ticket = if st.usedOldKey then tk else s.ticket := by
  obtain ⟨h0, hh⟩ : ∃ h0, newFinishedHash E.hashes S.vers S.suite = .ok h0 := by
    rcases hv with h | h | h | h | h <;> rw [h]
    · exact ⟨_, rfl⟩
    · exact ⟨_, rfl⟩
    · exact ⟨_, rfl⟩
    · obtain ⟨h0, e, _⟩ := fresh_holds E.hashes vTLS12 S.suite (.inr (.inr (.inr (.inl rfl))))
      rw [freshHash, if_neg (by decide)] at e
      exact ⟨h0, e⟩
    · exact ⟨_, rfl⟩
  have hC : S.newHash E = .ok h0 := by
    rw [ClientHs.newHash, if_neg (by rw [hgm]; simp), hh]
  have g0 : h0.Good := newHash_good (S := S.asServer) hC
  obtain ⟨np, np1, np2⟩ := nextProto_fwd hnpn
  obtain ⟨nt, nt1, nt2⟩ := ticket_fwd (tk := tk) hticket hbox
  generalize hd : h0.discardHandshakeBuffer = e0
  have ge : e0.Good := hd ▸ g0.discard
  obtain ⟨vd, f1, hs1⟩ := (ge.app (hellos.flatten ++ Spec.bytesOf nt)).serverSum s.master
  have g1 : f1.Good := serverSum_good (ge.app _) hs1
  obtain ⟨fb, hfb⟩ := finished_fresh vd
  obtain ⟨vd', f2, hs2, g2⟩ := (g1.app (fb ++ Spec.bytesOf np)).clientSum s.master
  obtain ⟨fb', hfb'⟩ := finished_fresh vd'
  have hm : FinishedMsg.marshal ⟨some fb, vd⟩ = .ok (fb, ⟨some fb, vd⟩) := rfl
  have hm' : FinishedMsg.marshal ⟨some fb', vd'⟩ = .ok (fb', ⟨some fb', vd'⟩) := rfl
  have hw : serverResuming E T st box hellos = .ok ⟨p, f1.app fb, listed .newSessionTicket nt ++ [.ccs, .msg (.finished ⟨some fb, vd⟩)]⟩ := by
    simp only [serverResuming, hvers, hsuite, hh, Res.ok_bind, hd, writes_ok ge.writable, hp, renewedState]
    rw [← hvers, ← hsuite, nt1 _ (ge.app _).writable, Res.ok_bind]
    dsimp only
    rw [app_app, hmaster, hs1, Res.ok_bind]
    dsimp only
    rw [emit_ok g1.writable (b := fb) (m' := .finished ⟨some fb, vd⟩) (by rw [Message.marshal, hfb]; rfl), Res.ok_bind]
  have hfin : clientFinish S ⟨s.certs, s.chains, none, s.master, e0.app hellos.flatten, [], listed .newSessionTicket nt ++ [.ccs, .msg (.finished ⟨some fb, vd⟩)]⟩
      (listed .newSessionTicket nt ++ [.ccs, .msg (.finished ⟨some fb, vd⟩)]) =
      .ok ⟨if st.usedOldKey then some tk else none, true, f1.app fb, []⟩ := by
    rw [clientFinish, nt2 _ _ (ge.app _).writable, Res.ok_bind]
    dsimp only
    rw [clientReadCCS, Res.ok_bind]
    dsimp only
    rw [readMsg, Res.ok_bind]
    dsimp only
    rw [app_app, hs1, Res.ok_bind]
    dsimp only
    rw [if_neg (by simp), hm, Res.ok_bind]
    dsimp only
    rw [fhwrite_ok g1.writable, Res.ok_bind]
  have hsend : clientSendFinished S s.master (f1.app fb) = .ok (f2.app fb', .ccs :: listed .nextProto np ++ [.msg (.finished ⟨some fb', vd'⟩)]) := by
    rw [clientSendFinished, np1 _ (g1.app _).writable, Res.ok_bind]
    dsimp only
    rw [app_app, hs2, Res.ok_bind]
    dsimp only
    rw [emit_ok g2.writable (b := fb') (m' := .finished ⟨some fb', vd'⟩) (by rw [Message.marshal, hfb']; rfl), Res.ok_bind]
  have hread : serverReadFinished T st.masterSecret (f1.app fb) (.ccs :: listed .nextProto np ++ [.msg (.finished ⟨some fb', vd'⟩)]) = .ok (f2.app fb', []) := by
    rw [List.cons_append, serverReadFinished, readCCS, Res.ok_bind, np2 _ _ (g1.app _).writable, Res.ok_bind]
    dsimp only
    rw [readMsg, Res.ok_bind]
    dsimp only
    rw [app_app, hmaster, hs2, Res.ok_bind]
    dsimp only
    rw [if_neg (by simp), hm', Res.ok_bind]
    dsimp only
    rw [fhwrite_ok g2.writable, Res.ok_bind]
  refine ⟨_, ⟨s.certs, s.chains, s.master, newSession S s (if st.usedOldKey then some tk else none), true, f2.app fb',
    .ccs :: listed .nextProto np ++ [.msg (.finished ⟨some fb', vd'⟩)], []⟩, _, hw, ?_, ?_, rfl, rfl, rfl, rfl, hmaster.symm, ?_, ?_⟩
  · simp only [clientResume, hC, Res.ok_bind, hd, writes_ok ge.writable, hfin, hsend]
  · simp only [serverResumed, hw, Res.ok_bind, hread]
  · cases st.usedOldKey <;> rfl
  · cases st.usedOldKey <;> rfl

/-- **C123, from the hellos on.** A standard client offers a cached session to a standard server that can open its ticket and finds in it the parameters the client has
cached. If the server resumes, the client accepts its hello, resumes as well, and the handshake completes on both ends as in `C123_honest`. -/
theorem C123_end_to_end (E : AuthEnv) (cc sc : Config) (sni rand rand' sid : Bytes) (conn : ClientConn) (hz : conn.handshakes = 0) (cs : ClientSession)
    (h h' : ClientHello) (hh : makeClientHello cc sni rand = .ok h) (ho : offerSession cc conn true (some cs) sid h = (h', some cs)) (hsid : sid ≠ [])
    (dec : Bytes → Option SessionState) (hd0 : dec [] = none) (st : SessionState) (hdec : dec cs.ticket = some st)
    (hst : st.vers = cs.vers ∧ st.cipherSuite = cs.cipherSuite ∧ st.masterSecret = cs.masterSecret)
    (r : ServerChoice) (hr : readClientHello sc dec rand' h' = .ok r) (hres : r.resume = some st)
    (hmin : cc.effMin.toNat ≤ r.vers.toNat) (hv : Spec.Supported r.vers) (hng : r.vers ≠ vGMSSL) :
    ∃ k, readServerHello cc conn h' (some cs) (serverHello sc h' r) = .ok k ∧ k.resume = some cs ∧ k.vers = r.vers ∧ k.suite = r.suite ∧ k.alpn = r.alpn ∧
      ∀ (S : ClientHs) (T : ServerHs) (s : SavedSession), S.gm = false → S.vers = k.vers → S.suite = k.suite → S.nextProto.isSome = k.npn →
        S.ticket = (serverHello sc h' r).ticketSupported → T.vers = r.vers → T.suite = r.suite → T.npn = r.npn → s.ticket = cs.ticket → s.master = cs.masterSecret →
        ∀ (box : SessionState → Res Bytes) (hellos : List Bytes) (p : PeerId) (tk : Bytes), serverResume E T st = .ok p →
          (st.usedOldKey = true → box ⟨T.vers, T.suite.id, st.masterSecret, st.certificates, false⟩ = .ok tk) →
          ∃ w q fh, serverResuming E T st box hellos = .ok w ∧ clientResume E S s hellos w.sent = .ok q ∧
            serverResumed E T st box hellos q.sent = .ok (w, fh, []) ∧ q.rest = [] ∧ q.fh = fh ∧ q.switched = true ∧ w.peer = p ∧
            q.master = st.masterSecret ∧ q.session.ticket = if st.usedOldKey then tk else cs.ticket := by
  have hfaith : Spec.TicketFaithful dec (some cs) := by
    rintro s ⟨⟩ st' hst'
    rw [hdec] at hst'
    cases hst'
    exact ⟨hst.1, hst.2.1⟩
  have hten : 0x0301 ≤ r.vers.toNat := by
    rcases hv with e | e | e | e
    · rw [e]; decide
    · rw [e]; decide
    · rw [e]; decide
    · exact absurd e hng
  obtain ⟨k, k1, k2, k3, k4, k5, k6, _⟩ := C77_agreement cc sc sni rand rand' sid conn hz true (some cs) (some cs) h h' hh ho hsid dec hd0 hfaith r hr hmin hten
  have hkr : k.resume = some cs := by
    have h1 : k.resume.isSome := k6.2 (by rw [hres]; rfl)
    unfold readServerHello at k1
    split at k1
    · cases k1
    · split at k1
      · cases k1
      · split at k1
        · cases k1
        · rename_i _ _ _ _ _ _ x alpn rr hps
          cases k1
          dsimp only at h1 ⊢
          unfold processServerHello at hps
          split at hps
          · cases hps
          split at hps
          · cases hps
          split at hps
          · cases hps
          split at hps
          · cases hps
          split at hps
          · cases hps
          split at hps
          · cases hps
          · dsimp only at hps
            split at hps
            · split at hps
              · cases hps
              · split at hps
                · cases hps
                · cases hps; rfl
            · cases hps
              cases h1
  refine ⟨k, k1, hkr, k2, k3, k4, ?_⟩
  intro S T s a1 a2 a3 a4 a5 a6 a7 a8 a9 a10 box hellos p tk hp hb
  have htk : (serverHello sc h' r).ticketSupported = st.usedOldKey := by
    unfold serverHello
    rw [hres]
  obtain ⟨w, q, fh, q1, q2, q3, q4, q5, q6, q7, q8, _, q9⟩ := C123_honest E S T s st box hellos a1 (.inr (by rw [a2, k2]; exact hv)) (by rw [a6, a2, k2]) (by rw [a7, a3, k3])
    (by rw [hst.2.2, a10]) (by rw [a5, htk]) (by rw [a8, a4, k5]) p hp tk hb
  exact ⟨w, q, fh, q1, q2, q3, q4, q5, q6, q7, q8, by rw [q9, a9]⟩

/-- **C123, the ticket of a first connection.** The ticket a server seals for a session is opened to that session by the same configuration: the hypotheses of
`C123_end_to_end` about the ticket hold for a session both ends made together, and the ticket is not renewed. After a rotation of the keys, see C35. -/
theorem C123_own_ticket (C : TicketCrypto) (tc : TicketConfig) (rnd : Bytes) (cs : ClientSession) (certs : List Bytes)
    (hname : ∀ k ∈ tc.keys, k.keyName.length = 16) (hen : tc.disabled = false)
    (hs : SessionState.Fits ⟨cs.vers, cs.cipherSuite, cs.masterSecret, certs, false⟩)
    (h : encryptTicket C tc rnd ⟨cs.vers, cs.cipherSuite, cs.masterSecret, certs, false⟩ = .ok cs.ticket) :
    ∃ st, decryptTicket C tc cs.ticket = some st ∧ (st.vers = cs.vers ∧ st.cipherSuite = cs.cipherSuite ∧ st.masterSecret = cs.masterSecret) ∧
      st.certificates = certs ∧ st.usedOldKey = false ∧ decryptTicket C tc [] = none :=
  ⟨_, C34_roundtrip C tc rnd _ _ hname hen hs h, ⟨rfl, rfl, rfl⟩, rfl, rfl, by simp [decryptTicket]⟩

theorem Spec.Encodes.unique {m : Message} {b c : Bytes} (h : Spec.Encodes m b) (h' : Spec.Encodes m c) : b = c := by
  obtain ⟨_, e⟩ := h
  obtain ⟨_, e'⟩ := h'
  rw [e] at e'
  simp only [Res.ok.injEq, Prod.mk.injEq] at e'
  exact e'.1

/-- what the server sent can be read in one way only -/
theorem ServerEnd_unique {items items' r r' : List Item} (hi : items = items') (G : Spec.ServerEnd items r) (G' : Spec.ServerEnd items' r') :
    G.finished = G'.finished ∧ Spec.bytesOf G.ticket = Spec.bytesOf G'.ticket := by
  obtain ⟨tk, c, f, o, tb⟩ := G
  obtain ⟨tk', c', f', o', tb'⟩ := G'
  subst hi
  rw [o] at o'
  dsimp only
  rcases tk with _ | tk <;> rcases tk' with _ | tk' <;> cases c <;> cases c' <;> simp at o'
  all_goals first
    | exact ⟨o'.1, rfl⟩
    | exact ⟨o'.2.1, (tb _ rfl).unique (o'.1 ▸ tb' _ rfl)⟩

/-- C73 at the level of the handshake: a GM client completes a handshake resumed by a GM server with the right master secret only if two PRF values over different
inputs collide. -/
theorem C73_resumed_handshake_violated (E : AuthEnv) (S : ClientHs) (T : ServerHs) (s : SavedSession) (st : SessionState) (box : SessionState → Res Bytes)
    (hellos : List Bytes) (hgm : S.gm = true) (hvers : T.vers = vGMSSL) (hmaster : st.masterSecret = s.master) (w : ServerResuming)
    (hw : serverResuming E T st box hellos = .ok w) (r : ClientResumed) (h : clientResume E S s hellos w.sent = .ok r) :
    ∃ t, Spec.P sm3 s.master (str "server finished" ++ E.hashes.sha1.sum t) 12 = Spec.P sm3 s.master (str "server finished" ++ sm3.sum t) 12 ∧
      str "server finished" ++ E.hashes.sha1.sum t ≠ str "server finished" ++ sm3.sum t := by
  obtain ⟨_, _, _, G, _, _, _, g1, _, _, g2, _⟩ := C123_client E S s hellos w.sent r h
  unfold serverResuming at hw
  obtain ⟨h0, hh, hw⟩ := Res.bind_eq_ok.1 hw
  obtain ⟨f2, hf2, hw⟩ := Res.bind_eq_ok.1 hw
  obtain ⟨p, hp, hw⟩ := Res.bind_eq_ok.1 hw
  obtain ⟨⟨f3, t⟩, ht, hw⟩ := Res.bind_eq_ok.1 hw
  dsimp only at hw
  obtain ⟨⟨vd, f4⟩, hv, hw⟩ := Res.bind_eq_ok.1 hw
  dsimp only at hw
  obtain ⟨⟨f5, i⟩, he, hw⟩ := Res.bind_eq_ok.1 hw
  have hsent : w.sent = t ++ [.ccs, i] := by rw [← Res.ok.inj hw]
  obtain ⟨tk, t1, t2, t3, t4⟩ := sendTicket_inv ht
  obtain ⟨m', b, hi, hvd, hb, hf5⟩ := emit_finished he
  have hh' : ({ T with gm := false } : ServerHs).newHash E = .ok h0 := by
    unfold ServerHs.newHash
    rw [if_neg (by simp)]
    exact hh
  subst t4
  rw [writes_app hf2, app_app, discard_app] at hv
  obtain ⟨g, hg⟩ := serverSum_discard hv
  have e1 := server_finished_spec (S := { T with gm := false }) hh' _ _ _ hg
  obtain ⟨u1, u2⟩ := ServerEnd_unique hsent G
    (⟨tk, true, m', by rw [t1, hi]; simp, fun x hx => (t2 x hx).1⟩ : Spec.ServerEnd (t ++ [.ccs, i]) [])
  dsimp only at u1 u2 e1
  rw [u1, u2, hvd, e1, hgm, hmaster, hvers] at g2
  refine ⟨hellos.flatten ++ Spec.bytesOf tk, ?_, ?_⟩
  · rw [Spec.serverFinishedData, if_neg (by simp), if_pos rfl, Spec.serverFinishedData, if_pos rfl, Spec.verifyData, if_neg (by decide)] at g2
    dsimp only at g2
    rw [g2]
    rfl
  · intro he
    have h2 := congrArg List.length (List.append_cancel_left he)
    rw [E.hashes.sha1.len, E.hashes.sha1_size, sm3.len] at h2
    exact absurd h2 (by decide)


/-! ### cases that meet the hypotheses -/

def toySaved : SavedSession := ⟨[1, 2], vTLS12, 0xc02b, List.replicate 48 3, [toyLeaf], []⟩

/-- a ticket sealed with an old key, with the client certificate of the first connection -/
def toyTicketState : SessionState := ⟨vTLS12, 0xc02b, List.replicate 48 3, [[1]], true⟩

/-- `C123_honest` applies: the server, which demands a certificate, resumes a session that has one, and renews the ticket -/
example : ∃ w r fh, serverResuming toyK.auth (toyS.hs none []) toyTicketState (fun _ => .ok [42]) [[1, 0, 0, 0], [2, 0, 0, 0]] = .ok w ∧
    clientResume toyK.auth toyC toySaved [[1, 0, 0, 0], [2, 0, 0, 0]] w.sent = .ok r ∧
    serverResumed toyK.auth (toyS.hs none []) toyTicketState (fun _ => .ok [42]) [[1, 0, 0, 0], [2, 0, 0, 0]] r.sent = .ok (w, fh, []) ∧
    w.peer.certs = [toyLeaf] ∧ r.session.ticket = [42] := by
  obtain ⟨chains, hp⟩ := toy_peer
  obtain ⟨w, r, fh, h1, h2, h3, _, _, _, h4, _, _, h5⟩ := C123_honest toyK.auth toyC (toyS.hs none []) toySaved toyTicketState (fun _ => .ok [42])
    [[1, 0, 0, 0], [2, 0, 0, 0]] rfl (.inr (.inr (.inr (.inl rfl)))) rfl rfl rfl rfl rfl ⟨[toyLeaf], chains, some (.ecdsa [9])⟩ hp [42] (fun _ => rfl)
  exact ⟨w, r, fh, h1, h2, h3, by rw [h4], by rw [h5]; rfl⟩

/-- the hypotheses of `C123_end_to_end` up to the server's decision: a cached session is offered and resumed -/
example : ∃ (cc sc : Config) (h h' : ClientHello) (cs : ClientSession) (dec : Bytes → Option SessionState) (st : SessionState) (r : ServerChoice),
    makeClientHello cc [0x61] (List.replicate 32 1) = .ok h ∧ offerSession cc ⟨0, false, [], []⟩ true (some cs) [1] h = (h', some cs) ∧
    dec [] = none ∧ dec cs.ticket = some st ∧ (st.vers = cs.vers ∧ st.cipherSuite = cs.cipherSuite ∧ st.masterSecret = cs.masterSecret) ∧
    readClientHello sc dec (List.replicate 32 2) h' = .ok r ∧ (r.resume.map fun s => (s.vers, s.cipherSuite)) = some (st.vers, st.cipherSuite) ∧
    cc.effMin.toNat ≤ r.vers.toNat ∧ r.vers = vTLS12 :=
  ⟨{ minVersion := 0, maxVersion := 0, cipherSuites := none, preferServerCipherSuites := false, curvePreferences := [],
     nextProtos := [[0x68, 0x32]], clientAuth := .noClientCert, sessionTicketsDisabled := false, certificates := [],
     nameToCertificate := none, getCertificate := none, toLower := id, serverName := [0x61], insecureSkipVerify := false },
   { minVersion := 0, maxVersion := 0, cipherSuites := none, preferServerCipherSuites := true, curvePreferences := [],
     nextProtos := [[0x78], [0x68, 0x32]], clientAuth := .noClientCert, sessionTicketsDisabled := false,
     certificates := [⟨[[1]], some .rsa, some .rsa⟩],
     nameToCertificate := none, getCertificate := none, toLower := id, serverName := [], insecureSkipVerify := false },
   _, _, ⟨[1, 2], vTLS12, 0xc02f, List.replicate 48 3, [], true⟩, fun t => if t = [1, 2] then some ⟨vTLS12, 0xc02f, List.replicate 48 3, [], false⟩ else none,
   ⟨vTLS12, 0xc02f, List.replicate 48 3, [], false⟩, _, rfl, rfl, by decide, by decide, ⟨rfl, rfl, rfl⟩, rfl, by decide +kernel, by decide +kernel, by decide +kernel⟩

/-- the hypothesis `hw` of `C73_resumed_handshake_violated`: a GM server does resume -/
example : ∃ w, serverResuming toyK.auth { (toyS.hs none []) with gm := true, vers := vGMSSL } ⟨vGMSSL, 0xe011, List.replicate 48 3, [], false⟩
    (fun _ => .err "x") [[1, 0, 0, 0], [2, 0, 0, 0]] = .ok w ∧ w.sent.length = 2 := ⟨_, rfl, rfl⟩
end Verif.Tls
