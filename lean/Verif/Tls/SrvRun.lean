import Verif.Tls.HsRun
import Verif.Tls.SrvItems
import Verif.Tls.HandshakeProps
/-!
A completed server handshake, whatever the transport delivered: `C138`.
-/
namespace Verif.Tls
open Verif Verif.Tls.Wire

namespace Spec
/-- A full handshake as a server sees it: `sent` is what it sent after its ServerHello, `items` what the client sent after its ClientHello, `r` the state reported.
`rk`, `rc` are the random bytes of the key exchange, `box` seals tickets. -/
structure SrvFull (K : KaEnv) (T : ServerSide K.auth.x509.curve) (rk rc : Bytes) (box : SessionState → Res Bytes) (hellos : List Bytes) (items sent : List Item)
    (r : ServerRes) where
  /-- the server's messages up to ServerHelloDone, then the client's, then the end of the server's -/
  mid : List Item
  W : ServerFlight T.gm sent mid
  F : Flight items []
  D : ServerEnd mid []
  fb : Bytes
  fin_bytes : Encodes (.finished F.finished) fb
  /-- the server showed its own chain, a staple if asked, and asked for a certificate unless the policy is NoClientCert -/
  chain : W.cert.1.certificates = T.chain
  staple : W.status.isSome = T.ocsp
  asked : W.req = none ↔ T.auth = .noClientCert
  /-- the key exchange: the ServerKeyExchange was generated for this handshake, and the master secret comes from the client's key exchange -/
  key : Option EcdheServer
  skx : serverGenSKX K T rk = .ok (key, W.skx.map fun x => x.1.key)
  exchange : ∃ pre, serverProcessCKX K T key rc F.ckx.1.ciphertext = .ok pre ∧
    masterFromPreMasterSecret K.auth.hashes T.vers T.suite pre T.clientRandom T.serverRandom = .ok r.master
  /-- the client answered the request for a certificate, and only that; what it sent meets the policy -/
  answered : F.cert = none ↔ T.auth = .noClientCert
  parsed : parseAll K.auth.parse (sentCerts F.cert) = some r.peer.certs
  policy : PolicyMet K.auth r.S r.peer.certs r.peer.chains
  callback : ∀ f, T.verifyPeer = some f → F.cert ≠ none → f (sentCerts F.cert) r.peer.chains = true
  /-- whoever showed a certificate signed this handshake with its key -/
  proof_given : F.verify = none ↔ r.peer.certs = []
  possession : ∀ leaf more cv b, r.peer.certs = leaf :: more → F.verify = some (cv, b) →
    Possession K.auth T.gm T.vers cv.signatureAlgorithm r.master (F.signedPart (hellos ++ [W.bytes])) cv.signature leaf.pub
  npn : F.npn.isSome = T.npn
  /-- both Finished values are over all messages before them -/
  client_finished : F.finished.verifyData = clientFinishedData K.auth T.gm T.vers T.suite r.master (F.finishedPart (hellos ++ [W.bytes]))
  server_finished : D.finished.verifyData = serverFinishedData K.auth T.gm T.vers T.suite r.master (F.finishedPart (hellos ++ [W.bytes]) ++ fb ++ bytesOf D.ticket)
  switched : D.ccs = true
  /-- a ticket if one was announced, and for this session -/
  ticket_sent : D.ticket.isSome = T.ticket
  ticket : ∀ x, D.ticket = some x → box ⟨T.vers, T.suite.id, r.master, sentCerts F.cert, false⟩ = .ok x.1.ticket

/-- A resumption as a server sees it: the session `st` came out of a ticket. Both kinds of server compute the Finished values of a standard handshake. -/
structure SrvResumption (E : AuthEnv) (st : SessionState) (box : SessionState → Res Bytes) (hellos : List Bytes) (items sent : List Item) (r : ServerRes) where
  G : ServerEnd sent []
  A : ClientEnd items []
  fb : Bytes
  fin_bytes : Encodes (.finished G.finished) fb
  master : r.master = st.masterSecret
  parsed : parseAll E.parse st.certificates = some r.peer.certs
  policy : PolicyMet E r.S r.peer.certs r.peer.chains
  switched : G.ccs = true
  server_finished : G.finished.verifyData = serverFinishedData E false r.S.vers r.S.suite st.masterSecret (hellos.flatten ++ bytesOf G.ticket)
  client_finished : A.finished.verifyData = clientFinishedData E false r.S.vers r.S.suite st.masterSecret
    (hellos.flatten ++ bytesOf G.ticket ++ fb ++ bytesOf A.nextProto)
  ticket_sent : G.ticket.isSome = st.usedOldKey
  ticket : ∀ x, G.ticket = some x → box ⟨r.S.vers, r.S.suite.id, st.masterSecret, st.certificates, false⟩ = .ok x.1.ticket

/-- the server read the ClientHello `ch` and then `items`, sent its ServerHello and then `sent`, and ended in the state `r` -/
structure ServerRan (P : Prims) (K : KaEnv) (gm : Bool) (start : ClientHelloMsg → Option (ServerStart K.auth.x509.curve)) (c : Conn) (ch : ClientHelloMsg)
    (Z : ServerStart K.auth.x509.curve) (k : ServerChoice) (items sent : List Item) (r : ServerRes) : Prop where
  /-- the run of the handshake -/
  ran : ∃ o : HsOut (ServerChoice × ServerRes), (serverProg K gm start).run P gm c = .ok o ∧ o.result = .done (k, r) ∧ o.got = .msg (.clientHello ch) :: items ∧
    ∃ m, o.sent = .msg m :: sent ∧ ∃ sb, (Message.serverHello (Z.helloMsg gm ch k)).marshal = .ok (sb, m)
  /-- the configuration in use -/
  config : start ch = some Z
  /-- the two hellos as hashed -/
  hellos : ∃ hb sb, r.hellos = [hb, sb] ∧ Encodes (.clientHello ch) hb ∧ Encodes (.serverHello (Z.helloMsg gm ch k)) sb
  /-- the ClientHello was acceptable -/
  choice : Z.react gm ch = .ok k
end Spec

/-- the run behind a completed call of `Handshake` -/
theorem handshake_ran_any {α : Type} {P : Prims} {gm : Bool} {p : Hs α} {c c' : Conn} (h1 : c.handshakeErr = none) (h2 : c.handshakeComplete = false)
    (h : c.handshake (p.asHandshake P gm) = .ok (none, c')) : ∃ (o : HsOut α) (r : α), p.run P gm c = .ok o ∧ o.result = .done r := by
  have hc : ({ c with handshakeComplete := false } : Conn) = c := by rw [← h2]
  unfold Conn.handshake at h
  rw [h1] at h
  dsimp only at h
  rw [if_neg (by rw [h2]; decide)] at h
  unfold Conn.runHandshake at h
  rw [hc] at h
  unfold Hs.asHandshake at h
  cases hr : p.run P gm c with
  | ok o =>
    refine ⟨o, ?_⟩
    rw [hr] at h
    simp only [Res.map] at h
    cases ho : o.result with
    | done r => exact ⟨r, rfl, rfl⟩
    | refused a e => rw [ho] at h; simp [HsEnd.err] at h
    | failed e => rw [ho] at h; simp [HsEnd.err] at h
  | err x => rw [hr] at h; simp [Res.map] at h
  | panic => rw [hr] at h; simp [Res.map] at h

theorem srv_finished_both {E : AuthEnv} {S : ServerHs} {h0 f2 g : FinishedHash} {t master vd fb tk sv : Bytes} (hh0 : S.newHash E = .ok h0)
    (h1 : (h0.app t).discardHandshakeBuffer.clientSum master = .ok (vd, f2)) (h2 : ((f2.app fb).app tk).serverSum master = .ok (sv, g)) :
    sv = Spec.serverFinishedData E S.gm S.vers S.suite master (t ++ fb ++ tk) := by
  rw [app_app] at h2
  obtain ⟨g', hg'⟩ := server_after_client h1 h2
  rw [discard_app] at hg'
  obtain ⟨g'', hg''⟩ := serverSum_discard hg'
  rw [app_app, ← List.append_assoc] at hg''
  exact server_finished_spec hh0 _ _ _ hg''

theorem signedPart_flatten {items rest : List Item} (F : Spec.Flight items rest) {a b : List Bytes} (h : a.flatten = b.flatten) : F.signedPart a = F.signedPart b := by
  simp only [Spec.Flight.signedPart, h]

theorem finishedPart_flatten {items rest : List Item} (F : Spec.Flight items rest) {a b : List Bytes} (h : a.flatten = b.flatten) :
    F.finishedPart a = F.finishedPart b := by
  simp only [Spec.Flight.finishedPart, signedPart_flatten F h]

theorem serverEnd_inv {t : Bool} {enc : Res Bytes} {d : ServerDone} {fh : FinishedHash} {e : List Item} (h : serverEnd t enc d = .ok (fh, e)) :
    ∃ (D : Spec.ServerEnd e []) (g : FinishedHash), D.ccs = true ∧ D.ticket.isSome = t ∧ (∀ x, D.ticket = some x → enc = .ok x.1.ticket) ∧
      (d.fh.app (Spec.bytesOf D.ticket)).serverSum d.master = .ok (D.finished.verifyData, g) := by
  unfold serverEnd at h
  obtain ⟨⟨f1, tk⟩, h1, h⟩ := Res.bind_eq_ok.1 h
  obtain ⟨⟨vd, f2⟩, h2, h⟩ := Res.bind_eq_ok.1 h
  obtain ⟨⟨f3, i⟩, h3, h⟩ := Res.bind_eq_ok.1 h
  simp only [Res.ok.injEq, Prod.mk.injEq] at h
  obtain ⟨rfl, rfl⟩ := h
  obtain ⟨tk', rfl, a2, a3, rfl⟩ := sendTicket_inv h1
  obtain ⟨m', b, rfl, b2, b3, b4⟩ := emit_finished h3
  refine ⟨⟨tk', true, m', ?_, fun y hy => (a2 y hy).1⟩, f2, rfl, a3, fun x hx => (a2 x hx).2, ?_⟩
  · simp
  · dsimp only
    rw [b2]; exact h2

/-- **C138.** Whatever bytes the transport delivers and however they are cut into records: if `Handshake` of a server returns nil on a new connection, then the
server read an acceptable ClientHello (C38, C51) and either ran a full handshake in which the client met the policy of the configuration, proved possession of its key if it
showed a certificate, and both Finished values were those of the standard over all messages exchanged; or it resumed a session whose certificates meet the policy. -/
theorem C138_server (P : Prims) (K : KaEnv) (gm : Bool) (start : ClientHelloMsg → Option (ServerStart K.auth.x509.curve)) (c c' : Conn) (hs : c.isClient = false)
    (h1 : c.handshakeErr = none) (h2 : c.handshakeComplete = false) (h : c.handshake ((serverProg K gm start).asHandshake P gm) = .ok (none, c')) :
    ∃ (ch : ClientHelloMsg) (Z : ServerStart K.auth.x509.curve) (k : ServerChoice) (items sent : List Item) (r : ServerRes),
      Spec.ServerRan P K gm start c ch Z k items sent r ∧
      ((k.resume = none ∧ r.resumed = none ∧ (Z.helloMsg gm ch k).ocspStapling = (Z.side gm ch k).ocsp ∧ (∃ key, r.S = (Z.side gm ch k).hs (K := K) key Z.randCkx) ∧
          Nonempty (Spec.SrvFull K (Z.side gm ch k) Z.randKx Z.randCkx Z.box r.hellos items sent r)) ∨
       (∃ st, k.resume = some st ∧ r.resumed = some st ∧ (Z.helloMsg gm ch k).ocspStapling = false ∧ r.S = (Z.side gm ch k).hs (K := K) none Z.randCkx ∧
          Nonempty (Spec.SrvResumption K.auth st Z.box r.hellos items sent r))) := by
  obtain ⟨o, ⟨k, r⟩, hr, hd⟩ := handshake_ran_any h1 h2 h
  have hi := run_items P gm _ c o (k, r) hr hd []
  have hren : c.ren = false := by simp only [Conn.ren, hs, Bool.false_and]
  rw [List.append_nil, hren] at hi
  obtain ⟨ch, ch', Z, l', hb, sb, m, sent', e1, e2, e3, e4, e5, e6, e7, hcase⟩ := serverProg_items hi
  dsimp only at e3 e5 e7 hcase
  refine ⟨ch, Z, k, l', sent', r, ⟨⟨o, hr, hd, e1, m, e6, sb, e5⟩, e2, ⟨hb, sb, e7, ⟨.clientHello ch', ?_⟩, ⟨m, e5⟩⟩, e3⟩, ?_⟩
  · simp [Message.marshal, e4, Res.map]
  rcases hcase with ⟨g1, g2, w, d, e, g3, g4, g5, g6, rfl, g8, g9, g10, g11⟩ | ⟨st, w, g1, g2, g3, rfl, g5, g6, g7, g8⟩
  · left
    refine ⟨g1, g2, by simp only [ServerStart.helloMsg, g1, Option.isNone_none, Bool.true_and], ⟨_, g8⟩, ?_⟩
    obtain ⟨F, h0, f2, fb, ⟨k1, k2, k3, k4, k5⟩, q1, q2, q3, q4, q5, q6, q7, q8⟩ := serverFull_inv K.auth _ _ _ d g4
    obtain ⟨dp, dm, dfh, drest⟩ := d
    dsimp only at g5
    subst g5
    obtain ⟨D, g, d1, d2, d3, d4⟩ := serverEnd_inv g6
    obtain ⟨cert, status, key, skx, req, c1, c2, s1, s2, t1, x1, x2, r1, r2, hit, hby⟩ := serverFlight_inv g3
    dsimp only at k3 k5 q2 q3 q4 q5 q6 q7 q8 g9 g10 d4
    have hcs : r.certsSent = Spec.sentCerts F.cert := by
      rcases g11 with ⟨y1, y2⟩ | ⟨y1, cm, l2, y2, y3⟩
      · rw [q1.2 y1, y2]; rfl
      · cases hc : F.cert with
        | none => exact absurd (q1.1 hc) y1
        | some x =>
          have := y2.symm.trans F.order
          rw [hc] at this
          simp only [Option.map_some, Option.toList_some, List.cons_append, List.nil_append, List.cons.injEq, Item.msg.injEq, Message.certificate.injEq] at this
          rw [y3, this.1]; rfl
    let W : Spec.ServerFlight (Z.side gm ch k).gm (w.items ++ e) e :=
      { cert := cert, status := status, skx := skx, req := req
        order := by
          rw [hit]
          cases status <;> cases skx <;> cases req <;> simp [listed]
        cert_bytes := ⟨.certificate cert.1, by simp [Message.marshal, c2, Res.map]⟩
        status_bytes := fun x hx => ⟨.certificateStatus x.1, by simp [Message.marshal, s2 x hx, Res.map]⟩
        skx_bytes := fun x hx => ⟨.serverKeyExchange x.1, by simp [Message.marshal, x2 x hx, Res.map]⟩
        req_bytes := fun x hx => ⟨x.1, (r2 x hx).1⟩
        req_kind := fun x hx => by
          have := (r2 x hx).2
          split at this
          · rename_i hg; rw [if_pos hg]; exact ⟨_, this⟩
          · rename_i hg; rw [if_neg hg]; exact ⟨_, this⟩ }
    have hfl : ([hb, sb] ++ w.bytes).flatten = (r.hellos ++ [W.bytes]).flatten := by
      rw [e7]
      simp only [List.flatten_append, hby]
      simp [Spec.ServerFlight.bytes, W, serverHelloDoneMarshal]
    rw [finishedPart_flatten F hfl] at q8 k5
    refine ⟨{ mid := e, W := W, F := F, D := D, fb := fb, fin_bytes := k2, chain := c1, staple := s1, asked := r1, key := w.key, skx := ?_, exchange := ?_,
              answered := q1, parsed := by rw [g9]; exact q2, policy := by rw [g8, g9]; exact q3, callback := by rw [g9]; exact q4, proof_given := by rw [g9]; exact q5,
              possession := ?_, npn := k4, client_finished := by rw [g10]; exact q8, server_finished := ?_, switched := d1, ticket_sent := d2, ticket := ?_ }⟩
    · rw [t1, ← x1]
    · rw [g10]; exact q7
    · rw [g9, g10, ← signedPart_flatten F hfl]; exact q6
    · rw [k3] at d4
      rw [g10]
      exact srv_finished_both k1 k5 d4
    · intro x hx
      rw [g10, ← hcs]; exact d3 x hx
  · right
    refine ⟨st, g1, g2, by simp [ServerStart.helloMsg, g1], g5, ?_⟩
    obtain ⟨a1, G, A, fb, b1, b2, b3, b4, b5, b6, b7⟩ := C123_server K.auth _ st Z.box [hb, sb] l' w r.fh [] g3
    have hpol : parseAll K.auth.parse st.certificates = some w.peer.certs ∧
        Spec.PolicyMet K.auth ((Z.side gm ch k).hs (K := K) none Z.randCkx) w.peer.certs w.peer.chains := by
      unfold ServerStart.react at e3
      split at e3
      · exact C47_gm_resumed K.auth _ Z.cfg Z.decrypt Z.rand _ k e3 st g1 rfl w.peer a1
      · exact C47_resumed K.auth _ Z.cfg Z.decrypt Z.rand _ k e3 st g1 rfl w.peer a1
    rw [e7]
    refine ⟨{ G := G, A := A, fb := fb, fin_bytes := b1, master := g8, parsed := by rw [g6]; exact hpol.1, policy := by rw [g5, g6]; exact hpol.2, switched := b2,
              server_finished := by rw [g5]; exact b5, client_finished := by rw [g5]; exact b6, ticket_sent := b3, ticket := by rw [g5]; exact b7 }⟩

end Verif.Tls
