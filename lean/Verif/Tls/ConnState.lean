import Verif.Tls.SrvRun
import Verif.Tls.SrvKeys
import Verif.Tls.AgreeProps
import Verif.Tls.HonestProps
/-!
What `ConnectionState` reports, and that both ends of an undisturbed handshake report the same: `C145`.
-/
namespace Verif.Tls
open Verif Verif.Tls.Wire

/-- the fields of a `Conn` that `ConnectionState` reads: tls/conn.go:38-100. The closure `ekm` is a function; `none` is a nil closure. -/
structure ConnInfo where
  complete : Bool
  vers : Version
  serverName : Bytes
  clientProtocol : Bytes
  clientProtocolFallback : Bool
  didResume : Bool
  cipherSuite : U16
  peerCertificates : List X509.Cert
  verifiedChains : List (List X509.Cert)
  scts : List Bytes
  ocspResponse : Bytes
  clientFinishedIsFirst : Bool
  clientFinished : Bytes
  serverFinished : Bytes
  /-- `c.config.Renegotiation != RenegotiateNever` -/
  renegotiation : Bool
  ekm : Option (Bytes → Option Bytes → Int → Res Bytes)

/-- tls/common.go:155-180 -/
structure ConnectionState where
  handshakeComplete : Bool := false
  version : Version := 0
  didResume : Bool := false
  cipherSuite : U16 := 0
  negotiatedProtocol : Bytes := []
  negotiatedProtocolIsMutual : Bool := false
  serverName : Bytes := []
  peerCertificates : List X509.Cert := []
  verifiedChains : List (List X509.Cert) := []
  signedCertificateTimestamps : List Bytes := []
  ocspResponse : Bytes := []
  ekm : Option (Bytes → Option Bytes → Int → Res Bytes) := none
  tlsUnique : Bytes := []

/-- tls/prf.go:355-357 -/
def noExportedKeyingMaterial : Bytes → Option Bytes → Int → Res Bytes :=
  fun _ _ _ => .err "ExportKeyingMaterial is unavailable when renegotiation is enabled"

/-- tls/conn.go:1303-1336 -/
def ConnInfo.connectionState (i : ConnInfo) : ConnectionState :=
  let state : ConnectionState := { handshakeComplete := i.complete, serverName := i.serverName }
  if i.complete then
    { state with
      version := i.vers
      negotiatedProtocol := i.clientProtocol
      didResume := i.didResume
      negotiatedProtocolIsMutual := !i.clientProtocolFallback
      cipherSuite := i.cipherSuite
      peerCertificates := i.peerCertificates
      verifiedChains := i.verifiedChains
      signedCertificateTimestamps := i.scts
      ocspResponse := i.ocspResponse
      tlsUnique := if i.didResume then [] else if i.clientFinishedIsFirst then i.clientFinished else i.serverFinished
      ekm := if i.renegotiation then some noExportedKeyingMaterial else i.ekm }
  else state

/-! ### the fields as the handshakes leave them -/

/-- the contents of the first Finished of a list of messages as copied into the 12 bytes of `c.clientFinished` or `c.serverFinished` (the destination of
`sendFinished(out)` and `readFinished(out)`: tls/handshake_client.go:672, 731; tls/handshake_server.go:612, 656; the GM files do the same). The sender copies what it
puts into the message, the receiver what it compared with the message. -/
def finishedOf (l : List Item) : Bytes :=
  copyAt (List.replicate 12 0) 0 ((l.findSome? fun x => match x with | .msg (.finished m) => some m.verifyData | _ => none).getD [])

/-- the protocol in the NextProtocol message of a list of messages -/
def nextProtoOf (l : List Item) : Bytes :=
  (l.findSome? fun x => match x with | .msg (.nextProto m) => some m.proto | _ => none).getD []

/-- the response in the CertificateStatus message of a list of messages, if it is an OCSP response (type 1) -/
def statusOf (l : List Item) : Bytes :=
  (l.findSome? fun x => match x with | .msg (.certificateStatus m) => if m.statusType = 1 then some m.response else none | _ => none).getD []

/-- a client after its first handshake, which read `got` (from the ServerHello `sh` on) and sent `sent`: tls/handshake_client.go:102, 236-291, 316, 383, 418, 620-643,
712-717; tls/gm_handshake_client_double.go:101-156, 167, 270, 467-490, 559-563. The client does not set `c.serverName`. -/
def clientInfo (hs : Hashes) (Z : ClientStart) (sh : ServerHelloMsg) (ch : ClientChoice) (sent got : List Item) (r : ClientEnd) (c : Conn) : ConnInfo where
  complete := c.handshakeComplete
  vers := c.vers
  serverName := []
  clientProtocol := if sh.nextProtoNeg then nextProtoOf sent else ch.alpn
  clientProtocolFallback := if sh.nextProtoNeg then (match mutualProtocol Z.cfg.nextProtos sh.nextProtos with | .ok p => p.2 | _ => false) else false
  didResume := r.resumed.isSome
  cipherSuite := r.S.suite.id
  peerCertificates := r.certs
  verifiedChains := r.chains
  scts := sh.scts
  ocspResponse := statusOf got
  clientFinishedIsFirst := r.resumed.isNone
  clientFinished := finishedOf sent
  serverFinished := finishedOf got
  renegotiation := Z.S.renegotiation
  ekm := some (ekm hs r.S.vers r.S.suite r.master r.S.clientRandom r.S.serverRandom)

/-- a server after its handshake, which read `got` and sent `sent`: tls/handshake_server.go:54-108, 199, 205, 591, 658, 698-720; tls/gm_handshake_server_double.go:52-106,
176, 182, 556, 623, 663-685. `renegotiation` is what the configuration says; a server never renegotiates. -/
def serverInfo (hs : Hashes) (ch : ClientHelloMsg) (k : ServerChoice) (renegotiation : Bool) (sent got : List Item) (r : ServerRes) (c : Conn) : ConnInfo where
  complete := c.handshakeComplete
  vers := c.vers
  serverName := ch.serverName
  clientProtocol := if k.npn then nextProtoOf got else k.alpn
  clientProtocolFallback := false
  didResume := r.resumed.isSome
  cipherSuite := r.S.suite.id
  peerCertificates := r.peer.certs
  verifiedChains := r.peer.chains
  scts := []
  ocspResponse := []
  clientFinishedIsFirst := r.resumed.isNone
  clientFinished := finishedOf got
  serverFinished := finishedOf sent
  renegotiation := renegotiation
  ekm := some (ekm hs r.S.vers r.S.suite r.master r.S.clientRandom r.S.serverRandom)

namespace Spec
/-- the two states describe the same connection -/
structure SameState (a b : ConnectionState) : Prop where
  complete : a.handshakeComplete = true ∧ b.handshakeComplete = true
  version : a.version = b.version
  cipherSuite : a.cipherSuite = b.cipherSuite
  protocol : a.negotiatedProtocol = b.negotiatedProtocol
  resumed : a.didResume = b.didResume
  unique : a.tlsUnique = b.tlsUnique
end Spec

/-- **C145.** Until the handshake is complete `ConnectionState` reports nothing but the server name. -/
theorem C145_incomplete (i : ConnInfo) (h : i.complete = false) : i.connectionState = { serverName := i.serverName } := by
  unfold ConnInfo.connectionState
  simp [h]

theorem marshal_ch {h : ClientHelloMsg} {b : Bytes} {m : Message} (e : (Message.clientHello h).marshal = .ok (b, m)) :
    ∃ r, m = .clientHello { h with raw := r } := by
  simp only [Message.marshal] at e
  obtain ⟨⟨x, y⟩, e1, e2⟩ := map_ok_inv e
  simp only [Prod.mk.injEq] at e2
  obtain ⟨_, rfl⟩ := e2
  unfold ClientHelloMsg.marshal at e1
  split at e1
  · simp only [Res.ok.injEq, Prod.mk.injEq] at e1
    exact ⟨h.raw, by rw [← e1.2]⟩
  · split at e1
    · cases e1
    · simp only [Res.ok.injEq, Prod.mk.injEq] at e1
      exact ⟨_, by rw [← e1.2]⟩

theorem marshal_sh {h : ServerHelloMsg} {b : Bytes} {m : Message} (e : (Message.serverHello h).marshal = .ok (b, m)) :
    ∃ r, m = .serverHello { h with raw := r } := by
  simp only [Message.marshal] at e
  obtain ⟨⟨x, y⟩, e1, e2⟩ := map_ok_inv e
  simp only [Prod.mk.injEq] at e2
  obtain ⟨_, rfl⟩ := e2
  unfold ServerHelloMsg.marshal at e1
  split at e1
  · simp only [Res.ok.injEq, Prod.mk.injEq] at e1
    exact ⟨h.raw, by rw [← e1.2]⟩
  · split at e1
    · cases e1
    · simp only [Res.ok.injEq, Prod.mk.injEq] at e1
      exact ⟨_, by rw [← e1.2]⟩

/-- a server's messages after the ServerHello begin with a Certificate exactly in a full handshake -/
theorem flight_not_end {gm : Bool} {items mid : List Item} (F : Spec.ServerFlight gm items mid) (G : Spec.ServerEnd items []) : False := by
  have := F.order.symm.trans G.order
  cases hG : G.ticket <;> cases hc : G.ccs <;> rw [hG, hc] at this <;> simp at this

/-- the client's decision is in agreement with an honest server's -/
theorem same_choice {C : Sm2.Curve} {Z : ClientStart} {Y : ServerStart C} {gm : Bool} {k : ServerChoice} {c : ClientChoice} {cm : ClientHelloMsg} {sm : ServerHelloMsg} {q : Option Bytes}
    (hgm : Z.S.gm = gm) (hh : cm = { Z.hello with raw := q }) (hY : Y.react gm cm = .ok k)
    (hs1 : sm.vers = k.vers) (hs2 : sm.cipherSuite = k.suite.id) (hs3 : sm.nextProtoNeg = k.npn) (hs4 : sm.alpnProtocol = k.alpn)
    (hmax : Z.S.gm = false → Z.hello.vers.toNat ≤ Z.cfg.effMax.toNat) (hZ : Z.react sm = .ok c) :
    c.vers = k.vers ∧ c.suite = k.suite ∧ c.npn = k.npn ∧ c.alpn = k.alpn := by
  unfold ClientStart.react at hZ
  unfold ServerStart.react at hY
  have halpn : ∀ {v s alpn x}, processServerHello Z.conn v s (clientHelloOf Z.hello) (Z.session.map sessionOf) (serverHelloOf sm) = .ok (alpn, x) → alpn = k.alpn := by
    intro v s alpn x he
    unfold processServerHello at he
    rw [← hs4]
    repeat' split at he
    all_goals first | (cases he; done) | (simp only [Except.ok.injEq, Prod.mk.injEq] at he; exact he.1.symm)
  cases hg : Z.S.gm with
  | true =>
    rw [hg] at hgm
    rw [if_pos hg] at hZ
    rw [if_pos hgm.symm] at hY
    unfold readServerHelloGM at hZ
    split at hZ
    · cases hZ
    · rename_i hv
      split at hZ
      · cases hZ
      · rename_i su hsu
        split at hZ
        · cases hZ
        · rename_i alpn x hp
          have := Except.ok.inj hZ
          subst this
          have hm := C38_gm_always_mutual _ _ _ _ _ hY
          unfold mutualCipherSuite at hsu
          split at hsu
          · have h2 := (find_suite gmCipherSuites gmSuite_ids_nodup _ _).1 hsu
            refine ⟨?_, gmSuite_ids_nodup _ h2.1 _ hm.1 (h2.2.trans hs2), hs3, halpn hp⟩
            rw [← hs1]
            exact (Decidable.not_not.1 hv).symm
          · cases hsu
  | false =>
    rw [hg] at hgm
    rw [if_neg (by rw [hg]; decide)] at hZ
    rw [if_neg (by rw [← hgm]; decide)] at hY
    unfold readServerHello at hZ
    split at hZ
    · cases hZ
    · rename_i vers hv
      split at hZ
      · cases hZ
      · rename_i su hsu
        split at hZ
        · cases hZ
        · rename_i alpn x hp
          have := Except.ok.inj hZ
          subst this
          obtain ⟨cert, _, hm⟩ := C38_always_mutual _ _ _ _ _ hY
          obtain ⟨_, hmv, _⟩ := readClientHello_inv hY
          have hle : k.vers.toNat ≤ Z.cfg.effMax.toNat := by
            have h1 := mutualVersion_le hmv
            have h2 := hmax hg
            subst hh
            exact Nat.le_trans h1 h2
          unfold mutualCipherSuite at hsu
          split at hsu
          · have h2 := (find_suite cipherSuites suite_ids_nodup _ _).1 hsu
            refine ⟨?_, suite_ids_nodup _ h2.1 _ hm.1 (h2.2.trans hs2), hs3, halpn hp⟩
            unfold pickTLSVersion at hv
            split at hv
            · cases hv
            · rename_i v hv2
              split at hv
              · cases hv
              · have := Except.ok.inj hv
                subst this
                unfold Config.mutualVersion at hv2
                have e : (serverHelloOf sm).vers = k.vers := hs1
                rw [e] at hv2
                split at hv2
                · cases hv2
                · split at hv2
                  · omega
                  · exact (Option.some.inj hv2).symm
          · cases hsu

/-- **C145, agreement.** A client and a server (both standard or both GM) complete a handshake over a transport that delivers to each what the other sent. Then, whatever their configurations,
keys and sessions are, `ConnectionState` reports the same version, suite, application protocol, resumption and channel binding on both ends; and if they have the same master
secret and neither allows renegotiation, the same keying material exporter. `Z.hello.vers` is the maximum version of the client's configuration (C37). -/
theorem C145_agreement (P P' : Prims) (K K' : KaEnv) (hs : Hashes) (Z : ClientStart) (rk rs : Bytes) (c c' : Conn) (gm : Bool) (hgm : Z.S.gm = gm)
    (start : ClientHelloMsg → Option (ServerStart K'.auth.x509.curve)) (s s' : Conn)
    (hmax : Z.S.gm = false → Z.hello.vers.toNat ≤ Z.cfg.effMax.toNat)
    (hren : Z.S.renegotiation = c.ren) (h1 : c.handshakeErr = none) (h2 : c.handshakeComplete = false)
    (h : c.handshake ((clientProg K Z rk rs).asHandshake P Z.S.gm) = .ok (none, c'))
    (hsrv : s.isClient = false) (h1' : s.handshakeErr = none) (h2' : s.handshakeComplete = false)
    (h' : s.handshake ((serverProg K' gm start).asHandshake P' gm) = .ok (none, s'))
    (oc : HsOut ClientEnd) (os : HsOut (ServerChoice × ServerRes))
    (hc : (clientProg K Z rk rs).run P Z.S.gm c = .ok oc) (hsr : (serverProg K' gm start).run P' gm s = .ok os)
    (hto : oc.sent = os.got) (hfrom : os.sent = oc.got) :
    ∃ (sh : ServerHelloMsg) (cc : ClientChoice) (r : ClientEnd) (ch : ClientHelloMsg) (k : ServerChoice) (r' : ServerRes) (items items' : List Item),
      oc.got = .msg (.serverHello sh) :: items ∧ oc.result = .done r ∧ Z.react sh = .ok cc ∧
      os.got = .msg (.clientHello ch) :: items' ∧ os.result = .done (k, r') ∧
      (∀ ren, Spec.SameState (clientInfo hs Z sh cc oc.sent oc.got r c').connectionState (serverInfo hs ch k ren os.sent os.got r' s').connectionState) ∧
      (r.master = r'.master → Z.S.renegotiation = false →
        (clientInfo hs Z sh cc oc.sent oc.got r c').connectionState.ekm = (serverInfo hs ch k false os.sent os.got r' s').connectionState.ekm) := by
  obtain ⟨o1, r, hr1, hd⟩ := handshake_ran h1 h2 h
  rw [hc] at hr1
  have := Res.ok.inj hr1; subst this
  obtain ⟨sh, cc, items, sent, hran, hS, hcase⟩ := ran_items hren hc hd
  obtain ⟨ch, Y, k, items', sent', r', hran', hcase'⟩ := C138_server P' K' gm start s s' hsrv h1' h2' h'
  obtain ⟨o2, hr2, hd2, hgot, m, hm, hb, hhello⟩ := hran.ran
  rw [hc] at hr2
  have := Res.ok.inj hr2; subst this
  obtain ⟨o3, hr3, hd', hgot', m', hm', sb, hhello'⟩ := hran'.ran
  rw [hsr] at hr3
  have := Res.ok.inj hr3; subst this
  obtain ⟨q, hq⟩ := marshal_ch hhello
  obtain ⟨q', hq'⟩ := marshal_sh hhello'
  rw [hm, hgot'] at hto
  rw [hm', hgot] at hfrom
  rw [hq] at hto
  rw [hq'] at hfrom
  simp only [List.cons.injEq, Item.msg.injEq, Message.clientHello.injEq, Message.serverHello.injEq] at hto hfrom
  obtain ⟨t1, t2⟩ := hto
  obtain ⟨u1, u2⟩ := hfrom
  have hsel := same_choice (cm := ch) (sm := sh) hgm t1.symm hran'.choice (by rw [← u1]; rfl) (by rw [← u1]; rfl) (by rw [← u1]; rfl) (by rw [← u1]; rfl) hmax hran.choice
  obtain ⟨v1, v2, v3, v4⟩ := hsel
  obtain ⟨_, _, w1, w2, _⟩ := handshake_conn_any h1 h2 h hc hd
  obtain ⟨_, _, x1, x2, x3⟩ := handshake_conn_any h1' h2' h' hsr hd'
  obtain ⟨_, _, y1, _⟩ := clientProg_keys hc hd
  obtain ⟨_, _, y2, _, y3⟩ := serverProg_keys hsrv hsr hd'
  have w3 : c'.handshakeComplete = true := (handshake_conn_any h1 h2 h hc hd).2.2.2.2
  dsimp only at y2 y3
  have hSv : r.S.vers = cc.vers ∧ r.S.suite = cc.suite ∧ r.S.clientRandom = Z.hello.random ∧ r.S.serverRandom = sh.random := by
    rw [hS]; exact ⟨rfl, rfl, rfl, rfl⟩
  have hSs : r'.S.suite = k.suite ∧ r'.S.clientRandom = ch.random ∧ r'.S.serverRandom = k.random := by
    rcases hcase' with ⟨_, _, _, ⟨key, hk⟩, _⟩ | ⟨_, _, _, _, hk, _⟩ <;> rw [hk] <;> exact ⟨rfl, rfl, rfl⟩
  have hres : r.resumed.isSome = r'.resumed.isSome := by
    rcases hcase with ⟨hn, _, x, d, hfull, _⟩ | ⟨_, ses, q, _, hrd, hq, _, hrest, _⟩
    · rcases hcase' with ⟨_, hn', _⟩ | ⟨st, _, _, _, _, ⟨G⟩⟩
      · rw [hn, hn']; rfl
      · unfold clientFull at hfull
        obtain ⟨y, hy, _⟩ := Res.bind_eq_ok.1 hfull
        obtain ⟨F, _⟩ := clientFlight_inv hy
        rw [← u2] at F
        exact (flight_not_end F G.G).elim
    · rcases hcase' with ⟨_, hn', _, _, ⟨G⟩⟩ | ⟨st, _, hs', _⟩
      · obtain ⟨_, _, _, F, _⟩ := C123_client K.auth _ ses _ _ _ hq
        rw [hrest, ← u2] at F
        exact (flight_not_end G.W F).elim
      · rw [hrd, hs']; rfl
  have hproto : sh.nextProtoNeg = k.npn := by rw [← u1]; rfl
  have hall : oc.sent = os.got := by rw [hm, hq, hgot', ← t1, t2]
  have hall' : os.sent = oc.got := by rw [hm', hq', hgot, ← u1, u2]
  refine ⟨sh, cc, r, ch, k, r', items, items', hgot, hd, hran.choice, hgot', hd', ?_, ?_⟩
  · intro ren
    have hiN : r.resumed.isNone = r'.resumed.isNone := by
      cases ha : r.resumed <;> cases hb : r'.resumed <;> rw [ha, hb] at hres <;> simp at hres <;> rfl
    unfold ConnInfo.connectionState
    simp only [clientInfo, serverInfo, w3, x3, if_true]
    refine ⟨⟨rfl, rfl⟩, ?_, ?_, ?_, hres, ?_⟩
    · dsimp only; rw [w1, y1, x1, y2, hSv.1, v1]
    · dsimp only; rw [hSv.2.1, hSs.1, v2]
    · dsimp only; rw [hproto, hall, v4]
    · dsimp only; rw [hres, hiN, hall, hall']
  · intro hmas hno
    unfold ConnInfo.connectionState
    simp only [clientInfo, serverInfo, w3, x3, if_true, hno, Bool.false_eq_true, if_false]
    rw [hSv.1, hSv.2.1, hSv.2.2.1, hSv.2.2.2, hmas, y3, hSs.1, hSs.2.1, hSs.2.2, v1, v2, ← t1, ← u1]
    rfl

theorem clientFinishedData_length (E : AuthEnv) (gm : Bool) (v : Version) (s : Suite) (master t : Bytes) (hv : v ≠ vSSL30) :
    (Spec.clientFinishedData E gm v s master t).length = 12 := by
  have hp : ∀ w lab seed, (Spec.prf E.hashes w s 12 master lab seed).length = 12 := by
    intro w lab seed
    unfold Spec.prf
    repeat' split
    all_goals simp only [Std.xorB_length, P_length, Nat.min_self]
  unfold Spec.clientFinishedData
  split
  · unfold Spec.verifyData
    rw [if_neg (by decide)]; exact hp _ _ _
  · split
    · exact P_length _ _ _ _
    · unfold Spec.verifyData
      rw [if_neg hv]; exact hp _ _ _

theorem finishedOf_flight {items rest : List Item} (F : Spec.Flight items rest) (h : F.finished.verifyData.length = 12) : finishedOf items = F.finished.verifyData := by
  obtain ⟨cert, ckx, verify, npn, fin, order, _, _, _, _⟩ := F
  dsimp only at h ⊢
  unfold finishedOf
  rw [order]
  cases cert <;> cases verify <;> cases npn <;> simp [List.findSome?_cons, copyAt, h]

/-- **C145, channel binding.** After a completed full handshake of a standard client `TLSUnique` is the verify data of the client's Finished, which is the first Finished of the
handshake: 12 bytes computed with the master secret over all handshake messages before it (C74). -/
theorem C145_unique (P : Prims) (K : KaEnv) (hs : Hashes) (Z : ClientStart) (rk rs : Bytes) (c c' : Conn) (hg : Z.S.gm = false) (hprev : Z.S.previous = none)
    (hren : Z.S.renegotiation = c.ren) (hsub : ∀ a ∈ Z.hello.supportedSignatureAlgorithms, a ∈ supportedSignatureAlgorithms)
    (h1 : c.handshakeErr = none) (h2 : c.handshakeComplete = false)
    (h : c.handshake ((clientProg K Z rk rs).asHandshake P Z.S.gm) = .ok (none, c'))
    (o : HsOut ClientEnd) (hr : (clientProg K Z rk rs).run P Z.S.gm c = .ok o) :
    ∃ (r : ClientEnd) (sh : ServerHelloMsg) (ch : ClientChoice) (items sent : List Item),
      Spec.ClientRan P K Z rk rs c sh ch r.hellos items sent r ∧ o.result = .done r ∧
      (r.resumed ≠ none → (clientInfo hs Z sh ch o.sent o.got r c').connectionState.tlsUnique = []) ∧
      (r.resumed = none → ∃ (mid : List Item) (F : Spec.ServerFlight r.S.gm items mid) (G : Spec.Flight sent []),
        (clientInfo hs Z sh ch o.sent o.got r c').connectionState.tlsUnique =
          Spec.clientFinishedData K.auth false r.S.vers r.S.suite r.master (G.finishedPart (r.hellos ++ [F.bytes])) ∧
        (clientInfo hs Z sh ch o.sent o.got r c').connectionState.tlsUnique.length = 12) := by
  obtain ⟨r, sh, ch, items, sent, hran, hre, hS, hcase⟩ := C135_standard P K Z rk rs c c' hg hprev hren hsub h1 h2 h
  obtain ⟨o2, hr2, hd, hgot, m, hm, hb, hhello⟩ := hran.ran
  rw [hr] at hr2
  have := Res.ok.inj hr2; subst this
  have w3 := (handshake_conn_any h1 h2 h hr hd).2.2.2.2
  refine ⟨r, sh, ch, items, sent, hran, hd, ?_, ?_⟩
  · intro hn
    unfold ConnInfo.connectionState
    simp only [clientInfo, w3, if_true]
    rw [if_pos (by cases hx : r.resumed with | none => exact absurd hx hn | some _ => rfl)]
  · intro hn
    rcases hcase with ⟨_, mid, F, G, D, fb, _, _, _, e, _⟩ | ⟨_, s, _, hs', _⟩
    · have hv : r.S.vers ≠ vSSL30 := by
        have hv : r.S.vers = ch.vers := by rw [hS]; rfl
        rw [hv]
        intro hc
        unfold readServerHello at hre
        split at hre
        · cases hre
        · rename_i v hp
          unfold pickTLSVersion at hp
          repeat' split at hp
          · cases hp
          · cases hp
          · rename_i w _ hlt
            have := Except.ok.inj hp; subst this
            repeat' split at hre
            · cases hre
            · cases hre
            · have := Except.ok.inj hre
              rw [← this] at hc
              rw [show w = vSSL30 from hc] at hlt
              exact hlt (by decide)
      have hl : G.finished.verifyData.length = 12 := by rw [e]; exact clientFinishedData_length _ _ _ _ _ _ hv
      have hf : finishedOf o.sent = G.finished.verifyData := by
        rw [hm]
        obtain ⟨q, hq⟩ := marshal_ch hhello
        rw [hq, ← finishedOf_flight G hl]
        rfl
      have hu : (clientInfo hs Z sh ch o.sent o.got r c').connectionState.tlsUnique = G.finished.verifyData := by
        unfold ConnInfo.connectionState
        simp only [clientInfo, w3, if_true, hn, Option.isSome_none, Bool.false_eq_true, if_false, Option.isNone_none]
        exact hf
      exact ⟨mid, F, G, by rw [hu, e], by rw [hu, hl]⟩
    · rw [hn] at hs'; cases hs'

/-- tls/conn.go:1350-1362 `VerifyHostname` -/
def ConnInfo.verifyHostname (i : ConnInfo) (E : X509.Env) (isClient : Bool) (host : Bytes) : Res Unit :=
  if isClient = false then .err "tls: VerifyHostname called on TLS server connection"
  else if i.complete = false then .err "tls: handshake has not yet been performed"
  else if i.verifiedChains.length = 0 then .err "tls: handshake did not verify certificate chain"
  else match i.peerCertificates with
    | [] => .panic
    | leaf :: _ => match X509.verifyHostname E leaf host with
      | none => .ok ()
      | some _ => .err "x509: certificate is not valid for the host"

/-- **C145, host names.** `VerifyHostname` succeeds exactly on a client whose handshake is complete and has verified chains, for the names of the first certificate of the server (C49), and does
not panic if chains come with certificates. -/
theorem C145_hostname (i : ConnInfo) (E : X509.Env) (isClient : Bool) (host : Bytes) (h : i.verifiedChains ≠ [] → i.peerCertificates ≠ []) :
    i.verifyHostname E isClient host ≠ .panic ∧
    (i.verifyHostname E isClient host = .ok () ↔ isClient = true ∧ i.connectionState.handshakeComplete = true ∧ i.connectionState.verifiedChains ≠ [] ∧
      ∃ leaf rest, i.connectionState.peerCertificates = leaf :: rest ∧ X509.verifyHostname E leaf host = none) := by
  unfold ConnInfo.verifyHostname ConnInfo.connectionState
  cases isClient <;> cases hc : i.complete <;> cases hv : i.verifiedChains <;> simp
  cases hp : i.peerCertificates with
  | nil => exact absurd hp (h (by rw [hv]; simp))
  | cons a l =>
    cases hx : X509.verifyHostname E a host <;> simp [hx]

/-- **C145.** A client whose first handshake is complete reports at least one certificate, unless it resumed a session saved without any. So `VerifyHostname` does not panic. -/
theorem C145_certificates (P : Prims) (K : KaEnv) (hs : Hashes) (Z : ClientStart) (rk rs : Bytes) (c c' : Conn) (hg : Z.S.gm = true → Z.S.single = false) (hprev : Z.S.previous = none)
    (hren : Z.S.renegotiation = c.ren) (hsub : ∀ a ∈ Z.hello.supportedSignatureAlgorithms, a ∈ supportedSignatureAlgorithms)
    (hses : ∀ s, Z.session = some s → s.certs ≠ [])
    (h1 : c.handshakeErr = none) (h2 : c.handshakeComplete = false)
    (h : c.handshake ((clientProg K Z rk rs).asHandshake P Z.S.gm) = .ok (none, c')) (E : X509.Env) (host : Bytes) :
    ∃ (r : ClientEnd) (sh : ServerHelloMsg) (ch : ClientChoice) (items sent : List Item), Spec.ClientRan P K Z rk rs c sh ch r.hellos items sent r ∧
      ∀ sent got, (clientInfo hs Z sh ch sent got r c').peerCertificates ≠ [] ∧ (clientInfo hs Z sh ch sent got r c').verifyHostname E true host ≠ .panic := by
  have key : ∃ (r : ClientEnd) (sh : ServerHelloMsg) (ch : ClientChoice) (items sent : List Item), Spec.ClientRan P K Z rk rs c sh ch r.hellos items sent r ∧ r.certs ≠ [] := by
    cases hgm : Z.S.gm with
    | false =>
      obtain ⟨r, sh, ch, items, sent, hran, _, _, hcase⟩ := C135_standard P K Z rk rs c c' hgm hprev hren hsub h1 h2 h
      refine ⟨r, sh, ch, items, sent, hran, ?_⟩
      rcases hcase with ⟨_, mid, F, G, D, fb, _, hok, _⟩ | ⟨_, s, h3, _, hres⟩
      · exact hok.some
      · rw [hres.2.1]; exact hses s h3
    | true =>
      obtain ⟨r, sh, ch, items, sent, hran, _, _, hcase⟩ := C135_gm_partial P K Z rk rs c c' hgm (hg hgm) hprev hren h1 h2 h
      refine ⟨r, sh, ch, items, sent, hran, ?_⟩
      rcases hcase with ⟨_, mid, F, G, D, fb, sign, enc, pre, _, hok, _⟩ | ⟨_, s, h3, _, hres⟩
      · intro hn
        have := hok.two
        rw [hn] at this
        simp at this
      · rw [hres.2.1]; exact hses s h3
  obtain ⟨r, sh, ch, items, sent, hran, hne⟩ := key
  exact ⟨r, sh, ch, items, sent, hran, fun a b => ⟨hne, (C145_hostname _ E true host (fun _ => hne)).1⟩⟩

theorem parseAll_mem {f : Bytes → Option X509.Cert} {l : List Bytes} {certs : List X509.Cert} (h : parseAll f l = some certs) {x : X509.Cert} (hx : x ∈ certs) : ∃ b, f b = some x := by
  induction l generalizing certs with
  | nil => simp only [parseAll, Option.some.injEq] at h; subst h; cases hx
  | cons a l ih =>
    unfold parseAll at h
    cases ha : f a with
    | none => simp [ha] at h
    | some y =>
      cases hl : parseAll f l with
      | none => simp [ha, hl] at h
      | some ys =>
        simp only [ha, hl] at h
        have := Option.some.inj h; subst this
        rcases List.mem_cons.1 hx with rfl | hx
        · exact ⟨a, ha⟩
        · exact ih hl hx

/-- **C145, violated by the GM client with two certificates.** `VerifiedChains` should lead from the first of `PeerCertificates` to a root. The GM client overwrites the chains of the
signature certificate (and of the encryption certificate) with those of every later certificate: what it reports are the chains of the last one sent. -/
theorem C145_gm_chains_violated (P : Prims) (K : KaEnv) (hs : Hashes) (Z : ClientStart) (rk rs : Bytes) (c c' : Conn) (hg : Z.S.gm = true) (h1c : Z.S.single = false) (hprev : Z.S.previous = none)
    (hren : Z.S.renegotiation = c.ren) (hi : Z.S.insecureSkipVerify = false)
    (hroots : X509.Built (Z.S.rootCAs.getD (X509.poolOf [])) ∧ X509.KeysParsed (Z.S.rootCAs.getD (X509.poolOf [])))
    (hparse : ∀ b x, K.auth.parse b = some x → x.keyAlgUnknown = true → x.pub = .none) (h1 : c.handshakeErr = none) (h2 : c.handshakeComplete = false)
    (h : c.handshake ((clientProg K Z rk rs).asHandshake P Z.S.gm) = .ok (none, c')) :
    ∃ (r : ClientEnd) (sh : ServerHelloMsg) (ch : ClientChoice) (items sent : List Item), Spec.ClientRan P K Z rk rs c sh ch r.hellos items sent r ∧
      (r.resumed = none → ∀ sent got, let st := (clientInfo hs Z sh ch sent got r c')
        2 ≤ st.peerCertificates.length ∧ st.verifiedChains ≠ [] ∧ ∀ x ∈ st.verifiedChains, x.head? = st.peerCertificates.getLast?) := by
  obtain ⟨r, sh, ch, items, sent, hran, _, hS, hcase⟩ := C135_gm_partial P K Z rk rs c c' hg h1c hprev hren h1 h2 h
  refine ⟨r, sh, ch, items, sent, hran, ?_⟩
  intro hn sent' got'
  rcases hcase with ⟨_, mid, F, G, D, fb, sign, enc, pre, _, hok, _⟩ | ⟨_, s, _, hs', _⟩
  · have hlen := hok.two
    dsimp only [clientInfo]
    refine ⟨hlen, ?_⟩
    have e1 : r.S.insecureSkipVerify = Z.S.insecureSkipVerify ∧ r.S.rootCAs = Z.S.rootCAs := by rw [hS]; exact ⟨rfl, rfl⟩
    have hlt : r.certs.length - 1 < r.certs.length := by omega
    obtain ⟨chs, hver, hlast⟩ := hok.verified (e1.1.trans hi) (r.certs.length - 1) r.certs[r.certs.length - 1] (List.getElem?_eq_getElem hlt)
    have hch := hlast (by omega)
    have hkp : X509.KeysParsed (X509.poolOf ((r.certs.take (r.certs.length - 1)).drop 2)) := by
      intro x hx hbad
      have hx := (X509.C50_set _).1.subset hx
      have hx : x ∈ r.certs := List.mem_of_mem_take (List.mem_of_mem_drop hx)
      obtain ⟨b, hb⟩ := parseAll_mem hok.parsed hx
      exact hparse b x hb hbad
    obtain ⟨s1, _, s3⟩ := X509.C48_sound K.auth.x509 K.auth.entrust K.auth.system _ _ (r.S.rootCAs.getD (X509.poolOf [])) (by simp [X509.resolveRoots])
      (by rw [e1.2]; exact hroots) (by rintro q ⟨⟩; exact ⟨⟨_, rfl⟩, hkp⟩) (by simp) chs hver
    rw [hch]
    refine ⟨s1, fun x hx => ?_⟩
    rw [(s3 x hx).1.links.first, List.getLast?_eq_getElem?, List.getElem?_eq_getElem hlt]
  · rw [hn] at hs'; cases hs'

end Verif.Tls
