import Verif.Tls.ClientFull
/-!
C84-C86, C79 and the handshake part of C46: what a client that completes a full handshake knows about its server.
-/
namespace Verif.Tls
open Verif Verif.Tls.Wire

namespace Spec

/-- What a server sent in a full handshake after its ServerHello, in this order: Certificate; CertificateStatus, if it sent one;
ServerKeyExchange, if it sent one; CertificateRequest (`gm`: the GM form), if it sent one; ServerHelloDone. -/
structure ServerFlight (gm : Bool) (items rest : List Item) where
  cert : CertificateMsg × Bytes
  status : Option (CertificateStatusMsg × Bytes)
  skx : Option (ServerKeyExchangeMsg × Bytes)
  req : Option (Message × Bytes)
  order : items =
    [Item.msg (.certificate cert.1)] ++ (status.map fun x => Item.msg (.certificateStatus x.1)).toList ++
    (skx.map fun x => Item.msg (.serverKeyExchange x.1)).toList ++ (req.map fun x => Item.msg x.1).toList ++
    [Item.msg .serverHelloDone] ++ rest
  cert_bytes : Encodes (.certificate cert.1) cert.2
  status_bytes : ∀ x, status = some x → Encodes (.certificateStatus x.1) x.2
  skx_bytes : ∀ x, skx = some x → Encodes (.serverKeyExchange x.1) x.2
  req_bytes : ∀ x, req = some x → Encodes x.1 x.2
  req_kind : ∀ x, req = some x → if gm then ∃ r, x.1 = .certificateRequestGM r else ∃ r, x.1 = .certificateRequest r

/-- the handshake bytes of these messages; ServerHelloDone is `0e000000` -/
def ServerFlight.bytes {gm : Bool} {items rest : List Item} (F : ServerFlight gm items rest) : Bytes :=
  F.cert.2 ++ bytesOf F.status ++ bytesOf F.skx ++ bytesOf F.req ++ [14, 0, 0, 0]

/-- What the server sent after the client's Finished: NewSessionTicket, if it sent one; ChangeCipherSpec (`ccs`); Finished. -/
structure ServerEnd (items rest : List Item) where
  ticket : Option (NewSessionTicketMsg × Bytes)
  ccs : Bool
  finished : FinishedMsg
  order : items = (ticket.map fun x => Item.msg (.newSessionTicket x.1)).toList ++ (if ccs then [Item.ccs] else []) ++ [Item.msg (.finished finished)] ++ rest
  ticket_bytes : ∀ x, ticket = some x → Encodes (.newSessionTicket x.1) x.2

/-- the verify data of the server's Finished over the handshake messages `t` -/
def serverFinishedData (E : AuthEnv) (gm : Bool) (v : Version) (s : Suite) (master t : Bytes) : Bytes :=
  if gm then verifyData E.hashes vGMSSL s master false t
  else if v = vGMSSL then P sm3 master (str "server finished" ++ E.hashes.sha1.sum t) 12
  else verifyData E.hashes v s master false t

end Spec

/-! ### encodings -/

theorem marshal_cached {m m' : Message} {b : Bytes} (h : m.marshal = .ok (b, m')) : m'.marshal = .ok (b, m') := by
  cases m with
  | helloRequest => cases h; rfl
  | serverHelloDone => cases h; rfl
  | clientHello m =>
    obtain ⟨p, hp, e⟩ := map_ok_inv h
    unfold ClientHelloMsg.marshal at hp
    split at hp
    · rename_i r hr
      cases hp; cases e
      simp [Message.marshal, ClientHelloMsg.marshal, hr, Res.map]
    · split at hp
      · cases hp
      · cases hp; cases e
        simp [Message.marshal, ClientHelloMsg.marshal, Res.map]
  | serverHello m =>
    obtain ⟨p, hp, e⟩ := map_ok_inv h
    unfold ServerHelloMsg.marshal at hp
    split at hp
    · rename_i r hr
      cases hp; cases e
      simp [Message.marshal, ServerHelloMsg.marshal, hr, Res.map]
    · split at hp
      · cases hp
      · cases hp; cases e
        simp [Message.marshal, ServerHelloMsg.marshal, Res.map]
  | newSessionTicket m =>
    obtain ⟨p, hp, e⟩ := map_ok_inv h
    unfold NewSessionTicketMsg.marshal at hp
    split at hp
    · rename_i r hr
      cases hp; cases e
      simp [Message.marshal, NewSessionTicketMsg.marshal, hr, Res.map]
    · cases hp; cases e
      simp [Message.marshal, NewSessionTicketMsg.marshal, Res.map]
  | certificate m =>
    obtain ⟨p, hp, e⟩ := map_ok_inv h
    unfold CertificateMsg.marshal at hp
    split at hp
    · rename_i r hr
      cases hp; cases e
      simp [Message.marshal, CertificateMsg.marshal, hr, Res.map]
    · cases hp; cases e
      simp [Message.marshal, CertificateMsg.marshal, Res.map]
  | certificateRequest m =>
    obtain ⟨p, hp, e⟩ := map_ok_inv h
    unfold CertificateRequestMsg.marshal at hp
    split at hp
    · rename_i r hr
      cases hp; cases e
      simp [Message.marshal, CertificateRequestMsg.marshal, hr, Res.map]
    · cases hp; cases e
      simp [Message.marshal, CertificateRequestMsg.marshal, Res.map]
  | certificateRequestGM m =>
    obtain ⟨p, hp, e⟩ := map_ok_inv h
    unfold CertificateRequestMsgGM.marshal at hp
    split at hp
    · rename_i r hr
      cases hp; cases e
      simp [Message.marshal, CertificateRequestMsgGM.marshal, hr, Res.map]
    · cases hp; cases e
      simp [Message.marshal, CertificateRequestMsgGM.marshal, Res.map]
  | certificateStatus m =>
    obtain ⟨p, hp, e⟩ := map_ok_inv h
    unfold CertificateStatusMsg.marshal at hp
    split at hp
    · rename_i r hr
      cases hp; cases e
      simp [Message.marshal, CertificateStatusMsg.marshal, hr, Res.map]
    · cases hp; cases e
      simp [Message.marshal, CertificateStatusMsg.marshal, Res.map]
  | serverKeyExchange m =>
    obtain ⟨p, hp, e⟩ := map_ok_inv h
    unfold ServerKeyExchangeMsg.marshal at hp
    split at hp
    · rename_i r hr
      cases hp; cases e
      simp [Message.marshal, ServerKeyExchangeMsg.marshal, hr, Res.map]
    · cases hp; cases e
      simp [Message.marshal, ServerKeyExchangeMsg.marshal, Res.map]
  | clientKeyExchange m =>
    obtain ⟨p, hp, e⟩ := map_ok_inv h
    unfold ClientKeyExchangeMsg.marshal at hp
    split at hp
    · rename_i r hr
      cases hp; cases e
      simp [Message.marshal, ClientKeyExchangeMsg.marshal, hr, Res.map]
    · cases hp; cases e
      simp [Message.marshal, ClientKeyExchangeMsg.marshal, Res.map]
  | certificateVerify m =>
    obtain ⟨p, hp, e⟩ := map_ok_inv h
    unfold CertificateVerifyMsg.marshal at hp
    split at hp
    · rename_i r hr
      cases hp; cases e
      simp [Message.marshal, CertificateVerifyMsg.marshal, hr, Res.map]
    · cases hp; cases e
      simp [Message.marshal, CertificateVerifyMsg.marshal, Res.map]
  | nextProto m =>
    obtain ⟨p, hp, e⟩ := map_ok_inv h
    unfold NextProtoMsg.marshal at hp
    split at hp
    · rename_i r hr
      cases hp; cases e
      simp [Message.marshal, NextProtoMsg.marshal, hr, Res.map]
    · cases hp; cases e
      simp [Message.marshal, NextProtoMsg.marshal, Res.map]
  | finished m =>
    obtain ⟨p, hp, e⟩ := map_ok_inv h
    unfold FinishedMsg.marshal at hp
    split at hp
    · rename_i r hr
      cases hp; cases e
      simp [Message.marshal, FinishedMsg.marshal, hr, Res.map]
    · cases hp; cases e
      simp [Message.marshal, FinishedMsg.marshal, Res.map]

theorem emit_inv {fh fh' : FinishedHash} {m : Message} {i : Item} (h : emit fh m = .ok (fh', i)) :
    ∃ b m', m.marshal = .ok (b, m') ∧ i = .msg m' ∧ Spec.Encodes m' b ∧ fh' = fh.app b := by
  unfold emit at h
  obtain ⟨⟨b, m'⟩, hm, h⟩ := Res.bind_eq_ok.1 h
  obtain ⟨f, hf, h⟩ := Res.bind_eq_ok.1 h
  simp only [Res.ok.injEq, Prod.mk.injEq] at h
  exact ⟨b, m', hm, h.2.symm, ⟨m', marshal_cached hm⟩, h.1 ▸ write_app hf⟩

/-! ### the hash object -/

/-- a server handshake with the same hash object -/
def ClientHs.asServer (S : ClientHs) : ServerHs where
  auth := .noClientCert
  clientCAs := none
  now := 0
  verifyPeer := none
  gm := S.gm
  vers := S.vers
  suite := S.suite
  clientRandom := []
  serverRandom := []
  processCKX := fun b => .ok b
  keyLog := fun _ => true

theorem newHash_asServer (E : AuthEnv) (S : ClientHs) : S.newHash E = S.asServer.newHash E := rfl

/-- only the client's part of the object changes (and only for SSL 3.0) -/
theorem clientSum_server {h h' : FinishedHash} {master vd : Bytes} (e : h.clientSum master = .ok (vd, h')) :
    h' = { h with client := h'.client, clientMD5 := h'.clientMD5 } ∧ (h.version ≠ vSSL30 → h' = h) := by
  unfold FinishedHash.clientSum at e
  by_cases hv : h.version = vSSL30
  · rw [if_pos hv] at e
    split at e
    · simp only [Res.ok.injEq, Prod.mk.injEq] at e
      refine ⟨?_, fun hne => absurd hv hne⟩
      rw [← e.2]
    · cases e
  · rw [if_neg hv] at e
    obtain ⟨sm, _, e⟩ := Res.bind_eq_ok.1 e
    obtain ⟨o, _, e⟩ := Res.bind_eq_ok.1 e
    simp only [Res.ok.injEq, Prod.mk.injEq] at e
    rw [← e.2]
    exact ⟨rfl, fun _ => rfl⟩

theorem serverSum_only {h h' : FinishedHash} {m vd : Bytes} (hv : h.version = vSSL30)
    (hh : h' = { h with client := h'.client, clientMD5 := h'.clientMD5 }) (b : Bytes) {g : FinishedHash}
    (e : (h'.app b).serverSum m = .ok (vd, g)) : ∃ g', (h.app b).serverSum m = .ok (vd, g') := by
  have hv' : (h'.app b).version = vSSL30 := by rw [hh]; exact hv
  have hs : (h'.app b).server = (h.app b).server := by rw [hh]; rfl
  have hm : (h'.app b).serverMD5 = (h.app b).serverMD5 := by rw [hh]; rfl
  have hk : (h'.app b).hash = (h.app b).hash := by rw [hh]; rfl
  unfold FinishedHash.serverSum at e ⊢
  rw [if_pos hv', hs, hm, hk] at e
  rw [if_pos (show (h.app b).version = vSSL30 from hv)]
  cases hsm : (h.app b).serverMD5 with
  | none => rw [hsm] at e; cases e
  | some x =>
    rw [hsm] at e
    simp only [Res.ok.injEq, Prod.mk.injEq] at e ⊢
    exact ⟨_, e.1, rfl⟩

theorem serverSum_discard {h : FinishedHash} {master vd : Bytes} {h' : FinishedHash} (e : h.discardHandshakeBuffer.serverSum master = .ok (vd, h')) :
    ∃ g, h.serverSum master = .ok (vd, g) := by
  obtain ⟨a1, a2, a3, a4, a5, a6, a7, a8⟩ := h
  generalize hh : (⟨a1, a2, a3, a4, a5, a6, a7, a8⟩ : FinishedHash) = h
  have e' : (⟨a1, a2, a3, a4, a5, none, a7, a8⟩ : FinishedHash).serverSum master = .ok (vd, h') := e
  unfold FinishedHash.serverSum at e' ⊢
  subst hh
  clear e
  rename' e' => e
  dsimp only at e ⊢
  by_cases hv : a7 = vSSL30
  · rw [if_pos hv] at e ⊢
    cases a5 with
    | none => cases e
    | some m =>
      simp only [Res.ok.injEq, Prod.mk.injEq] at e
      exact ⟨_, by simp only [Res.ok.injEq, Prod.mk.injEq]; exact ⟨e.1, rfl⟩⟩
  · rw [if_neg hv] at e ⊢
    obtain ⟨sm, h1, e⟩ := Res.bind_eq_ok.1 e
    obtain ⟨out, h2, e⟩ := Res.bind_eq_ok.1 e
    simp only [Res.ok.injEq, Prod.mk.injEq] at e
    have h1' : (⟨a1, a2, a3, a4, a5, a6, a7, a8⟩ : FinishedHash).sum = .ok sm := h1
    rw [h1', Res.ok_bind, h2, Res.ok_bind, e.1]
    exact ⟨_, rfl⟩

theorem server_finished_spec {E : AuthEnv} {S : ServerHs} {h0 h' : FinishedHash} (h : S.newHash E = .ok h0) (t master vd : Bytes)
    (hd : (h0.app t).serverSum master = .ok (vd, h')) : vd = Spec.serverFinishedData E S.gm S.vers S.suite master t := by
  unfold Spec.serverFinishedData
  rcases newHash_cases h with ⟨hg, rfl⟩ | ⟨hg, hv, rfl⟩ | ⟨hg, hne, hv, hf⟩
  · rw [hg, if_pos rfl]
    have H := fresh_app (hs := E.hashes) (v := vGMSSL) (su := S.suite) (.inr (.inr (.inr (.inr rfl)))) (by rw [freshHash, if_pos rfl]) t
    obtain ⟨g, _, _, e, _⟩ := serverSum_holds H (.inr (.inr (.inr (.inr rfl)))) (fun _ => ⟨rfl, rfl⟩) master
    rw [hd] at e
    simp only [Res.ok.injEq, Prod.mk.injEq] at e
    exact e.1
  · rw [hg, if_neg (by simp), if_pos hv]
    unfold FinishedHash.serverSum FinishedHash.sum at hd
    simp only [FinishedHash.app, stdHash0101] at hd
    rw [if_neg (by decide), if_pos (Or.inr trivial), Res.ok_bind, Res.ok_bind] at hd
    simp only [Res.ok.injEq, Prod.mk.injEq] at hd
    rw [← hd.1, show str "server finished" = serverFinishedLabel by decide +kernel]
    simp [prf12, pHash_eq, zeros]
  · rw [hg, if_neg (by simp), if_neg hne]
    obtain ⟨g, _, _, e, _⟩ := serverSum_holds (fresh_app hv hf t) hv (fun _ => ⟨rfl, rfl⟩) master
    rw [hd] at e
    simp only [Res.ok.injEq, Prod.mk.injEq] at e
    exact e.1

/-- after the client's own Finished: the server's is over the same bytes -/
theorem server_after_client {h h' g : FinishedHash} {master vd b vd' : Bytes} (e : h.clientSum master = .ok (vd, h'))
    (e' : (h'.app b).serverSum master = .ok (vd', g)) : ∃ g', (h.app b).serverSum master = .ok (vd', g') := by
  obtain ⟨a, b'⟩ := clientSum_server e
  by_cases hv : h.version = vSSL30
  · exact serverSum_only hv a b e'
  · rw [b' hv] at e'
    exact ⟨g, e'⟩

/-! ### reading the server's messages -/

theorem serverCertPhase_inv {E : AuthEnv} {S : ClientHs} {fh fh' : FinishedHash} {items items' : List Item} {p : List X509.Cert × List (List X509.Cert)}
    (h : serverCertPhase E S fh items = .ok (p, fh', items')) :
    ∃ cm b, items = .msg (.certificate cm) :: items' ∧ Spec.Encodes (.certificate cm) b ∧ fh' = fh.app b ∧ cm.certificates ≠ [] ∧
      (S.dual = true → 2 ≤ cm.certificates.length) ∧
      serverIdentity E S cm.certificates = .ok p := by
  unfold serverCertPhase at h
  obtain ⟨⟨m, it⟩, hm, h⟩ := Res.bind_eq_ok.1 h
  have hi := readMsg_inv hm
  cases m with
  | certificate cm =>
    dsimp only at h
    split at h
    · cases h
    rename_i h0
    split at h
    · cases h
    rename_i h2
    obtain ⟨⟨b, c'⟩, hb, h⟩ := Res.bind_eq_ok.1 h
    obtain ⟨f, hf, h⟩ := Res.bind_eq_ok.1 h
    obtain ⟨q, hq, h⟩ := Res.bind_eq_ok.1 h
    simp only [Res.ok.injEq, Prod.mk.injEq] at h
    obtain ⟨rfl, rfl, rfl⟩ := h
    refine ⟨cm, b, hi, ⟨.certificate c', by simp [Message.marshal, hb, Res.map]⟩, write_app hf, ?_, ?_, hq⟩
    · intro he; rw [he] at h0; exact h0 rfl
    · intro hg
      by_contra hlt
      exact h2 ⟨hg, by omega⟩
  | _ => cases h

theorem statusPhase_inv {S : ClientHs} {fh fh' : FinishedHash} {items items' : List Item} (h : statusPhase S fh items = .ok (fh', items')) :
    ∃ st : Option (CertificateStatusMsg × Bytes), items = (st.map fun x => Item.msg (.certificateStatus x.1)).toList ++ items' ∧
      (∀ x, st = some x → Spec.Encodes (.certificateStatus x.1) x.2) ∧ fh' = fh.app (Spec.bytesOf st) ∧
      (st ≠ none → S.gm = false ∧ S.ocsp = true) := by
  unfold statusPhase at h
  split at h
  · rename_i cs rest
    by_cases hg : S.gm = true
    · rw [if_pos hg] at h
      simp only [Res.ok.injEq, Prod.mk.injEq] at h
      obtain ⟨rfl, rfl⟩ := h
      exact ⟨none, by simp, by simp, by simp [Spec.bytesOf, app_nil], by simp⟩
    · rw [if_neg hg] at h
      split at h
      · cases h
      rename_i ho
      obtain ⟨⟨b, c'⟩, hb, h⟩ := Res.bind_eq_ok.1 h
      obtain ⟨f, hf, h⟩ := Res.bind_eq_ok.1 h
      simp only [Res.ok.injEq, Prod.mk.injEq] at h
      obtain ⟨rfl, rfl⟩ := h
      refine ⟨some (cs, b), by simp, ?_, by simpa [Spec.bytesOf] using write_app hf, fun _ => ⟨by simpa using hg, by simpa using ho⟩⟩
      rintro x ⟨⟩
      exact ⟨.certificateStatus c', by simp [Message.marshal, hb, Res.map]⟩
  · simp only [Res.ok.injEq, Prod.mk.injEq] at h
    obtain ⟨rfl, rfl⟩ := h
    exact ⟨none, by simp, by simp, by simp [Spec.bytesOf, app_nil], by simp⟩

theorem skxPhase_inv {K : KaEnv} {S : ClientHs} {leaf enc : X509.Cert} {fh fh' : FinishedHash} {items items' : List Item} {st : Option EcdheClient}
    (h : skxPhase K S leaf enc fh items = .ok (st, fh', items')) :
    ∃ skx : Option (ServerKeyExchangeMsg × Bytes), items = (skx.map fun x => Item.msg (.serverKeyExchange x.1)).toList ++ items' ∧
      (∀ x, skx = some x → Spec.Encodes (.serverKeyExchange x.1) x.2) ∧ fh' = fh.app (Spec.bytesOf skx) ∧
      (skx = none → st = none) ∧ (∀ x, skx = some x → clientProcessSKX K S leaf enc x.1.key = .ok st) := by
  unfold skxPhase at h
  split at h
  · rename_i skx rest
    obtain ⟨⟨b, c'⟩, hb, h⟩ := Res.bind_eq_ok.1 h
    obtain ⟨f, hf, h⟩ := Res.bind_eq_ok.1 h
    obtain ⟨s', hs, h⟩ := Res.bind_eq_ok.1 h
    simp only [Res.ok.injEq, Prod.mk.injEq] at h
    obtain ⟨rfl, rfl, rfl⟩ := h
    refine ⟨some (skx, b), by simp, ?_, by simpa [Spec.bytesOf] using write_app hf, by simp, ?_⟩
    · rintro x ⟨⟩
      exact ⟨.serverKeyExchange c', by simp [Message.marshal, hb, Res.map]⟩
    · rintro x ⟨⟩
      exact hs
  · simp only [Res.ok.injEq, Prod.mk.injEq] at h
    obtain ⟨rfl, rfl, rfl⟩ := h
    exact ⟨none, by simp, by simp, by simp [Spec.bytesOf, app_nil], fun _ => rfl, by simp⟩

/-- how the answer to a request was found -/
def Answers (E : AuthEnv) (S : ClientHs) (m : Message) (rq : Requested) : Prop :=
  (S.gm = false ∧ ∃ r, m = .certificateRequest r ∧ stdGetCertificate E S r = .ok rq.cert ∧ rq.algs = r.supportedSignatureAlgorithms) ∨
  (S.gm = true ∧ ∃ r, m = .certificateRequestGM r ∧ gmGetCertificate E S r = .ok rq.cert)

theorem reqPhase_inv {E : AuthEnv} {S : ClientHs} {fh fh' : FinishedHash} {items items' : List Item} {rq : Option Requested}
    (h : reqPhase E S fh items = .ok (rq, fh', items')) :
    ∃ req : Option (Message × Bytes), items = (req.map fun x => Item.msg x.1).toList ++ items' ∧
      (∀ x, req = some x → Spec.Encodes x.1 x.2) ∧ fh' = fh.app (Spec.bytesOf req) ∧
      (∀ x, req = some x → if S.gm then ∃ r, x.1 = .certificateRequestGM r else ∃ r, x.1 = .certificateRequest r) ∧
      (req = none → rq = none) ∧ (∀ x, req = some x → ∃ q, rq = some q ∧ Answers E S x.1 q) := by
  have none_case : ∀ {items items' : List Item} {fh fh' : FinishedHash} {rq : Option Requested},
      (Res.ok (none, fh, items) : Res (Option Requested × FinishedHash × List Item)) = .ok (rq, fh', items') →
      ∃ req : Option (Message × Bytes), items = (req.map fun x => Item.msg x.1).toList ++ items' ∧
      (∀ x, req = some x → Spec.Encodes x.1 x.2) ∧ fh' = fh.app (Spec.bytesOf req) ∧
      (∀ x, req = some x → if S.gm then ∃ r, x.1 = .certificateRequestGM r else ∃ r, x.1 = .certificateRequest r) ∧
      (req = none → rq = none) ∧ (∀ x, req = some x → ∃ q, rq = some q ∧ Answers E S x.1 q) := by
    intro items items' fh fh' rq h
    simp only [Res.ok.injEq, Prod.mk.injEq] at h
    obtain ⟨rfl, rfl, rfl⟩ := h
    exact ⟨none, by simp, by simp, by simp [Spec.bytesOf, app_nil], by simp, fun _ => rfl, by simp⟩
  unfold reqPhase at h
  split at h
  · rename_i r rest
    by_cases hg : S.gm = true
    · rw [if_pos hg] at h
      exact none_case h
    · rw [if_neg hg] at h
      obtain ⟨⟨b, c'⟩, hb, h⟩ := Res.bind_eq_ok.1 h
      obtain ⟨f, hf, h⟩ := Res.bind_eq_ok.1 h
      obtain ⟨c, hc, h⟩ := Res.bind_eq_ok.1 h
      simp only [Res.ok.injEq, Prod.mk.injEq] at h
      obtain ⟨rfl, rfl, rfl⟩ := h
      refine ⟨some (.certificateRequest r, b), by simp, ?_, by simpa [Spec.bytesOf] using write_app hf, ?_, by simp, ?_⟩
      · rintro x ⟨⟩
        exact ⟨.certificateRequest c', by simp [Message.marshal, hb, Res.map]⟩
      · rintro x ⟨⟩
        rw [if_neg hg]; exact ⟨r, rfl⟩
      · rintro x ⟨⟩
        exact ⟨_, rfl, .inl ⟨by simpa using hg, r, rfl, hc, rfl⟩⟩
  · rename_i r rest
    by_cases hg : S.gm = false
    · rw [if_pos hg] at h
      exact none_case h
    · rw [if_neg hg] at h
      have hg' : S.gm = true := by simpa using hg
      obtain ⟨⟨b, c'⟩, hb, h⟩ := Res.bind_eq_ok.1 h
      obtain ⟨f, hf, h⟩ := Res.bind_eq_ok.1 h
      obtain ⟨c, hc, h⟩ := Res.bind_eq_ok.1 h
      simp only [Res.ok.injEq, Prod.mk.injEq] at h
      obtain ⟨rfl, rfl, rfl⟩ := h
      refine ⟨some (.certificateRequestGM r, b), by simp, ?_, by simpa [Spec.bytesOf] using write_app hf, ?_, by simp, ?_⟩
      · rintro x ⟨⟩
        exact ⟨.certificateRequestGM c', by simp [Message.marshal, hb, Res.map]⟩
      · rintro x ⟨⟩
        rw [if_pos hg']; exact ⟨r, rfl⟩
      · rintro x ⟨⟩
        exact ⟨_, rfl, .inr ⟨hg', r, rfl, hc⟩⟩
  · exact none_case h

theorem donePhase_inv {fh fh' : FinishedHash} {items items' : List Item} (h : donePhase fh items = .ok (fh', items')) :
    items = .msg .serverHelloDone :: items' ∧ fh' = fh.app [14, 0, 0, 0] := by
  unfold donePhase at h
  obtain ⟨⟨m, it⟩, hm, h⟩ := Res.bind_eq_ok.1 h
  have hi := readMsg_inv hm
  cases m with
  | serverHelloDone =>
    dsimp only at h
    obtain ⟨f, hf, h⟩ := Res.bind_eq_ok.1 h
    simp only [Res.ok.injEq, Prod.mk.injEq] at h
    obtain ⟨rfl, rfl⟩ := h
    exact ⟨hi, write_app hf⟩
  | _ => cases h

/-! ### the client's messages -/

theorem emit_certificate {fh fh' : FinishedHash} {m : CertificateMsg} {i : Item} (h : emit fh (.certificate m) = .ok (fh', i)) :
    ∃ m' b, i = .msg (.certificate m') ∧ m'.certificates = m.certificates ∧ Spec.Encodes (.certificate m') b ∧ fh' = fh.app b := by
  obtain ⟨b, m', hm, hi, he, hf⟩ := emit_inv h
  obtain ⟨p, hp, e⟩ := map_ok_inv hm
  cases e
  refine ⟨p.2, p.1, hi, ?_, he, hf⟩
  unfold CertificateMsg.marshal at hp
  split at hp <;> cases hp <;> rfl

theorem emit_ckx {fh fh' : FinishedHash} {m : ClientKeyExchangeMsg} {i : Item} (h : emit fh (.clientKeyExchange m) = .ok (fh', i)) :
    ∃ m' b, i = .msg (.clientKeyExchange m') ∧ m'.ciphertext = m.ciphertext ∧ Spec.Encodes (.clientKeyExchange m') b ∧ fh' = fh.app b := by
  obtain ⟨b, m', hm, hi, he, hf⟩ := emit_inv h
  obtain ⟨p, hp, e⟩ := map_ok_inv hm
  cases e
  refine ⟨p.2, p.1, hi, ?_, he, hf⟩
  unfold ClientKeyExchangeMsg.marshal at hp
  split at hp <;> cases hp <;> rfl

theorem emit_certVerify {fh fh' : FinishedHash} {m : CertificateVerifyMsg} {i : Item} (h : emit fh (.certificateVerify m) = .ok (fh', i)) :
    ∃ m' b, i = .msg (.certificateVerify m') ∧ m'.signatureAlgorithm = m.signatureAlgorithm ∧ m'.signature = m.signature ∧
      Spec.Encodes (.certificateVerify m') b ∧ fh' = fh.app b := by
  obtain ⟨b, m', hm, hi, he, hf⟩ := emit_inv h
  obtain ⟨p, hp, e⟩ := map_ok_inv hm
  cases e
  refine ⟨p.2, p.1, hi, ?_, ?_, he, hf⟩ <;>
  · unfold CertificateVerifyMsg.marshal at hp
    split at hp <;> cases hp <;> rfl

theorem emit_nextProto {fh fh' : FinishedHash} {m : NextProtoMsg} {i : Item} (h : emit fh (.nextProto m) = .ok (fh', i)) :
    ∃ m' b, i = .msg (.nextProto m') ∧ m'.proto = m.proto ∧ Spec.Encodes (.nextProto m') b ∧ fh' = fh.app b := by
  obtain ⟨b, m', hm, hi, he, hf⟩ := emit_inv h
  obtain ⟨p, hp, e⟩ := map_ok_inv hm
  cases e
  refine ⟨p.2, p.1, hi, ?_, he, hf⟩
  unfold NextProtoMsg.marshal at hp
  split at hp <;> cases hp <;> rfl

theorem emit_finished {fh fh' : FinishedHash} {m : FinishedMsg} {i : Item} (h : emit fh (.finished m) = .ok (fh', i)) :
    ∃ m' b, i = .msg (.finished m') ∧ m'.verifyData = m.verifyData ∧ Spec.Encodes (.finished m') b ∧ fh' = fh.app b := by
  obtain ⟨b, m', hm, hi, he, hf⟩ := emit_inv h
  obtain ⟨p, hp, e⟩ := map_ok_inv hm
  cases e
  refine ⟨p.2, p.1, hi, ?_, he, hf⟩
  unfold FinishedMsg.marshal at hp
  split at hp <;> cases hp <;> rfl

theorem sendCert_inv {req : Option Requested} {fh fh' : FinishedHash} {sent : List Item} (h : sendCert req fh = .ok (fh', sent)) :
    ∃ cert : Option (CertificateMsg × Bytes), sent = (cert.map fun x => Item.msg (.certificate x.1)).toList ∧
      (∀ x, cert = some x → Spec.Encodes (.certificate x.1) x.2) ∧ fh' = fh.app (Spec.bytesOf cert) ∧ (cert = none ↔ req = none) ∧
      (∀ q, req = some q → ∃ c, q.cert = some c ∧ Spec.sentCerts cert = c.chain) := by
  unfold sendCert at h
  split at h
  · simp only [Res.ok.injEq, Prod.mk.injEq] at h
    obtain ⟨rfl, rfl⟩ := h
    exact ⟨none, by simp, by simp, by simp [Spec.bytesOf, app_nil], by simp, by simp⟩
  · cases h
  · rename_i c algs
    obtain ⟨⟨f, i⟩, he, h⟩ := Res.bind_eq_ok.1 h
    simp only [Res.ok.injEq, Prod.mk.injEq] at h
    obtain ⟨rfl, rfl⟩ := h
    obtain ⟨m', b, hi, hc, hb, hf⟩ := emit_certificate he
    refine ⟨some (m', b), by simp [hi], ?_, by simpa [Spec.bytesOf] using hf, by simp, ?_⟩
    · rintro x ⟨⟩; exact hb
    · rintro q ⟨⟩
      exact ⟨c, rfl, by simp [Spec.sentCerts, hc]⟩

theorem sendCertVerify_inv {E : AuthEnv} {S : ClientHs} {req : Option Requested} {rand : Bytes} {fh fh' : FinishedHash} {sent : List Item}
    (h : sendCertVerify E S req rand fh = .ok (fh', sent)) :
    ∃ cv : Option (CertificateVerifyMsg × Bytes), sent = (cv.map fun x => Item.msg (.certificateVerify x.1)).toList ∧
      (∀ x, cv = some x → Spec.Encodes (.certificateVerify x.1) x.2) ∧ fh' = fh.app (Spec.bytesOf cv) ∧
      (cv ≠ none ↔ ∃ q c, req = some q ∧ q.cert = some c ∧ c.chain ≠ []) ∧
      (∀ x, cv = some x → ∃ q c key w, req = some q ∧ q.cert = some c ∧ c.key = some key ∧
        makeCertVerify E S key q.algs rand fh = .ok w ∧
        x.1.signatureAlgorithm = w.signatureAlgorithm ∧ x.1.signature = w.signature) := by
  unfold sendCertVerify at h
  split at h
  · rename_i c algs
    split at h
    · rename_i hc
      have hne : c.chain ≠ [] := fun he => by rw [he] at hc; simp at hc
      split at h
      · cases h
      rename_i key hk
      obtain ⟨w, hw, h⟩ := Res.bind_eq_ok.1 h
      obtain ⟨⟨f, i⟩, he, h⟩ := Res.bind_eq_ok.1 h
      simp only [Res.ok.injEq, Prod.mk.injEq] at h
      obtain ⟨rfl, rfl⟩ := h
      obtain ⟨m', b, hi, ha, hs, hb, hf⟩ := emit_certVerify he
      refine ⟨some (m', b), by simp [hi], ?_, by simpa [Spec.bytesOf] using hf, ?_, ?_⟩
      · rintro x ⟨⟩; exact hb
      · simp only [ne_eq, reduceCtorEq, not_false_eq_true, true_iff]
        exact ⟨_, c, rfl, rfl, hne⟩
      · rintro x ⟨⟩
        exact ⟨_, c, key, w, rfl, rfl, hk, hw, ha, hs⟩
    · rename_i hc
      simp only [Res.ok.injEq, Prod.mk.injEq] at h
      obtain ⟨rfl, rfl⟩ := h
      refine ⟨none, by simp, by simp, by simp [Spec.bytesOf, app_nil], ?_, by simp⟩
      simp only [ne_eq, not_true_eq_false, false_iff]
      rintro ⟨q, c', hq, hc', hne⟩
      cases hq; cases hc'
      exact hne (List.length_eq_zero_iff.1 (by omega))
  · rename_i hno
    simp only [Res.ok.injEq, Prod.mk.injEq] at h
    obtain ⟨rfl, rfl⟩ := h
    refine ⟨none, by simp, by simp, by simp [Spec.bytesOf, app_nil], ?_, by simp⟩
    simp only [ne_eq, not_true_eq_false, false_iff]
    rintro ⟨⟨qc, qa⟩, c', hq, hc', hne⟩
    dsimp only at hc'
    subst hc'
    exact hno c' qa hq

theorem clientSendFinished_inv {S : ClientHs} {master : Bytes} {fh fh' : FinishedHash} {sent : List Item}
    (h : clientSendFinished S master fh = .ok (fh', sent)) :
    ∃ (np : Option (NextProtoMsg × Bytes)) (fin : FinishedMsg) (fb : Bytes) (f2 : FinishedHash),
      sent = [Item.ccs] ++ (np.map fun x => Item.msg (.nextProto x.1)).toList ++ [Item.msg (.finished fin)] ∧
      (∀ x, np = some x → Spec.Encodes (.nextProto x.1) x.2) ∧ (np.map fun x => x.1.proto) = S.nextProto ∧
      Spec.Encodes (.finished fin) fb ∧ (fh.app (Spec.bytesOf np)).clientSum master = .ok (fin.verifyData, f2) ∧ fh' = f2.app fb := by
  unfold clientSendFinished at h
  obtain ⟨⟨f1, n⟩, hn, h⟩ := Res.bind_eq_ok.1 h
  dsimp only at h
  obtain ⟨⟨vd, f2⟩, hv, h⟩ := Res.bind_eq_ok.1 h
  dsimp only at h
  obtain ⟨⟨f3, i⟩, he, h⟩ := Res.bind_eq_ok.1 h
  simp only [Res.ok.injEq, Prod.mk.injEq] at h
  obtain ⟨rfl, rfl⟩ := h
  obtain ⟨m', b, hi, hvd, hb, hf⟩ := emit_finished he
  unfold sendNextProto at hn
  split at hn
  · rename_i hnp
    simp only [Res.ok.injEq, Prod.mk.injEq] at hn
    obtain ⟨rfl, rfl⟩ := hn
    refine ⟨none, m', b, f2, by simp [hi], by simp, by simp [hnp], hb, ?_, hf⟩
    rw [Spec.bytesOf, app_nil, hv, hvd]
  · rename_i pr hnp
    obtain ⟨⟨f, i'⟩, he', hn⟩ := Res.bind_eq_ok.1 hn
    simp only [Res.ok.injEq, Prod.mk.injEq] at hn
    obtain ⟨rfl, rfl⟩ := hn
    obtain ⟨n', nb, hi', hp', hb', hf'⟩ := emit_nextProto he'
    refine ⟨some (n', nb), m', b, f2, by simp [hi, hi'], ?_, by simp [hnp, hp'], hb, ?_, hf⟩
    · rintro x ⟨⟩; exact hb'
    · rw [Spec.bytesOf, ← hf', hv, hvd]

theorem ticketPhase_inv {S : ClientHs} {fh fh' : FinishedHash} {items items' : List Item} {t : Option Bytes}
    (h : ticketPhase S fh items = .ok (t, fh', items')) :
    ∃ tk : Option (NewSessionTicketMsg × Bytes), items = (tk.map fun x => Item.msg (.newSessionTicket x.1)).toList ++ items' ∧
      (∀ x, tk = some x → Spec.Encodes (.newSessionTicket x.1) x.2) ∧ fh' = fh.app (Spec.bytesOf tk) ∧
      (tk.isSome = S.ticket) ∧ (tk.map fun x => x.1.ticket) = t := by
  unfold ticketPhase at h
  split at h
  · rename_i ht
    obtain ⟨⟨m, it⟩, hm, h⟩ := Res.bind_eq_ok.1 h
    have hi := readMsg_inv hm
    cases m with
    | newSessionTicket tk =>
      dsimp only at h
      obtain ⟨⟨b, c'⟩, hb, h⟩ := Res.bind_eq_ok.1 h
      obtain ⟨f, hf, h⟩ := Res.bind_eq_ok.1 h
      simp only [Res.ok.injEq, Prod.mk.injEq] at h
      obtain ⟨rfl, rfl, rfl⟩ := h
      refine ⟨some (tk, b), by simp [hi], ?_, by simpa [Spec.bytesOf] using write_app hf, by simp [ht], rfl⟩
      rintro x ⟨⟩
      exact ⟨.newSessionTicket c', by simp [Message.marshal, hb, Res.map]⟩
    | _ => cases h
  · rename_i ht
    simp only [Res.ok.injEq, Prod.mk.injEq] at h
    obtain ⟨rfl, rfl, rfl⟩ := h
    exact ⟨none, by simp, by simp, by simp [Spec.bytesOf, app_nil], by simpa using ht, rfl⟩

theorem clientReadCCS_inv {S : ClientHs} {items items' : List Item} {sw : Bool} (h : clientReadCCS S items = .ok (sw, items')) :
    items = (if sw then [Item.ccs] else []) ++ items' ∧ (S.renegotiation = false → sw = true) := by
  cases items with
  | nil => cases h
  | cons x r =>
    cases x with
    | ccs =>
      simp only [clientReadCCS, Res.ok.injEq, Prod.mk.injEq] at h
      obtain ⟨rfl, rfl⟩ := h
      simp
    | msg m =>
      simp only [clientReadCCS] at h
      split at h
      · rename_i hr
        simp only [Res.ok.injEq, Prod.mk.injEq] at h
        obtain ⟨rfl, rfl⟩ := h
        simp [hr]
      · cases h

theorem clientFinish_inv {S : ClientHs} {c : ClientSent} {items : List Item} {d : ClientDone} (h : clientFinish S c items = .ok d) :
    ∃ (G : Spec.ServerEnd items d.rest) (f : FinishedHash), G.ccs = d.switched ∧ (S.renegotiation = false → d.switched = true) ∧
      G.ticket.isSome = S.ticket ∧ (G.ticket.map fun x => x.1.ticket) = d.ticket ∧
      (c.fh.app (Spec.bytesOf G.ticket)).serverSum c.master = .ok (G.finished.verifyData, f) := by
  unfold clientFinish at h
  obtain ⟨⟨t, f1, it1⟩, ht, h⟩ := Res.bind_eq_ok.1 h
  dsimp only at h
  obtain ⟨⟨sw, it2⟩, hc, h⟩ := Res.bind_eq_ok.1 h
  dsimp only at h
  obtain ⟨⟨m, it3⟩, hm, h⟩ := Res.bind_eq_ok.1 h
  have hi3 := readMsg_inv hm
  obtain ⟨tk, hi1, htb, hf1, hti, htt⟩ := ticketPhase_inv ht
  obtain ⟨hi2, hsw⟩ := clientReadCCS_inv hc
  cases m with
  | finished fin =>
    dsimp only at h
    obtain ⟨⟨verify, f2⟩, hv, h⟩ := Res.bind_eq_ok.1 h
    dsimp only at h
    split at h
    · cases h
    rename_i hne
    push Not at hne
    obtain ⟨⟨b, c'⟩, hb, h⟩ := Res.bind_eq_ok.1 h
    obtain ⟨f3, hf3, h⟩ := Res.bind_eq_ok.1 h
    simp only [Res.ok.injEq] at h
    subst h
    refine ⟨⟨tk, sw, fin, by rw [hi1, hi2, hi3]; simp, htb⟩, f2, rfl, hsw, hti, htt, ?_⟩
    dsimp only
    rw [← hf1, hv, hne.2]
  | _ => cases h

end Verif.Tls
