import Verif.Tls.SrvRun
/-!
A chain of resumptions: a full handshake of a server issues a ticket, a resumption by that ticket issues another, and so on, on any servers that share their ticket keys: `C148`.
-/
namespace Verif.Tls
open Verif Verif.Tls.Wire

/-- one connection of a server, about to run `serverHandshake` (tls/handshake_server.go:39-112) or `serverHandshakeGM` (tls/gm_handshake_server_double.go:38-111): the kind of
server, what it makes of a ClientHello (its configuration, ticket keys and randomness), the connection with whatever it will deliver -/
structure Serve (K : KaEnv) where
  gm : Bool
  start : ClientHelloMsg → Option (ServerStart K.auth.x509.curve)
  c : Conn

namespace Spec

/-- no more than 2^16 certificates shorter than 2^32 bytes in any Certificate message: a handshake message has at most 65536 bytes (tls/conn.go:963-966) -/
def CertsFit (items : List Item) : Prop :=
  ∀ cm : CertificateMsg, .msg (.certificate cm) ∈ items → cm.certificates.length < 2 ^ 16 ∧ ∀ x ∈ cm.certificates, x.length < 2 ^ 32

/-- on the connection `A`, new and of a server, `Handshake` returned nil; the server read the ClientHello `ch`, sent `sent`, and ended with the choice `k` and the state `r` -/
structure Served (P : Prims) (K : KaEnv) (A : Serve K) (ch : ClientHelloMsg) (sent : List Item) (k : ServerChoice) (r : ServerRes) : Prop where
  server : A.c.isClient = false
  fresh : A.c.handshakeErr = none ∧ A.c.handshakeComplete = false
  returned : ∃ c', A.c.handshake ((serverProg K A.gm A.start).asHandshake P A.gm) = .ok (none, c')
  ran : ∃ o : HsOut (ServerChoice × ServerRes), (serverProg K A.gm A.start).run P A.gm A.c = .ok o ∧ o.result = .done (k, r) ∧ o.sent = sent ∧
    ∃ items, o.got = .msg (.clientHello ch) :: items ∧ CertsFit items

/-- `t` is a ticket that the full handshake which ended in `r0` sent, or one that was sent in a resumption by such a ticket. All the servers are in `fleet`. -/
inductive Descends (P : Prims) (K : KaEnv) (fleet : Serve K → Prop) (r0 : ServerRes) : Bytes → Prop where
  | issued {A : Serve K} {ch : ClientHelloMsg} {sent : List Item} {k : ServerChoice} (hA : fleet A) (h : Served P K A ch sent k r0) (hf : r0.resumed = none)
      (m : NewSessionTicketMsg) (hm : .msg (.newSessionTicket m) ∈ sent) : Descends P K fleet r0 m.ticket
  | renewed {A : Serve K} {ch : ClientHelloMsg} {sent : List Item} {k : ServerChoice} {r : ServerRes} (hA : fleet A) (h : Served P K A ch sent k r) (hf : r.resumed ≠ none)
      (ht : Descends P K fleet r0 ch.sessionTicket) (m : NewSessionTicketMsg) (hm : .msg (.newSessionTicket m) ∈ sent) : Descends P K fleet r0 m.ticket

/-- what one server of the fleet seals, another opens to the same session or not at all; `usedOldKey` says which key opened it. See `C148_faithful`. -/
def TicketsFaithful {K : KaEnv} (fleet : Serve K → Prop) : Prop :=
  ∀ A B ch ch' Z Z' s t st, fleet A → fleet B → A.start ch = some Z → B.start ch' = some Z' → s.Fits → Z.box s = .ok t → Z'.decrypt t = some st →
    st = { s with usedOldKey := st.usedOldKey }
end Spec

/-- the ticket `t` was sealed by a server of the fleet for the session of `r0` -/
def SealedFor {K : KaEnv} (fleet : Serve K → Prop) (r0 : ServerRes) (t : Bytes) : Prop :=
  ∃ A ch Z s, fleet A ∧ A.start ch = some Z ∧ s.Fits ∧ Z.box s = .ok t ∧ s.vers = r0.S.vers ∧ s.cipherSuite = r0.S.suite.id ∧ s.masterSecret = r0.master ∧
    parseAll K.auth.parse s.certificates = some r0.peer.certs

/-- `C138_server` for the run at hand -/
theorem served_cases {P : Prims} {K : KaEnv} {A : Serve K} {ch : ClientHelloMsg} {sent : List Item} {k : ServerChoice} {r : ServerRes} (h : Spec.Served P K A ch sent k r) :
    ∃ (Z : ServerStart K.auth.x509.curve) (items tail : List Item) (sh : ServerHelloMsg), A.start ch = some Z ∧ Z.react A.gm ch = .ok k ∧ sent = .msg (.serverHello sh) :: tail ∧ Spec.CertsFit items ∧
      ((k.resume = none ∧ r.resumed = none ∧ (∃ key, r.S = (Z.side A.gm ch k).hs (K := K) key Z.randCkx) ∧
          Nonempty (Spec.SrvFull K (Z.side A.gm ch k) Z.randKx Z.randCkx Z.box r.hellos items tail r)) ∨
       (∃ st, k.resume = some st ∧ r.resumed = some st ∧ r.S = (Z.side A.gm ch k).hs (K := K) none Z.randCkx ∧
          Nonempty (Spec.SrvResumption K.auth st Z.box r.hellos items tail r))) := by
  obtain ⟨c', hc⟩ := h.returned
  obtain ⟨o, ho, hd, hsent, items', hgot, hfit⟩ := h.ran
  obtain ⟨ch1, Z, k1, items, tail, r1, hran, hcase⟩ := C138_server P K A.gm A.start A.c c' h.server h.fresh.1 h.fresh.2 hc
  obtain ⟨o1, ho1, hd1, hgot1, m, hm, sb, hb⟩ := hran.ran
  rw [ho] at ho1
  obtain rfl := Res.ok.inj ho1
  rw [hd] at hd1
  simp only [HsEnd.done.injEq, Prod.mk.injEq] at hd1
  obtain ⟨rfl, rfl⟩ := hd1
  rw [hgot] at hgot1
  simp only [List.cons.injEq, Item.msg.injEq, Message.clientHello.injEq] at hgot1
  obtain ⟨rfl, rfl⟩ := hgot1
  have hsh : ∃ sh, m = .serverHello sh := by
    simp only [Message.marshal] at hb
    cases hx : (Z.helloMsg A.gm ch k).marshal with
    | ok x => rw [hx] at hb; simp [Res.map] at hb; exact ⟨_, hb.2.symm⟩
    | err x => rw [hx] at hb; simp [Res.map] at hb
    | panic => rw [hx] at hb; simp [Res.map] at hb
  obtain ⟨sh, rfl⟩ := hsh
  refine ⟨Z, items', tail, sh, hran.config, hran.choice, by rw [← hsent, hm], hfit, ?_⟩
  rcases hcase with ⟨a, b, _, c, d⟩ | ⟨st, a, b, _, c, d⟩
  · exact .inl ⟨a, b, c, d⟩
  · exact .inr ⟨st, a, b, c, d⟩

theorem end_ticket {items : List Item} (D : Spec.ServerEnd items []) {m : NewSessionTicketMsg} (h : .msg (.newSessionTicket m) ∈ items) :
    ∃ b, D.ticket = some (m, b) := by
  rw [D.order] at h
  cases ht : D.ticket with
  | none => rw [ht] at h; cases hc : D.ccs <;> simp [hc] at h
  | some x =>
    rw [ht] at h
    obtain ⟨a, b⟩ := x
    cases hc : D.ccs <;> simp [hc] at h <;> exact ⟨b, by rw [h]⟩

theorem flight_ticket {gm : Bool} {items rest : List Item} (W : Spec.ServerFlight gm items rest) {m : NewSessionTicketMsg} (h : .msg (.newSessionTicket m) ∈ items) :
    .msg (.newSessionTicket m) ∈ rest := by
  rw [W.order] at h
  simp only [List.mem_append, List.mem_singleton, Option.mem_toList, Option.map_eq_some_iff, Item.msg.injEq, reduceCtorEq, and_false, exists_false, false_or, or_false] at h
  rcases h with ⟨x, hx, he⟩ | h
  · have := W.req_kind x hx
    rw [he] at this
    split at this <;> obtain ⟨q, hq⟩ := this <;> cases hq
  · exact h

theorem full_master {K : KaEnv} {T : ServerSide K.auth.x509.curve} {rk rc : Bytes} {box : SessionState → Res Bytes} {hs : List Bytes} {items sent : List Item} {r : ServerRes}
    (F : Spec.SrvFull K T rk rc box hs items sent r) : r.master.length < 2 ^ 16 := by
  obtain ⟨pre, _, h⟩ := F.exchange
  unfold masterFromPreMasterSecret at h
  dsimp only at h
  by_cases hv : Spec.Supported T.vers ∨ T.vers = vSSL30 ∧ (zeros 48).length ≤ 176
  · rw [anyPrf_ok _ _ _ _ _ _ _ hv] at h
    rw [← Res.ok.inj h, anyPrf_length]
    simp [zeros]
  · exfalso
    have h3 : T.vers ≠ vSSL30 := fun e => hv (.inr ⟨e, by simp [zeros]⟩)
    unfold Spec.Supported at hv
    simp only [not_or] at hv
    obtain ⟨⟨h10, h11, h12, hg⟩, _⟩ := hv
    unfold prfForVersion at h
    simp [h3, h10, h11, h12, hg] at h

theorem full_certs {K : KaEnv} {T : ServerSide K.auth.x509.curve} {rk rc : Bytes} {box : SessionState → Res Bytes} {hs : List Bytes} {items sent : List Item} {r : ServerRes}
    (F : Spec.SrvFull K T rk rc box hs items sent r) (hf : Spec.CertsFit items) :
    (Spec.sentCerts F.F.cert).length < 2 ^ 16 ∧ ∀ x ∈ Spec.sentCerts F.F.cert, x.length < 2 ^ 32 := by
  cases hc : F.F.cert with
  | none => simp [Spec.sentCerts]
  | some x => exact hf x.1 (by rw [F.F.order, hc]; simp)

/-- a resumption gives the session in the ticket -/
theorem resumed_opens {K : KaEnv} {gm : Bool} {Z : ServerStart K.auth.x509.curve} {ch : ClientHelloMsg} {k : ServerChoice} {st : SessionState} (h : Z.react gm ch = .ok k)
    (hr : k.resume = some st) : Z.decrypt ch.sessionTicket = some st ∧ st.vers = k.vers ∧ st.cipherSuite = k.suite.id := by
  unfold ServerStart.react at h
  split at h
  · obtain ⟨h1, s, _, hs, e⟩ := (C51_gm_server _ _ _ _ _ h st).1 hr
    exact ⟨h1, hs.2.1, by rw [e hr]; exact hs.2.2.1⟩
  · obtain ⟨h1, s, _, hs, _, _, _, e⟩ := (C51_server _ _ _ _ _ h st).1 hr
    exact ⟨h1, hs.2.1, by rw [e hr]; exact hs.2.2.1⟩

theorem resumed_same {P : Prims} {K : KaEnv} {fleet : Serve K → Prop} (hT : Spec.TicketsFaithful fleet) {r0 : ServerRes} {A : Serve K} {ch : ClientHelloMsg}
    {sent : List Item} {k : ServerChoice} {r : ServerRes} (hA : fleet A) (h : Spec.Served P K A ch sent k r) (hf : r.resumed ≠ none) (hs : SealedFor fleet r0 ch.sessionTicket) :
    r.master = r0.master ∧ r.peer.certs = r0.peer.certs ∧ r.S.vers = r0.S.vers ∧ r.S.suite.id = r0.S.suite.id ∧ Spec.PolicyMet K.auth r.S r.peer.certs r.peer.chains ∧
    ∀ m, .msg (.newSessionTicket m) ∈ sent → SealedFor fleet r0 m.ticket := by
  obtain ⟨Z, items, tail, sh, hZ, hreact, rfl, hfit, hcase⟩ := served_cases h
  rcases hcase with ⟨_, e, _⟩ | ⟨st, hk, hst, hS, ⟨R⟩⟩
  · exact absurd e hf
  obtain ⟨B, ch', Z', s, hB, hZ', hsf, hbox, s1, s2, s3, s4⟩ := hs
  obtain ⟨hdec, hv, hid⟩ := resumed_opens hreact hk
  have he := hT B A ch' ch Z' Z s _ st hB hA hZ' hZ hsf hbox hdec
  have e1 : st.vers = s.vers := by rw [he]
  have e2 : st.cipherSuite = s.cipherSuite := by rw [he]
  have e3 : st.masterSecret = s.masterSecret := by rw [he]
  have e4 : st.certificates = s.certificates := by rw [he]
  have hc : r.peer.certs = r0.peer.certs := by
    have := R.parsed
    rw [e4, s4] at this
    exact (Option.some.inj this).symm
  have hvers : r.S.vers = r0.S.vers := by rw [hS, ← s1, ← e1, hv]; rfl
  have hsuite : r.S.suite.id = r0.S.suite.id := by rw [hS, ← s2, ← e2, hid]; rfl
  refine ⟨by rw [R.master, e3, s3], hc, hvers, hsuite, R.policy, ?_⟩
  intro m hm
  obtain ⟨b, hb⟩ := end_ticket R.G (by simpa using hm)
  exact ⟨A, ch, Z, _, hA, hZ, ⟨by dsimp only; rw [e3]; exact hsf.ms, by dsimp only; rw [e4]; exact hsf.count, by dsimp only; rw [e4]; exact hsf.cert⟩, R.ticket _ hb, hvers, hsuite, by rw [← s3, ← e3], by dsimp only; rw [e4]; exact s4⟩

theorem descends_sealed {P : Prims} {K : KaEnv} {fleet : Serve K → Prop} (hT : Spec.TicketsFaithful fleet) {r0 : ServerRes} {t : Bytes}
    (h : Spec.Descends P K fleet r0 t) : SealedFor fleet r0 t := by
  induction h with
  | @issued A ch sent k hA h hf m hm =>
    obtain ⟨Z, items, tail, sh, hZ, hreact, rfl, hfit, hcase⟩ := served_cases h
    rcases hcase with ⟨_, _, ⟨key, hS⟩, ⟨F⟩⟩ | ⟨st, _, e, _⟩
    · obtain ⟨b, hb⟩ := end_ticket F.D (flight_ticket F.W (by simpa using hm))
      exact ⟨A, ch, Z, _, hA, hZ, ⟨full_master F, (full_certs F hfit).1, (full_certs F hfit).2⟩, F.ticket _ hb, by rw [hS]; rfl, by rw [hS]; rfl, rfl, F.parsed⟩
    · rw [hf] at e; cases e
  | @renewed A ch sent k r hA h hf ht m hm ih => exact (resumed_same hT hA h hf ih).2.2.2.2.2 m hm

/-- **C148.** However long the chain of resumptions, on whatever servers that share their ticket keys, and whatever came in between: a handshake resumed by a ticket that
descends from a full handshake has that handshake's master secret, version and suite, and reports the certificates that the client showed in it; and these meet the policy of the
server that resumes. -/
theorem C148_chain (P : Prims) (K : KaEnv) (fleet : Serve K → Prop) (hT : Spec.TicketsFaithful fleet) (r0 : ServerRes) (A : Serve K) (hA : fleet A) (ch : ClientHelloMsg)
    (sent : List Item) (k : ServerChoice) (r : ServerRes) (ht : Spec.Descends P K fleet r0 ch.sessionTicket) (h : Spec.Served P K A ch sent k r) (hf : r.resumed ≠ none) :
    r.master = r0.master ∧ r.peer.certs = r0.peer.certs ∧ r.S.vers = r0.S.vers ∧ r.S.suite.id = r0.S.suite.id ∧ Spec.PolicyMet K.auth r.S r.peer.certs r.peer.chains := by
  obtain ⟨a, b, c, d, e, _⟩ := resumed_same hT hA h hf (descends_sealed hT ht)
  exact ⟨a, b, c, d, e⟩

theorem keys_faithful (C : TicketCrypto) (tc tc' : TicketConfig) (rnd : Bytes) (s st : SessionState) (t : Bytes) (hname : ∀ k ∈ tc.keys, k.keyName.length = 16)
    (hkeys : ∀ k ∈ tc.keys, ∀ k' ∈ tc'.keys, k.keyName = k'.keyName → k = k') (hs : s.Fits) (h : encryptTicket C tc rnd s = .ok t) (hd : decryptTicket C tc' t = some st) :
    st = { s with usedOldKey := st.usedOldKey } := by
  obtain ⟨k, rest, hk, _, hn, _, hx⟩ := encrypt_form C tc rnd s t hname h
  obtain ⟨_, _, i, k', hk', _, hn', _, hx', hf, _⟩ := (C34_accepts_iff C tc' t st).1 hd
  have := hkeys k (by rw [hk]; simp) k' (List.mem_of_getElem? hk') (by rw [← hn, hn'])
  subst this
  have hm : st.marshal = s.marshal := hx'.symm.trans hx
  have e1 := C34_state_roundtrip st hf st.usedOldKey
  have e2 := C34_state_roundtrip s hs st.usedOldKey
  rw [hm, e2] at e1
  exact (Option.some.inj e1).symm

/-- **C148, its hypothesis about tickets** holds of servers that use this library's `encryptTicket` and `decryptTicket`, with any lists of keys in any order, as long as keys with
the same name are the same key (a key is made from 32 bytes by SHA-512, and its name has 16 bytes: C34). -/
theorem C148_faithful (K : KaEnv) (C : TicketCrypto) (fleet : Serve K → Prop) (keys : List TicketKey) (hname : ∀ k ∈ keys, k.keyName.length = 16)
    (hkeys : ∀ k ∈ keys, ∀ k' ∈ keys, k.keyName = k'.keyName → k = k')
    (hfleet : ∀ A ch Z, fleet A → A.start ch = some Z → ∃ (tc : TicketConfig) (rnd : Bytes), (∀ k ∈ tc.keys, k ∈ keys) ∧ Z.box = encryptTicket C tc rnd ∧
      Z.decrypt = decryptTicket C tc) : Spec.TicketsFaithful fleet := by
  intro A B ch ch' Z Z' s t st hA hB hZ hZ' hs hb hd
  obtain ⟨tc, rnd, h1, h2, _⟩ := hfleet A ch Z hA hZ
  obtain ⟨tc', _, g1, _, g3⟩ := hfleet B ch' Z' hB hZ'
  rw [h2] at hb
  rw [g3] at hd
  exact keys_faithful C tc tc' rnd s st t (fun k hk => hname k (h1 k hk)) (fun k hk k' hk' => hkeys k (h1 k hk) k' (g1 k' hk')) hs hb hd

/-- **C148.** Behind every ticket of such a chain is a full handshake on a server of the fleet, in which the client answered the policy of that server and, if it showed
certificates, proved possession of the key of the first: those that the resumed handshake reports. -/
theorem C148_origin (P : Prims) (K : KaEnv) (fleet : Serve K → Prop) (hT : Spec.TicketsFaithful fleet) (r0 : ServerRes) (A : Serve K) (hA : fleet A) (ch : ClientHelloMsg)
    (sent : List Item) (k : ServerChoice) (r : ServerRes) (ht : Spec.Descends P K fleet r0 ch.sessionTicket) (h : Spec.Served P K A ch sent k r) (hf : r.resumed ≠ none) :
    ∃ (B : Serve K) (ch0 : ClientHelloMsg) (sent0 items tail : List Item) (k0 : ServerChoice) (Z : ServerStart K.auth.x509.curve)
      (F : Spec.SrvFull K (Z.side B.gm ch0 k0) Z.randKx Z.randCkx Z.box r0.hellos items tail r0),
      fleet B ∧ Spec.Served P K B ch0 sent0 k0 r0 ∧ B.start ch0 = some Z ∧ Spec.PolicyMet K.auth r0.S r.peer.certs r0.peer.chains ∧
      (F.F.verify = none ↔ r.peer.certs = []) ∧
      ∀ leaf more cv b, r.peer.certs = leaf :: more → F.F.verify = some (cv, b) →
        Spec.Possession K.auth B.gm r.S.vers cv.signatureAlgorithm r.master (F.F.signedPart (r0.hellos ++ [F.W.bytes])) cv.signature leaf.pub := by
  obtain ⟨a, b, c, _⟩ := resumed_same hT hA h hf (descends_sealed hT ht)
  rw [a, b, c]
  clear h hf a b c hA
  generalize ch.sessionTicket = t at ht
  induction ht with
  | @issued A ch sent k hA h hf m hm =>
    obtain ⟨Z, items, tail, sh, hZ, hreact, rfl, hfit, hcase⟩ := served_cases h
    rcases hcase with ⟨_, _, ⟨key, hS⟩, ⟨F⟩⟩ | ⟨st, _, e, _⟩
    · have hp := F.possession
      have hv : r0.S.vers = (Z.side A.gm ch k).vers := by rw [hS]; rfl
      rw [← hv] at hp
      exact ⟨A, ch, _, items, tail, k, Z, F, hA, h, hZ, F.policy, F.proof_given, hp⟩
    · rw [hf] at e; cases e
  | renewed _ _ _ _ _ _ ih => exact ih

end Verif.Tls
