import Verif.Tls.MessagesRound2
import Verif.Tls.Reassembly
/-!
C32/C33 for `readHandshake`'s decoding step (tls/conn.go:975-1018): one theorem over all message
types; the encoding kept for the transcript; end-to-end delivery of structured messages.
-/
namespace Verif.Tls.Wire
open Verif Verif.Tls

/-- a handshake message of any type -/
inductive Message where
  | helloRequest
  | clientHello (m : ClientHelloMsg)
  | serverHello (m : ServerHelloMsg)
  | newSessionTicket (m : NewSessionTicketMsg)
  | certificate (m : CertificateMsg)
  | certificateRequest (m : CertificateRequestMsg)
  | certificateRequestGM (m : CertificateRequestMsgGM)
  | certificateStatus (m : CertificateStatusMsg)
  | serverKeyExchange (m : ServerKeyExchangeMsg)
  | serverHelloDone
  | clientKeyExchange (m : ClientKeyExchangeMsg)
  | certificateVerify (m : CertificateVerifyMsg)
  | nextProto (m : NextProtoMsg)
  | finished (m : FinishedMsg)
deriving DecidableEq, Repr

/-- tls/conn.go:975-1018: the `switch` on the type byte and the call of `unmarshal` on a new message.
`gm` is `c.config.GMSupport != nil`, `tls12` is `c.vers >= VersionTLS12`. -/
def parse (gm tls12 : Bool) (data : Bytes) : Res Message := do
  let t ← idx data 0
  if t = 0 then (helloRequestUnmarshal data).map fun _ => .helloRequest
  else if t = 1 then (ClientHelloMsg.zero.unmarshal data).map .clientHello
  else if t = 2 then (ServerHelloMsg.zero.unmarshal data).map .serverHello
  else if t = 4 then ((NewSessionTicketMsg.mk none []).unmarshal data).map .newSessionTicket
  else if t = 11 then ((CertificateMsg.mk none []).unmarshal data).map .certificate
  else if t = 13 then
    if gm then ((CertificateRequestMsgGM.mk none [] []).unmarshal data).map .certificateRequestGM
    else ((CertificateRequestMsg.mk none tls12 [] [] []).unmarshal data).map .certificateRequest
  else if t = 22 then ((CertificateStatusMsg.mk none 0 []).unmarshal data).map .certificateStatus
  else if t = 12 then ((ServerKeyExchangeMsg.mk none []).unmarshal data).map .serverKeyExchange
  else if t = 14 then (serverHelloDoneUnmarshal data).map fun _ => .serverHelloDone
  else if t = 16 then ((ClientKeyExchangeMsg.mk none []).unmarshal data).map .clientKeyExchange
  else if t = 15 then ((CertificateVerifyMsg.mk none tls12 0 []).unmarshal data).map .certificateVerify
  else if t = 67 then ((NextProtoMsg.mk none []).unmarshal data).map .nextProto
  else if t = 20 then ((FinishedMsg.mk none []).unmarshal data).map .finished
  else no

/-- the `marshal` method of the message: the bytes, and the message with its cached encoding -/
def Message.marshal : Message → Res (Bytes × Message)
  | .helloRequest => .ok (helloRequestMarshal, .helloRequest)
  | .clientHello m => m.marshal.map fun p => (p.1, .clientHello p.2)
  | .serverHello m => m.marshal.map fun p => (p.1, .serverHello p.2)
  | .newSessionTicket m => m.marshal.map fun p => (p.1, .newSessionTicket p.2)
  | .certificate m => m.marshal.map fun p => (p.1, .certificate p.2)
  | .certificateRequest m => m.marshal.map fun p => (p.1, .certificateRequest p.2)
  | .certificateRequestGM m => m.marshal.map fun p => (p.1, .certificateRequestGM p.2)
  | .certificateStatus m => m.marshal.map fun p => (p.1, .certificateStatus p.2)
  | .serverKeyExchange m => m.marshal.map fun p => (p.1, .serverKeyExchange p.2)
  | .serverHelloDone => .ok (serverHelloDoneMarshal, .serverHelloDone)
  | .clientKeyExchange m => m.marshal.map fun p => (p.1, .clientKeyExchange p.2)
  | .certificateVerify m => m.marshal.map fun p => (p.1, .certificateVerify p.2)
  | .nextProto m => m.marshal.map fun p => (p.1, .nextProto p.2)
  | .finished m => m.marshal.map fun p => (p.1, .finished p.2)

/-- the message with its cached encoding set (`m.raw = x`; two message types have no cache) -/
def Message.withRaw (x : Bytes) : Message → Message
  | .helloRequest => .helloRequest
  | .clientHello m => .clientHello { m with raw := some x }
  | .serverHello m => .serverHello { m with raw := some x }
  | .newSessionTicket m => .newSessionTicket { m with raw := some x }
  | .certificate m => .certificate { m with raw := some x }
  | .certificateRequest m => .certificateRequest { m with raw := some x }
  | .certificateRequestGM m => .certificateRequestGM { m with raw := some x }
  | .certificateStatus m => .certificateStatus { m with raw := some x }
  | .serverKeyExchange m => .serverKeyExchange { m with raw := some x }
  | .serverHelloDone => .serverHelloDone
  | .clientKeyExchange m => .clientKeyExchange { m with raw := some x }
  | .certificateVerify m => .certificateVerify { m with raw := some x }
  | .nextProto m => .nextProto { m with raw := some x }
  | .finished m => .finished { m with raw := some x }

/-- A message that the protocol allows in the given mode: every variable-length field fits its length
field, lists that may not be empty are not, fields whose presence a flag announces are absent without
the flag, and no encoding is cached. -/
def Message.WellFormed (gm tls12 : Bool) : Message → Prop
  | .helloRequest => True
  | .clientHello m => m.WellFormed
  | .serverHello m => m.WellFormed
  | .newSessionTicket m => m.raw = none ∧ m.ticket.length < 65536
  | .certificate m => m.raw = none ∧ (∀ c ∈ m.certificates, 0 < c.length) ∧
      (m.certificates.map (fun c => 3 + c.length)).sum + 3 < 2^24
  | .certificateRequest m => gm = false ∧ m.raw = none ∧ m.hasSignatureAndHash = tls12 ∧
      (tls12 = false → m.supportedSignatureAlgorithms = []) ∧
      (0 < m.certificateTypes.length ∧ m.certificateTypes.length < 256) ∧ 2 * m.supportedSignatureAlgorithms.length < 65536 ∧
      (m.certificateAuthorities.map (fun c => c.length + 2)).sum < 65536
  | .certificateRequestGM m => gm = true ∧ m.raw = none ∧
      (0 < m.certificateTypes.length ∧ m.certificateTypes.length < 256) ∧
      (m.certificateAuthorities.map (fun c => c.length + 2)).sum < 65536
  | .certificateStatus m => m.raw = none ∧ m.response.length + 4 < 2^24 ∧ (m.statusType ≠ 1 → m.response = [])
  | .serverKeyExchange m => m.raw = none ∧ m.key.length < 2^24
  | .serverHelloDone => True
  | .clientKeyExchange m => m.raw = none ∧ m.ciphertext.length < 2^24
  | .certificateVerify m => m.raw = none ∧ m.hasSignatureAndHash = tls12 ∧ (tls12 = false → m.signatureAlgorithm = 0) ∧
      m.signature.length < 65536
  | .nextProto m => m.raw = none ∧ m.proto.length < 256
  | .finished m => m.raw = none ∧ m.verifyData.length < 256

theorem map_ok {α β : Type} {f : α → β} {x : Res α} {a : α} (h : x = .ok a) : x.map f = .ok (f a) := by rw [h]; rfl

theorem map_returns {α β : Type} {f : α → β} {x : Res α} (h : x.returns) : (x.map f).returns := by
  cases x <;> trivial

theorem map_ok_inv {α β : Type} {f : α → β} {x : Res α} {b : β} (h : x.map f = .ok b) : ∃ a, x = .ok a ∧ b = f a := by
  cases x with
  | ok a => exact ⟨a, rfl, (Res.ok.inj h).symm⟩
  | err e => cases h
  | panic => cases h

/-- C33 for the decoding step: no message, of any type, makes it panic. (`readHandshake` passes at
least the four header bytes.) -/
theorem C33_read_handshake (gm tls12 : Bool) (data : Bytes) (h : 0 < data.length) : (parse gm tls12 data).returns := by
  unfold parse
  refine bind_returns (idx_returns h) fun t _ => ?_
  repeat' refine ite_returns (fun _ => ?_) (fun _ => ?_)
  all_goals first | ret | apply map_returns
  · exact C33_hello_request _
  · exact C33_client_hello _ _
  · exact C33_server_hello _ _
  · exact C33_new_session_ticket _ _
  · exact C33_certificate _ _
  · exact C33_certificate_request_gm _ _
  · exact C33_certificate_request _ _
  · exact C33_certificate_status _ _
  · exact C33_server_key_exchange _ _
  · exact C33_server_hello_done _
  · exact C33_client_key_exchange _ _
  · exact C33_certificate_verify _ _
  · exact C33_next_proto _ _
  · exact C33_finished _ _

/-- `parse` on a message whose type byte is known -/
theorem parse_cons (gm tls12 : Bool) (t : Byte) (r : Bytes) :
    parse gm tls12 (t :: r) =
      (if t = 0 then (helloRequestUnmarshal (t :: r)).map fun _ => .helloRequest
      else if t = 1 then (ClientHelloMsg.zero.unmarshal (t :: r)).map .clientHello
      else if t = 2 then (ServerHelloMsg.zero.unmarshal (t :: r)).map .serverHello
      else if t = 4 then ((NewSessionTicketMsg.mk none []).unmarshal (t :: r)).map .newSessionTicket
      else if t = 11 then ((CertificateMsg.mk none []).unmarshal (t :: r)).map .certificate
      else if t = 13 then
        if gm then ((CertificateRequestMsgGM.mk none [] []).unmarshal (t :: r)).map .certificateRequestGM
        else ((CertificateRequestMsg.mk none tls12 [] [] []).unmarshal (t :: r)).map .certificateRequest
      else if t = 22 then ((CertificateStatusMsg.mk none 0 []).unmarshal (t :: r)).map .certificateStatus
      else if t = 12 then ((ServerKeyExchangeMsg.mk none []).unmarshal (t :: r)).map .serverKeyExchange
      else if t = 14 then (serverHelloDoneUnmarshal (t :: r)).map fun _ => .serverHelloDone
      else if t = 16 then ((ClientKeyExchangeMsg.mk none []).unmarshal (t :: r)).map .clientKeyExchange
      else if t = 15 then ((CertificateVerifyMsg.mk none tls12 0 []).unmarshal (t :: r)).map .certificateVerify
      else if t = 67 then ((NextProtoMsg.mk none []).unmarshal (t :: r)).map .nextProto
      else if t = 20 then ((FinishedMsg.mk none []).unmarshal (t :: r)).map .finished
      else no) := rfl

/-- the marshalled bytes of a fresh message: its type byte, then the length of the rest in three
bytes, then the rest -/
def Framed (t : Byte) (x : Bytes) : Prop := ∃ body, x = t :: (beFixed 3 body.length ++ body)

/-- C32: every well-formed message of every type is encoded, the encoding is a correctly framed
message, and `readHandshake`'s decoding step turns it back into that message. -/
theorem C32_round_trip (gm tls12 : Bool) (msg : Message) (h : msg.WellFormed gm tls12) :
    ∃ t x, msg.marshal = .ok (x, msg.withRaw x) ∧ Framed t x ∧ t ∈ ([0, 1, 2, 4, 11, 12, 13, 14, 15, 16, 20, 22, 67] : List Byte) ∧
      parse gm tls12 x = .ok (msg.withRaw x) := by
  have hd (t : Byte) (n : Nat) (b : Bytes) (hn : n = b.length) : Framed t (header t n ++ b) := ⟨b, by rw [hn]; rfl⟩
  cases msg with
  | helloRequest => exact ⟨0, _, rfl, ⟨[], rfl⟩, by decide, rfl⟩
  | serverHelloDone => exact ⟨14, _, rfl, ⟨[], rfl⟩, by decide, rfl⟩
  | clientHello m =>
    obtain ⟨x, h1, h2⟩ := C32_client_hello m h
    have hf : Framed 1 x := by
      unfold ClientHelloMsg.marshal at h1
      rw [h.fresh] at h1
      dsimp only at h1
      split at h1
      · cases h1
      · rw [← (Prod.mk.inj (Res.ok.inj h1)).1]; exact hd _ _ _ rfl
    obtain ⟨b, rfl⟩ := hf
    refine ⟨1, _, map_ok h1, ⟨b, rfl⟩, by decide, ?_⟩
    rw [parse_cons, if_neg (by decide), if_pos rfl]
    exact map_ok h2
  | serverHello m =>
    obtain ⟨x, h1, h2⟩ := C32_server_hello m h
    have hf : Framed 2 x := by
      unfold ServerHelloMsg.marshal at h1
      rw [h.fresh] at h1
      dsimp only at h1
      split at h1
      · cases h1
      · rw [← (Prod.mk.inj (Res.ok.inj h1)).1]; exact hd _ _ _ rfl
    obtain ⟨b, rfl⟩ := hf
    refine ⟨2, _, map_ok h1, ⟨b, rfl⟩, by decide, ?_⟩
    rw [parse_cons, if_neg (by decide), if_neg (by decide), if_pos rfl]
    exact map_ok h2
  | newSessionTicket m =>
    obtain ⟨x, h1, h2⟩ := C32_new_session_ticket m (NewSessionTicketMsg.mk none []) h.1 h.2
    have hf : Framed 4 x := by
      unfold NewSessionTicketMsg.marshal at h1
      rw [h.1] at h1
      rw [← (Prod.mk.inj (Res.ok.inj h1)).1]; exact hd _ _ _ (by simp; omega)
    obtain ⟨b, rfl⟩ := hf
    refine ⟨4, _, map_ok h1, ⟨b, rfl⟩, by decide, ?_⟩
    rw [parse_cons, if_neg (by decide), if_neg (by decide), if_neg (by decide), if_pos rfl]
    exact map_ok h2
  | certificate m =>
    obtain ⟨x, h1, h2⟩ := C32_certificate m h.1 h.2.1 (by have := h.2.2; omega) (CertificateMsg.mk none [])
    have hf : Framed 11 x := by
      unfold CertificateMsg.marshal at h1
      rw [h.1] at h1
      rw [← (Prod.mk.inj (Res.ok.inj h1)).1]; exact hd _ _ _ (by simp)
    obtain ⟨b, rfl⟩ := hf
    refine ⟨11, _, map_ok h1, ⟨b, rfl⟩, by decide, ?_⟩
    rw [parse_cons, if_neg (by decide), if_neg (by decide), if_neg (by decide), if_neg (by decide), if_pos rfl]
    exact map_ok h2
  | certificateRequest m =>
    obtain ⟨hg, h0, hh, hs, ht, hsl, hc⟩ := h
    subst hg
    obtain ⟨x, h1, h2⟩ := C32_certificate_request m (CertificateRequestMsg.mk none tls12 [] [] []) h0 hh.symm
      (fun hf => hs (hh ▸ hf)) ht hsl hc
    have hf : Framed 13 x := by
      unfold CertificateRequestMsg.marshal at h1
      rw [h0] at h1
      rw [← (Prod.mk.inj (Res.ok.inj h1)).1]; exact hd _ _ _ rfl
    obtain ⟨b, rfl⟩ := hf
    refine ⟨13, _, map_ok h1, ⟨b, rfl⟩, by decide, ?_⟩
    rw [parse_cons, if_neg (by decide), if_neg (by decide), if_neg (by decide), if_neg (by decide), if_neg (by decide), if_pos rfl,
      if_neg (by decide)]
    exact map_ok h2
  | certificateRequestGM m =>
    obtain ⟨hg, h0, ht, hc⟩ := h
    subst hg
    obtain ⟨x, h1, h2⟩ := C32_certificate_request_gm m (CertificateRequestMsgGM.mk none [] []) h0 ht hc
    have hf : Framed 13 x := by
      unfold CertificateRequestMsgGM.marshal at h1
      rw [h0] at h1
      rw [← (Prod.mk.inj (Res.ok.inj h1)).1]; exact hd _ _ _ rfl
    obtain ⟨b, rfl⟩ := hf
    refine ⟨13, _, map_ok h1, ⟨b, rfl⟩, by decide, ?_⟩
    rw [parse_cons, if_neg (by decide), if_neg (by decide), if_neg (by decide), if_neg (by decide), if_neg (by decide), if_pos rfl,
      if_pos rfl]
    exact map_ok h2
  | certificateStatus m =>
    obtain ⟨x, h1, h2⟩ := C32_certificate_status m (CertificateStatusMsg.mk none 0 []) h.1 (by have := h.2.1; omega) h.2.2
    have hf : Framed 22 x := by
      unfold CertificateStatusMsg.marshal at h1
      rw [h.1] at h1
      rw [← (Prod.mk.inj (Res.ok.inj h1)).1]
      split
      · exact hd _ _ _ (by simp; omega)
      · exact ⟨[m.statusType], by rw [List.length_singleton, show beFixed 3 1 = [0, 0, 1] by decide]; rfl⟩
    obtain ⟨b, rfl⟩ := hf
    refine ⟨22, _, map_ok h1, ⟨b, rfl⟩, by decide, ?_⟩
    rw [parse_cons, if_neg (by decide), if_neg (by decide), if_neg (by decide), if_neg (by decide), if_neg (by decide),
      if_neg (by decide), if_pos rfl]
    exact map_ok h2
  | serverKeyExchange m =>
    obtain ⟨x, h1, h2⟩ := C32_server_key_exchange m (ServerKeyExchangeMsg.mk none []) h.1
    have hf : Framed 12 x := by
      unfold ServerKeyExchangeMsg.marshal at h1
      rw [h.1] at h1
      rw [← (Prod.mk.inj (Res.ok.inj h1)).1]; exact hd _ _ _ rfl
    obtain ⟨b, rfl⟩ := hf
    refine ⟨12, _, map_ok h1, ⟨b, rfl⟩, by decide, ?_⟩
    rw [parse_cons, if_neg (by decide), if_neg (by decide), if_neg (by decide), if_neg (by decide), if_neg (by decide),
      if_neg (by decide), if_neg (by decide), if_pos rfl]
    exact map_ok h2
  | clientKeyExchange m =>
    obtain ⟨x, h1, h2⟩ := C32_client_key_exchange m (ClientKeyExchangeMsg.mk none []) h.1 h.2
    have hf : Framed 16 x := by
      unfold ClientKeyExchangeMsg.marshal at h1
      rw [h.1] at h1
      rw [← (Prod.mk.inj (Res.ok.inj h1)).1]; exact hd _ _ _ rfl
    obtain ⟨b, rfl⟩ := hf
    refine ⟨16, _, map_ok h1, ⟨b, rfl⟩, by decide, ?_⟩
    rw [parse_cons, if_neg (by decide), if_neg (by decide), if_neg (by decide), if_neg (by decide), if_neg (by decide),
      if_neg (by decide), if_neg (by decide), if_neg (by decide), if_neg (by decide), if_pos rfl]
    exact map_ok h2
  | certificateVerify m =>
    obtain ⟨h0, hh, hs, hl⟩ := h
    obtain ⟨x, h1, h2⟩ := C32_certificate_verify m (CertificateVerifyMsg.mk none tls12 0 []) h0 hh.symm (fun hf => hs (hh ▸ hf)) hl
    have hf : Framed 15 x := by
      unfold CertificateVerifyMsg.marshal at h1
      rw [h0] at h1
      rw [← (Prod.mk.inj (Res.ok.inj h1)).1]; exact hd _ _ _ rfl
    obtain ⟨b, rfl⟩ := hf
    refine ⟨15, _, map_ok h1, ⟨b, rfl⟩, by decide, ?_⟩
    rw [parse_cons, if_neg (by decide), if_neg (by decide), if_neg (by decide), if_neg (by decide), if_neg (by decide),
      if_neg (by decide), if_neg (by decide), if_neg (by decide), if_neg (by decide), if_neg (by decide), if_pos rfl]
    exact map_ok h2
  | nextProto m =>
    obtain ⟨x, h1, h2⟩ := C32_next_proto m (NextProtoMsg.mk none []) h.1 h.2
    have hf : Framed 67 x := by
      unfold NextProtoMsg.marshal at h1
      rw [h.1] at h1
      rw [← (Prod.mk.inj (Res.ok.inj h1)).1]
      refine hd _ _ _ ?_
      have := h.2
      simp only [List.length_append, beFixed_length, List.length_take, List.length_replicate]
      omega
    obtain ⟨b, rfl⟩ := hf
    refine ⟨67, _, map_ok h1, ⟨b, rfl⟩, by decide, ?_⟩
    rw [parse_cons, if_neg (by decide), if_neg (by decide), if_neg (by decide), if_neg (by decide), if_neg (by decide),
      if_neg (by decide), if_neg (by decide), if_neg (by decide), if_neg (by decide), if_neg (by decide), if_neg (by decide),
      if_pos rfl]
    exact map_ok h2
  | finished m =>
    obtain ⟨x, h1, h2⟩ := C32_finished m (FinishedMsg.mk none []) h.1
    have hf : Framed 20 x := by
      unfold FinishedMsg.marshal at h1
      rw [h.1] at h1
      rw [← (Prod.mk.inj (Res.ok.inj h1)).1]
      have hl := h.2
      refine ⟨m.verifyData, ?_⟩
      have e1 : m.verifyData.length / 256 = 0 := by omega
      rw [beFixed_three, e1]
      rfl
    obtain ⟨b, rfl⟩ := hf
    refine ⟨20, _, map_ok h1, ⟨b, rfl⟩, by decide, ?_⟩
    rw [parse_cons, if_neg (by decide), if_neg (by decide), if_neg (by decide), if_neg (by decide), if_neg (by decide),
      if_neg (by decide), if_neg (by decide), if_neg (by decide), if_neg (by decide), if_neg (by decide), if_neg (by decide),
      if_neg (by decide), if_pos rfl]
    exact map_ok h2

/-! ## the received encoding is kept -/

theorem ite_ok_inv {α : Type} {c : Prop} [Decidable c] {x y : Res α} {a : α} (h : (if c then x else y) = .ok a) :
    x = .ok a ∨ y = .ok a := by
  split at h
  · exact .inl h
  · exact .inr h

theorem no_ne_ok {α : Type} {a : α} : (no : Res α) = .ok a → False := fun h => by cases h

theorem sniLoop_raw (fuel : Nat) : ∀ d m m', sniLoop fuel d m = .ok m' → m'.raw = m.raw := by
  induction fuel with
  | zero => intro d m m' h; cases h
  | succ f ih =>
    intro d m m' h
    unfold sniLoop at h
    rcases ite_ok_inv h with h | h
    · rcases ite_ok_inv h with h | h
      · exact (no_ne_ok h).elim
      · simp only [Res.bind_eq_ok] at h
        obtain ⟨_, _, _, _, d1, _, h⟩ := h
        rcases ite_ok_inv h with h | h
        · exact (no_ne_ok h).elim
        · rcases ite_ok_inv h with h | h
          · simp only [Res.bind_eq_ok] at h
            obtain ⟨_, _, h⟩ := h
            rcases ite_ok_inv h with h | h
            · exact (no_ne_ok h).elim
            · cases h; rfl
          · simp only [Res.bind_eq_ok] at h
            obtain ⟨_, _, h⟩ := h
            exact ih _ _ _ h
    · cases h; rfl

theorem readSuites_raw (data : Bytes) (n : Nat) : ∀ i m m', readSuites data i n m = .ok m' → m'.raw = m.raw := by
  induction n with
  | zero => intro i m m' h; cases h; rfl
  | succ n ih =>
    intro i m m' h
    unfold readSuites at h
    simp only [Res.bind_eq_ok] at h
    obtain ⟨_, _, h⟩ := h
    have := ih _ _ m' h
    exact this

theorem extLoop_inv {M : Type} (sw : M → Nat → Bytes → Nat → Res M) (P : M → Prop)
    (hsw : ∀ m e d l m', P m → sw m e d l = .ok m' → P m') (fuel : Nat) :
    ∀ d m m', P m → extLoop sw fuel d m = .ok m' → P m' := by
  induction fuel with
  | zero => intro d m m' _ h; cases h
  | succ f ih =>
    intro d m m' hm h
    unfold extLoop at h
    rcases ite_ok_inv h with h | h
    · rcases ite_ok_inv h with h | h
      · exact (no_ne_ok h).elim
      · simp only [Res.bind_eq_ok] at h
        obtain ⟨_, _, _, _, d1, _, h⟩ := h
        rcases ite_ok_inv h with h | h
        · exact (no_ne_ok h).elim
        · simp only [Res.bind_eq_ok] at h
          obtain ⟨m1, h1, _, _, h⟩ := h
          exact ih _ _ _ (hsw _ _ _ _ _ hm h1) h
    · cases h; exact hm

theorem extBlockLoop_inv {M : Type} (sw : M → Nat → Bytes → Nat → Res M) (P : M → Prop)
    (hsw : ∀ m e d l m', P m → sw m e d l = .ok m' → P m') (d : Bytes) (m m' : M) (hm : P m)
    (h : extBlockLoop sw d m = .ok m') : P m' := by
  unfold extBlockLoop at h
  rcases ite_ok_inv h with h | h
  · cases h; exact hm
  · rcases ite_ok_inv h with h | h
    · exact (no_ne_ok h).elim
    · simp only [Res.bind_eq_ok] at h
      obtain ⟨_, _, _, _, h⟩ := h
      rcases ite_ok_inv h with h | h
      · exact (no_ne_ok h).elim
      · exact extLoop_inv sw P hsw _ _ _ _ hm h

theorem chExtension_raw (m : ClientHelloMsg) (e : Nat) (d : Bytes) (l : Nat) (m' : ClientHelloMsg)
    (h : chExtension m e d l = .ok m') : m'.raw = m.raw := by
  unfold chExtension at h
  rcases ite_ok_inv h with h | h
  · simp only [Res.bind_eq_ok] at h
    obtain ⟨_, _, h⟩ := h
    rcases ite_ok_inv h with h | h
    · exact (no_ne_ok h).elim
    simp only [Res.bind_eq_ok] at h
    obtain ⟨_, _, _, _, h⟩ := h
    rcases ite_ok_inv h with h | h
    · exact (no_ne_ok h).elim
    · exact sniLoop_raw _ _ _ _ h
  rcases ite_ok_inv h with h | h
  · rcases ite_ok_inv h with h | h
    · exact (no_ne_ok h).elim
    · cases h; rfl
  rcases ite_ok_inv h with h | h
  · rcases ite_ok_inv h with h | h
    · simp only [Res.bind_eq_ok] at h
      obtain ⟨_, _, h⟩ := h
      cases h; rfl
    · cases h; rfl
  rcases ite_ok_inv h with h | h
  · rcases ite_ok_inv h with h | h
    · exact (no_ne_ok h).elim
    simp only [Res.bind_eq_ok] at h
    obtain ⟨_, _, h⟩ := h
    rcases ite_ok_inv h with h | h
    · exact (no_ne_ok h).elim
    simp only [Res.bind_eq_ok] at h
    obtain ⟨_, _, _, _, h⟩ := h
    cases h; rfl
  rcases ite_ok_inv h with h | h
  · rcases ite_ok_inv h with h | h
    · exact (no_ne_ok h).elim
    simp only [Res.bind_eq_ok] at h
    obtain ⟨_, _, h⟩ := h
    rcases ite_ok_inv h with h | h
    · exact (no_ne_ok h).elim
    simp only [Res.bind_eq_ok] at h
    obtain ⟨_, _, h⟩ := h
    cases h; rfl
  rcases ite_ok_inv h with h | h
  · simp only [Res.bind_eq_ok] at h
    obtain ⟨_, _, h⟩ := h
    cases h; rfl
  rcases ite_ok_inv h with h | h
  · rcases ite_ok_inv h with h | h
    · exact (no_ne_ok h).elim
    simp only [Res.bind_eq_ok] at h
    obtain ⟨_, _, h⟩ := h
    rcases ite_ok_inv h with h | h
    · exact (no_ne_ok h).elim
    simp only [Res.bind_eq_ok] at h
    obtain ⟨_, _, _, _, h⟩ := h
    cases h; rfl
  rcases ite_ok_inv h with h | h
  · rcases ite_ok_inv h with h | h
    · exact (no_ne_ok h).elim
    simp only [Res.bind_eq_ok] at h
    obtain ⟨_, _, _, _, _, _, h⟩ := h
    rcases ite_ok_inv h with h | h
    · exact (no_ne_ok h).elim
    · cases h; rfl
  rcases ite_ok_inv h with h | h
  · rcases ite_ok_inv h with h | h
    · exact (no_ne_ok h).elim
    simp only [Res.bind_eq_ok] at h
    obtain ⟨_, _, h⟩ := h
    rcases ite_ok_inv h with h | h
    · exact (no_ne_ok h).elim
    simp only [Res.bind_eq_ok] at h
    obtain ⟨_, _, _, _, h⟩ := h
    cases h; rfl
  rcases ite_ok_inv h with h | h
  · rcases ite_ok_inv h with h | h
    · exact (no_ne_ok h).elim
    · cases h; rfl
  · cases h; rfl

theorem shExtension_raw (m : ServerHelloMsg) (e : Nat) (d : Bytes) (l : Nat) (m' : ServerHelloMsg)
    (h : shExtension m e d l = .ok m') : m'.raw = m.raw := by
  unfold shExtension at h
  rcases ite_ok_inv h with h | h
  · simp only [Res.bind_eq_ok] at h
    obtain ⟨_, _, _, _, h⟩ := h
    cases h; rfl
  rcases ite_ok_inv h with h | h
  · rcases ite_ok_inv h with h | h
    · exact (no_ne_ok h).elim
    · cases h; rfl
  rcases ite_ok_inv h with h | h
  · rcases ite_ok_inv h with h | h
    · exact (no_ne_ok h).elim
    · cases h; rfl
  rcases ite_ok_inv h with h | h
  · rcases ite_ok_inv h with h | h
    · exact (no_ne_ok h).elim
    simp only [Res.bind_eq_ok] at h
    obtain ⟨_, _, _, _, _, _, h⟩ := h
    rcases ite_ok_inv h with h | h
    · exact (no_ne_ok h).elim
    · cases h; rfl
  rcases ite_ok_inv h with h | h
  · simp only [Res.bind_eq_ok] at h
    obtain ⟨_, _, h⟩ := h
    rcases ite_ok_inv h with h | h
    · exact (no_ne_ok h).elim
    simp only [Res.bind_eq_ok] at h
    obtain ⟨_, _, h⟩ := h
    rcases ite_ok_inv h with h | h
    · exact (no_ne_ok h).elim
    simp only [Res.bind_eq_ok] at h
    obtain ⟨_, _, _, _, h⟩ := h
    rcases ite_ok_inv h with h | h
    · exact (no_ne_ok h).elim
    simp only [Res.bind_eq_ok] at h
    obtain ⟨_, _, h⟩ := h
    rcases ite_ok_inv h with h | h
    · exact (no_ne_ok h).elim
    · cases h; rfl
  rcases ite_ok_inv h with h | h
  · simp only [Res.bind_eq_ok] at h
    obtain ⟨_, _, h⟩ := h
    rcases ite_ok_inv h with h | h
    · exact (no_ne_ok h).elim
    simp only [Res.bind_eq_ok] at h
    obtain ⟨_, _, _, _, h⟩ := h
    rcases ite_ok_inv h with h | h
    · exact (no_ne_ok h).elim
    simp only [Res.bind_eq_ok] at h
    obtain ⟨_, _, h⟩ := h
    cases h; rfl
  · cases h; rfl

theorem clientHello_raw (m m' : ClientHelloMsg) (data : Bytes) (h : m.unmarshal data = .ok m') : m'.raw = some data := by
  unfold ClientHelloMsg.unmarshal at h
  rcases ite_ok_inv h with h | h
  · exact (no_ne_ok h).elim
  simp only [Res.bind_eq_ok] at h
  obtain ⟨_, _, _, _, _, _, h⟩ := h
  rcases ite_ok_inv h with h | h
  · exact (no_ne_ok h).elim
  simp only [Res.bind_eq_ok] at h
  obtain ⟨_, _, _, _, h⟩ := h
  rcases ite_ok_inv h with h | h
  · exact (no_ne_ok h).elim
  simp only [Res.bind_eq_ok] at h
  obtain ⟨_, _, h⟩ := h
  rcases ite_ok_inv h with h | h
  · exact (no_ne_ok h).elim
  simp only [Res.bind_eq_ok] at h
  obtain ⟨m1, hm1, _, _, h⟩ := h
  have hr := readSuites_raw _ _ _ _ _ hm1
  rcases ite_ok_inv h with h | h
  · exact (no_ne_ok h).elim
  simp only [Res.bind_eq_ok] at h
  obtain ⟨_, _, h⟩ := h
  rcases ite_ok_inv h with h | h
  · exact (no_ne_ok h).elim
  simp only [Res.bind_eq_ok] at h
  obtain ⟨_, _, _, _, h⟩ := h
  refine extBlockLoop_inv chExtension (fun m => m.raw = some data) ?_ _ _ _ ?_ h
  · exact fun m e d l m' hm hs => (chExtension_raw m e d l m' hs).trans hm
  · exact hr

theorem serverHello_raw (m m' : ServerHelloMsg) (data : Bytes) (h : m.unmarshal data = .ok m') : m'.raw = some data := by
  unfold ServerHelloMsg.unmarshal at h
  rcases ite_ok_inv h with h | h
  · exact (no_ne_ok h).elim
  simp only [Res.bind_eq_ok] at h
  obtain ⟨_, _, _, _, _, _, h⟩ := h
  rcases ite_ok_inv h with h | h
  · exact (no_ne_ok h).elim
  simp only [Res.bind_eq_ok] at h
  obtain ⟨_, _, _, _, h⟩ := h
  rcases ite_ok_inv h with h | h
  · exact (no_ne_ok h).elim
  simp only [Res.bind_eq_ok] at h
  obtain ⟨_, _, _, _, _, _, h⟩ := h
  refine extBlockLoop_inv shExtension (fun m => m.raw = some data) ?_ _ _ _ ?_ h
  · exact fun m e d l m' hm hs => (shExtension_raw m e d l m' hs).trans hm
  · rfl

/-- C32: what a side hashes into its transcript for a message it received - the result of `marshal` on
the parsed message - is byte for byte what it received. -/
theorem C32_transcript_bytes (gm tls12 : Bool) (t : Byte) (body : Bytes) (msg : Message) (hl : body.length < 2^24)
    (h : parse gm tls12 (t :: (beFixed 3 body.length ++ body)) = .ok msg) :
    msg.marshal = .ok (t :: (beFixed 3 body.length ++ body), msg) := by
  have hx0 : ∀ r : Bytes, (t :: r).length = 4 → r = beFixed 3 body.length ++ body → t :: r = [t, 0, 0, 0] := by
    intro r h4 hr
    rw [hr] at h4 ⊢
    simp only [List.length_cons, List.length_append, beFixed_length] at h4
    have : body = [] := List.length_eq_zero_iff.1 (by omega)
    subst this; rfl
  generalize hr : beFixed 3 body.length ++ body = r at h
  rw [parse_cons] at h
  by_cases h0 : t = 0
  · rw [if_pos h0] at h
    obtain ⟨u, hu, rfl⟩ := map_ok_inv h
    unfold helloRequestUnmarshal at hu
    split at hu
    · rename_i h4
      rw [hx0 r h4 hr.symm, h0]; rfl
    · cases hu
  rw [if_neg h0] at h
  rcases ite_ok_inv h with h | h
  · obtain ⟨m, hm, rfl⟩ := map_ok_inv h
    have := clientHello_raw _ _ _ hm
    simp only [Message.marshal, ClientHelloMsg.marshal, this]; rfl
  rcases ite_ok_inv h with h | h
  · obtain ⟨m, hm, rfl⟩ := map_ok_inv h
    have := serverHello_raw _ _ _ hm
    simp only [Message.marshal, ServerHelloMsg.marshal, this]; rfl
  rcases ite_ok_inv h with h | h
  · obtain ⟨m, hm, rfl⟩ := map_ok_inv h
    have : m.raw = some (t :: r) := by
      unfold NewSessionTicketMsg.unmarshal at hm
      rcases ite_ok_inv hm with h | h
      · exact (no_ne_ok h).elim
      simp only [Res.bind_eq_ok] at h
      obtain ⟨_, _, h⟩ := h
      rcases ite_ok_inv h with h | h
      · exact (no_ne_ok h).elim
      simp only [Res.bind_eq_ok] at h
      obtain ⟨_, _, h⟩ := h
      rcases ite_ok_inv h with h | h
      · exact (no_ne_ok h).elim
      simp only [Res.bind_eq_ok] at h
      obtain ⟨_, _, h⟩ := h
      cases h; rfl
    simp only [Message.marshal, NewSessionTicketMsg.marshal, this]; rfl
  rcases ite_ok_inv h with h | h
  · obtain ⟨m, hm, rfl⟩ := map_ok_inv h
    have : m.raw = some (t :: r) := by
      unfold CertificateMsg.unmarshal at hm
      rcases ite_ok_inv hm with h | h
      · exact (no_ne_ok h).elim
      simp only [Res.bind_eq_ok] at h
      obtain ⟨_, _, h⟩ := h
      rcases ite_ok_inv h with h | h
      · exact (no_ne_ok h).elim
      simp only [Res.bind_eq_ok] at h
      obtain ⟨_, _, _, _, _, _, _, _, h⟩ := h
      cases h; rfl
    simp only [Message.marshal, CertificateMsg.marshal, this]; rfl
  rcases ite_ok_inv h with h | h
  · rcases ite_ok_inv h with h | h
    · obtain ⟨m, hm, rfl⟩ := map_ok_inv h
      have : m.raw = some (t :: r) := by
        unfold CertificateRequestMsgGM.unmarshal at hm
        simp only [Res.bind_eq_ok] at hm
        obtain ⟨⟨_, _⟩, _, _, _, h⟩ := hm
        cases h; rfl
      simp only [Message.marshal, CertificateRequestMsgGM.marshal, this]; rfl
    · obtain ⟨m, hm, rfl⟩ := map_ok_inv h
      have : m.raw = some (t :: r) := by
        unfold CertificateRequestMsg.unmarshal at hm
        simp only [Res.bind_eq_ok] at hm
        obtain ⟨⟨_, _⟩, _, h⟩ := hm
        rcases ite_ok_inv h with h | h
        · simp only [Res.bind_eq_ok] at h
          obtain ⟨⟨_, _⟩, _, _, _, h⟩ := h
          cases h; rfl
        · simp only [Res.bind_eq_ok] at h
          obtain ⟨_, _, h⟩ := h
          cases h; rfl
      simp only [Message.marshal, CertificateRequestMsg.marshal, this]; rfl
  rcases ite_ok_inv h with h | h
  · obtain ⟨m, hm, rfl⟩ := map_ok_inv h
    have : m.raw = some (t :: r) := by
      unfold CertificateStatusMsg.unmarshal at hm
      rcases ite_ok_inv hm with h | h
      · exact (no_ne_ok h).elim
      simp only [Res.bind_eq_ok] at h
      obtain ⟨_, _, h⟩ := h
      rcases ite_ok_inv h with h | h
      · rcases ite_ok_inv h with h | h
        · exact (no_ne_ok h).elim
        simp only [Res.bind_eq_ok] at h
        obtain ⟨_, _, h⟩ := h
        rcases ite_ok_inv h with h | h
        · exact (no_ne_ok h).elim
        simp only [Res.bind_eq_ok] at h
        obtain ⟨_, _, h⟩ := h
        cases h; rfl
      · cases h; rfl
    simp only [Message.marshal, CertificateStatusMsg.marshal, this]; rfl
  rcases ite_ok_inv h with h | h
  · obtain ⟨m, hm, rfl⟩ := map_ok_inv h
    have : m.raw = some (t :: r) := by
      unfold ServerKeyExchangeMsg.unmarshal at hm
      rcases ite_ok_inv hm with h | h
      · exact (no_ne_ok h).elim
      simp only [Res.bind_eq_ok] at h
      obtain ⟨_, _, h⟩ := h
      cases h; rfl
    simp only [Message.marshal, ServerKeyExchangeMsg.marshal, this]; rfl
  by_cases h14 : t = 14
  · rw [if_pos h14] at h
    obtain ⟨u, hu, rfl⟩ := map_ok_inv h
    unfold serverHelloDoneUnmarshal at hu
    split at hu
    · rename_i h4
      rw [hx0 r h4 hr.symm, h14]; rfl
    · cases hu
  rw [if_neg h14] at h
  rcases ite_ok_inv h with h | h
  · obtain ⟨m, hm, rfl⟩ := map_ok_inv h
    have : m.raw = some (t :: r) := by
      unfold ClientKeyExchangeMsg.unmarshal at hm
      rcases ite_ok_inv hm with h | h
      · exact (no_ne_ok h).elim
      simp only [Res.bind_eq_ok] at h
      obtain ⟨_, _, h⟩ := h
      rcases ite_ok_inv h with h | h
      · exact (no_ne_ok h).elim
      simp only [Res.bind_eq_ok] at h
      obtain ⟨_, _, h⟩ := h
      cases h; rfl
    simp only [Message.marshal, ClientKeyExchangeMsg.marshal, this]; rfl
  rcases ite_ok_inv h with h | h
  · obtain ⟨m, hm, rfl⟩ := map_ok_inv h
    have : m.raw = some (t :: r) := by
      unfold CertificateVerifyMsg.unmarshal at hm
      rcases ite_ok_inv hm with h | h
      · exact (no_ne_ok h).elim
      simp only [Res.bind_eq_ok] at h
      obtain ⟨_, _, h⟩ := h
      rcases ite_ok_inv h with h | h
      · exact (no_ne_ok h).elim
      simp only [Res.bind_eq_ok] at h
      obtain ⟨_, _, h⟩ := h
      rcases ite_ok_inv h with h | h
      · simp only [Res.bind_eq_ok] at h
        obtain ⟨_, _, _, _, _, _, h⟩ := h
        cases h; rfl
      · simp only [Res.bind_eq_ok] at h
        obtain ⟨_, _, h⟩ := h
        cases h; rfl
    simp only [Message.marshal, CertificateVerifyMsg.marshal, this]; rfl
  rcases ite_ok_inv h with h | h
  · obtain ⟨m, hm, rfl⟩ := map_ok_inv h
    have : m.raw = some (t :: r) := by
      unfold NextProtoMsg.unmarshal at hm
      rcases ite_ok_inv hm with h | h
      · exact (no_ne_ok h).elim
      simp only [Res.bind_eq_ok] at h
      obtain ⟨_, _, _, _, _, _, h⟩ := h
      rcases ite_ok_inv h with h | h
      · exact (no_ne_ok h).elim
      simp only [Res.bind_eq_ok] at h
      obtain ⟨_, _, _, _, h⟩ := h
      rcases ite_ok_inv h with h | h
      · exact (no_ne_ok h).elim
      simp only [Res.bind_eq_ok] at h
      obtain ⟨_, _, _, _, h⟩ := h
      rcases ite_ok_inv h with h | h
      · exact (no_ne_ok h).elim
      cases h; rfl
    simp only [Message.marshal, NextProtoMsg.marshal, this]; rfl
  rcases ite_ok_inv h with h | h
  · obtain ⟨m, hm, rfl⟩ := map_ok_inv h
    have : m.raw = some (t :: r) := by
      unfold FinishedMsg.unmarshal at hm
      rcases ite_ok_inv hm with h | h
      · exact (no_ne_ok h).elim
      simp only [Res.bind_eq_ok] at h
      obtain ⟨_, _, h⟩ := h
      cases h; rfl
    simp only [Message.marshal, FinishedMsg.marshal, this]; rfl
  · exact (no_ne_ok h).elim

/-! ## end to end -/

/-- the parser `readHandshake` uses -/
def parses (gm tls12 : Bool) (d : Bytes) : Bool :=
  match parse gm tls12 d with
  | .ok _ => true
  | _ => false

/-- C78, structured: one side marshals well-formed messages (with bodies of at most 65536 bytes) and writes them; the
other side reads the wire and decodes exactly these messages, in order. -/
theorem C78_message_delivery (gm tls12 : Bool) (msgs : List Message) (xs : List Bytes) (a a' b : Conn) (w tail : Bytes)
    (hwf : ∀ m ∈ msgs, m.WellFormed gm tls12)
    (hx : msgs.map Message.marshal = (msgs.zip xs).map (fun p => Res.ok (p.2, p.1.withRaw p.2))) (hlen : xs.length = msgs.length)
    (hsize : ∀ x ∈ xs, x.length ≤ 65540)
    (hw : writeAll 22 xs a = .ok (none, a')) (hwire : a'.emitted = a.emitted ++ w) (hs : b.stream = w ++ tail)
    (hu : Spec.UsesSuite a.out) (hsb : a.buffering = false → a.sendBuf = []) (hp : Paired a.out b.inp)
    (he : b.inp.err = none) (hc : b.handshakeComplete = false) (hh : b.hand = [])
    (hv : b.haveVers = true → b.vers = a.wireVersion) (hv' : b.haveVers = false → a.wireVersion.toNat < 0x1000) :
    ∃ ys b', readMessages (parses gm tls12) msgs.length b = .ok (.ok ys, b') ∧
      ys.map (parse gm tls12) = (msgs.zip xs).map (fun p => Res.ok (p.1.withRaw p.2)) ∧
      b'.hand = [] ∧ b'.stream = tail ∧ Paired a'.out b'.inp := by
  -- every encoding is a framed message that parses to its message
  have key : ∀ (msgs : List Message) (xs : List Bytes), (∀ m ∈ msgs, m.WellFormed gm tls12) →
      msgs.map Message.marshal = (msgs.zip xs).map (fun p => Res.ok (p.2, p.1.withRaw p.2)) → xs.length = msgs.length →
      (∀ x ∈ xs, x.length ≤ 65540) → (∀ x ∈ xs, Spec.IsMessage x ∧ parses gm tls12 x = true) ∧
        xs.map (parse gm tls12) = (msgs.zip xs).map (fun p => Res.ok (p.1.withRaw p.2)) := by
    intro msgs
    induction msgs with
    | nil =>
      intro xs _ _ hl _
      have : xs = [] := List.length_eq_zero_iff.1 hl
      subst this
      exact ⟨fun x hx => (by cases hx), rfl⟩
    | cons m ms ih =>
      intro xs hwf hx hl hsz
      cases xs with
      | nil => simp at hl
      | cons x xs =>
        simp only [List.map_cons, List.zip_cons_cons, List.cons.injEq] at hx
        obtain ⟨h1, h2⟩ := ih xs (fun m' hm' => hwf m' (List.mem_cons_of_mem _ hm')) hx.2 (by simpa using hl)
          (fun y hy => hsz y (List.mem_cons_of_mem _ hy))
        obtain ⟨t, y, hy, ⟨body, hfr⟩, ht, hpar⟩ := C32_round_trip gm tls12 m (hwf m List.mem_cons_self)
        have hxy : x = y := by
          have := hx.1.symm.trans hy
          exact (Prod.mk.inj (Res.ok.inj this)).1
        subst hxy
        refine ⟨fun z hz => ?_, ?_⟩
        · rcases List.mem_cons.1 hz with rfl | hz
          · refine ⟨⟨t, body, hfr, ?_, ht⟩, by unfold parses; rw [hpar]⟩
            have := hsz z List.mem_cons_self
            rw [hfr] at this
            simp only [List.length_cons, List.length_append, beFixed_length] at this
            omega
          · exact h1 z hz
        · simp only [List.map_cons, List.zip_cons_cons, hpar, h2]
  obtain ⟨k1, k2⟩ := key msgs xs hwf hx hlen hsize
  obtain ⟨b', r1, r2, r3, r4⟩ := C78_handshake_delivery (parses gm tls12) xs a a' b w tail hw hwire hs k1 hu hsb hp he hc hh hv hv'
  rw [hlen] at r1
  exact ⟨xs, b', r1, k2, r2, r3, r4⟩

/-! ## non-vacuity -/

/-- A ClientHello using every extension is well formed. -/
def exampleHello : ClientHelloMsg :=
  { raw := none, vers := 0x0303, random := List.replicate 32 7, sessionId := [1, 2, 3], cipherSuites := [0xc02f, 0x00ff, 0xe013],
    compressionMethods := [0], nextProtoNeg := true, serverName := [0x61, 0x2e, 0x62], ocspStapling := true, scts := true,
    supportedCurves := [23, 29], supportedPoints := [0], ticketSupported := true, sessionTicket := [9, 9],
    supportedSignatureAlgorithms := [0x0401, 0x0403], secureRenegotiation := [5], secureRenegotiationSupported := true,
    alpnProtocols := [[0x68, 0x32], [0x68]] }

example : exampleHello.WellFormed := by
  constructor <;> decide

example : ∃ x, exampleHello.marshal = .ok (x, { exampleHello with raw := some x }) ∧ x.length = 132 ∧
    ClientHelloMsg.zero.unmarshal x = .ok { exampleHello with raw := some x } := by
  obtain ⟨x, h1, h2⟩ := C32_client_hello exampleHello (by constructor <;> decide)
  refine ⟨x, h1, ?_, h2⟩
  have : exampleHello.marshal.map (fun p => p.1.length) = .ok 132 := by decide +kernel
  rw [h1] at this
  exact Res.ok.inj this

/-- and a truncated one is refused, without a panic -/
example : ClientHelloMsg.zero.unmarshal (1 :: List.replicate 41 0 ++ [5]) = no := by decide +kernel

end Verif.Tls.Wire
