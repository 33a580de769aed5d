import Verif.Tls.HandshakeProps
import Verif.Tls.GmKeyAgreement
import Mathlib.Data.List.Forall2
/-!
C109: the server's first flight, message by message. C110: the length fields of key exchange messages.
-/
namespace Verif.Tls
open Verif Verif.Tls.Wire

/-- a message without its cached encoding -/
def bareMsg : Message → Message
  | .certificate m => .certificate { m with raw := none }
  | .certificateRequest m => .certificateRequest { m with raw := none }
  | .certificateRequestGM m => .certificateRequestGM { m with raw := none }
  | .certificateStatus m => .certificateStatus { m with raw := none }
  | .serverKeyExchange m => .serverKeyExchange { m with raw := none }
  | m => m

def Item.bare : Item → Item
  | .msg m => .msg (bareMsg m)
  | .ccs => .ccs

namespace Spec

/-- the names of the certificate authorities a server is configured with: the subjects, in order -/
def authorities (cas : Option X509.Pool) : List Bytes := (cas.map fun p => p.certs.map fun c => c.rawSubject).getD []

/-- the certificate request: RSA and ECDSA certificates, in TLS 1.2 the signature algorithms, and the configured authorities -/
def request {c : Sm2.Curve} (T : ServerSide c) : CertificateRequestMsg where
  raw := none
  hasSignatureAndHash := decide (0x0303 ≤ T.vers.toNat)
  certificateTypes := [1, 64]
  supportedSignatureAlgorithms := if 0x0303 ≤ T.vers.toNat then supportedSignatureAlgorithms else []
  certificateAuthorities := authorities T.clientCAs

def requestGM {c : Sm2.Curve} (T : ServerSide c) : CertificateRequestMsgGM where
  raw := none
  certificateTypes := [1, 64]
  certificateAuthorities := authorities T.clientCAs

/-- what a server has to send between its ServerHello and the client's answer. Certificates: the configured chain; of a GM server the chain of the
signing certificate, then that of the encryption certificate, then any others. The OCSP response if there is one and the client asked. The
ServerKeyExchange `skx`, if the suite has one. A certificate request unless the server wants none. ServerHelloDone. -/
def flight {c : Sm2.Curve} (T : ServerSide c) (skx : Option Bytes) : List Item :=
  [.msg (.certificate ⟨none, if T.dual = true then T.cert.chain ++ T.second.chain ++ T.more.flatMap (fun x => x.chain) else T.cert.chain⟩)] ++
  (if T.ocspAsked = true ∧ T.cert.staple ≠ [] then [.msg (.certificateStatus ⟨none, 1, T.cert.staple⟩)] else []) ++
  (skx.map fun k => Item.msg (.serverKeyExchange ⟨none, k⟩)).toList ++
  (if T.auth = .noClientCert then []
   else if T.gm = true then [.msg (.certificateRequestGM (requestGM T))]
   else [.msg (.certificateRequest (request T))]) ++
  [.msg .serverHelloDone]

end Spec

/-- C109: the server sends exactly these messages in this order, for every configuration, suite, version and randomness; the bytes it hashes into
its transcript are their encodings. -/
theorem C109_server_flight (K : KaEnv) (T : ServerSide K.auth.x509.curve) (rand : Bytes) (w : ServerSent) (h : serverFlight K T rand = .ok w) :
    ∃ skx, serverGenSKX K T rand = .ok (w.key, skx) ∧ w.items.map Item.bare = Spec.flight T skx ∧
      List.Forall₂ (fun i b => ∃ m : Message, i = .msg m ∧ ∃ m', m.marshal = .ok (b, m')) w.items w.bytes := by
  unfold serverFlight at h
  obtain ⟨⟨b1, i1⟩, h1, h⟩ := Res.bind_eq_ok.1 h
  dsimp only at h
  obtain ⟨⟨b2, i2⟩, h2, h⟩ := Res.bind_eq_ok.1 h
  dsimp only at h
  obtain ⟨⟨st, key⟩, h3, h⟩ := Res.bind_eq_ok.1 h
  dsimp only at h
  obtain ⟨⟨b3, i3⟩, h4, h⟩ := Res.bind_eq_ok.1 h
  dsimp only at h
  obtain ⟨⟨b4, i4⟩, h5, h⟩ := Res.bind_eq_ok.1 h
  dsimp only at h
  obtain ⟨⟨b5, i5⟩, h6, h⟩ := Res.bind_eq_ok.1 h
  simp only [Res.ok.injEq] at h
  subst h
  refine ⟨key, h3, ?_⟩
  have e1 := encode_certificate h1
  -- the OCSP response
  have e2 : i2.map Item.bare = (if T.ocspAsked = true ∧ T.cert.staple ≠ [] then [.msg (.certificateStatus ⟨none, 1, T.cert.staple⟩)] else []) ∧
      List.Forall₂ (fun i b => ∃ m : Message, i = .msg m ∧ ∃ m', m.marshal = .ok (b, m')) i2 b2 := by
    unfold sendStatus at h2
    have hc : T.ocsp = true ↔ T.ocspAsked = true ∧ T.cert.staple ≠ [] := by
      unfold ServerSide.ocsp
      rw [Bool.and_eq_true, decide_eq_true_eq, List.length_pos_iff]
    split at h2
    · rename_i ho
      obtain ⟨⟨b, i⟩, he, h2⟩ := Res.bind_eq_ok.1 h2
      simp only [Res.ok.injEq, Prod.mk.injEq] at h2
      rw [if_pos (hc.1 ho), ← h2.1, ← h2.2, encode_status he]
      exact ⟨rfl, .cons ⟨_, rfl, _, rfl⟩ .nil⟩
    · rename_i ho
      simp only [Res.ok.injEq, Prod.mk.injEq] at h2
      rw [if_neg (fun hh => ho (hc.2 hh)), ← h2.1, ← h2.2]
      exact ⟨rfl, .nil⟩
  -- the key exchange
  have e3 : i3.map Item.bare = (key.map fun k => Item.msg (.serverKeyExchange ⟨none, k⟩)).toList ∧
      List.Forall₂ (fun i b => ∃ m : Message, i = .msg m ∧ ∃ m', m.marshal = .ok (b, m')) i3 b3 := by
    cases key with
    | none =>
      simp only [sendSKX, Res.ok.injEq, Prod.mk.injEq] at h4
      rw [← h4.1, ← h4.2]
      exact ⟨rfl, .nil⟩
    | some k =>
      unfold sendSKX at h4
      obtain ⟨⟨b, i⟩, he, h4⟩ := Res.bind_eq_ok.1 h4
      simp only [Res.ok.injEq, Prod.mk.injEq] at h4
      rw [← h4.1, ← h4.2, encode_skx he]
      exact ⟨rfl, .cons ⟨_, rfl, _, rfl⟩ .nil⟩
  have hcas : T.caNames = Spec.authorities T.clientCAs := by
    unfold ServerSide.caNames Spec.authorities
    cases T.clientCAs <;> rfl
  have e4 : i4.map Item.bare = (if T.auth = .noClientCert then []
   else if T.gm = true then [.msg (.certificateRequestGM (Spec.requestGM T))]
   else [.msg (.certificateRequest (Spec.request T))]) ∧
      List.Forall₂ (fun i b => ∃ m : Message, i = .msg m ∧ ∃ m', m.marshal = .ok (b, m')) i4 b4 := by
    unfold sendReq at h5
    split at h5
    · rename_i hr
      have hr := (rank_request _).1 hr
      obtain ⟨⟨b, i⟩, he, h5⟩ := Res.bind_eq_ok.1 h5
      simp only [Res.ok.injEq, Prod.mk.injEq] at h5
      rw [if_neg hr]
      by_cases hg : T.gm = true
      · rw [if_pos hg] at he ⊢
        rw [← h5.1, ← h5.2, encode_reqGM rfl he]
        exact ⟨by simp only [List.map_cons, List.map_nil, Item.bare, bareMsg, ServerSide.requestGM, Spec.requestGM, hcas], .cons ⟨_, rfl, _, rfl⟩ .nil⟩
      · rw [if_neg hg] at he ⊢
        rw [← h5.1, ← h5.2, encode_req rfl he]
        exact ⟨by simp only [List.map_cons, List.map_nil, Item.bare, bareMsg, ServerSide.request, Spec.request, hcas]; rfl, .cons ⟨_, rfl, _, rfl⟩ .nil⟩
    · rename_i hr
      have hr := mt (rank_request T.auth).2 hr
      simp only [Res.ok.injEq, Prod.mk.injEq] at h5
      rw [if_pos (by simpa using hr), ← h5.1, ← h5.2]
      exact ⟨rfl, .nil⟩
  simp only [encode, Message.marshal, Res.ok_bind, Res.ok.injEq, Prod.mk.injEq] at h6
  obtain ⟨rfl, rfl⟩ := h6
  constructor
  · unfold Spec.flight
    rw [← e2.1, ← e3.1, ← e4.1, e1]
    simp [Item.bare, bareMsg, ServerSide.chain, List.flatMap_def]
  · refine .cons ⟨_, e1, _, rfl⟩ ?_
    exact List.rel_append (List.rel_append (List.rel_append e2.2 e3.2) e4.2) (.cons ⟨_, rfl, _, rfl⟩ .nil)

/-! ### C110 -/

/-- **C110, ECDHE.** The server derives a premaster secret only from a ClientKeyExchange that is a length byte followed by exactly that many bytes: the
public value, 32 bytes for X25519 and otherwise the encoding of a point of the curve. The secret is the function of that value and the server's key. -/
theorem C110_ecdhe_exact (K : KaEnv) (st : EcdheServer) (ct pre : Bytes) (h : ecdheProcessCKX K st ct = .ok pre) :
    ∃ pub, pub.length < 256 ∧ ct = BitVec.ofNat 8 pub.length :: pub ∧
      ((st.curve = 29 ∧ pub.length = 32 ∧ pre = K.x25519 st.priv pub) ∨
       (st.curve ≠ 29 ∧ ∃ c p, K.curve st.curve = some c ∧ c.unmarshal pub = some p ∧ padPremaster c.byteLen (c.scalarMult p st.priv).1 = .ok pre)) := by
  unfold ecdheProcessCKX at h
  split at h
  · cases h
  · rename_i n body
    split at h
    · cases h
    · rename_i hn
      push Not at hn
      refine ⟨body, ?_, ?_, ?_⟩
      · rw [← hn]; exact n.isLt
      · rw [← hn, BitVec.ofNat_toNat, BitVec.setWidth_eq]
      · split at h
        · rename_i hc
          split at h
          · cases h
          · rename_i hl
            push Not at hl
            simp only [Res.ok.injEq] at h
            exact .inl ⟨hc, hl, h.symm⟩
        · rename_i hc
          split at h
          · cases h
          · rename_i c hk
            split at h
            · cases h
            · rename_i p hp
              exact .inr ⟨hc, c, p, hk, hp, h⟩

/-- **C110, RSA.** From TLS 1.0 on the ciphertext is a two-byte length followed by exactly that many bytes, and those are what is decrypted. -/
theorem C110_rsa_exact (K : KaEnv) (v : Version) (hv : v ≠ 0x0300) (rand : Bytes) (key : Option Bytes) (ct pre : Bytes)
    (h : rsaProcessCKX K v rand key ct = .ok pre) :
    ∃ k enc, key = some k ∧ enc.length < 65536 ∧ ct = beFixed 2 enc.length ++ enc ∧ K.rsaDecrypt rand k enc = some pre := by
  unfold rsaProcessCKX at h
  split at h
  · rename_i a b body
    split at h
    · cases h
    · rename_i hn
      have hl : a.toNat * 256 + b.toNat = body.length := by
        by_contra hc
        exact hn ⟨hv, hc⟩
      split at h
      · cases h
      · rename_i k
        rw [if_pos (show v ≠ vSSL30 from hv)] at h
        split at h
        · cases h
        · rename_i p hp
          simp only [Res.ok.injEq] at h
          subst h
          have h1 := a.isLt
          have h2 := b.isLt
          refine ⟨k, body, rfl, by omega, ?_, hp⟩
          rw [← hl]
          have e : beFixed 2 (a.toNat * 256 + b.toNat) = [BitVec.ofNat 8 ((a.toNat * 256 + b.toNat) / 256), BitVec.ofNat 8 (a.toNat * 256 + b.toNat)] := by
            simp [beFixed]
          have e1 : BitVec.ofNat 8 ((a.toNat * 256 + b.toNat) / 256) = a := by
            apply BitVec.eq_of_toNat_eq
            rw [BitVec.toNat_ofNat]; omega
          have e2 : BitVec.ofNat 8 (a.toNat * 256 + b.toNat) = b := by
            apply BitVec.eq_of_toNat_eq
            rw [BitVec.toNat_ofNat]; omega
          rw [e, e1, e2]
          rfl
  · cases h

/-- **C110, GM.** Of the two length bytes of a GM ClientKeyExchange the second counts the ciphertext; what follows decrypts to 48 bytes. -/
theorem C110_gm_partial {c : Sm2.Curve} (key : Option (Sm2.PrivateKey c)) (ct pre : Bytes) (h : Gm.eccProcessCKX key ct = .ok pre) :
    ∃ priv a enc, key = some priv ∧ enc.length < 256 ∧ ct = a :: BitVec.ofNat 8 enc.length :: enc ∧ Sm2.decrypt priv enc = .ok pre ∧ pre.length = 48 := by
  unfold Gm.eccProcessCKX at h
  split at h
  · cases h
  · match ct with
    | [] => simp_all
    | [a] =>
      exfalso
      simp only [Gm.byteLen, Wire.idx] at h
      simp at h
    | a :: b :: enc =>
      rw [Gm.byteLen_eq, Res.ok_bind] at h
      split at h
      · cases h
      · rename_i hl
        simp only [List.length_cons] at hl
        have hl : b.toNat = enc.length := by omega
        split at h
        · cases h
        · rename_i priv
          obtain ⟨plain, hp, h⟩ := Res.bind_eq_ok.1 h
          split at h
          · cases h
          · rename_i h48
            push Not at h48
            simp only [Res.ok.injEq] at h
            subst h
            refine ⟨priv, a, enc, rfl, ?_, ?_, hp, h48⟩
            · rw [← hl]; exact b.isLt
            · rw [← hl, BitVec.ofNat_toNat, BitVec.setWidth_eq]

/-- **C110 fails for GM suites.** The first length byte of the ClientKeyExchange and of the ServerKeyExchange is ignored: whatever it is, the message is
accepted, with the same outcome. -/
theorem C110_gm_violated {c : Sm2.Curve} (key : Option (Sm2.PrivateKey c)) (pub : X509.Pub) (cr sr encRaw : Bytes) (a a' b : Byte) (t : Bytes) :
    Gm.eccProcessCKX key (a :: b :: t) = Gm.eccProcessCKX key (a' :: b :: t) ∧
      Gm.eccProcessSKX c pub cr sr encRaw (a :: b :: t) = Gm.eccProcessSKX c pub cr sr encRaw (a' :: b :: t) := by
  unfold Gm.eccProcessCKX Gm.eccProcessSKX
  rw [Gm.byteLen_eq, Gm.byteLen_eq]
  exact ⟨rfl, rfl⟩

/-- **C110 fails for GM suites, long ciphertexts.** And a correctly encoded ciphertext of 256 bytes or more is refused. -/
theorem C110_gm_long_violated {c : Sm2.Curve} (key : Option (Sm2.PrivateKey c)) (enc : Bytes) (h : 256 ≤ enc.length) (pre : Bytes) :
    Gm.eccProcessCKX key (beFixed 2 enc.length ++ enc) ≠ .ok pre := by
  intro hk
  obtain ⟨_, _, e, _, hl, he, _⟩ := C110_gm_partial key _ _ hk
  have := congrArg List.length he
  simp only [List.length_append, beFixed_length, List.length_cons] at this
  omega

/-- the hypotheses are met: a flight of four messages (as in `C88`), and a client key exchange -/
example : (∃ w, serverFlight toyK toyS [7, 8, 9] = .ok w ∧ w.items.length = 4) ∧ ecdheProcessCKX toyKa ⟨24, [7]⟩ [1, 5] = .ok [35] := by
  refine ⟨?_, by decide +kernel⟩
  have : (match serverFlight toyK toyS [7, 8, 9] with
    | .ok w => decide (w.items.length = 4)
    | _ => false) = true := by decide +kernel
  split at this
  · rename_i w hw
    exact ⟨w, hw, by simpa using this⟩
  · cases this

end Verif.Tls
