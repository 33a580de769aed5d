import Verif.Tls.ServerAuth
/-!
C47: client authentication in a full handshake, standard and GM server.
-/
namespace Verif.Tls
open Verif Verif.Tls.Wire

namespace Spec

/-- the handshake bytes of a message -/
def Encodes (m : Message) (b : Bytes) : Prop := ∃ m', m.marshal = .ok (b, m')

/-- What a client sent in a full handshake after ServerHelloDone, in this order: its Certificate message, if it sent one; ClientKeyExchange;
CertificateVerify, if it sent one; ChangeCipherSpec; the NPN message, if it sent one; Finished. -/
structure Flight (items rest : List Item) where
  cert : Option (CertificateMsg × Bytes)
  ckx : ClientKeyExchangeMsg × Bytes
  verify : Option (CertificateVerifyMsg × Bytes)
  npn : Option (NextProtoMsg × Bytes)
  finished : FinishedMsg
  order : items =
    (cert.map fun x => Item.msg (.certificate x.1)).toList ++ [Item.msg (.clientKeyExchange ckx.1)] ++
    (verify.map fun x => Item.msg (.certificateVerify x.1)).toList ++ [Item.ccs] ++
    (npn.map fun x => Item.msg (.nextProto x.1)).toList ++ [Item.msg (.finished finished)] ++ rest
  cert_bytes : ∀ x, cert = some x → Encodes (.certificate x.1) x.2
  ckx_bytes : Encodes (.clientKeyExchange ckx.1) ckx.2
  verify_bytes : ∀ x, verify = some x → Encodes (.certificateVerify x.1) x.2
  npn_bytes : ∀ x, npn = some x → Encodes (.nextProto x.1) x.2

/-- bytes of an optional message -/
def bytesOf {α : Type} : Option (α × Bytes) → Bytes
  | none => []
  | some x => x.2

/-- the certificates the client sent -/
def sentCerts : Option (CertificateMsg × Bytes) → List Bytes
  | none => []
  | some x => x.1.certificates

/-- the handshake messages before CertificateVerify -/
def Flight.signedPart {items rest : List Item} (F : Flight items rest) (server : List Bytes) : Bytes :=
  server.flatten ++ bytesOf F.cert ++ F.ckx.2

/-- the handshake messages before the client's Finished -/
def Flight.finishedPart {items rest : List Item} (F : Flight items rest) (server : List Bytes) : Bytes :=
  F.signedPart server ++ bytesOf F.verify ++ bytesOf F.npn

/-- the hash named by a TLS 1.2 signature scheme: the high byte is 2, 4, 5, 6 for SHA-1, SHA-256, SHA-384, SHA-512 (RFC 5246 7.4.1.4.1) -/
def schemeHash (a : U16) : HashId :=
  match a.toNat / 256 with
  | 4 => .sha256
  | 5 => .sha384
  | 6 => .sha512
  | _ => .sha1

/-- a TLS 1.2 signature scheme of the given kind (low byte: 1 RSA, 3 ECDSA) with one of the four hashes -/
def SchemeIs (a : U16) (kind : Nat) : Prop := a.toNat % 256 = kind ∧ (a.toNat / 256 = 2 ∨ a.toNat / 256 = 4 ∨ a.toNat / 256 = 5 ∨ a.toNat / 256 = 6)

/-- the hash over the handshake messages `t` that CertificateVerify signs. In GM mode it is SM3. (A standard handshake can be negotiated at version
0x0101, because that is the default minimum; it then uses SHA-1 where TLS 1.0 would use MD5 and SHA-1.) -/
def signedDigest (E : AuthEnv) (gm : Bool) (v : Version) (a : U16) (ecdsa : Bool) (master t : Bytes) : Bytes :=
  if gm then sm3.sum t
  else if v = vTLS12 then (E.hashFn (schemeHash a)).sum t
  else if v = vSSL30 then ssl3Finished E.hashes master [] t
  else if ecdsa = true ∨ v = vGMSSL then E.hashes.sha1.sum t
  else E.hashes.md5.sum t ++ E.hashes.sha1.sum t

/-- The signature `sig`, labelled `a`, proves possession of the private key of `pub` over the handshake messages `t`. -/
def Possession (E : AuthEnv) (gm : Bool) (v : Version) (a : U16) (master t sig : Bytes) : X509.Pub → Prop
  | .sm2 x y => gm = true ∧ v.toNat < vTLS12.toNat ∧
      ∃ r s, Sm2.unmarshalPair sig = some (r, s) ∧ Sm2.verify E.x509.curve { x := x, y := y, pre := none } (sm3.sum t) r s = .ok true
  | .ecdsa k => (vTLS12.toNat ≤ v.toNat → SchemeIs a 3) ∧
      ∃ r s, Sm2.unmarshalPair sig = some (r, s) ∧ 0 < r ∧ 0 < s ∧ E.ecdsaVerify k (signedDigest E gm v a true master t) r s = true
  | .rsa k => (vTLS12.toNat ≤ v.toNat → SchemeIs a 1) ∧
      E.rsaPKCS1 k (if v.toNat < vTLS12.toNat then .md5sha1 else schemeHash a) (signedDigest E gm v a false master t) sig = true
  | _ => False

/-- the verify data of the client's Finished over the handshake messages `t` -/
def clientFinishedData (E : AuthEnv) (gm : Bool) (v : Version) (s : Suite) (master t : Bytes) : Bytes :=
  if gm then verifyData E.hashes vGMSSL s master true t
  else if v = vGMSSL then P sm3 master (str "client finished" ++ E.hashes.sha1.sum t) 12
  else verifyData E.hashes v s master true t

end Spec

/-! ### the hash object -/

/-- the object after `b` was written to it -/
def FinishedHash.app (h : FinishedHash) (b : Bytes) : FinishedHash :=
  { h with
    client := h.client ++ b
    server := h.server ++ b
    clientMD5 := if h.version.toNat < vTLS12.toNat then h.clientMD5.map (fun x => (x.1, x.2 ++ b)) else h.clientMD5
    serverMD5 := if h.version.toNat < vTLS12.toNat then h.serverMD5.map (fun x => (x.1, x.2 ++ b)) else h.serverMD5
    buffer := h.buffer.map (· ++ b) }

theorem write_app {h h' : FinishedHash} {b : Bytes} (e : h.write b = .ok h') : h' = h.app b := by
  unfold FinishedHash.write at e
  dsimp only at e
  by_cases hv : h.version.toNat < vTLS12.toNat
  · rw [if_pos hv] at e
    cases h1 : h.clientMD5 with
    | none => rw [h1] at e; simp at e
    | some x =>
      cases h2 : h.serverMD5 with
      | none => rw [h1, h2] at e; simp at e
      | some y =>
        rw [h1, h2] at e
        simp only [Res.ok_bind, Res.ok.injEq] at e
        rw [← e]
        unfold FinishedHash.app
        rw [if_pos hv, if_pos hv, h1, h2]
        rfl
  · rw [if_neg hv] at e
    simp only [Res.ok_bind, Res.ok.injEq] at e
    rw [← e]
    unfold FinishedHash.app
    rw [if_neg hv, if_neg hv]

theorem app_app (h : FinishedHash) (a b : Bytes) : (h.app a).app b = h.app (a ++ b) := by
  unfold FinishedHash.app
  by_cases hv : h.version.toNat < vTLS12.toNat
  · simp only [if_pos hv, List.append_assoc, Option.map_map]
    congr 1
    · cases h.clientMD5 <;> simp
    · cases h.serverMD5 <;> simp
    · cases h.buffer <;> simp
  · simp only [if_neg hv, List.append_assoc, Option.map_map]
    congr 1
    cases h.buffer <;> simp

theorem app_nil (h : FinishedHash) : h.app [] = h := by
  unfold FinishedHash.app
  cases h
  simp only [List.append_nil]
  congr 1 <;> simp

theorem writes_app {ms : List Bytes} {h h' : FinishedHash} (e : h.writes ms = .ok h') : h' = h.app ms.flatten := by
  induction ms generalizing h with
  | nil => cases e; simp [app_nil]
  | cons m ms ih =>
    rw [FinishedHash.writes] at e
    obtain ⟨g, e1, e2⟩ := Res.bind_eq_ok.1 e
    rw [ih e2, write_app e1, app_app]
    simp

/-! ### the phases -/

theorem readMsg_inv {items rest : List Item} {m : Message} (h : readMsg items = .ok (m, rest)) : items = .msg m :: rest := by
  cases items with
  | nil => cases h
  | cons x r =>
    cases x with
    | msg m' => simp only [readMsg, Res.ok.injEq, Prod.mk.injEq] at h; rw [h.1, h.2]
    | ccs => cases h

theorem verifyClientChain_inv {E : AuthEnv} {S : ServerHs} {certs : List X509.Cert} {chains : List (List X509.Cert)}
    (h : verifyClientChain E S certs = .ok chains) :
    (S.auth.rank < 3 ∨ certs = [] → chains = []) ∧
    (3 ≤ S.auth.rank → ∀ leaf rest, certs = leaf :: rest →
      X509.verify E.x509 E.entrust E.system leaf (clientVerifyOpts S rest) = some (.ok chains)) := by
  cases certs with
  | nil =>
    simp only [verifyClientChain, Res.ok.injEq] at h
    exact ⟨fun _ => h.symm, fun _ _ _ hc => by cases hc⟩
  | cons leaf rest =>
    unfold verifyClientChain at h
    simp only at h
    by_cases hr : S.auth.rank ≥ ClientAuth.verifyClientCertIfGiven.rank
    · rw [if_pos hr] at h
      have hr' : 3 ≤ S.auth.rank := hr
      refine ⟨fun ho => ?_, fun _ l r hc => ?_⟩
      · rcases ho with ho | ho
        · omega
        · cases ho
      · cases hc
        split at h
        · rename_i chains' hv
          simp only [Res.ok.injEq] at h
          rw [hv, h]
        · cases h
    · rw [if_neg hr] at h
      simp only [Res.ok.injEq] at h
      have hr' : ¬ 3 ≤ S.auth.rank := hr
      exact ⟨fun _ => h.symm, fun ho => absurd ho hr'⟩

theorem processCerts_inv {E : AuthEnv} {S : ServerHs} {cs : List Bytes} {p : PeerId} (h : processCertsFromClient E S cs = .ok p) :
    parseAll E.parse cs = some p.certs ∧ verifyClientChain E S p.certs = .ok p.chains ∧
    (∀ f, S.verifyPeer = some f → f cs p.chains = true) ∧
    (p.certs = [] → p.pub = none) ∧ (∀ leaf rest, p.certs = leaf :: rest → p.pub = some leaf.pub ∧ keyAllowed S.gm leaf.pub = true) := by
  unfold processCertsFromClient at h
  cases hp : parseAll E.parse cs with
  | none => rw [hp] at h; cases h
  | some certs =>
    rw [hp] at h
    simp only at h
    obtain ⟨chains, hc, h⟩ := Res.bind_eq_ok.1 h
    split at h
    · cases h
    · rename_i hvp
      have hvp' : ∀ f, S.verifyPeer = some f → f cs chains = true := by
        intro f hf
        unfold ServerHs.callback at hvp
        rw [hf] at hvp
        simpa using hvp
      cases certs with
      | nil =>
        simp only [Res.ok.injEq] at h
        subst h
        exact ⟨rfl, hc, hvp', fun _ => rfl, fun _ _ he => by cases he⟩
      | cons leaf rest =>
        simp only at h
        split at h
        · rename_i hk
          simp only [Res.ok.injEq] at h
          subst h
          refine ⟨rfl, hc, hvp', (fun he => by cases he), fun l r he => ?_⟩
          cases he
          exact ⟨rfl, hk⟩
        · cases h

theorem parseAll_length {parse : Bytes → Option X509.Cert} {cs : List Bytes} {certs : List X509.Cert} (h : parseAll parse cs = some certs) :
    certs.length = cs.length := by
  induction cs generalizing certs with
  | nil => cases h; rfl
  | cons b r ih =>
    simp only [parseAll, Option.bind_eq_bind, Option.bind_eq_some_iff] at h
    obtain ⟨c, _, cs', hr, h⟩ := h
    cases h
    simp [ih hr]

theorem rank_request (a : ClientAuth) : a.rank ≥ ClientAuth.requestClientCert.rank ↔ a ≠ .noClientCert := by
  cases a <;> simp [ClientAuth.rank]

theorem clientCertPhase_inv {E : AuthEnv} {S : ServerHs} {fh fh' : FinishedHash} {items items' : List Item} {p : PeerId}
    (h : clientCertPhase E S fh items = .ok (p, fh', items')) :
    ∃ cert : Option (CertificateMsg × Bytes), items = (cert.map fun x => Item.msg (.certificate x.1)).toList ++ items' ∧
      (∀ x, cert = some x → Spec.Encodes (.certificate x.1) x.2) ∧ fh' = fh.app (Spec.bytesOf cert) ∧
      (cert = none ↔ S.auth = .noClientCert) ∧
      (cert = none → p = ⟨[], [], none⟩) ∧
      (∀ x, cert = some x → processCertsFromClient E S x.1.certificates = .ok p ∧
        ((S.auth = .requireAnyClientCert ∨ S.auth = .requireAndVerifyClientCert) → x.1.certificates ≠ [])) := by
  unfold clientCertPhase at h
  by_cases hr : S.auth.rank ≥ ClientAuth.requestClientCert.rank
  · rw [if_pos hr] at h
    obtain ⟨⟨m, it⟩, hm, h⟩ := Res.bind_eq_ok.1 h
    have hi := readMsg_inv hm
    cases m with
    | certificate cm =>
      simp only at h
      obtain ⟨⟨b, cm'⟩, hb, h⟩ := Res.bind_eq_ok.1 h
      obtain ⟨f, hf, h⟩ := Res.bind_eq_ok.1 h
      simp only at h hf
      split at h
      · cases h
      · rename_i hne
        obtain ⟨p', hp, h⟩ := Res.bind_eq_ok.1 h
        simp only [Res.ok.injEq, Prod.mk.injEq] at h
        obtain ⟨rfl, rfl, rfl⟩ := h
        refine ⟨some (cm, b), by simp [hi], ?_, ?_, ?_, (fun hc => by cases hc), ?_⟩
        · rintro x ⟨⟩
          exact ⟨.certificate cm', by simp [Message.marshal, hb, Res.map]⟩
        · simpa [Spec.bytesOf] using write_app hf
        · simp only [reduceCtorEq, false_iff]
          exact (rank_request _).1 hr
        · rintro x ⟨⟩
          refine ⟨hp, fun ha he => hne ⟨by rw [he]; rfl, ha⟩⟩
    | _ => cases h
  · rw [if_neg hr] at h
    simp only [Res.ok.injEq, Prod.mk.injEq] at h
    obtain ⟨rfl, rfl, rfl⟩ := h
    refine ⟨none, by simp, by simp, by simp [Spec.bytesOf, app_nil], ?_, fun _ => rfl, by simp⟩
    rw [rank_request] at hr
    simpa using hr

theorem ckxPhase_inv {E : AuthEnv} {S : ServerHs} {fh fh' : FinishedHash} {items items' : List Item} {master : Bytes}
    (h : ckxPhase E S fh items = .ok (master, fh', items')) :
    ∃ ckx b, items = .msg (.clientKeyExchange ckx) :: items' ∧ Spec.Encodes (.clientKeyExchange ckx) b ∧ fh' = fh.app b ∧
      ∃ pre, S.processCKX ckx.ciphertext = .ok pre ∧
        masterFromPreMasterSecret E.hashes S.vers S.suite pre S.clientRandom S.serverRandom = .ok master := by
  unfold ckxPhase at h
  obtain ⟨⟨m, it⟩, hm, h⟩ := Res.bind_eq_ok.1 h
  have hi := readMsg_inv hm
  cases m with
  | clientKeyExchange ckx =>
    simp only at h
    obtain ⟨⟨b, c'⟩, hb, h⟩ := Res.bind_eq_ok.1 h
    obtain ⟨f, hf, h⟩ := Res.bind_eq_ok.1 h
    obtain ⟨pre, hp, h⟩ := Res.bind_eq_ok.1 h
    obtain ⟨ms, hms, h⟩ := Res.bind_eq_ok.1 h
    split at h
    · cases h
    · simp only [Res.ok.injEq, Prod.mk.injEq] at h
      obtain ⟨rfl, rfl, rfl⟩ := h
      exact ⟨ckx, b, hi, ⟨.clientKeyExchange c', by simp [Message.marshal, hb, Res.map]⟩, write_app hf, pre, hp, hms⟩
  | _ => cases h

theorem certVerifyPhase_inv {E : AuthEnv} {S : ServerHs} {p : PeerId} {master : Bytes} {fh fh' : FinishedHash} {items items' : List Item}
    (h : certVerifyPhase E S p master fh items = .ok (fh', items')) :
    ∃ cv : Option (CertificateVerifyMsg × Bytes), items = (cv.map fun x => Item.msg (.certificateVerify x.1)).toList ++ items' ∧
      (∀ x, cv = some x → Spec.Encodes (.certificateVerify x.1) x.2) ∧ fh' = fh.app (Spec.bytesOf cv) ∧
      (cv = none ↔ p.pub = none) ∧
      (∀ x pub, cv = some x → p.pub = some pub → ∃ t hId digest,
        pickSignatureAlgorithm pub [x.1.signatureAlgorithm] supportedSignatureAlgorithms S.vers = .ok (t, hId) ∧
        fh.hashForClientCertificate E.hashes (t = .pkcs1v15) (t = .ecdsa) (E.hashFn hId) master = .ok digest ∧
        verifyHandshakeSignature E t pub hId digest x.1.signature = .ok true) := by
  unfold certVerifyPhase at h
  cases hp : p.pub with
  | none =>
    rw [hp] at h
    simp only [Res.ok.injEq, Prod.mk.injEq] at h
    obtain ⟨rfl, rfl⟩ := h
    exact ⟨none, by simp, by simp, by simp [Spec.bytesOf, app_nil], by simp, by simp⟩
  | some pub =>
    rw [hp] at h
    simp only at h
    obtain ⟨⟨m, it⟩, hm, h⟩ := Res.bind_eq_ok.1 h
    have hi := readMsg_inv hm
    cases m with
    | certificateVerify cv =>
      simp only at h
      obtain ⟨⟨t, hId⟩, ht, h⟩ := Res.bind_eq_ok.1 h
      obtain ⟨digest, hd, h⟩ := Res.bind_eq_ok.1 h
      obtain ⟨ok, hok, h⟩ := Res.bind_eq_ok.1 h
      split at h
      · cases h
      · rename_i hne
        obtain ⟨⟨b, c'⟩, hb, h⟩ := Res.bind_eq_ok.1 h
        obtain ⟨f, hf, h⟩ := Res.bind_eq_ok.1 h
        simp only [Res.ok.injEq, Prod.mk.injEq] at h
        obtain ⟨rfl, rfl⟩ := h
        have hok' : ok = true := by simpa using hne
        subst hok'
        refine ⟨some (cv, b), by simp [hi], ?_, by simpa [Spec.bytesOf] using write_app hf, by simp, ?_⟩
        · rintro x ⟨⟩
          exact ⟨.certificateVerify c', by simp [Message.marshal, hb, Res.map]⟩
        · rintro x pub' ⟨⟩ ⟨⟩
          exact ⟨t, hId, digest, ht, hd, hok⟩
    | _ => cases h

theorem nextProtoPhase_inv {S : ServerHs} {fh fh' : FinishedHash} {items items' : List Item} (h : nextProtoPhase S fh items = .ok (fh', items')) :
    ∃ np : Option (NextProtoMsg × Bytes), items = (np.map fun x => Item.msg (.nextProto x.1)).toList ++ items' ∧
      (∀ x, np = some x → Spec.Encodes (.nextProto x.1) x.2) ∧ fh' = fh.app (Spec.bytesOf np) ∧ (np.isSome = S.npn) := by
  unfold nextProtoPhase at h
  cases hn : S.npn with
  | false =>
    rw [if_neg (by simp [hn])] at h
    simp only [Res.ok.injEq, Prod.mk.injEq] at h
    obtain ⟨rfl, rfl⟩ := h
    exact ⟨none, by simp, by simp, by simp [Spec.bytesOf, app_nil], rfl⟩
  | true =>
    rw [if_pos hn] at h
    obtain ⟨⟨m, it⟩, hm, h⟩ := Res.bind_eq_ok.1 h
    have hi := readMsg_inv hm
    cases m with
    | nextProto np =>
      simp only at h
      obtain ⟨⟨b, c'⟩, hb, h⟩ := Res.bind_eq_ok.1 h
      obtain ⟨f, hf, h⟩ := Res.bind_eq_ok.1 h
      simp only [Res.ok.injEq, Prod.mk.injEq] at h
      obtain ⟨rfl, rfl⟩ := h
      refine ⟨some (np, b), by simp [hi], ?_, by simpa [Spec.bytesOf] using write_app hf, rfl⟩
      rintro x ⟨⟩
      exact ⟨.nextProto c', by simp [Message.marshal, hb, Res.map]⟩
    | _ => cases h

theorem serverReadFinished_hash {S : ServerHs} {master : Bytes} {fh fh' : FinishedHash} {items items' : List Item}
    (h : serverReadFinished S master fh items = .ok (fh', items')) :
    ∃ (np : Option (NextProtoMsg × Bytes)) (fin : FinishedMsg) (f2 : FinishedHash),
      items = [Item.ccs] ++ (np.map fun x => Item.msg (.nextProto x.1)).toList ++ [Item.msg (.finished fin)] ++ items' ∧
      (∀ x, np = some x → Spec.Encodes (.nextProto x.1) x.2) ∧ (np.isSome = S.npn) ∧
      (fh.app (Spec.bytesOf np)).clientSum master = .ok (fin.verifyData, f2) ∧
      ∃ fb, Spec.Encodes (.finished fin) fb ∧ fh' = f2.app fb := by
  unfold serverReadFinished at h
  obtain ⟨it, hc, h⟩ := Res.bind_eq_ok.1 h
  have hi : items = .ccs :: it := by
    cases items with
    | nil => cases hc
    | cons x r =>
      cases x with
      | msg m => cases hc
      | ccs => simp only [readCCS, Res.ok.injEq] at hc; rw [hc]
  obtain ⟨⟨f1, it1⟩, hn, h⟩ := Res.bind_eq_ok.1 h
  obtain ⟨np, hi1, hnb, hf1, hnp⟩ := nextProtoPhase_inv hn
  simp only at h
  obtain ⟨⟨m, it2⟩, hm, h⟩ := Res.bind_eq_ok.1 h
  have hi2 := readMsg_inv hm
  cases m with
  | finished fin =>
    simp only at h
    obtain ⟨⟨verify, f2⟩, hv, h⟩ := Res.bind_eq_ok.1 h
    simp only at h
    split at h
    · cases h
    · rename_i hne
      push Not at hne
      obtain ⟨⟨b, c'⟩, hb, h⟩ := Res.bind_eq_ok.1 h
      obtain ⟨f, hf, h⟩ := Res.bind_eq_ok.1 h
      simp only [Res.ok.injEq, Prod.mk.injEq] at h
      obtain ⟨rfl, rfl⟩ := h
      refine ⟨np, fin, f2, by rw [hi, hi1, hi2]; simp, hnb, hnp, ?_⟩
      rw [← hf1, hv, hne.2]
      exact ⟨rfl, b, ⟨.finished c', by rw [Message.marshal, hb]; rfl⟩, write_app hf⟩
  | _ => cases h

theorem serverReadFinished_inv {S : ServerHs} {master : Bytes} {fh fh' : FinishedHash} {items items' : List Item}
    (h : serverReadFinished S master fh items = .ok (fh', items')) :
    ∃ (np : Option (NextProtoMsg × Bytes)) (fin : FinishedMsg) (f2 : FinishedHash),
      items = [Item.ccs] ++ (np.map fun x => Item.msg (.nextProto x.1)).toList ++ [Item.msg (.finished fin)] ++ items' ∧
      (∀ x, np = some x → Spec.Encodes (.nextProto x.1) x.2) ∧ (np.isSome = S.npn) ∧
      (fh.app (Spec.bytesOf np)).clientSum master = .ok (fin.verifyData, f2) := by
  obtain ⟨np, fin, f2, h1, h2, h3, h4, _⟩ := serverReadFinished_hash h
  exact ⟨np, fin, f2, h1, h2, h3, h4⟩

/-! ### the digests -/

theorem version_cases {E : AuthEnv} {S : ServerHs} {h0 : FinishedHash} (h : S.newHash E = .ok h0) (hg : S.gm = false) : AnyVersion S.vers := by
  unfold ServerHs.newHash newFinishedHash at h
  rw [hg, if_neg (by simp)] at h
  obtain ⟨f, hf, _⟩ := Res.bind_eq_ok.1 h
  unfold prfForVersion at hf
  unfold AnyVersion Spec.Supported
  by_cases h1 : S.vers = vSSL30
  · exact .inl h1
  rw [if_neg h1] at hf
  by_cases h2 : S.vers = vTLS10 ∨ S.vers = vTLS11
  · tauto
  rw [if_neg h2] at hf
  by_cases h3 : S.vers = vTLS12
  · tauto
  rw [if_neg h3] at hf
  by_cases h4 : S.vers = vGMSSL
  · tauto
  rw [if_neg h4] at hf
  cases hf

/-- what `newFinishedHash` returns for version 0x0101 -/
def stdHash0101 (hs : Hashes) : FinishedHash where
  hash := hs.sha1
  client := []
  server := []
  clientMD5 := some (hs.md5, [])
  serverMD5 := some (hs.md5, [])
  buffer := none
  version := vGMSSL
  prf := fun r sec l sd => .ok (prf12 sm3 r sec l sd)

/-- a GM hash object, or a standard one at version 0x0101, or one that `fresh_holds` is about -/
theorem newHash_cases {E : AuthEnv} {S : ServerHs} {h0 : FinishedHash} (h : S.newHash E = .ok h0) :
    (S.gm = true ∧ h0 = newFinishedHashGM) ∨
    (S.gm = false ∧ S.vers = vGMSSL ∧ h0 = stdHash0101 E.hashes) ∨
    (S.gm = false ∧ S.vers ≠ vGMSSL ∧ AnyVersion S.vers ∧ freshHash E.hashes S.vers S.suite = .ok h0) := by
  cases hg : S.gm with
  | true =>
    unfold ServerHs.newHash at h
    rw [hg, if_pos rfl] at h
    simp only [Res.ok.injEq] at h
    exact .inl ⟨rfl, h.symm⟩
  | false =>
    have hv := version_cases h hg
    unfold ServerHs.newHash at h
    rw [hg, if_neg (by simp)] at h
    by_cases hgm : S.vers = vGMSSL
    · refine .inr (.inl ⟨rfl, hgm, ?_⟩)
      rw [hgm] at h
      simp [newFinishedHash, prfForVersion, hashForVersion, vSSL30, vTLS10, vTLS11, vTLS12, vGMSSL] at h
      rw [← h]; rfl
    · refine .inr (.inr ⟨rfl, hgm, hv, ?_⟩)
      rw [freshHash, if_neg hgm, h]

theorem fresh_app {hs : Hashes} {v : Version} {su : Suite} {h0 : FinishedHash} (hv : AnyVersion v) (h : freshHash hs v su = .ok h0) (t : Bytes) :
    Holds hs v su (h0.app t) t t t t := by
  obtain ⟨h0', e0, H0⟩ := fresh_holds hs v su hv
  rw [h] at e0
  cases e0
  obtain ⟨h1, e1, H1⟩ := write_holds H0 t
  rw [write_app e1] at H1
  simpa using H1

theorem fresh_buffer {hs : Hashes} {v : Version} {su : Suite} {h0 : FinishedHash} (h : freshHash hs v su = .ok h0) (hv : v = vTLS12 ∨ v = vSSL30) (t : Bytes) :
    (h0.app t).buffer = some t := by
  have : h0.buffer = some [] := by
    rcases hv with rfl | rfl
    · simp only [freshHash, newFinishedHash, prfForVersion, hashForVersion] at h
      by_cases h3 : su.sha384 = true <;> simp [vSSL30, vTLS10, vTLS11, vTLS12, vGMSSL, h3] at h <;> rw [← h]
    · simp only [freshHash, newFinishedHash, prfForVersion, hashForVersion] at h
      simp [vSSL30, vTLS12, vGMSSL] at h
      rw [← h]
  simp [FinishedHash.app, this]

theorem digest_spec {E : AuthEnv} {S : ServerHs} {h0 : FinishedHash} (h : S.newHash E = .ok h0) (t : Bytes) (pk ec : Bool) (f : HashFn)
    (master D : Bytes) (hd : (h0.app t).hashForClientCertificate E.hashes pk ec f master = .ok D) :
    D = if S.gm then sm3.sum t
      else if S.vers = vTLS12 then f.sum t
      else if S.vers = vSSL30 then Spec.ssl3Finished E.hashes master [] t
      else if ec = true ∨ S.vers = vGMSSL then E.hashes.sha1.sum t
      else E.hashes.md5.sum t ++ E.hashes.sha1.sum t := by
  rcases newHash_cases h with ⟨hg, rfl⟩ | ⟨hg, hv, rfl⟩ | ⟨hg, hne, hv, hf⟩
  · rw [hg, if_pos rfl]
    unfold FinishedHash.hashForClientCertificate at hd
    cases ec <;> simp [FinishedHash.app, newFinishedHashGM, FinishedHash.sum, vGMSSL, vTLS12, vSSL30] at hd <;> exact hd.symm
  · rw [hg, hv]
    unfold FinishedHash.hashForClientCertificate at hd
    cases ec <;> simp [FinishedHash.app, FinishedHash.sum, stdHash0101, vGMSSL, vTLS12, vSSL30] at hd ⊢ <;> exact hd.symm
  · rw [hg, if_neg (by simp)]
    have H := fresh_app hv hf t
    rcases hv with e | e | e | e | e
    · have hb := fresh_buffer hf (.inr e) t
      rw [e] at H ⊢
      unfold FinishedHash.hashForClientCertificate at hd
      rw [hb, H.version] at hd
      cases pk with
      | false => simp at hd
      | true =>
        simp only [if_true, Res.ok.injEq] at hd
        rw [← hd]
        simp only [finishedSum30, Spec.ssl3Finished, pads.1, pads.2.1, List.take_replicate]
        simp [vSSL30, vTLS12, vGMSSL]
    · have hs' : Spec.Supported S.vers := .inl e
      have hsum := sum_holds H hs'
      rw [e] at H hsum ⊢
      unfold FinishedHash.hashForClientCertificate at hd
      cases hb : (h0.app t).buffer <;> cases ec <;>
        simp [hb, H.version, hsum, H.hash, H.server, vTLS10, vSSL30, vTLS12, vGMSSL, Spec.transcriptHash] at hd ⊢ <;> exact hd.symm
    · have hs' : Spec.Supported S.vers := .inr (.inl e)
      have hsum := sum_holds H hs'
      rw [e] at H hsum ⊢
      unfold FinishedHash.hashForClientCertificate at hd
      cases hb : (h0.app t).buffer <;> cases ec <;>
        simp [hb, H.version, hsum, H.hash, H.server, vTLS11, vSSL30, vTLS12, vGMSSL, Spec.transcriptHash] at hd ⊢ <;> exact hd.symm
    · have hb := fresh_buffer hf (.inl e) t
      rw [e] at H ⊢
      unfold FinishedHash.hashForClientCertificate at hd
      rw [hb, H.version] at hd
      simp [vSSL30, vTLS12] at hd ⊢
      exact hd.symm
    · exact absurd e hne

theorem discard_app (h : FinishedHash) (t : Bytes) : h.discardHandshakeBuffer.app t = (h.app t).discardHandshakeBuffer := rfl

theorem clientSum_discard {h : FinishedHash} {master vd : Bytes} {h' : FinishedHash} (e : h.discardHandshakeBuffer.clientSum master = .ok (vd, h')) :
    ∃ g, h.clientSum master = .ok (vd, g) := by
  obtain ⟨a1, a2, a3, a4, a5, a6, a7, a8⟩ := h
  generalize hh : (⟨a1, a2, a3, a4, a5, a6, a7, a8⟩ : FinishedHash) = h
  have e' : (⟨a1, a2, a3, a4, a5, none, a7, a8⟩ : FinishedHash).clientSum master = .ok (vd, h') := e
  unfold FinishedHash.clientSum at e' ⊢
  subst hh
  clear e
  rename' e' => e
  dsimp only at e ⊢
  by_cases hv : a7 = vSSL30
  · rw [if_pos hv] at e ⊢
    cases a4 with
    | none => cases e
    | some m =>
      simp only [Res.ok.injEq, Prod.mk.injEq] at e
      exact ⟨_, by simp only [Res.ok.injEq, Prod.mk.injEq]; exact ⟨e.1, rfl⟩⟩
  · rw [if_neg hv] at e ⊢
    obtain ⟨sm, h1, e⟩ := Res.bind_eq_ok.1 e
    obtain ⟨out, h2, e⟩ := Res.bind_eq_ok.1 e
    simp only [Res.ok.injEq, Prod.mk.injEq] at e
    have h1' : (⟨a1, a2, a3, a4, a5, a6, a7, a8⟩ : FinishedHash).sum = .ok sm := h1
    rw [h1', Res.ok_bind, h2, Res.ok_bind, e.1]
    exact ⟨_, rfl⟩

theorem finished_spec {E : AuthEnv} {S : ServerHs} {h0 h' : FinishedHash} (h : S.newHash E = .ok h0) (t master vd : Bytes)
    (hd : (h0.app t).clientSum master = .ok (vd, h')) : vd = Spec.clientFinishedData E S.gm S.vers S.suite master t := by
  unfold Spec.clientFinishedData
  rcases newHash_cases h with ⟨hg, rfl⟩ | ⟨hg, hv, rfl⟩ | ⟨hg, hne, hv, hf⟩
  · rw [hg, if_pos rfl]
    have H := fresh_app (hs := E.hashes) (v := vGMSSL) (su := S.suite) (.inr (.inr (.inr (.inr rfl)))) (by rw [freshHash, if_pos rfl]) t
    obtain ⟨g, _, _, e, _⟩ := clientSum_holds H (.inr (.inr (.inr (.inr rfl)))) master
    rw [hd] at e
    simp only [Res.ok.injEq, Prod.mk.injEq] at e
    exact e.1
  · rw [hg, if_neg (by simp), if_pos hv]
    unfold FinishedHash.clientSum FinishedHash.sum at hd
    simp only [FinishedHash.app, stdHash0101] at hd
    rw [if_neg (by decide), if_pos (Or.inr trivial), Res.ok_bind, Res.ok_bind] at hd
    simp only [Res.ok.injEq, Prod.mk.injEq] at hd
    rw [← hd.1, show str "client finished" = clientFinishedLabel by decide +kernel]
    simp [prf12, pHash_eq, zeros]
  · rw [hg, if_neg (by simp), if_neg hne]
    obtain ⟨g, _, _, e, _⟩ := clientSum_holds (fresh_app hv hf t) hv master
    rw [hd] at e
    simp only [Res.ok.injEq, Prod.mk.injEq] at e
    exact e.1

/-! ### the signature -/

theorem supported_schemes (a : U16) (h : a ∈ supportedSignatureAlgorithms) :
    ∃ kind, (kind = 1 ∨ kind = 3) ∧ Spec.SchemeIs a kind ∧ lookupTLSHash a = some (Spec.schemeHash a) ∧
      signatureFromSignatureScheme a = (if kind = 1 then .pkcs1v15 else .ecdsa) := by
  have key : (a.toNat % 256 = 1 ∨ a.toNat % 256 = 3) ∧
      (a.toNat / 256 = 2 ∨ a.toNat / 256 = 4 ∨ a.toNat / 256 = 5 ∨ a.toNat / 256 = 6) ∧ lookupTLSHash a = some (Spec.schemeHash a) ∧
      signatureFromSignatureScheme a = (if a.toNat % 256 = 1 then .pkcs1v15 else .ecdsa) := by
    simp only [supportedSignatureAlgorithms, List.mem_cons, List.not_mem_nil, or_false] at h
    rcases h with rfl | rfl | rfl | rfl | rfl | rfl | rfl | rfl <;> decide
  obtain ⟨h1, h2, h3, h4⟩ := key
  exact ⟨a.toNat % 256, h1, ⟨rfl, h2⟩, h3, h4⟩

/-- the algorithm the server picks for a CertificateVerify labelled `a` -/
theorem pick_spec {pub : X509.Pub} {a : U16} {v : Version} {t : SigType} {h : HashId}
    (e : pickSignatureAlgorithm pub [a] supportedSignatureAlgorithms v = .ok (t, h)) :
    (v.toNat < vTLS12.toNat → (∃ k, pub = .rsa k ∧ t = .pkcs1v15 ∧ h = .md5sha1) ∨ (∃ k, pub = .ecdsa k ∧ t = .ecdsa) ∨ (∃ x y, pub = .sm2 x y ∧ t = .sm2)) ∧
    (vTLS12.toNat ≤ v.toNat → h = Spec.schemeHash a ∧ ((∃ k, pub = .rsa k ∧ t = .pkcs1v15 ∧ Spec.SchemeIs a 1) ∨
      (∃ k, pub = .ecdsa k ∧ t = .ecdsa ∧ Spec.SchemeIs a 3) ∨ (∃ x y, pub = .sm2 x y ∧ t = .ecdsa))) := by
  unfold pickSignatureAlgorithm at e
  by_cases hv : v.toNat < vTLS12.toNat
  · refine ⟨fun _ => ?_, fun h' => absurd hv (by omega)⟩
    rw [if_pos (.inl hv)] at e
    cases pub with
    | rsa k =>
      simp only [if_pos hv, Res.ok.injEq, Prod.mk.injEq] at e
      exact .inl ⟨k, rfl, e.1.symm, e.2.symm⟩
    | ecdsa k =>
      simp only [Res.ok.injEq, Prod.mk.injEq] at e
      exact .inr (.inl ⟨k, rfl, e.1.symm⟩)
    | sm2 x y =>
      simp only [Res.ok.injEq, Prod.mk.injEq] at e
      exact .inr (.inr ⟨x, y, rfl, e.1.symm⟩)
    | dsa k => cases e
    | none => cases e
  · refine ⟨fun h' => absurd h' hv, fun _ => ?_⟩
    rw [if_neg (by simp [hv])] at e
    unfold pickLoop at e
    by_cases hm : a ∉ supportedSignatureAlgorithms
    · rw [if_pos hm] at e; simp [pickLoop] at e
    · rw [if_neg hm] at e
      push Not at hm
      obtain ⟨kind, hk, hs, hl, hsig⟩ := supported_schemes a hm
      rw [hl, hsig] at e
      rcases hk with rfl | rfl
      · cases pub with
        | rsa k =>
          simp at e
          exact ⟨e.2.symm, .inl ⟨k, rfl, e.1.symm, hs⟩⟩
        | ecdsa k => simp [pickLoop] at e
        | sm2 x y => simp [pickLoop] at e
        | dsa k => simp at e
        | none => simp at e
      · cases pub with
        | rsa k => simp [pickLoop] at e
        | ecdsa k =>
          simp at e
          exact ⟨e.2.symm, .inr (.inl ⟨k, rfl, e.1.symm, hs⟩)⟩
        | sm2 x y =>
          simp at e
          exact ⟨e.2.symm, .inr (.inr ⟨x, y, rfl, e.1.symm⟩)⟩
        | dsa k => simp at e
        | none => simp at e

theorem possession_of {E : AuthEnv} {S : ServerHs} {h0 : FinishedHash} (h : S.newHash E = .ok h0) {t : Bytes} {pub : X509.Pub} {a : U16}
    {ty : SigType} {hId : HashId} {master D sig : Bytes} (hk : keyAllowed S.gm pub = true)
    (hp : pickSignatureAlgorithm pub [a] supportedSignatureAlgorithms S.vers = .ok (ty, hId))
    (hd : (h0.app t).hashForClientCertificate E.hashes (ty = .pkcs1v15) (ty = .ecdsa) (E.hashFn hId) master = .ok D)
    (hv : verifyHandshakeSignature E ty pub hId D sig = .ok true) :
    Spec.Possession E S.gm S.vers a master t sig pub := by
  have hD := digest_spec h t _ _ _ _ _ hd
  obtain ⟨p1, p2⟩ := pick_spec hp
  have v12 : S.vers = vTLS12 → vTLS12.toNat ≤ S.vers.toNat := by rintro e; rw [e]
  have hDe : ∀ ec : Bool, (decide (ty = .ecdsa)) = ec → D = Spec.signedDigest E S.gm S.vers a ec master t := by
    intro ec he
    rw [hD, he]
    unfold Spec.signedDigest
    by_cases hg : S.gm = true
    · rw [if_pos hg, if_pos hg]
    · rw [if_neg hg, if_neg hg]
      by_cases e12 : S.vers = vTLS12
      · rw [if_pos e12, if_pos e12, (p2 (v12 e12)).1]
      · rw [if_neg e12, if_neg e12]
  by_cases hlt : S.vers.toNat < vTLS12.toNat
  · rcases p1 hlt with ⟨k, rfl, rfl, rfl⟩ | ⟨k, rfl, rfl⟩ | ⟨x, y, rfl, rfl⟩
    · simp only [verifyHandshakeSignature, Res.ok.injEq] at hv
      refine ⟨fun hge => absurd hlt (by omega), ?_⟩
      rw [if_pos hlt, ← hDe false (by decide)]
      exact hv
    · simp only [verifyHandshakeSignature] at hv
      refine ⟨fun hge => absurd hlt (by omega), ?_⟩
      split at hv
      · simp at hv
      · rename_i r s hu
        split at hv
        · simp at hv
        · rename_i hpos
          push Not at hpos
          simp only [Res.ok.injEq] at hv
          exact ⟨r, s, hu, hpos.1, hpos.2, by rw [← hDe true (by decide)]; exact hv⟩
    · simp only [verifyHandshakeSignature, Sm2.pubVerify] at hv
      have hg : S.gm = true := hk
      rw [hg, if_pos rfl] at hD
      refine ⟨hg, hlt, ?_⟩
      split at hv
      · simp at hv
      · rename_i r s hu
        exact ⟨r, s, hu, by rw [← hD]; exact hv⟩
  · obtain ⟨rfl, hor⟩ := p2 (by omega)
    rcases hor with ⟨k, rfl, rfl, hs⟩ | ⟨k, rfl, rfl, hs⟩ | ⟨x, y, rfl, rfl⟩
    · simp only [verifyHandshakeSignature, Res.ok.injEq] at hv
      refine ⟨fun _ => hs, ?_⟩
      rw [if_neg hlt, ← hDe false (by decide)]
      exact hv
    · simp only [verifyHandshakeSignature] at hv
      refine ⟨fun _ => hs, ?_⟩
      split at hv
      · simp at hv
      · rename_i r s hu
        split at hv
        · simp at hv
        · rename_i hpos
          push Not at hpos
          simp only [Res.ok.injEq] at hv
          exact ⟨r, s, hu, hpos.1, hpos.2, by rw [← hDe true (by decide)]; exact hv⟩
    · simp [verifyHandshakeSignature] at hv

/-! ### C47 -/

/-- what the server demands of the certificates `certs` it received, under the policy `auth` -/
structure Spec.PolicyMet (E : AuthEnv) (S : ServerHs) (certs : List X509.Cert) (chains : List (List X509.Cert)) : Prop where
  required : S.auth = .requireAnyClientCert ∨ S.auth = .requireAndVerifyClientCert → certs ≠ []
  unwanted : S.auth = .noClientCert → certs = []
  verified : S.auth = .verifyClientCertIfGiven ∨ S.auth = .requireAndVerifyClientCert → ∀ leaf rest, certs = leaf :: rest →
    X509.verify E.x509 E.entrust E.system leaf
      { dnsName := [], intermediates := some (X509.poolOf rest), roots := S.clientCAs, now := S.now, keyUsages := [2] } = some (.ok chains)
  /-- nothing is reported as verified otherwise -/
  unverified : S.auth ≠ .verifyClientCertIfGiven → S.auth ≠ .requireAndVerifyClientCert → chains = []

theorem rank_verify (a : ClientAuth) : 3 ≤ a.rank ↔ a = .verifyClientCertIfGiven ∨ a = .requireAndVerifyClientCert := by
  cases a <;> simp [ClientAuth.rank]

theorem policyMet_of {E : AuthEnv} {S : ServerHs} {p : PeerId} (hv : verifyClientChain E S p.certs = .ok p.chains)
    (h1 : S.auth = .requireAnyClientCert ∨ S.auth = .requireAndVerifyClientCert → p.certs ≠ []) (h2 : S.auth = .noClientCert → p.certs = []) :
    Spec.PolicyMet E S p.certs p.chains := by
  obtain ⟨a, b⟩ := verifyClientChain_inv hv
  refine ⟨h1, h2, fun h => b ((rank_verify _).2 h), fun n1 n2 => a (.inl ?_)⟩
  have := (rank_verify S.auth).not.2 (by tauto)
  omega

/-- what a completed full handshake of the server was, with the hash object -/
theorem serverFull_inv (E : AuthEnv) (S : ServerHs) (server : List Bytes) (items : List Item) (d : ServerDone)
    (h : serverFull E S server items = .ok d) :
    ∃ (F : Spec.Flight items d.rest) (h0 f2 : FinishedHash) (fb : Bytes),
      (S.newHash E = .ok h0 ∧ Spec.Encodes (.finished F.finished) fb ∧ d.fh = f2.app fb ∧ F.npn.isSome = S.npn ∧
        (h0.app (F.finishedPart server)).discardHandshakeBuffer.clientSum d.master = .ok (F.finished.verifyData, f2)) ∧
      (F.cert = none ↔ S.auth = .noClientCert) ∧
      parseAll E.parse (Spec.sentCerts F.cert) = some d.peer.certs ∧
      Spec.PolicyMet E S d.peer.certs d.peer.chains ∧
      (∀ f, S.verifyPeer = some f → F.cert ≠ none → f (Spec.sentCerts F.cert) d.peer.chains = true) ∧
      (F.verify = none ↔ d.peer.certs = []) ∧
      (∀ leaf more cv b, d.peer.certs = leaf :: more → F.verify = some (cv, b) →
        Spec.Possession E S.gm S.vers cv.signatureAlgorithm d.master (F.signedPart server) cv.signature leaf.pub) ∧
      (∃ pre, S.processCKX F.ckx.1.ciphertext = .ok pre ∧
        masterFromPreMasterSecret E.hashes S.vers S.suite pre S.clientRandom S.serverRandom = .ok d.master) ∧
      F.finished.verifyData = Spec.clientFinishedData E S.gm S.vers S.suite d.master (F.finishedPart server) := by
  unfold serverFull at h
  obtain ⟨h0, hh0, h⟩ := Res.bind_eq_ok.1 h
  dsimp only at h
  obtain ⟨f1, hf1, h⟩ := Res.bind_eq_ok.1 h
  obtain ⟨⟨p, f2, it1⟩, hc, h⟩ := Res.bind_eq_ok.1 h
  dsimp only at h
  obtain ⟨⟨master, f3, it2⟩, hk, h⟩ := Res.bind_eq_ok.1 h
  dsimp only at h
  obtain ⟨⟨f4, it3⟩, hcv, h⟩ := Res.bind_eq_ok.1 h
  dsimp only at h
  obtain ⟨⟨f5, it4⟩, hfin, h⟩ := Res.bind_eq_ok.1 h
  simp only [Res.ok.injEq] at h
  subst h
  obtain ⟨cert, hi1, hcb, hf2, hcn, hp0, hp1⟩ := clientCertPhase_inv hc
  obtain ⟨ckx, kb, hi2, hkb, hf3, hpre⟩ := ckxPhase_inv hk
  obtain ⟨cv, hi3, hvb, hf4, hvn, hsig⟩ := certVerifyPhase_inv hcv
  obtain ⟨np, fin, f6, hi4, hnb, hnn, hsum, fb, hfb, hf5⟩ := serverReadFinished_hash hfin
  have hf1' := writes_app hf1
  -- the peer
  have hpeer : parseAll E.parse (Spec.sentCerts cert) = some p.certs ∧ verifyClientChain E S p.certs = .ok p.chains ∧
      (∀ f, S.verifyPeer = some f → cert ≠ none → f (Spec.sentCerts cert) p.chains = true) ∧
      (p.certs = [] ↔ p.pub = none) ∧ (∀ leaf rest, p.certs = leaf :: rest → p.pub = some leaf.pub ∧ keyAllowed S.gm leaf.pub = true) ∧
      (S.auth = .requireAnyClientCert ∨ S.auth = .requireAndVerifyClientCert → p.certs ≠ []) ∧ (S.auth = .noClientCert → p.certs = []) := by
    cases cert with
    | none =>
      have ha := hcn.1 rfl
      rw [hp0 rfl]
      refine ⟨rfl, rfl, fun _ _ hne => absurd rfl hne, by simp, fun _ _ he => (by cases he), ?_, fun _ => rfl⟩
      rw [ha]
      rintro (h | h) <;> cases h
    | some x =>
      obtain ⟨hp, hreq⟩ := hp1 x rfl
      obtain ⟨g1, g2, g3, g4, g5⟩ := processCerts_inv hp
      refine ⟨g1, g2, fun f hf _ => g3 f hf, ⟨g4, fun hn => ?_⟩, g5, fun ha => ?_, fun ha => ?_⟩
      · cases hcs : p.certs with
        | nil => rfl
        | cons l r =>
          have := (g5 l r hcs).1
          rw [hn] at this; cases this
      · have := parseAll_length g1
        have h2 := hreq ha
        intro he
        rw [he] at this
        exact h2 (List.length_eq_zero_iff.1 this.symm)
      · exact absurd (hcn.2 ha) (by simp)
  obtain ⟨q1, q2, q3, q4, q5, q6, q7⟩ := hpeer
  have hf4' : f4.discardHandshakeBuffer.app (Spec.bytesOf np) = (h0.app (server.flatten ++ Spec.bytesOf cert ++ kb ++ Spec.bytesOf cv ++ Spec.bytesOf np)).discardHandshakeBuffer := by
    rw [hf4, hf3, hf2, hf1', discard_app]
    by_cases ha : S.auth = .noClientCert
    · rw [if_pos ha, app_app, app_app, app_app, app_app]
      simp only [discard_app, List.append_assoc]
      rfl
    · rw [if_neg ha, app_app, app_app, app_app, app_app]
      simp only [List.append_assoc]
  rw [hf4'] at hsum
  refine ⟨⟨cert, (ckx, kb), cv, np, fin, ?_, hcb, hkb, hvb, hnb⟩, h0, f6, fb, ⟨hh0, hfb, hf5, hnn, ?_⟩, hcn, q1, policyMet_of q2 q6 q7, q3, hvn.trans q4.symm, ?_, hpre, ?_⟩
  · rw [hi1, hi2, hi3, hi4]; simp
  · exact hsum
  · intro leaf more cvm b hl hcvm
    simp only at hcvm
    obtain ⟨hpub, hka⟩ := q5 leaf more hl
    obtain ⟨ty, hId, D, hpick, hdig, hver⟩ := hsig (cvm, b) leaf.pub hcvm hpub
    have hauth : S.auth ≠ .noClientCert := fun ha => by
      rw [q7 ha] at hl; cases hl
    rw [if_neg hauth] at hf1'
    have hf3' : f3 = h0.app (Spec.Flight.signedPart (items := items) (rest := it4) ⟨cert, (ckx, kb), cv, np, fin,
        by rw [hi1, hi2, hi3, hi4]; simp, hcb, hkb, hvb, hnb⟩ server) := by
      rw [hf3, hf2, hf1', app_app, app_app]
      simp [Spec.Flight.signedPart]
    rw [hf3'] at hdig
    exact possession_of hh0 hka hpick hdig hver
  · obtain ⟨g, hg⟩ := clientSum_discard hsum
    exact finished_spec hh0 _ _ _ hg

/-- **C47.** A server that completes a full handshake - standard or GM, at any version and under any policy, whatever the client sends -
received the client's messages in the order of `Spec.Flight`; it holds exactly the certificates the client sent; they meet the policy; if there
is one, the client sent a CertificateVerify whose signature by the leaf's key covers all handshake messages before it; and the client's Finished
carries the verify data over all handshake messages before it, under a master secret derived from the client's key exchange message. -/
theorem C47_full_handshake (E : AuthEnv) (S : ServerHs) (server : List Bytes) (items : List Item) (d : ServerDone)
    (h : serverFull E S server items = .ok d) :
    ∃ F : Spec.Flight items d.rest,
      (F.cert = none ↔ S.auth = .noClientCert) ∧
      parseAll E.parse (Spec.sentCerts F.cert) = some d.peer.certs ∧
      Spec.PolicyMet E S d.peer.certs d.peer.chains ∧
      (∀ f, S.verifyPeer = some f → F.cert ≠ none → f (Spec.sentCerts F.cert) d.peer.chains = true) ∧
      (F.verify = none ↔ d.peer.certs = []) ∧
      (∀ leaf more cv b, d.peer.certs = leaf :: more → F.verify = some (cv, b) →
        Spec.Possession E S.gm S.vers cv.signatureAlgorithm d.master (F.signedPart server) cv.signature leaf.pub) ∧
      (∃ pre, S.processCKX F.ckx.1.ciphertext = .ok pre ∧
        masterFromPreMasterSecret E.hashes S.vers S.suite pre S.clientRandom S.serverRandom = .ok d.master) ∧
      F.finished.verifyData = Spec.clientFinishedData E S.gm S.vers S.suite d.master (F.finishedPart server) := by
  obtain ⟨F, _, _, _, _, h⟩ := serverFull_inv E S server items d h
  exact ⟨F, h⟩

/-- **C47, corollary.** Under a verifying policy every chain the server reports is a valid chain from the client's leaf certificate to the
configured roots, through certificates the client sent, good for client authentication. -/
theorem C47_chains_valid (E : AuthEnv) (S : ServerHs) (server : List Bytes) (items : List Item) (d : ServerDone)
    (h : serverFull E S server items = .ok d) (ha : S.auth = .verifyClientCertIfGiven ∨ S.auth = .requireAndVerifyClientCert)
    (roots : X509.Pool) (hr : S.clientCAs = some roots) (hb : X509.Built roots) (hk : X509.KeysParsed roots)
    (leaf : X509.Cert) (rest : List X509.Cert) (hc : d.peer.certs = leaf :: rest)
    (hp : ∀ c ∈ rest, c.keyAlgUnknown = true → c.pub = .none) :
    d.peer.chains ≠ [] ∧ ∀ ch ∈ d.peer.chains,
      X509.Spec.ValidChain E.x509 E.entrust { dnsName := [], intermediates := some (X509.poolOf rest), roots := S.clientCAs, now := S.now, keyUsages := [2] }
        roots (X509.poolOf rest) leaf ch ∧ ∀ c ∈ ch, X509.Spec.Permits c 2 := by
  obtain ⟨F, _, _, hpol, _⟩ := C47_full_handshake E S server items d h
  have hv := hpol.verified ha leaf rest hc
  have hkr : X509.KeysParsed (X509.poolOf rest) := by
    intro c hcm
    exact hp c ((X509.C50_set rest).1.subset hcm)
  obtain ⟨s1, _, s3⟩ := X509.C48_sound E.x509 E.entrust E.system leaf _ roots (by simp [X509.resolveRoots, hr]) ⟨hb, hk⟩
    (by rintro q ⟨⟩; exact ⟨⟨rest, rfl⟩, hkr⟩) (by simp) d.peer.chains hv
  refine ⟨s1, fun ch hch => ?_⟩
  obtain ⟨v, hu⟩ := s3 ch hch
  refine ⟨v, ?_⟩
  rcases hu with hu | ⟨u, hu, hall⟩
  · simp [X509.Spec.Requested] at hu
  · simp only [X509.Spec.Requested, List.cons_ne_nil, if_false, List.mem_singleton] at hu
    rw [hu] at hall
    exact hall

theorem resumed_policy {E : AuthEnv} {S : ServerHs} {st : SessionState} {p : PeerId} (hp : Spec.PolicyOk S.auth st.certificates)
    (h : serverResume E S st = .ok p) : parseAll E.parse st.certificates = some p.certs ∧ Spec.PolicyMet E S p.certs p.chains := by
  unfold serverResume at h
  by_cases hl : st.certificates.length > 0
  · rw [if_pos hl] at h
    obtain ⟨g1, g2, _, _, _⟩ := processCerts_inv h
    have hlen := parseAll_length g1
    refine ⟨g1, policyMet_of g2 (fun _ he => ?_) fun ha => ?_⟩
    · rw [he] at hlen
      simp at hlen
      omega
    · rw [hp.2 ha] at hl
      simp at hl
  · rw [if_neg hl] at h
    simp only [Res.ok.injEq] at h
    subst h
    have he : st.certificates = [] := List.length_eq_zero_iff.1 (by omega)
    rw [he]
    exact ⟨rfl, policyMet_of rfl (fun ha _ => hp.1 ha he) fun _ => rfl⟩

/-- **C47, resumption.** A session the server resumes (standard server) meets the policy in force now: its certificates are those of the ticket, processed again. -/
theorem C47_resumed (E : AuthEnv) (S : ServerHs) (c : Config) (dec : Bytes → Option SessionState) (rand : Bytes) (ch : ClientHello) (r : ServerChoice)
    (hr : readClientHello c dec rand ch = .ok r) (st : SessionState) (hst : r.resume = some st) (ha : S.auth = c.clientAuth)
    (p : PeerId) (h : serverResume E S st = .ok p) :
    parseAll E.parse st.certificates = some p.certs ∧ Spec.PolicyMet E S p.certs p.chains := by
  obtain ⟨_, s, _, hres, _⟩ := (C51_server c dec rand ch r hr st).1 hst
  exact resumed_policy (ha ▸ hres.2.2.2.2.2) h

/-- **C47, resumption** by the GM server. -/
theorem C47_gm_resumed (E : AuthEnv) (S : ServerHs) (c : Config) (dec : Bytes → Option SessionState) (rand : Bytes) (ch : ClientHello) (r : ServerChoice)
    (hr : readClientHelloGM c dec rand ch = .ok r) (st : SessionState) (hst : r.resume = some st) (ha : S.auth = c.clientAuth)
    (p : PeerId) (h : serverResume E S st = .ok p) :
    parseAll E.parse st.certificates = some p.certs ∧ Spec.PolicyMet E S p.certs p.chains := by
  obtain ⟨_, s, _, hres, _⟩ := (C51_gm_server c dec rand ch r hr st).1 hst
  exact resumed_policy (ha ▸ hres.2.2.2.2.2) h

/-! ### a run that meets the hypotheses -/

/-- hash functions for the example -/
def toyHash (n : Nat) (h : 0 < n) : HashFn where
  sum := fun m => m.foldl (· + ·) 0 :: List.replicate (n - 1) 0
  size := n
  block := 64
  len := by intro m; simp; omega
  pos := h

def toyHashes : Hashes where
  md5 := toyHash 16 (by decide)
  md5_size := rfl
  sha1 := toyHash 20 (by decide)
  sha1_size := rfl
  sha256 := toyHash 32 (by decide)
  sha384 := toyHash 48 (by decide)

def toyCurve : Sm2.Curve where
  T := Unit
  scalarBaseMult := fun _ => (0, 0)
  scalarMult := fun _ _ _ => (0, 0)
  add := fun _ _ => (0, 0)
  opt := none

/-- an environment where byte 1 parses as an ECDSA certificate and the signature 3006020101020101 by key 9 over the SHA-256 digest verifies -/
def toyEnv : AuthEnv where
  x509 := { curve := toyCurve, parseIP := fun _ => none, ipEqual := fun _ _ => false, equalFold := fun a b => a == b, otherVerify := fun _ _ _ _ => some .badSignature }
  entrust := [0xee]
  system := none
  parse := fun b => if b = [1] then some { raw := [1], pub := .ecdsa [9], notAfter := 10 } else none
  hashes := toyHashes
  sha512 := toyHash 64 (by decide)
  rsaPKCS1 := fun _ _ _ _ => false
  rsaPSS := fun _ _ _ _ => false
  ecdsaVerify := fun k d r s => k == [9] && d.length == 32 && r == 1 && s == 1

def toyServer : ServerHs where
  auth := .requireAndVerifyClientCert
  clientCAs := some (X509.poolOf [{ raw := [1], pub := .ecdsa [9], notAfter := 10 }])
  now := 5
  verifyPeer := none
  gm := false
  vers := vTLS12
  suite := ⟨0xc02f, 16, 0, 4, .ecdheRSA, true, false, true, false, false, .aesGCM, .none⟩
  clientRandom := []
  serverRandom := []
  processCKX := fun b => .ok b
  keyLog := fun _ => true

/-- Certificate, ClientKeyExchange, CertificateVerify, ChangeCipherSpec, Finished -/
def toyItems (vd : Bytes) : List Item :=
  [.msg (.certificate { raw := none, certificates := [[1]] }), .msg (.clientKeyExchange { raw := none, ciphertext := [7] }),
   .msg (.certificateVerify { raw := none, hasSignatureAndHash := true, signatureAlgorithm := 0x0403, signature := [0x30, 6, 2, 1, 1, 2, 1, 1] }),
   .ccs, .msg (.finished { raw := none, verifyData := vd })]

def toyResult (vd : Bytes) : Option (List X509.Cert × List (List X509.Cert) × List Item) :=
  match serverFull toyEnv toyServer [[2, 0, 0, 0]] (toyItems vd) with
  | .ok d => some (d.peer.certs, d.peer.chains, d.rest)
  | _ => none

/-- the run completes with the client's certificate and one verified chain -/
example : toyResult (134 :: List.replicate 11 0) =
    some ([{ raw := [1], pub := .ecdsa [9], notAfter := 10 }], [[{ raw := [1], pub := .ecdsa [9], notAfter := 10 }]], []) := by decide +kernel

/-- and with other verify data it does not -/
example : toyResult (133 :: List.replicate 11 0) = none := by decide +kernel

end Verif.Tls
