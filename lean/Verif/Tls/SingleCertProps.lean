import Verif.Tls.HandshakeProps
import Verif.Tls.AgreeProps
/-!
C124: GM handshakes in the build with the tag `single_cert`, in which one certificate serves for signatures and for encryption: tls/gm_handshake_client.go,
tls/gm_handshake_server.go. The handshake itself is `clientFull`, `serverFlight` with `single := true`; C47, C54, C86, C88, C109 and C123 cover both builds.
-/
namespace Verif.Tls
open Verif Verif.Tls.Wire

/-! ### the server's choice -/

/-- tls/gm_handshake_server.go:113-270 `readClientHello`: as `readClientHelloGM`, but the certificate is the one `getCertificate` returns, which needs at least one element -/
def readClientHelloGMSingle (c : Config) (decrypt : Bytes → Option SessionState) (rand : Bytes) (ch : ClientHello) : Except Alert ServerChoice :=
  match c.mutualVersion ch.vers with
  | none => .error .protocolVersion
  | some vers =>
    if !ch.compressionMethods.contains 0 then .error .handshakeFailure
    else if rand.length < 32 then .error .internalError
    else if ch.secureRenegotiation.length ≠ 0 then .error .handshakeFailure
    else match chooseProtocol c ch with
      | .panic => .error .internalError
      | .err _ => .error .internalError
      | .ok (alpn, npn) =>
        match c.selectCertificate ch with
        | none => .error .internalError
        | some cert =>
          if cert.chain.length < 1 then .error .internalError
          else
            match checkForResumption c decrypt setCipherSuiteGM vers ch with
            | (some (s, suite), _) =>
              .ok { vers := vers, suite := suite, resume := some s, alpn := alpn, npn := npn, cert := some cert, random := rand.take 32 }
            | (none, before) =>
              let (preference, supported) :=
                if c.preferServerCipherSuites then (c.suitesGM, ch.cipherSuites) else (ch.cipherSuites, c.suitesGM)
              match chooseSuite (fun id => setCipherSuiteGM id vers supported) before preference with
              | none => .error .handshakeFailure
              | some suite =>
                if scsvRefuses c.effMax ch.vers ch.cipherSuites then .error .inappropriateFallback
                else .ok { vers := vers, suite := suite, resume := none, alpn := alpn, npn := npn, cert := some cert, random := rand.take 32 }

/-- the single-certificate server decides as the two-certificate server does that has the selected certificate configured -/
theorem single_as_dual (c : Config) (dec : Bytes → Option SessionState) (rand : Bytes) (ch : ClientHello) (r : ServerChoice) :
    readClientHelloGMSingle c dec rand ch = .ok r ↔
      ∃ cert, c.selectCertificate ch = some cert ∧ cert.chain ≠ [] ∧ readClientHelloGM { c with certificates := [cert, cert] } dec rand ch = .ok r := by
  unfold readClientHelloGMSingle readClientHelloGM
  have e1 : ∀ l, ({ c with certificates := l } : Config).mutualVersion ch.vers = c.mutualVersion ch.vers := fun _ => rfl
  have e2 : ∀ l, chooseProtocol { c with certificates := l } ch = chooseProtocol c ch := fun _ => rfl
  have e3 : ∀ l v, checkForResumption { c with certificates := l } dec setCipherSuiteGM v ch = checkForResumption c dec setCipherSuiteGM v ch := fun _ _ => rfl
  have e4 : ∀ l, ({ c with certificates := l } : Config).suitesGM = c.suitesGM := fun _ => rfl
  have e5 : ∀ l, ({ c with certificates := l } : Config).effMax = c.effMax := fun _ => rfl
  simp only [e1, e2, e3, e4, e5]
  cases c.mutualVersion ch.vers with
  | none => simp
  | some vers =>
    dsimp only
    split
    · simp
    split
    · simp
    split
    · simp
    cases chooseProtocol c ch with
    | panic => simp
    | err _ => simp
    | ok p =>
      obtain ⟨alpn, npn⟩ := p
      dsimp only
      cases c.selectCertificate ch with
      | none => simp
      | some cert =>
        dsimp only
        by_cases hl : cert.chain = []
        · simp [hl]
        · have : ¬ cert.chain.length < 1 := by
            have := List.length_pos_iff.2 hl
            omega
          rw [if_neg this]
          constructor
          · intro h
            exact ⟨cert, rfl, hl, h⟩
          · rintro ⟨x, hx, _, h⟩
            cases hx
            exact h

/-- **C124, the server's choice.** A server of the `single_cert` build that answers a ClientHello uses the highest common version and a GM suite that both sides named, the first of those by
the preference in force if it does not resume; and it presents the certificate chosen for the requested name (C40), which the default build ignores. -/
theorem C124_server (c : Config) (dec : Bytes → Option SessionState) (rand : Bytes) (ch : ClientHello) (r : ServerChoice)
    (h : readClientHelloGMSingle c dec rand ch = .ok r) :
    r.cert = c.selectCertificate ch ∧ (∀ cert, r.cert = some cert → cert.chain ≠ []) ∧ r.cert ≠ none ∧
      (c.effMin.toNat ≤ c.effMax.toNat → Spec.HighestMutual c.effMin.toNat c.effMax.toNat ch.vers.toNat r.vers.toNat) ∧
      Spec.MutualGM c ch r.suite ∧ (c.cipherSuites = none → r.resume = none) ∧ chooseProtocol c ch = .ok (r.alpn, r.npn) := by
  obtain ⟨cert, hs, hn, hd⟩ := (single_as_dual c dec rand ch r).1 h
  obtain ⟨_, hp, _, hc, _⟩ := readClientHelloGM_inv hd
  refine ⟨hc.trans hs.symm, ?_, ?_, ?_, ?_, ?_, hp⟩
  · intro x hx
    rw [hc] at hx
    cases hx
    exact hn
  · rw [hc]; simp
  · intro hr
    exact C37_server { c with certificates := [cert, cert] } hr dec rand ch r (.inr hd)
  · exact C38_gm_always_mutual { c with certificates := [cert, cert] } dec rand ch r hd
  · intro hcs
    exact C51_gm_default_never_resumes { c with certificates := [cert, cert] } hcs dec rand ch r hd

/-- a certificate is found by name: the case of C40 with two certificates, offered a GM suite -/
example : ∃ (c : Config) (ch : ClientHello) (c1 c2 : Cert) (r : ServerChoice), c.certificates = [c1, c2] ∧ c1 ≠ c2 ∧
    readClientHelloGMSingle c (fun _ => none) (List.replicate 32 7) ch = .ok r ∧ r.cert = some c2 := by
  let c : Config :=
    { minVersion := 0x0101, maxVersion := 0x0101, cipherSuites := none, preferServerCipherSuites := false, curvePreferences := [],
      nextProtos := [], clientAuth := .noClientCert, sessionTicketsDisabled := false, certificates := [⟨[[1]], none, none⟩, ⟨[[2]], none, none⟩],
      nameToCertificate := some fun n => if n = [0x2a, 0x2e, 0x62] then some ⟨[[2]], none, none⟩ else none,
      getCertificate := none, toLower := id, serverName := [], insecureSkipVerify := false }
  let ch : ClientHello := ⟨0x0101, [], [], [0xe013], [0], false, [0x61, 0x2e, 0x62], [], [], false, [], [], false, []⟩
  have : (match readClientHelloGMSingle c (fun _ => none) (List.replicate 32 7) ch with
      | .ok r => decide (r.cert = some ⟨[[2]], none, none⟩)
      | _ => false) = true := by decide +kernel
  split at this
  · rename_i r hr
    exact ⟨c, ch, ⟨[[1]], none, none⟩, ⟨[[2]], none, none⟩, r, rfl, by decide, hr, by simpa using this⟩
  · cases this

/-! ### the client's check of the server -/

namespace Spec

/-- What the GM client of the `single_cert` build demands of the certificates `sent` by the server in the first handshake of a connection: the first one verifies for the configured name and
roots (nil roots are no roots), with the others as intermediates. Neither a kind of key nor a key usage is demanded. -/
structure SingleServerOk (E : AuthEnv) (S : ClientHs) (sent : List Bytes) (certs : List X509.Cert) (chains : List (List X509.Cert)) : Prop where
  parsed : parseAll E.parse sent = some certs
  some : certs ≠ []
  verified : S.insecureSkipVerify = false → ∀ leaf rest, certs = leaf :: rest →
    X509.verify E.x509 E.entrust E.system leaf
      { dnsName := S.serverName, intermediates := .some (X509.poolOf rest), roots := .some (S.rootCAs.getD (X509.poolOf [])), now := S.now, keyUsages := [] } = .some (.ok chains)
  unverified : S.insecureSkipVerify = true → chains = []
  callback : ∀ f, S.verifyPeer = .some f → f sent chains = true
  key : ∀ leaf rest, certs = leaf :: rest → ∃ k x y, leaf.pub = .rsa k ∨ leaf.pub = .ecdsa k ∨ leaf.pub = .sm2 x y

end Spec

/-- **C124, identity.** The client of the `single_cert` build accepts a server's certificates in a first handshake if and only if they meet `Spec.SingleServerOk`; those are then the peer's certificates and verified chains. -/
theorem C124_identity (E : AuthEnv) (S : ClientHs) (hg : S.gm = true) (h1 : S.single = true) (hprev : S.previous = none) (sent : List Bytes) (certs : List X509.Cert)
    (chains : List (List X509.Cert)) : serverIdentity E S sent = .ok (certs, chains) ↔ Spec.SingleServerOk E S sent certs chains := by
  have hd : S.dual = false := by rw [ClientHs.dual, hg, h1]; rfl
  have hsi : serverIdentity E S sent = singleServerCerts E S sent := by simp [serverIdentity, hprev, hd, hg]
  rw [hsi]
  unfold singleServerCerts
  constructor
  · intro h
    cases hp : parseAll E.parse sent with
    | none => rw [hp] at h; cases h
    | some certs' =>
      rw [hp] at h
      dsimp only at h
      obtain ⟨chains', hc, h⟩ := Res.bind_eq_ok.1 h
      obtain ⟨hn, hu, hv⟩ := verifyServerChain_inv hc
      split at h
      · cases h
      rename_i hcb
      cases certs' with
      | nil => cases h
      | cons leaf rest =>
        dsimp only at h
        split at h
        · rename_i hk
          simp only [Res.ok.injEq, Prod.mk.injEq] at h
          obtain ⟨rfl, rfl⟩ := h
          refine ⟨hp, hn, hv, hu, clientCallback_inv hcb, fun l r hl => ?_⟩
          cases hl
          cases hpub : leaf.pub with
          | rsa k => exact ⟨k, 0, 0, .inl rfl⟩
          | ecdsa k => exact ⟨k, 0, 0, .inr (.inl rfl)⟩
          | sm2 x y => exact ⟨[], x, y, .inr (.inr rfl)⟩
          | _ => rw [hpub] at hk; simp [keyAllowed] at hk
        · cases h
  · rintro ⟨hp, hn, hv, hu, hcb, hk⟩
    rw [hp]
    dsimp only
    cases certs with
    | nil => exact absurd rfl hn
    | cons leaf rest =>
      have hchain : verifyServerChain E { S with rootCAs := some (S.rootCAs.getD X509.Pool.new) } (leaf :: rest) = .ok chains := by
        have hopts : serverVerifyOpts { S with rootCAs := some (S.rootCAs.getD X509.Pool.new) } rest =
          { dnsName := S.serverName, intermediates := .some (X509.poolOf rest), roots := .some (S.rootCAs.getD (X509.poolOf [])), now := S.now, keyUsages := [] } := rfl
        show (if S.insecureSkipVerify = true then _ else match X509.verify E.x509 E.entrust E.system leaf
          (serverVerifyOpts { S with rootCAs := some (S.rootCAs.getD X509.Pool.new) } rest) with
          | some (.ok chains) => Res.ok chains
          | _ => Res.err "x509") = _
        rw [hopts]
        by_cases hi : S.insecureSkipVerify = true
        · rw [if_pos hi, hu hi]
        · rw [if_neg hi, hv (by simpa using hi) leaf rest rfl]
      rw [hchain, Res.ok_bind]
      have hcb' : ¬ S.callback sent chains = false := by
        unfold ClientHs.callback
        cases hvp : S.verifyPeer with
        | none => simp
        | some f => simp [hcb f hvp]
      rw [if_neg hcb']
      dsimp only
      obtain ⟨k, x, y, hk⟩ := hk leaf rest rfl
      rw [if_pos]
      rcases hk with hk | hk | hk <;> rw [hk] <;> rfl

/-- **C124, the client.** A GM client of the `single_cert` build that completes the first, full handshake of a connection received the server's messages in order; its peer certificates are those sent
and meet `Spec.SingleServerOk`; if an ECC suite was chosen, the first certificate has an SM2 key, the premaster secret is encrypted to that key and any ServerKeyExchange is signed by it; and the
server's Finished proves knowledge of the master secret over the whole transcript. Missing: the signature, which may be left out (as in C46), and key usage. -/
theorem C124_client_partial (K : KaEnv) (S : ClientHs) (hg : S.gm = true) (h1 : S.single = true) (hv : S.vers.toNat < vTLS12.toNat) (hprev : S.previous = none)
    (hs : S.suite ∈ gmCipherSuites) (hk : S.suite.ka = .eccGM) (hellos : List Bytes) (rk rs : Bytes) (items : List Item) (c : ClientSent) (d : ClientDone)
    (h : clientFull K S hellos rk rs items = .ok (c, d)) :
    ∃ (F : Spec.ServerFlight S.gm items c.rest) (G : Spec.Flight c.sent []) (D : Spec.ServerEnd c.rest d.rest) (fb : Bytes) (leaf : X509.Cert) (pre : Bytes),
      Spec.Encodes (.finished G.finished) fb ∧
      Spec.SingleServerOk K.auth S F.cert.1.certificates c.certs c.chains ∧ F.status = none ∧
      c.certs[0]? = some leaf ∧ (∃ x y, leaf.pub = .sm2 x y) ∧
      Spec.GmExchange K S leaf leaf (F.skx.map (·.1)) pre G.ckx.1.ciphertext ∧
      masterFromPreMasterSecret K.auth.hashes S.vers S.suite pre S.clientRandom S.serverRandom = .ok c.master ∧
      G.finished.verifyData = Spec.clientFinishedData K.auth true S.vers S.suite c.master (G.finishedPart (hellos ++ [F.bytes])) ∧
      D.finished.verifyData = Spec.serverFinishedData K.auth true S.vers S.suite c.master (Spec.serverFinishedPart F G D fb hellos) := by
  unfold clientFull at h
  obtain ⟨c', hc, h⟩ := Res.bind_eq_ok.1 h
  obtain ⟨d', hd, h⟩ := Res.bind_eq_ok.1 h
  simp only [Res.ok.injEq, Prod.mk.injEq] at h
  obtain ⟨rfl, rfl⟩ := h
  obtain ⟨F, G, h0, f2, fb, leaf, enc, pre, rq, hh0, _, hl2, hid, hst, hka, hs0, hs1, _, _, _, _, hgen, _, _, hms, _, _, hfb, hsum, hfh⟩ := clientFlight_inv hc
  obtain ⟨D, f, hccs, _, htk, htt, hsv⟩ := clientFinish_inv hd
  rw [hfh] at hsv
  obtain ⟨hcf, hsf⟩ := finished_both hh0 hsum hsv
  have hg' : ∀ t, Spec.clientFinishedData K.auth S.gm S.vers S.suite c'.master t = Spec.clientFinishedData K.auth true S.vers S.suite c'.master t ∧
      Spec.serverFinishedData K.auth S.gm S.vers S.suite c'.master t = Spec.serverFinishedData K.auth true S.vers S.suite c'.master t := by
    intro t; rw [hg]; exact ⟨rfl, rfl⟩
  have hdual : S.dual = false := by rw [ClientHs.dual, hg, h1]; rfl
  have hok := (C124_identity K.auth S hg h1 hprev _ _ _).1 hid
  rw [hdual] at hka
  have hle : c'.certs[0]? = some leaf ∧ enc = leaf := by
    revert hka
    match c'.certs with
    | [] => intro h; cases h
    | [a] =>
      intro h
      simp only [kaCerts, Bool.false_eq_true, if_false, Res.ok.injEq, Prod.mk.injEq] at h
      exact ⟨by simp [h.1], h.2.symm.trans h.1⟩
    | a :: b :: r =>
      intro h
      simp only [kaCerts, Bool.false_eq_true, if_false, Res.ok.injEq, Prod.mk.injEq] at h
      exact ⟨by simp [h.1], h.2.symm.trans h.1⟩
  obtain ⟨hl0, rfl⟩ := hle
  have hpub : ∃ x y, enc.pub = .sm2 x y := by
    simp only [clientGenCKX, hk] at hgen
    split at hgen
    · rename_i r hr
      subst hgen
      obtain ⟨x, y, _, hp, _⟩ := Gm.eccGenerateCKX_inv rk S.helloVers enc.pub _ _ hr
      exact ⟨x, y, hp⟩
    · cases hgen
  refine ⟨F, G, D, fb, enc, pre, hfb, hok, ?_, hl0, hpub, ?_, hms, hcf.trans (hg' _).1, hsf.trans (hg' _).2⟩
  · by_contra hne
    have := (hst hne).1
    rw [hg] at this; cases this
  · exact gm_exchange hv hs hpub hs0 hs1 hgen

/-- **C124** fails: a server with an accepted RSA or ECDSA certificate that sends no ServerKeyExchange makes the client of the `single_cert` build panic, in the type assertion on the key it wants to encrypt to. -/
theorem C124_other_key_panic_violated (K : KaEnv) (S : ClientHs) (hg : S.gm = true) (h1 : S.single = true) (hprev : S.previous = none) (hk : S.suite.ka = .eccGM)
    (cm : CertificateMsg) (certs : List X509.Cert) (chains : List (List X509.Cert)) (hok : Spec.SingleServerOk K.auth S cm.certificates certs chains)
    (leaf : X509.Cert) (more : List X509.Cert) (hc : certs = leaf :: more) (hkey : ∀ x y, leaf.pub ≠ .sm2 x y)
    (rk : Bytes) (hrk : 46 ≤ rk.length) (hellos : List Bytes) (rs : Bytes) (tail : List Item) :
    clientFull K S hellos rk rs (.msg (.certificate cm) :: .msg .serverHelloDone :: tail) = .panic := by
  have hid := (C124_identity K.auth S hg h1 hprev cm.certificates certs chains).2 hok
  have hdual : S.dual = false := by rw [ClientHs.dual, hg, h1]; rfl
  have hh0 : S.newHash K.auth = .ok newFinishedHashGM := by rw [ClientHs.newHash, if_pos hg]
  have g0 : newFinishedHashGM.Good := newHash_good (S := S.asServer) hh0
  obtain ⟨cb, cm', hcb⟩ := certificate_enc cm
  generalize hf0 : (if S.noCerts = true then newFinishedHashGM.discardHandshakeBuffer else newFinishedHashGM) = f0
  have gf0 : f0.Good := by
    rw [← hf0]
    split
    · exact g0.discard
    · exact g0
  have hne : cm.certificates.length ≠ 0 := by
    have := parseAll_length hok.parsed
    rw [hc] at this
    simp at this
    omega
  have p1 : serverCertPhase K.auth S (f0.app hellos.flatten) (.msg (.certificate cm) :: .msg .serverHelloDone :: tail) =
      .ok ((certs, chains), f0.app (hellos.flatten ++ cb), .msg .serverHelloDone :: tail) := by
    simp only [serverCertPhase, readMsg, Res.ok_bind, if_neg hne, hdual, Bool.false_eq_true, false_and, if_false, hcb, fhwrite_ok (gf0.app _).writable, hid, app_app]
  have p2 : statusPhase S (f0.app (hellos.flatten ++ cb)) (.msg .serverHelloDone :: tail) = .ok (f0.app (hellos.flatten ++ cb), .msg .serverHelloDone :: tail) := rfl
  have p3 : skxPhase K S leaf leaf (f0.app (hellos.flatten ++ cb)) (.msg .serverHelloDone :: tail) = .ok (none, f0.app (hellos.flatten ++ cb), .msg .serverHelloDone :: tail) := rfl
  have p4 : reqPhase K.auth S (f0.app (hellos.flatten ++ cb)) (.msg .serverHelloDone :: tail) = .ok (none, f0.app (hellos.flatten ++ cb), .msg .serverHelloDone :: tail) := rfl
  have p5 : donePhase (f0.app (hellos.flatten ++ cb)) (.msg .serverHelloDone :: tail) = .ok (f0.app (hellos.flatten ++ cb ++ serverHelloDoneMarshal), tail) := by
    simp only [donePhase, readMsg, Res.ok_bind, fhwrite_ok (gf0.app _).writable, app_app]
  have p6 : kaCerts S.dual certs = .ok (leaf, leaf) := by
    rw [hc, hdual]
    cases more <;> rfl
  have p7 : clientGenCKX K S none leaf rk = .panic := by
    simp only [clientGenCKX, hk, Gm.eccGenerateCKX, Sm2.readFull, if_pos hrk]
  simp only [clientFull, clientFlight, hh0, Res.ok_bind, hf0, writes_ok gf0.writable, p1, p2, p6, p3, p4, p5, sendCert, p7]
  rfl

/-- **C124** fails as C46 does: the server's only signature may be left out. A client that accepts an SM2 certificate completes the handshake with a server that signs nothing. -/
theorem C124_skx_omitted_violated (K : KaEnv) (S : ClientHs) (hg : S.gm = true) (h1 : S.single = true) (hprev : S.previous = none) (hv : S.vers = vGMSSL) (hk : S.suite.ka = .eccGM)
    (cm : CertificateMsg) (certs : List X509.Cert) (chains : List (List X509.Cert)) (hok : Spec.SingleServerOk K.auth S cm.certificates certs chains)
    (leaf : X509.Cert) (more : List X509.Cert) (hc : certs = leaf :: more) (rk pre ct : Bytes)
    (hgen : Gm.eccGenerateCKX K.auth.x509.curve rk S.helloVers leaf.pub = some (.ok (pre, ct)))
    (hkl : ∀ m, S.keyLog m = true) (hnp : S.nextProto = none) (ht : S.ticket = false) (hellos : List Bytes) (rs : Bytes) :
    ∃ vd c d, clientFull K S hellos rk rs
      [.msg (.certificate cm), .msg .serverHelloDone, .ccs, .msg (.finished { raw := none, verifyData := vd })] = .ok (c, d) ∧ c.certs = certs ∧ d.switched = true := by
  have hdual : S.dual = false := by rw [ClientHs.dual, hg, h1]; rfl
  have hne : cm.certificates.length ≠ 0 := by
    have := parseAll_length hok.parsed
    rw [hc] at this
    simp at this
    omega
  exact skx_omitted K S hg hv hk cm hne (by simp [hdual]) certs chains ((C124_identity K.auth S hg h1 hprev _ _ _).2 hok) leaf leaf
    (by rw [hc, hdual]; cases more <;> rfl) rk pre ct hgen hkl hnp ht hellos rs

/-- **C124, honest ends.** A client and a server of the `single_cert` build with one SM2 certificate complete the handshake; both have the same master secret and transcript. -/
theorem C124_honest (K : KaEnv) (S : ClientHs) (T : ServerSide K.auth.x509.curve) (same : Spec.SameHandshake S T) (hg : S.gm = true) (h1 : S.single = true)
    (hprev : S.previous = none) (hellos : List Bytes) (rand rk rs rand' tk : Bytes)
    (w : ServerSent) (hw : serverFlight K T rand = .ok w) (certs : List X509.Cert) (chains : List (List X509.Cert))
    (hok : Spec.SingleServerOk K.auth S T.cert.chain certs chains)
    (leaf : X509.Cert) (hleaf : certs[0]? = some leaf) (kw : Spec.KeysWork K T leaf leaf rand rk)
    (hgen : ∀ st key cst, serverGenSKX K T rand = .ok (st, key) → received K S leaf leaf key = .ok cst → ∃ pre ct, clientGenCKX K S cst leaf rk = .ok (pre, ct))
    (p : PeerId) (hcc : Spec.ClientCertOk K S T rs p) (hlog : ∀ m, S.keyLog m = true ∧ T.keyLog m = true) :
    ∃ c d fh e f,
      clientFlight K S hellos rk rs w.items = .ok c ∧
      serverFull K.auth (T.hs w.key rand') (hellos ++ w.bytes) c.sent = .ok d ∧
      serverEnd T.ticket (.ok tk) d = .ok (fh, e) ∧
      clientFull K S hellos rk rs (w.items ++ e) = .ok ({ c with rest := e }, f) ∧
      c.master = d.master ∧ f.fh = fh ∧ c.certs = certs ∧ d.peer = p ∧ f.switched = true ∧ f.rest = [] ∧ d.rest = [] := by
  have hdS : S.dual = false := by rw [ClientHs.dual, hg, h1]; rfl
  have hdT : T.dual = false := by rw [ServerSide.dual, same.single, h1]; simp
  have hchain : T.chain = T.cert.chain := by rw [ServerSide.chain, hdT]; rfl
  have hid := (C124_identity K.auth S hg h1 hprev T.cert.chain certs chains).2 hok
  have hne : T.chain ≠ [] := by
    rw [hchain]
    intro h
    have := parseAll_length hok.parsed
    rw [h] at this
    exact hok.some (List.length_eq_zero_iff.1 (by simpa using this))
  obtain ⟨c, d, fh, e, f, a1, a2, a3, a4, a5, a6, a7, _, a9, a10, _, a12, a13⟩ := C88_honest_handshake K S T same hellos rand rk rs rand' tk w hw hne (by simp [hdT]) certs chains
    (by rw [hchain]; exact hid) leaf leaf hleaf (by rw [hdS]; exact hleaf) kw hgen p hcc hlog
  exact ⟨c, d, fh, e, f, a1, a2, a3, a4, a5, a6, a7, a9, a10, a12, a13⟩

/-- **C124**: the two builds do not work together: a client of the default build refuses a server that sends one certificate, whatever it is. -/
theorem C124_builds_differ (K : KaEnv) (S : ClientHs) (hg : S.gm = true) (h1 : S.single = false) (hellos : List Bytes) (rk rs b : Bytes) (raw : Option Bytes) (tail : List Item) (c : ClientSent) :
    clientFlight K S hellos rk rs (.msg (.certificate ⟨raw, [b]⟩) :: tail) ≠ .ok c := by
  intro h
  obtain ⟨F, G, h0, f2, fb, leaf, enc, pre, rq, _, _, hl2, _⟩ := clientFlight_inv h
  have h2 := hl2 (by rw [ClientHs.dual, hg, h1]; rfl)
  have := F.order
  simp only [List.cons_append, List.cons.injEq, Item.msg.injEq, Message.certificate.injEq] at this
  rw [← this.1] at h2
  simp at h2

/-! ### cases that meet the hypotheses -/

def toySingle : ClientHs := { toyGmClient with single := true }

theorem toySingle_id (b : Bytes) (x : X509.Cert) (hx : (match serverIdentity toyK.auth toySingle [b] with
      | .ok p => p.1 == [x]
      | _ => false) = true) : ∃ chains, Spec.SingleServerOk toyK.auth toySingle [b] [x] chains := by
  split at hx
  · rename_i p h
    simp only [beq_iff_eq] at hx
    obtain ⟨a, b⟩ := p
    dsimp only at hx
    rw [hx] at h
    exact ⟨b, (C124_identity _ _ rfl rfl rfl _ _ _).1 h⟩
  · cases hx

/-- the client accepts one certificate, with an SM2 key (for signatures only: key usage 1) or with an RSA key -/
example : (∃ chains, Spec.SingleServerOk toyK.auth toySingle [[3]] [toyCert 3 (.sm2 1 1) 1] chains) ∧
    ∃ chains, Spec.SingleServerOk toyK.auth toySingle [[2]] [toyCert 2 (.rsa [8]) 0] chains :=
  ⟨toySingle_id _ _ (by decide +kernel), toySingle_id _ _ (by decide +kernel)⟩

/-- the first completes (so the hypotheses of `C124_client_partial` are met), without a signature of the server -/
example : ∃ vd c d, clientFull toyK toySingle [[1]] (List.replicate 200 1) []
    [.msg (.certificate ⟨none, [[3]]⟩), .msg .serverHelloDone, .ccs, .msg (.finished { raw := none, verifyData := vd })] = .ok (c, d) ∧ toySingle.suite ∈ gmCipherSuites := by
  obtain ⟨chains, h⟩ := toySingle_id [3] (toyCert 3 (.sm2 1 1) 1) (by decide +kernel)
  obtain ⟨pre, ct, hg⟩ : ∃ pre ct, Gm.eccGenerateCKX toyCurve (List.replicate 200 1) 0x0101 (.sm2 1 1) = some (.ok (pre, ct)) := by
    have : (match Gm.eccGenerateCKX toyCurve (List.replicate 200 1) 0x0101 (.sm2 1 1) with
        | some (.ok _) => true
        | _ => false) = true := by decide +kernel
    split at this
    · rename_i p h
      exact ⟨p.1, p.2, h⟩
    · cases this
  obtain ⟨vd, c, d, h, _⟩ := C124_skx_omitted_violated toyK toySingle rfl rfl rfl rfl rfl ⟨none, [[3]]⟩ _ chains h _ [] rfl _ pre ct hg (fun _ => rfl) rfl rfl [[1]] []
  exact ⟨vd, c, d, h, by decide⟩

/-- and the second makes it panic -/
example : clientFull toyK toySingle [[1]] (List.replicate 46 1) [] [.msg (.certificate ⟨none, [[2]]⟩), .msg .serverHelloDone] = .panic := by
  obtain ⟨chains, h⟩ := toySingle_id [2] (toyCert 2 (.rsa [8]) 0) (by decide +kernel)
  exact C124_other_key_panic_violated toyK toySingle rfl rfl rfl rfl ⟨none, [[2]]⟩ _ chains h _ [] rfl (by intro x y h; cases h) _ (by decide) _ _ _

end Verif.Tls
