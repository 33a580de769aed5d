import Verif.Tls.ClientExamples
/-!
Evaluating a handshake forwards: the hash object never fails to take a message, and the sums exist. Used for `C46_skx_omitted_violated` and C87.
-/
namespace Verif.Tls
open Verif Verif.Tls.Wire

/-- the MD5 objects are there if they are written to -/
def FinishedHash.Writable (h : FinishedHash) : Prop := h.version.toNat < vTLS12.toNat → h.clientMD5.isSome = true ∧ h.serverMD5.isSome = true

theorem fhwrite_ok {h : FinishedHash} (w : h.Writable) (b : Bytes) : h.write b = .ok (h.app b) := by
  cases e : h.write b with
  | ok h' => rw [write_app e]
  | err x =>
    exfalso
    unfold FinishedHash.write at e
    dsimp only at e
    by_cases hv : h.version.toNat < vTLS12.toNat
    · rw [if_pos hv] at e
      obtain ⟨w1, w2⟩ := w hv
      obtain ⟨x1, h1⟩ := Option.isSome_iff_exists.1 w1
      obtain ⟨x2, h2⟩ := Option.isSome_iff_exists.1 w2
      rw [h1, h2] at e
      simp at e
    · rw [if_neg hv] at e
      simp at e
  | panic =>
    exfalso
    unfold FinishedHash.write at e
    dsimp only at e
    by_cases hv : h.version.toNat < vTLS12.toNat
    · rw [if_pos hv] at e
      obtain ⟨w1, w2⟩ := w hv
      obtain ⟨x1, h1⟩ := Option.isSome_iff_exists.1 w1
      obtain ⟨x2, h2⟩ := Option.isSome_iff_exists.1 w2
      rw [h1, h2] at e
      simp at e
    · rw [if_neg hv] at e
      simp at e

theorem FinishedHash.Writable.app {h : FinishedHash} (w : h.Writable) (b : Bytes) : (h.app b).Writable := by
  intro hv
  have hv' : h.version.toNat < vTLS12.toNat := hv
  obtain ⟨w1, w2⟩ := w hv'
  simp [FinishedHash.app, hv', w1, w2]

theorem FinishedHash.Writable.discard {h : FinishedHash} (w : h.Writable) : h.discardHandshakeBuffer.Writable := w

theorem writes_ok {h : FinishedHash} (w : h.Writable) (ms : List Bytes) : h.writes ms = .ok (h.app ms.flatten) := by
  induction ms generalizing h with
  | nil => simp [FinishedHash.writes, app_nil]
  | cons m ms ih =>
    rw [FinishedHash.writes, fhwrite_ok w, Res.ok_bind, ih (w.app m), app_app]
    simp

theorem newHash_writable {E : AuthEnv} {S : ServerHs} {h0 : FinishedHash} (h : S.newHash E = .ok h0) : h0.Writable := by
  unfold ServerHs.newHash at h
  by_cases hg : S.gm = true
  · rw [if_pos hg] at h
    simp only [Res.ok.injEq] at h
    subst h
    intro _
    simp [newFinishedHashGM]
  · rw [if_neg hg] at h
    unfold newFinishedHash at h
    obtain ⟨prf, _, h⟩ := Res.bind_eq_ok.1 h
    intro hv
    split at h
    · rename_i hh he
      simp only [Res.ok.injEq] at h
      subst h
      dsimp only at hv
      unfold hashForVersion at he
      split at he
      · rename_i h12
        rw [h12] at hv
        exact absurd hv (by decide)
      · cases he
    · simp only [Res.ok.injEq] at h
      subst h
      exact ⟨rfl, rfl⟩

theorem clientSum_writable {h h' : FinishedHash} {master vd : Bytes} (w : h.Writable) (e : h.clientSum master = .ok (vd, h')) : h'.Writable := by
  unfold FinishedHash.clientSum at e
  by_cases hv : h.version = vSSL30
  · rw [if_pos hv] at e
    split at e
    · simp only [Res.ok.injEq, Prod.mk.injEq] at e
      rw [← e.2]
      intro hlt
      exact ⟨rfl, (w hlt).2⟩
    · cases e
  · rw [if_neg hv] at e
    obtain ⟨sm, _, e⟩ := Res.bind_eq_ok.1 e
    obtain ⟨o, _, e⟩ := Res.bind_eq_ok.1 e
    simp only [Res.ok.injEq, Prod.mk.injEq] at e
    rw [← e.2]
    exact w

theorem serverSum_writable {h h' : FinishedHash} {master vd : Bytes} (w : h.Writable) (e : h.serverSum master = .ok (vd, h')) : h'.Writable := by
  unfold FinishedHash.serverSum at e
  by_cases hv : h.version = vSSL30
  · rw [if_pos hv] at e
    split at e
    · simp only [Res.ok.injEq, Prod.mk.injEq] at e
      rw [← e.2]
      intro hlt
      exact ⟨(w hlt).1, rfl⟩
    · cases e
  · rw [if_neg hv] at e
    obtain ⟨sm, _, e⟩ := Res.bind_eq_ok.1 e
    obtain ⟨o, _, e⟩ := Res.bind_eq_ok.1 e
    simp only [Res.ok.injEq, Prod.mk.injEq] at e
    rw [← e.2]
    exact w

/-- the hash object of a handshake after messages `t`, with or without its buffer: a PRF that answers, MD5 objects where they are used -/
structure FinishedHash.Good (h : FinishedHash) : Prop where
  writable : h.Writable
  sums : h.version ≠ vSSL30 → ∀ r m l s, ∃ o, h.prf r m l s = .ok o
  sumOk : vTLS12.toNat ≤ h.version.toNat ∨ h.clientMD5.isSome = true

theorem FinishedHash.Good.app {h : FinishedHash} (g : h.Good) (b : Bytes) : (h.app b).Good where
  writable := FinishedHash.Writable.app g.writable b
  sums := g.sums
  sumOk := by
    rcases g.sumOk with e | e
    · exact .inl e
    · right
      show (if h.version.toNat < vTLS12.toNat then h.clientMD5.map (fun x => (x.1, x.2 ++ b)) else h.clientMD5).isSome = true
      split <;> simp [e]

theorem FinishedHash.Good.discard {h : FinishedHash} (g : h.Good) : h.discardHandshakeBuffer.Good := ⟨g.writable, g.sums, g.sumOk⟩

theorem FinishedHash.Good.sum {h : FinishedHash} (g : h.Good) : ∃ s, h.sum = .ok s := by
  unfold FinishedHash.sum
  split
  · exact ⟨_, rfl⟩
  · rename_i hn
    push Not at hn
    rcases g.sumOk with e | e
    · exact absurd e (by omega)
    · obtain ⟨x, hx⟩ := Option.isSome_iff_exists.1 e
      rw [hx]
      exact ⟨_, rfl⟩

theorem FinishedHash.Good.serverSum {h : FinishedHash} (g : h.Good) (master : Bytes) : ∃ vd h', h.serverSum master = .ok (vd, h') := by
  unfold FinishedHash.serverSum
  by_cases hv : h.version = vSSL30
  · rw [if_pos hv]
    obtain ⟨_, w⟩ := g.writable (by rw [hv]; decide)
    obtain ⟨x, hx⟩ := Option.isSome_iff_exists.1 w
    rw [hx]
    exact ⟨_, _, rfl⟩
  · rw [if_neg hv]
    obtain ⟨s, hs⟩ := g.sum
    obtain ⟨o, ho⟩ := g.sums hv (zeros 12) master serverFinishedLabel s
    rw [hs, Res.ok_bind, ho, Res.ok_bind]
    exact ⟨_, _, rfl⟩

theorem FinishedHash.Good.clientSum {h : FinishedHash} (g : h.Good) (master : Bytes) : ∃ vd h', h.clientSum master = .ok (vd, h') ∧ h'.Good := by
  unfold FinishedHash.clientSum
  by_cases hv : h.version = vSSL30
  · rw [if_pos hv]
    obtain ⟨w, w'⟩ := g.writable (by rw [hv]; decide)
    obtain ⟨x, hx⟩ := Option.isSome_iff_exists.1 w
    rw [hx]
    exact ⟨_, _, rfl, ⟨fun _ => ⟨rfl, w'⟩, g.sums, .inr rfl⟩⟩
  · rw [if_neg hv]
    obtain ⟨s, hs⟩ := g.sum
    obtain ⟨o, ho⟩ := g.sums hv (zeros 12) master clientFinishedLabel s
    rw [hs, Res.ok_bind, ho, Res.ok_bind]
    exact ⟨_, _, rfl, g⟩

theorem newHash_good {E : AuthEnv} {S : ServerHs} {h0 : FinishedHash} (h : S.newHash E = .ok h0) : h0.Good := by
  refine ⟨newHash_writable h, ?_, ?_⟩
  · intro hv r m l s
    unfold ServerHs.newHash at h
    by_cases hg : S.gm = true
    · rw [if_pos hg] at h
      simp only [Res.ok.injEq] at h
      subst h
      exact ⟨_, rfl⟩
    · rw [if_neg hg] at h
      unfold newFinishedHash at h
      obtain ⟨prf, hp, h⟩ := Res.bind_eq_ok.1 h
      have hh : h0.prf = prf ∧ h0.version = S.vers := by
        split at h <;> simp only [Res.ok.injEq] at h <;> subst h <;> exact ⟨rfl, rfl⟩
      rw [hh.1]
      rw [hh.2] at hv
      unfold prfForVersion at hp
      rw [if_neg hv] at hp
      split at hp
      · simp only [Res.ok.injEq] at hp; subst hp; exact ⟨_, rfl⟩
      · split at hp
        · split at hp <;> (simp only [Res.ok.injEq] at hp; subst hp; exact ⟨_, rfl⟩)
        · split at hp
          · simp only [Res.ok.injEq] at hp; subst hp; exact ⟨_, rfl⟩
          · cases hp
  · by_cases hlt : h0.version.toNat < vTLS12.toNat
    · exact .inr (newHash_writable h hlt).1
    · exact .inl (by omega)

/-! ### encodings exist -/

theorem certificate_enc (m : CertificateMsg) : ∃ b m', m.marshal = .ok (b, m') := by
  unfold CertificateMsg.marshal
  cases m.raw <;> exact ⟨_, _, rfl⟩

theorem ckx_enc (m : ClientKeyExchangeMsg) : ∃ b m', m.marshal = .ok (b, m') := by
  unfold ClientKeyExchangeMsg.marshal
  cases m.raw <;> exact ⟨_, _, rfl⟩

theorem finished_enc (m : FinishedMsg) : ∃ b m', m.marshal = .ok (b, m') := by
  unfold FinishedMsg.marshal
  cases m.raw <;> exact ⟨_, _, rfl⟩

theorem emit_ok {fh : FinishedHash} (w : fh.Writable) {m m' : Message} {b : Bytes} (h : m.marshal = .ok (b, m')) : emit fh m = .ok (fh.app b, .msg m') := by
  simp only [emit, h, Res.ok_bind, fhwrite_ok w]

/-! ### C46 -/

/-- with the ECC suite, a GM client that accepts the server's certificates completes the handshake with a server that leaves out the ServerKeyExchange -/
theorem skx_omitted (K : KaEnv) (S : ClientHs) (hg : S.gm = true) (hv : S.vers = vGMSSL) (hk : S.suite.ka = .eccGM) (cm : CertificateMsg)
    (hne : cm.certificates.length ≠ 0) (hd2 : S.dual = true → 2 ≤ cm.certificates.length) (certs : List X509.Cert) (chains : List (List X509.Cert))
    (hid : serverIdentity K.auth S cm.certificates = .ok (certs, chains))
    (leaf enc : X509.Cert) (p6 : kaCerts S.dual certs = .ok (leaf, enc)) (rk pre ct : Bytes)
    (hgen : Gm.eccGenerateCKX K.auth.x509.curve rk S.helloVers enc.pub = some (.ok (pre, ct)))
    (hkl : ∀ m, S.keyLog m = true) (hnp : S.nextProto = none) (ht : S.ticket = false) (hellos : List Bytes) (rs : Bytes) :
    ∃ vd c d, clientFull K S hellos rk rs
      [.msg (.certificate cm), .msg .serverHelloDone, .ccs, .msg (.finished { raw := none, verifyData := vd })] = .ok (c, d) ∧ c.certs = certs ∧ d.switched = true := by
  have hh0 : S.newHash K.auth = .ok newFinishedHashGM := by rw [ClientHs.newHash, if_pos hg]
  have g0 : newFinishedHashGM.Good := newHash_good (S := S.asServer) hh0
  obtain ⟨cb, cm', hcb⟩ := certificate_enc cm
  obtain ⟨kb, km, hkb⟩ := ckx_enc { raw := none, ciphertext := ct }
  obtain ⟨master, hms⟩ : ∃ master, masterFromPreMasterSecret K.auth.hashes S.vers S.suite pre S.clientRandom S.serverRandom = .ok master := by
    unfold masterFromPreMasterSecret prfForVersion
    rw [hv]
    exact ⟨_, rfl⟩
  generalize hf0 : (if S.noCerts = true then newFinishedHashGM.discardHandshakeBuffer else newFinishedHashGM) = f0
  have gf0 : f0.Good := by
    rw [← hf0]
    split
    · exact g0.discard
    · exact g0
  generalize ht' : hellos.flatten ++ cb ++ serverHelloDoneMarshal = t
  obtain ⟨vd1, f1, hs1, gf1⟩ := ((gf0.app (t ++ kb)).discard).clientSum master
  obtain ⟨fb, fm, hfb⟩ := finished_enc { raw := none, verifyData := vd1 }
  obtain ⟨vd, f2, hs2⟩ := (gf1.app fb).serverSum master
  have hflight : ∀ tail, clientFlight K S hellos rk rs (.msg (.certificate cm) :: .msg .serverHelloDone :: tail) =
      .ok ⟨certs, chains, none, master, f1.app fb, [.msg (.clientKeyExchange km), .ccs, .msg (.finished fm)], tail⟩ := by
    intro tail
    have hlt : ¬ (S.dual = true ∧ cm.certificates.length < 2) := fun h => absurd (hd2 h.1) (by omega)
    have p1 : serverCertPhase K.auth S (f0.app hellos.flatten) (.msg (.certificate cm) :: .msg .serverHelloDone :: tail) =
        .ok ((certs, chains), f0.app (hellos.flatten ++ cb), .msg .serverHelloDone :: tail) := by
      simp only [serverCertPhase, readMsg, Res.ok_bind, if_neg hne, if_neg hlt, hcb, fhwrite_ok (gf0.app _).writable, hid, app_app]
    have p2 : statusPhase S (f0.app (hellos.flatten ++ cb)) (.msg .serverHelloDone :: tail) = .ok (f0.app (hellos.flatten ++ cb), .msg .serverHelloDone :: tail) := rfl
    have p3 : skxPhase K S leaf enc (f0.app (hellos.flatten ++ cb)) (.msg .serverHelloDone :: tail) = .ok (none, f0.app (hellos.flatten ++ cb), .msg .serverHelloDone :: tail) := rfl
    have p4 : reqPhase K.auth S (f0.app (hellos.flatten ++ cb)) (.msg .serverHelloDone :: tail) = .ok (none, f0.app (hellos.flatten ++ cb), .msg .serverHelloDone :: tail) := rfl
    have p5 : donePhase (f0.app (hellos.flatten ++ cb)) (.msg .serverHelloDone :: tail) = .ok (f0.app t, tail) := by
      simp only [donePhase, readMsg, Res.ok_bind, fhwrite_ok (gf0.app _).writable, app_app, ht']
    have p7 : clientGenCKX K S none enc rk = .ok (pre, ct) := by
      simp only [clientGenCKX, hk, hgen]
    have p8 : emit (f0.app t) (.clientKeyExchange { raw := none, ciphertext := ct }) = .ok (f0.app (t ++ kb), .msg (.clientKeyExchange km)) := by
      rw [emit_ok (gf0.app _).writable (b := kb) (m' := .clientKeyExchange km), app_app]
      simp [Message.marshal, hkb, Res.map]
    have p9 : clientSendFinished S master (f0.app (t ++ kb)).discardHandshakeBuffer = .ok (f1.app fb, [.ccs, .msg (.finished fm)]) := by
      simp only [clientSendFinished, sendNextProto, hnp, Res.ok_bind, hs1]
      rw [emit_ok gf1.writable (b := fb) (m' := .finished fm)]
      · rfl
      · simp [Message.marshal, hfb, Res.map]
    simp only [clientFlight, hh0, Res.ok_bind, hf0, writes_ok gf0.writable, p1, p2, p6, p3, p4, p5, sendCert, p7, p8, sendCertVerify, hms, hkl, p9]
    simp
  obtain ⟨eb, em, heb⟩ := finished_enc { raw := none, verifyData := vd }
  have hw2 := serverSum_writable (gf1.app fb).writable hs2
  refine ⟨vd, ⟨certs, chains, none, master, f1.app fb, [.msg (.clientKeyExchange km), .ccs, .msg (.finished fm)], [.ccs, .msg (.finished { raw := none, verifyData := vd })]⟩, ⟨none, true, f2.app eb, []⟩, ?_, rfl, rfl⟩
  simp only [clientFull, hflight, Res.ok_bind, clientFinish, ticketPhase, ht, clientReadCCS, readMsg]
  simp [hs2, heb, fhwrite_ok hw2]

/-- **C46** fails at the handshake level: with the ECC suite, a GM client that accepts the server's certificates completes the handshake with a server that leaves out the
ServerKeyExchange - the only message in which the server signs anything - and then proves nothing but that it can decrypt. `vd` is the verify data any holder
of the master secret computes. -/
theorem C46_skx_omitted_violated (K : KaEnv) (S : ClientHs) (hg : S.gm = true) (h1c : S.single = false) (hv : S.vers = vGMSSL) (hk : S.suite.ka = .eccGM) (cm : CertificateMsg)
    (h2 : 2 ≤ cm.certificates.length) (certs : List X509.Cert) (chains : List (List X509.Cert)) (hid : serverIdentity K.auth S cm.certificates = .ok (certs, chains))
    (leaf enc : X509.Cert) (more : List X509.Cert) (hc : certs = leaf :: enc :: more) (rk pre ct : Bytes)
    (hgen : Gm.eccGenerateCKX K.auth.x509.curve rk S.helloVers enc.pub = some (.ok (pre, ct)))
    (hkl : ∀ m, S.keyLog m = true) (hnp : S.nextProto = none) (ht : S.ticket = false) (hellos : List Bytes) (rs : Bytes) :
    ∃ vd c d, clientFull K S hellos rk rs
      [.msg (.certificate cm), .msg .serverHelloDone, .ccs, .msg (.finished { raw := none, verifyData := vd })] = .ok (c, d) ∧ c.certs = certs ∧ d.switched = true := by
  exact skx_omitted K S hg hv hk cm (by omega) (fun _ => h2) certs chains hid leaf enc (by rw [hc, ClientHs.dual, hg, h1c]; rfl) rk pre ct hgen hkl hnp ht hellos rs

/-- the hypotheses are met by the toy GM client -/
example : toyGmClient.vers = vGMSSL ∧ (∃ certs chains, serverIdentity toyK.auth toyGmClient [[3], [4]] = .ok (certs, chains) ∧ certs = [toyCert 3 (.sm2 1 1) 1, toyCert 4 (.sm2 1 1) 4]) ∧
    ∃ pre ct, Gm.eccGenerateCKX toyCurve (List.replicate 200 1) 0x0101 (.sm2 1 1) = some (.ok (pre, ct)) := by
  refine ⟨rfl, ?_, ?_⟩
  · have : (match serverIdentity toyK.auth toyGmClient [[3], [4]] with
        | .ok (a, _) => a == [toyCert 3 (.sm2 1 1) 1, toyCert 4 (.sm2 1 1) 4]
        | _ => false) = true := by decide +kernel
    split at this
    · rename_i a b h
      exact ⟨a, b, h, by simpa using this⟩
    · cases this
  · have : (match Gm.eccGenerateCKX toyCurve (List.replicate 200 1) 0x0101 (.sm2 1 1) with
        | some (.ok _) => true
        | _ => false) = true := by decide +kernel
    split at this
    · rename_i p h
      exact ⟨p.1, p.2, h⟩
    · cases this

end Verif.Tls
