import Verif.Tls.KeyProps
/-!
C73, C74: the Finished verify data.
-/
namespace Verif.Tls
open Verif

namespace Spec

/-- the handshake hash of RFC 2246 7.4.9 / RFC 5246 7.4.9 / GM/T 0024 6.4.4.10 -/
def transcriptHash (hs : Hashes) (v : Version) (s : Suite) (t : Bytes) : Bytes :=
  if v = vTLS12 then (if s.sha384 then hs.sha384.sum t else hs.sha256.sum t)
  else if v = vGMSSL then sm3.sum t
  else hs.md5.sum t ++ hs.sha1.sum t

/-- SSLv3 section 5.6.9 -/
def ssl3Finished (hs : Hashes) (master sender t : Bytes) : Bytes :=
  hs.md5.sum (master ++ List.replicate 48 0x5c ++ hs.md5.sum (t ++ sender ++ master ++ List.replicate 48 0x36)) ++
  hs.sha1.sum (master ++ List.replicate 40 0x5c ++ hs.sha1.sum (t ++ sender ++ master ++ List.replicate 40 0x36))

/-- verify_data over the handshake messages `t` -/
def verifyData (hs : Hashes) (v : Version) (s : Suite) (master : Bytes) (fromClient : Bool) (t : Bytes) : Bytes :=
  if v = vSSL30 then ssl3Finished hs master (if fromClient then str "CLNT" else str "SRVR") t
  else prf hs v s 12 master (if fromClient then str "client finished" else str "server finished") (transcriptHash hs v s t)

end Spec

/-- any number of `Write` calls -/
def FinishedHash.writes (h : FinishedHash) : List Bytes → Res FinishedHash
  | [] => .ok h
  | m :: t => h.write m >>= fun h => h.writes t

/-- the object for version `v`, as the handshakes without resumption create it: `newFinishedHash` and,
for GMSSL, `newFinishedHashGM` -/
def freshHash (hs : Hashes) (v : Version) (s : Suite) : Res FinishedHash :=
  if v = vGMSSL then .ok newFinishedHashGM else newFinishedHash hs v s

/-- the object's four hash objects hold `c`, `cm`, `s`, `sm` -/
structure Holds (hs : Hashes) (v : Version) (su : Suite) (h : FinishedHash) (c cm s sm : Bytes) : Prop where
  version : h.version = v
  prf : prfForVersion hs v su = .ok h.prf
  client : h.client = c
  server : h.server = s
  hash : h.hash = if v = vTLS12 then (if su.sha384 then hs.sha384 else hs.sha256) else if v = vGMSSL then sm3 else hs.sha1
  md5 : v.toNat < vTLS12.toNat → (h.clientMD5.isSome ∧ h.serverMD5.isSome) ∧
    (v ≠ vGMSSL → h.clientMD5 = some (hs.md5, cm) ∧ h.serverMD5 = some (hs.md5, sm))

def AnyVersion (v : Version) : Prop := v = vSSL30 ∨ Spec.Supported v

theorem fresh_holds (hs : Hashes) (v : Version) (s : Suite) (hv : AnyVersion v) :
    ∃ h, freshHash hs v s = .ok h ∧ Holds hs v s h [] [] [] [] := by
  rcases hv with h | h | h | h | h
  · subst h
    exact ⟨_, rfl, by constructor <;> simp [prfForVersion, vSSL30, vTLS12, vGMSSL]⟩
  · subst h
    exact ⟨_, rfl, by constructor <;> simp [prfForVersion, vSSL30, vTLS10, vTLS11, vTLS12, vGMSSL]⟩
  · subst h
    exact ⟨_, rfl, by constructor <;> simp [prfForVersion, vSSL30, vTLS10, vTLS11, vTLS12, vGMSSL]⟩
  · subst h
    by_cases h3 : s.sha384 = true
    · refine ⟨{ hash := hs.sha384, client := [], server := [], clientMD5 := none, serverMD5 := none, buffer := some [],
                version := vTLS12, prf := fun r sec l sd => .ok (prf12 hs.sha384 r sec l sd) }, ?_, ?_⟩
      · simp [freshHash, newFinishedHash, prfForVersion, hashForVersion, vSSL30, vTLS10, vTLS11, vTLS12, vGMSSL, h3]
      · constructor <;> simp [prfForVersion, vSSL30, vTLS10, vTLS11, vTLS12, h3]
    · refine ⟨{ hash := hs.sha256, client := [], server := [], clientMD5 := none, serverMD5 := none, buffer := some [],
                version := vTLS12, prf := fun r sec l sd => .ok (prf12 hs.sha256 r sec l sd) }, ?_, ?_⟩
      · simp [freshHash, newFinishedHash, prfForVersion, hashForVersion, vSSL30, vTLS10, vTLS11, vTLS12, vGMSSL, h3]
      · constructor <;> simp [prfForVersion, vSSL30, vTLS10, vTLS11, vTLS12, h3]
  · subst h
    refine ⟨newFinishedHashGM, by simp [freshHash], ?_⟩
    constructor <;> simp [newFinishedHashGM, prfForVersion, vSSL30, vTLS10, vTLS11, vTLS12, vGMSSL]

theorem write_holds {hs : Hashes} {v : Version} {su : Suite} {h : FinishedHash} {c cm s sm : Bytes} (H : Holds hs v su h c cm s sm) (m : Bytes) :
    ∃ h', h.write m = .ok h' ∧ Holds hs v su h' (c ++ m) (cm ++ m) (s ++ m) (sm ++ m) := by
  unfold FinishedHash.write
  by_cases hlt : h.version.toNat < vTLS12.toNat
  · obtain ⟨⟨a1, a2⟩, a3⟩ := H.md5 (H.version ▸ hlt)
    obtain ⟨⟨f, a⟩, hf⟩ := Option.isSome_iff_exists.1 a1
    obtain ⟨⟨g, b⟩, hg⟩ := Option.isSome_iff_exists.1 a2
    refine ⟨_, by dsimp only; rw [if_pos hlt, hf, hg]; rfl, ?_⟩
    refine ⟨H.version, H.prf, by simp [H.client], by simp [H.server], H.hash, fun _ => ⟨⟨rfl, rfl⟩, fun hne => ?_⟩⟩
    have := a3 hne
    rw [hf, hg] at this
    simp only [Option.some.injEq, Prod.mk.injEq] at this
    simp [this.1.1, this.1.2, this.2.1, this.2.2]
  · refine ⟨_, by dsimp only; rw [if_neg hlt]; rfl, ?_⟩
    exact ⟨H.version, H.prf, by simp [H.client], by simp [H.server], H.hash, fun h' => absurd (H.version ▸ h') hlt⟩

theorem writes_holds {hs : Hashes} {v : Version} {su : Suite} (ms : List Bytes) {h : FinishedHash} {c cm s sm : Bytes}
    (H : Holds hs v su h c cm s sm) :
    ∃ h', h.writes ms = .ok h' ∧ Holds hs v su h' (c ++ ms.flatten) (cm ++ ms.flatten) (s ++ ms.flatten) (sm ++ ms.flatten) := by
  induction ms generalizing h c cm s sm with
  | nil => exact ⟨h, rfl, by simpa using H⟩
  | cons m ms ih =>
    obtain ⟨h1, e1, H1⟩ := write_holds H m
    obtain ⟨h2, e2, H2⟩ := ih H1
    exact ⟨h2, by rw [FinishedHash.writes, e1, Res.ok_bind, e2], by simpa using H2⟩

theorem sum_holds {hs : Hashes} {v : Version} {su : Suite} {h : FinishedHash} {t s sm : Bytes} (H : Holds hs v su h t t s sm)
    (hv : Spec.Supported v) : h.sum = .ok (Spec.transcriptHash hs v su t) := by
  unfold FinishedHash.sum Spec.transcriptHash
  rw [H.version, H.client, H.hash]
  rcases hv with e | e | e | e
  · subst e
    have := (H.md5 (by decide)).2 (by decide)
    simp [this.1, vTLS10, vTLS12, vGMSSL]
  · subst e
    have := (H.md5 (by decide)).2 (by decide)
    simp [this.1, vTLS11, vTLS12, vGMSSL]
  · subst e
    by_cases h3 : su.sha384 = true <;> simp [h3]
  · subst e
    simp [vTLS12, vGMSSL]

theorem pads : ssl30Pad1 = List.replicate 48 0x36 ∧ ssl30Pad2 = List.replicate 48 0x5c ∧
    ssl30Pad1.take 40 = List.replicate 40 0x36 ∧ ssl30Pad2.take 40 = List.replicate 40 0x5c := by decide

theorem clientSum_holds {hs : Hashes} {v : Version} {su : Suite} {h : FinishedHash} {t s sm : Bytes} (H : Holds hs v su h t t s sm)
    (hv : AnyVersion v) (master : Bytes) :
    ∃ h' c' cm', h.clientSum master = .ok (Spec.verifyData hs v su master true t, h') ∧ Holds hs v su h' c' cm' s sm ∧
      (v ≠ vSSL30 → c' = t ∧ cm' = t) := by
  unfold FinishedHash.clientSum Spec.verifyData
  rw [H.version]
  by_cases h3 : v = vSSL30
  · rw [if_pos h3, if_pos h3]
    subst h3
    have hm := (H.md5 (by decide)).2 (by decide)
    have hh : h.hash = hs.sha1 := by rw [H.hash]; simp [vSSL30, vTLS12, vGMSSL]
    rw [hm.1]
    refine ⟨{ h with clientMD5 := some (hs.md5, (finishedSum30 (hs.md5, t) (h.hash, h.client) master [0x43, 0x4c, 0x4e, 0x54]).2.1),
                     client := (finishedSum30 (hs.md5, t) (h.hash, h.client) master [0x43, 0x4c, 0x4e, 0x54]).2.2 }, _, _, ?_,
      ⟨H.version, H.prf, rfl, H.server, H.hash, fun _ => ⟨⟨rfl, by rw [hm.2]; rfl⟩, fun _ => ⟨rfl, hm.2⟩⟩⟩,
      fun hne => absurd rfl hne⟩
    dsimp only
    rw [hh, H.client, if_pos rfl, show str "CLNT" = [0x43, 0x4c, 0x4e, 0x54] by decide +kernel]
    simp only [finishedSum30, Spec.ssl3Finished, pads.1, pads.2.1, H.version, List.take_replicate]
    rfl
  · rw [if_neg h3, if_neg h3]
    have hs' : Spec.Supported v := hv.resolve_left h3
    rw [sum_holds H hs', Res.ok_bind]
    have := C42_prf_standard hs v su hs' (zeros 12) master clientFinishedLabel (Spec.transcriptHash hs v su t)
    rw [H.prf, Res.ok_bind] at this
    rw [this]
    refine ⟨h, t, t, ?_, H, fun _ => ⟨rfl, rfl⟩⟩
    rw [Res.ok_bind, if_pos rfl, show str "client finished" = clientFinishedLabel by decide +kernel]
    simp [zeros]

/-- the server's sum uses the server's objects for SSLv3 and, for the other versions, the client's
(`Sum` always reads `client`), so both must hold the transcript -/
theorem serverSum_holds {hs : Hashes} {v : Version} {su : Suite} {h : FinishedHash} {c cm t : Bytes} (H : Holds hs v su h c cm t t)
    (hv : AnyVersion v) (hct : v ≠ vSSL30 → c = t ∧ cm = t) (master : Bytes) :
    ∃ h' s' sm', h.serverSum master = .ok (Spec.verifyData hs v su master false t, h') ∧ Holds hs v su h' c cm s' sm' ∧
      (v ≠ vSSL30 → s' = t ∧ sm' = t) := by
  unfold FinishedHash.serverSum Spec.verifyData
  rw [H.version]
  by_cases h3 : v = vSSL30
  · rw [if_pos h3, if_pos h3]
    subst h3
    have hm := (H.md5 (by decide)).2 (by decide)
    have hh : h.hash = hs.sha1 := by rw [H.hash]; simp [vSSL30, vTLS12, vGMSSL]
    rw [hm.2]
    refine ⟨{ h with serverMD5 := some (hs.md5, (finishedSum30 (hs.md5, t) (h.hash, h.server) master [0x53, 0x52, 0x56, 0x52]).2.1),
                     server := (finishedSum30 (hs.md5, t) (h.hash, h.server) master [0x53, 0x52, 0x56, 0x52]).2.2 }, _, _, ?_,
      ⟨H.version, H.prf, H.client, rfl, H.hash, fun _ => ⟨⟨by rw [hm.1]; rfl, rfl⟩, fun _ => ⟨hm.1, rfl⟩⟩⟩,
      fun hne => absurd rfl hne⟩
    dsimp only
    rw [hh, H.server, if_neg (by decide), show str "SRVR" = [0x53, 0x52, 0x56, 0x52] by decide +kernel]
    simp only [finishedSum30, Spec.ssl3Finished, pads.1, pads.2.1, H.version, List.take_replicate]
    rfl
  · rw [if_neg h3, if_neg h3]
    obtain ⟨rfl, rfl⟩ := hct h3
    have hs' : Spec.Supported v := hv.resolve_left h3
    rw [sum_holds H hs', Res.ok_bind]
    have := C42_prf_standard hs v su hs' (zeros 12) master serverFinishedLabel (Spec.transcriptHash hs v su cm)
    rw [H.prf, Res.ok_bind] at this
    rw [this]
    refine ⟨h, _, _, ?_, H, fun _ => ⟨rfl, rfl⟩⟩
    rw [Res.ok_bind, if_neg (by decide), show str "server finished" = serverFinishedLabel by decide +kernel]
    simp [zeros]

/-- C74. Full handshake (client's Finished first): however the handshake messages are cut into
writes, the first verify data is the standard's value over their concatenation, and the second one
the standard's value over the same bytes followed by the first Finished message. Every version,
including SSLv3 where computing the first value consumes hash objects. -/
theorem C74_full_handshake (hs : Hashes) (v : Version) (s : Suite) (hv : AnyVersion v) (msgs : List Bytes) (fin : Bytes → Bytes) (master : Bytes) :
    ∃ h0 h1 h2 h3 h4, freshHash hs v s = .ok h0 ∧ h0.writes msgs = .ok h1 ∧
      h1.clientSum master = .ok (Spec.verifyData hs v s master true msgs.flatten, h2) ∧
      h2.write (fin (Spec.verifyData hs v s master true msgs.flatten)) = .ok h3 ∧
      h3.serverSum master =
        .ok (Spec.verifyData hs v s master false (msgs.flatten ++ fin (Spec.verifyData hs v s master true msgs.flatten)), h4) := by
  obtain ⟨h0, e0, H0⟩ := fresh_holds hs v s hv
  obtain ⟨h1, e1, H1⟩ := writes_holds msgs H0
  obtain ⟨h2, c, cm, e2, H2, hc⟩ := clientSum_holds H1 hv master
  obtain ⟨h3, e3, H3⟩ := write_holds H2 (fin (Spec.verifyData hs v s master true msgs.flatten))
  simp only [List.nil_append] at e2 H3
  obtain ⟨h4, _, _, e4, _⟩ := serverSum_holds H3 hv (fun hne => by
    have := hc hne
    simp only [List.nil_append] at this
    simp [this.1, this.2]) master
  exact ⟨h0, h1, h2, h3, h4, e0, e1, e2, e3, e4⟩

/-- C74. Abbreviated handshake (server's Finished first). -/
theorem C74_resumed_handshake (hs : Hashes) (v : Version) (s : Suite) (hv : AnyVersion v) (msgs : List Bytes) (fin : Bytes → Bytes) (master : Bytes) :
    ∃ h0 h1 h2 h3 h4, freshHash hs v s = .ok h0 ∧ h0.writes msgs = .ok h1 ∧
      h1.serverSum master = .ok (Spec.verifyData hs v s master false msgs.flatten, h2) ∧
      h2.write (fin (Spec.verifyData hs v s master false msgs.flatten)) = .ok h3 ∧
      h3.clientSum master =
        .ok (Spec.verifyData hs v s master true (msgs.flatten ++ fin (Spec.verifyData hs v s master false msgs.flatten)), h4) := by
  obtain ⟨h0, e0, H0⟩ := fresh_holds hs v s hv
  obtain ⟨h1, e1, H1⟩ := writes_holds msgs H0
  obtain ⟨h2, c, cm, e2, H2, hc⟩ := serverSum_holds H1 hv (fun _ => ⟨rfl, rfl⟩) master
  obtain ⟨h3, e3, H3⟩ := write_holds H2 (fin (Spec.verifyData hs v s master false msgs.flatten))
  simp only [List.nil_append] at e2 H3
  obtain ⟨h4, _, _, e4, _⟩ := clientSum_holds H3 hv master
  exact ⟨h0, h1, h2, h3, h4, e0, e1, e2, e3, e4⟩

/-- C74. The hash a client certificate signs is the handshake messages' hash the version prescribes:
the negotiated hash of the whole transcript for TLS 1.2, SM3 of the transcript for GMSSL, SHA-1 for
ECDSA and MD5+SHA-1 for RSA before; after the handshake buffer was discarded, TLS 1.2 and SSLv3 panic. -/
theorem C74_certificate_verify_hash (hs : Hashes) (v : Version) (s : Suite) (hv : Spec.Supported v) (msgs : List Bytes) (hashAlg : HashFn)
    (pkcs1 ecdsa : Bool) (master : Bytes) :
    ∃ h0 h1, freshHash hs v s = .ok h0 ∧ h0.writes msgs = .ok h1 ∧
      h1.hashForClientCertificate hs pkcs1 ecdsa hashAlg master = .ok (
        if v = vTLS12 then hashAlg.sum msgs.flatten
        else if v = vGMSSL then sm3.sum msgs.flatten
        else if ecdsa then hs.sha1.sum msgs.flatten
        else hs.md5.sum msgs.flatten ++ hs.sha1.sum msgs.flatten) := by
  obtain ⟨h0, e0, H0⟩ := fresh_holds hs v s (Or.inr hv)
  obtain ⟨h1, e1, H1⟩ := writes_holds msgs H0
  simp only [List.nil_append] at H1
  refine ⟨h0, h1, e0, e1, ?_⟩
  have hbuf : v = vTLS12 → h1.buffer = some msgs.flatten := by
    intro hv12
    have b0 : h0.buffer = some [] := by
      subst hv12
      simp only [freshHash, newFinishedHash, prfForVersion, hashForVersion] at e0
      by_cases h3 : s.sha384 = true <;>
        simp [vSSL30, vTLS10, vTLS11, vTLS12, vGMSSL, h3] at e0 <;> rw [← e0]
    have key : ∀ (ms : List Bytes) (h h' : FinishedHash) (b : Bytes), h.buffer = some b → h.writes ms = .ok h' → h'.buffer = some (b ++ ms.flatten) := by
      intro ms
      induction ms with
      | nil => intro h h' b hb e; cases e; simpa using hb
      | cons m ms ih =>
        intro h h' b hb e
        rw [FinishedHash.writes] at e
        obtain ⟨g, eg, e⟩ := Res.bind_eq_ok.1 e
        have hgb : g.buffer = some (b ++ m) := by
          unfold FinishedHash.write at eg
          dsimp only at eg
          split at eg
          · split at eg
            · injection eg with eg; rw [← eg]; simp [hb]
            · cases eg
          · injection eg with eg; rw [← eg]; simp [hb]
        rw [ih g h' _ hgb e]
        simp
    simpa using key msgs h0 h1 [] b0 e1
  have hsum := sum_holds H1 hv
  rcases hv with e | e | e | e
  · subst e
    have n1 : ¬ (vTLS10 = vSSL30 ∨ vTLS12.toNat ≤ vTLS10.toNat) := by decide
    unfold FinishedHash.hashForClientCertificate
    cases hb : h1.buffer <;> cases ecdsa <;>
      simp [H1.version, hsum, H1.hash, H1.server, vTLS10, vSSL30, vTLS12, vGMSSL, Spec.transcriptHash]
  · subst e
    unfold FinishedHash.hashForClientCertificate
    cases hb : h1.buffer <;> cases ecdsa <;>
      simp [H1.version, hsum, H1.hash, H1.server, vTLS11, vSSL30, vTLS12, vGMSSL, Spec.transcriptHash]
  · subst e
    unfold FinishedHash.hashForClientCertificate
    rw [hbuf rfl]
    simp [H1.version, vSSL30, vTLS12]
  · subst e
    unfold FinishedHash.hashForClientCertificate
    cases hb : h1.buffer <;> cases ecdsa <;>
      simp [H1.version, hsum, H1.hash, H1.server, vSSL30, vTLS12, vGMSSL, Spec.transcriptHash]

/-- C73 is false of the code. When a GM server resumes a session it creates the Finished hash with
`newFinishedHash` (tls/gm_handshake_server.go:330, tls/gm_handshake_server_double.go:304), the client with
`newFinishedHashGM`. Over the same messages the server's verify data is then derived from the SHA-1 of
the transcript and the client's from its SM3: the PRF inputs always differ. -/
theorem C73_gm_resumption_hash_violated (hs : Hashes) (s : Suite) (msgs : List Bytes) (master : Bytes) :
    ∃ h0 h1 g1, newFinishedHash hs vGMSSL s = .ok h0 ∧ h0.writes msgs = .ok h1 ∧ newFinishedHashGM.writes msgs = .ok g1 ∧
      (∃ h2, h1.serverSum master = .ok (Spec.P sm3 master (str "server finished" ++ hs.sha1.sum msgs.flatten) 12, h2)) ∧
      (∃ g2, g1.serverSum master = .ok (Spec.P sm3 master (str "server finished" ++ sm3.sum msgs.flatten) 12, g2)) ∧
      str "server finished" ++ hs.sha1.sum msgs.flatten ≠ str "server finished" ++ sm3.sum msgs.flatten := by
  have key : ∀ (ms : List Bytes) (h : FinishedHash), h.clientMD5.isSome → h.serverMD5.isSome → h.version = vGMSSL →
      ∃ h', h.writes ms = .ok h' ∧ h'.hash = h.hash ∧ h'.client = h.client ++ ms.flatten ∧ h'.version = vGMSSL ∧ h'.prf = h.prf := by
    intro ms
    induction ms with
    | nil => intro h _ _ hv; exact ⟨h, rfl, rfl, by simp, hv, rfl⟩
    | cons m ms ih =>
      intro h h1 h2 hv
      obtain ⟨⟨f, a⟩, hf⟩ := Option.isSome_iff_exists.1 h1
      obtain ⟨⟨g, b⟩, hg⟩ := Option.isSome_iff_exists.1 h2
      have hlt : h.version.toNat < vTLS12.toNat := by rw [hv]; decide
      have hw : ∃ g, h.write m = .ok g ∧ g.hash = h.hash ∧ g.client = h.client ++ m ∧ g.version = h.version ∧ g.prf = h.prf ∧
          g.clientMD5.isSome ∧ g.serverMD5.isSome := by
        unfold FinishedHash.write
        dsimp only
        rw [if_pos hlt, hf, hg]
        exact ⟨_, rfl, rfl, rfl, rfl, rfl, rfl, rfl⟩
      obtain ⟨g, eg, g1, g2, g3, g4, g5, g6⟩ := hw
      obtain ⟨h', e', w1, w2, w3, w4⟩ := ih g g5 g6 (g3.trans hv)
      exact ⟨h', by rw [FinishedHash.writes, eg, Res.ok_bind, e'], w1.trans g1, by rw [w2, g2]; simp, w3, w4.trans g4⟩
  have fin : ∀ h : FinishedHash, h.version = vGMSSL → h.prf = (fun r sec l sd => .ok (prf12 sm3 r sec l sd)) →
      ∃ h2, h.serverSum master = .ok (Spec.P sm3 master (str "server finished" ++ h.hash.sum h.client) 12, h2) := by
    intro h hv hp
    refine ⟨h, ?_⟩
    unfold FinishedHash.serverSum FinishedHash.sum
    rw [hv, hp, if_neg (by decide), if_pos (Or.inr rfl), Res.ok_bind, show str "server finished" = serverFinishedLabel by decide +kernel]
    simp [prf12, pHash_eq, zeros]
  obtain ⟨h1, e1, a1, a2, a3, a4⟩ := key msgs
    { hash := hs.sha1, client := [], server := [], clientMD5 := some (hs.md5, []), serverMD5 := some (hs.md5, []),
      buffer := none, version := vGMSSL, prf := fun r sec l sd => .ok (prf12 sm3 r sec l sd) } rfl rfl rfl
  obtain ⟨g1, e2, b1, b2, b3, b4⟩ := key msgs newFinishedHashGM rfl rfl rfl
  have f1 := fin h1 a3 a4
  have f2 := fin g1 b3 (by rw [b4]; rfl)
  rw [a1, a2] at f1
  rw [b1, b2] at f2
  refine ⟨_, h1, g1, ?_, e1, e2, f1, f2, ?_⟩
  · simp [newFinishedHash, prfForVersion, hashForVersion, vSSL30, vTLS10, vTLS11, vTLS12, vGMSSL]
  · intro he
    have h2 := congrArg List.length (List.append_cancel_left he)
    rw [hs.sha1.len, hs.sha1_size, sm3.len] at h2
    exact absurd h2 (by decide)

end Verif.Tls
