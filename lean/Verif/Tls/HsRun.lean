import Verif.Tls.HsItems
import Verif.Tls.ResumeProps
/-!
A run of a handshake program on a connection that completes is a run on the messages it read: `C135`.
-/
namespace Verif.Tls
open Verif Verif.Tls.Wire

/-- a handshake record is accepted in place of a ChangeCipherSpec -/
def Conn.ren (c : Conn) : Bool := c.isClient && c.renegotiation

theorem ren_of_book {c d : Conn} (h : c.book = d.book) : c.ren = d.ren := by
  simp only [Conn.book, Prod.mk.injEq] at h
  simp only [Conn.ren, Conn.renegotiation, h.1, h.2.1]

theorem readMessage_book {gm : Bool} {c c' : Conn} {r : Except String Message} (h : c.readMessage gm = .ok (r, c')) : c'.book = c.book := by
  unfold Conn.readMessage at h
  dsimp only at h
  split at h
  · rename_i hr
    rw [← (Prod.mk.inj (Res.ok.inj h)).2]; exact readHandshake_book hr
  · rename_i hr
    split at h
    · rw [← (Prod.mk.inj (Res.ok.inj h)).2]; exact readHandshake_book hr
    · cases h
  · cases h
  · cases h

theorem HsUpd.apply_book {P : Prims} {u : HsUpd} {c c' : Conn} (h : u.apply P c = .ok c') : c'.book = c.book := by
  cases u with
  | setVers v => have := Res.ok.inj h; rw [← this]; rfl
  | pinVers v => have := Res.ok.inj h; rw [← this]; rfl
  | buffer => have := Res.ok.inj h; rw [← this]; rfl
  | clientKeys s m cr sr =>
    simp only [HsUpd.apply, Conn.clientEstablish] at h
    split at h
    · split at h
      · have := Res.ok.inj h; rw [← this]; rfl
      · cases h
    · cases h
  | serverKeys s m cr sr =>
    simp only [HsUpd.apply, Conn.serverEstablish] at h
    split at h
    · split at h
      · have := Res.ok.inj h; rw [← this]; rfl
      · cases h
    · cases h

theorem saw_inv {α : Type} {l : List Item} {r : Res (HsOut α)} {o : HsOut α} (h : HsOut.saw l r = .ok o) :
    ∃ o', r = .ok o' ∧ o = { o' with got := l ++ o'.got } := by
  obtain ⟨o', h1, h2⟩ := map_ok_inv h
  exact ⟨o', h1, h2⟩

theorem put_inv {α : Type} {l : List Item} {r : Res (HsOut α)} {o : HsOut α} (h : HsOut.put l r = .ok o) :
    ∃ o', r = .ok o' ∧ o = { o' with sent := l ++ o'.sent } := by
  obtain ⟨o', h1, h2⟩ := map_ok_inv h
  exact ⟨o', h1, h2⟩

theorem Warned_keeps {n : Nat} {c d : Conn} (h : Spec.Warned n c d) : d.inp.nextCipher = c.inp.nextCipher ∧ d.isClient = c.isClient ∧ d.policy = c.policy := by
  induction h with
  | zero => exact ⟨rfl, rfl, rfl⟩
  | succ v body rest desc inp' ho hd hw r ih =>
    refine ⟨ih.1.trans (decrypt_nextCipher _ _ _ _ ho.opened).1, ih.2.1, ih.2.2⟩

/-- reading for a ChangeCipherSpec changes the keys, or renegotiation is allowed and a handshake record was read -/
theorem readCCS_ren {c c1 : Conn} {e : Option String} (h : c.readRecord typCCS = .ok (e, c1)) (he : c1.inp.err = none) :
    (c.inp.nextCipher.isSome && c1.inp.nextCipher.isNone) = true ∨ c.ren = true := by
  have e0 := C30_error_recorded c typCCS e c1 h
  rw [he] at e0
  subst e0
  obtain ⟨n, d, typ, v, body, rest, data, inp', hn, hW, ho, hl, hD, _, _⟩ := C30_accepted c typCCS c1 h
  obtain ⟨k1, k2, k3⟩ := Warned_keeps hW
  have k4 := (decrypt_nextCipher _ _ _ _ ho.opened).1
  cases hD with
  | app w hw => exact absurd hw (by decide)
  | handshake w hw =>
    right
    rcases hw with hw | hw
    · exact absurd hw (by decide)
    · simp only [Conn.ren, Conn.renegotiation, ← k2, ← k3]
      simpa [Conn.renegotiation] using hw
  | ccs w hw hd hh inp'' hk =>
    left
    unfold HalfConn.changeCipherSpec at hk
    split at hk
    · cases hk
    · rename_i ci hci
      have := Option.some.inj hk
      subst this
      rw [← k1, ← k4, hci]
      rfl

/-- **A run on a connection that completes is a run on the messages it read.** -/
theorem run_items {α : Type} (P : Prims) (gm : Bool) (p : Hs α) : ∀ (c : Conn) (o : HsOut α) (a : α), p.run P gm c = .ok o → o.result = .done a →
    ∀ t, p.items c.ren (o.got ++ t) = .ok (a, o.sent, t) := by
  induction p with
  | ret a =>
    intro c o a' h hd t
    have := Res.ok.inj h
    subst this
    simp only [HsEnd.done.injEq] at hd
    subst hd; rfl
  | fail al e =>
    intro c o a h hd
    cases al with
    | none => have := Res.ok.inj h; subst this; cases hd
    | some al =>
      simp only [Hs.run] at h
      split at h
      · have := Res.ok.inj h; subst this; cases hd
      · cases h
      · cases h
  | panic => intro c o a h; cases h
  | read k ih =>
    intro c o a h hd t
    simp only [Hs.run] at h
    split at h
    · have := Res.ok.inj h; subst this; cases hd
    · rename_i m c1 hr
      obtain ⟨o', h1, rfl⟩ := saw_inv h
      have := ih m c1 o' a h1 hd t
      rw [ren_of_book (readMessage_book hr)] at this
      exact this
    · cases h
    · cases h
  | readSwitch k ih =>
    intro c o a h hd t
    simp only [Hs.run] at h
    split at h
    · rename_i e0 c1 hr
      split at h
      · have := Res.ok.inj h; subst this; cases hd
      · rename_i he
        split at h
        · have := Res.ok.inj h; subst this; cases hd
        · rename_i m c2 hm
          obtain ⟨o', h1, rfl⟩ := saw_inv h
          have g := ih _ m c2 o' a h1 hd t
          rw [ren_of_book ((readMessage_book hm).trans (readRecord_book hr))] at g
          have hren := readCCS_ren hr he
          generalize hsw : (c.inp.nextCipher.isSome && c1.inp.nextCipher.isNone) = sw at *
          cases sw with
          | true => exact g
          | false =>
            have hren : c.ren = true := by simpa using hren
            show (if c.ren = true then _ else _) = _
            rw [if_pos hren]
            exact g
        · cases h
        · cases h
    · cases h
    · cases h
  | write b m k ih =>
    intro c o a h hd t
    simp only [Hs.run] at h
    split at h
    · have := Res.ok.inj h; subst this; cases hd
    · rename_i n c1 hw
      obtain ⟨o', h1, rfl⟩ := put_inv h
      have g := ih c1 o' a h1 hd t
      rw [ren_of_book (writeRecord_book hw)] at g
      simp only [Hs.items, g, Res.map]
      rfl
    · cases h
    · cases h
  | writeCCS k ih =>
    intro c o a h hd t
    simp only [Hs.run] at h
    split at h
    · have := Res.ok.inj h; subst this; cases hd
    · rename_i n c1 hw
      obtain ⟨o', h1, rfl⟩ := put_inv h
      have g := ih c1 o' a h1 hd t
      rw [ren_of_book (writeRecord_book hw)] at g
      simp only [Hs.items, g, Res.map]
      rfl
    · cases h
    · cases h
  | flush k ih =>
    intro c o a h hd t
    simp only [Hs.run] at h
    split at h
    · have := Res.ok.inj h; subst this; cases hd
    · rename_i c1 hw
      have g := ih c1 o a h hd t
      have hb := flush_book c
      rw [hw] at hb
      rw [ren_of_book hb] at g
      exact g
  | upd u k ih =>
    intro c o a h hd t
    simp only [Hs.run] at h
    split at h
    · rename_i c1 hw
      have g := ih c1 o a h hd t
      rw [ren_of_book (HsUpd.apply_book hw)] at g
      exact g
    · cases h
    · cases h

/-! ### C135 -/

namespace Spec
/-- what C84 says of a full handshake of the standard client: `items` is what the server sent after its ServerHello, `sent` what the client answered, `r` the state the
client reports -/
def StdFull (K : KaEnv) (S : ClientHs) (hellos : List Bytes) (items sent : List Item) (r : Tls.ClientEnd) : Prop :=
  ∃ (mid : List Item) (F : ServerFlight S.gm items mid) (G : Flight sent []) (D : ServerEnd mid []) (fb : Bytes),
    Encodes (.finished G.finished) fb ∧ StdServerOk K.auth S F.cert.1.certificates r.certs r.chains ∧
    (∀ leaf rest, r.certs = leaf :: rest → ∃ pre, StdExchange K S leaf.pub (F.skx.map (·.1)) pre G.ckx.1.ciphertext ∧
      masterFromPreMasterSecret K.auth.hashes S.vers S.suite pre S.clientRandom S.serverRandom = .ok r.master) ∧
    G.finished.verifyData = clientFinishedData K.auth false S.vers S.suite r.master (G.finishedPart (hellos ++ [F.bytes])) ∧
    D.finished.verifyData = serverFinishedData K.auth false S.vers S.suite r.master (serverFinishedPart F G D fb hellos) ∧
    D.ccs = r.switched ∧ D.ticket.isSome = S.ticket ∧ (D.ticket.map fun x => x.1.ticket) = r.ticket

/-- what C46 says of a full handshake of the GM client (without the ServerKeyExchange of the ECC suites, which may be missing) -/
def GmFull (K : KaEnv) (S : ClientHs) (hellos : List Bytes) (items sent : List Item) (r : Tls.ClientEnd) : Prop :=
  ∃ (mid : List Item) (F : ServerFlight S.gm items mid) (G : Flight sent []) (D : ServerEnd mid []) (fb : Bytes) (sign enc : X509.Cert) (pre : Bytes),
    Encodes (.finished G.finished) fb ∧ GmServerOk K.auth S F.cert.1.certificates r.certs r.chains ∧ F.status = none ∧
    r.certs[0]? = some sign ∧ r.certs[1]? = some enc ∧ GmExchange K S sign enc (F.skx.map (·.1)) pre G.ckx.1.ciphertext ∧
    masterFromPreMasterSecret K.auth.hashes S.vers S.suite pre S.clientRandom S.serverRandom = .ok r.master ∧
    G.finished.verifyData = clientFinishedData K.auth true S.vers S.suite r.master (G.finishedPart (hellos ++ [F.bytes])) ∧
    D.finished.verifyData = serverFinishedData K.auth true S.vers S.suite r.master (serverFinishedPart F G D fb hellos)

/-- what C123 says of a resumption: the identity, the chains and the master secret are the session's; both Finished values are over the hellos and the ticket -/
def Resumption (E : AuthEnv) (S : ClientHs) (hellos : List Bytes) (items sent : List Item) (s : SavedSession) (r : Tls.ClientEnd) : Prop :=
  r.master = s.master ∧ r.certs = s.certs ∧ r.chains = s.chains ∧
  ∃ (G : ServerEnd items []) (A : ClientEnd sent []) (fb : Bytes),
    Encodes (.finished G.finished) fb ∧ G.ticket.isSome = S.ticket ∧ G.ccs = r.switched ∧
    G.finished.verifyData = serverFinishedData E S.gm S.vers S.suite s.master (hellos.flatten ++ bytesOf G.ticket) ∧
    A.finished.verifyData = clientFinishedData E S.gm S.vers S.suite s.master (hellos.flatten ++ bytesOf G.ticket ++ fb ++ bytesOf A.nextProto)

/-- the client read the ServerHello `sh` and then `items`, sent its ClientHello and then `sent`, and ended in the state `r` -/
structure ClientRan (P : Prims) (K : KaEnv) (Z : ClientStart) (rk rs : Bytes) (c : Conn) (sh : ServerHelloMsg) (ch : ClientChoice) (hellos : List Bytes)
    (items sent : List Item) (r : Tls.ClientEnd) : Prop where
  /-- the run of the handshake -/
  ran : ∃ o : HsOut Tls.ClientEnd, (clientProg K Z rk rs).run P Z.S.gm c = .ok o ∧ o.result = .done r ∧ o.got = .msg (.serverHello sh) :: items ∧
    ∃ m, o.sent = .msg m :: sent ∧ ∃ hb, (Message.clientHello Z.hello).marshal = .ok (hb, m)
  /-- the two hellos as hashed -/
  hellos : ∃ hb sb, hellos = [hb, sb] ∧ Encodes (.clientHello Z.hello) hb ∧ Encodes (.serverHello sh) sb
  /-- the ServerHello was acceptable -/
  choice : Z.react sh = .ok ch
end Spec

/-- the run behind a completed call of `Handshake` -/
theorem handshake_ran {P : Prims} {K : KaEnv} {Z : ClientStart} {rk rs : Bytes} {c c' : Conn} (h1 : c.handshakeErr = none) (h2 : c.handshakeComplete = false)
    (h : c.handshake ((clientProg K Z rk rs).asHandshake P Z.S.gm) = .ok (none, c')) :
    ∃ (o : HsOut ClientEnd) (r : ClientEnd), (clientProg K Z rk rs).run P Z.S.gm c = .ok o ∧ o.result = .done r := by
  have hc : ({ c with handshakeComplete := false } : Conn) = c := by rw [← h2]
  unfold Conn.handshake at h
  rw [h1] at h
  dsimp only at h
  rw [if_neg (by rw [h2]; decide)] at h
  unfold Conn.runHandshake at h
  rw [hc] at h
  unfold Hs.asHandshake at h
  cases hr : (clientProg K Z rk rs).run P Z.S.gm c with
  | ok o =>
    refine ⟨o, ?_⟩
    rw [hr] at h
    simp only [Res.map] at h
    cases ho : o.result with
    | done r => exact ⟨r, rfl, rfl⟩
    | refused a e => rw [ho] at h; simp [HsEnd.err] at h
    | failed e => rw [ho] at h; simp [HsEnd.err] at h
  | err x => rw [hr] at h; simp [Res.map] at h
  | panic => rw [hr] at h; simp [Res.map] at h

/-- the decisions behind it -/
theorem ran_items {P : Prims} {K : KaEnv} {Z : ClientStart} {rk rs : Bytes} {c : Conn} (hren : Z.S.renegotiation = c.ren) {o : HsOut ClientEnd} {r : ClientEnd}
    (hr : (clientProg K Z rk rs).run P Z.S.gm c = .ok o) (hd : o.result = .done r) :
    ∃ (sh : ServerHelloMsg) (ch : ClientChoice) (items sent : List Item), Spec.ClientRan P K Z rk rs c sh ch r.hellos items sent r ∧ r.S = Z.knows sh ch ∧
      ((r.resumed = none ∧ (ch.resume = none ∨ Z.session = none) ∧ ∃ (x : ClientSent) (d : ClientDone), clientFull K (Z.knows sh ch) r.hellos rk rs items = .ok (x, d) ∧
          x.sent = sent ∧ d.rest = [] ∧ r.certs = x.certs ∧ r.chains = x.chains ∧ r.ecdhe = x.ecdhe ∧ r.master = x.master ∧ r.ticket = d.ticket ∧
          r.switched = d.switched ∧ r.fh = d.fh) ∨
       (ch.resume.isSome = true ∧ ∃ (s : SavedSession) (q : ClientResumed), Z.session = some s ∧ r.resumed = some s ∧
          clientResume K.auth (Z.knows sh ch) s r.hellos items = .ok q ∧ q.sent = sent ∧ q.rest = [] ∧ r.certs = q.certs ∧ r.chains = q.chains ∧
          r.master = q.master ∧ q.session = newSession (Z.knows sh ch) s r.ticket ∧ r.switched = q.switched ∧ r.fh = q.fh)) := by
  have hi := run_items P Z.S.gm _ c o r hr hd []
  rw [List.append_nil, ← hren] at hi
  obtain ⟨hb, sb, m, sh, y, ch, l', sent', hm, e1, e2, hy, hreact, e3, e4, hcase⟩ := clientProg_items hi
  refine ⟨sh, ch, l', sent', ⟨⟨o, hr, hd, e2, m, e1, hb, hm⟩, ⟨hb, sb, e4, ⟨_, hm⟩, ⟨.serverHello y, ?_⟩⟩, hreact⟩, e3, ?_⟩
  · simp [Message.marshal, hy, Res.map]
  · rw [e4]; exact hcase

theorem mutual_mem {l : List Suite} {have' : List U16} {w : U16} {s : Suite} (h : mutualCipherSuite l have' w = some s) : s ∈ l := by
  unfold mutualCipherSuite at h
  split at h
  · exact List.mem_of_find?_eq_some h
  · cases h

/-- **C135, standard client.** Whatever bytes the transport delivers and however they are cut into records: if `Handshake` of a standard client returns nil
on a new connection, then the client read an acceptable ServerHello (C27, C77) and either authenticated the server in a full handshake (everything C84 says), or resumed the
session it offered. -/
theorem C135_standard (P : Prims) (K : KaEnv) (Z : ClientStart) (rk rs : Bytes) (c c' : Conn) (hg : Z.S.gm = false) (hprev : Z.S.previous = none)
    (hren : Z.S.renegotiation = c.ren) (hsub : ∀ a ∈ Z.hello.supportedSignatureAlgorithms, a ∈ supportedSignatureAlgorithms)
    (h1 : c.handshakeErr = none) (h2 : c.handshakeComplete = false)
    (h : c.handshake ((clientProg K Z rk rs).asHandshake P Z.S.gm) = .ok (none, c')) :
    ∃ (r : ClientEnd) (sh : ServerHelloMsg) (ch : ClientChoice) (items sent : List Item), Spec.ClientRan P K Z rk rs c sh ch r.hellos items sent r ∧
      readServerHello Z.cfg Z.conn (clientHelloOf Z.hello) (Z.session.map sessionOf) (serverHelloOf sh) = .ok ch ∧ r.S = Z.knows sh ch ∧
      ((r.resumed = none ∧ Spec.StdFull K r.S r.hellos items sent r) ∨
       (ch.resume.isSome = true ∧ ∃ s, Z.session = some s ∧ r.resumed = some s ∧ Spec.Resumption K.auth r.S r.hellos items sent s r)) := by
  obtain ⟨o, r, hr, hd⟩ := handshake_ran h1 h2 h
  obtain ⟨sh, ch, items, sent, hran, hS, hcase⟩ := ran_items hren hr hd
  have hre : readServerHello Z.cfg Z.conn (clientHelloOf Z.hello) (Z.session.map sessionOf) (serverHelloOf sh) = .ok ch := by
    have := hran.choice
    unfold ClientStart.react at this
    rwa [if_neg (by rw [hg]; decide)] at this
  refine ⟨r, sh, ch, items, sent, hran, hre, hS, ?_⟩
  rw [hS]
  rcases hcase with ⟨hn, _, x, d, hfull, rfl, hrest, e1, e2, e3, e4, e5, e6, e7⟩ | ⟨hres, s, q, hses, hrd, hq, rfl, hrest, e1, e2, e3, e4, e5, e6⟩
  · left
    refine ⟨hn, ?_⟩
    have hsu : ch.suite ∈ cipherSuites := by
      unfold readServerHello at hre
      split at hre
      · cases hre
      · split at hre
        · cases hre
        · rename_i su hsu
          split at hre
          · cases hre
          · rw [← Except.ok.inj hre]; exact mutual_mem hsu
    obtain ⟨F, G, D, fb, g1, g2, g3, g4, g5, g6, g7, g8⟩ := C84_full_handshake K (Z.knows sh ch) hg hprev hsu hsub r.hellos rk rs items x d hfull
    obtain ⟨tk, sw, fh', rest'⟩ := d
    dsimp only at hrest
    subst hrest
    refine ⟨x.rest, F, G, D, fb, g1, ?_, ?_, ?_, ?_, ?_, g7, ?_⟩
    · rw [e1, e2]; exact g2
    · rw [e1, e4]; exact g3
    · rw [e4]; exact g4
    · rw [e4]; exact g5
    · rw [e6]; exact g6
    · rw [e5]; exact g8
  · right
    refine ⟨hres, s, hses, hrd, ?_⟩
    obtain ⟨a1, a2, a3, G, A, fb, b1, b2, b3, b4, b5, b6, _⟩ := C123_client K.auth (Z.knows sh ch) s r.hellos items q hq
    obtain ⟨qa, qb, qc, qd, qe, qf, qg, qh⟩ := q
    dsimp only at hrest
    subst hrest
    exact ⟨e3.trans a1, e1.trans a2, e2.trans a3, G, A, fb, b1, b2, by rw [e5]; exact b3, b5, b6⟩

/-- **C135, GM client.** The same for a GM client with two certificates (C46). Missing: with the ECC suites the ServerKeyExchange may be left out
(`C46_skx_omitted_violated`). -/
theorem C135_gm_partial (P : Prims) (K : KaEnv) (Z : ClientStart) (rk rs : Bytes) (c c' : Conn) (hg : Z.S.gm = true) (h1c : Z.S.single = false)
    (hprev : Z.S.previous = none) (hren : Z.S.renegotiation = c.ren) (h1 : c.handshakeErr = none) (h2 : c.handshakeComplete = false)
    (h : c.handshake ((clientProg K Z rk rs).asHandshake P Z.S.gm) = .ok (none, c')) :
    ∃ (r : ClientEnd) (sh : ServerHelloMsg) (ch : ClientChoice) (items sent : List Item), Spec.ClientRan P K Z rk rs c sh ch r.hellos items sent r ∧
      readServerHelloGM Z.conn (clientHelloOf Z.hello) (Z.session.map sessionOf) (serverHelloOf sh) = .ok ch ∧ r.S = Z.knows sh ch ∧
      ((r.resumed = none ∧ Spec.GmFull K r.S r.hellos items sent r) ∨
       (ch.resume.isSome = true ∧ ∃ s, Z.session = some s ∧ r.resumed = some s ∧ Spec.Resumption K.auth r.S r.hellos items sent s r)) := by
  obtain ⟨o, r, hr, hd⟩ := handshake_ran h1 h2 h
  obtain ⟨sh, ch, items, sent, hran, hS, hcase⟩ := ran_items hren hr hd
  have hre : readServerHelloGM Z.conn (clientHelloOf Z.hello) (Z.session.map sessionOf) (serverHelloOf sh) = .ok ch := by
    have := hran.choice
    unfold ClientStart.react at this
    rwa [if_pos hg] at this
  refine ⟨r, sh, ch, items, sent, hran, hre, hS, ?_⟩
  rw [hS]
  rcases hcase with ⟨hn, _, x, d, hfull, rfl, hrest, e1, e2, e3, e4, e5, e6, e7⟩ | ⟨hres, s, q, hses, hrd, hq, rfl, hrest, e1, e2, e3, e4, e5, e6⟩
  · left
    refine ⟨hn, ?_⟩
    have hsu : ch.suite ∈ gmCipherSuites ∧ ch.vers = vGMSSL := by
      unfold readServerHelloGM at hre
      split at hre
      · cases hre
      · split at hre
        · cases hre
        · rename_i su hsu
          split at hre
          · cases hre
          · rw [← Except.ok.inj hre]; exact ⟨mutual_mem hsu, rfl⟩
    have hv : (Z.knows sh ch).vers.toNat < vTLS12.toNat := by
      show ch.vers.toNat < _
      rw [hsu.2]; decide
    obtain ⟨F, G, D, fb, sign, enc, pre, g1, g2, g3, g4, g5, g6, g7, g8, g9⟩ :=
      C46_handshake_partial K (Z.knows sh ch) hg h1c hv hprev hsu.1 r.hellos rk rs items x d hfull
    obtain ⟨tk, sw, fh', rest'⟩ := d
    dsimp only at hrest
    subst hrest
    refine ⟨x.rest, F, G, D, fb, sign, enc, pre, g1, ?_, g3, ?_, ?_, g6, ?_, ?_, ?_⟩
    · rw [e1, e2]; exact g2
    · rw [e1]; exact g4
    · rw [e1]; exact g5
    · rw [e4]; exact g7
    · rw [e4]; exact g8
    · rw [e4]; exact g9
  · right
    refine ⟨hres, s, hses, hrd, ?_⟩
    obtain ⟨a1, a2, a3, G, A, fb, b1, b2, b3, b4, b5, b6, _⟩ := C123_client K.auth (Z.knows sh ch) s r.hellos items q hq
    obtain ⟨qa, qb, qc, qd, qe, qf, qg, qh⟩ := q
    dsimp only at hrest
    subst hrest
    exact ⟨e3.trans a1, e1.trans a2, e2.trans a3, G, A, fb, b1, b2, by rw [e5]; exact b3, b5, b6⟩

end Verif.Tls
