import Verif.Tls.HsKeys
import Verif.Tls.SrvRun
import Verif.Tls.SrvExamples
/-!
C140: the keys and the version in use after a server handshake.
-/
namespace Verif.Tls
open Verif Verif.Tls.Wire

/-! ### the parts of the server that change no keys -/

theorem srvCertsProg_plain (E : AuthEnv) (S : ServerHs) (cs : List Bytes) : (srvCertsProg E S cs).Plain := by
  unfold srvCertsProg
  split
  · trivial
  · refine liftPlain fun x => checkPlain fun _ => ?_
    repeat' split
    all_goals trivial

theorem clientCertProg_plain (E : AuthEnv) (S : ServerHs) (fh : FinishedHash) : (clientCertProg E S fh).Plain := by
  unfold clientCertProg
  split
  · intro m
    beta_reduce
    split
    · refine liftPlain fun x => liftPlain fun f => ?_
      split
      · trivial
      · exact .bind (srvCertsProg_plain _ _ _) fun _ => trivial
    · trivial
  · trivial

theorem ckxProg_plain (E : AuthEnv) (S : ServerHs) (fh : FinishedHash) : (ckxProg E S fh).Plain := by
  unfold ckxProg
  intro m
  beta_reduce
  split
  · exact liftPlain fun x => liftPlain fun f => liftPlain fun p => liftPlain fun ms => checkPlain fun _ => trivial
  · trivial

theorem certVerifyProg_plain (E : AuthEnv) (S : ServerHs) (p : PeerId) (ms : Bytes) (fh : FinishedHash) : (certVerifyProg E S p ms fh).Plain := by
  unfold certVerifyProg
  split
  · trivial
  · intro m
    beta_reduce
    split
    · exact liftPlain fun a => liftPlain fun d => liftPlain fun ok => checkPlain fun _ => liftPlain fun x => plain_lift _ _
    · trivial

theorem srvAnswerProg_plain (E : AuthEnv) (S : ServerHs) (fh : FinishedHash) : (srvAnswerProg E S fh).Plain := by
  unfold srvAnswerProg
  exact .bind (clientCertProg_plain _ _ _) fun p => .bind (ckxProg_plain _ _ _) fun m => .bind (certVerifyProg_plain _ _ _ _ _) fun _ => trivial

theorem clientFinProg_plain (ms : Bytes) (fh : FinishedHash) (m : Message) : (clientFinProg ms fh m).Plain := by
  unfold clientFinProg
  split
  · refine liftPlain fun x => ?_
    split
    · trivial
    · exact liftPlain fun y => plain_lift _ _
  · trivial

theorem srvTicketProg_plain (t : Bool) (e : Res Bytes) (fh : FinishedHash) : (srvTicketProg t e fh).Plain := by
  unfold srvTicketProg
  split
  · exact liftPlain fun _ => emitProg_plain _ _
  · trivial

theorem srvAgainProg_plain (E : AuthEnv) (S : ServerHs) (st : SessionState) : (srvAgainProg E S st).Plain := by
  unfold srvAgainProg
  split
  · exact srvCertsProg_plain _ _ _
  · trivial

theorem srvFlightProg_plain (K : KaEnv) (T : ServerSide K.auth.x509.curve) (rand : Bytes) (fh : FinishedHash) : (srvFlightProg K T rand fh).Plain := by
  unfold srvFlightProg srvStatusProg srvSkxProg srvReqProg
  refine .bind (emitProg_plain _ _) fun f1 => .bind ?_ fun f2 => liftPlain fun k => .bind ?_ fun f3 => .bind ?_ fun f4 => .bind (emitProg_plain _ _) fun _ => trivial
  all_goals (split <;> first | trivial | exact emitProg_plain _ _)

/-! ### the three steps that do -/

namespace Spec
/-- the connection writes with the server's keys of the master secret `ms` (suite, version and randoms of `S`): its sending half is what writing some records leaves of
the fresh keys -/
def SrvSendsWith (P : Prims) (S : ServerHs) (ms : Bytes) (out : HalfConn) : Prop :=
  ∃ k co hc, serverEstablishKeys P.hashes S.vers S.suite ms S.clientRandom S.serverRandom = .ok k ∧ newCipherFor P S.suite.cipher k.out.key k.out.iv false = .ok co ∧
    Fresh hc S.vers co (newMacFor P S.suite.mac S.vers k.out.mac) ∧ Wrote hc out

/-- it reads with the client's keys of `ms` -/
def SrvReadsWith (P : Prims) (S : ServerHs) (ms : Bytes) (inp : HalfConn) : Prop :=
  ∃ k ci hc, serverEstablishKeys P.hashes S.vers S.suite ms S.clientRandom S.serverRandom = .ok k ∧ newCipherFor P S.suite.cipher k.inp.key k.inp.iv true = .ok ci ∧
    Fresh hc S.vers ci (newMacFor P S.suite.mac S.vers k.inp.mac) ∧ Opened hc inp
end Spec

theorem serverEstablish_prepared {P : Prims} {s : Suite} {ms cr sr : Bytes} {c c' : Conn} (h : c.serverEstablish P s ms cr sr = .ok c') :
    ∃ k ci co, serverEstablishKeys P.hashes c.vers s ms cr sr = .ok k ∧ newCipherFor P s.cipher k.inp.key k.inp.iv true = .ok ci ∧
      newCipherFor P s.cipher k.out.key k.out.iv false = .ok co ∧ Prepared c'.inp c.vers ci (newMacFor P s.mac c.vers k.inp.mac) ∧
      Prepared c'.out c.vers co (newMacFor P s.mac c.vers k.out.mac) ∧ Same c c' := by
  unfold Conn.serverEstablish at h
  split at h
  · rename_i k hk
    split at h
    · rename_i i o hi ho
      have := Res.ok.inj h; subst this
      obtain ⟨ci, h1, h2⟩ := keyHalf_prepared hi
      obtain ⟨co, h3, h4⟩ := keyHalf_prepared ho
      exact ⟨k, ci, co, hk, h1, h3, h2, h4, ⟨rfl, rfl, rfl, rfl⟩⟩
    · cases h
  · cases h

theorem srvFinishedProg_keys {P : Prims} {gm : Bool} {ms : Bytes} {fh : FinishedHash} {c : Conn} {o : HsOut FinishedHash} {a : FinishedHash}
    {v : Version} {co : Cipher} {m : Option Mac} (hp : Prepared c.out v co m) (h : (srvFinishedProg ms fh).run P gm c = .ok o) (hd : o.result = .done a) :
    (∃ hc, Spec.Fresh hc v co m ∧ Spec.Wrote hc o.conn.out) ∧ Spec.Opened c.inp o.conn.inp ∧ Same c o.conn := by
  unfold srvFinishedProg at h
  simp only [Hs.run] at h
  split at h
  · have := Res.ok.inj h; subst this; cases hd
  · rename_i n c1 hw
    obtain ⟨o', h1, rfl⟩ := put_inv h
    obtain ⟨d, ci, kd, hci, rfl⟩ := writeCCS_keep hw
    have kp := run_plain P gm _ (liftPlain fun x => emitProg_plain _ _) _ o' a h1 hd
    rw [hp.cipher] at hci
    have := Option.some.inj hci
    subst this
    refine ⟨⟨_, ⟨?_, rfl, ?_, rfl⟩, kp.out⟩, Opened_trans kd.inp kp.inp, kd.same.trans (Same.trans ?_ kp.same)⟩
    · exact (Wrote_keeps kd.out).2.2.1.trans hp.version
    · exact hp.mac
    · exact ⟨rfl, rfl, rfl, rfl⟩
  · cases h
  · cases h

/-- a server never allows renegotiation: the ChangeCipherSpec has to be there -/
theorem srvReadFinishedProg_keys {P : Prims} {gm : Bool} {S : ServerHs} {ms : Bytes} {fh : FinishedHash} {c : Conn} {o : HsOut FinishedHash} {a : FinishedHash}
    {v : Version} {ci : Cipher} {m : Option Mac} (hs : c.isClient = false) (hp : Prepared c.inp v ci m) (h : (srvReadFinishedProg S ms fh).run P gm c = .ok o)
    (hd : o.result = .done a) :
    (∃ hc, Spec.Fresh hc v ci m ∧ Spec.Opened hc o.conn.inp) ∧ Spec.Wrote c.out o.conn.out ∧ Same c o.conn := by
  unfold srvReadFinishedProg at h
  simp only [Hs.run] at h
  split at h
  · rename_i e0 c1 hr
    split at h
    · have := Res.ok.inj h; subst this; cases hd
    · rename_i he
      split at h
      · have := Res.ok.inj h; subst this; cases hd
      · rename_i msg c2 hm
        obtain ⟨o', h1, rfl⟩ := saw_inv h
        have k2 := readMessage_keep hm
        have tail : Keep c2 o'.conn := by
          refine run_plain P gm _ ?_ c2 o' a h1 hd
          split
          · split
            · exact liftPlain fun x => liftPlain fun f m => clientFinProg_plain _ _ _
            · trivial
          · exact clientFinProg_plain _ _ _
        have kk := k2.trans tail
        rcases readSwitch_keep hr he with ⟨s1, d, cj, g1, g2, g3, g4, g5⟩ | ⟨s1, s2, s3, s4⟩
        · rw [hp.cipher] at g2
          have := Option.some.inj g2
          subst this
          refine ⟨⟨c1.inp, ?_, kk.inp⟩, ?_, ?_⟩
          · rw [g5]
            exact ⟨(Opened_next g1).2.2.trans hp.version, rfl, hp.mac, rfl⟩
          · have := kk.out; rw [g4] at this; exact this
          · refine Same.trans ?_ kk.same
            exact ⟨g3.vers, g3.haveVers, g3.isClient, g3.policy⟩
        · simp only [Conn.ren, hs, Bool.false_and] at s2
          cases s2
      · cases h
      · cases h
  · cases h
  · cases h

/-- after the ClientHello: the version -/
theorem srvHelloProg_keys {cv : Sm2.Curve} {P : Prims} {gm : Bool} {start : ClientHelloMsg → Option (ServerStart cv)} {c : Conn}
    {o : HsOut (ClientHelloMsg × ServerStart cv × ServerChoice)} {x : ClientHelloMsg × ServerStart cv × ServerChoice}
    (h : (srvHelloProg gm start).run P gm c = .ok o) (hd : o.result = .done x) :
    o.conn.vers = x.2.2.vers ∧ o.conn.haveVers = true ∧ o.conn.isClient = c.isClient := by
  unfold srvHelloProg at h
  simp only [Hs.run] at h
  split at h
  · have := Res.ok.inj h; subst this; cases hd
  · rename_i m c1 hr
    have k1 := readMessage_keep hr
    obtain ⟨o', h1, rfl⟩ := saw_inv h
    clear h hr
    dsimp only at hd ⊢
    have bad : ∀ {a : Option Byte} {e : String} {d : Conn}, (Hs.fail a e : Hs (ClientHelloMsg × ServerStart cv × ServerChoice)).run P gm d = .ok o' → False := by
      intro a e d hf
      cases a with
      | none => have := Res.ok.inj hf; subst this; cases hd
      | some a =>
        simp only [Hs.run] at hf
        split at hf
        · have := Res.ok.inj hf; subst this; cases hd
        · cases hf
        · cases hf
    split at h1
    · rename_i ch
      split at h1
      · exact (bad h1).elim
      · rename_i Z hZ
        split at h1
        · exact (bad h1).elim
        · rename_i v hv
          change (match Z.react gm ch with
            | .error a => .fail a.code "ClientHello"
            | .ok r => .ret (ch, Z, r) : Hs (ClientHelloMsg × ServerStart cv × ServerChoice)).run P gm { c1 with vers := v, haveVers := true } = .ok o' at h1
          split at h1
          · exact (bad h1).elim
          · rename_i r hc
            have := Res.ok.inj h1; subst this
            cases hd
            refine ⟨?_, rfl, k1.isClient⟩
            have : Z.cfg.mutualVersion ch.vers = some r.vers := by
              unfold ServerStart.react at hc
              split at hc
              · exact (readClientHelloGM_inv hc).1
              · obtain ⟨_, h, _⟩ := readClientHello_inv hc
                exact h
            rw [hv] at this
            exact Option.some.inj this
    · exact (bad h1).elim
  · cases h
  · cases h

/-! ### the handshakes -/

/-- what a completed handshake leaves -/
structure SrvKeyed (P : Prims) (c d : Conn) (r : ServerRes) : Prop where
  sends : Spec.SrvSendsWith P r.S r.master d.out
  reads : Spec.SrvReadsWith P r.S r.master d.inp
  same : Same c d

theorem srvResumeProg_keys {P : Prims} {gm : Bool} {E : AuthEnv} {S : ServerHs} {box : SessionState → Res Bytes} {ch : ClientHelloMsg} {hello : ServerHelloMsg} {st : SessionState}
    {c : Conn} {o : HsOut ServerRes} {r : ServerRes} (hs : c.isClient = false) (hv : c.vers = S.vers) (h : (srvResumeProg E S box ch hello st).run P gm c = .ok o)
    (hd : o.result = .done r) : SrvKeyed P c o.conn r ∧ r.S = S := by
  unfold srvResumeProg at h
  change (Hs.lift none (newFinishedHash E.hashes S.vers S.suite) >>= _ : Hs ServerRes).run P gm { c with buffering := true } = .ok o at h
  have k0 : Keep c { c with buffering := true } := ⟨.refl _, .refl _, rfl, rfl, rfl, rfl⟩
  generalize ({ c with buffering := true } : Conn) = c0 at h k0
  obtain ⟨o1, f1, o2, h1, h2, h3, h4, h5⟩ := run_bind P _ _ _ _ _ _ h hd
  have k1 := k0.trans (run_plain P _ _ (plain_lift _ _) _ _ _ h1 h2)
  obtain ⟨o3, x, o4, g1, g2, g3, g4, g5⟩ := run_bind P _ _ _ _ _ _ h3 h4
  have k2 := k1.trans (run_plain P _ _ (plain_lift _ _) _ _ _ g1 g2)
  obtain ⟨o5, y, o6, i1, i2, i3, i4, i5⟩ := run_bind P _ _ _ _ _ _ g3 g4
  have k3 := k2.trans (run_plain P _ _ (plain_lift _ _) _ _ _ i1 i2)
  obtain ⟨o7, f2, o8, j1, j2, j3, j4, j5⟩ := run_bind P _ _ _ _ _ _ i3 i4
  have k4 := k3.trans (run_plain P _ _ (plain_lift _ _) _ _ _ j1 j2)
  rw [← h5, ← g5, ← i5, ← j5]
  clear h hd k0 k1 k2 k3 h1 h2 h3 h4 h5 g1 g2 g3 g4 g5 i1 i2 i3 i4 i5 j1 j2 j5
  simp only [Hs.run] at j3
  split at j3
  · have := Res.ok.inj j3; subst this; cases j4
  · rename_i n c1 hw
    have k5 := k4.trans (writeRecord_keep (by decide) hw)
    obtain ⟨o9, l1, rfl⟩ := put_inv j3
    clear j3 hw
    dsimp only at j4 ⊢
    obtain ⟨p1, p, p2, m1, m2, m3, m4, m5⟩ := run_bind P _ _ _ _ _ _ l1 j4
    have k6 := k5.trans (run_plain P _ _ (srvAgainProg_plain _ _ _) _ _ _ m1 m2)
    rw [← m5]
    clear l1 j4 m5 m1 m2
    simp only [Hs.run] at m3
    split at m3
    · rename_i c2 hk
      obtain ⟨k, ci, co, q1, q2, q3, q4, q5, q6⟩ := serverEstablish_prepared hk
      have hv1 : p1.conn.vers = S.vers := k6.vers.trans hv
      rw [hv1] at q1 q4 q5
      have s2 : Same c c2 := k6.same.trans q6
      obtain ⟨t1, t, t2, a1, a2, a3, a4, a5⟩ := run_bind P _ _ _ _ _ _ m3 m4
      have kt := run_plain P _ _ (srvTicketProg_plain _ _ _) _ _ _ a1 a2
      obtain ⟨v1, fh, v2, d1, d2, d3, d4, d5⟩ := run_bind P _ _ _ _ _ _ a3 a4
      obtain ⟨kg1, kg2, kg3⟩ := srvFinishedProg_keys (q5.wrote kt.out) d1 d2
      rw [← a5, ← d5]
      have s3 := (s2.trans kt.same).trans kg3
      simp only [Hs.run] at d3
      split at d3
      · have := Res.ok.inj d3; subst this; cases d4
      · rename_i c3 hf
        have kfl := flush_keep v1.conn
        rw [hf] at kfl
        dsimp only at kfl
        have s4 := s3.trans kfl.1.same
        obtain ⟨u1, f, u2, b1, b2, b3, b4, b5⟩ := run_bind P _ _ _ _ _ _ d3 d4
        have pin : Prepared c3.inp S.vers ci (newMacFor P S.suite.mac S.vers k.inp.mac) := by rw [kfl.2.2]; exact (q4.opened kt.inp).opened kg2
        obtain ⟨kf1, kf2, kf3⟩ := srvReadFinishedProg_keys (s4.isClient.trans hs) pin b1 b2
        rw [← b5]
        have := Res.ok.inj b3; subst this
        cases b4
        refine ⟨⟨?_, ?_, s4.trans kf3⟩, rfl⟩
        · obtain ⟨hc, w1, w2⟩ := kg1
          rw [kfl.2.1] at kf2
          exact ⟨k, co, hc, q1, q3, w1, Wrote_trans w2 kf2⟩
        · obtain ⟨hc, w1, w2⟩ := kf1
          exact ⟨k, ci, hc, q1, q2, w1, w2⟩
    · cases m3
    · cases m3
  · cases j3
  · cases j3

theorem srvFullProg_keys {P : Prims} {gm : Bool} {K : KaEnv} {T : ServerSide K.auth.x509.curve} {box : SessionState → Res Bytes} {rk rc : Bytes} {ch : ClientHelloMsg}
    {hello : ServerHelloMsg} {c : Conn} {o : HsOut ServerRes} {r : ServerRes} (hs : c.isClient = false) (hv : c.vers = T.vers)
    (h : (srvFullProg K T box rk rc ch hello).run P gm c = .ok o) (hd : o.result = .done r) : SrvKeyed P c o.conn r ∧ r.S.vers = T.vers := by
  unfold srvFullProg at h
  change (Hs.lift none ((T.hs (K := K) none rc).newHash K.auth) >>= _ : Hs ServerRes).run P gm { c with buffering := true } = .ok o at h
  have k0 : Keep c { c with buffering := true } := ⟨.refl _, .refl _, rfl, rfl, rfl, rfl⟩
  generalize ({ c with buffering := true } : Conn) = c0 at h k0
  obtain ⟨o1, f1, o2, h1, h2, h3, h4, h5⟩ := run_bind P _ _ _ _ _ _ h hd
  have k1 := k0.trans (run_plain P _ _ (plain_lift _ _) _ _ _ h1 h2)
  obtain ⟨o3, x, o4, g1, g2, g3, g4, g5⟩ := run_bind P _ _ _ _ _ _ h3 h4
  have k2 := k1.trans (run_plain P _ _ (plain_lift _ _) _ _ _ g1 g2)
  obtain ⟨o5, y, o6, i1, i2, i3, i4, i5⟩ := run_bind P _ _ _ _ _ _ g3 g4
  have k3 := k2.trans (run_plain P _ _ (plain_lift _ _) _ _ _ i1 i2)
  obtain ⟨o7, f2, o8, j1, j2, j3, j4, j5⟩ := run_bind P _ _ _ _ _ _ i3 i4
  have k4 := k3.trans (run_plain P _ _ (plain_lift _ _) _ _ _ j1 j2)
  rw [← h5, ← g5, ← i5, ← j5]
  clear h hd k0 k1 k2 k3 h1 h2 h3 h4 h5 g1 g2 g3 g4 g5 i1 i2 i3 i4 i5 j1 j2 j5
  simp only [Hs.run] at j3
  split at j3
  · have := Res.ok.inj j3; subst this; cases j4
  · rename_i n c1 hw
    have k5 := k4.trans (writeRecord_keep (by decide) hw)
    obtain ⟨o9, l1, rfl⟩ := put_inv j3
    clear j3 hw
    dsimp only at j4 ⊢
    obtain ⟨p1, p, p2, m1, m2, m3, m4, m5⟩ := run_bind P _ _ _ _ _ _ l1 j4
    have k6 := k5.trans (run_plain P _ _ (srvFlightProg_plain _ _ _ _) _ _ _ m1 m2)
    rw [← m5]
    clear l1 j4 m5 m1 m2
    simp only [Hs.run] at m3
    split at m3
    · have := Res.ok.inj m3; subst this; cases m4
    · rename_i c2 hf
      have kfl := (flush_keep p1.conn).1
      rw [hf] at kfl
      dsimp only at kfl
      have k7 := k6.trans kfl
      obtain ⟨w1, a, w2, n1, n2, n3, n4, n5⟩ := run_bind P _ _ _ _ _ _ m3 m4
      have k8 := k7.trans (run_plain P _ _ (srvAnswerProg_plain _ _ _) _ _ _ n1 n2)
      rw [← n5]
      simp only [Hs.run] at n3
      split at n3
      · rename_i c3 hk
        obtain ⟨k, ci, co, q1, q2, q3, q4, q5, q6⟩ := serverEstablish_prepared hk
        have hv1 : w1.conn.vers = T.vers := k8.vers.trans hv
        rw [hv1] at q1 q4 q5
        have s2 : Same c c3 := k8.same.trans q6
        obtain ⟨u1, f, u2, b1, b2, b3, b4, b5⟩ := run_bind P _ _ _ _ _ _ n3 n4
        obtain ⟨kf1, kf2, kf3⟩ := srvReadFinishedProg_keys (s2.isClient.trans hs) q4 b1 b2
        rw [← b5]
        have s3 := s2.trans kf3
        clear n3 n4 n5 b5
        change (srvTicketProg T.ticket (box ⟨T.vers, T.suite.id, a.2.1, a.1.2, false⟩) f >>= _ : Hs ServerRes).run P gm { u1.conn with buffering := true } = .ok u2 at b3
        have kb : Keep u1.conn { u1.conn with buffering := true } := ⟨.refl _, .refl _, rfl, rfl, rfl, rfl⟩
        generalize ({ u1.conn with buffering := true } : Conn) = c4 at b3 kb
        obtain ⟨t1, t, t2, a1, a2, a3, a4, a5⟩ := run_bind P _ _ _ _ _ _ b3 b4
        have kt := kb.trans (run_plain P _ _ (srvTicketProg_plain _ _ _) _ _ _ a1 a2)
        obtain ⟨v1, fh, v2, d1, d2, d3, d4, d5⟩ := run_bind P _ _ _ _ _ _ a3 a4
        obtain ⟨kg1, kg2, kg3⟩ := srvFinishedProg_keys ((q5.wrote kf2).wrote kt.out) d1 d2
        rw [← a5, ← d5]
        have s4 := (s3.trans kt.same).trans kg3
        simp only [Hs.run] at d3
        split at d3
        · have := Res.ok.inj d3; subst this; cases d4
        · rename_i c5 hf2
          have kfl2 := flush_keep v1.conn
          rw [hf2] at kfl2
          dsimp only at kfl2
          have := Res.ok.inj d3; subst this
          cases d4
          refine ⟨⟨?_, ?_, s4.trans kfl2.1.same⟩, rfl⟩
          · obtain ⟨hc, z1, z2⟩ := kg1
            exact ⟨k, co, hc, q1, q3, z1, by dsimp only; rw [kfl2.2.1]; exact z2⟩
          · obtain ⟨hc, z1, z2⟩ := kf1
            exact ⟨k, ci, hc, q1, q2, z1, by dsimp only; rw [kfl2.2.2]; exact Opened_trans (Opened_trans z2 kt.inp) kg2⟩
      · cases n3
      · cases n3
  · cases j3
  · cases j3

/-- the whole handshake -/
theorem serverProg_keys {P : Prims} {K : KaEnv} {gm : Bool} {start : ClientHelloMsg → Option (ServerStart K.auth.x509.curve)} {c : Conn}
    {o : HsOut (ServerChoice × ServerRes)} {x : ServerChoice × ServerRes} (hs : c.isClient = false) (h : (serverProg K gm start).run P gm c = .ok o) (hd : o.result = .done x) :
    Spec.SrvSendsWith P x.2.S x.2.master o.conn.out ∧ Spec.SrvReadsWith P x.2.S x.2.master o.conn.inp ∧ o.conn.vers = x.1.vers ∧ o.conn.haveVers = true ∧
      x.2.S.vers = x.1.vers := by
  unfold serverProg at h
  obtain ⟨o1, y, o2, h1, h2, h3, h4, h5⟩ := run_bind P _ _ _ _ _ _ h hd
  obtain ⟨v1, v2, v3⟩ := srvHelloProg_keys h1 h2
  rw [← h5]
  dsimp only at h3
  split at h3
  · obtain ⟨o3, r, o4, g1, g2, g3, g4, g5⟩ := run_bind P _ _ _ _ _ _ h3 h4
    have := Res.ok.inj g3; subst this
    cases g4
    obtain ⟨kk, ks⟩ := srvResumeProg_keys (v3.trans hs) v1 g1 g2
    rw [← g5]
    exact ⟨kk.sends, kk.reads, kk.same.vers.trans v1, kk.same.haveVers.trans v2, by rw [ks]; rfl⟩
  · obtain ⟨o3, r, o4, g1, g2, g3, g4, g5⟩ := run_bind P _ _ _ _ _ _ h3 h4
    have := Res.ok.inj g3; subst this
    cases g4
    obtain ⟨kk, ks⟩ := srvFullProg_keys (v3.trans hs) v1 g1 g2
    rw [← g5]
    exact ⟨kk.sends, kk.reads, kk.same.vers.trans v1, kk.same.haveVers.trans v2, ks⟩

/-- the connection a completed call of `Handshake` leaves -/
theorem handshake_conn_any {α : Type} {P : Prims} {gm : Bool} {p : Hs α} {c c' : Conn} {o : HsOut α} {r : α} (h1 : c.handshakeErr = none) (h2 : c.handshakeComplete = false)
    (h : c.handshake (p.asHandshake P gm) = .ok (none, c')) (hr : p.run P gm c = .ok o) (hd : o.result = .done r) :
    c'.out = o.conn.out ∧ c'.inp = o.conn.inp ∧ c'.vers = o.conn.vers ∧ c'.haveVers = o.conn.haveVers ∧ c'.handshakeComplete = true := by
  have hc : ({ c with handshakeComplete := false } : Conn) = c := by rw [← h2]
  unfold Conn.handshake at h
  rw [h1] at h
  dsimp only at h
  rw [if_neg (by rw [h2]; decide)] at h
  unfold Conn.runHandshake at h
  rw [hc] at h
  unfold Hs.asHandshake at h
  rw [hr] at h
  simp only [Res.map, hd, HsEnd.err, Option.isNone_none, if_true, Res.ok.injEq, Prod.mk.injEq, true_and] at h
  rw [← h]
  exact ⟨rfl, rfl, rfl, rfl, rfl⟩

/-- **C140.** If `Handshake` of a server returns nil on a new connection then, with `r` the state in which its run ended (the one of C138: the master secret of the key
exchange or of the resumed session, the suite, version and randoms of the hellos): what it sends from then on is protected with the server's keys of that master secret,
what it accepts is opened with the client's keys of that master secret, each from sequence number 0 at the ChangeCipherSpec on, and every record it accepts carries the
version it chose. -/
theorem C140_keys (P : Prims) (K : KaEnv) (gm : Bool) (start : ClientHelloMsg → Option (ServerStart K.auth.x509.curve)) (c c' : Conn) (hs : c.isClient = false)
    (h1 : c.handshakeErr = none) (h2 : c.handshakeComplete = false) (h : c.handshake ((serverProg K gm start).asHandshake P gm) = .ok (none, c')) :
    ∃ (ch : ClientHelloMsg) (Z : ServerStart K.auth.x509.curve) (k : ServerChoice) (items sent : List Item) (r : ServerRes),
      Spec.ServerRan P K gm start c ch Z k items sent r ∧ r.S.vers = k.vers ∧ Spec.SrvSendsWith P r.S r.master c'.out ∧ Spec.SrvReadsWith P r.S r.master c'.inp ∧
      c'.out.cipher.isSome = true ∧ c'.vers = k.vers ∧ c'.haveVers = true ∧
      ∀ d, c'.readRecord typAppData = .ok (none, d) → ∃ (n : Nat) (b : Conn) (typ : Byte) (body rest data : Bytes) (inp' : HalfConn), n ≤ 5 ∧ Spec.Warned n c' b ∧
        Spec.Opens b typ k.vers body rest data inp' ∧ Spec.Delivered b typAppData data inp' rest typ d := by
  obtain ⟨ch, Z, k, items, sent, r, hran, _⟩ := C138_server P K gm start c c' hs h1 h2 h
  obtain ⟨o, hr, hd, _⟩ := hran.ran
  obtain ⟨g1, g2, g3, g4, g5⟩ := serverProg_keys hs hr hd
  obtain ⟨e1, e2, e3, e4, _⟩ := handshake_conn_any h1 h2 h hr hd
  have hv := e4.trans g4
  have hvv := e3.trans g3
  refine ⟨ch, Z, k, items, sent, r, hran, g5, by rw [e1]; exact g1, by rw [e2]; exact g2, ?_, hvv, hv, ?_⟩
  · obtain ⟨kk, co, hc, _, _, hf, hw⟩ := g1
    rw [e1, (Wrote_keeps hw).2.2.2.1, hf.cipher]; rfl
  · intro d hd'
    obtain ⟨n, b, typ, v, body, rest, data, inp', a1, a2, a3, a4, a5, _⟩ := C30_accepted c' typAppData d hd'
    have kw := Warned_keep a2
    have : v = k.vers := (a3.version (kw.haveVers.trans hv)).trans (kw.vers.trans hvv)
    subst this
    exact ⟨n, b, typ, body, rest, data, inp', a1, a2, a3, a5⟩

/-- **C140, both ends.** A client and a server that hold the same master secret, suite, version and randoms after their handshakes (C136, `C140_keys`) hold keys
that belong together: each side's sending half and the other's receiving half come from one pair of fresh halves. -/
theorem C140_pair (P : Prims) (hP : P.Lawful) (S : ClientHs) (T : ServerHs) (ms : Bytes) (co ci so si : HalfConn) (hu : Spec.Usable S.vers S.suite)
    (hv : T.vers = S.vers) (hsu : T.suite = S.suite) (hcr : T.clientRandom = S.clientRandom) (hsr : T.serverRandom = S.serverRandom)
    (c1 : Spec.SendsWith P S ms co) (c2 : Spec.ReadsWith P S ms ci) (s1 : Spec.SrvSendsWith P T ms so) (s2 : Spec.SrvReadsWith P T ms si) :
    (∃ a b, Paired a b ∧ Spec.Wrote a co ∧ Spec.Opened b si) ∧ (∃ a b, Paired a b ∧ Spec.Wrote a so ∧ Spec.Opened b ci) := by
  obtain ⟨kc, ks, h1, h2, h3, h4, h5⟩ := C41_endpoints_agree P.hashes S.vers S.suite hu ms S.clientRandom S.serverRandom
  have hm := usable_mem hu
  obtain ⟨k1, x1, y1, a1, a2, a3, a4⟩ := c1
  obtain ⟨k2, x2, y2, b1, b2, b3, b4⟩ := c2
  obtain ⟨k3, x3, y3, d1, d2, d3, d4⟩ := s1
  obtain ⟨k4, x4, y4, e1, e2, e3, e4⟩ := s2
  rw [hv, hsu, hcr, hsr] at d1 e1
  rw [hsu] at d2 e2
  rw [hv, hsu] at d3 e3
  rw [h1] at a1 b1
  rw [h2] at d1 e1
  have := Res.ok.inj a1; subst this
  have := Res.ok.inj b1; subst this
  have := Res.ok.inj d1; subst this
  have := Res.ok.inj e1; subst this
  obtain ⟨p1, p2, q1, q2, q3, _⟩ := newCipher_pair P hP S.suite hm S.vers kc.out.key kc.out.iv kc.out.mac (h5 _ (by simp)).2
  obtain ⟨r1, r2, t1, t2, t3, _⟩ := newCipher_pair P hP S.suite hm S.vers kc.inp.key kc.inp.iv kc.inp.mac (h5 _ (by simp)).2
  rw [a2] at q1
  rw [← h3, q2] at e2
  rw [← h4, t1] at d2
  rw [b2] at t2
  have := Res.ok.inj q1; subst this
  have := Res.ok.inj e2; subst this
  have := Res.ok.inj d2; subst this
  have := Res.ok.inj t2; subst this
  rw [← h3] at e3
  rw [← h4] at d3
  refine ⟨⟨y1, y4, ⟨?_, ?_, ?_, ?_, ?_, ?_⟩, a4, e4⟩, ⟨y3, y2, ⟨?_, ?_, ?_, ?_, ?_, ?_⟩, d4, b4⟩⟩
  · rw [a3.seq, e3.seq]
  · rw [a3.seq]; rfl
  · rw [a3.version, e3.version]
  · rw [a3.mac, e3.mac]
  · rw [a3.mac]; exact fun m hm => (newMac_lawful P hP _ _ _ m hm).1
  · rw [a3.version, a3.mac, a3.cipher, e3.cipher]; exact q3
  · rw [d3.seq, b3.seq]
  · rw [d3.seq]; rfl
  · rw [d3.version, b3.version]
  · rw [d3.mac, b3.mac]
  · rw [d3.mac]; exact fun m hm => (newMac_lawful P hP _ _ _ m hm).1
  · rw [d3.version, d3.mac, d3.cipher, b3.cipher]; exact t3

/-- C140: after the completed toy handshakes both halves are keyed, and the version is pinned -/
def toySeenKeys (r : Res (Option String × Conn)) : Option (Option String × Bool × Bool × Version × Bool) :=
  match r with | .ok (e, c) => some (e, c.out.cipher.isSome, c.inp.cipher.isSome, c.vers, c.haveVers) | _ => none
example : toySeenKeys (toySrvRun .requireAndVerifyClientCert (fun _ => .ok [42]) (250 :: List.replicate 11 0)) = some (none, true, true, vTLS12, true) := by decide +kernel
example : toySeenKeys (toySrvRun2 (154 :: List.replicate 11 0)) = some (none, true, true, vTLS12, true) := by decide +kernel

end Verif.Tls
