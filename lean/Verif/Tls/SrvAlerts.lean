import Verif.Tls.HsAlerts
import Verif.Tls.SrvExamples
/-!
C139: a server handshake that fails tells the client why, or the client ended it.
-/
namespace Verif.Tls
open Verif Verif.Tls.Wire

/-- the alerts of a server that refuses a handshake: unexpected_message, handshake_failure, bad_certificate, unsupported_certificate, illegal_parameter, protocol_version,
internal_error, inappropriate_fallback (tls/alert.go:12-39) -/
def serverAlerts : List Byte := [10, 40, 42, 43, 47, 70, 80, 86]

/-- the alerts a refusal of the server may have -/
def ServerAlert (a : Option Byte) : Prop := ∃ b ∈ serverAlerts, a = some b

theorem sa (b : Byte) (h : b ∈ serverAlerts := by decide) : ServerAlert (some b) := ⟨b, h, rfl⟩

theorem encIt' {α β : Type} {A : Option Byte → Prop} {R : β → Prop} {x : Res α} {f : α → Hs β} (hx : NoErr x) (h : ∀ a, (f a).Safe A R) : (Hs.lift none x >>= f).Safe A R :=
  .bind (R := fun _ => True) (safe_lift_none hx fun _ _ => trivial) fun a _ => h a

theorem hashIt' {β : Type} {A : Option Byte → Prop} {R : β → Prop} {fh : FinishedHash} (hf : fh.Fine) (b : Bytes) {f : FinishedHash → Hs β}
    (h : ∀ g, g.Fine → (f g).Safe A R) : (Hs.lift none (fh.write b) >>= f).Safe A R :=
  .bind (safe_lift_none (write_fine hf b).1 (write_fine hf b).2) h

theorem emit_safe {A : Option Byte → Prop} {fh : FinishedHash} (hf : fh.Fine) (m : Message) : (emitProg fh m).Safe A FinishedHash.Fine := by
  unfold emitProg
  exact encIt' (message_noErr m) fun x => hashIt' hf _ fun f hf' => hf'

theorem newFinishedHash_fine (hs : Hashes) (v : Version) (s : Suite) : NoErr (newFinishedHash hs v s) ∧ ∀ h, newFinishedHash hs v s = .ok h → h.Fine := by
  unfold newFinishedHash
  obtain ⟨p1, p2⟩ := prfForVersion_noErr hs v s
  refine ⟨NoErr.bind p1 fun a _ => ?_, ?_⟩
  · split <;> exact NoErr.ok
  · intro h hh
    obtain ⟨f, hf, hh⟩ := Res.bind_eq_ok.1 hh
    split at hh <;> (have := Res.ok.inj hh; subst this; exact p2 f hf)

theorem srvNewHash_fine (E : AuthEnv) (S : ServerHs) : NoErr (S.newHash E) ∧ ∀ h, S.newHash E = .ok h → h.Fine := by
  unfold ServerHs.newHash
  split
  · refine ⟨NoErr.ok, ?_⟩
    intro h hh
    have := Res.ok.inj hh; subst this
    intro r s l d; exact NoErr.ok
  · exact newFinishedHash_fine _ _ _

theorem srvCertsProg_safe (E : AuthEnv) (S : ServerHs) (cs : List Bytes) : (srvCertsProg E S cs).Safe ServerAlert fun _ => True := by
  unfold srvCertsProg
  split
  · exact sa 42
  · refine .bind (R := fun _ => True) (safe_lift (sa 42) fun _ _ => trivial) fun x _ => ?_
    refine .bind (R := fun _ => True) (safe_check (sa 42) fun _ => trivial) fun _ _ => ?_
    split
    · trivial
    · split
      · trivial
      · exact sa 43

theorem clientCertProg_safe (E : AuthEnv) (S : ServerHs) {fh : FinishedHash} (hf : fh.Fine) : (clientCertProg E S fh).Safe ServerAlert fun x => x.2.Fine := by
  unfold clientCertProg
  split
  · intro m
    beta_reduce
    split
    · refine encIt' (certificate_noErr _) fun x => hashIt' hf _ fun f hf' => ?_
      split
      · exact sa 42
      · exact .bind (srvCertsProg_safe _ _ _) fun p _ => hf'
    · exact sa 10
  · exact hf

theorem master_noErr (hs : Hashes) (v : Version) (s : Suite) (pre a b : Bytes) : NoErr (masterFromPreMasterSecret hs v s pre a b) := by
  unfold masterFromPreMasterSecret
  obtain ⟨p1, p2⟩ := prfForVersion_noErr hs v s
  exact NoErr.bind p1 fun f hf' => p2 f hf' _ _ _ _

theorem ckxProg_safe (E : AuthEnv) (S : ServerHs) {fh : FinishedHash} (hf : fh.Fine) : (ckxProg E S fh).Safe ServerAlert fun x => x.2.Fine := by
  unfold ckxProg
  intro m
  beta_reduce
  split
  · exact encIt' (ckx_noErr _) fun x => hashIt' hf _ fun f hf' => .bind (R := fun _ => True) (safe_lift (sa 40) fun _ _ => trivial) fun pre _ =>
      encIt' (master_noErr _ _ _ _ _ _) fun ms => .bind (R := fun _ => True) (safe_check (sa 80) fun _ => trivial) fun _ _ => hf'
  · exact sa 10

theorem certVerifyProg_safe (E : AuthEnv) (S : ServerHs) (p : PeerId) (ms : Bytes) {fh : FinishedHash} (hf : fh.Fine) :
    (certVerifyProg E S p ms fh).Safe ServerAlert FinishedHash.Fine := by
  unfold certVerifyProg
  split
  · exact hf
  · intro m
    beta_reduce
    split
    · refine .bind (R := fun _ => True) (safe_lift (sa 47) fun _ _ => trivial) fun a _ => .bind (R := fun _ => True) (safe_lift (sa 42) fun _ _ => trivial) fun d _ =>
        .bind (R := fun _ => True) (safe_lift (sa 42) fun _ _ => trivial) fun ok _ => .bind (R := fun _ => True) (safe_check (sa 42) fun _ => trivial) fun _ _ =>
        encIt' (cv_noErr _) fun x => safe_lift_none (write_fine hf _).1 (write_fine hf _).2
    · exact sa 10

theorem clientFinProg_safe (ms : Bytes) {fh : FinishedHash} (hf : fh.Fine) (m : Message) : (clientFinProg ms fh m).Safe ServerAlert FinishedHash.Fine := by
  unfold clientFinProg
  split
  · obtain ⟨c1, c2⟩ := clientSum_fine hf ms
    refine .bind (safe_lift_none c1 c2) fun x hx => ?_
    split
    · exact sa 40
    · exact encIt' (finished_noErr _) fun y => safe_lift_none (write_fine hx _).1 (write_fine hx _).2
  · exact sa 10

theorem srvReadFinishedProg_safe (S : ServerHs) (ms : Bytes) {fh : FinishedHash} (hf : fh.Fine) : (srvReadFinishedProg S ms fh).Safe ServerAlert FinishedHash.Fine := by
  unfold srvReadFinishedProg
  intro sw m
  beta_reduce
  split
  · split
    · exact encIt' (nextProto_noErr _) fun x => hashIt' hf _ fun f hf' => fun m => clientFinProg_safe ms hf' m
    · exact sa 10
  · exact clientFinProg_safe ms hf m

theorem srvTicketProg_safe (t : Bool) {enc : Res Bytes} (he : NoErr enc) {fh : FinishedHash} (hf : fh.Fine) : (srvTicketProg t enc fh).Safe ServerAlert FinishedHash.Fine := by
  unfold srvTicketProg
  split
  · exact encIt' he fun b => emit_safe hf _
  · exact hf

theorem srvFinishedProg_safe (ms : Bytes) {fh : FinishedHash} (hf : fh.Fine) : (srvFinishedProg ms fh).Safe ServerAlert FinishedHash.Fine := by
  unfold srvFinishedProg
  obtain ⟨c1, c2⟩ := serverSum_fine hf ms
  exact Hs.Safe.bind (safe_lift_none c1 c2) fun x hx => emit_safe hx _

theorem srvFlightProg_safe (K : KaEnv) (T : ServerSide K.auth.x509.curve) (rand : Bytes) {fh : FinishedHash} (hf : fh.Fine) :
    (srvFlightProg K T rand fh).Safe ServerAlert fun x => x.2.Fine := by
  unfold srvFlightProg
  refine .bind (emit_safe hf _) fun f1 h1 => .bind (R := FinishedHash.Fine) ?_ fun f2 h2 => .bind (R := fun _ => True) (safe_lift (sa 40) fun _ _ => trivial) fun k _ =>
    .bind (R := FinishedHash.Fine) ?_ fun f3 h3 => .bind (R := FinishedHash.Fine) ?_ fun f4 h4 => .bind (emit_safe h4 _) fun f5 h5 => h5
  · unfold srvStatusProg
    split
    · exact emit_safe h1 _
    · exact h1
  · unfold srvSkxProg
    split
    · exact h2
    · exact emit_safe h2 _
  · unfold srvReqProg
    split
    · exact emit_safe h3 _
    · exact h3

theorem srvResumeProg_safe (E : AuthEnv) (S : ServerHs) (box : SessionState → Res Bytes) (hbox : ∀ s, NoErr (box s)) (ch : ClientHelloMsg) (hello : ServerHelloMsg)
    (st : SessionState) : (srvResumeProg E S box ch hello st).Safe ServerAlert fun _ => True := by
  unfold srvResumeProg
  obtain ⟨n1, n2⟩ := newFinishedHash_fine E.hashes S.vers S.suite
  refine Hs.Safe.bind (safe_lift_none n1 n2) fun f hf => encIt' (clientHello_noErr _) fun x => encIt' (message_noErr _) fun y => ?_
  obtain ⟨w1, w2⟩ := writes_fine [x.1, y.1] (h := f.discardHandshakeBuffer) hf
  refine .bind (safe_lift_none w1 w2) fun f2 h2 => ?_
  refine Hs.Safe.bind (R := fun _ => True) ?_ fun p _ => ?_
  · unfold srvAgainProg
    split
    · exact srvCertsProg_safe _ _ _
    · trivial
  · exact Hs.Safe.bind (srvTicketProg_safe _ (hbox _) h2) fun f3 h3 => .bind (srvFinishedProg_safe _ h3) fun f4 h4 =>
      Hs.Safe.bind (p := srvReadFinishedProg S st.masterSecret f4) (srvReadFinishedProg_safe _ _ h4) fun _ _ => trivial

theorem srvAnswerProg_safe (E : AuthEnv) (S : ServerHs) {fh : FinishedHash} (hf : fh.Fine) : (srvAnswerProg E S fh).Safe ServerAlert fun x => x.2.2.Fine := by
  unfold srvAnswerProg
  exact .bind (clientCertProg_safe _ _ hf) fun p hp => .bind (ckxProg_safe _ _ hp) fun m hm => .bind (certVerifyProg_safe _ _ _ _ hm) fun f h => h

theorem srvFullProg_safe (K : KaEnv) (T : ServerSide K.auth.x509.curve) (box : SessionState → Res Bytes) (hbox : ∀ s, NoErr (box s)) (rk rc : Bytes) (ch : ClientHelloMsg)
    (hello : ServerHelloMsg) : (srvFullProg K T box rk rc ch hello).Safe ServerAlert fun _ => True := by
  unfold srvFullProg
  obtain ⟨n1, n2⟩ := srvNewHash_fine K.auth (T.hs (K := K) none rc)
  refine Hs.Safe.bind (safe_lift_none n1 n2) fun f hf => encIt' (clientHello_noErr _) fun x => encIt' (message_noErr _) fun y => ?_
  have hf' : (if T.auth = .noClientCert then f.discardHandshakeBuffer else f).Fine := by split <;> exact hf
  obtain ⟨w1, w2⟩ := writes_fine [x.1, y.1] hf'
  refine .bind (safe_lift_none w1 w2) fun f2 h2 => ?_
  refine Hs.Safe.bind (srvFlightProg_safe K T rk h2) fun k hk => ?_
  refine Hs.Safe.bind (p := srvAnswerProg K.auth (T.hs k.1 rc) k.2) (srvAnswerProg_safe _ _ hk) fun a ha => ?_
  refine Hs.Safe.bind (p := srvReadFinishedProg (T.hs k.1 rc) a.2.1 a.2.2) (srvReadFinishedProg_safe _ _ ha) fun g hg => ?_
  exact Hs.Safe.bind (p := srvTicketProg T.ticket (box ⟨T.vers, T.suite.id, a.2.1, a.1.2, false⟩) g) (srvTicketProg_safe _ (hbox _) hg) fun f3 h3 =>
    .bind (srvFinishedProg_safe _ h3) fun _ _ => trivial

theorem choose_alert {c : Config} {dec : Bytes → Option SessionState} {rand : Bytes} {ch : ClientHello} {a : Alert} (h : readClientHello c dec rand ch = .error a) :
    ServerAlert a.code := by
  unfold readClientHello at h
  repeat' (first | split at h | (dsimp only at h; split at h))
  all_goals first
    | (have := Except.error.inj h; subst this; first | exact sa 70 | exact sa 40 | exact sa 80 | exact sa 86)
    | cases h

theorem chooseGM_alert {c : Config} {dec : Bytes → Option SessionState} {rand : Bytes} {ch : ClientHello} {a : Alert} (h : readClientHelloGM c dec rand ch = .error a) :
    ServerAlert a.code := by
  unfold readClientHelloGM at h
  repeat' (first | split at h | (dsimp only at h; split at h))
  all_goals first
    | (have := Except.error.inj h; subst this; first | exact sa 70 | exact sa 40 | exact sa 80 | exact sa 86)
    | cases h

/-- **Every refusal of the server has an alert, one of eight**, if tickets can be sealed. -/
theorem serverProg_safe (K : KaEnv) (gm : Bool) (start : ClientHelloMsg → Option (ServerStart K.auth.x509.curve))
    (hbox : ∀ ch Z, start ch = some Z → ∀ s, NoErr (Z.box s)) : (serverProg K gm start).Safe ServerAlert fun _ => True := by
  unfold serverProg
  refine .bind (R := fun x => start x.1 = some x.2.1) ?_ fun x hx => ?_
  · unfold srvHelloProg
    intro m
    beta_reduce
    split
    · split
      · exact sa 80
      · rename_i ch _ Z hz
        split
        · exact sa 70
        · show Hs.Safe _ _ (match Z.react gm ch with | .error a => Hs.fail a.code "ClientHello" | .ok r => Hs.ret (ch, Z, r))
          split
          · rename_i a ha
            unfold ServerStart.react at ha
            split at ha
            · exact chooseGM_alert ha
            · exact choose_alert ha
          · exact hz
    · exact sa 10
  · dsimp only
    split
    · exact .bind (srvResumeProg_safe _ _ _ (hbox _ _ hx) _ _ _) fun _ _ => trivial
    · exact .bind (srvFullProg_safe _ _ _ (hbox _ _ hx) _ _ _ _) fun _ _ => trivial

namespace Spec
/-- unexpected_message, bad_record_mac, record_overflow, handshake_failure, bad_certificate, unsupported_certificate, illegal_parameter, protocol_version, internal_error,
inappropriate_fallback, no_renegotiation -/
def serverAlerts : List Byte := [10, 20, 22, 40, 42, 43, 47, 70, 80, 86, 100]
end Spec

/-- **C139.** Whatever the client sends: if `Handshake` of a server fails (with a transport whose writes succeed, enough randomness for the records, and tickets that can
be sealed), then either the transport ended or the client gave up, or the last bytes on the wire when `Handshake` returns are an alert record. Nothing is left unsent,
nothing can be sent any more, and `Handshake` returns the same error from now on. Missing: when a ticket cannot be sealed (`C139_unsealed_violated`). -/
theorem C139_alert_sent_partial (P : Prims) (K : KaEnv) (gm : Bool) (start : ClientHelloMsg → Option (ServerStart K.auth.x509.curve)) (c c' : Conn) (e : String)
    (hbox : ∀ ch Z, start ch = some Z → ∀ s x, Z.box s ≠ .err x) (h1 : c.handshakeErr = none) (h2 : c.handshakeComplete = false)
    (hw : ∀ w ∈ c.writes, w = none) (hb : c.sendBuf = []) (hi : c.inp.err = none)
    (h : c.handshake ((serverProg K gm start).asHandshake P gm) = .ok (some e, c')) (hrand : c'.out.ivIsSeq = true ∨ c'.out.writeIVLen ≤ c'.rand.length) :
    c'.sendBuf = [] ∧ c'.handshakeErr = some e ∧ c'.handshakeComplete = false ∧
    (Spec.PeerEnded c.streamErr e ∨ (c'.out.err.isSome = true ∧ ∃ a ∈ Spec.serverAlerts, Spec.EndsWithAlert a c')) := by
  refine alert_sent_any (R := fun _ => True) ?_ (by decide) P gm _ ?_ c c' e h1 h2 hw hb hi h hrand
  · intro a ha
    simp only [readAlerts, List.mem_cons, List.not_mem_nil, or_false] at ha
    rcases ha with rfl | rfl | rfl | rfl | rfl | rfl <;> decide
  · refine (serverProg_safe K gm start hbox).alerts ?_
    rintro x ⟨b, hb, rfl⟩
    refine ⟨b, ?_, rfl⟩
    simp only [serverAlerts, List.mem_cons, List.not_mem_nil, or_false] at hb
    rcases hb with rfl | rfl | rfl | rfl | rfl | rfl | rfl | rfl <;> decide

/-! ### a ticket that cannot be sealed -/

namespace Spec
/-- the types of the records in a stream -/
def recordTypes : Nat → Bytes → List Byte
  | 0, _ => []
  | _, [] => []
  | n + 1, t :: b => t :: recordTypes n ((t :: b).drop (5 + ((b.getD 2 0).toNat * 256 + (b.getD 3 0).toNat)))
end Spec

/-- what is seen of a failed handshake: the error, the types of the records sent, what was kept back, whether sending is over -/
def toySeenFail (r : Res (Option String × Conn)) : Option (Option String × List Byte × Bytes × Bool) :=
  match r with | .ok (e, c) => some (e, Spec.recordTypes 100 c.wire, c.sendBuf, c.out.err.isSome) | _ => none

/-- C139: an alert goes out if the client's Finished is wrong -/
example : toySeenFail (toySrvRun .requireAndVerifyClientCert (fun _ => .ok [42]) (251 :: List.replicate 11 0)) =
    some (some "tls: client's Finished message is incorrect", [22, 22, 22, 22, 22, 21], [], true) := by decide +kernel

/-- **C139, violated.** If the session ticket cannot be sealed (the random source fails), the server returns the error and sends nothing: the client, whose Finished was
right, is left waiting. -/
theorem C139_unsealed_violated :
    toySeenFail (toySrvRun .requireAndVerifyClientCert (fun _ => .err "no entropy") (250 :: List.replicate 11 0)) = some (some "no entropy", [22, 22, 22, 22, 22], [], false) := by
  decide +kernel

end Verif.Tls
