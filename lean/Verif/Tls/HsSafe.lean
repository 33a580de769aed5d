import Verif.Tls.HsRun
/-!
Which alerts a handshake program can end with, and what it can return: `Hs.Safe`. Every refusal of the client's program has an alert.
-/
namespace Verif.Tls
open Verif Verif.Tls.Wire

/-- every refusal in the program satisfies `A`, every result `R` -/
def Hs.Safe {α : Type} (A : Option Byte → Prop) (R : α → Prop) : Hs α → Prop
  | .ret a => R a
  | .fail a _ => A a
  | .panic => True
  | .read k => ∀ m, (k m).Safe A R
  | .readSwitch k => ∀ b m, (k b m).Safe A R
  | .write _ _ k => k.Safe A R
  | .writeCCS k => k.Safe A R
  | .flush k => k.Safe A R
  | .upd _ k => k.Safe A R

theorem Hs.Safe.bind {α β : Type} {A : Option Byte → Prop} {R : α → Prop} {Q : β → Prop} {p : Hs α} {f : α → Hs β} (hp : p.Safe A R) (hf : ∀ a, R a → (f a).Safe A Q) :
    (p >>= f).Safe A Q := by
  change (p.bind f).Safe A Q
  induction p with
  | ret a => exact hf a hp
  | fail a e => exact hp
  | panic => trivial
  | read k ih => intro m; exact ih m (hp m)
  | readSwitch k ih => intro b m; exact ih b m (hp b m)
  | write b m k ih => exact ih hp
  | writeCCS k ih => exact ih hp
  | flush k ih => exact ih hp
  | upd u k ih => exact ih hp

theorem Hs.Safe.mono {α : Type} {A : Option Byte → Prop} {R Q : α → Prop} {p : Hs α} (hp : p.Safe A R) (h : ∀ a, R a → Q a) : p.Safe A Q := by
  induction p with
  | ret a => exact h a hp
  | fail a e => exact hp
  | panic => trivial
  | read k ih => intro m; exact ih m (hp m)
  | readSwitch k ih => intro b m; exact ih b m (hp b m)
  | write b m k ih => exact ih hp
  | writeCCS k ih => exact ih hp
  | flush k ih => exact ih hp
  | upd u k ih => exact ih hp

/-- what a run can end with -/
theorem run_refused {α : Type} {A : Option Byte → Prop} {R : α → Prop} (P : Prims) (gm : Bool) (p : Hs α) : p.Safe A R → ∀ (c : Conn) (o : HsOut α) (a : Option Byte) (e : String),
    p.run P gm c = .ok o → o.result = .refused a e → A a := by
  induction p with
  | ret a => intro _ c o a' e h hd; have := Res.ok.inj h; subst this; cases hd
  | fail al e0 =>
    intro hp c o a e h hd
    cases al with
    | none =>
      have := Res.ok.inj h; subst this
      simp only [HsEnd.refused.injEq] at hd
      rw [← hd.1]; exact hp
    | some al =>
      simp only [Hs.run] at h
      split at h
      · have := Res.ok.inj h; subst this
        simp only [HsEnd.refused.injEq] at hd
        rw [← hd.1]; exact hp
      · cases h
      · cases h
  | panic => intro _ c o a e h; cases h
  | read k ih =>
    intro hp c o a e h hd
    simp only [Hs.run] at h
    split at h
    · have := Res.ok.inj h; subst this; cases hd
    · rename_i m c1 hr
      obtain ⟨o', h1, rfl⟩ := saw_inv h
      exact ih m (hp m) c1 o' a e h1 hd
    · cases h
    · cases h
  | readSwitch k ih =>
    intro hp c o a e h hd
    simp only [Hs.run] at h
    split at h
    · split at h
      · have := Res.ok.inj h; subst this; cases hd
      · split at h
        · have := Res.ok.inj h; subst this; cases hd
        · rename_i m c2 hm
          obtain ⟨o', h1, rfl⟩ := saw_inv h
          exact ih _ m (hp _ m) c2 o' a e h1 hd
        · cases h
        · cases h
    · cases h
    · cases h
  | write b m k ih =>
    intro hp c o a e h hd
    simp only [Hs.run] at h
    split at h
    · have := Res.ok.inj h; subst this; cases hd
    · obtain ⟨o', h1, rfl⟩ := put_inv h
      exact ih hp _ o' a e h1 hd
    · cases h
    · cases h
  | writeCCS k ih =>
    intro hp c o a e h hd
    simp only [Hs.run] at h
    split at h
    · have := Res.ok.inj h; subst this; cases hd
    · obtain ⟨o', h1, rfl⟩ := put_inv h
      exact ih hp _ o' a e h1 hd
    · cases h
    · cases h
  | flush k ih =>
    intro hp c o a e h hd
    simp only [Hs.run] at h
    split at h
    · have := Res.ok.inj h; subst this; cases hd
    · exact ih hp _ o a e h hd
  | upd u k ih =>
    intro hp c o a e h hd
    simp only [Hs.run] at h
    split at h
    · exact ih hp _ o a e h hd
    · cases h
    · cases h

/-! ### the client -/

/-- it may panic, but returns no error -/
def NoErr {α : Type} (x : Res α) : Prop := ∀ e, x ≠ .err e

theorem NoErr.bind {α β : Type} {x : Res α} {f : α → Res β} (hx : NoErr x) (hf : ∀ a, x = .ok a → NoErr (f a)) : NoErr (x >>= f) := by
  cases x with
  | ok a => exact hf a rfl
  | err e => exact absurd rfl (hx e)
  | panic => intro e h; cases h

theorem NoErr.map {α β : Type} {x : Res α} {f : α → β} (hx : NoErr x) : NoErr (x.map f) := by
  cases x with
  | ok a => intro e h; cases h
  | err e => exact absurd rfl (hx e)
  | panic => intro e h; cases h

theorem NoErr.ok {α : Type} {a : α} : NoErr (Res.ok a) := by intro e h; cases h
theorem NoErr.panic {α : Type} : NoErr (Res.panic : Res α) := by intro e h; cases h

theorem safe_lift_none {α : Type} {A : Option Byte → Prop} {R : α → Prop} {x : Res α} (hx : NoErr x) (h : ∀ a, x = .ok a → R a) : (Hs.lift none x).Safe A R := by
  cases x with
  | ok a => exact h a rfl
  | err e => exact absurd rfl (hx e)
  | panic => trivial

theorem safe_lift {α : Type} {A : Option Byte → Prop} {R : α → Prop} {al : Option Byte} {x : Res α} (hal : A al) (h : ∀ a, x = .ok a → R a) : (Hs.lift al x).Safe A R := by
  cases x with
  | ok a => exact h a rfl
  | err e => exact hal
  | panic => trivial

theorem safe_check {A : Option Byte → Prop} {R : Unit → Prop} {al : Byte} {e : String} {b : Bool} (hal : A (some al)) (h : b = true → R ()) : (Hs.check al e b).Safe A R := by
  unfold Hs.check
  split
  · rename_i hb; exact h hb
  · exact hal

/-- the PRF in a Finished hash returns no error -/
def FinishedHash.Fine (h : FinishedHash) : Prop := ∀ r s l d, NoErr (h.prf r s l d)

theorem prf30Loop_noErr (hs : Hashes) (secret seed : Bytes) : ∀ (fuel i done : Nat) (result : Bytes), NoErr (prf30Loop hs secret seed fuel i done result) := by
  intro fuel
  induction fuel with
  | zero => intro i d r; exact NoErr.ok
  | succ n ih =>
    intro i d r
    unfold prf30Loop
    split
    · split
      · exact NoErr.panic
      · exact ih _ _ _
    · exact NoErr.ok

theorem prfForVersion_noErr (hs : Hashes) (v : Version) (s : Suite) : NoErr (prfForVersion hs v s) ∧ ∀ f, prfForVersion hs v s = .ok f → ∀ r sec l sd, NoErr (f r sec l sd) := by
  unfold prfForVersion
  refine ⟨?_, ?_⟩
  · repeat' split
    all_goals first | exact NoErr.ok | exact NoErr.panic
  · intro f hf
    repeat' split at hf
    all_goals first
      | (have := Res.ok.inj hf; subst this; intro r sec l sd; first | exact NoErr.ok | exact prf30Loop_noErr _ _ _ _ _ _ _)
      | cases hf

theorem newHash_fine (E : AuthEnv) (S : ClientHs) : NoErr (S.newHash E) ∧ ∀ h, S.newHash E = .ok h → h.Fine := by
  unfold ClientHs.newHash
  split
  · refine ⟨NoErr.ok, ?_⟩
    intro h hh
    have := Res.ok.inj hh; subst this
    intro r s l d; exact NoErr.ok
  · unfold newFinishedHash
    obtain ⟨p1, p2⟩ := prfForVersion_noErr E.hashes S.vers S.suite
    refine ⟨NoErr.bind p1 fun a _ => ?_, ?_⟩
    · split <;> exact NoErr.ok
    · intro h hh
      obtain ⟨f, hf, hh⟩ := Res.bind_eq_ok.1 hh
      split at hh <;> (have := Res.ok.inj hh; subst this; exact p2 f hf)

theorem write_fine {h : FinishedHash} (hf : h.Fine) (m : Bytes) : NoErr (h.write m) ∧ ∀ h', h.write m = .ok h' → h'.Fine := by
  unfold FinishedHash.write
  dsimp only
  constructor
  · split
    · split
      · exact NoErr.ok
      · exact NoErr.panic
    · exact NoErr.ok
  · intro h' hh
    split at hh
    · split at hh
      · have := Res.ok.inj hh; subst this; exact hf
      · cases hh
    · have := Res.ok.inj hh; subst this; exact hf

theorem writes_fine : ∀ (ms : List Bytes) {h : FinishedHash}, h.Fine → NoErr (h.writes ms) ∧ ∀ h', h.writes ms = .ok h' → h'.Fine := by
  intro ms
  induction ms with
  | nil => intro h hf; exact ⟨NoErr.ok, fun h' hh => by have := Res.ok.inj hh; subst this; exact hf⟩
  | cons m ms ih =>
    intro h hf
    unfold FinishedHash.writes
    obtain ⟨w1, w2⟩ := write_fine hf m
    refine ⟨NoErr.bind w1 fun a ha => (ih (w2 a ha)).1, ?_⟩
    intro h' hh
    obtain ⟨g, hg, hh⟩ := Res.bind_eq_ok.1 hh
    exact (ih (w2 g hg)).2 h' hh

theorem sum_noErr (h : FinishedHash) : NoErr h.sum := by
  unfold FinishedHash.sum
  split
  · exact NoErr.ok
  · split
    · exact NoErr.ok
    · exact NoErr.panic

theorem clientSum_fine {h : FinishedHash} (hf : h.Fine) (m : Bytes) : NoErr (h.clientSum m) ∧ ∀ x, h.clientSum m = .ok x → x.2.Fine := by
  unfold FinishedHash.clientSum
  split
  · split
    · exact ⟨NoErr.ok, fun x hx => by have := Res.ok.inj hx; subst this; exact hf⟩
    · exact ⟨NoErr.panic, fun x hx => by cases hx⟩
  · refine ⟨NoErr.bind (sum_noErr h) fun a _ => NoErr.bind (hf _ _ _ _) fun b _ => NoErr.ok, ?_⟩
    intro x hx
    obtain ⟨a, _, hx⟩ := Res.bind_eq_ok.1 hx
    obtain ⟨b, _, hx⟩ := Res.bind_eq_ok.1 hx
    have := Res.ok.inj hx; subst this; exact hf

theorem serverSum_fine {h : FinishedHash} (hf : h.Fine) (m : Bytes) : NoErr (h.serverSum m) ∧ ∀ x, h.serverSum m = .ok x → x.2.Fine := by
  unfold FinishedHash.serverSum
  split
  · split
    · exact ⟨NoErr.ok, fun x hx => by have := Res.ok.inj hx; subst this; exact hf⟩
    · exact ⟨NoErr.panic, fun x hx => by cases hx⟩
  · refine ⟨NoErr.bind (sum_noErr h) fun a _ => NoErr.bind (hf _ _ _ _) fun b _ => NoErr.ok, ?_⟩
    intro x hx
    obtain ⟨a, _, hx⟩ := Res.bind_eq_ok.1 hx
    obtain ⟨b, _, hx⟩ := Res.bind_eq_ok.1 hx
    have := Res.ok.inj hx; subst this; exact hf

macro "noerr" : tactic => `(tactic| (repeat' split) <;> first | exact NoErr.ok | exact NoErr.panic)

theorem clientHello_noErr (m : ClientHelloMsg) : NoErr m.marshal := by unfold ClientHelloMsg.marshal; noerr
theorem serverHello_noErr (m : ServerHelloMsg) : NoErr m.marshal := by unfold ServerHelloMsg.marshal; noerr
theorem certificate_noErr (m : CertificateMsg) : NoErr m.marshal := by unfold CertificateMsg.marshal; noerr
theorem status_noErr (m : CertificateStatusMsg) : NoErr m.marshal := by unfold CertificateStatusMsg.marshal; split <;> exact NoErr.ok
theorem skx_noErr (m : ServerKeyExchangeMsg) : NoErr m.marshal := by unfold ServerKeyExchangeMsg.marshal; noerr
theorem ckx_noErr (m : ClientKeyExchangeMsg) : NoErr m.marshal := by unfold ClientKeyExchangeMsg.marshal; noerr
theorem req_noErr (m : CertificateRequestMsg) : NoErr m.marshal := by unfold CertificateRequestMsg.marshal; split <;> exact NoErr.ok
theorem reqGM_noErr (m : CertificateRequestMsgGM) : NoErr m.marshal := by unfold CertificateRequestMsgGM.marshal; noerr
theorem finished_noErr (m : FinishedMsg) : NoErr m.marshal := by unfold FinishedMsg.marshal; noerr
theorem nextProto_noErr (m : NextProtoMsg) : NoErr m.marshal := by unfold NextProtoMsg.marshal; split <;> exact NoErr.ok
theorem nst_noErr (m : NewSessionTicketMsg) : NoErr m.marshal := by unfold NewSessionTicketMsg.marshal; noerr
theorem cv_noErr (m : CertificateVerifyMsg) : NoErr m.marshal := by unfold CertificateVerifyMsg.marshal; noerr

theorem message_noErr (m : Message) : NoErr m.marshal := by
  cases m
  · exact NoErr.ok
  · exact (clientHello_noErr _).map
  · exact (serverHello_noErr _).map
  · exact (nst_noErr _).map
  · exact (certificate_noErr _).map
  · exact (req_noErr _).map
  · exact (reqGM_noErr _).map
  · exact (status_noErr _).map
  · exact (skx_noErr _).map
  · exact NoErr.ok
  · exact (ckx_noErr _).map
  · exact (cv_noErr _).map
  · exact (nextProto_noErr _).map
  · exact (finished_noErr _).map

/-- the alerts of a client that refuses a handshake: unexpected_message, handshake_failure, bad_certificate, unsupported_certificate, protocol_version,
insufficient_security, internal_error (tls/alert.go:12-39) -/
def clientAlerts : List Byte := [10, 40, 42, 43, 70, 71, 80]

/-- the alerts a refusal of the client may have -/
def ClientAlert (a : Option Byte) : Prop := ∃ b ∈ clientAlerts, a = some b

theorem ca (b : Byte) (h : b ∈ clientAlerts := by decide) : ClientAlert (some b) := ⟨b, h, rfl⟩

theorem emitProg_safe {fh : FinishedHash} (hf : fh.Fine) (m : Message) : (emitProg fh m).Safe ClientAlert FinishedHash.Fine := by
  unfold emitProg
  refine .bind (R := fun _ => True) (safe_lift_none (message_noErr m) fun _ _ => trivial) fun x _ => ?_
  obtain ⟨w1, w2⟩ := write_fine hf x.1
  exact .bind (safe_lift_none w1 w2) fun f hf' => hf'

theorem stdCertsProg_safe (E : AuthEnv) (S : ClientHs) (cs : List Bytes) : (stdCertsProg E S cs).Safe ClientAlert fun _ => True := by
  unfold stdCertsProg
  split
  · exact ca 42
  · refine .bind (R := fun _ => True) (safe_lift (ca 42) fun _ _ => trivial) fun x _ => ?_
    refine .bind (R := fun _ => True) (safe_check (ca 42) fun _ => trivial) fun _ _ => ?_
    split
    · trivial
    · split
      · trivial
      · exact ca 43

theorem singleCertsProg_safe (E : AuthEnv) (S : ClientHs) (cs : List Bytes) : (singleCertsProg E S cs).Safe ClientAlert fun _ => True := by
  unfold singleCertsProg
  split
  · exact ca 42
  · refine .bind (R := fun _ => True) (safe_lift (ca 42) fun _ _ => trivial) fun x _ => ?_
    refine .bind (R := fun _ => True) (safe_check (ca 42) fun _ => trivial) fun _ _ => ?_
    split
    · trivial
    · split
      · trivial
      · exact ca 43

theorem gmParseProg_safe (parse : Bytes → Option X509.Cert) : ∀ (cs : List Bytes) (i : Nat), (gmParseProg parse i cs).Safe ClientAlert fun _ => True := by
  intro cs
  induction cs with
  | nil => intro i; trivial
  | cons b cs ih =>
    intro i
    unfold gmParseProg
    split
    · exact ca 42
    · refine .bind (R := fun _ => True) (safe_check (ca 43) fun _ => trivial) fun _ _ => ?_
      refine .bind (R := fun _ => True) (safe_check (ca 71) fun _ => trivial) fun _ _ => ?_
      exact .bind (ih _) fun _ _ => trivial

theorem gmCertsProg_safe (E : AuthEnv) (S : ClientHs) (cs : List Bytes) : (gmCertsProg E S cs).Safe ClientAlert fun _ => True := by
  unfold gmCertsProg
  refine .bind (gmParseProg_safe _ _ _) fun x _ => ?_
  refine .bind (R := fun _ => True) (safe_lift (ca 42) fun _ _ => trivial) fun x _ => ?_
  exact .bind (R := fun _ => True) (safe_check (ca 42) fun _ => trivial) fun _ _ => trivial

theorem identityProg_safe (E : AuthEnv) (S : ClientHs) (cs : List Bytes) : (identityProg E S cs).Safe ClientAlert fun _ => True := by
  unfold identityProg
  split
  · exact safe_lift (ca 42) fun _ _ => trivial
  · split
    · exact gmCertsProg_safe _ _ _
    · split
      · exact singleCertsProg_safe _ _ _
      · exact stdCertsProg_safe _ _ _

theorem hashIt {α : Type} {fh : FinishedHash} (hf : fh.Fine) (b : Bytes) {k : FinishedHash → Hs α} {R : α → Prop} (h : ∀ f : FinishedHash, f.Fine → (k f).Safe ClientAlert R) :
    (Hs.lift none (fh.write b) >>= k).Safe ClientAlert R := by
  obtain ⟨w1, w2⟩ := write_fine hf b
  exact .bind (safe_lift_none w1 w2) h

theorem encIt {α β : Type} {x : Res β} (hx : NoErr x) {k : β → Hs α} {R : α → Prop} (h : ∀ y, (k y).Safe ClientAlert R) :
    (Hs.lift none x >>= k).Safe ClientAlert R := .bind (R := fun _ => True) (safe_lift_none hx fun _ _ => trivial) fun y _ => h y

theorem certProg_safe (E : AuthEnv) (S : ClientHs) {fh : FinishedHash} (hf : fh.Fine) : (certProg E S fh).Safe ClientAlert fun x => x.2.Fine := by
  unfold certProg
  intro m
  beta_reduce
  split
  · split
    · exact ca 10
    · split
      · exact ca 71
      · exact encIt (certificate_noErr _) fun x => hashIt hf _ fun f hf' => .bind (identityProg_safe _ _ _) fun _ _ => hf'
  · exact ca 10

theorem statusProg_safe (S : ClientHs) {fh : FinishedHash} (hf : fh.Fine) : (statusProg S fh).Safe ClientAlert fun x => x.1.Fine := by
  unfold statusProg
  intro m
  beta_reduce
  split
  · split
    · exact hf
    · split
      · exact ca 10
      · exact encIt (status_noErr _) fun x => hashIt hf _ fun f hf' m => hf'
  · exact hf

theorem skxProg_safe (K : KaEnv) (S : ClientHs) (leaf enc : X509.Cert) {fh : FinishedHash} (hf : fh.Fine) (m : Message) :
    (skxProg K S leaf enc fh m).Safe ClientAlert fun x => x.2.1.Fine := by
  unfold skxProg
  split
  · exact encIt (skx_noErr _) fun x => hashIt hf _ fun f hf' => .bind (R := fun _ => True) (safe_lift (ca 10) fun _ _ => trivial) fun st _ m => hf'
  · exact hf

theorem reqProg_safe (E : AuthEnv) (S : ClientHs) {fh : FinishedHash} (hf : fh.Fine) (m : Message) : (reqProg E S fh m).Safe ClientAlert fun x => x.2.1.Fine := by
  unfold reqProg
  split
  · split
    · exact hf
    · exact encIt (req_noErr _) fun x => hashIt hf _ fun f hf' => .bind (R := fun _ => True) (safe_lift (ca 80) fun _ _ => trivial) fun st _ m => hf'
  · split
    · exact hf
    · exact encIt (reqGM_noErr _) fun x => hashIt hf _ fun f hf' => .bind (R := fun _ => True) (safe_lift (ca 80) fun _ _ => trivial) fun st _ m => hf'
  · exact hf

theorem doneProg_safe {fh : FinishedHash} (hf : fh.Fine) (m : Message) : (doneProg fh m).Safe ClientAlert FinishedHash.Fine := by
  unfold doneProg
  split
  · obtain ⟨w1, w2⟩ := write_fine hf serverHelloDoneMarshal
    exact safe_lift_none w1 w2
  · exact ca 10

theorem sendCertProg_safe (req : Option Requested) {fh : FinishedHash} (hf : fh.Fine) : (sendCertProg req fh).Safe ClientAlert FinishedHash.Fine := by
  unfold sendCertProg
  split
  · exact hf
  · trivial
  · exact emitProg_safe hf _

theorem sendCertVerifyProg_safe (E : AuthEnv) (S : ClientHs) (req : Option Requested) (rand : Bytes) {fh : FinishedHash} (hf : fh.Fine) :
    (sendCertVerifyProg E S req rand fh).Safe ClientAlert FinishedHash.Fine := by
  unfold sendCertVerifyProg
  split
  · split
    · split
      · exact ca 80
      · exact .bind (R := fun _ => True) (safe_lift (ca 80) fun _ _ => trivial) fun _ _ => emitProg_safe hf _
    · exact hf
  · exact hf

theorem kaCerts_noErr (gm : Bool) (cs : List X509.Cert) : NoErr (kaCerts gm cs) := by
  unfold kaCerts
  split
  · exact NoErr.panic
  · split
    · exact NoErr.panic
    · exact NoErr.ok
  · exact NoErr.ok

theorem fullProg_safe (K : KaEnv) (S : ClientHs) (rk rs : Bytes) {fh : FinishedHash} (hf : fh.Fine) : (fullProg K S rk rs fh).Safe ClientAlert fun x => x.fh.Fine := by
  unfold fullProg
  refine .bind (certProg_safe _ _ hf) fun x hx => .bind (statusProg_safe _ hx) fun y hy => encIt (kaCerts_noErr _ _) fun ka =>
    .bind (skxProg_safe _ _ _ _ hy _) fun z hz => .bind (reqProg_safe _ _ hz _) fun w hw => .bind (doneProg_safe hw _) fun f1 h1 =>
    .bind (sendCertProg_safe _ h1) fun f2 h2 => .bind (R := fun _ => True) (safe_lift (ca 80) fun _ _ => trivial) fun pc _ =>
    .bind (emitProg_safe h2 _) fun f3 h3 => .bind (sendCertVerifyProg_safe _ _ _ _ h3) fun f4 h4 => encIt ?_ fun ms =>
    .bind (R := fun _ => True) (safe_check (ca 80) fun _ => trivial) fun _ _ => ?_
  · unfold masterFromPreMasterSecret
    obtain ⟨p1, p2⟩ := prfForVersion_noErr K.auth.hashes S.vers S.suite
    exact NoErr.bind p1 fun f hf' => p2 f hf' _ _ _ _
  · exact h4

theorem nextProtoProg_safe (S : ClientHs) {fh : FinishedHash} (hf : fh.Fine) : (nextProtoProg S fh).Safe ClientAlert FinishedHash.Fine := by
  unfold nextProtoProg
  split
  · exact hf
  · exact emitProg_safe hf _

theorem finishedProg_safe (S : ClientHs) (ms : Bytes) {fh : FinishedHash} (hf : fh.Fine) : (finishedProg S ms fh).Safe ClientAlert FinishedHash.Fine := by
  unfold finishedProg
  refine .bind (nextProtoProg_safe S hf) fun f hf' => ?_
  obtain ⟨c1, c2⟩ := clientSum_fine hf' ms
  exact .bind (safe_lift_none c1 c2) fun x hx => emitProg_safe hx _

theorem ticketProg_safe (S : ClientHs) {fh : FinishedHash} (hf : fh.Fine) : (ticketProg S fh).Safe ClientAlert fun x => x.2.Fine := by
  unfold ticketProg
  split
  · intro m
    beta_reduce
    split
    · exact encIt (nst_noErr _) fun x => hashIt hf _ fun f hf' => hf'
    · exact ca 10
  · exact hf

theorem readFinishedProg_safe (ms : Bytes) {fh : FinishedHash} (hf : fh.Fine) : (readFinishedProg ms fh).Safe ClientAlert fun x => x.2.Fine := by
  unfold readFinishedProg
  intro sw m
  beta_reduce
  split
  · obtain ⟨c1, c2⟩ := serverSum_fine hf ms
    refine .bind (safe_lift_none c1 c2) fun x hx => ?_
    split
    · exact ca 40
    · exact encIt (finished_noErr _) fun y => hashIt hx _ fun f hf' => hf'
  · exact ca 10

theorem process_alert {conn : ClientConn} {v : Version} {s : Suite} {h : ClientHello} {ses : Option ClientSession} {sh : ServerHello} {a : Alert}
    (hp : processServerHello conn v s h ses sh = .error a) : ClientAlert a.code := by
  unfold processServerHello at hp
  repeat' split at hp
  all_goals first
    | (have := Except.error.inj hp; subst this; first | exact ca 10 | exact ca 40)
    | cases hp

theorem pick_alert {c : Config} {sh : ServerHello} {a : Alert} (hp : pickTLSVersion c sh = .error a) : ClientAlert a.code := by
  unfold pickTLSVersion at hp
  repeat' split at hp
  all_goals first
    | (have := Except.error.inj hp; subst this; exact ca 70)
    | cases hp

theorem react_alert {Z : ClientStart} {sh : ServerHelloMsg} {a : Alert} (h : Z.react sh = .error a) : ClientAlert a.code := by
  unfold ClientStart.react at h
  split at h
  · unfold readServerHelloGM at h
    split at h
    · have := Except.error.inj h; subst this; exact ca 70
    · split at h
      · have := Except.error.inj h; subst this; exact ca 40
      · split at h
        · rename_i e he
          have := Except.error.inj h; subst this
          exact process_alert he
        · cases h
  · unfold readServerHello at h
    split at h
    · rename_i e he
      have := Except.error.inj h; subst this
      exact pick_alert he
    · split at h
      · have := Except.error.inj h; subst this; exact ca 40
      · split at h
        · rename_i e he
          have := Except.error.inj h; subst this
          exact process_alert he
        · cases h

theorem helloProg_safe (Z : ClientStart) : (helloProg Z).Safe ClientAlert fun _ => True := by
  unfold helloProg
  refine encIt (message_noErr _) fun x m => ?_
  beta_reduce
  split
  · rename_i sh
    refine .bind (R := fun _ => True) ?_ fun _ _ => ?_
    · unfold pinProg
      split
      · trivial
      · split
        · trivial
        · rename_i a ha; exact pick_alert ha
    · split
      · rename_i a ha; exact react_alert ha
      · exact encIt (serverHello_noErr _) fun y => trivial
  · exact ca 10

theorem resumeProg_safe (E : AuthEnv) (S : ClientHs) (hellos : List Bytes) (s : SavedSession) : (resumeProg E S hellos s).Safe ClientAlert fun _ => True := by
  unfold resumeProg
  obtain ⟨n1, n2⟩ := newHash_fine E S
  refine .bind (safe_lift_none n1 n2) fun f hf => ?_
  obtain ⟨w1, w2⟩ := writes_fine hellos (h := f.discardHandshakeBuffer) hf
  refine .bind (safe_lift_none w1 w2) fun f2 hf2 => ?_
  exact .bind (ticketProg_safe S hf2) fun t ht => .bind (readFinishedProg_safe _ ht) fun g hg => .bind (finishedProg_safe _ _ hg) fun _ _ => trivial

theorem newSessionProg_safe (K : KaEnv) (S : ClientHs) (hellos : List Bytes) (rk rs : Bytes) : (newSessionProg K S hellos rk rs).Safe ClientAlert fun _ => True := by
  unfold newSessionProg
  obtain ⟨n1, n2⟩ := newHash_fine K.auth S
  refine .bind (safe_lift_none n1 n2) fun f hf => ?_
  have hf' : (if S.noCerts then f.discardHandshakeBuffer else f).Fine := by split <;> exact hf
  obtain ⟨w1, w2⟩ := writes_fine hellos hf'
  refine .bind (safe_lift_none w1 w2) fun f2 hf2 => ?_
  exact .bind (fullProg_safe K S rk rs hf2) fun c hc => .bind (finishedProg_safe _ _ hc) fun f3 h3 => .bind (ticketProg_safe S h3) fun t ht =>
    .bind (readFinishedProg_safe _ ht) fun _ _ => trivial

/-- **Every refusal of the client has an alert, one of seven.** -/
theorem clientProg_safe (K : KaEnv) (Z : ClientStart) (rk rs : Bytes) : (clientProg K Z rk rs).Safe ClientAlert fun _ => True := by
  unfold clientProg
  refine .bind (R := fun _ => True) ?_ fun _ _ => .bind (helloProg_safe Z) fun x _ => ?_
  · unfold versProg
    split <;> trivial
  · split
    · exact resumeProg_safe _ _ _ _
    · exact newSessionProg_safe _ _ _ _ _

end Verif.Tls
