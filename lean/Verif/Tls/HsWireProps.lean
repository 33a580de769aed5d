import Verif.Tls.HsWire
import Verif.Tls.SrvAlerts
/-!
C141, C142: what a handshake puts on the wire, and that it never waits for the peer with messages of its own held back.
-/
namespace Verif.Tls
open Verif Verif.Tls.Wire

/-! ### waiting for the peer -/

namespace Spec
/-- the connection each time a run of the program asks for a record from the peer: in the order of the run, whether it completes or not -/
def waits {α : Type} (P : Prims) (gm : Bool) : Hs α → Conn → List Conn
  | .ret _, _ => []
  | .fail _ _, _ => []
  | .panic, _ => []
  | .read k, c => c :: match c.readMessage gm with
    | .ok (.ok m, c1) => waits P gm (k m) c1
    | _ => []
  | .readSwitch k, c => c :: match c.readRecord typCCS with
    | .ok (_, c1) => (match c1.inp.err with
      | some _ => []
      | none => c1 :: match c1.readMessage gm with
        | .ok (.ok m, c2) => waits P gm (k (c.inp.nextCipher.isSome && c1.inp.nextCipher.isNone) m) c2
        | _ => [])
    | _ => []
  | .write b _ k, c => match c.writeRecord typHandshake b with
    | .ok (_, none, c1) => waits P gm k c1
    | _ => []
  | .writeCCS k, c => match c.writeRecord typCCS [1] with
    | .ok (_, none, c1) => waits P gm k c1
    | _ => []
  | .flush k, c => match c.flush with
    | (none, c1) => waits P gm k c1
    | _ => []
  | .upd u k, c => match u.apply P c with
    | .ok c1 => waits P gm k c1
    | _ => []
end Spec

theorem waits_wp {α : Type} (P : Prims) (gm : Bool) (p : Hs α) : ∀ (s : HsSt) (Φ : α → HsSt → Prop) (c : Conn), p.Wp s Φ → HsRel s c → ∀ d ∈ Spec.waits P gm p c, d.sendBuf = [] := by
  induction p with
  | ret a => intro s Φ c hp r d hd; cases hd
  | fail a e => intro s Φ c hp r d hd; cases hd
  | panic => intro s Φ c hp r d hd; cases hd
  | read k ih =>
    intro s Φ c hp r d hd
    simp only [Spec.waits, List.mem_cons] at hd
    rcases hd with rfl | hd
    · exact r.held hp.1
    · split at hd
      · rename_i m c1 hr
        exact ih m s Φ c1 (hp.2 m) (r.quiet (readMessage_quiet hr)) d hd
      · cases hd
  | readSwitch k ih =>
    intro s Φ c hp r d hd
    simp only [Spec.waits, List.mem_cons] at hd
    rcases hd with rfl | hd
    · exact r.held hp.1
    · split at hd
      · rename_i e0 c1 hr
        split at hd
        · cases hd
        · rename_i he
          have q := readSwitch_quiet hr he
          rcases List.mem_cons.1 hd with rfl | hd
          · exact (r.quiet q).held hp.1
          · split at hd
            · rename_i m c2 hm
              exact ih _ m s Φ c2 (hp.2 _ m) (r.quiet (q.trans (readMessage_quiet hm))) d hd
            · cases hd
      · cases hd
  | write b m k ih =>
    intro s Φ c hp r d hd
    simp only [Spec.waits] at hd
    split at hd
    · rename_i n c1 hw
      obtain ⟨w1, q1, q2, q3, q4⟩ := writeMsg_recs r hw
      exact ih s.wrote Φ c1 hp.2 q4 d hd
    · cases hd
  | writeCCS k ih =>
    intro s Φ c hp r d hd
    simp only [Spec.waits] at hd
    split at hd
    · rename_i n c1 hw
      obtain ⟨w1, d1, q1, q2, q3, q4, q5⟩ := writeCCS_recs r hw
      exact ih s.wrote.switch Φ c1 hp q5 d hd
    · cases hd
  | flush k ih =>
    intro s Φ c hp r d hd
    simp only [Spec.waits] at hd
    split at hd
    · rename_i c1 hf
      exact ih s.flushed Φ c1 hp (flush_recs hf r).2.2.2 d hd
    · cases hd
  | upd u k ih =>
    intro s Φ c hp r d hd
    simp only [Spec.waits] at hd
    split at hd
    · rename_i c1 hu
      exact ih (s.did u) Φ c1 hp (upd_recs hu r).2.2 d hd
    · cases hd

/-! ### the parts of the programs -/

theorem stdCertsProg_reads (E : AuthEnv) (S : ClientHs) (cs : List Bytes) : (stdCertsProg E S cs).Reads := by
  unfold stdCertsProg
  split
  · trivial
  · refine liftReads fun x => checkReads fun _ => ?_
    repeat' split
    all_goals trivial

theorem singleCertsProg_reads (E : AuthEnv) (S : ClientHs) (cs : List Bytes) : (singleCertsProg E S cs).Reads := by
  unfold singleCertsProg
  split
  · trivial
  · refine liftReads fun x => checkReads fun _ => ?_
    repeat' split
    all_goals trivial

theorem gmParseProg_reads (parse : Bytes → Option X509.Cert) : ∀ (cs : List Bytes) (i : Nat), (gmParseProg parse i cs).Reads := by
  intro cs
  induction cs with
  | nil => intro i; trivial
  | cons b cs ih =>
    intro i
    unfold gmParseProg
    split
    · trivial
    · exact checkReads fun _ => checkReads fun _ => .bind (ih _) fun _ => trivial

theorem identityProg_reads (E : AuthEnv) (S : ClientHs) (cs : List Bytes) : (identityProg E S cs).Reads := by
  unfold identityProg
  split
  · exact reads_lift _ _
  · split
    · unfold gmCertsProg
      exact .bind (gmParseProg_reads _ _ _) fun _ => liftReads fun _ => checkReads fun _ => trivial
    · split
      · exact singleCertsProg_reads _ _ _
      · exact stdCertsProg_reads _ _ _

theorem certProg_reads (E : AuthEnv) (S : ClientHs) (fh : FinishedHash) : (certProg E S fh).Reads := by
  unfold certProg
  intro m
  beta_reduce
  split
  · split
    · trivial
    · split
      · trivial
      · exact liftReads fun x => liftReads fun f => .bind (identityProg_reads _ _ _) fun _ => trivial
  · trivial

theorem statusProg_reads (S : ClientHs) (fh : FinishedHash) : (statusProg S fh).Reads := by
  unfold statusProg
  intro m
  beta_reduce
  split
  · split
    · trivial
    · split
      · trivial
      · exact liftReads fun x => liftReads fun f m => trivial
  · trivial

theorem skxProg_reads (K : KaEnv) (S : ClientHs) (leaf enc : X509.Cert) (fh : FinishedHash) (m : Message) : (skxProg K S leaf enc fh m).Reads := by
  unfold skxProg
  split
  · exact liftReads fun x => liftReads fun f => liftReads fun st m => trivial
  · trivial

theorem reqProg_reads (E : AuthEnv) (S : ClientHs) (fh : FinishedHash) (m : Message) : (reqProg E S fh m).Reads := by
  unfold reqProg
  split
  · split
    · trivial
    · exact liftReads fun x => liftReads fun f => liftReads fun st m => trivial
  · split
    · trivial
    · exact liftReads fun x => liftReads fun f => liftReads fun st m => trivial
  · trivial

theorem doneProg_reads (fh : FinishedHash) (m : Message) : (doneProg fh m).Reads := by
  unfold doneProg
  split
  · exact reads_lift _ _
  · trivial

theorem sendCertProg_writes (req : Option Requested) (fh : FinishedHash) : (sendCertProg req fh).Writes := by
  unfold sendCertProg
  split
  · trivial
  · trivial
  · exact emitProg_writes _ _

theorem sendCertVerifyProg_writes (E : AuthEnv) (S : ClientHs) (req : Option Requested) (rand : Bytes) (fh : FinishedHash) : (sendCertVerifyProg E S req rand fh).Writes := by
  unfold sendCertVerifyProg
  split
  · split
    · split
      · trivial
      · exact liftWrites fun _ => emitProg_writes _ _
    · trivial
  · trivial

theorem fullProg_wp {β : Type} (K : KaEnv) (S : ClientHs) (rk rs : Bytes) (fh : FinishedHash) {f : FullState → Hs β} {s : HsSt} {Φ : β → HsSt → Prop} (hs : s.held = false)
    (h : ∀ a d, (f a).Wp { s with held := d } Φ) : (fullProg K S rk rs fh >>= f).Wp s Φ := by
  refine .bind ?_
  unfold fullProg
  refine (certProg_reads _ _ _).then hs fun x => (statusProg_reads _ _).then hs fun y => (reads_lift _ _).then hs fun ka => (skxProg_reads _ _ _ _ _ _).then hs fun z =>
    (reqProg_reads _ _ _ _).then hs fun w => (doneProg_reads _ _).then hs fun f1 => Hs.Writes.then (sendCertProg_writes _ _) fun f2 d2 => liftWp fun pc _ =>
    Hs.Writes.then (emitProg_writes _ _) fun f3 d3 => Hs.Writes.then (sendCertVerifyProg_writes _ _ _ _ _) fun f4 d4 => liftWp fun ms _ => ?_
  exact Hs.Writes.then (writes_check _ _ _) fun _ d5 => h _ _

theorem ticketProg_reads (S : ClientHs) (fh : FinishedHash) : (ticketProg S fh).Reads := by
  unfold ticketProg
  split
  · intro m
    beta_reduce
    split
    · exact liftReads fun x => liftReads fun f => trivial
    · trivial
  · trivial

theorem readFinishedProg_reads (ms : Bytes) (fh : FinishedHash) : (readFinishedProg ms fh).Reads := by
  unfold readFinishedProg
  intro b m
  beta_reduce
  split
  · refine liftReads fun x => ?_
    split
    · trivial
    · exact liftReads fun y => liftReads fun f => trivial
  · trivial

theorem finishedProg_wp {β : Type} (S : ClientHs) (ms : Bytes) (fh : FinishedHash) {f : FinishedHash → Hs β} {s : HsSt} {Φ : β → HsSt → Prop}
    (h : ∀ a d, (f a).Wp { s with held := d, ccs := s.ccs + 1, full := true } Φ) : (finishedProg S ms fh >>= f).Wp s Φ := by
  refine .bind ?_
  unfold finishedProg
  show Hs.Wp (nextProtoProg S fh >>= _) _ _
  have hn : (nextProtoProg S fh).Writes := by
    unfold nextProtoProg
    split
    · trivial
    · exact emitProg_writes _ _
  refine hn.then fun f1 d1 => liftWp fun x _ => (emitProg_writes _ _).wp fun a d => ?_
  exact h a d

theorem srvCertsProg_reads (E : AuthEnv) (S : ServerHs) (cs : List Bytes) : (srvCertsProg E S cs).Reads ∧ (srvCertsProg E S cs).Writes := by
  unfold srvCertsProg
  split
  · exact ⟨trivial, trivial⟩
  · constructor
    · refine liftReads fun x => checkReads fun _ => ?_
      repeat' split
      all_goals trivial
    · refine liftWrites fun x => Hs.Writes.bind (writes_check _ _ _) fun _ => ?_
      repeat' split
      all_goals trivial

theorem clientCertProg_reads (E : AuthEnv) (S : ServerHs) (fh : FinishedHash) : (clientCertProg E S fh).Reads := by
  unfold clientCertProg
  split
  · intro m
    beta_reduce
    split
    · refine liftReads fun x => liftReads fun f => ?_
      split
      · trivial
      · exact .bind (srvCertsProg_reads _ _ _).1 fun _ => trivial
    · trivial
  · trivial

theorem ckxProg_reads (E : AuthEnv) (S : ServerHs) (fh : FinishedHash) : (ckxProg E S fh).Reads := by
  unfold ckxProg
  intro m
  beta_reduce
  split
  · exact liftReads fun x => liftReads fun f => liftReads fun p => liftReads fun ms => checkReads fun _ => trivial
  · trivial

theorem certVerifyProg_reads (E : AuthEnv) (S : ServerHs) (p : PeerId) (ms : Bytes) (fh : FinishedHash) : (certVerifyProg E S p ms fh).Reads := by
  unfold certVerifyProg
  split
  · trivial
  · intro m
    beta_reduce
    split
    · exact liftReads fun a => liftReads fun d => liftReads fun ok => checkReads fun _ => liftReads fun x => reads_lift _ _
    · trivial

theorem srvAnswerProg_reads (E : AuthEnv) (S : ServerHs) (fh : FinishedHash) : (srvAnswerProg E S fh).Reads := by
  unfold srvAnswerProg
  exact .bind (clientCertProg_reads _ _ _) fun p => .bind (ckxProg_reads _ _ _) fun m => .bind (certVerifyProg_reads _ _ _ _ _) fun _ => trivial

theorem clientFinProg_reads (ms : Bytes) (fh : FinishedHash) (m : Message) : (clientFinProg ms fh m).Reads := by
  unfold clientFinProg
  split
  · refine liftReads fun x => ?_
    split
    · trivial
    · exact liftReads fun y => reads_lift _ _
  · trivial

theorem srvReadFinishedProg_reads (S : ServerHs) (ms : Bytes) (fh : FinishedHash) : (srvReadFinishedProg S ms fh).Reads := by
  unfold srvReadFinishedProg
  intro b m
  beta_reduce
  split
  · split
    · refine liftReads fun x => liftReads fun f m => ?_
      exact clientFinProg_reads _ _ _
    · trivial
  · exact clientFinProg_reads _ _ _

theorem srvTicketProg_writes (t : Bool) (e : Res Bytes) (fh : FinishedHash) : (srvTicketProg t e fh).Writes := by
  unfold srvTicketProg
  split
  · exact liftWrites fun _ => emitProg_writes _ _
  · trivial

theorem srvAgainProg_writes (E : AuthEnv) (S : ServerHs) (st : SessionState) : (srvAgainProg E S st).Writes := by
  unfold srvAgainProg
  split
  · exact (srvCertsProg_reads _ _ _).2
  · trivial

theorem srvFlightProg_writes (K : KaEnv) (T : ServerSide K.auth.x509.curve) (rand : Bytes) (fh : FinishedHash) : (srvFlightProg K T rand fh).Writes := by
  unfold srvFlightProg srvStatusProg srvSkxProg srvReqProg
  refine .bind (emitProg_writes _ _) fun f1 => .bind ?_ fun f2 => liftWrites fun k => .bind ?_ fun f3 => .bind ?_ fun f4 => .bind (emitProg_writes _ _) fun _ => trivial
  all_goals (split <;> first | trivial | exact emitProg_writes _ _)

theorem srvFinishedProg_wp {β : Type} (ms : Bytes) (fh : FinishedHash) {f : FinishedHash → Hs β} {s : HsSt} {Φ : β → HsSt → Prop}
    (h : ∀ a d, (f a).Wp { s with held := d, ccs := s.ccs + 1, full := true } Φ) : (srvFinishedProg ms fh >>= f).Wp s Φ := by
  refine .bind ?_
  unfold srvFinishedProg
  show Hs.Wp (Hs.lift none (fh.serverSum ms) >>= _) _ _
  refine liftWp fun x _ => (emitProg_writes _ _).wp fun a d => ?_
  exact h a d

/-! ### the programs -/

/-- an assignment that makes keys -/
def HsUpd.isKeys : HsUpd → Bool
  | .clientKeys .. => true
  | .serverKeys .. => true
  | _ => false

/-- the shape of a completed run: one ChangeCipherSpec, nothing held back, no more buffering, keys made once, with `key`, and after that no other version -/
structure RunShape (key : HsUpd) (s : HsSt) : Prop where
  held : s.held = false
  buf : s.buf = false
  ccs : s.ccs = 1
  upds : ∃ l1 l2, s.upds = l1 ++ key :: l2 ∧ (∀ u ∈ l1, u.isKeys = false) ∧ ∀ u ∈ l2, u = .buffer

theorem resumeProg_wp (E : AuthEnv) (S : ClientHs) (hellos : List Bytes) (sv : SavedSession) {s : HsSt} (hh : s.held = false) (hc : s.ccs = 0)
    (hu : ∀ u ∈ s.upds, u.isKeys = false) :
    (resumeProg E S hellos sv).Wp s fun r => RunShape (.clientKeys r.S.suite r.master r.S.clientRandom r.S.serverRandom) := by
  unfold resumeProg
  refine liftWp fun f1 _ => liftWp fun f2 _ => ?_
  show Hs.Wp (ticketProg S f2 >>= _) ((s.did .buffer).did _) _
  refine (ticketProg_reads _ _).then hh fun t => (readFinishedProg_reads _ _).then hh fun f => finishedProg_wp _ _ _ fun f3 d => ?_
  refine ⟨rfl, by show (_ && !true) = false; exact Bool.and_false _, by show s.ccs + 1 = 1; omega, s.upds ++ [.buffer], [], rfl, ?_, by intro u hu; cases hu⟩
  intro u h
  rcases List.mem_append.1 h with h | h
  · exact hu u h
  · rw [List.mem_singleton.1 h]; rfl

theorem newSessionProg_wp (K : KaEnv) (S : ClientHs) (hellos : List Bytes) (rk rs : Bytes) {s : HsSt} (hh : s.held = false) (hc : s.ccs = 0)
    (hu : ∀ u ∈ s.upds, u.isKeys = false) :
    (newSessionProg K S hellos rk rs).Wp s fun r => RunShape (.clientKeys r.S.suite r.master r.S.clientRandom r.S.serverRandom) := by
  unfold newSessionProg
  refine liftWp fun f1 _ => liftWp fun f2 _ => ?_
  show Hs.Wp (fullProg K S rk rs f2 >>= _) (s.did .buffer) _
  refine fullProg_wp _ _ _ _ _ hh fun x d => ?_
  refine finishedProg_wp _ _ _ fun f3 d3 => ?_
  show Hs.Wp (ticketProg S f3 >>= _) _ _
  refine (ticketProg_reads _ _).then rfl fun t => (readFinishedProg_reads _ _).then rfl fun f => ?_
  refine ⟨rfl, by show (_ && !true) = false; exact Bool.and_false _, by show s.ccs + 1 = 1; omega, s.upds ++ [.buffer], [], rfl, ?_, by intro u hu; cases hu⟩
  intro u h
  rcases List.mem_append.1 h with h | h
  · exact hu u h
  · rw [List.mem_singleton.1 h]; rfl

theorem clientProg_wp (K : KaEnv) (Z : ClientStart) (rk rs : Bytes) :
    (clientProg K Z rk rs).Wp {} fun r => RunShape (.clientKeys r.S.suite r.master r.S.clientRandom r.S.serverRandom) := by
  have main : ∀ s : HsSt, s.held = false → s.buf = false → s.ccs = 0 → (∀ u ∈ s.upds, u.isKeys = false) →
      (helloProg Z >>= fun x => (match x.2.2, Z.session with
        | true, some s => resumeProg K.auth x.1 x.2.1 s
        | _, _ => newSessionProg K x.1 x.2.1 rk rs)).Wp s fun r => RunShape (.clientKeys r.S.suite r.master r.S.clientRandom r.S.serverRandom) := by
    intro s hh hb hc hu
    have tail : ∀ (s : HsSt) (x : ClientHs × List Bytes × Bool), s.held = false → s.ccs = 0 → (∀ u ∈ s.upds, u.isKeys = false) →
        Hs.Wp (match x.2.2, Z.session with
        | true, some s => resumeProg K.auth x.1 x.2.1 s
        | _, _ => newSessionProg K x.1 x.2.1 rk rs) s fun r => RunShape (.clientKeys r.S.suite r.master r.S.clientRandom r.S.serverRandom) := by
      intro s x hh hc hu
      split
      · exact resumeProg_wp _ _ _ _ hh hc hu
      · exact newSessionProg_wp _ _ _ _ _ hh hc hu
    refine .bind ?_
    unfold helloProg
    refine liftWp fun x hx => ⟨⟨x.2, marshal_cached hx⟩, ⟨?_, ?_⟩⟩
    · show (s.held || s.buf) = false
      rw [hh, hb]; rfl
    · intro m
      beta_reduce
      split
      · rename_i sh
        refine .bind ?_
        unfold pinProg
        have rest : ∀ s : HsSt, s.held = false → s.ccs = 0 → (∀ u ∈ s.upds, u.isKeys = false) →
            Hs.Wp (match Z.react sh with
              | .error a => .fail a.code "ServerHello"
              | .ok ch => do
                let y ← Hs.lift none sh.marshal
                .ret (Z.knows sh ch, [x.1, y.1], ch.resume.isSome)) s fun a s => Hs.Wp (match a.2.2, Z.session with
                  | true, some s => resumeProg K.auth a.1 a.2.1 s
                  | _, _ => newSessionProg K a.1 a.2.1 rk rs) s fun r => RunShape (.clientKeys r.S.suite r.master r.S.clientRandom r.S.serverRandom) := by
          intro s hh hc hu
          split
          · trivial
          · exact liftWp fun y _ => tail s _ hh hc hu
        have hw : s.wrote.held = false := by show (s.held || s.buf) = false; rw [hh, hb]; rfl
        split
        · exact rest _ hw hc hu
        · split
          · refine rest _ hw hc ?_
            intro u h
            rcases List.mem_append.1 h with h | h
            · exact hu u h
            · rw [List.mem_singleton.1 h]; rfl
          · trivial
      · trivial
  unfold clientProg
  refine .bind ?_
  unfold versProg
  split
  · refine main _ rfl rfl rfl ?_
    intro u h
    have h : u ∈ [HsUpd.setVers vGMSSL] := h
    rw [List.mem_singleton.1 h]; rfl
  · exact main _ rfl rfl rfl (by intro u h; cases h)

theorem srvResumeProg_wp (E : AuthEnv) (S : ServerHs) (box : SessionState → Res Bytes) (ch : ClientHelloMsg) (hello : ServerHelloMsg) (st : SessionState) {s : HsSt}
    (hc : s.ccs = 0) (hu : ∀ u ∈ s.upds, u.isKeys = false) :
    (srvResumeProg E S box ch hello st).Wp s fun r => RunShape (.serverKeys r.S.suite r.master r.S.clientRandom r.S.serverRandom) := by
  unfold srvResumeProg
  show Hs.Wp (Hs.lift none (newFinishedHash E.hashes S.vers S.suite) >>= _) (s.did .buffer) _
  refine liftWp fun f1 _ => liftWp fun x hx => liftWp fun y hy => liftWp fun f2 _ => ⟨⟨y.2, marshal_cached hy⟩, ?_⟩
  refine Hs.Writes.then (srvAgainProg_writes _ _ _) fun p d => ?_
  show Hs.Wp (srvTicketProg _ _ _ >>= _) _ _
  refine Hs.Writes.then (srvTicketProg_writes _ _ _) fun f3 d3 => srvFinishedProg_wp _ _ fun f4 d4 => ?_
  show Hs.Wp (srvReadFinishedProg _ _ _ >>= _) _ _
  refine (srvReadFinishedProg_reads _ _ _).then rfl fun f5 => ?_
  refine ⟨rfl, by show (_ && !true) = false; exact Bool.and_false _, by show s.ccs + 1 = 1; omega, s.upds ++ [.buffer], [], rfl, ?_, by intro u hu; cases hu⟩
  intro u h
  rcases List.mem_append.1 h with h | h
  · exact hu u h
  · rw [List.mem_singleton.1 h]; rfl

theorem srvFullProg_wp (K : KaEnv) (T : ServerSide K.auth.x509.curve) (box : SessionState → Res Bytes) (rk rc : Bytes) (ch : ClientHelloMsg) (hello : ServerHelloMsg) {s : HsSt}
    (hc : s.ccs = 0) (hu : ∀ u ∈ s.upds, u.isKeys = false) :
    (srvFullProg K T box rk rc ch hello).Wp s fun r => RunShape (.serverKeys r.S.suite r.master r.S.clientRandom r.S.serverRandom) := by
  unfold srvFullProg
  show Hs.Wp (Hs.lift none ((T.hs (K := K) none rc).newHash K.auth) >>= _) (s.did .buffer) _
  refine liftWp fun f1 _ => liftWp fun x hx => liftWp fun y hy => liftWp fun f2 _ => ⟨⟨y.2, marshal_cached hy⟩, ?_⟩
  refine Hs.Writes.then (srvFlightProg_writes _ _ _ _) fun k d => ?_
  show Hs.Wp (srvAnswerProg _ _ _ >>= _) _ _
  refine (srvAnswerProg_reads _ _ _).then rfl fun a => ?_
  show Hs.Wp (srvReadFinishedProg _ _ _ >>= _) _ _
  refine (srvReadFinishedProg_reads _ _ _).then rfl fun f3 => ?_
  show Hs.Wp (srvTicketProg _ _ _ >>= _) _ _
  refine Hs.Writes.then (srvTicketProg_writes _ _ _) fun f4 d4 => srvFinishedProg_wp _ _ fun f5 d5 => ?_
  refine ⟨rfl, by show (_ && !true) = false; exact Bool.and_false _, by show s.ccs + 1 = 1; omega, s.upds ++ [.buffer], [.buffer], ?_, ?_, ?_⟩
  · show ((s.upds ++ [.buffer]) ++ [_]) ++ [.buffer] = _
    simp only [List.append_assoc, List.singleton_append]
    rfl
  · intro u h
    rcases List.mem_append.1 h with h | h
    · exact hu u h
    · rw [List.mem_singleton.1 h]; rfl
  · intro u h; exact List.mem_singleton.1 h

theorem serverProg_wp (K : KaEnv) (gm : Bool) (start : ClientHelloMsg → Option (ServerStart K.auth.x509.curve)) :
    (serverProg K gm start).Wp {} fun r => RunShape (.serverKeys r.2.S.suite r.2.master r.2.S.clientRandom r.2.S.serverRandom) := by
  unfold serverProg
  refine .bind ?_
  unfold srvHelloProg
  refine ⟨rfl, fun m => ?_⟩
  beta_reduce
  split
  · split
    · trivial
    · split
      · trivial
      · rename_i v hv
        show Hs.Wp _ (HsSt.did {} _) _
        have hu : ∀ u ∈ (HsSt.did {} (.pinVers v)).upds, u.isKeys = false := by
          intro u h
          have h : u ∈ [HsUpd.pinVers v] := h
          rw [List.mem_singleton.1 h]; rfl
        split
        · trivial
        · rename_i r hr
          show Hs.Wp (match r.resume with | some st => _ | none => _) _ _
          split
          · refine .bind ?_
            exact srvResumeProg_wp _ _ _ _ _ _ rfl hu
          · refine .bind ?_
            exact srvFullProg_wp _ _ _ _ _ _ _ rfl hu
  · trivial

/-! ### what is on the wire -/

theorem plain_writeOne {a b : HalfConn} {typ : Byte} {v : Version} {iv data r : Bytes} (h1 : a.cipher = none) (h2 : a.mac = none) (hd : data.length ≤ 16384)
    (h : a.writeOne [typ, (v >>> 8).truncate 8, v.truncate 8] iv data = .ok (r, b)) : r = Spec.frame typ v data ∧ b.cipher = none ∧ b.mac = none := by
  have he : a.writeIVLen = 0 := by
    unfold HalfConn.writeIVLen
    rw [h1]
  unfold HalfConn.writeOne at h
  rw [he] at h
  dsimp only at h
  rw [if_pos rfl, List.append_nil] at h
  unfold HalfConn.encrypt HalfConn.appendMac HalfConn.sealPayload at h
  rw [h1, h2] at h
  dsimp only at h
  split at h
  · rename_i hc' hi
    simp only [Res.ok.injEq, Prod.mk.injEq] at h
    obtain ⟨hr, rfl⟩ := h
    have hl : len16 (data.length : Int) = beFixed 2 data.length := by
      unfold len16
      congr 1
      omega
    obtain ⟨_, _, _, k4, _⟩ := incSeq_keeps hi
    refine ⟨?_, k4.trans rfl, ?_⟩
    · rw [← hr, hl]
      unfold Spec.frame
      have l2 : (beFixed 2 data.length).length = 2 := beFixed_length _ _
      have e1 : ([typ, (v >>> 8).truncate 8, v.truncate 8] ++ beFixed 2 data.length ++ data).take 3 = [typ, (v >>> 8).truncate 8, v.truncate 8] := rfl
      have e2 : ([typ, (v >>> 8).truncate 8, v.truncate 8] ++ beFixed 2 data.length ++ data).drop 5 = data := by
        rw [List.drop_append_of_le_length (by simp [l2]), List.drop_eq_nil_of_le (by simp [l2]), List.nil_append]
      rw [e1, e2]
      congr 2
      have e3 : (([typ, (v >>> 8).truncate 8, v.truncate 8] ++ beFixed 2 data.length ++ data).length : Int) - 5 = data.length := by
        simp only [List.length_append, List.length_cons, List.length_nil, l2]; omega
      rw [e3, hl]
    · unfold HalfConn.incSeq at hi
      split at hi
      · cases hi
      · rw [← Res.ok.inj hi]
  · cases h
  · cases h

theorem plain_sendAll {typ : Byte} {v : Version} : ∀ (items : List (Bytes × Bytes)) {a b : HalfConn} {rs : List Bytes}, a.cipher = none → a.mac = none →
    (∀ x ∈ items, 1 ≤ x.2.length ∧ x.2.length ≤ 16384) →
    sendAll a (items.map fun x => ([typ, (v >>> 8).truncate 8, v.truncate 8], x.1, x.2)) = .ok (rs, b) →
    rs = items.map (fun x => Spec.frame typ v x.2) ∧ b.cipher = none ∧ b.mac = none ∧ b.nextCipher = a.nextCipher ∧ b.nextMac = a.nextMac ∧ b.version = a.version := by
  intro items
  induction items with
  | nil =>
    intro a b rs h1 h2 _ h
    have h := Res.ok.inj h
    simp only [Prod.mk.injEq] at h
    obtain ⟨rfl, rfl⟩ := h
    exact ⟨rfl, h1, h2, rfl, rfl, rfl⟩
  | cons x items ih =>
    intro a b rs h1 h2 hx h
    rw [List.map_cons] at h
    unfold sendAll at h
    split at h
    · rename_i r o' hw
      split at h
      · rename_i rs' o'' hs
        simp only [Res.ok.injEq, Prod.mk.injEq] at h
        obtain ⟨rfl, rfl⟩ := h
        obtain ⟨k1, k2, k3⟩ := plain_writeOne h1 h2 (hx x (List.mem_cons_self ..)).2 hw
        obtain ⟨n1, n2, n3, _, _⟩ := writeOne_keeps hw
        obtain ⟨e1, e2, e3, e4, e5, e6⟩ := ih k2 k3 (fun y hy => hx y (List.mem_cons_of_mem _ hy)) hs
        exact ⟨by rw [k1, e1, List.map_cons], e2, e3, e4.trans n1, e5.trans n2, e6.trans n3⟩
      · cases h
      · cases h
    · cases h
    · cases h

/-- records of a half without keys are frames -/
theorem Recs_plain {typ : Byte} {v : Version} {a b : HalfConn} {data w : Bytes} (h1 : a.cipher = none) (h2 : a.mac = none) (h : Spec.Recs typ v a data w b) :
    (∃ pieces : List Bytes, pieces.flatten = data ∧ (∀ p ∈ pieces, 1 ≤ p.length ∧ p.length ≤ 16384) ∧ w = (pieces.map (Spec.frame typ v)).flatten) ∧
    b.cipher = none ∧ b.mac = none ∧ b.nextCipher = a.nextCipher ∧ b.nextMac = a.nextMac ∧ b.version = a.version := by
  obtain ⟨items, rs, i1, i2, i3, i4⟩ := h
  obtain ⟨e1, e2⟩ := plain_sendAll items h1 h2 i2 i3
  refine ⟨⟨items.map (·.2), i1, ?_, ?_⟩, e2⟩
  · intro p hp
    obtain ⟨x, hx, rfl⟩ := List.mem_map.1 hp
    exact i2 x hx
  · rw [i4, e1, List.map_map]; rfl

theorem one_piece {pieces : List Bytes} {x : Byte} (h : pieces.flatten = [x]) (hp : ∀ p ∈ pieces, 1 ≤ p.length ∧ p.length ≤ 16384) : pieces = [[x]] := by
  cases pieces with
  | nil => cases h
  | cons p ps =>
    have hl := congrArg List.length h
    rw [List.flatten_cons, List.length_append] at hl
    have h1 := (hp p (List.mem_cons_self ..)).1
    cases ps with
    | nil => rw [List.flatten_cons, List.flatten_nil, List.append_nil] at h; rw [h]
    | cons q qs =>
      have h2 := (hp q (List.mem_cons_of_mem _ (List.mem_cons_self ..))).1
      rw [List.flatten_cons, List.length_append] at hl
      simp only [List.length_cons, List.length_nil] at hl
      omega

/-- after the change of keys -/
theorem Wired_after {P : Prims} {v v' : Version} {a d : HalfConn} {us : List HsUpd} {l : List Item} {w : Bytes} (h : Wired P v a us l w v' d) :
    (∀ u ∈ us, u = .buffer) → l.count .ccs = 0 → ∃ post : List Message, l = post.map .msg ∧ Spec.Protected (Spec.hdrVersion v) a post w d ∧ v' = v := by
  induction h with
  | nil v a => intro _ _; exact ⟨[], rfl, .nil _, rfl⟩
  | msg m x e h r ih =>
    intro hu hc
    rw [List.count_cons_of_ne (by intro h; cases h)] at hc
    obtain ⟨post, e1, e2, e3⟩ := ih hu hc
    exact ⟨m :: post, by rw [e1]; rfl, .cons m x e h e2, e3⟩
  | ccs h hc r ih => intro _ h0; rw [List.count_cons_self] at h0; omega
  | upd u h r ih =>
    intro hu hc
    have := hu u (List.mem_cons_self ..)
    subst this
    cases h
    exact ih (fun u h => hu u (List.mem_cons_of_mem _ h)) hc

/-- the half from the moment the keys are made -/
theorem Wired_prepared {P : Prims} {V : Version} {ci : Cipher} {mac : Option Mac} {v v' : Version} {a d : HalfConn} {us : List HsUpd} {l : List Item} {w : Bytes} (h : Wired P v a us l w v' d) :
    (∀ u ∈ us, u = .buffer) → l.count .ccs = 1 → a.cipher = none → a.mac = none → Prepared a V ci mac →
    ∃ (pre post : List Message) (w1 w2 : Bytes) (hc : HalfConn), l = pre.map .msg ++ .ccs :: post.map .msg ∧ w = w1 ++ Spec.frame 20 (Spec.hdrVersion v) [1] ++ w2 ∧
      Spec.InClear pre w1 ∧ Spec.Fresh hc V ci mac ∧ Spec.Protected (Spec.hdrVersion v) hc post w2 d ∧ v' = v := by
  induction h with
  | nil v a => intro _ h; cases h
  | @msg v0 v1 a0 b0 d0 us l w w' m x e h r ih =>
    intro hu hc h1 h2 hp
    rw [List.count_cons_of_ne (by intro h; cases h)] at hc
    obtain ⟨⟨pieces, p1, p2, p3⟩, k1, k2, k3, k4, k5⟩ := Recs_plain h1 h2 h
    obtain ⟨pre, post, w1, w2, hc', e1, e2, e3, e4⟩ := ih hu hc k1 k2 ⟨k5.trans hp.version, k3.trans hp.cipher, k4.trans hp.mac⟩
    refine ⟨m :: pre, post, _, w2, hc', by rw [e1]; rfl, ?_, .cons m x (Spec.hdrVersion v0) pieces e p1 p2 e3, e4⟩
    rw [p3, e2]; simp only [List.append_assoc]
  | ccs h hc r ih =>
    intro hu h0 h1 h2 hp
    rw [List.count_cons_self] at h0
    obtain ⟨⟨pieces, p1, p2, p3⟩, k1, k2, k3, k4, k5⟩ := Recs_plain h1 h2 h
    obtain ⟨post, e1, e2, e3⟩ := Wired_after r hu (by omega)
    have := one_piece p1 p2
    subst this
    refine ⟨[], post, [], _, _, by rw [e1]; rfl, by rw [p3]; simp, .nil, ?_, e2, e3⟩
    unfold HalfConn.changeCipherSpec at hc
    rw [k3, hp.cipher] at hc
    rw [← Option.some.inj hc]
    exact ⟨k5.trans hp.version, rfl, k4.trans hp.mac, rfl⟩
  | upd u h r ih =>
    intro hu hc h1 h2 hp
    have := hu u (List.mem_cons_self ..)
    subst this
    cases h
    exact ih (fun u h => hu u (List.mem_cons_of_mem _ h)) hc h1 h2 hp

/-- the keys that an assignment makes for sending -/
def HsUpd.Makes (P : Prims) (v : Version) (ci : Cipher) (mac : Option Mac) : HsUpd → Prop
  | .clientKeys s ms cr sr => ∃ k, clientEstablishKeys P.hashes v s ms cr sr = .ok k ∧ newCipherFor P s.cipher k.out.key k.out.iv false = .ok ci ∧ mac = newMacFor P s.mac v k.out.mac
  | .serverKeys s ms cr sr => ∃ k, serverEstablishKeys P.hashes v s ms cr sr = .ok k ∧ newCipherFor P s.cipher k.out.key k.out.iv false = .ok ci ∧ mac = newMacFor P s.mac v k.out.mac
  | _ => False

theorem keyHalf_plain {P : Prims} {v : Version} {s : Suite} {k : DirKeys} {rd : Bool} {hc hc' : HalfConn} (h : keyHalf P v s k rd hc = .ok hc') :
    hc'.cipher = hc.cipher ∧ hc'.mac = hc.mac := by
  unfold keyHalf at h
  split at h
  · rw [← Res.ok.inj h]; exact ⟨rfl, rfl⟩
  · cases h
  · cases h

theorem Wired_split {P : Prims} {key : HsUpd} (hk : key.isKeys = true) {v v' : Version} {a d : HalfConn} {us : List HsUpd} {l : List Item} {w : Bytes} (h : Wired P v a us l w v' d) :
    ∀ l1 l2, us = l1 ++ key :: l2 → (∀ u ∈ l1, u.isKeys = false) → (∀ u ∈ l2, u = .buffer) → l.count .ccs = 1 → a.cipher = none → a.mac = none → a.nextCipher = none →
    ∃ (pre post : List Message) (w1 w2 : Bytes) (hc : HalfConn) (ci : Cipher) (mac : Option Mac), l = pre.map .msg ++ .ccs :: post.map .msg ∧
      w = w1 ++ Spec.frame 20 (Spec.hdrVersion v') [1] ++ w2 ∧ Spec.InClear pre w1 ∧ key.Makes P v' ci mac ∧ Spec.Fresh hc v' ci mac ∧ Spec.Protected (Spec.hdrVersion v') hc post w2 d := by
  induction h with
  | nil v a => intro l1 l2 hu; cases l1 <;> cases hu
  | @msg v0 v1 a0 b0 d0 us l w w' m x e h r ih =>
    intro l1 l2 hu u1 u2 hc h1 h2 h3
    rw [List.count_cons_of_ne (by intro h; cases h)] at hc
    obtain ⟨⟨pieces, p1, p2, p3⟩, k1, k2, k3, k4, k5⟩ := Recs_plain h1 h2 h
    obtain ⟨pre, post, w1, w2, hc', ci, mac, e1, e2, e3, e4⟩ := ih l1 l2 hu u1 u2 hc k1 k2 (k3.trans h3)
    refine ⟨m :: pre, post, _, w2, hc', ci, mac, by rw [e1]; rfl, ?_, .cons m x (Spec.hdrVersion v0) pieces e p1 p2 e3, e4⟩
    rw [p3, e2]; simp only [List.append_assoc]
  | ccs h hc r ih =>
    intro l1 l2 hu u1 u2 h0 h1 h2 h3
    obtain ⟨_, k1, k2, k3, k4, k5⟩ := Recs_plain h1 h2 h
    unfold HalfConn.changeCipherSpec at hc
    rw [k3, h3] at hc
    cases hc
  | upd u h r ih =>
    intro l1 l2 hu u1 u2 hc h1 h2 h3
    cases l1 with
    | nil =>
      rw [List.nil_append] at hu
      injection hu with hu1 hu2
      subst hu1 hu2
      cases h with
      | setVers => cases hk
      | pinVers => cases hk
      | buffer => cases hk
      | clientKeys s ms cr sr v a b k hk' hh =>
        obtain ⟨ci, c1, c2⟩ := keyHalf_prepared hh
        obtain ⟨d1, d2⟩ := keyHalf_plain hh
        obtain ⟨pre, post, w1, w2, hc', e1, e2, e3, e4, e5, e6⟩ := Wired_prepared r u2 hc (d1.trans h1) (d2.trans h2) c2
        subst e6
        exact ⟨pre, post, w1, w2, hc', ci, _, e1, e2, e3, ⟨k, hk', c1, rfl⟩, e4, e5⟩
      | serverKeys s ms cr sr v a b k hk' hh =>
        obtain ⟨ci, c1, c2⟩ := keyHalf_prepared hh
        obtain ⟨d1, d2⟩ := keyHalf_plain hh
        obtain ⟨pre, post, w1, w2, hc', e1, e2, e3, e4, e5, e6⟩ := Wired_prepared r u2 hc (d1.trans h1) (d2.trans h2) c2
        subst e6
        exact ⟨pre, post, w1, w2, hc', ci, _, e1, e2, e3, ⟨k, hk', c1, rfl⟩, e4, e5⟩
    | cons x l1 =>
      rw [List.cons_append] at hu
      injection hu with hu1 hu2
      subst hu1 hu2
      have hx := u1 u (List.mem_cons_self ..)
      cases h with
      | setVers => exact ih l1 l2 rfl (fun u h => u1 u (List.mem_cons_of_mem _ h)) u2 hc h1 h2 h3
      | pinVers => exact ih l1 l2 rfl (fun u h => u1 u (List.mem_cons_of_mem _ h)) u2 hc h1 h2 h3
      | buffer => exact ih l1 l2 rfl (fun u h => u1 u (List.mem_cons_of_mem _ h)) u2 hc h1 h2 h3
      | clientKeys => cases hx
      | serverKeys => cases hx

/-- a completed run, by its shape -/
theorem run_wire {α : Type} {P : Prims} {gm : Bool} {p : Hs α} {key : α → HsUpd} (hk : ∀ a, (key a).isKeys = true) (hp : p.Wp {} fun a => RunShape (key a)) {c : Conn}
    (hb : c.buffering = false) (hs : c.sendBuf = []) (h1 : c.out.cipher = none) (h2 : c.out.mac = none) (h3 : c.out.nextCipher = none) {o : HsOut α} {a : α}
    (h : p.run P gm c = .ok o) (hd : o.result = .done a) :
    ∃ (pre post : List Message) (w1 w2 : Bytes) (hc : HalfConn) (ci : Cipher) (mac : Option Mac), o.sent = pre.map .msg ++ .ccs :: post.map .msg ∧
      o.conn.wire = c.wire ++ w1 ++ Spec.frame 20 (Spec.hdrVersion o.conn.vers) [1] ++ w2 ∧ o.conn.sendBuf = [] ∧ o.conn.buffering = false ∧ Spec.InClear pre w1 ∧ (key a).Makes P o.conn.vers ci mac ∧
      Spec.Fresh hc o.conn.vers ci mac ∧ Spec.Protected (Spec.hdrVersion o.conn.vers) hc post w2 o.conn.out := by
  obtain ⟨s', us, w, g1, g2, g3, g4, g5, g6⟩ := run_wp P gm p {} _ c o a hp ⟨(fun x => by rw [hb] at x; cases x), fun _ => hs, fun _ => hs, fun x => by cases x⟩ h hd
  obtain ⟨k1, k0, k2, l1, l2, k3, k4, k5⟩ := g1
  rw [g3, List.nil_append] at k3
  have hcnt : o.sent.count .ccs = 1 := by rw [k2] at g4; exact (by simpa using g4.symm)
  obtain ⟨pre, post, w1, w2, hc, ci, mac, e1, e2, e3, e4, e5, e6⟩ := Wired_split (hk a) g5 l1 l2 k3 k4 k5 hcnt h1 h2 h3
  have hsb := g2.held k1
  refine ⟨pre, post, w1, w2, hc, ci, mac, e1, ?_, hsb, ?_, e3, e4, e5, e6⟩
  rotate_left
  · cases hb' : o.conn.buffering with
    | false => rfl
    | true => have := g2.buf hb'; rw [k0] at this; cases this
  simp only [Conn.emitted, hs, hsb, List.append_nil] at g6
  rw [g6, e2]
  simp only [List.append_assoc]

/-! ### C141 -/

namespace Spec
/-- a half connection before any handshake: no keys, none prepared -/
structure Unkeyed (hc : HalfConn) : Prop where
  cipher : hc.cipher = none
  mac : hc.mac = none
  next : hc.nextCipher = none

/-- what a side that sent `sent` in its handshake (messages and ChangeCipherSpecs) has put on the wire, from the fresh keys (`ci`, `mac`) of version `v` on which it
switched to; `out` is what sending has left of them -/
def OnWire (sent : List Item) (w : Bytes) (v : Version) (ci : Cipher) (mac : Option Mac) (out : HalfConn) : Prop :=
  ∃ (pre post : List Message) (w1 w2 : Bytes) (hc : HalfConn), sent = pre.map .msg ++ .ccs :: post.map .msg ∧ w = w1 ++ frame 20 (hdrVersion v) [1] ++ w2 ∧
    InClear pre w1 ∧ Fresh hc v ci mac ∧ Protected (hdrVersion v) hc post w2 out
end Spec

/-- the rest of the connection a completed call of `Handshake` leaves -/
theorem handshake_wire_any {α : Type} {P : Prims} {gm : Bool} {p : Hs α} {c c' : Conn} {o : HsOut α} {r : α} (h1 : c.handshakeErr = none) (h2 : c.handshakeComplete = false)
    (h : c.handshake (p.asHandshake P gm) = .ok (none, c')) (hr : p.run P gm c = .ok o) (hd : o.result = .done r) :
    c'.wire = o.conn.wire ∧ c'.sendBuf = o.conn.sendBuf ∧ c'.buffering = o.conn.buffering := by
  have hc : ({ c with handshakeComplete := false } : Conn) = c := by rw [← h2]
  unfold Conn.handshake at h
  rw [h1] at h
  dsimp only at h
  rw [if_neg (by rw [h2]; decide)] at h
  unfold Conn.runHandshake at h
  rw [hc] at h
  unfold Hs.asHandshake at h
  rw [hr] at h
  simp only [Res.map, hd, HsEnd.err, Option.isNone_none, if_true, Res.ok.injEq, Prod.mk.injEq, true_and] at h
  rw [← h]
  exact ⟨rfl, rfl, rfl⟩

/-- **C141, client.** If `Handshake` of a client returns nil on a new connection then all it sent is on the wire and nothing is held back (later writes go out at once).
With `m` its ClientHello and `sent` the messages it sent after it (those of C135): the wire holds, in order, the messages before the ChangeCipherSpec in the clear (each in
records of type 22 of at most 16384 bytes), one ChangeCipherSpec record, and the others protected with the client's keys of the master secret, from sequence number 0 on. -/
theorem C141_client (P : Prims) (K : KaEnv) (Z : ClientStart) (rk rs : Bytes) (c c' : Conn) (hren : Z.S.renegotiation = c.ren)
    (h1 : c.handshakeErr = none) (h2 : c.handshakeComplete = false) (hb : c.buffering = false) (hs : c.sendBuf = []) (hu : Spec.Unkeyed c.out)
    (h : c.handshake ((clientProg K Z rk rs).asHandshake P Z.S.gm) = .ok (none, c')) :
    ∃ (r : ClientEnd) (sh : ServerHelloMsg) (ch : ClientChoice) (items sent : List Item) (m : Message) (hello w : Bytes) (k : ConnKeys) (ci : Cipher),
      Spec.ClientRan P K Z rk rs c sh ch r.hellos items sent r ∧ (Message.clientHello Z.hello).marshal = .ok (hello, m) ∧ r.S = Z.knows sh ch ∧
      clientEstablishKeys P.hashes r.S.vers r.S.suite r.master r.S.clientRandom r.S.serverRandom = .ok k ∧
      newCipherFor P r.S.suite.cipher k.out.key k.out.iv false = .ok ci ∧
      c'.wire = c.wire ++ w ∧ Spec.OnWire (.msg m :: sent) w r.S.vers ci (newMacFor P r.S.suite.mac r.S.vers k.out.mac) c'.out ∧
      c'.sendBuf = [] ∧ c'.buffering = false := by
  obtain ⟨o, r, hr, hd⟩ := handshake_ran h1 h2 h
  obtain ⟨sh, ch, items, sent, hran, hS, _⟩ := ran_items hren hr hd
  obtain ⟨_, _, hv, _⟩ := clientProg_keys hr hd
  obtain ⟨e1, e2, e3⟩ := handshake_wire_any h1 h2 h hr hd
  obtain ⟨e4, _, e5, _⟩ := handshake_conn_any h1 h2 h hr hd
  obtain ⟨pre, post, w1, w2, hc, ci, mac, g1, g2, g3, g4, g5, g6, g7, g8⟩ :=
    run_wire (key := fun r : ClientEnd => .clientKeys r.S.suite r.master r.S.clientRandom r.S.serverRandom) (fun _ => rfl) (clientProg_wp K Z rk rs) hb hs hu.cipher hu.mac hu.next hr hd
  rw [hv] at g2 g6 g7 g8
  obtain ⟨k, k1, k2, k3⟩ := g6
  subst k3
  obtain ⟨o', hr', hd', _, m, hm, hello, hl⟩ := hran.ran
  rw [hr] at hr'
  have := Res.ok.inj hr'; subst this
  refine ⟨r, sh, ch, items, sent, m, hello, w1 ++ Spec.frame 20 (Spec.hdrVersion r.S.vers) [1] ++ w2, k, ci, hran, hl, hS, k1, k2, ?_, ?_, e2.trans g3, e3.trans g4⟩
  · rw [e1, g2]; simp only [List.append_assoc]
  · exact ⟨pre, post, w1, w2, hc, hm.symm.trans g1, rfl, g5, g7, by rw [e4]; exact g8⟩

/-- **C141, server.** The same for `Handshake` of a server (`m` is its ServerHello, `sent` the messages of C138 after it). -/
theorem C141_server (P : Prims) (K : KaEnv) (gm : Bool) (start : ClientHelloMsg → Option (ServerStart K.auth.x509.curve)) (c c' : Conn) (hs : c.isClient = false)
    (h1 : c.handshakeErr = none) (h2 : c.handshakeComplete = false) (hb : c.buffering = false) (hsb : c.sendBuf = []) (hu : Spec.Unkeyed c.out)
    (h : c.handshake ((serverProg K gm start).asHandshake P gm) = .ok (none, c')) :
    ∃ (ch : ClientHelloMsg) (Z : ServerStart K.auth.x509.curve) (x : ServerChoice) (items sent : List Item) (r : ServerRes) (m : Message) (hello w : Bytes) (k : ConnKeys) (ci : Cipher),
      Spec.ServerRan P K gm start c ch Z x items sent r ∧ (Message.serverHello (Z.helloMsg gm ch x)).marshal = .ok (hello, m) ∧ r.S.vers = x.vers ∧
      serverEstablishKeys P.hashes r.S.vers r.S.suite r.master r.S.clientRandom r.S.serverRandom = .ok k ∧
      newCipherFor P r.S.suite.cipher k.out.key k.out.iv false = .ok ci ∧
      c'.wire = c.wire ++ w ∧ Spec.OnWire (.msg m :: sent) w r.S.vers ci (newMacFor P r.S.suite.mac r.S.vers k.out.mac) c'.out ∧
      c'.sendBuf = [] ∧ c'.buffering = false := by
  obtain ⟨ch, Z, x, items, sent, r, hran, _⟩ := C138_server P K gm start c c' hs h1 h2 h
  obtain ⟨o, hr, hd, _, m, hm, hello, hl⟩ := hran.ran
  obtain ⟨_, _, hv, _, hv2⟩ := serverProg_keys hs hr hd
  obtain ⟨e1, e2, e3⟩ := handshake_wire_any h1 h2 h hr hd
  obtain ⟨e4, _, e5, _⟩ := handshake_conn_any h1 h2 h hr hd
  obtain ⟨pre, post, w1, w2, hc, ci, mac, g1, g2, g3, g4, g5, g6, g7, g8⟩ :=
    run_wire (key := fun r : ServerChoice × ServerRes => .serverKeys r.2.S.suite r.2.master r.2.S.clientRandom r.2.S.serverRandom) (fun _ => rfl) (serverProg_wp K gm start) hb hsb
      hu.cipher hu.mac hu.next hr hd
  rw [hv.trans hv2.symm] at g2 g6 g7 g8
  obtain ⟨k, k1, k2, k3⟩ := g6
  subst k3
  refine ⟨ch, Z, x, items, sent, r, m, hello, w1 ++ Spec.frame 20 (Spec.hdrVersion r.S.vers) [1] ++ w2, k, ci, hran, hl, hv2, k1, k2, ?_, ?_, e2.trans g3, e3.trans g4⟩
  · rw [e1, g2]; simp only [List.append_assoc]
  · exact ⟨pre, post, w1, w2, hc, hm.symm.trans g1, rfl, g5, g7, by rw [e4]; exact g8⟩

/-! ### C142 -/

/-- **C142, client.** In a handshake of a client on any connection with nothing held back, a renegotiation included and whether it completes or not, whenever it asks for a
record from the peer everything it has sent so far is on the wire. -/
theorem C142_client (P : Prims) (K : KaEnv) (Z : ClientStart) (rk rs : Bytes) (c : Conn) (hb : c.buffering = false) (hs : c.sendBuf = []) :
    ∀ d ∈ Spec.waits P Z.S.gm (clientProg K Z rk rs) c, d.sendBuf = [] :=
  waits_wp P _ _ {} _ c (clientProg_wp K Z rk rs) ⟨(fun x => by rw [hb] at x; cases x), fun _ => hs, fun _ => hs, fun x => by cases x⟩

/-- **C142, server.** -/
theorem C142_server (P : Prims) (K : KaEnv) (gm : Bool) (start : ClientHelloMsg → Option (ServerStart K.auth.x509.curve)) (c : Conn) (hb : c.buffering = false) (hs : c.sendBuf = []) :
    ∀ d ∈ Spec.waits P gm (serverProg K gm start) c, d.sendBuf = [] :=
  waits_wp P _ _ {} _ c (serverProg_wp K gm start) ⟨(fun x => by rw [hb] at x; cases x), fun _ => hs, fun _ => hs, fun x => by cases x⟩

/-! ### the toy handshakes -/

/-- the hypotheses of C141 and C142 -/
example : (toyConn []).buffering = false ∧ (toyConn []).sendBuf = [] ∧ Spec.Unkeyed (toyConn []).out := ⟨rfl, rfl, rfl, rfl, rfl⟩

/-- C141: the records on the wire after the completed handshakes of `HsExamples` and `SrvExamples`, full and resumed -/
example : toySeenFail (toyRun (174 :: List.replicate 11 0)) = some (none, [22, 22, 22, 22, 20, 22], [], false) := by decide +kernel
example : toySeenFail (toyRun2 (46 :: List.replicate 11 0)) = some (none, [22, 20, 22], [], false) := by decide +kernel
example : toySeenFail (toySrvRun .requireAndVerifyClientCert (fun _ => .ok [42]) (250 :: List.replicate 11 0)) = some (none, [22, 22, 22, 22, 22, 22, 20, 22], [], false) := by
  decide +kernel
example : toySeenFail (toySrvRun2 (154 :: List.replicate 11 0)) = some (none, [22, 20, 22], [], false) := by decide +kernel

/-- C142: what is on the wire each time the side waits: for the client, its ClientHello, then all its messages; for the server nothing, then its first flight -/
example : ((Spec.waits toyPrims false (clientProg toyK toyStart [5] [6]) (toyConn (174 :: List.replicate 11 0))).map fun d => d.wire.length) = [85, 85, 85, 85, 85, 184, 184, 184] := by
  decide +kernel
example : ((Spec.waits toyPrims false (serverProg toyK false fun _ => some (toySrv .requireAndVerifyClientCert (fun _ => none) (fun _ => .ok [42])))
    { isClient := false, stream := toySrvStream (250 :: List.replicate 11 0), rand := List.replicate 64 0 }).map fun d => d.wire.length) = [0, 149, 149, 149, 149, 149] := by
  decide +kernel

end Verif.Tls
