import Verif.Tls.NegotiationProps
import Verif.Tls.Ticket
/-!
C129: `Config.GetConfigForClient` and `ClientHelloInfo`.

tls/conn.go:1277-1283 chooses the kind of server handshake, tls/handshake_server.go:40-136 and tls/gm_handshake_server_double.go:38-134 (the same code) call the
callback, tls/handshake_server.go:767-794 builds its argument. Session ticket keys are the subject of C70, C71 and C126.

Configurations have an identity (they are pointers) and their `serverInitOnce` is part of their state.
-/
namespace Verif.Tls.ConfigForClient
open Verif Verif.Tls

/-- tls/common.go:249-296 `ClientHelloInfo`, without the connection -/
structure HelloInfo where
  cipherSuites : List (BitVec 16)
  serverName : Bytes
  supportedCurves : List (BitVec 16)
  supportedPoints : List Byte
  signatureSchemes : List (BitVec 16)
  supportedProtos : List Bytes
  supportedVersions : List Version
deriving DecidableEq

/-- tls/handshake_server.go:768 -/
def suppVersArray : List Version := [0x0303, 0x0302, 0x0301, 0x0300]

/-- tls/handshake_server.go:770-794, tls/gm_handshake_server_double.go:716-740 `clientHelloInfo`; `sigs` is the signature_algorithms extension -/
def helloInfo (ch : ClientHello) (sigs : List (BitVec 16)) : HelloInfo :=
  { cipherSuites := ch.cipherSuites, serverName := ch.serverName, supportedCurves := ch.supportedCurves, supportedPoints := ch.supportedPoints,
    signatureSchemes := sigs, supportedProtos := ch.alpnProtocols,
    supportedVersions :=
      if 0x0303 < ch.vers.toNat then suppVersArray
      else if 0x0300 ≤ ch.vers.toNat then suppVersArray.drop (0x0303 - ch.vers.toNat)
      else [] }

/-- a `Config`: `gm` is `GMSupport != nil`; the callback returns a pointer -/
structure Server where
  cfg : Config
  gm : Bool
  tickets : TicketConfig
  initDone : Bool
  getConfig : Option (HelloInfo → Except String (Option Nat))

abbrev Store := Nat → Server

/-- `cfg.serverInitOnce.Do(func() { cfg.serverInit(original) })` -/
def initOnce (C : TicketCrypto) (st : Store) (p : Nat) (rand : Bytes) (original : Option TicketConfig) : Store :=
  if (st p).initDone then st
  else fun i => if i = p then { st p with tickets := (st p).tickets.serverInit C rand original, initDone := true } else st i

/-- what the server makes of the ClientHello: an alert, or its choices and the configuration in use from now on -/
inductive Outcome where
  | refused (a : Alert)
  | accepted (choice : ServerChoice) (config : Nat)

/-- tls/handshake_server.go:145-268 or tls/gm_handshake_server_double.go:137-260 with configuration `q`: the version, the suite, the certificate, … -/
def choose (C : TicketCrypto) (gm : Bool) (st : Store) (q : Nat) (rand : Bytes) (ch : ClientHello) : Outcome :=
  let cfg := { (st q).cfg with sessionTicketsDisabled := (st q).tickets.disabled }
  match (if gm then readClientHelloGM cfg (decryptTicket C (st q).tickets) rand ch else readClientHello cfg (decryptTicket C (st q).tickets) rand ch) with
  | .ok r => .accepted r q
  | .error a => .refused a

/-- tls/conn.go:1277-1283 and the start of both server handshakes, for a connection made with `Server(conn, p)`. `r0`, `r1` are what `Rand` delivers to `serverInit`. -/
def accept (C : TicketCrypto) (st : Store) (p : Nat) (r0 r1 rand : Bytes) (ch : ClientHello) (sigs : List (BitVec 16)) : Outcome × Store :=
  let gm := (st p).gm
  let st := initOnce C st p r0 none
  match (st p).getConfig with
  | none => (choose C gm st p rand ch, st)
  | some f =>
    match f (helloInfo ch sigs) with
    | .error _ => (.refused .internalError, st)
    | .ok none => (choose C gm st p rand ch, st)
    | .ok (some q) =>
      let st := initOnce C st q r1 (some (st p).tickets)
      (choose C gm st q rand ch, st)

/-! ### properties -/

/-- C129: the callback sees what the client sent, and of the TLS versions exactly those up to the client's. -/
theorem C129_info_partial (ch : ClientHello) (sigs : List (BitVec 16)) :
    (helloInfo ch sigs).cipherSuites = ch.cipherSuites ∧ (helloInfo ch sigs).serverName = ch.serverName ∧ (helloInfo ch sigs).supportedCurves = ch.supportedCurves ∧
      (helloInfo ch sigs).supportedPoints = ch.supportedPoints ∧ (helloInfo ch sigs).signatureSchemes = sigs ∧ (helloInfo ch sigs).supportedProtos = ch.alpnProtocols ∧
      ∀ v : Version, v ∈ (helloInfo ch sigs).supportedVersions ↔ v ∈ [vTLS12, vTLS11, vTLS10, vSSL30] ∧ v.toNat ≤ ch.vers.toNat := by
  refine ⟨rfl, rfl, rfl, rfl, rfl, rfl, fun v => ?_⟩
  have e3 : (0x0303 : Version).toNat = 0x0303 := rfl
  have e2 : (0x0302 : Version).toNat = 0x0302 := rfl
  have e1 : (0x0301 : Version).toNat = 0x0301 := rfl
  have e0 : (0x0300 : Version).toNat = 0x0300 := rfl
  have key : (helloInfo ch sigs).supportedVersions = suppVersArray.filter (fun v => decide (v.toNat ≤ ch.vers.toNat)) := by
    unfold helloInfo suppVersArray
    simp only
    split
    · rename_i h
      refine (List.filter_eq_self.2 fun v hv => ?_).symm
      have : v = 0x0303 ∨ v = 0x0302 ∨ v = 0x0301 ∨ v = 0x0300 := by simpa using hv
      rcases this with e | e | e | e <;> subst e <;> simp only [decide_eq_true_eq, e0, e1, e2, e3] <;> omega
    · rename_i h
      split
      · rename_i h'
        have : ch.vers.toNat = 0x0300 ∨ ch.vers.toNat = 0x0301 ∨ ch.vers.toNat = 0x0302 ∨ ch.vers.toNat = 0x0303 := by omega
        rcases this with e | e | e | e <;> rw [e] <;> rfl
      · rename_i h'
        refine (List.filter_eq_nil_iff.2 fun v hv => ?_).symm
        have : v = 0x0303 ∨ v = 0x0302 ∨ v = 0x0301 ∨ v = 0x0300 := by simpa using hv
        rcases this with e | e | e | e <;> subst e <;> simp only [decide_eq_true_eq, e0, e1, e2, e3] <;> omega
  rw [key, List.mem_filter]
  simp [suppVersArray, vTLS12, vTLS11, vTLS10, vSSL30]

/-- C129, violated: a client that offers GMSSL is shown as one that supports no version at all. -/
theorem C129_gm_version_violated (ch : ClientHello) (sigs : List (BitVec 16)) (h : ch.vers = vGMSSL) : (helloInfo ch sigs).supportedVersions = [] := by
  unfold helloInfo
  rw [h]
  rfl

/-- a server that has no callback and needs no initialization any more: what it does is determined by its fields -/
theorem accept_plain (C : TicketCrypto) (st : Store) (q : Nat) (r0 r1 rand : Bytes) (ch : ClientHello) (sigs : List (BitVec 16)) (hi : (st q).initDone = true) (hn : (st q).getConfig = none) :
    accept C st q r0 r1 rand ch sigs = (choose C (st q).gm st q rand ch, st) := by
  unfold accept initOnce
  rw [if_pos hi]
  simp only [hn]

theorem choose_congr (C : TicketCrypto) (gm : Bool) (st st' : Store) (q : Nat) (rand : Bytes) (ch : ClientHello) (hc : (st q).cfg = (st' q).cfg) (ht : (st q).tickets = (st' q).tickets) :
    choose C gm st q rand ch = choose C gm st' q rand ch := by
  unfold choose
  rw [hc, ht]

theorem initOnce_done (C : TicketCrypto) (st : Store) (p : Nat) (r : Bytes) (o : Option TicketConfig) : ((initOnce C st p r o) p).initDone = true := by
  unfold initOnce
  split
  · assumption
  · simp

theorem initOnce_fields (C : TicketCrypto) (st : Store) (p q : Nat) (r : Bytes) (o : Option TicketConfig) :
    (initOnce C st p r o q).cfg = (st q).cfg ∧ (initOnce C st p r o q).gm = (st q).gm ∧ (initOnce C st p r o q).getConfig = (st q).getConfig := by
  unfold initOnce
  split
  · exact ⟨rfl, rfl, rfl⟩
  · simp only
    split
    · rename_i h
      subst h
      exact ⟨rfl, rfl, rfl⟩
    · exact ⟨rfl, rfl, rfl⟩

/-- C129: with a Config of the same kind, the connection is handled as if the server had been started with that Config (its ticket keys set), whatever else the original
Config says; the callback of the returned Config is not asked. -/
theorem C129_returned_partial (C : TicketCrypto) (st : Store) (p q : Nat) (r0 r1 rand : Bytes) (ch : ClientHello) (sigs : List (BitVec 16)) (f : HelloInfo → Except String (Option Nat))
    (hf : (st p).getConfig = some f) (hq : f (helloInfo ch sigs) = .ok (some q)) (kind : (st q).gm = (st p).gm) :
    ∃ st', (accept C st p r0 r1 rand ch sigs).2 = st' ∧ (st' q).cfg = (st q).cfg ∧ (st' q).initDone = true ∧
      ((accept C st p r0 r1 rand ch sigs).1 =
        (accept C (fun i => if i = q then { st' q with getConfig := none } else st' i) q r0 r1 rand ch sigs).1) := by
  have e : accept C st p r0 r1 rand ch sigs = (choose C (st p).gm (initOnce C (initOnce C st p r0 none) q r1 (some (initOnce C st p r0 none p).tickets)) q rand ch,
      initOnce C (initOnce C st p r0 none) q r1 (some (initOnce C st p r0 none p).tickets)) := by
    unfold accept
    simp only [(initOnce_fields C st p p r0 none).2.2, hf, hq]
  rw [e]
  have d := initOnce_done C (initOnce C st p r0 none) q r1 (some (initOnce C st p r0 none p).tickets)
  have f1 := initOnce_fields C (initOnce C st p r0 none) q q r1 (some (initOnce C st p r0 none p).tickets)
  have f2 := initOnce_fields C st p q r0 none
  generalize initOnce C (initOnce C st p r0 none) q r1 (some (initOnce C st p r0 none p).tickets) = st' at d f1
  refine ⟨st', rfl, f1.1.trans f2.1, d, ?_⟩
  rw [accept_plain C _ q r0 r1 rand ch sigs (by simp [d]) (by simp)]
  simp only [if_true, f1.2.1, f2.2.1, kind]
  exact choose_congr C _ _ _ q rand ch (by simp) (by simp)

/-- C129: with `nil` the original Config is used, as without a callback. -/
theorem C129_nil (C : TicketCrypto) (st : Store) (p : Nat) (r0 r1 rand : Bytes) (ch : ClientHello) (sigs : List (BitVec 16)) (f : HelloInfo → Except String (Option Nat))
    (hf : (st p).getConfig = some f) (hq : f (helloInfo ch sigs) = .ok none) :
    (accept C st p r0 r1 rand ch sigs).1 = (accept C (fun i => if i = p then { st p with getConfig := none } else st i) p r0 r1 rand ch sigs).1 := by
  have e : accept C st p r0 r1 rand ch sigs = (choose C (st p).gm (initOnce C st p r0 none) p rand ch, initOnce C st p r0 none) := by
    unfold accept
    simp only [(initOnce_fields C st p p r0 none).2.2, hf, hq]
  rw [e]
  unfold accept
  have g := (initOnce_fields C (fun i => if i = p then { st p with getConfig := none } else st i) p p r0 none).2.2
  simp only [if_true] at g
  simp only [g, if_true]
  refine choose_congr C _ _ _ p rand ch ?_ ?_
  · rw [(initOnce_fields C st p p r0 none).1, (initOnce_fields C _ p p r0 none).1]
    simp
  · unfold initOnce
    simp only [if_true]
    split <;> simp

/-- C129: an error of the callback refuses the connection with `internal_error`, whatever it is. -/
theorem C129_error (C : TicketCrypto) (st : Store) (p : Nat) (r0 r1 rand : Bytes) (ch : ClientHello) (sigs : List (BitVec 16)) (f : HelloInfo → Except String (Option Nat)) (x : String)
    (hf : (st p).getConfig = some f) (hq : f (helloInfo ch sigs) = .error x) :
    (accept C st p r0 r1 rand ch sigs).1 = .refused .internalError := by
  unfold accept
  simp only [(initOnce_fields C st p p r0 none).2.2, hf, hq]

/-! ### runs -/

/-- what of the outcome is compared: the alert, or version, suite and the configuration in use -/
def seen : Outcome → Except Alert (Version × BitVec 16 × Nat)
  | .refused a => .error a
  | .accepted r q => .ok (r.vers, r.suite.id, q)

/-- tickets switched off -/
def noTickets : TicketConfig := ⟨true, [], []⟩

theorem decrypt_off (C : TicketCrypto) : decryptTicket C noTickets = fun _ => none := by
  funext x
  unfold decryptTicket
  exact if_pos (Or.inl rfl)

/-- two configurations: 0 is the one the listener was made with, whose callback returns configuration 1 -/
def twoConfigs (gm0 gm1 : Bool) : Store := fun i =>
  if i = 0 then { cfg := { exampleConfig with cipherSuites := some [0x002f] }, gm := gm0, tickets := noTickets, initDone := false, getConfig := some fun _ => .ok (some 1) }
  else { cfg := { exampleConfig with minVersion := 0 }, gm := gm1, tickets := noTickets, initDone := false, getConfig := none }

theorem initOnce_off (C : TicketCrypto) (st : Store) (p q : Nat) (r : Bytes) (o : Option TicketConfig) (h : ∀ i, (st i).tickets = noTickets) :
    (initOnce C st p r o q).tickets = noTickets := by
  unfold initOnce
  split
  · exact h q
  · simp only
    split
    · simp only [h p]
      rfl
    · exact h q

theorem off_two (gm0 gm1 : Bool) (i : Nat) : (twoConfigs gm0 gm1 i).tickets = noTickets := by
  unfold twoConfigs
  split <;> rfl

/-- the choice made when tickets are off -/
theorem choose_off (C : TicketCrypto) (gm : Bool) (st : Store) (q : Nat) (rand : Bytes) (ch : ClientHello) (h : (st q).tickets = noTickets) :
    choose C gm st q rand ch =
      match (if gm then readClientHelloGM { (st q).cfg with sessionTicketsDisabled := true } (fun _ => none) rand ch
        else readClientHello { (st q).cfg with sessionTicketsDisabled := true } (fun _ => none) rand ch) with
      | .ok r => .accepted r q
      | .error a => .refused a := by
  unfold choose
  rw [h, decrypt_off]
  rfl

theorem accept_two (C : TicketCrypto) (gm0 gm1 : Bool) (r0 r1 rand : Bytes) (ch : ClientHello) (sigs : List (BitVec 16)) :
    (accept C (twoConfigs gm0 gm1) 0 r0 r1 rand ch sigs).1 =
      match (if gm0 then readClientHelloGM { exampleConfig with minVersion := 0, sessionTicketsDisabled := true } (fun _ => none) rand ch
        else readClientHello { exampleConfig with minVersion := 0, sessionTicketsDisabled := true } (fun _ => none) rand ch) with
      | .ok r => .accepted r 1
      | .error a => .refused a := by
  have h1 := (initOnce_fields C (twoConfigs gm0 gm1) 0 0 r0 none).2.2
  have h2 := (initOnce_fields C (initOnce C (twoConfigs gm0 gm1) 0 r0 none) 1 1 r1 (some (initOnce C (twoConfigs gm0 gm1) 0 r0 none 0).tickets)).1
  have h3 := (initOnce_fields C (twoConfigs gm0 gm1) 0 1 r0 none).1
  have h4 := initOnce_off C (initOnce C (twoConfigs gm0 gm1) 0 r0 none) 1 1 r1 (some (initOnce C (twoConfigs gm0 gm1) 0 r0 none 0).tickets)
    fun i => initOnce_off C _ 0 i r0 none (off_two gm0 gm1)
  have e : (accept C (twoConfigs gm0 gm1) 0 r0 r1 rand ch sigs).1 = choose C gm0
      (initOnce C (initOnce C (twoConfigs gm0 gm1) 0 r0 none) 1 r1 (some (initOnce C (twoConfigs gm0 gm1) 0 r0 none 0).tickets)) 1 rand ch := by
    unfold accept
    simp only [h1]
    rfl
  rw [e, choose_off C _ _ 1 rand ch h4, h2, h3]
  rfl

/-- C129_returned_partial: the listener's Config allows only one old suite; the returned one serves the client with a suite of its own choice. -/
example (C : TicketCrypto) (r0 r1 : Bytes) :
    (twoConfigs false false 1).gm = (twoConfigs false false 0).gm ∧
    seen (accept C (twoConfigs false false) 0 r0 r1 (List.replicate 32 7) exampleOffer []).1 = .ok (vTLS12, 0xc02f, 1) := by
  refine ⟨rfl, ?_⟩
  rw [accept_two]
  have : seenChoice (readClientHello { exampleConfig with minVersion := 0, sessionTicketsDisabled := true } (fun _ => none) (List.replicate 32 7) exampleOffer) =
    some (vTLS12, 0xc02f, none, [0x68, 0x32]) := by decide +kernel
  simp only [Bool.false_eq_true, if_false]
  generalize readClientHello _ _ _ _ = x at this
  cases x with
  | error a => simp [seenChoice] at this
  | ok r =>
    simp only [seenChoice, Option.some.injEq, Prod.mk.injEq] at this
    simp [seen, this]

/-- C129, violated: the callback cannot change the kind of handshake. The returned GM Config would serve this GM client; behind the callback of a Config without
`GMSupport` the client is refused. -/
theorem C129_kind_violated (C : TicketCrypto) (r0 r1 : Bytes) :
    ∃ (st : Store) (ch : ClientHello), (st 0).getConfig = some (fun _ => .ok (some 1)) ∧ (st 1).gm = true ∧ (st 1).getConfig = none ∧
      seen (accept C st 1 r0 r1 (List.replicate 32 7) ch []).1 = .ok (vGMSSL, 0xe013, 1) ∧
      seen (accept C st 0 r0 r1 (List.replicate 32 7) ch []).1 = .error .handshakeFailure := by
  refine ⟨twoConfigs false true, { exampleOffer with vers := vGMSSL, cipherSuites := [0xe013] }, rfl, rfl, rfl, ?_, ?_⟩
  · have h1 := (initOnce_fields C (twoConfigs false true) 1 1 r0 none)
    have e : (accept C (twoConfigs false true) 1 r0 r1 (List.replicate 32 7) { exampleOffer with vers := vGMSSL, cipherSuites := [0xe013] } []).1 =
        choose C true (initOnce C (twoConfigs false true) 1 r0 none) 1 (List.replicate 32 7) { exampleOffer with vers := vGMSSL, cipherSuites := [0xe013] } := by
      unfold accept
      simp only [h1.2.2]
      rfl
    rw [e, choose_off C _ _ 1 _ _ (initOnce_off C _ 1 1 r0 none (off_two false true)), h1.1]
    have : seenChoice (readClientHelloGM { exampleConfig with minVersion := 0, sessionTicketsDisabled := true } (fun _ => none) (List.replicate 32 7)
        { exampleOffer with vers := vGMSSL, cipherSuites := [0xe013] }) = some (vGMSSL, 0xe013, none, [0x68, 0x32]) := by decide +kernel
    simp only [if_true]
    change seen (match readClientHelloGM { exampleConfig with minVersion := 0, sessionTicketsDisabled := true } (fun _ => none) (List.replicate 32 7)
        { exampleOffer with vers := vGMSSL, cipherSuites := [0xe013] } with | .ok r => Outcome.accepted r 1 | .error a => .refused a) = _
    generalize readClientHelloGM _ _ _ _ = x at this
    cases x with
    | error a => simp [seenChoice] at this
    | ok r =>
      simp only [seenChoice, Option.some.injEq, Prod.mk.injEq] at this
      simp [seen, this]
  · rw [accept_two]
    have : readClientHello { exampleConfig with minVersion := 0, sessionTicketsDisabled := true } (fun _ => none) (List.replicate 32 7)
        { exampleOffer with vers := vGMSSL, cipherSuites := [0xe013] } = .error .handshakeFailure := by rfl
    simp only [Bool.false_eq_true, if_false, this]
    rfl

end Verif.Tls.ConfigForClient
