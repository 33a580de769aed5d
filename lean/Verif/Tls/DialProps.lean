import Verif.Tls.Dial
import Verif.Tls.TicketProps
import Verif.Tls.CertNameProps
/-! C125: `Dial`, `Listen` and `Clone`. -/
namespace Verif.Tls.Dial
open Verif

/-! ### the three threads of a dial -/

@[grind] def Hs.sentN : Hs → Nat
  | .sent _ => 1
  | _ => 0

@[grind] def Timer.sentN : Timer → Nat
  | .sent => 1
  | _ => 0

/-- how many messages the caller has taken from the channel, if there is one -/
@[grind] def Main.taken : Main → Nat
  | .got _ => 1
  | .returned none => 1
  | .returned (some (.dial _)) => 0
  | .returned (some _) => 1
  | _ => 0

@[grind] def Raw.fits : Main → Raw → Prop
  | .dialing, r => r = .none
  | .returned (some (.dial _)), r => r = .none
  | .returned (some _), r => r = .closed
  | _, r => r = .opened

@[grind] def Main.early : Main → Prop
  | .dialing => True
  | .connected => True
  | .returned (some (.dial _)) => True
  | _ => False

structure Inv (s : St) : Prop where
  untimed : s.timed = false → s.timer = .off ∧ s.chan = []
  timed : s.timed = true → s.timer ≠ .off ∧ s.chan.length + s.main.taken = s.timer.sentN + s.hs.sentN
  idle : s.hs = .idle ↔ s.main.early
  raw : Raw.fits s.main s.raw
  hsErr : ∀ e, s.hs = .ended (some e) ∨ s.hs = .sent (some e) → ∃ m, e = .handshake m
  calling : s.main = .handshaking → s.timed = false ∧ s.hs.sentN = 0
  waiting : s.main = .waiting → s.timed = true
  chan : ∀ e ∈ s.chan, (e = some .timeout ∧ s.timer = .sent) ∨ s.hs = .sent e
  got : ∀ e, s.main = .got e ∨ s.main = .returned e → (e = some .timeout ∧ s.timer = .sent) ∨ s.hs = .sent e ∨ ∃ m, s.main = .returned (some (.dial m))

theorem inv_start (timed : Bool) : Inv (St.start timed) := by
  constructor <;> cases timed <;> simp [St.start, Main.taken, Timer.sentN, Hs.sentN, Main.early, Raw.fits]

theorem inv_step {s t : St} (h : Inv s) (k : Step s t) : Inv t := by
  obtain ⟨h1, h2, h3, h4, h5, h6, h7, h8, h9⟩ := h
  cases k with
  | fail e hm =>
    have : e = .timeout ∨ ∃ m, e = .handshake m := by grind
    rcases this with rfl | ⟨m, rfl⟩ <;> constructor <;> simp only [Main.taken, Raw.fits, Main.early] <;> grind
  | _ => constructor <;> simp only [List.length_append, List.length_cons, List.length_nil, List.mem_append, List.mem_singleton] at * <;> grind

theorem inv_steps {s t : St} (h : Inv s) (k : Steps s t) : Inv t := by
  induction k with
  | refl => exact h
  | tail _ k ih => exact inv_step ih k

theorem inv_reach {s : St} (h : Reach s) : Inv s := by
  obtain ⟨timed, h⟩ := h
  exact inv_steps (inv_start timed) h

/-- **C125, success.** If `DialWithDialer` returns a connection, the handshake on it returned nil, and the network connection has not been closed. -/
theorem C125_success (s : St) (h : Reach s) (hr : s.main = .returned none) : s.hs = .sent none ∧ s.raw = .opened := by
  obtain ⟨h1, h2, h3, h4, h5, h6, h7, h8, h9⟩ := inv_reach h
  rw [hr] at h4
  have := h9 none (.inr hr)
  rw [hr] at this
  simp only [reduceCtorEq, false_and, false_or, Main.returned.injEq, exists_const, or_false] at this
  exact ⟨this, h4⟩

/-- **C125, failure.** If it returns an error, then either no connection was made, or the connection has been closed; the error is that of `dialer.Dial`, the timeout, which then has passed, or the one
of the handshake. -/
theorem C125_failure (s : St) (h : Reach s) (e : Err) (hr : s.main = .returned (some e)) :
    (s.raw = .none ∧ s.hs = .idle ∧ ∃ m, e = .dial m) ∨
    (s.raw = .closed ∧ (e = .timeout ∧ s.timed = true ∧ s.timer = .sent ∨ s.hs = .sent (some e) ∧ ∃ m, e = .handshake m)) := by
  obtain ⟨h1, h2, h3, h4, h5, h6, h7, h8, h9⟩ := inv_reach h
  rw [hr] at h3 h4
  cases e with
  | dial m => exact .inl ⟨h4, h3.2 trivial, m, rfl⟩
  | timeout =>
    refine .inr ⟨h4, .inl ⟨rfl, ?_, ?_⟩⟩ <;> grind
  | handshake m =>
    refine .inr ⟨h4, .inr ⟨?_, m, rfl⟩⟩
    grind

/-- **C125, no thread is left behind.** Neither the timer nor the goroutine of the handshake ever waits at the channel, not even after `DialWithDialer` has returned: once the handshake ends its goroutine ends. -/
theorem C125_never_blocked (s : St) (h : Reach s) :
    (s.timer = .armed → ∃ t, Step s t ∧ t.timer = .sent) ∧ (∀ e, s.hs = .ended e → ∃ t, Step s t ∧ t.hs = .sent e) := by
  obtain ⟨h1, h2, h3, h4, h5, h6, h7, h8, h9⟩ := inv_reach h
  refine ⟨fun ht => ⟨_, .fire s ht (by cases hs : s.hs <;> grind), rfl⟩, fun e he => ?_⟩
  cases ht : s.timed with
  | true => exact ⟨_, .hsSends s e ht he (by cases hs : s.timer <;> grind), rfl⟩
  | false =>
    have hm : s.main = .handshaking := by
      cases hm : s.main with
      | handshaking => rfl
      | got e' => have := h9 e' (.inl hm); grind
      | returned e' => have := h9 e' (.inr hm); grind
      | _ => grind
    exact ⟨_, .hsReturns s e hm he, rfl⟩

/-- **C125, the timeout.** While `DialWithDialer` waits for the handshake under a timeout, the timer alone is enough to make it return: the peer cannot keep it waiting. -/
theorem C125_timeout_ends (s : St) (h : Reach s) (hw : s.main = .waiting) : ∃ t r, Steps s t ∧ t.main = .returned r ∧ t.hs = s.hs := by
  obtain ⟨h1, h2, h3, h4, h5, h6, h7, h8, h9⟩ := inv_reach h
  have ht := h7 hw
  obtain ⟨s', hs', hm', hh', hc'⟩ : ∃ s', Steps s s' ∧ s'.main = .waiting ∧ s'.hs = s.hs ∧ s'.chan ≠ [] := by
    cases hc : s.chan with
    | cons e r => exact ⟨s, .refl s, hw, rfl, by simp [hc]⟩
    | nil =>
      have : s.timer = .armed := by cases hs : s.timer <;> grind
      exact ⟨_, (Steps.refl s).tail (.fire s this (by simp [hc])), hw, rfl, by simp⟩
  cases hc : s'.chan with
  | nil => exact absurd hc hc'
  | cons e r =>
    have k := hs'.tail (.recv s' e r hm' hc)
    cases e with
    | none => exact ⟨_, none, k.tail (.succeed _ rfl), rfl, hh'⟩
    | some e => exact ⟨_, some e, k.tail (.fail _ e rfl), rfl, hh'⟩

/-- **C125, without a timeout** the call returns what the handshake returns. -/
theorem C125_untimed (s : St) (h : Reach s) (ht : s.timed = false) (r : Option Err) (hr : s.main = .returned r) :
    s.hs = .sent r ∨ s.hs = .idle ∧ ∃ m, r = some (.dial m) := by
  cases r with
  | none => exact .inl (C125_success s h hr).1
  | some e =>
    rcases C125_failure s h e hr with ⟨_, h1, m, h2⟩ | ⟨_, ⟨_, h1, _⟩ | ⟨h1, _⟩⟩
    · exact .inr ⟨h1, m, by rw [h2]⟩
    · rw [ht] at h1; cases h1
    · exact .inl h1

/-- every outcome is reachable: success, a timeout after which the handshake still ends, a failed handshake, a failed dial -/
example : (∃ s, Reach s ∧ s.main = .returned none ∧ s.timed = true) ∧ (∃ s, Reach s ∧ s.main = .returned (some .timeout) ∧ s.hs = .sent none) ∧
    (∃ s, Reach s ∧ s.main = .returned (some (.handshake "x")) ∧ s.timed = false) ∧ ∃ s, Reach s ∧ s.main = .returned (some (.dial "x")) := by
  refine ⟨?_, ?_, ?_, ?_⟩
  · have h : Steps (St.start true) _ := .refl _
    replace h := h.tail (.dialOk _ rfl)
    replace h := h.tail (.spawn _ rfl rfl)
    replace h := h.tail (.hsOk _ rfl)
    replace h := h.tail (.hsSends _ none rfl rfl (by decide))
    replace h := h.tail (.recv _ none [] rfl rfl)
    replace h := h.tail (.succeed _ rfl)
    exact ⟨_, ⟨true, h⟩, rfl, rfl⟩
  · have h : Steps (St.start true) _ := .refl _
    replace h := h.tail (.dialOk _ rfl)
    replace h := h.tail (.spawn _ rfl rfl)
    replace h := h.tail (.fire _ rfl (by decide))
    replace h := h.tail (.hsOk _ rfl)
    replace h := h.tail (.hsSends _ none rfl rfl (by decide))
    replace h := h.tail (.recv _ (some .timeout) [none] rfl rfl)
    replace h := h.tail (.fail _ .timeout rfl)
    exact ⟨_, ⟨true, h⟩, rfl, rfl⟩
  · have h : Steps (St.start false) _ := .refl _
    replace h := h.tail (.dialOk _ rfl)
    replace h := h.tail (.call _ rfl rfl)
    replace h := h.tail (.hsFails _ "x" rfl)
    replace h := h.tail (.hsReturns _ _ rfl rfl)
    replace h := h.tail (.fail _ _ rfl)
    exact ⟨_, ⟨false, h⟩, rfl, rfl⟩
  · have h : Steps (St.start false) _ := .refl _
    replace h := h.tail (.dialFails _ "x" rfl)
    exact ⟨_, ⟨false, h⟩, rfl⟩

/-- **C125, the time allowed** is the least of the timeout, if there is one, and the time to the deadline, if there is one. It counts as "no timeout" if neither is given, and also if the deadline is this very instant. -/
theorem C125_time_allowed (timeout : Int) (deadline : Option Int) (now : Int) (ht : 0 ≤ timeout) :
    (∀ d, deadline = some d → effTimeout timeout deadline now ≤ d - now) ∧ (timeout ≠ 0 → effTimeout timeout deadline now ≤ timeout) ∧
      (effTimeout timeout deadline now = timeout ∨ ∃ d, deadline = some d ∧ effTimeout timeout deadline now = d - now) ∧
      (effTimeout timeout deadline now = 0 ↔ (timeout = 0 ∧ deadline = none) ∨ deadline = some now) := by
  cases deadline with
  | none => simp [effTimeout]
  | some d =>
    simp only [effTimeout, Option.some.injEq, forall_eq', exists_eq_left', reduceCtorEq, and_false, false_or]
    split <;> omega

/-! ### the name of the server -/

theorem beforeLastColon_none {b : Bytes} : beforeLastColon b = none ↔ (0x3a : Byte) ∉ b := by
  induction b with
  | nil => simp [beforeLastColon]
  | cons x r ih =>
    unfold beforeLastColon
    cases h : beforeLastColon r with
    | none =>
      have := ih.1 h
      by_cases hx : x = 0x3a
      · simp [hx]
      · simp only [if_neg hx, List.mem_cons, true_iff, not_or]
        exact ⟨Ne.symm hx, this⟩
    | some y =>
      have : ¬ (0x3a : Byte) ∉ r := fun hn => by rw [ih.2 hn] at h; cases h
      simp only [reduceCtorEq, List.mem_cons, not_or, false_iff, not_and]
      exact fun _ => this

theorem beforeLastColon_some (host port : Bytes) (hp : (0x3a : Byte) ∉ port) : beforeLastColon (host ++ 0x3a :: port) = some host := by
  induction host with
  | nil =>
    show (match beforeLastColon port with
      | some h => some (0x3a :: h)
      | none => if (0x3a : Byte) = 0x3a then some [] else none) = some []
    rw [beforeLastColon_none.2 hp]
    rfl
  | cons x r ih =>
    show (match beforeLastColon (r ++ 0x3a :: port) with
      | some h => some (x :: h)
      | none => if x = 0x3a then some [] else none) = some (x :: r)
    rw [ih]

/-- **C125, the name.** The name the server is asked to prove is the configured one; if none is configured it is the part of the address before its last colon, or all of it if there is no colon. -/
theorem C125_server_name (configured addr : Bytes) :
    (configured ≠ [] → serverName configured addr = configured) ∧
    (∀ host port, addr = host ++ 0x3a :: port → (0x3a : Byte) ∉ port → serverName [] addr = host) ∧
    ((0x3a : Byte) ∉ addr → serverName [] addr = addr) := by
  refine ⟨fun h => ?_, fun host port h hp => ?_, fun h => ?_⟩
  · have : configured.length ≠ 0 := by simpa using h
    rw [serverName, if_neg this]
  · rw [serverName, if_pos List.length_nil, hostname, h, beforeLastColon_some host port hp]
    rfl
  · rw [serverName, if_pos List.length_nil, hostname, beforeLastColon_none.2 h]
    rfl

/-- **C125**: without a host in the address and without a configured name no handshake starts, unless verification is switched off: neither kind of client sends a hello. -/
theorem C125_no_name_no_handshake (c : Config) (hv : c.insecureSkipVerify = false) (port : Bytes) (hp : (0x3a : Byte) ∉ port) (sni rand : Bytes)
    (hn : c.serverName = serverName [] (0x3a :: port)) : makeClientHello c sni rand = .error .none ∧ makeClientHelloGM c rand = .error .none := by
  have : c.serverName = [] := by
    rw [hn]
    exact (C125_server_name [] (0x3a :: port)).2.1 [] port rfl hp
  constructor
  · simp [makeClientHello, this, hv]
  · simp [makeClientHelloGM, this, hv]

/-! ### copies of a configuration -/

/-- **C125, copies.** `Clone` copies every setting; the copy shares the ticket keys: a session ticket sealed under either opens under the other, and a later start of a server with the copy changes nothing (unless tickets are disabled). -/
theorem C125_clone {Pub : Type} (C : TicketCrypto) (c : Cfg Pub) (rand : Bytes) :
    (c.clone C rand).2.pub = c.pub ∧ (c.clone C rand).1.pub = c.pub ∧ (c.clone C rand).2.tickets = (c.clone C rand).1.tickets ∧
      (∀ enc, decryptTicket C (c.clone C rand).1.tickets enc = decryptTicket C (c.clone C rand).2.tickets enc) ∧
      (∀ r s, encryptTicket C (c.clone C rand).1.tickets r s = encryptTicket C (c.clone C rand).2.tickets r s) ∧
      (∀ rand', ((c.clone C rand).2.init C rand').tickets = (c.clone C rand).2.tickets ∨ (c.clone C rand).2.tickets.keys = []) := by
  have hp : (c.init C rand).pub = c.pub := by
    unfold Cfg.init
    split <;> rfl
  refine ⟨hp, hp, rfl, fun _ => rfl, fun _ _ => rfl, fun rand' => ?_⟩
  by_cases hk : (c.clone C rand).2.tickets.keys = []
  · exact .inr hk
  · left
    show (if false = true then _ else _ : Cfg Pub).tickets = _
    rw [if_neg (by simp)]
    show (c.clone C rand).2.tickets.serverInit C rand' none = _
    rw [TicketConfig.serverInit, if_pos (.inr (by simpa using hk))]

/-- **C125** fails: "the tls package will not modify" a Config, says its documentation, and `DialWithDialer` copies it "to avoid polluting" it. But a dial with a Config without `ServerName` and without ticket
keys fills in the caller's `SessionTicketKey` with random bytes, or, if there is no randomness, disables the caller's session tickets. -/
theorem C125_argument_modified_violated {Pub : Type} (C : TicketCrypto) (name : Pub → Bytes) (setName : Bytes → Pub → Pub) (addr : Bytes) (c : Cfg Pub) (rand : Bytes)
    (hn : name c.pub = []) (h0 : c.initDone = false) (hd : c.tickets.disabled = false) (hk : c.tickets.keys = []) (hz : ∀ b ∈ c.tickets.ticketKey, b = 0) :
    (32 ≤ rand.length → (dialConfig C name setName addr c rand).1.tickets.ticketKey = rand.take 32) ∧
    (rand.length < 32 → (dialConfig C name setName addr c rand).1.tickets.disabled = true) := by
  have ha : c.tickets.ticketKey.any (fun b => b != 0) = false := by
    rw [List.any_eq_false]
    intro b hb
    simp [hz b hb]
  have e : (dialConfig C name setName addr c rand).1.tickets = c.tickets.serverInit C rand none := by
    unfold dialConfig Cfg.clone Cfg.init
    rw [if_pos (by simp [hn]), if_neg (by simp [h0])]
  rw [e, TicketConfig.serverInit, if_neg (by simp [hd, hk])]
  dsimp only
  rw [ha]
  constructor
  · intro h
    rw [if_neg (by simp), if_neg (by omega)]
  · intro h
    rw [if_neg (by simp), if_pos h]

/-- what does hold: everything else in the caller's configuration is as before, all of it if it names a server; and the connection uses the caller's settings with the name filled in -/
theorem C125_argument_partial {Pub : Type} (C : TicketCrypto) (name : Pub → Bytes) (setName : Bytes → Pub → Pub) (addr : Bytes) (c : Cfg Pub) (rand : Bytes) :
    (dialConfig C name setName addr c rand).1.pub = c.pub ∧ (name c.pub ≠ [] → dialConfig C name setName addr c rand = (c, c)) ∧
      (name c.pub = [] → (dialConfig C name setName addr c rand).2.pub = setName (serverName [] addr) c.pub) := by
  have hp : (c.init C rand).pub = c.pub := by
    unfold Cfg.init
    split <;> rfl
  refine ⟨?_, fun h => ?_, fun h => ?_⟩
  · unfold dialConfig
    split
    · exact hp
    · rfl
  · have : (name c.pub).length ≠ 0 := by simpa using h
    rw [dialConfig, if_neg this]
  · rw [dialConfig, if_pos (by simp [h])]
    show setName (hostname addr) (c.init C rand).pub = _
    rw [hp, serverName, if_pos List.length_nil]

/-- the hypotheses are met -/
example : (dialConfig toyCrypto (fun p : Bytes => p) (fun n _ => n) [0x61, 0x3a, 0x31] ⟨[], ⟨false, List.replicate 32 0, []⟩, false⟩ (List.replicate 32 7)).1.tickets.ticketKey =
    List.replicate 32 7 := by decide

/-! ### Listen -/

/-- **C125, Listen.** A configuration is accepted if and only if it has a certificate or the callback; without the callback an accepted configuration has a certificate for every client. -/
theorem C125_listen (c : Option Config) : (listenAccepts c = true ↔ ∃ d, c = some d ∧ (d.certificates ≠ [] ∨ d.getCertificate ≠ none)) ∧
    (∀ d, c = some d → listenAccepts c = true → d.getCertificate = none → ∀ ch, d.selectCertificate ch ≠ none) := by
  constructor
  · cases c with
    | none => simp [listenAccepts]
    | some d =>
      cases hd : d.certificates <;> cases hg : d.getCertificate <;> simp [listenAccepts, hd, hg]
  · rintro d rfl h hg ch
    unfold listenAccepts at h
    unfold Config.selectCertificate
    rw [hg]
    dsimp only
    cases hd : d.certificates with
    | nil => simp [hd, hg] at h
    | cons x r =>
      cases r with
      | nil => simp
      | cons y r =>
        dsimp only
        cases d.nameToCertificate with
        | none => simp
        | some m =>
          dsimp only
          cases m (stripTrailingDots (d.toLower ch.serverName)) with
          | some _ => simp
          | none => cases wildcardLoop m [] (splitDots (stripTrailingDots (d.toLower ch.serverName))) <;> simp

/-- **C125** fails for GM servers: `Listen` accepts a configuration with the callback only, or with one certificate, and the GM server then answers no client at all. -/
theorem C125_listen_gm_violated (d : Config) (h : d.certificates.length = 1 ∨ d.certificates = [] ∧ d.getCertificate ≠ none) :
    listenAccepts (some d) = true ∧ ∀ dec rand ch r, readClientHelloGM d dec rand ch ≠ .ok r := by
  constructor
  · rw [(C125_listen (some d)).1]
    refine ⟨d, rfl, ?_⟩
    rcases h with h | h
    · left
      intro h'
      rw [h'] at h
      simp at h
    · exact .inr h.2
  · intro dec rand ch r hr
    have := (readClientHelloGM_inv hr).2.2.1
    rcases h with h | h
    · omega
    · rw [h.1] at this
      simp at this

end Verif.Tls.Dial
