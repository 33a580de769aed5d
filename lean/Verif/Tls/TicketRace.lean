import Verif.Tls.TicketProps
/-!
C126: the ticket keys of a `Config` that is in use. tls/common.go:604-633 (`serverInit`), 635-642 (`ticketKeys`), 649-662 (`SetSessionTicketKeys`) and the calls
`serverInitOnce.Do` (tls/handshake_server.go:42, 134, tls/common.go:563), run by any number of goroutines.

`serverInit` reads the keys under the lock, but assigns them (line 631) without it and without looking again. The steps of the model are: the check, the filling of `SessionTicketKey`, the assignment and the end of
`serverInit`; one step for each `SetSessionTicketKeys`, whose assignment is made under the lock. `sync.Once` lets one goroutine run `serverInit`, and others wait for its end. Accesses are sequentially consistent (the
unlocked assignment is a data race in Go; nothing is said about torn or delayed writes).
-/
namespace Verif.Tls.TicketRace
open Verif

/-- how far `serverInit(nil)`, run under `serverInitOnce`, has come -/
inductive Pc where
  | notCalled
  /-- 605: it goes on after the check -/
  | checked
  /-- 609-624 done: the key is there -/
  | filled
  /-- `Do` has returned -/
  | finished
deriving DecidableEq

structure St where
  cfg : TicketConfig
  pc : Pc
  /-- ghost: the keys of the last call of `SetSessionTicketKeys` -/
  lastSet : Option (List Bytes)
  /-- ghost: such a call fell between the check and the assignment -/
  raced : Bool

/-- a Config before use: the exported fields as the user set them -/
def St.fresh (disabled : Bool) (ticketKey : Bytes) : St := { cfg := ⟨disabled, ticketKey, []⟩, pc := .notCalled, lastSet := none, raced := false }

/-- 609-615: a byte of the key is not zero -/
def keySet (b : Bytes) : Bool := b.any fun x => x != 0

inductive Step (C : TicketCrypto) : St → St → Prop
  /-- 605-607: nothing to do -/
  | skip (s : St) : s.pc = .notCalled → (s.cfg.disabled = true ∨ s.cfg.keys ≠ []) → Step C s { s with pc := .finished }
  /-- 605 -/
  | check (s : St) : s.pc = .notCalled → s.cfg.disabled = false → s.cfg.keys = [] → Step C s { s with pc := .checked }
  /-- 609-615, `alreadySet` -/
  | isSet (s : St) : s.pc = .checked → keySet s.cfg.ticketKey = true → Step C s { s with pc := .filled }
  /-- 620: the random source delivers `rand` -/
  | fill (s : St) (rand : Bytes) : s.pc = .checked → keySet s.cfg.ticketKey = false → rand.length = 32 →
      Step C s { s with pc := .filled, cfg := { s.cfg with ticketKey := rand } }
  /-- 620-622: it fails (what it may have written into `SessionTicketKey` before is not represented) -/
  | noRand (s : St) : s.pc = .checked → keySet s.cfg.ticketKey = false → Step C s { s with pc := .finished, cfg := { s.cfg with disabled := true } }
  /-- 631 -/
  | assign (s : St) : s.pc = .filled → Step C s { s with pc := .finished, cfg := { s.cfg with keys := [ticketKeyFromBytes C s.cfg.ticketKey] } }
  /-- 649-662: any goroutine, at any time -/
  | set (s : St) (ks : List Bytes) (c : TicketConfig) : s.cfg.setKeys C ks = .ok c →
      Step C s { s with cfg := c, lastSet := some ks, raced := s.raced || (s.pc == .checked || s.pc == .filled) }

inductive Steps (C : TicketCrypto) : St → St → Prop
  | refl (s : St) : Steps C s s
  | tail {a b c : St} : Steps C a b → Step C b c → Steps C a c

/-- reachable with a Config that was set up with `disabled` and `ticketKey` -/
def Reach (C : TicketCrypto) (disabled : Bool) (ticketKey : Bytes) (s : St) : Prop := Steps C (St.fresh disabled ticketKey) s

/-! ### two configurations: `GetConfigForClient` -/

/-- the server's Config, and the one its `GetConfigForClient` returns for every client -/
structure Pair where
  orig : TicketConfig
  ret : TicketConfig
  origInit : Bool
  retInit : Bool

/-- what happens to them, one after the other -/
inductive Event where
  /-- a connection: tls/handshake_server.go:42, 134; what the random source delivers for the two initializations -/
  | conn (r1 r2 : Bytes)
  /-- `SetSessionTicketKeys` on the server's Config -/
  | rotate (ks : List Bytes)

/-- tls/handshake_server.go:39-42, 129-137 -/
def Pair.step (C : TicketCrypto) (p : Pair) : Event → Res Pair
  | .conn r1 r2 =>
    let o := if p.origInit then p.orig else p.orig.serverInit C r1 none
    let r := if p.retInit then p.ret else p.ret.serverInit C r2 (some o)
    .ok { orig := o, ret := r, origInit := true, retInit := true }
  | .rotate ks => do
    let o ← p.orig.setKeys C ks
    .ok { p with orig := o }

def Pair.run (C : TicketCrypto) (p : Pair) (es : List Event) : Res Pair := es.foldlM (fun p e => p.step C e) p

/-! ### proofs -/

theorem setKeys_inv {C : TicketCrypto} {c d : TicketConfig} {ks : List Bytes} (h : c.setKeys C ks = .ok d) :
    ks ≠ [] ∧ d = { c with keys := ks.map (ticketKeyFromBytes C) } := by
  rw [TicketConfig.setKeys] at h
  split at h
  · cases h
  · rename_i hn
    exact ⟨by simpa using hn, (Res.ok.inj h).symm⟩

structure Inv (C : TicketCrypto) (disabled : Bool) (ticketKey : Bytes) (s : St) : Prop where
  set : s.raced = false → ∀ ks, s.lastSet = some ks → ks ≠ [] ∧ s.cfg.keys = ks.map (ticketKeyFromBytes C)
  unset : s.lastSet = none → (s.pc ≠ .finished → s.cfg.keys = []) ∧
    (s.pc = .finished → s.cfg.disabled = false → s.cfg.keys = [ticketKeyFromBytes C s.cfg.ticketKey])
  window : s.raced = false → s.pc = .checked ∨ s.pc = .filled → s.lastSet = none
  off : disabled = true → s.cfg.disabled = true
  mid : s.pc = .checked ∨ s.pc = .filled → s.cfg.disabled = false
  start : s.pc = .notCalled → s.cfg.disabled = disabled
  key : keySet ticketKey = true → s.cfg.ticketKey = ticketKey
  some : s.pc = .finished → s.cfg.disabled = false → s.cfg.keys ≠ []

theorem inv_fresh (C : TicketCrypto) (disabled : Bool) (ticketKey : Bytes) : Inv C disabled ticketKey (St.fresh disabled ticketKey) := by
  constructor <;> simp [St.fresh]

theorem inv_step {C : TicketCrypto} {disabled : Bool} {ticketKey : Bytes} {s t : St} (h : Inv C disabled ticketKey s) (k : Step C s t) : Inv C disabled ticketKey t := by
  obtain ⟨h1, h2, h3, h4, h5, h6, h7, h8⟩ := h
  cases k with
  | set ks c hc =>
    obtain ⟨hn, rfl⟩ := setKeys_inv hc
    constructor <;> simp only [Bool.or_eq_false_iff, beq_eq_false_iff_ne] <;> grind [List.map_eq_nil_iff]
  | check hp hd hk =>
    have : s.raced = false → s.lastSet = none := by
      intro hr
      cases hl : s.lastSet with
      | none => rfl
      | some ks =>
        obtain ⟨a, b⟩ := h1 hr ks hl
        rw [hk] at b
        exact absurd (List.map_eq_nil_iff.1 b.symm) a
    constructor <;> simp only at * <;> grind
  | _ => constructor <;> simp only at * <;> grind [List.map_eq_nil_iff]

theorem inv_reach {C : TicketCrypto} {disabled : Bool} {ticketKey : Bytes} {s : St} (h : Reach C disabled ticketKey s) : Inv C disabled ticketKey s := by
  unfold Reach at h
  induction h with
  | refl => exact inv_fresh C disabled ticketKey
  | tail _ k ih => exact inv_step ih k

/-- **C126, without a race.** If no call of `SetSessionTicketKeys` falls into the first server handshake's initialization, then at every later moment the ticket keys are those of the last such call; if there was none,
tickets use the configured `SessionTicketKey`, or random bytes if that is zero. -/
theorem C126_keys_in_force_partial (C : TicketCrypto) (disabled : Bool) (ticketKey : Bytes) (s : St) (h : Reach C disabled ticketKey s) (hr : s.raced = false) (hp : s.pc = .finished) :
    (∀ ks, s.lastSet = some ks → s.cfg.keys = ks.map (ticketKeyFromBytes C)) ∧
    (s.lastSet = none → s.cfg.disabled = false → s.cfg.keys = [ticketKeyFromBytes C s.cfg.ticketKey] ∧ ((∃ b ∈ ticketKey, b ≠ 0) → s.cfg.ticketKey = ticketKey)) := by
  obtain ⟨h1, h2, h3, h4, h5, h6, h7, h8⟩ := inv_reach h
  refine ⟨fun ks hk => (h1 hr ks hk).2, fun hn hd => ⟨(h2 hn).2 hp hd, fun ⟨b, hb, hb0⟩ => h7 ?_⟩⟩
  rw [keySet, List.any_eq_true]
  exact ⟨b, hb, by simpa using hb0⟩

/-- **C126, in every schedule**: once the initialization is over a ticket is issued without a panic, unless tickets are disabled; and tickets the user disabled stay disabled. -/
theorem C126_never_panics (C : TicketCrypto) (disabled : Bool) (ticketKey : Bytes) (s : St) (h : Reach C disabled ticketKey s) :
    (s.pc = .finished → s.cfg.disabled = false → ∀ rand st, encryptTicket C s.cfg rand st ≠ .panic) ∧
    (disabled = true → ∀ t, decryptTicket C s.cfg t = none) := by
  obtain ⟨h1, h2, h3, h4, h5, h6, h7, h8⟩ := inv_reach h
  refine ⟨fun hp hd rand st => ?_, fun hd t => ?_⟩
  · rw [encryptTicket]
    split
    · simp
    · split
      · rename_i hk
        exact absurd hk (h8 hp hd)
      · simp
  · rw [decryptTicket, if_pos (.inl (h4 hd))]

/-- **C126** fails: `SetSessionTicketKeys` is documented as safe to call while the server is running, but a call during the first server handshake may be lost without a trace: the server goes on with its own key,
and refuses every ticket sealed under the keys just installed. -/
theorem C126_keys_lost_violated (C : TicketCrypto) (ticketKey : Bytes) (hz : ∃ b ∈ ticketKey, b ≠ 0) (b : Bytes) (ks : List Bytes)
    (hname : (ticketKeyFromBytes C ticketKey).keyName ≠ (ticketKeyFromBytes C b).keyName) :
    ∃ s, Reach C false ticketKey s ∧ s.pc = .finished ∧ s.lastSet = some (b :: ks) ∧ s.cfg.keys = [ticketKeyFromBytes C ticketKey] ∧
      ∀ c c1 rand st t, TicketConfig.setKeys C c (b :: ks) = .ok c1 → encryptTicket C c1 rand st = .ok t → decryptTicket C s.cfg t = none := by
  have hk : keySet ticketKey = true := by
    obtain ⟨x, h1, h2⟩ := hz
    rw [keySet, List.any_eq_true]
    exact ⟨x, h1, by simpa using h2⟩
  have h : Steps C (St.fresh false ticketKey) _ := .refl _
  replace h := h.tail (.check _ rfl rfl rfl)
  replace h := h.tail (.isSet _ rfl hk)
  replace h := h.tail (.set _ (b :: ks) _ rfl)
  replace h := h.tail (.assign _ rfl)
  refine ⟨_, h, rfl, rfl, rfl, fun c c1 rand st t h1 ht => ?_⟩
  obtain ⟨_, hc1⟩ := setKeys_inv h1
  cases hd : decryptTicket C _ t with
  | none => rfl
  | some x =>
    exfalso
    have h2 : TicketConfig.setKeys C (⟨false, ticketKey, []⟩ : TicketConfig) (b :: ks) = .ok ⟨false, ticketKey, (b :: ks).map (ticketKeyFromBytes C)⟩ := rfl
    have h3 : TicketConfig.setKeys C (⟨false, ticketKey, []⟩ : TicketConfig) [ticketKey] = .ok ⟨false, ticketKey, [ticketKeyFromBytes C ticketKey]⟩ := rfl
    have ht' : encryptTicket C ⟨false, ticketKey, (b :: ks).map (ticketKeyFromBytes C)⟩ rand st = .ok t := by
      rw [← ht, hc1]
      rfl
    have := C35_rotation_refuses C _ _ _ b ks [ticketKey] rand st t h2 ht' h3 (by simpa using hname)
    exact absurd (hd.symm.trans this) (by simp)

/-- or it leaves tickets disabled, if the random source fails in that handshake -/
theorem C126_disabled_violated (C : TicketCrypto) (ks : List Bytes) (hk : ks ≠ []) :
    ∃ s, Reach C false (List.replicate 32 0) s ∧ s.pc = .finished ∧ s.lastSet = some ks ∧ ∀ t, decryptTicket C s.cfg t = none := by
  have h : Steps C (St.fresh false (List.replicate 32 0)) _ := .refl _
  replace h := h.tail (.check _ rfl rfl rfl)
  replace h := h.tail (.set _ ks ⟨false, List.replicate 32 0, ks.map (ticketKeyFromBytes C)⟩ (by
    rw [TicketConfig.setKeys, if_neg (by simpa using hk)]
    rfl))
  replace h := h.tail (.noRand _ rfl (show keySet (List.replicate 32 0) = false by decide))
  exact ⟨_, h, rfl, rfl, fun t => by rw [decryptTicket, if_pos (.inl rfl)]⟩

/-- a schedule without a race, with a rotation before and one after -/
example (C : TicketCrypto) : ∃ s, Reach C false [1] s ∧ s.raced = false ∧ s.pc = .finished ∧ s.lastSet = some [[3], [2]] := by
  have h : Steps C (St.fresh false [1]) _ := .refl _
  replace h := h.tail (.set _ [[2]] _ rfl)
  replace h := h.tail (.skip _ rfl (.inr (List.cons_ne_nil _ _)))
  replace h := h.tail (.set _ [[3], [2]] _ rfl)
  exact ⟨_, h, rfl, rfl, rfl⟩

/-! ### `GetConfigForClient` -/

theorem run_ret {C : TicketCrypto} {es : List Event} : ∀ {p q : Pair}, p.retInit = true → p.run C es = .ok q → q.ret = p.ret := by
  induction es with
  | nil =>
    intro p q _ h
    cases h
    rfl
  | cons e es ih =>
    intro p q hp h
    obtain ⟨p', h1, h2⟩ := Res.bind_eq_ok.1 h
    cases e with
    | conn r1 r2 =>
      simp only [Pair.step, hp, if_true] at h1
      cases h1
      exact ih (p := { p with orig := if p.origInit = true then p.orig else p.orig.serverInit C r1 none, origInit := true, retInit := true }) rfl h2
    | rotate ks =>
      obtain ⟨o, _, h1⟩ := Res.bind_eq_ok.1 h1
      cases h1
      exact ih (p := { p with orig := o }) hp h2

/-- **C126** fails with `GetConfigForClient`: a Config it returns again and again takes over the server's ticket keys at its first use, and no later rotation of the server's keys reaches it: whatever happens later, tickets sealed
under the dropped keys are accepted, and new ones are sealed under them. -/
theorem C126_rotation_unseen_violated (C : TicketCrypto) (p : Pair) (hd : p.ret.disabled = false) (hk : p.ret.keys = []) (hi : p.retInit = false) (ho : p.origInit = true)
    (r1 r2 : Bytes) (es : List Event) (q : Pair) (h : p.run C (.conn r1 r2 :: es) = .ok q) :
    q.ret.keys = p.orig.keys ∧ q.ret.disabled = false ∧
      ∀ rand s t, (∀ k ∈ p.orig.keys, k.keyName.length = 16) → s.Fits → encryptTicket C p.orig rand s = .ok t →
        encryptTicket C q.ret rand s = .ok t ∧ decryptTicket C q.ret t = some { s with usedOldKey := false } := by
  obtain ⟨p', h1, h2⟩ := Res.bind_eq_ok.1 h
  simp only [Pair.step, ho, hi, if_true, Bool.false_eq_true, if_false] at h1
  cases h1
  have e := run_ret rfl h2
  have e' : q.ret.keys = p.orig.keys ∧ q.ret.disabled = false := by
    rw [e]
    dsimp only
    rw [TicketConfig.serverInit, if_neg (by simp [hd, hk])]
    dsimp only
    split <;> exact ⟨rfl, hd⟩
  refine ⟨e'.1, e'.2, fun rand s t hn hs ht => ?_⟩
  have ht' : encryptTicket C q.ret rand s = .ok t := by
    rw [← ht]
    unfold encryptTicket
    rw [e'.1]
  exact ⟨ht', C34_roundtrip C q.ret rand s t (by rw [e'.1]; exact hn) e'.2 hs ht'⟩

/-- the hypotheses are met: the keys are rotated after the first connection -/
example (C : TicketCrypto) : ∃ q, Pair.run C ⟨⟨false, [1], [ticketKeyFromBytes C [1]]⟩, ⟨false, [], []⟩, true, false⟩ [.conn [] [], .rotate [[2]], .conn [] []] = .ok q ∧
    q.orig.keys = [ticketKeyFromBytes C [2]] ∧ q.ret.keys = [ticketKeyFromBytes C [1]] := ⟨_, rfl, rfl, rfl⟩

end Verif.Tls.TicketRace
