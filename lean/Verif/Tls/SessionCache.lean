import Verif.Tls.Lru
import Verif.Tls.HsRun
/-!
Clients that share one session cache: which session each of them offers, and whose identity a resumed connection reports: `C146`.

A history is any interleaving of the beginnings and the ends of any number of handshakes; what the servers send is arbitrary.
-/
namespace Verif.Tls
open Verif Verif.Tls.Wire

instance : Inhabited SavedSession := ⟨⟨[], 0, 0, [], [], []⟩⟩

/-- a handshake about to begin. `Z` is what `clientHandshake` has made at tls/handshake_client.go:119 (`Z.session` is not read), `c` the connection, `addr`
`c.conn.RemoteAddr().String()`, `cache` says that `config.ClientSessionCache` is set (to the shared cache), `sid` are the bytes read for the session id, `rk` and `rs`
the randomness of key exchange and signature. -/
structure Dial where
  Z : ClientStart
  c : Conn
  addr : Bytes
  cache : Bool
  sid : Bytes
  rk : Bytes
  rs : Bytes

/-- `sessionCache != nil`: tls/handshake_client.go:123-126 -/
def Dial.useCache (D : Dial) : Bool := D.cache && !D.Z.cfg.sessionTicketsDisabled

/-- `clientSessionCacheKey`: tls/handshake_client.go:844-849 -/
def Dial.cacheKey (D : Dial) : Bytes := if 0 < D.Z.S.serverName.length then D.Z.S.serverName else D.addr

/-- the variable `cacheKey` when the handshake is over: it is assigned only in a first handshake: tls/handshake_client.go:122, 137 -/
def Dial.putKey (D : Dial) : Bytes := if D.useCache && D.Z.conn.handshakes = 0 then D.cacheKey else []

/-- the session offered, given the cache's answer: tls/handshake_client.go:139-156 -/
def Dial.offer (D : Dial) : Option SavedSession → Option SavedSession
  | none => none
  | some s =>
    let suiteOk := D.Z.hello.cipherSuites.contains s.suite
    let versOk := decide (D.Z.cfg.effMin.toNat ≤ s.vers.toNat) && decide (s.vers.toNat ≤ D.Z.cfg.effMax.toNat)
    if versOk && suiteOk then some s else none

/-- the handshake as it starts, given the cache's answer: tls/handshake_client.go:128-168 -/
def Dial.startWith (D : Dial) (cached : Option SavedSession) : ClientStart :=
  let hello := if D.useCache then { D.Z.hello with ticketSupported := true } else D.Z.hello
  match D.offer cached with
  | some s => { D.Z with session := some s, hello := { hello with sessionTicket := s.ticket, sessionId := D.sid } }
  | none => { D.Z with session := none, hello := hello }

/-- the new session, if a ticket came: tls/handshake_client.go:693-700, tls/gm_handshake_client_double.go:540-547 -/
def ClientEnd.saved (r : ClientEnd) : Option SavedSession :=
  r.ticket.map fun t => { ticket := t, vers := r.S.vers, suite := r.S.suite.id, master := r.master, certs := r.certs, chains := r.chains }

/-- the calls made so far to the cache, what each handshake that has begun started with, and how each one that returned nil ended -/
structure World where
  ops : List (Lru.Op SavedSession) := []
  start : Nat → Option ClientStart := fun _ => none
  done : Nat → Option ClientEnd := fun _ => none

/-- the result of the last call, a `Get`, of a history of calls on a fresh cache of this capacity (tls/common.go:855-906) -/
def cacheAnswer (cap : Int) (ops : List (Lru.Op SavedSession)) (k : Bytes) : Option SavedSession :=
  match Lru.run (Lru.new cap) (ops ++ [.get k]) with
  | some (r, _) => r.getLast?.join
  | none => none

/-- the beginning of `clientHandshake`, to the handshake proper: tls/handshake_client.go:121-169 -/
def World.begin (w : World) (cap : Int) (i : Nat) (D : Dial) : World :=
  if D.useCache && D.Z.conn.handshakes = 0 then
    { w with ops := w.ops ++ [.get D.cacheKey], start := fun j => if j = i then some (D.startWith (cacheAnswer cap w.ops D.cacheKey)) else w.start j }
  else { w with start := fun j => if j = i then some (D.startWith none) else w.start j }

/-- the end of `clientHandshake`, after a handshake that went well: tls/handshake_client.go:178-198 -/
def World.finish (w : World) (i : Nat) (D : Dial) (r : ClientEnd) : World where
  ops := w.ops ++ (if D.useCache then (match r.saved with | some s => [.put D.putKey s] | none => []) else [])
  start := w.start
  done := fun j => if j = i then some r else w.done j

namespace Spec

/-- the handshake `D`, started as `Z`, returned nil with the result `r` -/
def Completed (P : Prims) (K : KaEnv) (D : Dial) (Z : ClientStart) (r : Tls.ClientEnd) : Prop :=
  ∃ (c' : Conn) (o : HsOut Tls.ClientEnd), D.c.handshake ((clientProg K Z D.rk D.rs).asHandshake P Z.S.gm) = .ok (none, c') ∧
    (clientProg K Z D.rk D.rs).run P Z.S.gm D.c = .ok o ∧ o.result = .done r

/-- what can happen when the handshakes `D 0`, `D 1`, ... share a cache of capacity `cap`. A handshake that fails makes no call and so no step. -/
inductive Reach (P : Prims) (K : KaEnv) (cap : Int) (D : Nat → Dial) : World → Prop where
  | init : Reach P K cap D {}
  | begin {w : World} (h : Reach P K cap D w) (i : Nat) (hs : w.start i = none) : Reach P K cap D (w.begin cap i (D i))
  | finish {w : World} (h : Reach P K cap D w) (i : Nat) (Z : ClientStart) (r : Tls.ClientEnd) (hs : w.start i = some Z) (hd : w.done i = none)
      (hc : Completed P K (D i) Z r) : Reach P K cap D (w.finish i (D i) r)

/-- a first handshake as the library makes it: a fresh connection, and the signature algorithms it lists -/
structure First (D : Dial) : Prop where
  first : D.Z.conn.handshakes = 0
  fresh : D.Z.S.previous = none ∧ D.c.handshakeErr = none ∧ D.c.handshakeComplete = false
  ren : D.Z.S.renegotiation = D.c.ren
  sigAlgs : ∀ a ∈ D.Z.hello.supportedSignatureAlgorithms, a ∈ supportedSignatureAlgorithms
  dual : D.Z.S.gm = true → D.Z.S.single = false

/-- the certificates and chains are those a client of this configuration accepts from a server in a full handshake: see `StdServerOk` and `GmServerOk` -/
def Vouched (K : KaEnv) (S : ClientHs) (certs : List X509.Cert) (chains : List (List X509.Cert)) : Prop :=
  ∃ sent : List Bytes, (S.gm = false ∧ StdServerOk K.auth S sent certs chains) ∨ (S.gm = true ∧ GmServerOk K.auth S sent certs chains)

/-- a first and full handshake of this history, filed under this name or address, from which the identity and the secret come -/
def Source (K : KaEnv) (D : Nat → Dial) (w : World) (key : Bytes) (master : Bytes) (certs : List X509.Cert) (chains : List (List X509.Cert)) : Prop :=
  ∃ (j : Nat) (r : Tls.ClientEnd), w.done j = some r ∧ r.resumed = none ∧ First (D j) ∧ (D j).cacheKey = key ∧
    master = r.master ∧ certs = r.certs ∧ chains = r.chains ∧ Vouched K (D j).Z.S certs chains
end Spec

/-! ### the cache answers with what was put under the same key -/

namespace Lru
variable {V : Type}

theorem spec_mem (cap : Nat) (ops : List (Op V)) (s : List (Bytes × V)) (p : Bytes × V) (h : p ∈ (Spec.run cap s ops).2) : p ∈ s ∨ Op.put p.1 p.2 ∈ ops := by
  induction ops generalizing s with
  | nil => exact .inl h
  | cons op t ih =>
    have hrem : ∀ k (v : V), p ∈ (k, v) :: Spec.remove s k → p = (k, v) ∨ p ∈ s := by
      intro k v hp
      rcases List.mem_cons.1 hp with hp | hp
      · exact .inl hp
      · exact .inr (List.mem_of_mem_filter hp)
    cases op with
    | put k v =>
      rcases ih (Spec.put cap s k v) h with h | h
      · rcases hrem k v (List.mem_of_mem_take h) with rfl | h
        · exact .inr (by simp)
        · exact .inl h
      · exact .inr (by simp [h])
    | get k =>
      rcases ih (Spec.get s k).2 h with h | h
      · unfold Spec.get at h
        split at h
        · rename_i v hv
          rcases hrem k v h with rfl | h
          · left
            unfold Spec.lookup at hv
            obtain ⟨q, hq, rfl⟩ := Option.map_eq_some_iff.1 hv
            have h1 := List.mem_of_find?_eq_some hq
            have h2 := List.find?_some hq
            simp only [decide_eq_true_eq] at h2
            rw [← h2]
            exact h1
          · exact .inl h
        · exact .inl h
      · exact .inr (by simp [h])
end Lru

theorem cacheAnswer_put {cap : Int} {ops : List (Lru.Op SavedSession)} {k : Bytes} {s : SavedSession} (h : cacheAnswer cap ops k = some s) :
    Lru.Op.put k s ∈ ops := by
  unfold cacheAnswer at h
  obtain ⟨c', e⟩ := Lru.C36_refines_lru cap (ops ++ [.get k])
  rw [e] at h
  dsimp only at h
  rw [Lru.run_append] at h
  generalize hs : (Lru.Spec.run (if cap < 1 then 64 else cap.toNat) [] ops).2 = st at h
  have e2 : (Lru.Spec.run (if cap < 1 then 64 else cap.toNat) st [Lru.Op.get k]).1 = [Lru.Spec.lookup st k] := by
    simp only [Lru.Spec.run, Lru.Spec.get]
    cases Lru.Spec.lookup st k <;> rfl
  rw [e2] at h
  have h : Lru.Spec.lookup st k = some s := by simpa using h
  unfold Lru.Spec.lookup at h
  obtain ⟨q, hq, rfl⟩ := Option.map_eq_some_iff.1 h
  have h1 := List.mem_of_find?_eq_some hq
  have h2 := List.find?_some hq
  simp only [decide_eq_true_eq] at h2
  rw [← hs] at h1
  rcases Lru.spec_mem _ _ _ _ h1 with h1 | h1
  · simp at h1
  · rw [h2] at h1; exact h1

theorem cacheAnswer_newest {cap : Int} (before between : List (Lru.Op SavedSession)) (k : Bytes) (s : SavedSession) (hno : ∀ x, Lru.Op.put k x ∉ between)
    (hfew : (Lru.others k between).length < (if cap < 1 then 64 else cap.toNat)) : cacheAnswer cap (before ++ .put k s :: between) k = some s := by
  obtain ⟨r, c', e, h⟩ := Lru.C36_retention cap before between k s hno hfew
  unfold cacheAnswer
  rw [e]
  simp [h]

theorem offer_some {D : Dial} {c : Option SavedSession} {s : SavedSession} (h : D.offer c = some s) : c = some s := by
  cases c with
  | none => cases h
  | some x =>
    simp only [Dial.offer] at h
    split at h
    · exact h
    · cases h

theorem startWith_session {D : Dial} {c : Option SavedSession} : (D.startWith c).session = D.offer c := by
  cases h : D.offer c <;> simp [Dial.startWith, h]

theorem startWith_S {D : Dial} {c : Option SavedSession} : (D.startWith c).S = D.Z.S := by
  cases h : D.offer c <;> simp [Dial.startWith, h]

theorem startWith_sigAlgs {D : Dial} {c : Option SavedSession} : (D.startWith c).hello.supportedSignatureAlgorithms = D.Z.hello.supportedSignatureAlgorithms := by
  cases h : D.offer c <;> cases hu : D.useCache <;> simp [Dial.startWith, h, hu]

/-! ### C146 -/

/-- what every history keeps -/
structure CacheInv (K : KaEnv) (D : Nat → Dial) (w : World) : Prop where
  ops : ∀ k s, Lru.Op.put k s ∈ w.ops → k ≠ [] → Spec.Source K D w k s.master s.certs s.chains
  start : ∀ i Z, w.start i = some Z → ∃ cached, Z = (D i).startWith cached ∧ ∀ s, cached = some s → Lru.Op.put (D i).cacheKey s ∈ w.ops
  done : ∀ i r, w.done i = some r → (D i).Z.conn.handshakes = 0 → (D i).cacheKey ≠ [] → Spec.Source K D w (D i).cacheKey r.master r.certs r.chains

theorem source_mono {K : KaEnv} {D : Nat → Dial} {w w' : World} {k m : Bytes} {a : List X509.Cert} {b : List (List X509.Cert)}
    (h : Spec.Source K D w k m a b) (hd : ∀ j r, w.done j = some r → w'.done j = some r) : Spec.Source K D w' k m a b := by
  obtain ⟨j, r, h1, h2⟩ := h
  exact ⟨j, r, hd j r h1, h2⟩

/-- one completed first handshake: full, with a server that was vouched for, or resumed -/
theorem completed_cases {P : Prims} {K : KaEnv} {D : Dial} {cached : Option SavedSession} {r : ClientEnd} (F : Spec.First D)
    (h : Spec.Completed P K D (D.startWith cached) r) :
    (r.resumed = none ∧ Spec.Vouched K D.Z.S r.certs r.chains) ∨
    (∃ s, cached = some s ∧ r.resumed = some s ∧ r.master = s.master ∧ r.certs = s.certs ∧ r.chains = s.chains) := by
  obtain ⟨c', o, hh, hr, hdone⟩ := h
  obtain ⟨h1, h2, h3⟩ := F.fresh
  cases hg : D.Z.S.gm with
  | false =>
    obtain ⟨r', sh, ch, items, sent, R, _, hS, hc⟩ := C135_standard P K (D.startWith cached) D.rk D.rs D.c c' (by rw [startWith_S]; exact hg) (by rw [startWith_S]; exact h1)
      (by rw [startWith_S]; exact F.ren) (by rw [startWith_sigAlgs]; exact F.sigAlgs) h2 h3 hh
    obtain ⟨o', e1, e2, -⟩ := R.ran
    rw [hr] at e1
    obtain rfl := Res.ok.inj e1
    rw [hdone] at e2
    obtain rfl := HsEnd.done.inj e2
    rcases hc with ⟨hn, mid, Fl, G, Dn, fb, _, hok, _⟩ | ⟨_, s, hs, hres, hR⟩
    · left
      generalize Fl.cert.1.certificates = cs at hok
      refine ⟨hn, cs, .inl ⟨hg, ?_⟩⟩
      rw [hS] at hok
      have hk : ∀ (S : ClientHs), S = (D.startWith cached).S → Spec.StdServerOk K.auth S cs r.certs r.chains := by
        rintro _ rfl
        exact ⟨hok.parsed, hok.some, hok.verified, hok.unverified, hok.callback, hok.key⟩
      exact hk _ startWith_S.symm
    · right
      rw [startWith_session] at hs
      exact ⟨s, offer_some hs, hres, hR.1, hR.2.1, hR.2.2.1⟩
  | true =>
    obtain ⟨r', sh, ch, items, sent, R, _, hS, hc⟩ := C135_gm_partial P K (D.startWith cached) D.rk D.rs D.c c' (by rw [startWith_S]; exact hg)
      (by rw [startWith_S]; exact F.dual hg) (by rw [startWith_S]; exact h1) (by rw [startWith_S]; exact F.ren) h2 h3 hh
    obtain ⟨o', e1, e2, -⟩ := R.ran
    rw [hr] at e1
    obtain rfl := Res.ok.inj e1
    rw [hdone] at e2
    obtain rfl := HsEnd.done.inj e2
    rcases hc with ⟨hn, mid, Fl, G, Dn, fb, sg, en, pre, _, hok, _⟩ | ⟨_, s, hs, hres, hR⟩
    · left
      generalize Fl.cert.1.certificates = cs at hok
      refine ⟨hn, cs, .inr ⟨hg, ?_⟩⟩
      rw [hS] at hok
      have hk : ∀ (S : ClientHs), S = (D.startWith cached).S → Spec.GmServerOk K.auth S cs r.certs r.chains := by
        rintro _ rfl
        exact ⟨hok.parsed, hok.two, hok.sm2, hok.signing, hok.encrypting, hok.verified, hok.unverified, hok.callback⟩
      exact hk _ startWith_S.symm
    · right
      rw [startWith_session] at hs
      exact ⟨s, offer_some hs, hres, hR.1, hR.2.1, hR.2.2.1⟩

theorem reach_inv {P : Prims} {K : KaEnv} {cap : Int} {D : Nat → Dial} (hD : ∀ i, (D i).Z.conn.handshakes = 0 → Spec.First (D i)) {w : World}
    (h : Spec.Reach P K cap D w) : CacheInv K D w := by
  induction h with
  | init => exact ⟨by simp, by simp, by simp⟩
  | @begin w h i hs ih =>
    unfold World.begin
    split
    · refine ⟨?_, ?_, ?_⟩
      · intro k s hm hk
        have hm : Lru.Op.put k s ∈ w.ops := by simpa using hm
        exact source_mono (ih.ops k s hm hk) (fun _ _ h => h)
      · intro j Z hj
        dsimp only at hj ⊢
        split at hj
        · rename_i e
          subst e
          refine ⟨_, (Option.some.inj hj).symm, ?_⟩
          intro s hc
          exact List.mem_append_left _ (cacheAnswer_put hc)
        · obtain ⟨c, e1, e2⟩ := ih.start j Z hj
          exact ⟨c, e1, fun s hc => List.mem_append_left _ (e2 s hc)⟩
      · intro j r hj h0 hk
        exact source_mono (ih.done j r hj h0 hk) (fun _ _ h => h)
    · refine ⟨?_, ?_, ?_⟩
      · intro k s hm hk
        exact source_mono (ih.ops k s hm hk) (fun _ _ h => h)
      · intro j Z hj
        dsimp only at hj ⊢
        split at hj
        · rename_i e
          subst e
          exact ⟨none, (Option.some.inj hj).symm, fun s hc => nomatch hc⟩
        · exact ih.start j Z hj
      · intro j r hj h0 hk
        exact source_mono (ih.done j r hj h0 hk) (fun _ _ h => h)
  | @finish w h i Z r hs hd hc ih =>
    obtain ⟨cached, rfl, hcached⟩ := ih.start i Z hs
    have hmono : ∀ j r', w.done j = some r' → (w.finish i (D i) r).done j = some r' := by
      intro j r' hj
      show (if j = i then some r else w.done j) = some r'
      rw [if_neg (by rintro rfl; rw [hd] at hj; cases hj)]
      exact hj
    have hnew : (D i).Z.conn.handshakes = 0 → (D i).cacheKey ≠ [] → Spec.Source K D (w.finish i (D i) r) (D i).cacheKey r.master r.certs r.chains := by
      intro h0 hk
      rcases completed_cases (hD i h0) hc with ⟨hn, hv⟩ | ⟨s, e, _, e1, e2, e3⟩
      · exact ⟨i, r, by simp [World.finish], hn, hD i h0, rfl, rfl, rfl, rfl, hv⟩
      · rw [e1, e2, e3]
        exact source_mono (ih.ops _ s (hcached s e) hk) hmono
    refine ⟨?_, ?_, ?_⟩
    · intro k s hm hk
      rcases List.mem_append.1 hm with hm | hm
      · exact source_mono (ih.ops k s hm hk) hmono
      · split at hm
        · rename_i hu
          split at hm
          · rename_i s' hs'
            simp only [List.mem_singleton, Lru.Op.put.injEq] at hm
            obtain ⟨e1, rfl⟩ := hm
            unfold Dial.putKey at e1
            split at e1
            · rename_i h0
              subst e1
              simp only [Bool.and_eq_true, decide_eq_true_eq] at h0
              have := hnew h0.2 hk
              unfold ClientEnd.saved at hs'
              obtain ⟨t, _, rfl⟩ := Option.map_eq_some_iff.1 hs'
              exact this
            · exact absurd e1 hk
          · cases hm
        · cases hm
    · intro j Z' hj
      obtain ⟨c, e1, e2⟩ := ih.start j Z' hj
      exact ⟨c, e1, fun s hc => List.mem_append_left _ (e2 s hc)⟩
    · intro j r' hj h0 hk
      have hj' : (if j = i then some r else w.done j) = some r' := hj
      clear hj
      split at hj'
      · rename_i e
        subst e
        obtain rfl := Option.some.inj hj'
        exact hnew h0 hk
      · exact source_mono (ih.done j r' hj' h0 hk) hmono

/-- **C146.** However any number of handshakes that share a cache interleave, and whatever the servers send: each first handshake that completes, resumed or not, reports the
identity (certificates, chains) and has the master secret of a first and full handshake of this history, of a client with the same name (or address, if there is no name), in
which that client accepted those certificates from the server. Renegotiations may come in between; their configuration does not matter. -/
theorem C146_source (P : Prims) (K : KaEnv) (cap : Int) (D : Nat → Dial) (hD : ∀ i, (D i).Z.conn.handshakes = 0 → Spec.First (D i)) (w : World)
    (h : Spec.Reach P K cap D w) (i : Nat) (r : ClientEnd) (hd : w.done i = some r) (h0 : (D i).Z.conn.handshakes = 0) (hk : (D i).cacheKey ≠ []) :
    Spec.Source K D w (D i).cacheKey r.master r.certs r.chains := (reach_inv hD h).done i r hd h0 hk

/-- **C146, C76.** If all the clients that share the cache verify their servers (and so have server names: tls/handshake_client.go:34-36), each standard one that completes
a first handshake, resumed or not, has a server whose certificate one of them verified for its own server name, and reports the chains of that verification. -/
theorem C146_authentic (P : Prims) (K : KaEnv) (cap : Int) (D : Nat → Dial) (hD : ∀ i, (D i).Z.conn.handshakes = 0 → Spec.First (D i))
    (hv : ∀ i, (D i).Z.S.insecureSkipVerify = false ∧ (D i).Z.S.serverName ≠ [] ∧ (D i).Z.S.gm = false) (w : World)
    (h : Spec.Reach P K cap D w) (i : Nat) (r : ClientEnd) (hd : w.done i = some r) (h0 : (D i).Z.conn.handshakes = 0) :
    ∃ (j : Nat) (leaf : X509.Cert) (rest : List X509.Cert), (w.done j).isSome = true ∧ r.certs = leaf :: rest ∧
      X509.verify K.auth.x509 K.auth.entrust K.auth.system leaf
        { dnsName := (D i).Z.S.serverName, intermediates := some (X509.poolOf rest), roots := (D j).Z.S.rootCAs, now := (D j).Z.S.now, keyUsages := [] } = some (.ok r.chains) := by
  have key : ∀ i, (D i).cacheKey = (D i).Z.S.serverName := by
    intro i
    unfold Dial.cacheKey
    rw [if_pos (List.length_pos_iff.2 (hv i).2.1)]
  obtain ⟨j, rj, e1, e2, e3, e4, e5, e6, e7, sent, hs⟩ := C146_source P K cap D hD w h i r hd h0 (by rw [key]; exact (hv i).2.1)
  rcases hs with ⟨_, hs⟩ | ⟨hg, _⟩
  · obtain ⟨leaf, rest, hl⟩ := List.exists_cons_of_ne_nil hs.some
    refine ⟨j, leaf, rest, by rw [e1]; rfl, hl, ?_⟩
    have := hs.verified (hv j).1 leaf rest hl
    rw [← key j, e4, key i] at this
    exact this
  · rw [(hv j).2.2] at hg; cases hg

theorem offer_fits {D : Dial} {c : Option SavedSession} {s : SavedSession} (h : D.offer c = some s) :
    D.Z.cfg.effMin.toNat ≤ s.vers.toNat ∧ s.vers.toNat ≤ D.Z.cfg.effMax.toNat ∧ s.suite ∈ D.Z.hello.cipherSuites ∧ (D.startWith c).hello.sessionTicket = s.ticket ∧
    (D.startWith c).hello.sessionId = D.sid := by
  have ht : (D.startWith c).hello.sessionTicket = s.ticket ∧ (D.startWith c).hello.sessionId = D.sid := by simp [Dial.startWith, h]
  cases c with
  | none => cases h
  | some x =>
    simp only [Dial.offer] at h
    split at h
    · rename_i hx
      obtain rfl := Option.some.inj h
      simp only [Bool.and_eq_true, decide_eq_true_eq, List.contains_eq_mem] at hx
      exact ⟨hx.1.1, hx.1.2, hx.2, ht⟩
    · cases h

/-- **C146.** A session is offered only in a first handshake of a client that has the cache and tickets enabled, with the version and the suite enabled; it is offered with its ticket, and it was put into
the cache, by an earlier handshake of this history, under the client's own name (or address). -/
theorem C146_offered (P : Prims) (K : KaEnv) (cap : Int) (D : Nat → Dial) (w : World) (h : Spec.Reach P K cap D w) (i : Nat) (Z : ClientStart) (hs : w.start i = some Z)
    (s : SavedSession) (ho : Z.session = some s) :
    ((D i).useCache = true ∧ (D i).Z.conn.handshakes = 0 ∧ (D i).Z.cfg.effMin.toNat ≤ s.vers.toNat ∧ s.vers.toNat ≤ (D i).Z.cfg.effMax.toNat ∧ s.suite ∈ (D i).Z.hello.cipherSuites ∧
      Z.hello.sessionTicket = s.ticket ∧ Z.hello.sessionId = (D i).sid) ∧
    ∃ (j : Nat) (r : ClientEnd), w.done j = some r ∧ r.saved = some s ∧ (D j).useCache = true ∧ (D j).putKey = (D i).cacheKey := by
  have inv : (∀ k s, Lru.Op.put k s ∈ w.ops → ∃ j r, w.done j = some r ∧ r.saved = some s ∧ (D j).useCache = true ∧ (D j).putKey = k) ∧
      ∀ i Z, w.start i = some Z → ∀ s, Z.session = some s → Lru.Op.put (D i).cacheKey s ∈ w.ops ∧
        ((D i).useCache = true ∧ (D i).Z.conn.handshakes = 0 ∧ (D i).Z.cfg.effMin.toNat ≤ s.vers.toNat ∧ s.vers.toNat ≤ (D i).Z.cfg.effMax.toNat ∧
          s.suite ∈ (D i).Z.hello.cipherSuites ∧ Z.hello.sessionTicket = s.ticket ∧ Z.hello.sessionId = (D i).sid) := by
    clear hs ho
    induction h with
    | init => exact ⟨by simp, by simp⟩
    | @begin w h i hs ih =>
      unfold World.begin
      split
      · rename_i hu
        refine ⟨?_, ?_⟩
        · intro k s hm
          have hm : Lru.Op.put k s ∈ w.ops := by simpa using hm
          exact ih.1 k s hm
        · intro j Z hj s hz
          dsimp only at hj ⊢
          split at hj
          · rename_i e
            subst e
            obtain rfl := Option.some.inj hj
            rw [startWith_session] at hz
            simp only [Bool.and_eq_true, decide_eq_true_eq] at hu
            exact ⟨List.mem_append_left _ (cacheAnswer_put (offer_some hz)), hu.1, hu.2, offer_fits hz⟩
          · exact ⟨List.mem_append_left _ (ih.2 j Z hj s hz).1, (ih.2 j Z hj s hz).2⟩
      · refine ⟨ih.1, ?_⟩
        intro j Z hj s hz
        dsimp only at hj ⊢
        split at hj
        · obtain rfl := Option.some.inj hj
          rw [startWith_session] at hz
          cases offer_some hz
        · exact ih.2 j Z hj s hz
    | @finish w h i Z r hs hd hc ih =>
      refine ⟨?_, fun j Z' hj s hz => ⟨List.mem_append_left _ (ih.2 j Z' hj s hz).1, (ih.2 j Z' hj s hz).2⟩⟩
      intro k s hm
      rcases List.mem_append.1 hm with hm | hm
      · obtain ⟨j, r', e1, e2⟩ := ih.1 k s hm
        refine ⟨j, r', ?_, e2⟩
        show (if j = i then some r else w.done j) = some r'
        rw [if_neg (by rintro rfl; rw [hd] at e1; cases e1)]
        exact e1
      · split at hm
        · rename_i hu
          split at hm
          · rename_i s' hs'
            simp only [List.mem_singleton, Lru.Op.put.injEq] at hm
            obtain ⟨rfl, rfl⟩ := hm
            exact ⟨i, r, by simp [World.finish], hs', hu, rfl⟩
          · cases hm
        · cases hm
  exact ⟨(inv.2 i Z hs s ho).2, inv.1 _ s (inv.2 i Z hs s ho).1⟩

/-- **C146.** A client offers the newest session of its name: if a handshake with the same name ended with a ticket, and since then no handshake with that name ended with one,
and the cache was called for fewer other names than it has room for, a first handshake that begins now offers that session, unless its version or suite is not enabled. -/
theorem C146_offers_newest (cap : Int) (D : Nat → Dial) (w w' : World) (j : Nat) (r : ClientEnd) (s : SavedSession) (hsv : r.saved = some s) (hu : (D j).useCache = true)
    (between : List (Lru.Op SavedSession)) (hw : w'.ops = (w.finish j (D j) r).ops ++ between) (hno : ∀ x, Lru.Op.put (D j).putKey x ∉ between)
    (hfew : (Lru.others (D j).putKey between).length < (if cap < 1 then 64 else cap.toNat))
    (i : Nat) (h0 : (D i).Z.conn.handshakes = 0) (hui : (D i).useCache = true) (hkey : (D i).cacheKey = (D j).putKey)
    (hok : (D i).Z.cfg.effMin.toNat ≤ s.vers.toNat ∧ s.vers.toNat ≤ (D i).Z.cfg.effMax.toNat ∧ s.suite ∈ (D i).Z.hello.cipherSuites) :
    ∃ Z, (w'.begin cap i (D i)).start i = some Z ∧ Z.session = some s ∧ Z.hello.sessionTicket = s.ticket ∧ Z.hello.sessionId = (D i).sid := by
  have ha : cacheAnswer cap w'.ops (D i).cacheKey = some s := by
    rw [hw, hkey]
    simp only [World.finish, hu, if_true, hsv]
    rw [List.append_assoc]
    exact cacheAnswer_newest w.ops between _ s hno hfew
  have hof : (D i).offer (some s) = some s := by
    simp [Dial.offer, hok.1, hok.2.1, hok.2.2]
  refine ⟨(D i).startWith (some s), ?_, ?_, ?_, ?_⟩
  · simp [World.begin, hui, h0, ha]
  · rw [startWith_session, hof]
  · simp [Dial.startWith, hof]
  · simp [Dial.startWith, hof]

/-- **C146 is false of renegotiations**: the session of a server with which a client renegotiated is filed under the empty name, whatever the name, so that client does not
offer it to the server it came from, but a client without a name whose connection has no printable address offers it to whatever server it has. -/
theorem C146_renegotiation_violated (P : Prims) (K : KaEnv) (cap : Int) (D : Nat → Dial) (w : World) (h : Spec.Reach P K cap D w) (j : Nat) (Z : ClientStart) (r : ClientEnd)
    (hs : w.start j = some Z) (hd : w.done j = none) (hc : Spec.Completed P K (D j) Z r) (hren : (D j).Z.conn.handshakes ≠ 0) (hu : (D j).useCache = true)
    (s : SavedSession) (hsv : r.saved = some s) :
    (w.finish j (D j) r).ops = w.ops ++ [.put [] s] ∧
    ∀ i, w.start i = none → (D i).Z.conn.handshakes = 0 → (D i).useCache = true → (D i).Z.S.serverName = [] → (D i).addr = [] →
      (D i).Z.cfg.effMin.toNat ≤ s.vers.toNat ∧ s.vers.toNat ≤ (D i).Z.cfg.effMax.toNat ∧ s.suite ∈ (D i).Z.hello.cipherSuites →
      ∃ w' Z', Spec.Reach P K cap D w' ∧ w'.start i = some Z' ∧ Z'.session = some s := by
  have hpk : (D j).putKey = [] := by simp [Dial.putKey, hren]
  refine ⟨by simp [World.finish, hu, hsv, hpk], ?_⟩
  intro i hi h0 hui hn ha hok
  obtain ⟨Z', e1, e2, -⟩ := C146_offers_newest cap D w (w.finish j (D j) r) j r s hsv hu [] (by simp) (by simp)
    (by simp only [Lru.others, List.foldl_nil, List.length_nil]; split <;> omega) i h0 hui (by rw [hpk]; simp [Dial.cacheKey, hn, ha]) hok
  exact ⟨_, Z', .begin (.finish h j Z r hs hd hc) i hi, e1, e2⟩

/-- **C146 is false of mixed configurations**: the sessions of clients without a name (they do not verify the server) are filed under the server's address as it is printed, so
a client that verifies, whose server has that name, offers such a session. -/
theorem C146_address_violated (P : Prims) (K : KaEnv) (cap : Int) (D : Nat → Dial) (w : World) (h : Spec.Reach P K cap D w) (j : Nat) (Z : ClientStart) (r : ClientEnd)
    (hs : w.start j = some Z) (hd : w.done j = none) (hc : Spec.Completed P K (D j) Z r) (hj0 : (D j).Z.conn.handshakes = 0) (hu : (D j).useCache = true)
    (hjn : (D j).Z.S.serverName = []) (s : SavedSession) (hsv : r.saved = some s)
    (i : Nat) (hi : w.start i = none) (h0 : (D i).Z.conn.handshakes = 0) (hui : (D i).useCache = true) (hin : (D i).Z.S.serverName = (D j).addr) (hne : (D j).addr ≠ [])
    (hok : (D i).Z.cfg.effMin.toNat ≤ s.vers.toNat ∧ s.vers.toNat ≤ (D i).Z.cfg.effMax.toNat ∧ s.suite ∈ (D i).Z.hello.cipherSuites) :
    ∃ w' Z', Spec.Reach P K cap D w' ∧ w'.start i = some Z' ∧ Z'.session = some s := by
  have hpk : (D j).putKey = (D j).addr := by simp [Dial.putKey, hj0, hu, Dial.cacheKey, hjn]
  obtain ⟨Z', e1, e2, -⟩ := C146_offers_newest cap D w (w.finish j (D j) r) j r s hsv hu [] (by simp) (by simp)
    (by simp only [Lru.others, List.foldl_nil, List.length_nil]; split <;> omega) i h0 hui
    (by rw [hpk]; simp only [Dial.cacheKey, hin]; rw [if_pos (List.length_pos_iff.2 hne)]) hok
  exact ⟨_, Z', .begin (.finish h j Z r hs hd hc) i hi, e1, e2⟩

end Verif.Tls
