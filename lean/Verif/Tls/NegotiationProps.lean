import Verif.Tls.Negotiation
import Verif.Tls.TicketProps
import Verif.Tls.FinishedProps
/-!
C37, C38, C39, C40, C51, C52, C75: what the negotiation guarantees.
-/
namespace Verif.Tls
open Verif

/-! ### Versions (C37) -/

namespace Spec
/-- the highest version that the configured range and the peer's offer allow -/
def HighestMutual (lo hi offered w : Nat) : Prop :=
  (lo ≤ w ∧ w ≤ hi ∧ w ≤ offered) ∧ ∀ x, lo ≤ x → x ≤ hi → x ≤ offered → x ≤ w
end Spec

/-- C37: for a configuration whose minimum does not exceed its maximum, the version chosen from an
offer is exactly the highest mutual one; there is none exactly when the offer is below the minimum. -/
theorem C37_highest_mutual (c : Config) (hr : c.effMin.toNat ≤ c.effMax.toNat) (offered w : Version) :
    c.mutualVersion offered = some w ↔ Spec.HighestMutual c.effMin.toNat c.effMax.toNat offered.toNat w.toNat := by
  unfold Config.mutualVersion Spec.HighestMutual
  split
  · simp only [reduceCtorEq, false_iff]
    rintro ⟨h, -⟩; omega
  · split
    · constructor
      · rintro h; cases h
        exact ⟨by omega, fun x h1 h2 h3 => h2⟩
      · rintro ⟨h1, h2⟩
        have := h2 c.effMax.toNat (by omega) (by omega) (by omega)
        congr 1; apply BitVec.eq_of_toNat_eq; omega
    · constructor
      · rintro h; cases h
        exact ⟨by omega, fun x h1 h2 h3 => h3⟩
      · rintro ⟨h1, h2⟩
        have := h2 offered.toNat (by omega) (by omega) (by omega)
        congr 1; apply BitVec.eq_of_toNat_eq; omega

theorem mutualVersion_none (c : Config) (v : Version) : c.mutualVersion v = none ↔ v.toNat < c.effMin.toNat := by
  unfold Config.mutualVersion
  split
  · simp [*]
  · split <;> simp [*]

/-- the flags of tls/handshake_server.go:146-235 for a certificate -/
def flagsFor (c : Config) (ch : ClientHello) (cert : Cert) : ServerFlags :=
  { ellipticOk := (ch.supportedCurves.any fun k => c.curves.contains k) && ch.supportedPoints.contains 0,
    ecdsaOk := cert.signer = some .ecdsa, rsaSignOk := cert.signer = some .rsa, rsaDecryptOk := cert.decrypter = some .rsa }

/-- preference list and supported list -/
def prefsFor (c : Config) (own offered : List (BitVec 16)) : List (BitVec 16) × List (BitVec 16) :=
  if c.preferServerCipherSuites then (own, offered) else (offered, own)

theorem readClientHello_inv {c : Config} {dec : Bytes → Option SessionState} {rand : Bytes} {ch : ClientHello} {r : ServerChoice}
    (h : readClientHello c dec rand ch = .ok r) :
    ∃ cert, c.mutualVersion ch.vers = some r.vers ∧ chooseProtocol c ch = .ok (r.alpn, r.npn) ∧ c.selectCertificate ch = some cert ∧
      r.cert = some cert ∧ ch.secureRenegotiation = [] ∧
      ((∃ s o, checkForResumption c dec (setCipherSuite (flagsFor c ch cert)) r.vers ch = (some (s, r.suite), o) ∧ r.resume = some s) ∨
       (∃ before, checkForResumption c dec (setCipherSuite (flagsFor c ch cert)) r.vers ch = (none, before) ∧ r.resume = none ∧
          chooseSuite (fun id => setCipherSuite (flagsFor c ch cert) id r.vers (prefsFor c c.suites ch.cipherSuites).2) before
            (prefsFor c c.suites ch.cipherSuites).1 = some r.suite ∧
          scsvRefuses c.effMax ch.vers ch.cipherSuites = false)) := by
  unfold readClientHello at h
  split at h
  · cases h
  rename_i v hv
  dsimp only at h
  split at h
  · cases h
  split at h
  · cases h
  split at h
  · cases h
  rename_i hsr
  split at h
  · cases h
  · cases h
  rename_i alpn npn hp
  split at h
  · cases h
  rename_i cert hc
  split at h
  · cases h
  split at h
  · cases h
  split at h
  · rename_i s suite o hck
    cases h
    exact ⟨cert, hv, hp, hc, rfl, by simpa using hsr, Or.inl ⟨s, o, hck, rfl⟩⟩
  · rename_i before hck
    split at h
    · cases h
    · rename_i suite hs
      split at h
      · cases h
      · rename_i hscsv
        cases h
        exact ⟨cert, hv, hp, hc, rfl, by simpa using hsr, Or.inr ⟨before, hck, rfl, hs, by simpa using hscsv⟩⟩

theorem readClientHelloGM_inv {c : Config} {dec : Bytes → Option SessionState} {rand : Bytes} {ch : ClientHello} {r : ServerChoice}
    (h : readClientHelloGM c dec rand ch = .ok r) :
    c.mutualVersion ch.vers = some r.vers ∧ chooseProtocol c ch = .ok (r.alpn, r.npn) ∧ 2 ≤ c.certificates.length ∧
      r.cert = c.certificates.head? ∧ ch.secureRenegotiation = [] ∧
      ((∃ s o, checkForResumption c dec setCipherSuiteGM r.vers ch = (some (s, r.suite), o) ∧ r.resume = some s) ∨
       (∃ before, checkForResumption c dec setCipherSuiteGM r.vers ch = (none, before) ∧ r.resume = none ∧
          chooseSuite (fun id => setCipherSuiteGM id r.vers (prefsFor c c.suitesGM ch.cipherSuites).2) before
            (prefsFor c c.suitesGM ch.cipherSuites).1 = some r.suite ∧
          scsvRefuses c.effMax ch.vers ch.cipherSuites = false)) := by
  unfold readClientHelloGM at h
  split at h
  · cases h
  rename_i v hv
  split at h
  · cases h
  split at h
  · cases h
  split at h
  · cases h
  rename_i hsr
  split at h
  · cases h
  · cases h
  rename_i alpn npn hp
  split at h
  · cases h
  rename_i hlen
  split at h
  · rename_i s suite o hck
    cases h
    exact ⟨hv, hp, by omega, rfl, by simpa using hsr, Or.inl ⟨s, o, hck, rfl⟩⟩
  · rename_i before hck
    dsimp only at h
    split at h
    · cases h
    · rename_i suite hs
      split at h
      · cases h
      · rename_i hscsv
        cases h
        exact ⟨hv, hp, by omega, rfl, by simpa using hsr, Or.inr ⟨before, hck, rfl, hs, by simpa using hscsv⟩⟩

/-- C37, server: the version a server settles on is the highest mutual one. -/
theorem C37_server (c : Config) (hr : c.effMin.toNat ≤ c.effMax.toNat) (dec : Bytes → Option SessionState) (rand : Bytes) (ch : ClientHello)
    (r : ServerChoice) (h : readClientHello c dec rand ch = .ok r ∨ readClientHelloGM c dec rand ch = .ok r) :
    Spec.HighestMutual c.effMin.toNat c.effMax.toNat ch.vers.toNat r.vers.toNat := by
  rw [← C37_highest_mutual c hr]
  rcases h with h | h
  · obtain ⟨_, h, _⟩ := readClientHello_inv h; exact h
  · exact (readClientHelloGM_inv h).1

/-- C37, server: an offer below the configured minimum is always refused, with the right alert. -/
theorem C37_server_refuses (c : Config) (dec : Bytes → Option SessionState) (rand : Bytes) (ch : ClientHello)
    (h : ch.vers.toNat < c.effMin.toNat) :
    readClientHello c dec rand ch = .error .protocolVersion ∧ readClientHelloGM c dec rand ch = .error .protocolVersion := by
  have := (mutualVersion_none c ch.vers).2 h
  constructor
  · unfold readClientHello; simp [this]
  · unfold readClientHelloGM; simp [this]

/-- C37, client: the version the client settles on is within its configured range, at least TLS 1.0
and not above what the server announced. -/
theorem C37_client (c : Config) (hr : c.effMin.toNat ≤ c.effMax.toNat) (conn : ClientConn) (hello : ClientHello) (session : Option ClientSession)
    (sh : ServerHello) (r : ClientChoice) (h : readServerHello c conn hello session sh = .ok r) :
    c.effMin.toNat ≤ r.vers.toNat ∧ 0x0301 ≤ r.vers.toNat ∧ r.vers.toNat ≤ c.effMax.toNat ∧ r.vers.toNat ≤ sh.vers.toNat := by
  unfold readServerHello at h
  split at h
  · cases h
  rename_i v hv
  split at h
  · cases h
  split at h
  · cases h
  cases h
  unfold pickTLSVersion at hv
  split at hv
  · cases hv
  rename_i w hw
  split at hv
  · cases hv
  rename_i hge
  cases hv
  have := ((C37_highest_mutual c hr _ _).1 hw).1
  have ht : vTLS10.toNat = 0x0301 := rfl
  refine ⟨this.1, ?_, this.2.1, this.2.2⟩
  show 0x0301 ≤ v.toNat
  omega

/-- C37 is false for a client when the server answers with a version above the offer: the client does
not refuse the answer but goes on with its own maximum. -/
theorem C37_client_accepts_higher_violated :
    ∃ (c : Config) (conn : ClientConn) (hello : ClientHello) (sh : ServerHello) (r : ClientChoice),
      makeClientHello c [] (List.replicate 32 0) = .ok hello ∧ hello.vers.toNat < sh.vers.toNat ∧ conn.handshakes = 0 ∧
      readServerHello c conn hello none sh = .ok r ∧ r.vers ≠ sh.vers := by
  refine ⟨{ minVersion := 0, maxVersion := vTLS11, cipherSuites := some [0x002f], preferServerCipherSuites := false, curvePreferences := [],
            nextProtos := [], clientAuth := .noClientCert, sessionTicketsDisabled := false, certificates := [], nameToCertificate := none,
            getCertificate := none, toLower := id, serverName := [0x61], insecureSkipVerify := false },
    ⟨0, false, [], []⟩, _, ⟨0x7fff, [], [], 0x002f, 0, false, [], false, [], false, []⟩, _, rfl, by decide +kernel, rfl, rfl, by decide +kernel⟩

/-- C37 is false for a configuration whose minimum exceeds its maximum: the code then accepts a
version below the configured minimum instead of refusing. -/
theorem C37_inverted_range_violated (c : Config) (hr : c.effMax.toNat < c.effMin.toNat) (offered : Version)
    (ho : c.effMin.toNat ≤ offered.toNat) :
    ∃ w, c.mutualVersion offered = some w ∧ w.toNat < c.effMin.toNat := by
  refine ⟨c.effMax, ?_, hr⟩
  unfold Config.mutualVersion
  rw [if_neg (by omega), if_pos (by omega)]

/-! ### Cipher suites (C38) -/

theorem suite_ids_nodup : ∀ s ∈ cipherSuites, ∀ t ∈ cipherSuites, s.id = t.id → s = t := by decide +kernel
theorem gmSuite_ids_nodup : ∀ s ∈ gmCipherSuites, ∀ t ∈ gmCipherSuites, s.id = t.id → s = t := by decide +kernel

theorem find_suite (table : List Suite) (hu : ∀ s ∈ table, ∀ t ∈ table, s.id = t.id → s = t) (id : BitVec 16) (s : Suite) :
    table.find? (·.id = id) = some s ↔ s ∈ table ∧ s.id = id := by
  constructor
  · intro h
    exact ⟨List.mem_of_find?_eq_some h, by simpa using List.find?_some h⟩
  · rintro ⟨hm, he⟩
    cases hf : table.find? (·.id = id) with
    | none =>
      rw [List.find?_eq_none] at hf
      exact absurd he (by simpa using hf s hm)
    | some t =>
      have h2 : t.id = id := by simpa using List.find?_some hf
      rw [hu t (List.mem_of_find?_eq_some hf) s hm (h2.trans he.symm)]

namespace Spec
/-- the server can carry out the key exchange of a suite with this certificate and this client: the
ephemeral suites need a signing key of the right type and a common curve with uncompressed points,
the others an RSA decryption key; suites defined for TLS 1.2 need TLS 1.2. -/
def Usable' (c : Config) (ch : ClientHello) (cert : Cert) (vers : Version) (s : Suite) : Prop :=
  (s.ecdhe = true → ((∃ k ∈ ch.supportedCurves, k ∈ c.curves) ∧ 0 ∈ ch.supportedPoints) ∧
      cert.signer = some (if s.ecdsa then .ecdsa else .rsa)) ∧
    (s.ecdhe = false → cert.decrypter = some .rsa) ∧ (s.tls12 = true → 0x0303 ≤ vers.toNat)

/-- a suite both sides list and the server can use -/
def Mutual (c : Config) (ch : ClientHello) (cert : Cert) (vers : Version) (s : Suite) : Prop :=
  s ∈ cipherSuites ∧ s.id ∈ ch.cipherSuites ∧ s.id ∈ c.suites ∧ Usable' c ch cert vers s

/-- a GM suite both sides list -/
def MutualGM (c : Config) (ch : ClientHello) (s : Suite) : Prop :=
  s ∈ gmCipherSuites ∧ s.id ∈ ch.cipherSuites ∧ s.id ∈ c.suitesGM

/-- the list whose order decides -/
def preference (c : Config) (own offered : List (BitVec 16)) : List (BitVec 16) :=
  if c.preferServerCipherSuites then own else offered

/-- `s` belongs to the first identifier of `l` for which some suite is admissible -/
def FirstIn (l : List (BitVec 16)) (ok : Suite → Prop) (s : Suite) : Prop :=
  ok s ∧ ∃ pre post, l = pre ++ s.id :: post ∧ ∀ t, ok t → t.id ∉ pre
end Spec

/-- the tests of `setCipherSuite` on a candidate -/
def FlagOk (f : ServerFlags) (v : Version) (s : Suite) : Prop :=
  ((s.ecdhe = true → (f.ellipticOk = true ∧ (s.ecdsa = true → f.ecdsaOk = true) ∧ (s.ecdsa = false → f.rsaSignOk = true))) ∧
        (s.ecdhe = false → f.rsaDecryptOk = true) ∧ (s.tls12 = true → 0x0303 ≤ v.toNat))

def flagOk (f : ServerFlags) (v : Version) (s : Suite) : Bool :=
  (if s.ecdhe then f.ellipticOk && (if s.ecdsa then f.ecdsaOk else f.rsaSignOk) else f.rsaDecryptOk) &&
          !(decide (v.toNat < vTLS12.toNat) && s.tls12)

theorem flagOk_iff (f : ServerFlags) (v : Version) (s : Suite) : flagOk f v s = true ↔ FlagOk f v s := by
  have ht : vTLS12.toNat = 0x0303 := rfl
  have hd : (decide (v.toNat < vTLS12.toNat) = true) ↔ ¬ (0x0303 ≤ v.toNat) := by rw [ht]; simp
  unfold flagOk FlagOk
  cases hb : decide (v.toNat < vTLS12.toNat) <;> rw [hb] at hd <;>
  cases s.ecdhe <;> cases s.ecdsa <;> cases s.tls12 <;> simp at hd ⊢ <;> omega

theorem setCipherSuite_iff (f : ServerFlags) (id : BitVec 16) (v : Version) (l : List (BitVec 16)) (s : Suite) :
    setCipherSuite f id v l = some s ↔ (id ∈ l ∧ s ∈ cipherSuites ∧ s.id = id ∧ FlagOk f v s) := by
  induction l with
  | nil => simp [setCipherSuite]
  | cons x r ih =>
    unfold setCipherSuite
    split
    · rename_i hx
      subst hx
      split
      · rename_i hf
        rw [ih]
        constructor
        · rintro ⟨_, h2, h3, _⟩
          rw [List.find?_eq_none] at hf
          exact absurd h3 (by simpa using hf s h2)
        · rintro ⟨_, h2, h3, _⟩
          rw [List.find?_eq_none] at hf
          exact absurd h3 (by simpa using hf s h2)
      · rename_i cand hf
        obtain ⟨hm, hid⟩ := (find_suite cipherSuites suite_ids_nodup id cand).1 hf
        have huniq : ∀ t, t ∈ cipherSuites → t.id = id → t = cand := fun t h1 h2 => suite_ids_nodup t h1 cand hm (h2.trans hid.symm)
        have key : (if flagOk f v cand then some cand else setCipherSuite f id v r) = some s ↔
            (id ∈ id :: r ∧ s ∈ cipherSuites ∧ s.id = id ∧ FlagOk f v s) := by
          cases hb : flagOk f v cand with
          | true =>
            simp only [if_true]
            constructor
            · rintro h; cases h; exact ⟨List.mem_cons_self, hm, hid, (flagOk_iff _ _ _).1 hb⟩
            · rintro ⟨_, h2, h3, _⟩; rw [huniq s h2 h3]
          | false =>
            simp only [Bool.false_eq_true, if_false]
            rw [ih]
            have : ∀ t, t ∈ cipherSuites → t.id = id → ¬ FlagOk f v t := by
              intro t h2 h3 h4
              rw [huniq t h2 h3, ← flagOk_iff, hb] at h4
              cases h4
            exact ⟨fun ⟨_, h2, h3, h4⟩ => absurd h4 (this s h2 h3), fun ⟨_, h2, h3, h4⟩ => absurd h4 (this s h2 h3)⟩
        rw [← key]
        clear key
        unfold flagOk
        cases cand.ecdhe <;> cases cand.ecdsa <;> cases f.ellipticOk <;> cases f.ecdsaOk <;> cases f.rsaSignOk <;> cases f.rsaDecryptOk <;>
          cases cand.tls12 <;> cases decide (v.toNat < vTLS12.toNat) <;> exact Iff.rfl
    · rename_i hx
      rw [ih]; simp [hx]

theorem gm_no_tls12 : ∀ t ∈ gmCipherSuites, t.tls12 = false := by decide +kernel

theorem setCipherSuiteGM_iff (id : BitVec 16) (v : Version) (l : List (BitVec 16)) (s : Suite) :
    setCipherSuiteGM id v l = some s ↔ (id ∈ l ∧ s ∈ gmCipherSuites ∧ s.id = id) := by
  induction l with
  | nil => simp [setCipherSuiteGM]
  | cons x r ih =>
    unfold setCipherSuiteGM
    split
    · rename_i hx
      subst hx
      split
      · rename_i hf
        rw [ih]
        have : ∀ t, t ∈ gmCipherSuites → ¬ t.id = id := by
          intro t ht he
          rw [List.find?_eq_none] at hf
          exact absurd he (by simpa using hf t ht)
        exact ⟨fun ⟨_, h2, h3⟩ => absurd h3 (this s h2), fun ⟨_, h2, h3⟩ => absurd h3 (this s h2)⟩
      · rename_i cand hf
        obtain ⟨hm, hid⟩ := (find_suite gmCipherSuites gmSuite_ids_nodup id cand).1 hf
        rw [gm_no_tls12 cand hm]
        simp only [Bool.and_false, Bool.false_eq_true, if_false, Option.some.injEq]
        constructor
        · rintro rfl; exact ⟨List.mem_cons_self, hm, hid⟩
        · rintro ⟨_, h2, h3⟩; exact gmSuite_ids_nodup cand hm s h2 (hid.trans h3.symm)
    · rename_i hx
      rw [ih]; simp [hx]

theorem chooseSuite_first (set : BitVec 16 → Option Suite) (l : List (BitVec 16)) (s : Suite)
    (hset : ∀ id t, set id = some t → t.id = id) (before : Option Suite)
    (hb : ∀ b, before = some b → ∃ id ∈ l, (set id).isSome = true)
    (h : chooseSuite set before l = some s) : Spec.FirstIn l (fun t => set t.id = some t) s := by
  induction l with
  | nil =>
    simp only [chooseSuite] at h
    obtain ⟨_, h, _⟩ := hb s h
    cases h
  | cons x r ih =>
    unfold chooseSuite at h
    cases hx : set x with
    | some t =>
      simp only [hx] at h
      cases h
      have hid := hset _ _ hx
      exact ⟨by show set s.id = some s; rw [hid]; exact hx, [], r, by rw [hid]; rfl, by simp⟩
    | none =>
      simp only [hx] at h
      obtain ⟨h1, pre, post, h2, h3⟩ := ih (by
        intro b hbe
        obtain ⟨id, hid, hs⟩ := hb b hbe
        rcases List.mem_cons.1 hid with rfl | hid
        · rw [hx] at hs; cases hs
        · exact ⟨id, hid, hs⟩) h
      refine ⟨h1, x :: pre, post, by simp [h2], ?_⟩
      intro t ht
      simp only [List.mem_cons, not_or]
      refine ⟨?_, h3 t ht⟩
      rintro rfl
      rw [hx] at ht; cases ht

theorem chooseSuite_isSome (set : BitVec 16 → Option Suite) (l : List (BitVec 16)) (before : Option Suite)
    (h : ∃ id ∈ l, (set id).isSome = true) : ∃ s, chooseSuite set before l = some s := by
  induction l with
  | nil => obtain ⟨_, h, _⟩ := h; cases h
  | cons x r ih =>
    unfold chooseSuite
    cases hx : set x with
    | some t => exact ⟨t, rfl⟩
    | none =>
      obtain ⟨id, hid, hs⟩ := h
      rcases List.mem_cons.1 hid with rfl | hid
      · rw [hx] at hs; cases hs
      · exact ih ⟨id, hid, hs⟩

theorem flagOk_usable (c : Config) (ch : ClientHello) (cert : Cert) (v : Version) (s : Suite) :
    FlagOk (flagsFor c ch cert) v s ↔ Spec.Usable' c ch cert v s := by
  unfold FlagOk Spec.Usable' flagsFor
  cases s.ecdsa <;> simp [and_assoc]

theorem prefs_mem (c : Config) (own offered : List (BitVec 16)) (id : BitVec 16) :
    (id ∈ (prefsFor c own offered).1 ∧ id ∈ (prefsFor c own offered).2) ↔ (id ∈ own ∧ id ∈ offered) := by
  unfold prefsFor
  split <;> simp [and_comm]

/-- what `checkForResumption` guarantees about the suite it sets -/
theorem checkForResumption_suite {c : Config} {dec : Bytes → Option SessionState} {set : BitVec 16 → Version → List (BitVec 16) → Option Suite}
    {vers : Version} {ch : ClientHello} {o : Option (SessionState × Suite)} {b : Suite}
    (h : checkForResumption c dec set vers ch = (o, some b)) :
    ∃ s, dec ch.sessionTicket = some s ∧ s.vers = vers ∧ s.cipherSuite ∈ ch.cipherSuites ∧ set s.cipherSuite vers c.suites = some b := by
  unfold checkForResumption at h
  split at h
  · cases h
  split at h
  · cases h
  rename_i s hs
  split at h
  · cases h
  rename_i hv
  split at h
  · cases h
  rename_i hm
  split at h
  · cases h
  rename_i suite hset
  have hv : s.vers = vers := by simpa using (Decidable.not_not.1 hv).symm
  have hm : s.cipherSuite ∈ ch.cipherSuites := by simpa using hm
  rw [hv] at hset
  refine ⟨s, hs, hv, hm, ?_⟩
  dsimp only at h
  split at h
  · cases h; exact hset
  · split at h
    · cases h; exact hset
    · cases h; exact hset

theorem set_std (c : Config) (ch : ClientHello) (cert : Cert) (v : Version) (t : Suite) :
    (t.id ∈ (prefsFor c c.suites ch.cipherSuites).1 ∧
      setCipherSuite (flagsFor c ch cert) t.id v (prefsFor c c.suites ch.cipherSuites).2 = some t) ↔ Spec.Mutual c ch cert v t := by
  rw [setCipherSuite_iff, flagOk_usable, ← and_assoc, prefs_mem]
  unfold Spec.Mutual
  constructor
  · rintro ⟨⟨h1, h2⟩, h3, -, h4⟩; exact ⟨h3, h2, h1, h4⟩
  · rintro ⟨h3, h2, h1, h4⟩; exact ⟨⟨h1, h2⟩, h3, rfl, h4⟩

theorem set_gm (c : Config) (ch : ClientHello) (v : Version) (t : Suite) :
    (t.id ∈ (prefsFor c c.suitesGM ch.cipherSuites).1 ∧
      setCipherSuiteGM t.id v (prefsFor c c.suitesGM ch.cipherSuites).2 = some t) ↔ Spec.MutualGM c ch t := by
  rw [setCipherSuiteGM_iff, ← and_assoc, prefs_mem]
  unfold Spec.MutualGM
  constructor
  · rintro ⟨⟨h1, h2⟩, h3, -⟩; exact ⟨h3, h2, h1⟩
  · rintro ⟨h3, h2, h1⟩; exact ⟨⟨h1, h2⟩, h3, rfl⟩

theorem firstIn_congr {l : List (BitVec 16)} {p q : Suite → Prop} {s : Suite} (hpq : ∀ t, (t.id ∈ l ∧ p t) ↔ q t)
    (h : Spec.FirstIn l p s) : Spec.FirstIn l q s := by
  obtain ⟨h1, pre, post, h2, h3⟩ := h
  refine ⟨(hpq s).1 ⟨by rw [h2]; simp, h1⟩, pre, post, h2, ?_⟩
  intro t ht
  exact h3 t ((hpq t).2 ht).2

/-- C38: in a full handshake the server uses a suite that both sides list and that fits the version,
the certificate's key and the client's curves, and it is the first such suite in the order of the
list that `PreferServerCipherSuites` designates. -/
theorem C38_first_mutual (c : Config) (dec : Bytes → Option SessionState) (rand : Bytes) (ch : ClientHello) (r : ServerChoice)
    (h : readClientHello c dec rand ch = .ok r) (hn : r.resume = none) :
    ∃ cert, c.selectCertificate ch = some cert ∧ r.cert = some cert ∧
      Spec.FirstIn (Spec.preference c c.suites ch.cipherSuites) (Spec.Mutual c ch cert r.vers) r.suite := by
  obtain ⟨cert, _, _, hc, hc', _, hor⟩ := readClientHello_inv h
  refine ⟨cert, hc, hc', ?_⟩
  rcases hor with ⟨s, o, _, hs⟩ | ⟨before, hck, _, hch, _⟩
  · rw [hn] at hs; cases hs
  have hpref : (prefsFor c c.suites ch.cipherSuites).1 = Spec.preference c c.suites ch.cipherSuites := by
    unfold prefsFor Spec.preference; split <;> rfl
  have := chooseSuite_first _ _ _ (fun id t ht => ((setCipherSuite_iff _ _ _ _ _).1 ht).2.2.1) before (by
    rintro b rfl
    obtain ⟨s, _, hv, hm, hset⟩ := checkForResumption_suite hck
    obtain ⟨h1, h2, h3, h4⟩ := (setCipherSuite_iff _ _ _ _ _).1 hset
    have := (set_std c ch cert r.vers b).2 ⟨h2, by rw [h3]; exact hm, by rw [h3]; exact h1, (flagOk_usable _ _ _ _ _).1 h4⟩
    exact ⟨b.id, this.1, by simp only [this.2, Option.isSome_some]⟩) hch
  rw [← hpref]
  exact firstIn_congr (set_std c ch cert r.vers) this

theorem addDefaults_spec (l : List Suite) (acc : List (BitVec 16)) (hn : acc.Nodup) :
    acc <+: addDefaults l acc ∧ (addDefaults l acc).Nodup ∧
      ∀ id, id ∈ addDefaults l acc ↔ (id ∈ acc ∨ ∃ s ∈ l, s.id = id ∧ s.defaultOff = false) := by
  induction l generalizing acc with
  | nil => simp [addDefaults, hn]
  | cons s rest ih =>
    unfold addDefaults
    by_cases hd : s.defaultOff = true
    · rw [if_pos hd]
      obtain ⟨h1, h2, h3⟩ := ih acc hn
      refine ⟨h1, h2, fun id => ?_⟩
      rw [h3]; simp [hd]
    · rw [if_neg hd]
      by_cases hc : acc.contains s.id = true
      · rw [if_pos hc]
        obtain ⟨h1, h2, h3⟩ := ih acc hn
        refine ⟨h1, h2, fun id => ?_⟩
        rw [h3]
        have hm : s.id ∈ acc := by simpa using hc
        constructor
        · rintro (h | ⟨t, ht, h⟩)
          · exact .inl h
          · exact .inr ⟨t, List.mem_cons_of_mem _ ht, h⟩
        · rintro (h | ⟨t, ht, h, h'⟩)
          · exact .inl h
          · rcases List.mem_cons.1 ht with rfl | ht
            · exact .inl (h ▸ hm)
            · exact .inr ⟨t, ht, h, h'⟩
      · rw [if_neg hc]
        have hm : s.id ∉ acc := by simpa using hc
        obtain ⟨h1, h2, h3⟩ := ih (acc ++ [s.id]) (by
          rw [List.nodup_append]
          refine ⟨hn, by simp, ?_⟩
          intro a ha b hb
          rw [List.mem_singleton] at hb
          rintro rfl
          exact hm (hb ▸ ha))
        refine ⟨(List.prefix_append _ _).trans h1, h2, fun id => ?_⟩
        rw [h3]
        simp only [List.mem_append, List.mem_cons, List.not_mem_nil, or_false, or_and_right, exists_or, exists_eq_left]
        have : s.defaultOff = false := by simpa using hd
        simp only [this, and_true]
        constructor
        · rintro ((h | h) | h)
          · exact .inl h
          · exact .inr (.inl h.symm)
          · exact .inr (.inr h)
        · rintro (h | h | h)
          · exact .inl (.inl h)
          · exact .inl (.inr h.symm)
          · exact .inr h

theorem top_are_suites_bool : topCipherSuites.all (fun i => cipherSuites.any (fun s => s.id == i && !s.defaultOff)) = true := by
  decide +kernel
theorem top_are_suites : ∀ i ∈ topCipherSuites, ∃ s ∈ cipherSuites, s.id = i ∧ s.defaultOff = false := by
  have h := top_are_suites_bool
  simpa only [List.all_eq_true, List.any_eq_true, Bool.and_eq_true, beq_iff_eq, Bool.not_eq_true'] using h
theorem on_suites_modern : ∀ s ∈ cipherSuites, ∀ t ∈ cipherSuites, t.id = s.id → t.defaultOff = false →
    s.cipher ≠ .rc4 ∧ s.mac ≠ .sha256 := by decide +kernel
theorem top_nodup : topCipherSuites.Nodup := by decide +kernel

/-- C38, a configuration without an explicit list: the AEAD suites with forward secrecy come first, no suite
appears twice, and the list holds exactly the implemented suites that are not off by default (the RC4 suites and
the SHA-256 CBC suites are off). -/
theorem C38_default_suites (c : Config) (hc : c.cipherSuites = none) :
    topCipherSuites <+: c.suites ∧ c.suites.Nodup ∧
      (∀ id, id ∈ c.suites ↔ ∃ s ∈ cipherSuites, s.id = id ∧ s.defaultOff = false) ∧
      ∀ s ∈ cipherSuites, s.id ∈ c.suites → s.cipher ≠ .rc4 ∧ s.mac ≠ .sha256 := by
  have hs : c.suites = addDefaults cipherSuites topCipherSuites := by
    unfold Config.suites; rw [hc]; rfl
  rw [hs]
  obtain ⟨h1, h2, h3⟩ := addDefaults_spec cipherSuites topCipherSuites top_nodup
  have h4 : ∀ id, id ∈ addDefaults cipherSuites topCipherSuites ↔ ∃ s ∈ cipherSuites, s.id = id ∧ s.defaultOff = false := by
    intro id; rw [h3]
    constructor
    · rintro (h | h)
      · exact top_are_suites id h
      · exact h
    · exact .inr
  refine ⟨h1, h2, h4, ?_⟩
  intro s hs hm
  obtain ⟨t, ht, hid, ho⟩ := (h4 _).1 hm
  exact on_suites_modern s hs t ht hid ho

theorem gm_not_default : ∀ t ∈ gmCipherSuites, t.id ∉ defaultCipherSuites := by decide +kernel

/-- C38 for the GM server. -/
theorem C38_gm_first_mutual (c : Config) (dec : Bytes → Option SessionState) (rand : Bytes) (ch : ClientHello) (r : ServerChoice)
    (h : readClientHelloGM c dec rand ch = .ok r) (hn : r.resume = none) :
    Spec.FirstIn (Spec.preference c c.suitesGM ch.cipherSuites) (Spec.MutualGM c ch) r.suite := by
  obtain ⟨_, _, _, _, _, hor⟩ := readClientHelloGM_inv h
  rcases hor with ⟨s, o, _, hs⟩ | ⟨before, hck, _, hch, _⟩
  · rw [hn] at hs; cases hs
  have hpref : (prefsFor c c.suitesGM ch.cipherSuites).1 = Spec.preference c c.suitesGM ch.cipherSuites := by
    unfold prefsFor Spec.preference; split <;> rfl
  have := chooseSuite_first _ _ _ (fun id t ht => ((setCipherSuiteGM_iff _ _ _ _).1 ht).2.2) before (by
    rintro b rfl
    obtain ⟨s, _, hv, hm, hset⟩ := checkForResumption_suite hck
    obtain ⟨h1, h2, h3⟩ := (setCipherSuiteGM_iff _ _ _ _).1 hset
    have hs : b.id ∈ c.suitesGM := by
      rw [← h3] at h1
      unfold Config.suites at h1
      unfold Config.suitesGM
      cases hcs : c.cipherSuites with
      | some l => rw [hcs] at h1; exact h1
      | none =>
        rw [hcs] at h1
        exact absurd h1 (gm_not_default b h2)
    have := (set_gm c ch r.vers b).2 ⟨h2, by rw [h3]; exact hm, hs⟩
    exact ⟨b.id, this.1, by simp only [this.2, Option.isSome_some]⟩) hch
  rw [← hpref]
  exact firstIn_congr (set_gm c ch r.vers) this

theorem checkForResumption_some {c : Config} {dec : Bytes → Option SessionState} {set : BitVec 16 → Version → List (BitVec 16) → Option Suite}
    {vers : Version} {ch : ClientHello} {s : SessionState} {b : Suite} :
    (∃ o, checkForResumption c dec set vers ch = (some (s, b), o)) ↔
    (c.sessionTicketsDisabled = false ∧ dec ch.sessionTicket = some s ∧ s.vers = vers ∧ s.cipherSuite ∈ ch.cipherSuites ∧
      set s.cipherSuite vers c.suites = some b ∧
      ¬ ((c.clientAuth = .requireAnyClientCert ∨ c.clientAuth = .requireAndVerifyClientCert) ∧ s.certificates = []) ∧
      ¬ (s.certificates ≠ [] ∧ c.clientAuth = .noClientCert)) := by
  unfold checkForResumption
  split
  · rename_i h; simp [h]
  rename_i hd
  have hd : c.sessionTicketsDisabled = false := by simpa using hd
  split
  · rename_i h; simp [h]
  rename_i s' hs
  split
  · rename_i hv
    simp only [Prod.mk.injEq, reduceCtorEq, false_and, exists_false, false_iff]
    rintro ⟨_, h2, h3, _⟩
    rw [hs] at h2; cases h2; exact hv h3.symm
  rename_i hv
  have hv : s'.vers = vers := by simpa using (Decidable.not_not.1 hv).symm
  split
  · rename_i hm
    simp only [Prod.mk.injEq, reduceCtorEq, false_and, exists_false, false_iff]
    rintro ⟨_, h2, _, h3, _⟩
    rw [hs] at h2; cases h2; simp [h3] at hm
  rename_i hm
  have hm : s'.cipherSuite ∈ ch.cipherSuites := by simpa using hm
  rw [hv]
  split
  · rename_i hset
    simp only [Prod.mk.injEq, reduceCtorEq, false_and, exists_false, false_iff]
    rintro ⟨_, h2, _, _, h3, _⟩
    rw [hs] at h2; cases h2; rw [h3] at hset; cases hset
  rename_i suite hset
  dsimp only
  split
  · rename_i hc
    simp only [Prod.mk.injEq, reduceCtorEq, false_and, exists_false, false_iff]
    rintro ⟨_, h2, _, _, _, h3, _⟩
    rw [hs] at h2; cases h2
    exact h3 ⟨hc.1, by simpa using hc.2⟩
  split
  · rename_i hc
    simp only [Prod.mk.injEq, reduceCtorEq, false_and, exists_false, false_iff]
    rintro ⟨_, h2, _, _, _, _, h3⟩
    rw [hs] at h2; cases h2
    exact h3 ⟨by simpa using hc.1, hc.2⟩
  rename_i hc1 hc2
  constructor
  · rintro ⟨o, h⟩
    simp only [Prod.mk.injEq, Option.some.injEq] at h
    obtain ⟨⟨rfl, rfl⟩, -⟩ := h
    refine ⟨hd, hs, hv, hm, hset, ?_, ?_⟩
    · rintro ⟨h1, h2⟩; exact hc1 ⟨h1, by simp [h2]⟩
    · rintro ⟨h1, h2⟩; exact hc2 ⟨by simpa using h1, h2⟩
  · rintro ⟨_, h2, _, _, h3, _⟩
    rw [hs] at h2; cases h2
    rw [hset] at h3; cases h3
    exact ⟨_, rfl⟩

theorem checkForResumption_none {c : Config} {dec : Bytes → Option SessionState} {set : BitVec 16 → Version → List (BitVec 16) → Option Suite}
    {vers : Version} {ch : ClientHello} {s : SessionState} {b : Suite} {before : Option Suite}
    (h : checkForResumption c dec set vers ch = (none, before)) : ¬ ∃ o, checkForResumption c dec set vers ch = (some (s, b), o) := by
  rintro ⟨o, h'⟩; rw [h] at h'; cases h'

namespace Spec
/-- the client-certificate policy agrees with the certificates of a session -/
def PolicyOk (a : ClientAuth) (certs : List Bytes) : Prop :=
  ((a = .requireAnyClientCert ∨ a = .requireAndVerifyClientCert) → certs ≠ []) ∧ (a = .noClientCert → certs = [])

/-- what a session must satisfy to be resumed by a server with configuration `c` for the hello `ch` at
version `v` with suite `s` -/
def Resumable (c : Config) (ch : ClientHello) (v : Version) (s : Suite) (st : SessionState) : Prop :=
  c.sessionTicketsDisabled = false ∧ st.vers = v ∧ st.cipherSuite = s.id ∧ s.id ∈ ch.cipherSuites ∧ s.id ∈ c.suites ∧
    PolicyOk c.clientAuth st.certificates
end Spec

theorem policy_iff (a : ClientAuth) (certs : List Bytes) :
    (¬ ((a = .requireAnyClientCert ∨ a = .requireAndVerifyClientCert) ∧ certs = []) ∧ ¬ (certs ≠ [] ∧ a = .noClientCert)) ↔ Spec.PolicyOk a certs := by
  unfold Spec.PolicyOk
  by_cases h : certs = [] <;> simp [h]

/-- C51: whether a server resumes, and what. An accepted hello resumes the session `st` exactly if the
ticket decrypts to `st` and `st` has the negotiated version, a suite that the client offers, the
configuration still lists and the server can use, and certificates that agree with the policy. -/
theorem C51_server (c : Config) (dec : Bytes → Option SessionState) (rand : Bytes) (ch : ClientHello) (r : ServerChoice)
    (h : readClientHello c dec rand ch = .ok r) (st : SessionState) :
    r.resume = some st ↔ (dec ch.sessionTicket = some st ∧
      ∃ s ∈ cipherSuites, Spec.Resumable c ch r.vers s st ∧ ∃ cert, c.selectCertificate ch = some cert ∧ Spec.Usable' c ch cert r.vers s ∧
        (r.resume = some st → r.suite = s)) := by
  obtain ⟨cert, _, _, hc, hc', _, hor⟩ := readClientHello_inv h
  constructor
  · intro hr
    rcases hor with ⟨s, o, hck, hs⟩ | ⟨before, hck, hs, _⟩
    · rw [hr] at hs; cases hs
      obtain ⟨h1, h2, h3, h4, h5, h6, h7⟩ := checkForResumption_some.1 ⟨o, hck⟩
      obtain ⟨g1, g2, g3, g4⟩ := (setCipherSuite_iff _ _ _ _ _).1 h5
      refine ⟨h2, r.suite, g2, ⟨h1, h3, g3.symm, by rw [g3]; exact h4, by rw [g3]; exact g1, (policy_iff _ _).1 ⟨h6, h7⟩⟩, cert, hc,
        (flagOk_usable _ _ _ _ _).1 g4, fun _ => rfl⟩
    · rw [hr] at hs; cases hs
  · rintro ⟨hd, s, hs, ⟨h1, h2, h3, h4, h5, h6⟩, cert', hc2, hu, _⟩
    rw [hc] at hc2; cases hc2
    have : ∃ o, checkForResumption c dec (setCipherSuite (flagsFor c ch cert)) r.vers ch = (some (st, s), o) := by
      rw [checkForResumption_some]
      have := (policy_iff _ _).2 h6
      refine ⟨h1, hd, h2, by rw [h3]; exact h4, (setCipherSuite_iff _ _ _ _ _).2 ⟨by rw [h3]; exact h5, hs, h3.symm, (flagOk_usable _ _ _ _ _).2 hu⟩, this.1, this.2⟩
    rcases hor with ⟨s', o, hck, hs'⟩ | ⟨before, hck, hs', _⟩
    · obtain ⟨o', h'⟩ := this
      rw [hck] at h'
      cases h'
      exact hs'
    · exact absurd this (checkForResumption_none hck)

/-- C51 for the GM server. -/
theorem C51_gm_server (c : Config) (dec : Bytes → Option SessionState) (rand : Bytes) (ch : ClientHello) (r : ServerChoice)
    (h : readClientHelloGM c dec rand ch = .ok r) (st : SessionState) :
    r.resume = some st ↔ (dec ch.sessionTicket = some st ∧
      ∃ s ∈ gmCipherSuites, Spec.Resumable c ch r.vers s st ∧ (r.resume = some st → r.suite = s)) := by
  obtain ⟨_, _, _, _, _, hor⟩ := readClientHelloGM_inv h
  constructor
  · intro hr
    rcases hor with ⟨s, o, hck, hs⟩ | ⟨before, hck, hs, _⟩
    · rw [hr] at hs; cases hs
      obtain ⟨h1, h2, h3, h4, h5, h6, h7⟩ := checkForResumption_some.1 ⟨o, hck⟩
      obtain ⟨g1, g2, g3⟩ := (setCipherSuiteGM_iff _ _ _ _).1 h5
      exact ⟨h2, r.suite, g2, ⟨h1, h3, g3.symm, by rw [g3]; exact h4, by rw [g3]; exact g1, (policy_iff _ _).1 ⟨h6, h7⟩⟩, fun _ => rfl⟩
    · rw [hr] at hs; cases hs
  · rintro ⟨hd, s, hs, ⟨h1, h2, h3, h4, h5, h6⟩, _⟩
    have : ∃ o, checkForResumption c dec setCipherSuiteGM r.vers ch = (some (st, s), o) := by
      rw [checkForResumption_some]
      have := (policy_iff _ _).2 h6
      exact ⟨h1, hd, h2, by rw [h3]; exact h4, (setCipherSuiteGM_iff _ _ _ _).2 ⟨by rw [h3]; exact h5, hs, h3.symm⟩, this.1, this.2⟩
    rcases hor with ⟨s', o, hck, hs'⟩ | ⟨before, hck, hs', _⟩
    · obtain ⟨o', h'⟩ := this
      rw [hck] at h'
      cases h'
      exact hs'
    · exact absurd this (checkForResumption_none hck)

/-! ### non-vacuity: runs that meet the hypotheses -/

/-- a server for TLS 1.0–1.2 with an RSA certificate, its own preference and two application protocols -/
def exampleConfig : Config :=
  { minVersion := vTLS10, maxVersion := 0, cipherSuites := none, preferServerCipherSuites := true, curvePreferences := [],
    nextProtos := [[0x68, 0x32]], clientAuth := .noClientCert, sessionTicketsDisabled := false,
    certificates := [⟨[[0x30]], some .rsa, some .rsa⟩, ⟨[[0x31]], some .rsa, some .rsa⟩], nameToCertificate := none,
    getCertificate := none, toLower := id, serverName := [], insecureSkipVerify := false }

/-- a TLS 1.2 client that prefers CBC suites, with ALPN and a ticket -/
def exampleOffer : ClientHello :=
  { vers := vTLS12, random := List.replicate 32 1, sessionId := [5], cipherSuites := [0x002f, 0xc014, 0xc02f, 0xe013], compressionMethods := [0],
    nextProtoNeg := false, serverName := [], supportedCurves := [23], supportedPoints := [0], ticketSupported := true, sessionTicket := [9],
    secureRenegotiation := [], secureRenegotiationSupported := true, alpnProtocols := [[0x68, 0x32]] }

/-- what of the server's choice is compared: version, suite, resumed session, protocol -/
def seenChoice (x : Except Alert ServerChoice) : Option (Version × BitVec 16 × Option SessionState × Bytes) :=
  match x with
  | .ok r => some (r.vers, r.suite.id, r.resume, r.alpn)
  | .error _ => none

/-- the server's preference decides: the AEAD suite (C37_server, C38_first_mutual, C38_default_suites) -/
example : seenChoice (readClientHello exampleConfig (fun _ => none) (List.replicate 32 7) exampleOffer) =
    some (vTLS12, 0xc02f, none, [0x68, 0x32]) := by decide +kernel
/-- without it the client's decides -/
example : seenChoice (readClientHello { exampleConfig with preferServerCipherSuites := false } (fun _ => none) (List.replicate 32 7) exampleOffer) =
    some (vTLS12, 0x002f, none, [0x68, 0x32]) := by decide +kernel
/-- a TLS 1.1 client gets TLS 1.1 and no TLS 1.2 suite -/
example : seenChoice (readClientHello exampleConfig (fun _ => none) (List.replicate 32 7) { exampleOffer with vers := vTLS11 }) =
    some (vTLS11, 0xc014, none, [0x68, 0x32]) := by decide +kernel
/-- a GM client is below the minimum (C37_server_refuses) -/
example : readClientHello exampleConfig (fun _ => none) (List.replicate 32 7) { exampleOffer with vers := vGMSSL } = .error .protocolVersion :=
  (C37_server_refuses exampleConfig _ _ { exampleOffer with vers := vGMSSL } (by decide)).1
/-- a session for the same version and an offered suite is resumed (C51_server), … -/
example : seenChoice (readClientHello exampleConfig (fun _ => some ⟨vTLS12, 0xc014, [3], [], false⟩) (List.replicate 32 7) exampleOffer) =
    some (vTLS12, 0xc014, some ⟨vTLS12, 0xc014, [3], [], false⟩, [0x68, 0x32]) := by decide +kernel
/-- … one for another version is not, and the full handshake goes on -/
example : seenChoice (readClientHello exampleConfig (fun _ => some ⟨vTLS11, 0xc014, [3], [], false⟩) (List.replicate 32 7) exampleOffer) =
    some (vTLS12, 0xc02f, none, [0x68, 0x32]) := by decide +kernel
/-- the GM server, full and resumed (C38_gm_first_mutual, C51_gm_server: resumption needs the suite to be in the configured list) -/
example : seenChoice (readClientHelloGM { exampleConfig with minVersion := 0, cipherSuites := some [0xe011, 0xe013] } (fun _ => none)
    (List.replicate 32 7) { exampleOffer with vers := vGMSSL }) = some (vGMSSL, 0xe013, none, [0x68, 0x32]) := by decide +kernel
example : seenChoice (readClientHelloGM { exampleConfig with minVersion := 0, cipherSuites := some [0xe011, 0xe013] }
    (fun _ => some ⟨vGMSSL, 0xe013, [3], [], false⟩)
    (List.replicate 32 7) { exampleOffer with vers := vGMSSL }) =
    some (vGMSSL, 0xe013, some ⟨vGMSSL, 0xe013, [3], [], false⟩, [0x68, 0x32]) := by decide +kernel
/-- an inverted range exists (C37_inverted_range_violated): minimum TLS 1.2, maximum TLS 1.0, and a TLS 1.2 client gets TLS 1.0 -/
example : ({ exampleConfig with minVersion := vTLS12, maxVersion := vTLS10 } : Config).mutualVersion vTLS12 = some vTLS10 := by decide +kernel
/-- the highest mutual version of this server and a client offering a version from the future is TLS 1.2 -/
example : exampleConfig.mutualVersion 0x0305 = some vTLS12 ∧
    Spec.HighestMutual exampleConfig.effMin.toNat exampleConfig.effMax.toNat 0x0305 0x0303 :=
  ⟨by decide, (C37_highest_mutual exampleConfig (by decide) 0x0305 vTLS12).1 (by decide)⟩

end Verif.Tls
