import Verif.Tls.SessionCache
import Verif.Tls.ConnStateExamples
/-!
Clients of the toy primitives share a cache: cases that meet the hypotheses of C146.
-/
namespace Verif.Tls
open Verif Verif.Tls.Wire

/-- a server "a" -/
def toyNamed : X509.Cert := { toyCert 1 (.ecdsa [9]) 0 with hasSAN := true, dnsNames := [[97]] }
def toyKN : KaEnv := { toyKa with auth := { toyAuth with parse := fun b => if b = [1] then some toyNamed else none } }
def toyStartN : ClientStart := { toyStart with S := { toyClient with serverName := [97], rootCAs := some (X509.poolOf [toyNamed]) } }
/-- a client of the server "a" that verifies it; any number of them share a cache -/
def toyDial : Nat → Dial := fun _ => ⟨toyStartN, toyEndC toyTalk4, [9], true, [7, 7], [5], [6]⟩
def toyDialZ : ClientStart := (toyDial 0).startWith none

def toyEnded (r : Res (HsOut ClientEnd)) : Option (Option Bytes × Bool × List X509.Cert × Version × U16) :=
  match r with
  | .ok o => (match o.result with | .done r => some (r.ticket, r.resumed.isNone, r.certs, r.S.vers, r.S.suite.id) | _ => none)
  | _ => none

/-- C146: the first handshake completes, with the ticket 42 -/
theorem toyDial_run : toyEnded ((clientProg toyKN toyDialZ [5] [6]).run toyPrims false (toyEndC toyTalk4)) = some (some [42], true, [toyNamed], vTLS12, 0xc02b) := by decide +kernel
theorem toyDial_completes : toySeen ((toyEndC toyTalk4).handshake ((clientProg toyKN toyDialZ [5] [6]).asHandshake toyPrims false)) = some (none, toyTalk3.length, 0) := by decide +kernel

theorem toyDial_first (i : Nat) : Spec.First (toyDial i) where
  first := rfl
  fresh := ⟨rfl, rfl, rfl⟩
  ren := rfl
  sigAlgs := by
    intro a ha
    simp only [toyDial, toyStartN, toyStart, toyHello, List.mem_cons, List.not_mem_nil, or_false] at ha
    rcases ha with rfl | rfl <;> decide
  dual := fun h => nomatch h

theorem toyCompleted {D : Dial} {Z : ClientStart} {n : Nat}
    (h1 : toyEnded ((clientProg toyKN Z D.rk D.rs).run toyPrims Z.S.gm D.c) = some (some [42], true, [toyNamed], vTLS12, 0xc02b))
    (h2 : toySeen (D.c.handshake ((clientProg toyKN Z D.rk D.rs).asHandshake toyPrims Z.S.gm)) = some (none, n, 0)) :
    ∃ r, Spec.Completed toyPrims toyKN D Z r ∧ r.resumed = none ∧ r.saved = some ⟨[42], vTLS12, 0xc02b, r.master, [toyNamed], r.chains⟩ := by
  cases hr : (clientProg toyKN Z D.rk D.rs).run toyPrims Z.S.gm D.c with
  | err x => rw [hr] at h1; simp [toyEnded] at h1
  | panic => rw [hr] at h1; simp [toyEnded] at h1
  | ok o =>
    rw [hr] at h1
    cases hd : o.result with
    | refused a e => simp [toyEnded, hd] at h1
    | failed e => simp [toyEnded, hd] at h1
    | done r =>
      simp only [toyEnded, hd, Option.some.injEq, Prod.mk.injEq, Option.isNone_iff_eq_none] at h1
      obtain ⟨ht, hres, hcerts, hv, hid⟩ := h1
      cases hc : D.c.handshake ((clientProg toyKN Z D.rk D.rs).asHandshake toyPrims Z.S.gm) with
      | err x => rw [hc] at h2; simp [toySeen] at h2
      | panic => rw [hc] at h2; simp [toySeen] at h2
      | ok y =>
        obtain ⟨e, c'⟩ := y
        rw [hc] at h2
        simp only [toySeen, Option.some.injEq, Prod.mk.injEq] at h2
        obtain ⟨rfl, _⟩ := h2
        exact ⟨r, ⟨c', o, hc, hr, hd⟩, hres, by simp [ClientEnd.saved, ht, hcerts, hv, hid]⟩

/-- a history: client 0 connects, gets a ticket; client 1 begins and offers it. The hypotheses of C146. -/
theorem toyDial_history : ∃ (w : World) (r : ClientEnd) (s : SavedSession) (Z : ClientStart), Spec.Reach toyPrims toyKN 1 toyDial w ∧ w.done 0 = some r ∧ r.resumed = none ∧
    r.saved = some s ∧ w.start 1 = some Z ∧ Z.session = some s ∧ s.ticket = [42] ∧ Z.hello.sessionTicket = [42] ∧ s.certs = [toyNamed] := by
  obtain ⟨r, hdone, hres, hsv⟩ := toyCompleted (D := toyDial 0) (Z := toyDialZ) toyDial_run toyDial_completes
  have h1 : Spec.Reach toyPrims toyKN 1 toyDial (({} : World).begin 1 0 (toyDial 0)) := .begin .init 0 rfl
  have h2 := Spec.Reach.finish h1 0 toyDialZ r rfl rfl hdone
  have h3 := Spec.Reach.begin h2 1 rfl
  obtain ⟨Z, e1, e2, e3, -⟩ := C146_offers_newest 1 toyDial (({} : World).begin 1 0 (toyDial 0)) _ 0 r _ hsv rfl [] (by rw [List.append_nil]) (by simp)
    (by decide) 1 rfl rfl rfl (by dsimp only; decide)
  exact ⟨_, r, _, Z, h3, by unfold World.begin; split <;> simp [World.finish], hres, hsv, e1, e2, rfl, e3, rfl⟩

/-- the hypotheses of `C146_authentic` -/
example : (∀ i, (toyDial i).Z.conn.handshakes = 0 → Spec.First (toyDial i)) ∧ (toyDial 0).cacheKey ≠ [] ∧
    ∀ i, (toyDial i).Z.S.insecureSkipVerify = false ∧ (toyDial i).Z.S.serverName ≠ [] ∧ (toyDial i).Z.S.gm = false :=
  ⟨fun i _ => toyDial_first i, by decide, fun i => ⟨rfl, by simp [toyDial, toyStartN], rfl⟩⟩

/-- a client that renegotiates (with a server without certificate changes), and one that has no server name and does not verify -/
def toyDialR : Dial := { toyDial 0 with Z := { toyStartN with conn := ⟨1, false, [], []⟩, S := { toyStartN.S with previous := some ([toyNamed], [[toyNamed]]) } } }
def toyDialA : Dial := { toyDial 0 with Z := { toyStartN with S := { toyStartN.S with serverName := [], insecureSkipVerify := true } } }

/-- the hypotheses of `C146_renegotiation_violated` and `C146_address_violated` -/
theorem toyDialR_run : toyEnded ((clientProg toyKN (toyDialR.startWith none) [5] [6]).run toyPrims false (toyEndC toyTalk4)) = some (some [42], true, [toyNamed], vTLS12, 0xc02b) ∧
    toySeen ((toyEndC toyTalk4).handshake ((clientProg toyKN (toyDialR.startWith none) [5] [6]).asHandshake toyPrims false)) = some (none, toyTalk3.length, 0) ∧
    toyDialR.Z.conn.handshakes ≠ 0 ∧ toyDialR.useCache = true := by decide +kernel
theorem toyDialA_run : toyEnded ((clientProg toyKN (toyDialA.startWith none) [5] [6]).run toyPrims false (toyEndC toyTalk4)) = some (some [42], true, [toyNamed], vTLS12, 0xc02b) ∧
    toySeen ((toyEndC toyTalk4).handshake ((clientProg toyKN (toyDialA.startWith none) [5] [6]).asHandshake toyPrims false)) = some (none, toyTalk3.length, 0) ∧
    toyDialA.Z.conn.handshakes = 0 ∧ toyDialA.useCache = true ∧ toyDialA.Z.S.serverName = [] ∧ toyDialA.addr ≠ [] := by decide +kernel

/-- a renegotiation that ends with a ticket, and then a client without a name and an address -/
def toyDials (a b : Dial) : Nat → Dial := fun i => if i = 0 then a else b
def toyDialE : Dial := { toyDialA with addr := [] }

/-- the hypotheses of `C146_renegotiation_violated`: its conclusion for this case -/
example : ∃ w' s Z', Spec.Reach toyPrims toyKN 1 (toyDials toyDialR toyDialE) w' ∧ w'.start 1 = some Z' ∧ Z'.session = some s := by
  obtain ⟨r, hdone, hres, hsv⟩ := toyCompleted (D := toyDialR) (Z := toyDialR.startWith none) toyDialR_run.1 toyDialR_run.2.1
  have h1 : Spec.Reach toyPrims toyKN 1 (toyDials toyDialR toyDialE) (({} : World).begin 1 0 (toyDials toyDialR toyDialE 0)) := .begin .init 0 rfl
  obtain ⟨w', Z', e1, e2, e3⟩ := (C146_renegotiation_violated toyPrims toyKN 1 (toyDials toyDialR toyDialE) _ h1 0 (toyDialR.startWith none) r rfl rfl hdone
    toyDialR_run.2.2.1 toyDialR_run.2.2.2 _ hsv).2 1 rfl rfl rfl rfl rfl (by dsimp only; decide)
  exact ⟨w', _, Z', e1, e2, e3⟩

/-- the hypotheses of `C146_address_violated`: a client of "a" that verifies, after one without a name at the address "a" -/
example : ∃ w' s Z', Spec.Reach toyPrims toyKN 1 (toyDials { toyDialA with addr := [97] } (toyDial 0)) w' ∧ w'.start 1 = some Z' ∧ Z'.session = some s ∧
    Z'.S.insecureSkipVerify = false := by
  obtain ⟨r, hdone, hres, hsv⟩ := toyCompleted (D := { toyDialA with addr := [97] }) (Z := toyDialA.startWith none) toyDialA_run.1 toyDialA_run.2.1
  have h1 : Spec.Reach toyPrims toyKN 1 (toyDials { toyDialA with addr := [97] } (toyDial 0)) (({} : World).begin 1 0 { toyDialA with addr := [97] }) := .begin .init 0 rfl
  obtain ⟨w', Z', e1, e2, e3⟩ := C146_address_violated toyPrims toyKN 1 (toyDials { toyDialA with addr := [97] } (toyDial 0)) _ h1 0 (toyDialA.startWith none) r rfl rfl hdone
    rfl rfl rfl _ hsv 1 rfl rfl rfl rfl (by decide) (by dsimp only; decide)
  refine ⟨w', _, Z', e1, e2, e3, ?_⟩
  obtain ⟨c, rfl, -⟩ := (show ∃ c, Z' = (toyDial 0).startWith c ∧ True from by
    have hD : ∀ i, (toyDials { toyDialA with addr := [97] } (toyDial 0) i).Z.conn.handshakes = 0 → Spec.First (toyDials { toyDialA with addr := [97] } (toyDial 0) i) := by
      intro i _
      by_cases h : i = 0
      · subst h; exact ⟨rfl, ⟨rfl, rfl, rfl⟩, rfl, (toyDial_first 0).sigAlgs, fun h => nomatch h⟩
      · simp only [toyDials, h, if_false]; exact toyDial_first 0
    obtain ⟨c, e, _⟩ := (reach_inv hD e1).start 1 Z' e2
    exact ⟨c, e, trivial⟩)
  rw [startWith_S]; rfl

end Verif.Tls
