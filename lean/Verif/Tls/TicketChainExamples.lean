import Verif.Tls.TicketChain
import Verif.Tls.SrvExamples
/-!
Servers of the toy primitives that share ticket keys: a case that meets the hypotheses of C148.
-/
namespace Verif.Tls
open Verif Verif.Tls.Wire

/-- the session of the full handshake `toyServe1` -/
def toyOrigin : SessionState := ⟨vTLS12, 0xc02b, 40 :: List.replicate 31 0 ++ 170 :: List.replicate 15 0, [[1]], false⟩
/-- tickets for that session: 42; it is opened with an old key, so that a resumption renews it -/
def toyBox (s : SessionState) : Res Bytes := if s = toyOrigin then .ok [42] else .err "toy"
def toyOpen (t : Bytes) : Option SessionState := if t = [42] then some { toyOrigin with usedOldKey := true } else none
def toyServe (stream : Bytes) : Serve toyK :=
  ⟨false, fun _ => some (toySrv .requireAndVerifyClientCert toyOpen toyBox), { isClient := false, stream := stream, rand := List.replicate 64 0 }⟩
/-- a full handshake, and one in which the client presents the ticket 42 -/
def toyServe1 : Serve toyK := toyServe (toySrvStream (250 :: List.replicate 11 0))
def toyServe2 (vd : Byte) : Serve toyK := toyServe (toySrvStream2 (vd :: List.replicate 11 0))
def toyFleet (A : Serve toyK) : Prop := ∃ stream, A = toyServe stream

/-- the master secret, the certificates, whether it was resumed, the tickets sent, the ticket received, whether the certificates received fit -/
def toyServed (r : Res (HsOut (ServerChoice × ServerRes))) : Option (Bytes × Bool × List Bytes × Option Bytes × Bool) :=
  match r with
  | .ok o => (match o.result with
    | .done x => some (x.2.master, x.2.resumed.isSome, o.sent.filterMap (fun i => match i with | .msg (.newSessionTicket m) => some m.ticket | _ => none),
        (match o.got with | .msg (.clientHello ch) :: _ => some ch.sessionTicket | _ => none),
        o.got.all fun i => match i with | .msg (.certificate cm) => decide (cm.certificates.length < 65536) && cm.certificates.all (fun x => decide (x.length < 4294967296)) | _ => true)
    | _ => none)
  | _ => none

theorem toyServe1_run : (toyServed ((serverProg toyK toyServe1.gm toyServe1.start).run toyPrims toyServe1.gm toyServe1.c)).map (fun x => x.2) = some (false, [[42]], some [], true) := by
  decide +kernel
theorem toyServe1_completes : toySeen (toyServe1.c.handshake ((serverProg toyK toyServe1.gm toyServe1.start).asHandshake toyPrims toyServe1.gm)) = some (none, 216, 0) := by decide +kernel
/-- the resumption, which sends the ticket 42 again -/
theorem toyServe2_run : (toyServed ((serverProg toyK (toyServe2 160).gm (toyServe2 160).start).run toyPrims (toyServe2 160).gm (toyServe2 160).c)).map (fun x => x.2) =
    some (true, [[42]], some [42], true) := by decide +kernel
theorem toyServe2_completes : toySeen ((toyServe2 160).c.handshake ((serverProg toyK (toyServe2 160).gm (toyServe2 160).start).asHandshake toyPrims (toyServe2 160).gm)) =
    some (none, 127, 0) := by decide +kernel

theorem toyServed_served {stream : Bytes} {b : Bool} {t tk : Bytes} {n : Nat}
    (h1 : (toyServed ((serverProg toyK (toyServe stream).gm (toyServe stream).start).run toyPrims (toyServe stream).gm (toyServe stream).c)).map (fun x => x.2) =
      some (b, [t], some tk, true))
    (h2 : toySeen ((toyServe stream).c.handshake ((serverProg toyK (toyServe stream).gm (toyServe stream).start).asHandshake toyPrims (toyServe stream).gm)) = some (none, n, 0)) :
    ∃ ch sent k r m, Spec.Served toyPrims toyK (toyServe stream) ch sent k r ∧ r.resumed.isSome = b ∧ ch.sessionTicket = tk ∧ .msg (.newSessionTicket m) ∈ sent ∧ m.ticket = t := by
  cases hr : (serverProg toyK (toyServe stream).gm (toyServe stream).start).run toyPrims (toyServe stream).gm (toyServe stream).c with
  | err x => rw [hr] at h1; simp [toyServed] at h1
  | panic => rw [hr] at h1; simp [toyServed] at h1
  | ok o =>
    rw [hr] at h1
    cases hd : o.result with
    | refused a e => simp [toyServed, hd] at h1
    | failed e => simp [toyServed, hd] at h1
    | done x =>
      obtain ⟨k, r⟩ := x
      simp only [toyServed, hd, Option.map_some, Option.some.injEq, Prod.mk.injEq] at h1
      obtain ⟨hres, hsent, hgot, hfit⟩ := h1
      obtain ⟨ch, items, hch, hgot'⟩ : ∃ ch items, ch.sessionTicket = tk ∧ o.got = .msg (.clientHello ch) :: items := by
        split at hgot
        · rename_i ch items e
          exact ⟨ch, items, Option.some.inj hgot, e⟩
        · cases hgot
      obtain ⟨i, hi, hm⟩ := List.mem_filterMap.1 (by rw [hsent]; exact List.mem_singleton_self t)
      obtain ⟨m, rfl, ht⟩ : ∃ m, i = .msg (.newSessionTicket m) ∧ m.ticket = t := by
        split at hm
        · exact ⟨_, rfl, Option.some.inj hm⟩
        · cases hm
      cases hc : (toyServe stream).c.handshake ((serverProg toyK (toyServe stream).gm (toyServe stream).start).asHandshake toyPrims (toyServe stream).gm) with
      | err x => rw [hc] at h2; simp [toySeen] at h2
      | panic => rw [hc] at h2; simp [toySeen] at h2
      | ok y =>
        obtain ⟨e, c'⟩ := y
        rw [hc] at h2
        simp only [toySeen, Option.some.injEq, Prod.mk.injEq] at h2
        obtain ⟨rfl, _⟩ := h2
        refine ⟨ch, o.sent, k, r, m, ⟨rfl, ⟨rfl, rfl⟩, ⟨c', hc⟩, o, hr, hd, rfl, items, hgot', ?_⟩, hres, hch, hi, ht⟩
        intro cm hcm
        have := List.all_eq_true.1 hfit (.msg (.certificate cm)) (by rw [hgot']; exact List.mem_cons_of_mem _ hcm)
        simpa [List.all_eq_true] using this

theorem toyFleet_faithful : Spec.TicketsFaithful toyFleet := by
  rintro A B ch ch' Z Z' s t st ⟨x, rfl⟩ ⟨y, rfl⟩ hZ hZ' _ hb hd
  obtain rfl := Option.some.inj hZ
  obtain rfl := Option.some.inj hZ'
  change toyBox s = _ at hb
  change toyOpen t = _ at hd
  unfold toyBox at hb
  unfold toyOpen at hd
  split at hb
  · rename_i e
    split at hd
    · rw [← Option.some.inj hd, e]
    · cases hd
  · cases hb

/-- the hypotheses of C148: a full handshake, a resumption that renews the ticket, and a resumption by the renewed ticket -/
theorem toyChain : ∃ (r0 r : ServerRes) (ch : ClientHelloMsg) (sent : List Item) (k : ServerChoice) (m : NewSessionTicketMsg), Spec.TicketsFaithful toyFleet ∧
    toyFleet (toyServe2 160) ∧ r0.resumed = none ∧ Spec.Descends toyPrims toyK toyFleet r0 ch.sessionTicket ∧ Spec.Served toyPrims toyK (toyServe2 160) ch sent k r ∧
    r.resumed ≠ none ∧ .msg (.newSessionTicket m) ∈ sent ∧ m.ticket = ch.sessionTicket ∧ Spec.Descends toyPrims toyK toyFleet r0 m.ticket := by
  obtain ⟨ch0, sent0, k0, r0, m0, h0, e0, _, hm0, ht0⟩ := toyServed_served toyServe1_run toyServe1_completes
  obtain ⟨ch, sent, k, r, m, h, e, hch, hm, ht⟩ := toyServed_served toyServe2_run toyServe2_completes
  have hr0 : r0.resumed = none := by simpa using e0
  have hr : r.resumed ≠ none := by rintro e'; rw [e'] at e; cases e
  have hd : Spec.Descends toyPrims toyK toyFleet r0 ch.sessionTicket := by
    rw [hch, ← ht0]
    exact .issued (A := toyServe1) ⟨_, rfl⟩ h0 hr0 m0 hm0
  exact ⟨r0, r, ch, sent, k, m, toyFleet_faithful, ⟨_, rfl⟩, hr0, hd, h, hr, hm, by rw [ht, hch], .renewed ⟨_, rfl⟩ h hr hd m hm⟩

/-- the hypotheses of `C148_faithful`: servers with one ticket key -/
example (C : TicketCrypto) (b rnd : Bytes) : Spec.TicketsFaithful (fun A : Serve toyK => ∃ stream, A =
    ⟨false, fun _ => some (toySrv .requireAndVerifyClientCert (decryptTicket C ⟨false, b, [ticketKeyFromBytes C b]⟩) (encryptTicket C ⟨false, b, [ticketKeyFromBytes C b]⟩ rnd)),
      { isClient := false, stream := stream, rand := [] }⟩) := by
  refine C148_faithful toyK C _ [ticketKeyFromBytes C b] ?_ ?_ ?_
  · intro k hk
    rw [List.mem_singleton.1 hk]
    exact (keyFromBytes_lengths C b).1
  · intro k hk k' hk' _
    rw [List.mem_singleton.1 hk, List.mem_singleton.1 hk']
  · rintro A ch Z ⟨stream, rfl⟩ hZ
    obtain rfl := Option.some.inj hZ
    exact ⟨⟨false, b, [ticketKeyFromBytes C b]⟩, rnd, fun k hk => hk, rfl, rfl⟩

end Verif.Tls
