import Verif.Tls.HsProg
import Verif.Tls.ClientAuthProps
/-!
The client's program (`HsProg`) makes the decisions of `ClientFull` and `Resume`: whatever it completes with, on whatever messages, they complete with
the same result; and a run on a connection that completes is one on the messages it read.
-/
namespace Verif.Tls
open Verif Verif.Tls.Wire

/-! ### programs on messages -/

theorem items_bind {α β : Type} (ren : Bool) (p : Hs α) (f : α → Hs β) : ∀ (l : List Item) (b : β) (s r : List Item), (p.bind f).items ren l = .ok (b, s, r) →
    ∃ a s1 r1 s2, p.items ren l = .ok (a, s1, r1) ∧ (f a).items ren r1 = .ok (b, s2, r) ∧ s = s1 ++ s2 := by
  induction p with
  | ret a => intro l b s r h; exact ⟨a, [], l, s, rfl, h, rfl⟩
  | fail a e => intro l b s r h; cases h
  | panic => intro l b s r h; cases h
  | read k ih =>
    intro l b s r h
    match l, h with
    | .msg m :: l, h => exact ih m l b s r h
  | readSwitch k ih =>
    intro l b s r h
    match l, h with
    | .ccs :: .msg m :: l, h => exact ih true m l b s r h
    | .msg m :: l, h =>
      simp only [Hs.bind, Hs.items] at h
      by_cases hr : ren = true
      · rw [if_pos hr] at h
        obtain ⟨a, s1, r1, s2, h1, h2⟩ := ih false m l b s r h
        exact ⟨a, s1, r1, s2, by simp only [Hs.items]; rw [if_pos hr]; exact h1, h2⟩
      · rw [if_neg hr] at h; cases h
  | write x m k ih =>
    intro l b s r h
    obtain ⟨⟨b', s', r'⟩, h1, h2⟩ := map_ok_inv h
    simp only [Prod.mk.injEq] at h2
    obtain ⟨rfl, rfl, rfl⟩ := h2
    obtain ⟨a, s1, r1, s2, e1, e2, rfl⟩ := ih l _ _ _ h1
    exact ⟨a, .msg m :: s1, r1, s2, by simp only [Hs.items, e1, Res.map], e2, rfl⟩
  | writeCCS k ih =>
    intro l b s r h
    obtain ⟨⟨b', s', r'⟩, h1, h2⟩ := map_ok_inv h
    simp only [Prod.mk.injEq] at h2
    obtain ⟨rfl, rfl, rfl⟩ := h2
    obtain ⟨a, s1, r1, s2, e1, e2, rfl⟩ := ih l _ _ _ h1
    exact ⟨a, .ccs :: s1, r1, s2, by simp only [Hs.items, e1, Res.map], e2, rfl⟩
  | flush k ih => intro l b s r h; exact ih l b s r h
  | upd u k ih => intro l b s r h; exact ih l b s r h

theorem items_do {α β : Type} {ren : Bool} {p : Hs α} {f : α → Hs β} {l : List Item} {b : β} {s r : List Item} (h : (p >>= f).items ren l = .ok (b, s, r)) :
    ∃ a s1 r1 s2, p.items ren l = .ok (a, s1, r1) ∧ (f a).items ren r1 = .ok (b, s2, r) ∧ s = s1 ++ s2 := items_bind ren p f l b s r h

theorem items_ret {α : Type} {ren : Bool} {a b : α} {l s r : List Item} (h : (Hs.ret a).items ren l = .ok (b, s, r)) : a = b ∧ s = [] ∧ r = l := by
  simp only [Hs.items, Res.ok.injEq, Prod.mk.injEq] at h
  exact ⟨h.1, h.2.1.symm, h.2.2.symm⟩

theorem items_lift {α : Type} {ren : Bool} {al : Option Byte} {x : Res α} {a : α} {l s r : List Item} (h : (Hs.lift al x).items ren l = .ok (a, s, r)) :
    x = .ok a ∧ s = [] ∧ r = l := by
  cases x with
  | ok y => obtain ⟨e, h2⟩ := items_ret h; exact ⟨by rw [e], h2⟩
  | err e => cases h
  | panic => cases h

theorem items_check {ren : Bool} {al : Byte} {e : String} {b : Bool} {u : Unit} {l s r : List Item} (h : (Hs.check al e b).items ren l = .ok (u, s, r)) :
    b = true ∧ s = [] ∧ r = l := by
  unfold Hs.check at h
  split at h
  · rename_i hb; exact ⟨hb, (items_ret h).2⟩
  · cases h

theorem items_read {α : Type} {ren : Bool} {k : Message → Hs α} {l : List Item} {a : α} {s r : List Item} (h : (Hs.read k).items ren l = .ok (a, s, r)) :
    ∃ m l', l = .msg m :: l' ∧ (k m).items ren l' = .ok (a, s, r) := by
  match l, h with
  | .msg m :: l, h => exact ⟨m, l, rfl, h⟩

/-- a computation inside a program -/
theorem items_lift_do {α β : Type} {ren : Bool} {al : Option Byte} {x : Res α} {f : α → Hs β} {l : List Item} {b : β} {s r : List Item}
    (h : (Hs.lift al x >>= f).items ren l = .ok (b, s, r)) : ∃ a, x = .ok a ∧ (f a).items ren l = .ok (b, s, r) := by
  obtain ⟨a, s1, r1, s2, h1, h2, rfl⟩ := items_do h
  have hq := items_lift h1; clear h1; obtain ⟨h1, rfl, rfl⟩ := hq
  exact ⟨a, h1, h2⟩

theorem items_check_do {β : Type} {ren : Bool} {al : Byte} {e : String} {c : Bool} {f : Unit → Hs β} {l : List Item} {b : β} {s r : List Item}
    (h : (Hs.check al e c >>= f).items ren l = .ok (b, s, r)) : c = true ∧ (f ()).items ren l = .ok (b, s, r) := by
  obtain ⟨a, s1, r1, s2, h1, h2, rfl⟩ := items_do h
  have hq := items_check h1; clear h1; obtain ⟨h1, rfl, rfl⟩ := hq
  exact ⟨h1, h2⟩

theorem emitProg_items {ren : Bool} {fh : FinishedHash} {m : Message} {l : List Item} {fh' : FinishedHash} {s r : List Item}
    (h : (emitProg fh m).items ren l = .ok (fh', s, r)) : ∃ i, emit fh m = .ok (fh', i) ∧ s = [i] ∧ r = l := by
  unfold emitProg at h
  have hq := items_lift_do h; clear h; obtain ⟨x, hx, h⟩ := hq
  have hq := items_lift_do h; clear h; obtain ⟨f, hf, h⟩ := hq
  obtain ⟨⟨a, s', r'⟩, h1, h2⟩ := map_ok_inv h
  obtain ⟨rfl, rfl, rfl⟩ := items_ret h1
  simp only [Prod.mk.injEq] at h2
  obtain ⟨rfl, rfl, rfl⟩ := h2
  refine ⟨.msg x.2, ?_, rfl, rfl⟩
  unfold emit
  simp only [hx, hf, Res.ok_bind]

/-! ### the phases -/

theorem stdCertsProg_items {ren : Bool} {E : AuthEnv} {S : ClientHs} {cs : List Bytes} {l : List Item} {p : List X509.Cert × List (List X509.Cert)} {s r : List Item}
    (h : (stdCertsProg E S cs).items ren l = .ok (p, s, r)) : stdServerCerts E S cs = .ok p ∧ s = [] ∧ r = l := by
  unfold stdCertsProg at h
  unfold stdServerCerts
  cases hp : parseAll E.parse cs with
  | none => rw [hp] at h; cases h
  | some certs =>
    rw [hp] at h
    dsimp only at h ⊢
    have hq := items_lift_do h; clear h; obtain ⟨chains, hch, h⟩ := hq
    have hq := items_check_do h; clear h; obtain ⟨hcb, h⟩ := hq
    rw [hch, Res.ok_bind, if_neg (by rw [hcb]; decide)]
    cases certs with
    | nil => cases h
    | cons leaf rest =>
      dsimp only at h ⊢
      split at h
      · rename_i hk
        obtain ⟨rfl, rfl, rfl⟩ := items_ret h
        rw [if_pos hk]
        exact ⟨rfl, rfl, rfl⟩
      · cases h

theorem singleCertsProg_items {ren : Bool} {E : AuthEnv} {S : ClientHs} {cs : List Bytes} {l : List Item} {p : List X509.Cert × List (List X509.Cert)} {s r : List Item}
    (h : (singleCertsProg E S cs).items ren l = .ok (p, s, r)) : singleServerCerts E S cs = .ok p ∧ s = [] ∧ r = l := by
  unfold singleCertsProg at h
  unfold singleServerCerts
  cases hp : parseAll E.parse cs with
  | none => rw [hp] at h; cases h
  | some certs =>
    rw [hp] at h
    dsimp only at h ⊢
    have hq := items_lift_do h; clear h; obtain ⟨chains, hch, h⟩ := hq
    have hq := items_check_do h; clear h; obtain ⟨hcb, h⟩ := hq
    rw [hch, Res.ok_bind, if_neg (by rw [hcb]; decide)]
    cases certs with
    | nil => cases h
    | cons leaf rest =>
      dsimp only at h ⊢
      split at h
      · rename_i hk
        obtain ⟨rfl, rfl, rfl⟩ := items_ret h
        rw [if_pos hk]
        exact ⟨rfl, rfl, rfl⟩
      · cases h

theorem gmParseProg_items {ren : Bool} {parse : Bytes → Option X509.Cert} : ∀ {cs : List Bytes} {i : Nat} {l : List Item} {p : List X509.Cert} {s r : List Item},
    (gmParseProg parse i cs).items ren l = .ok (p, s, r) → gmParseAll parse i cs = some p ∧ s = [] ∧ r = l := by
  intro cs
  induction cs with
  | nil => intro i l p s r h; obtain ⟨rfl, rfl, rfl⟩ := items_ret h; exact ⟨rfl, rfl, rfl⟩
  | cons b cs ih =>
    intro i l p s r h
    unfold gmParseProg at h
    unfold gmParseAll
    cases hp : parse b with
    | none => rw [hp] at h; cases h
    | some c =>
      rw [hp] at h
      dsimp only at h
      have hq := items_check_do h; clear h; obtain ⟨_, h⟩ := hq
      have hq := items_check_do h; clear h; obtain ⟨hok, h⟩ := hq
      obtain ⟨a, s1, r1, s2, h1, h2, rfl⟩ := items_do h
      obtain ⟨g1, rfl, rfl⟩ := ih h1
      obtain ⟨rfl, rfl, rfl⟩ := items_ret h2
      simp [hok, g1]

theorem gmCertsProg_items {ren : Bool} {E : AuthEnv} {S : ClientHs} {cs : List Bytes} {l : List Item} {p : List X509.Cert × List (List X509.Cert)} {s r : List Item}
    (h : (gmCertsProg E S cs).items ren l = .ok (p, s, r)) : gmServerCerts E S cs = .ok p ∧ s = [] ∧ r = l := by
  unfold gmCertsProg at h
  unfold gmServerCerts
  have hq := items_do h; clear h; obtain ⟨a, s1, r1, s2, h1, h, rfl⟩ := hq
  obtain ⟨g1, rfl, rfl⟩ := gmParseProg_items h1
  have hq := items_lift_do h; clear h; obtain ⟨chains, hch, h⟩ := hq
  have hq := items_check_do h; clear h; obtain ⟨hcb, h⟩ := hq
  obtain ⟨rfl, rfl, rfl⟩ := items_ret h
  rw [g1]
  dsimp only
  rw [hch, Res.ok_bind, if_neg (by rw [hcb]; decide)]
  exact ⟨rfl, rfl, rfl⟩

theorem identityProg_items {ren : Bool} {E : AuthEnv} {S : ClientHs} {cs : List Bytes} {l : List Item} {p : List X509.Cert × List (List X509.Cert)} {s r : List Item}
    (h : (identityProg E S cs).items ren l = .ok (p, s, r)) : serverIdentity E S cs = .ok p ∧ s = [] ∧ r = l := by
  unfold identityProg at h
  unfold serverIdentity
  cases hp : S.previous with
  | some q => rw [hp] at h; exact items_lift h
  | none =>
    rw [hp] at h
    dsimp only at h ⊢
    split at h
    · rename_i hd; rw [if_pos hd]; exact gmCertsProg_items h
    · rename_i hd
      rw [if_neg hd]
      split at h
      · rename_i hg; rw [if_pos hg]; exact singleCertsProg_items h
      · rename_i hg; rw [if_neg hg]; exact stdCertsProg_items h

theorem certProg_items {ren : Bool} {E : AuthEnv} {S : ClientHs} {fh : FinishedHash} {l : List Item}
    {p : (List X509.Cert × List (List X509.Cert)) × FinishedHash} {s r : List Item}
    (h : (certProg E S fh).items ren l = .ok (p, s, r)) : serverCertPhase E S fh l = .ok (p.1, p.2, r) ∧ s = [] := by
  unfold certProg at h
  have hq := items_read h; clear h; obtain ⟨m, l', rfl, h⟩ := hq
  unfold serverCertPhase
  simp only [readMsg, Res.ok_bind]
  cases m with
  | certificate cm =>
    dsimp only at h ⊢
    split at h
    · cases h
    rename_i h0
    split at h
    · cases h
    rename_i h2
    rw [if_neg h0, if_neg h2]
    have hq := items_lift_do h; clear h; obtain ⟨x, hx, h⟩ := hq
    have hq := items_lift_do h; clear h; obtain ⟨f, hf, h⟩ := hq
    have hq := items_do h; clear h; obtain ⟨a, s1, r1, s2, h1, h, rfl⟩ := hq
    obtain ⟨g1, rfl, rfl⟩ := identityProg_items h1
    obtain ⟨rfl, rfl, rfl⟩ := items_ret h
    simp only [hx, hf, g1, Res.ok_bind]
    simp
  | _ => cases h

theorem statusProg_items {ren : Bool} {S : ClientHs} {fh : FinishedHash} {l : List Item} {p : FinishedHash × Message} {s r : List Item}
    (h : (statusProg S fh).items ren l = .ok (p, s, r)) : statusPhase S fh l = .ok (p.1, .msg p.2 :: r) ∧ s = [] := by
  unfold statusProg at h
  have hq := items_read h; clear h; obtain ⟨m, l', rfl, h⟩ := hq
  cases m with
  | certificateStatus cs =>
    unfold statusPhase
    dsimp only at h ⊢
    split at h
    · rename_i hg
      obtain ⟨rfl, rfl, rfl⟩ := items_ret h
      rw [if_pos hg]; exact ⟨rfl, rfl⟩
    rename_i hg
    rw [if_neg hg]
    split at h
    · cases h
    rename_i ho
    rw [if_neg ho]
    have hq := items_lift_do h; clear h; obtain ⟨x, hx, h⟩ := hq
    have hq := items_lift_do h; clear h; obtain ⟨f, hf, h⟩ := hq
    have hq := items_read h; clear h; obtain ⟨m, l'', rfl, h⟩ := hq
    obtain ⟨rfl, rfl, rfl⟩ := items_ret h
    simp only [hx, hf, Res.ok_bind]
    simp
  | _ => obtain ⟨rfl, rfl, rfl⟩ := items_ret h; exact ⟨rfl, rfl⟩

theorem skxProg_items {ren : Bool} {K : KaEnv} {S : ClientHs} {leaf enc : X509.Cert} {fh : FinishedHash} {m : Message} {l : List Item}
    {p : Option EcdheClient × FinishedHash × Message} {s r : List Item}
    (h : (skxProg K S leaf enc fh m).items ren l = .ok (p, s, r)) :
    skxPhase K S leaf enc fh (.msg m :: l) = .ok (p.1, p.2.1, .msg p.2.2 :: r) ∧ s = [] := by
  unfold skxProg at h
  cases m with
  | serverKeyExchange skx =>
    unfold skxPhase
    dsimp only at h ⊢
    have hq := items_lift_do h; clear h; obtain ⟨x, hx, h⟩ := hq
    have hq := items_lift_do h; clear h; obtain ⟨f, hf, h⟩ := hq
    have hq := items_lift_do h; clear h; obtain ⟨st, hst, h⟩ := hq
    have hq := items_read h; clear h; obtain ⟨m, l'', rfl, h⟩ := hq
    obtain ⟨rfl, rfl, rfl⟩ := items_ret h
    simp only [hx, hf, hst, Res.ok_bind]
    simp
  | _ => obtain ⟨rfl, rfl, rfl⟩ := items_ret h; exact ⟨rfl, rfl⟩

theorem reqProg_items {ren : Bool} {E : AuthEnv} {S : ClientHs} {fh : FinishedHash} {m : Message} {l : List Item}
    {p : Option Requested × FinishedHash × Message} {s r : List Item}
    (h : (reqProg E S fh m).items ren l = .ok (p, s, r)) : reqPhase E S fh (.msg m :: l) = .ok (p.1, p.2.1, .msg p.2.2 :: r) ∧ s = [] := by
  unfold reqProg at h
  cases m with
  | certificateRequest q =>
    unfold reqPhase
    dsimp only at h ⊢
    split at h
    · rename_i hg
      obtain ⟨rfl, rfl, rfl⟩ := items_ret h
      rw [if_pos hg]; exact ⟨rfl, rfl⟩
    rename_i hg
    rw [if_neg hg]
    have hq := items_lift_do h; clear h; obtain ⟨x, hx, h⟩ := hq
    have hq := items_lift_do h; clear h; obtain ⟨f, hf, h⟩ := hq
    have hq := items_lift_do h; clear h; obtain ⟨st, hst, h⟩ := hq
    have hq := items_read h; clear h; obtain ⟨m, l'', rfl, h⟩ := hq
    obtain ⟨rfl, rfl, rfl⟩ := items_ret h
    simp only [hx, hf, hst, Res.ok_bind]
    simp
  | certificateRequestGM q =>
    unfold reqPhase
    dsimp only at h ⊢
    split at h
    · rename_i hg
      obtain ⟨rfl, rfl, rfl⟩ := items_ret h
      rw [if_pos hg]; exact ⟨rfl, rfl⟩
    rename_i hg
    rw [if_neg hg]
    have hq := items_lift_do h; clear h; obtain ⟨x, hx, h⟩ := hq
    have hq := items_lift_do h; clear h; obtain ⟨f, hf, h⟩ := hq
    have hq := items_lift_do h; clear h; obtain ⟨st, hst, h⟩ := hq
    have hq := items_read h; clear h; obtain ⟨m, l'', rfl, h⟩ := hq
    obtain ⟨rfl, rfl, rfl⟩ := items_ret h
    simp only [hx, hf, hst, Res.ok_bind]
    simp
  | _ => obtain ⟨rfl, rfl, rfl⟩ := items_ret h; exact ⟨rfl, rfl⟩

theorem doneProg_items {ren : Bool} {fh : FinishedHash} {m : Message} {l : List Item} {p : FinishedHash} {s r : List Item}
    (h : (doneProg fh m).items ren l = .ok (p, s, r)) : donePhase fh (.msg m :: l) = .ok (p, r) ∧ s = [] := by
  unfold doneProg at h
  cases m with
  | serverHelloDone =>
    obtain ⟨h1, rfl, rfl⟩ := items_lift h
    unfold donePhase
    simp only [readMsg, Res.ok_bind, h1]
    simp
  | _ => cases h

theorem sendCertProg_items {ren : Bool} {req : Option Requested} {fh : FinishedHash} {l : List Item} {p : FinishedHash} {s r : List Item}
    (h : (sendCertProg req fh).items ren l = .ok (p, s, r)) : sendCert req fh = .ok (p, s) ∧ r = l := by
  match req, h with
  | none, h => obtain ⟨rfl, rfl, rfl⟩ := items_ret h; exact ⟨rfl, rfl⟩
  | some ⟨none, _⟩, h => cases h
  | some ⟨some c, _⟩, h =>
    obtain ⟨i, h1, rfl, rfl⟩ := emitProg_items h
    unfold sendCert
    simp only [h1, Res.ok_bind]
    simp

theorem sendCertVerifyProg_items {ren : Bool} {E : AuthEnv} {S : ClientHs} {req : Option Requested} {rand : Bytes} {fh : FinishedHash} {l : List Item}
    {p : FinishedHash} {s r : List Item} (h : (sendCertVerifyProg E S req rand fh).items ren l = .ok (p, s, r)) :
    sendCertVerify E S req rand fh = .ok (p, s) ∧ r = l := by
  match req, h with
  | none, h => obtain ⟨rfl, rfl, rfl⟩ := items_ret h; exact ⟨rfl, rfl⟩
  | some ⟨none, _⟩, h => obtain ⟨rfl, rfl, rfl⟩ := items_ret h; exact ⟨rfl, rfl⟩
  | some ⟨some c, algs⟩, h =>
    unfold sendCertVerifyProg at h
    unfold sendCertVerify
    dsimp only at h ⊢
    split at h
    · rename_i hl
      rw [if_pos hl]
      cases hk : c.key with
      | none => rw [hk] at h; cases h
      | some key =>
        rw [hk] at h
        dsimp only at h ⊢
        have hq := items_lift_do h; clear h; obtain ⟨cv, hcv, h⟩ := hq
        obtain ⟨i, h1, rfl, rfl⟩ := emitProg_items h
        simp only [hcv, h1, Res.ok_bind]
        simp
    · rename_i hl
      rw [if_neg hl]
      obtain ⟨rfl, rfl, rfl⟩ := items_ret h; exact ⟨rfl, rfl⟩

theorem finishedProg_items {ren : Bool} {S : ClientHs} {master : Bytes} {fh : FinishedHash} {l : List Item} {p : FinishedHash} {s r : List Item}
    (h : (finishedProg S master fh).items ren l = .ok (p, s, r)) : clientSendFinished S master fh = .ok (p, s) ∧ r = l := by
  unfold finishedProg at h
  have hq := map_ok_inv h; clear h; obtain ⟨⟨a, s', r'⟩, h, h2⟩ := hq
  simp only [Prod.mk.injEq] at h2
  obtain ⟨rfl, rfl, rfl⟩ := h2
  have hq := items_do h; clear h; obtain ⟨f, s1, r1, s2, h1, h, rfl⟩ := hq
  have hq := items_lift_do h; clear h; obtain ⟨x, hx, h⟩ := hq
  obtain ⟨i, h2, rfl, rfl⟩ := emitProg_items h
  unfold clientSendFinished
  have hn : sendNextProto S fh = .ok (f, s1) ∧ r = l := by
    unfold nextProtoProg at h1
    unfold sendNextProto
    cases hp : S.nextProto with
    | none => rw [hp] at h1; obtain ⟨rfl, rfl, rfl⟩ := items_ret h1; exact ⟨rfl, rfl⟩
    | some p =>
      rw [hp] at h1
      obtain ⟨j, h3, rfl, rfl⟩ := emitProg_items h1
      simp only [h3, Res.ok_bind]
      simp
  have hq := hn; clear hn; obtain ⟨hn, rfl⟩ := hq
  simp only [hn, hx, h2, Res.ok_bind]
  simp

theorem ticketProg_items {ren : Bool} {S : ClientHs} {fh : FinishedHash} {l : List Item} {p : Option Bytes × FinishedHash} {s r : List Item}
    (h : (ticketProg S fh).items ren l = .ok (p, s, r)) : ticketPhase S fh l = .ok (p.1, p.2, r) ∧ s = [] := by
  unfold ticketProg at h
  unfold ticketPhase
  split at h
  · rename_i ht
    rw [if_pos ht]
    have hq := items_read h; clear h; obtain ⟨m, l', rfl, h⟩ := hq
    simp only [readMsg, Res.ok_bind]
    cases m with
    | newSessionTicket t =>
      have hq := items_lift_do h; clear h; obtain ⟨x, hx, h⟩ := hq
      have hq := items_lift_do h; clear h; obtain ⟨f, hf, h⟩ := hq
      obtain ⟨rfl, rfl, rfl⟩ := items_ret h
      simp only [hx, hf, Res.ok_bind]
      simp
    | _ => cases h
  · rename_i ht
    rw [if_neg ht]
    obtain ⟨rfl, rfl, rfl⟩ := items_ret h; exact ⟨rfl, rfl⟩

/-- the session ticket, then the server's Finished -/
theorem finish_items {S : ClientHs} {c : ClientSent} {l r1 r2 s1 s2 : List Item} {t : Option Bytes × FinishedHash} {f : Bool × FinishedHash}
    (h1 : (ticketProg S c.fh).items S.renegotiation l = .ok (t, s1, r1)) (h2 : (readFinishedProg c.master t.2).items S.renegotiation r1 = .ok (f, s2, r2)) :
    clientFinish S c l = .ok ⟨t.1, f.1, f.2, r2⟩ ∧ s1 = [] ∧ s2 = [] := by
  obtain ⟨g1, rfl⟩ := ticketProg_items h1
  unfold clientFinish
  simp only [g1, Res.ok_bind]
  unfold readFinishedProg at h2
  have key : ∃ (sw : Bool) (m : Message) (l' : List Item), clientReadCCS S r1 = .ok (sw, .msg m :: l') ∧
      (match m with
        | .finished fin => (do
          let x ← Hs.lift none (t.2.serverSum c.master)
          if x.1.length ≠ fin.verifyData.length ∨ x.1 ≠ fin.verifyData then .fail (some 40) "tls: server's Finished message was incorrect"
          else do
            let y ← Hs.lift none fin.marshal
            let fh ← Hs.lift none (x.2.write y.1)
            .ret (sw, fh) : Hs (Bool × FinishedHash))
        | _ => .fail (some 10) "tls: unexpected message").items S.renegotiation l' = .ok (f, s2, r2) := by
    match r1, h2 with
    | .ccs :: .msg m :: l', h2 => exact ⟨true, m, l', rfl, h2⟩
    | .msg m :: l', h2 =>
      simp only [Hs.items] at h2
      split at h2
      · rename_i hr
        exact ⟨false, m, l', by simp only [clientReadCCS, hr, if_true], h2⟩
      · cases h2
  obtain ⟨sw, m, l', k1, k2⟩ := key
  simp only [k1, readMsg, Res.ok_bind]
  cases m with
  | finished fin =>
    dsimp only at k2 ⊢
    have hq := items_lift_do k2; clear k2; obtain ⟨x, hx, k2⟩ := hq
    simp only [hx, Res.ok_bind]
    split at k2
    · cases k2
    · rename_i hne
      rw [if_neg hne]
      have hq := items_lift_do k2; clear k2; obtain ⟨y, hy, k2⟩ := hq
      have hq := items_lift_do k2; clear k2; obtain ⟨z, hz, k2⟩ := hq
      obtain ⟨rfl, rfl, rfl⟩ := items_ret k2
      simp only [hy, hz, Res.ok_bind]
      simp
  | _ => cases k2

/-- the full handshake -/
theorem newSessionProg_items {K : KaEnv} {S : ClientHs} {hellos : List Bytes} {rk rs : Bytes} {l : List Item} {r : ClientEnd} {sent rest : List Item}
    (h : (newSessionProg K S hellos rk rs).items S.renegotiation l = .ok (r, sent, rest)) :
    ∃ (c : ClientSent) (d : ClientDone), clientFull K S hellos rk rs l = .ok (c, d) ∧ c.sent = sent ∧ d.rest = rest ∧ r.S = S ∧ r.hellos = hellos ∧ r.resumed = none ∧
      r.certs = c.certs ∧ r.chains = c.chains ∧ r.ecdhe = c.ecdhe ∧ r.master = c.master ∧ r.ticket = d.ticket ∧ r.switched = d.switched ∧ r.fh = d.fh := by
  unfold newSessionProg at h
  obtain ⟨f0, hf0, h1⟩ := items_lift_do h; clear h
  obtain ⟨f1, hf1, h2⟩ := items_lift_do h1; clear h1
  have h3 := h2; clear h2
  change ((fullProg K S rk rs f1) >>= _).items S.renegotiation l = _ at h3
  obtain ⟨c, s1, r1, s2, hc, h4, hs⟩ := items_do h3; clear h3
  change ((finishedProg S c.master c.fh) >>= _).items S.renegotiation r1 = _ at h4
  obtain ⟨g, s3, r2, s4, hg, h5, hs2⟩ := items_do h4; clear h4
  change ((ticketProg S g) >>= _).items S.renegotiation r2 = _ at h5
  obtain ⟨t, s5, r3, s6, ht, h6, hs3⟩ := items_do h5; clear h5
  obtain ⟨f, s7, r4, s8, hf, h7, hs4⟩ := items_do h6; clear h6
  obtain ⟨e1, e2, e3⟩ := items_ret h7; clear h7
  have hq := finishedProg_items hg; clear hg; obtain ⟨hg, eg⟩ := hq
  -- the flight
  unfold fullProg at hc
  obtain ⟨x, a1, b1, a2, hx, k1, q1⟩ := items_do hc; clear hc
  obtain ⟨y, a3, b2, a4, hy, k2, q2⟩ := items_do k1; clear k1
  obtain ⟨ka, hka, k3⟩ := items_lift_do k2; clear k2
  obtain ⟨z, a5, b3, a6, hz, k4, q3⟩ := items_do k3; clear k3
  obtain ⟨w, a7, b4, a8, hw, k5, q4⟩ := items_do k4; clear k4
  obtain ⟨f2, a9, b5, a10, hd, k6, q5⟩ := items_do k5; clear k5
  obtain ⟨f3, a11, b6, a12, hsc, k7, q6⟩ := items_do k6; clear k6
  obtain ⟨pc, hpc, k8⟩ := items_lift_do k7; clear k7
  obtain ⟨f4, a13, b7, a14, hck, k9, q7⟩ := items_do k8; clear k8
  obtain ⟨f5, a15, b8, a16, hcv, k10, q8⟩ := items_do k9; clear k9
  obtain ⟨ms, hms, k11⟩ := items_lift_do k10; clear k10
  obtain ⟨hlog, k12⟩ := items_check_do k11; clear k11
  obtain ⟨u1, u2, u3⟩ := items_ret k12; clear k12
  have hq := certProg_items hx; clear hx; obtain ⟨hx, v1⟩ := hq
  have hq := statusProg_items hy; clear hy; obtain ⟨hy, v2⟩ := hq
  have hq := skxProg_items hz; clear hz; obtain ⟨hz, v3⟩ := hq
  have hq := reqProg_items hw; clear hw; obtain ⟨hw, v4⟩ := hq
  have hq := doneProg_items hd; clear hd; obtain ⟨hd, v5⟩ := hq
  have hq := sendCertProg_items hsc; clear hsc; obtain ⟨hsc, v6⟩ := hq
  have hq := emitProg_items hck; clear hck; obtain ⟨ck, hck, v7, v8⟩ := hq
  have hq := sendCertVerifyProg_items hcv; clear hcv; obtain ⟨hcv, v9⟩ := hq
  subst v1 v2 v3 v4 v5 v6 v7 v8 v9 u1 u2 u3 eg
  have hfl : clientFlight K S hellos rk rs l = .ok ⟨x.1.1, x.1.2, z.1, ms, g, a11 ++ [ck] ++ a15 ++ s3, r2⟩ := by
    unfold clientFlight
    simp only [hf0, hf1, hx, hy, hka, hz, hw, hd, hsc, hpc, hck, hcv, hms, Res.ok_bind]
    rw [if_neg (by rw [hlog]; decide)]
    simp only [hg, Res.ok_bind]
  obtain ⟨hfin, w1, w2⟩ := finish_items (c := ⟨x.1.1, x.1.2, z.1, ms, g, a11 ++ [ck] ++ a15 ++ s3, r2⟩) ht hf
  subst w1 w2 e1 e2 e3
  refine ⟨_, _, by unfold clientFull; rw [hfl, Res.ok_bind, hfin, Res.ok_bind], ?_⟩
  simp [hs, hs2, hs3, hs4, q1, q2, q3, q4, q5, q6, q7, q8]

/-- the abbreviated handshake -/
theorem resumeProg_items {E : AuthEnv} {S : ClientHs} {hellos : List Bytes} {s : SavedSession} {l : List Item} {r : ClientEnd} {sent rest : List Item}
    (h : (resumeProg E S hellos s).items S.renegotiation l = .ok (r, sent, rest)) :
    ∃ q : ClientResumed, clientResume E S s hellos l = .ok q ∧ q.sent = sent ∧ q.rest = rest ∧ r.S = S ∧ r.hellos = hellos ∧ r.resumed = some s ∧
      r.certs = q.certs ∧ r.chains = q.chains ∧ r.master = q.master ∧ q.session = newSession S s r.ticket ∧ r.switched = q.switched ∧ r.fh = q.fh := by
  unfold resumeProg at h
  obtain ⟨f0, hf0, h1⟩ := items_lift_do h; clear h
  obtain ⟨f1, hf1, h2⟩ := items_lift_do h1; clear h1
  change ((ticketProg S f1) >>= _).items S.renegotiation l = _ at h2
  obtain ⟨t, s5, r3, s6, ht, h6, hs3⟩ := items_do h2; clear h2
  obtain ⟨f, s7, r4, s8, hf, h7, hs4⟩ := items_do h6; clear h6
  obtain ⟨g, s3, r2, s4, hg, h5, hs2⟩ := items_do h7; clear h7
  obtain ⟨e1, e2, e3⟩ := items_ret (ren := S.renegotiation) h5; clear h5
  have hq := finishedProg_items hg; clear hg; obtain ⟨hg, eg⟩ := hq
  obtain ⟨hfin, w1, w2⟩ := finish_items (c := ⟨s.certs, s.chains, none, s.master, f1, [], l⟩) ht hf
  subst w1 w2 e1 e2 e3 eg
  refine ⟨_, by unfold clientResume; simp only [hf0, hf1, hfin, hg, Res.ok_bind]; exact rfl, ?_⟩
  simp [hs3, hs4, hs2]

/-- the hellos -/
theorem helloProg_items {ren : Bool} {Z : ClientStart} {l : List Item} {x : ClientHs × List Bytes × Bool} {sent rest : List Item}
    (h : (helloProg Z).items ren l = .ok (x, sent, rest)) :
    ∃ (hb sb : Bytes) (m : Message) (sh : ServerHelloMsg) (y : ServerHelloMsg) (ch : ClientChoice), (Message.clientHello Z.hello).marshal = .ok (hb, m) ∧ sent = [.msg m] ∧
      l = .msg (.serverHello sh) :: rest ∧ sh.marshal = .ok (sb, y) ∧ Z.react sh = .ok ch ∧ x = (Z.knows sh ch, [hb, sb], ch.resume.isSome) := by
  unfold helloProg at h
  obtain ⟨⟨hb, m⟩, hm, h1⟩ := items_lift_do h; clear h
  obtain ⟨⟨a, s', r'⟩, h2, e⟩ := map_ok_inv h1; clear h1
  simp only [Prod.mk.injEq] at e
  obtain ⟨m2, l', hl, h3⟩ := items_read h2; clear h2
  cases m2 with
  | serverHello sh =>
    dsimp only at h3
    obtain ⟨u, s1, r1, s2, hu, h4, hs⟩ := items_do h3; clear h3
    have hr1 : s1 = [] ∧ r1 = l' := by
      unfold pinProg at hu
      split at hu
      · exact (items_ret hu).2
      · split at hu
        · exact (items_ret (ren := ren) hu).2
        · cases hu
    cases hr : Z.react sh with
    | error a => rw [hr] at h4; cases h4
    | ok ch =>
      rw [hr] at h4
      dsimp only at h4
      obtain ⟨⟨sb, y⟩, hy, h5⟩ := items_lift_do h4; clear h4
      obtain ⟨e1, e2, e3⟩ := items_ret h5
      refine ⟨hb, sb, m, sh, y, ch, hm, ?_, ?_, hy, hr, ?_⟩
      · rw [e.2.1, hs, hr1.1, e2]; rfl
      · rw [hl, e.2.2, e3, hr1.2]
      · rw [e.1, ← e1]
  | _ => cases h3

/-- **The client's program makes the decisions of `Negotiation`, `ClientFull` and `Resume`.** -/
theorem clientProg_items {K : KaEnv} {Z : ClientStart} {rk rs : Bytes} {l : List Item} {r : ClientEnd} {sent rest : List Item}
    (h : (clientProg K Z rk rs).items Z.S.renegotiation l = .ok (r, sent, rest)) :
    ∃ (hb sb : Bytes) (m : Message) (sh y : ServerHelloMsg) (ch : ClientChoice) (l' sent' : List Item),
      (Message.clientHello Z.hello).marshal = .ok (hb, m) ∧ sent = .msg m :: sent' ∧
      l = .msg (.serverHello sh) :: l' ∧ sh.marshal = .ok (sb, y) ∧ Z.react sh = .ok ch ∧ r.S = Z.knows sh ch ∧ r.hellos = [hb, sb] ∧
      ((r.resumed = none ∧ (ch.resume = none ∨ Z.session = none) ∧ ∃ (c : ClientSent) (d : ClientDone), clientFull K (Z.knows sh ch) [hb, sb] rk rs l' = .ok (c, d) ∧
          c.sent = sent' ∧ d.rest = rest ∧ r.certs = c.certs ∧ r.chains = c.chains ∧ r.ecdhe = c.ecdhe ∧ r.master = c.master ∧ r.ticket = d.ticket ∧
          r.switched = d.switched ∧ r.fh = d.fh) ∨
       (ch.resume.isSome = true ∧ ∃ (s : SavedSession) (q : ClientResumed), Z.session = some s ∧ r.resumed = some s ∧
          clientResume K.auth (Z.knows sh ch) s [hb, sb] l' = .ok q ∧ q.sent = sent' ∧ q.rest = rest ∧ r.certs = q.certs ∧ r.chains = q.chains ∧
          r.master = q.master ∧ q.session = newSession (Z.knows sh ch) s r.ticket ∧ r.switched = q.switched ∧ r.fh = q.fh)) := by
  unfold clientProg at h
  obtain ⟨u, s1, r1, s2, hu, h1, hs⟩ := items_do h; clear h
  have hr1 : s1 = [] ∧ r1 = l := by
    unfold versProg at hu
    split at hu
    · exact (items_ret (ren := Z.S.renegotiation) hu).2
    · exact (items_ret hu).2
  obtain ⟨x, s3, r2, s4, hx, h2, hs2⟩ := items_do h1; clear h1
  obtain ⟨hb, sb, m, sh, y, ch, hm, e1, e2, hy, hreact, e3⟩ := helloProg_items hx; clear hx
  rw [hr1.2] at e2
  subst e3
  dsimp only at h2
  refine ⟨hb, sb, m, sh, y, ch, r2, s4, hm, by rw [hs, hr1.1, hs2, e1]; rfl, e2, hy, hreact, ?_⟩
  split at h2
  · rename_i s hres hses
    obtain ⟨q, g1, g2, g3, g4, g5, g6, g7⟩ := resumeProg_items (S := Z.knows sh ch) h2
    exact ⟨g4, g5, .inr ⟨hres, s, q, hses, g6, g1, g2, g3, g7⟩⟩
  · rename_i hno
    obtain ⟨c, d, g1, g2, g3, g4, g5, g6, g7⟩ := newSessionProg_items (S := Z.knows sh ch) h2
    refine ⟨g4, g5, .inl ⟨g6, ?_, c, d, g1, g2, g3, g7⟩⟩
    cases hz : Z.session with
    | none => exact .inr rfl
    | some s =>
      left
      cases hc : ch.resume with
      | none => rfl
      | some w => exact absurd (show (some w).isSome = true from rfl) (fun hh => hno s (by rw [hc]; exact hh) hz)

end Verif.Tls
