import Verif.Tls.Messages
/-!
C33: no handshake message parser panics or loops forever, on any input.
-/
namespace Verif.Tls.Wire
open Verif

theorem bind_returns {α β : Type} {x : Res α} {f : α → Res β} (hx : x.returns)
    (hf : ∀ a, x = .ok a → (f a).returns) : (x >>= f).returns := by
  cases x with
  | ok a => exact hf a rfl
  | err e => trivial
  | panic => exact hx.elim

theorem returns_ok {α : Type} (a : α) : (Res.ok a).returns := trivial
theorem returns_pure {α : Type} (a : α) : (pure a : Res α).returns := trivial
theorem returns_no {α : Type} : (no : Res α).returns := trivial

theorem ite_returns {α : Type} {c : Prop} [Decidable c] {x y : Res α} (h1 : c → x.returns) (h2 : ¬c → y.returns) :
    (if c then x else y).returns := by
  split
  · exact h1 (by assumption)
  · exact h2 (by assumption)

macro "ret" : tactic => `(tactic| first | exact returns_no | exact returns_ok _ | exact returns_pure _)

theorem idx_returns {d : Bytes} {i : Nat} (h : i < d.length) : (idx d i).returns := by
  unfold idx; rw [dif_pos h]; trivial
theorem sl_returns {d : Bytes} {a b : Nat} (h : a ≤ b ∧ b ≤ d.length) : (sl d a b).returns := by
  unfold sl; rw [if_pos h]; trivial
theorem sfrom_returns {d : Bytes} {a : Nat} (h : a ≤ d.length) : (sfrom d a).returns := by
  unfold sfrom; rw [if_pos h]; trivial
theorem int16_returns {d : Bytes} {i : Nat} (h : i + 1 < d.length) : (int16 d i).returns :=
  bind_returns (idx_returns (by omega)) fun _ _ => bind_returns (idx_returns h) fun _ _ => trivial
theorem u16_returns {d : Bytes} {i : Nat} (h : i + 1 < d.length) : (u16 d i).returns :=
  bind_returns (int16_returns h) fun _ _ => trivial
theorem u24_returns {d : Bytes} {i : Nat} (h : i + 2 < d.length) : (u24 d i).returns :=
  bind_returns (idx_returns (by omega)) fun _ _ => bind_returns (idx_returns (by omega)) fun _ _ =>
    bind_returns (idx_returns h) fun _ _ => trivial

theorem sl_len {d r : Bytes} {a b : Nat} (h : sl d a b = .ok r) : r.length = b - a := by
  unfold sl at h
  split at h
  · rename_i hc; cases h; simp; omega
  · cases h
theorem sfrom_len {d r : Bytes} {a : Nat} (h : sfrom d a = .ok r) : r.length = d.length - a := by
  unfold sfrom at h
  split at h
  · cases h; simp
  · cases h
theorem sfrom_eq {d r : Bytes} {a : Nat} (h : sfrom d a = .ok r) : r = d.drop a := by
  unfold sfrom at h
  split at h
  · cases h; rfl
  · cases h
theorem u24_lt {d : Bytes} {i n : Nat} (h : u24 d i = .ok n) : n < 2^24 := by
  simp only [u24, Res.bind_eq_ok, Res.pure_eq, Res.ok.injEq] at h
  obtain ⟨a, _, b, _, c, _, rfl⟩ := h
  have := a.isLt; have := b.isLt; have := c.isLt
  omega

theorem readU16s_returns (n : Nat) : ∀ d : Bytes, 2 * n ≤ d.length → (readU16s n d).returns := by
  induction n with
  | zero => intro d _; ret
  | succ n ih =>
    intro d h
    unfold readU16s
    refine bind_returns (u16_returns (by omega)) fun v _ => bind_returns (sfrom_returns (by omega)) fun d' hd' => ?_
    have := sfrom_len hd'
    exact bind_returns (ih d' (by omega)) fun _ _ => returns_pure _

theorem readSuites_returns (data : Bytes) (n : Nat) : ∀ i m, 2 + 2 * (i + n) ≤ data.length →
    (readSuites data i n m).returns := by
  induction n with
  | zero => intro i m _; ret
  | succ n ih =>
    intro i m h
    unfold readSuites
    exact bind_returns (u16_returns (by omega)) fun v _ => ih _ _ (by omega)

theorem sniLoop_returns (fuel : Nat) : ∀ d m, d.length < fuel → (sniLoop fuel d m).returns := by
  induction fuel with
  | zero => intro d m h; omega
  | succ fuel ih =>
    intro d m h
    unfold sniLoop
    split
    · split
      · ret
      · refine bind_returns (idx_returns (by omega)) fun nt _ => bind_returns (int16_returns (by omega)) fun nl _ =>
          bind_returns (sfrom_returns (by omega)) fun d' hd' => ?_
        have := sfrom_len hd'
        split
        · ret
        · split
          · refine bind_returns (sl_returns (by omega)) fun nm _ => ?_
            split <;> ret
          · refine bind_returns (sfrom_returns (by omega)) fun d'' hd'' => ?_
            have := sfrom_len hd''
            exact ih _ _ (by omega)
    · ret

theorem stringsLoop_returns (fuel : Nat) : ∀ d acc, d.length < fuel → (stringsLoop fuel d acc).returns := by
  induction fuel with
  | zero => intro d m h; omega
  | succ fuel ih =>
    intro d m h
    unfold stringsLoop
    split
    · refine bind_returns (idx_returns (by omega)) fun l _ => bind_returns (sfrom_returns (by omega)) fun d' hd' => ?_
      have := sfrom_len hd'
      split
      · ret
      · refine bind_returns (sl_returns (by omega)) fun nm _ => bind_returns (sfrom_returns (by omega)) fun d'' hd'' => ?_
        have := sfrom_len hd''
        exact ih _ _ (by omega)
    · ret

theorem sctLoop_returns (fuel : Nat) : ∀ d acc, d.length < fuel → (sctLoop fuel d acc).returns := by
  induction fuel with
  | zero => intro d m h; omega
  | succ fuel ih =>
    intro d m h
    unfold sctLoop
    split
    · split
      · ret
      · refine bind_returns (int16_returns (by omega)) fun l _ => bind_returns (sfrom_returns (by omega)) fun d' hd' => ?_
        have := sfrom_len hd'
        split
        · ret
        · refine bind_returns (sl_returns (by omega)) fun nm _ => bind_returns (sfrom_returns (by omega)) fun d'' hd'' => ?_
          have := sfrom_len hd''
          exact ih _ _ (by omega)
    · ret

theorem casLoop_returns (fuel : Nat) : ∀ d acc, d.length < fuel → (casLoop fuel d acc).returns := by
  induction fuel with
  | zero => intro d m h; omega
  | succ fuel ih =>
    intro d m h
    unfold casLoop
    split
    · split
      · ret
      · refine bind_returns (int16_returns (by omega)) fun l _ => bind_returns (sfrom_returns (by omega)) fun d' hd' => ?_
        have := sfrom_len hd'
        split
        · ret
        · refine bind_returns (sl_returns (by omega)) fun nm _ => bind_returns (sfrom_returns (by omega)) fun d'' hd'' => ?_
          have := sfrom_len hd''
          exact ih _ _ (by omega)
    · ret

theorem extLoop_returns {M : Type} (sw : M → Nat → Bytes → Nat → Res M)
    (hsw : ∀ m e d l, l ≤ d.length → (sw m e d l).returns) (fuel : Nat) :
    ∀ d m, d.length < fuel → (extLoop sw fuel d m).returns := by
  induction fuel with
  | zero => intro d m h; omega
  | succ fuel ih =>
    intro d m h
    unfold extLoop
    split
    · split
      · ret
      · refine bind_returns (int16_returns (by omega)) fun e _ => bind_returns (int16_returns (by omega)) fun l _ =>
          bind_returns (sfrom_returns (by omega)) fun d' hd' => ?_
        have := sfrom_len hd'
        split
        · ret
        · refine bind_returns (hsw _ _ _ _ (by omega)) fun m' _ => bind_returns (sfrom_returns (by omega)) fun d'' hd'' => ?_
          have := sfrom_len hd''
          exact ih _ _ (by omega)
    · ret

theorem extBlockLoop_returns {M : Type} (sw : M → Nat → Bytes → Nat → Res M)
    (hsw : ∀ m e d l, l ≤ d.length → (sw m e d l).returns) (d : Bytes) (m : M) :
    (extBlockLoop sw d m).returns := by
  unfold extBlockLoop
  split
  · ret
  · split
    · ret
    · refine bind_returns (int16_returns (by omega)) fun e _ => bind_returns (sfrom_returns (by omega)) fun d' hd' => ?_
      split
      · ret
      · exact extLoop_returns sw hsw _ _ _ (by omega)

theorem chExtension_returns (m : ClientHelloMsg) (e : Nat) (d : Bytes) (l : Nat) (h : l ≤ d.length) :
    (chExtension m e d l).returns := by
  unfold chExtension
  repeat' refine ite_returns (fun _ => ?_) (fun _ => ?_)
  all_goals first | ret | skip
  · refine bind_returns (sl_returns (by omega)) fun d' hd' => ?_
    have := sl_len hd'
    split
    · ret
    · refine bind_returns (int16_returns (by omega)) fun e _ => bind_returns (sfrom_returns (by omega)) fun d' hd' => ?_
      split
      · ret
      · exact sniLoop_returns _ _ _ (by omega)
  · exact bind_returns (idx_returns (by omega)) fun _ _ => returns_pure _
  · refine bind_returns (int16_returns (by omega)) fun e _ => ?_
    split
    · ret
    · refine bind_returns (sfrom_returns (by omega)) fun d' hd' => ?_
      have := sfrom_len hd'
      exact bind_returns (readU16s_returns _ _ (by omega)) fun _ _ => returns_pure _
  · refine bind_returns (idx_returns (by omega)) fun e _ => ?_
    split
    · ret
    · exact bind_returns (sfrom_returns (by omega)) fun d' hd' => returns_pure _
  · exact bind_returns (sl_returns (by omega)) fun _ _ => returns_pure _
  · refine bind_returns (int16_returns (by omega)) fun e _ => ?_
    split
    · ret
    · refine bind_returns (sfrom_returns (by omega)) fun d' hd' => ?_
      have := sfrom_len hd'
      exact bind_returns (readU16s_returns _ _ (by omega)) fun _ _ => returns_pure _
  · refine bind_returns (sl_returns (by omega)) fun d' hd' => ?_
    have := sl_len hd'
    refine bind_returns (idx_returns (by omega)) fun e _ => bind_returns (sfrom_returns (by omega)) fun d' hd' => ?_
    split <;> ret
  · refine bind_returns (int16_returns (by omega)) fun e _ => ?_
    split
    · ret
    · exact bind_returns (sl_returns (by omega)) fun d' hd' =>
        bind_returns (stringsLoop_returns _ _ _ (by omega)) fun _ _ => returns_pure _

theorem shExtension_returns (m : ServerHelloMsg) (e : Nat) (d : Bytes) (l : Nat) (h : l ≤ d.length) :
    (shExtension m e d l).returns := by
  unfold shExtension
  repeat' refine ite_returns (fun _ => ?_) (fun _ => ?_)
  all_goals first | ret | skip
  · exact bind_returns (sl_returns (by omega)) fun d' hd' =>
      bind_returns (stringsLoop_returns _ _ _ (by omega)) fun _ _ => returns_pure _
  · refine bind_returns (sl_returns (by omega)) fun d' hd' => ?_
    have := sl_len hd'
    refine bind_returns (idx_returns (by omega)) fun e _ => bind_returns (sfrom_returns (by omega)) fun d' hd' => ?_
    split <;> ret
  · refine bind_returns (sl_returns (by omega)) fun d' hd' => ?_
    split
    · ret
    · refine bind_returns (int16_returns (by omega)) fun e _ => ?_
      split
      · ret
      · refine bind_returns (sfrom_returns (by omega)) fun d' hd' => ?_
        have := sfrom_len hd'
        refine bind_returns (idx_returns (by omega)) fun e _ => ?_
        split
        · ret
        · refine bind_returns (sfrom_returns (by omega)) fun d' hd' => ?_
          split <;> ret
  · refine bind_returns (sl_returns (by omega)) fun d' hd' => ?_
    split
    · ret
    · refine bind_returns (int16_returns (by omega)) fun e _ => bind_returns (sfrom_returns (by omega)) fun d' hd' => ?_
      split
      · ret
      · exact bind_returns (sctLoop_returns _ _ _ (by omega)) fun _ _ => returns_pure _

/-- Every message parser: for every receiver and every input, it returns. -/
theorem C33_client_hello (m : ClientHelloMsg) (data : Bytes) : (m.unmarshal data).returns := by
  unfold ClientHelloMsg.unmarshal
  split
  · ret
  · refine bind_returns (u16_returns (by omega)) fun _ _ => bind_returns (sl_returns (by omega)) fun _ _ =>
      bind_returns (idx_returns (by omega)) fun sidLen _ => ?_
    split
    · ret
    · refine bind_returns (sl_returns (by omega)) fun _ _ => bind_returns (sfrom_returns (by omega)) fun d hd => ?_
      split
      · ret
      · refine bind_returns (int16_returns (by omega)) fun cl _ => ?_
        split
        · ret
        · refine bind_returns (readSuites_returns _ _ _ _ (by omega)) fun _ _ =>
            bind_returns (sfrom_returns (by omega)) fun d hd => ?_
          split
          · ret
          · refine bind_returns (idx_returns (by omega)) fun cl _ => ?_
            split
            · ret
            · exact bind_returns (sl_returns (by omega)) fun _ _ => bind_returns (sfrom_returns (by omega)) fun d hd =>
                extBlockLoop_returns _ chExtension_returns _ _

theorem C33_server_hello (m : ServerHelloMsg) (data : Bytes) : (m.unmarshal data).returns := by
  unfold ServerHelloMsg.unmarshal
  split
  · ret
  · refine bind_returns (u16_returns (by omega)) fun _ _ => bind_returns (sl_returns (by omega)) fun _ _ =>
      bind_returns (idx_returns (by omega)) fun sidLen _ => ?_
    split
    · ret
    · refine bind_returns (sl_returns (by omega)) fun _ _ => bind_returns (sfrom_returns (by omega)) fun d hd => ?_
      split
      · ret
      · exact bind_returns (u16_returns (by omega)) fun _ _ => bind_returns (idx_returns (by omega)) fun _ _ =>
          bind_returns (sfrom_returns (by omega)) fun d hd => extBlockLoop_returns _ shExtension_returns _ _

/-- the counting loop: `certsLen` always equals the number of bytes left, as a `uint32`, so it never
wraps, the loop ends, and the second loop stays in range -/
theorem countCerts_spec (fuel : Nat) : ∀ cl d n, cl < fuel → cl < 2^32 → d.length % 2^32 = cl →
    (countCerts fuel cl d n).returns ∧
    ∀ k, countCerts fuel cl d n = .ok k → n ≤ k ∧ (takeCerts (k - n) d).returns := by
  induction fuel with
  | zero => intro cl d n h; omega
  | succ fuel ih =>
    intro cl d n hf hlt hcl
    unfold countCerts
    split
    · split
      · exact ⟨trivial, fun k hk => by cases hk⟩
      · rename_i h0 h4
        have hu : (u24 d 0).returns := u24_returns (by omega)
        cases hv : u24 d 0 with
        | panic => rw [hv] at hu; exact hu.elim
        | err e => exact ⟨trivial, fun k hk => by cases hk⟩
        | ok c =>
          have hc := u24_lt hv
          rw [Res.ok_bind]
          split
          · exact ⟨trivial, fun k hk => by cases hk⟩
          · rename_i hge
            have hmod : d.length % 2^32 ≤ d.length := Nat.mod_le _ _
            have hle : 3 + c ≤ d.length := by omega
            have hs : sfrom d (3 + c) = .ok (d.drop (3 + c)) := if_pos hle
            rw [hs, Res.ok_bind]
            have hcl' : (cl + 2^32 - (3 + c)) % 2^32 = cl - (3 + c) := by omega
            rw [hcl']
            have hlen : (d.drop (3 + c)).length % 2^32 = cl - (3 + c) := by
              rw [List.length_drop]; omega
            obtain ⟨h1, h2⟩ := ih (cl - (3 + c)) (d.drop (3 + c)) (n + 1) (by omega) (by omega) hlen
            refine ⟨h1, fun k hk => ?_⟩
            obtain ⟨hnk, ht⟩ := h2 k hk
            refine ⟨by omega, ?_⟩
            obtain ⟨j, rfl⟩ : ∃ j, k = n + 1 + j := ⟨k - (n + 1), by omega⟩
            have e1 : n + 1 + j - n = j + 1 := by omega
            have e2 : n + 1 + j - (n + 1) = j := by omega
            rw [e1]; rw [e2] at ht
            unfold takeCerts
            rw [hv, Res.ok_bind]
            refine bind_returns (sl_returns (by omega)) fun _ _ => ?_
            rw [hs, Res.ok_bind]
            exact bind_returns ht fun _ _ => returns_pure _
    · refine ⟨trivial, fun k hk => ?_⟩
      cases hk
      exact ⟨Nat.le_refl _, by rw [Nat.sub_self]; trivial⟩

theorem C33_certificate (m : CertificateMsg) (data : Bytes) : (m.unmarshal data).returns := by
  unfold CertificateMsg.unmarshal
  split
  · ret
  · refine bind_returns (u24_returns (by omega)) fun cl hcl => ?_
    have hlt := u24_lt hcl
    split
    · ret
    · rename_i h7 heq
      have hs : sfrom data 7 = .ok (data.drop 7) := if_pos (by omega)
      rw [hs]
      simp only [Res.ok_bind]
      have hmod : (data.drop 7).length % 2^32 = cl := by rw [List.length_drop]; omega
      obtain ⟨h1, h2⟩ := countCerts_spec (cl + 1) cl (data.drop 7) 0 (by omega) (by omega) hmod
      exact bind_returns h1 fun k hk => bind_returns (h2 k hk).2 fun _ _ => returns_pure _

theorem C33_server_key_exchange (m : ServerKeyExchangeMsg) (data : Bytes) : (m.unmarshal data).returns := by
  unfold ServerKeyExchangeMsg.unmarshal
  split
  · ret
  · exact bind_returns (sfrom_returns (by omega)) fun _ _ => returns_pure _

theorem C33_client_key_exchange (m : ClientKeyExchangeMsg) (data : Bytes) : (m.unmarshal data).returns := by
  unfold ClientKeyExchangeMsg.unmarshal
  split
  · ret
  · refine bind_returns (u24_returns (by omega)) fun _ _ => ?_
    split
    · ret
    · exact bind_returns (sfrom_returns (by omega)) fun _ _ => returns_pure _

theorem C33_finished (m : FinishedMsg) (data : Bytes) : (m.unmarshal data).returns := by
  unfold FinishedMsg.unmarshal
  split
  · ret
  · exact bind_returns (sfrom_returns (by omega)) fun _ _ => returns_pure _

theorem C33_certificate_status (m : CertificateStatusMsg) (data : Bytes) : (m.unmarshal data).returns := by
  unfold CertificateStatusMsg.unmarshal
  split
  · ret
  · refine bind_returns (idx_returns (by omega)) fun _ _ => ?_
    split
    · split
      · ret
      · refine bind_returns (u24_returns (by omega)) fun _ _ => ?_
        split
        · ret
        · exact bind_returns (sfrom_returns (by omega)) fun _ _ => returns_pure _
    · ret

theorem C33_server_hello_done (data : Bytes) : (serverHelloDoneUnmarshal data).returns := by
  unfold serverHelloDoneUnmarshal; split <;> ret

theorem C33_hello_request (data : Bytes) : (helloRequestUnmarshal data).returns := by
  unfold helloRequestUnmarshal; split <;> ret

theorem C33_next_proto (m : NextProtoMsg) (data : Bytes) : (m.unmarshal data).returns := by
  unfold NextProtoMsg.unmarshal
  split
  · ret
  · refine bind_returns (sfrom_returns (by omega)) fun d hd => ?_
    have := sfrom_len hd
    refine bind_returns (idx_returns (by omega)) fun _ _ => bind_returns (sfrom_returns (by omega)) fun d hd => ?_
    split
    · ret
    · refine bind_returns (sl_returns (by omega)) fun _ _ => bind_returns (sfrom_returns (by omega)) fun d hd => ?_
      split
      · ret
      · refine bind_returns (idx_returns (by omega)) fun _ _ => bind_returns (sfrom_returns (by omega)) fun d hd => ?_
        split <;> ret

theorem certTypes_returns (data : Bytes) : (certTypes data).returns := by
  unfold certTypes
  split
  · ret
  · refine bind_returns (u24_returns (by omega)) fun _ _ => ?_
    refine ite_returns (fun _ => ?_) (fun _ => ?_)
    · ret
    · refine bind_returns (idx_returns (by omega)) fun _ _ => bind_returns (sfrom_returns (by omega)) fun d hd => ?_
      split
      · ret
      · dsimp only
        split
        · ret
        · exact bind_returns (sfrom_returns (by omega)) fun _ _ => returns_pure _

theorem casTail_returns (data : Bytes) : (casTail data).returns := by
  unfold casTail
  split
  · ret
  · refine bind_returns (int16_returns (by omega)) fun _ _ => bind_returns (sfrom_returns (by omega)) fun d hd => ?_
    split
    · ret
    · refine bind_returns (sl_returns (by omega)) fun _ _ => bind_returns (sfrom_returns (by omega)) fun d hd =>
        bind_returns (casLoop_returns _ _ _ (by omega)) fun _ _ => ?_
      split <;> ret

theorem certReqSigAlgs_returns (data : Bytes) : (certReqSigAlgs data).returns := by
  unfold certReqSigAlgs
  split
  · ret
  · refine bind_returns (int16_returns (by omega)) fun _ _ => bind_returns (sfrom_returns (by omega)) fun d hd => ?_
    split
    · ret
    · split
      · ret
      · exact readU16s_returns _ _ (by omega)

theorem C33_certificate_request (m : CertificateRequestMsg) (data : Bytes) : (m.unmarshal data).returns := by
  unfold CertificateRequestMsg.unmarshal
  refine bind_returns (certTypes_returns _) fun p _ => ?_
  obtain ⟨tys, rest⟩ := p
  refine ite_returns (fun _ => ?_) (fun _ => ?_)
  · exact bind_returns (certReqSigAlgs_returns _) fun _ _ => bind_returns (casTail_returns _) fun _ _ => returns_pure _
  · exact bind_returns (casTail_returns _) fun _ _ => returns_pure _

theorem C33_certificate_request_gm (m : CertificateRequestMsgGM) (data : Bytes) : (m.unmarshal data).returns :=
  bind_returns (certTypes_returns _) fun _ _ => bind_returns (casTail_returns _) fun _ _ => returns_pure _

theorem certVerifySig_returns (data : Bytes) : (certVerifySig data).returns := by
  unfold certVerifySig
  split
  · ret
  · refine bind_returns (int16_returns (by omega)) fun _ _ => bind_returns (sfrom_returns (by omega)) fun d hd => ?_
    split <;> ret

theorem C33_certificate_verify (m : CertificateVerifyMsg) (data : Bytes) : (m.unmarshal data).returns := by
  unfold CertificateVerifyMsg.unmarshal
  split
  · ret
  · refine bind_returns (u24_returns (by omega)) fun _ _ => ?_
    refine ite_returns (fun _ => ?_) (fun _ => ?_)
    · ret
    · refine bind_returns (sfrom_returns (by omega)) fun d hd => ?_
      have := sfrom_len hd
      split
      · exact bind_returns (u16_returns (by omega)) fun _ _ => bind_returns (sfrom_returns (by omega)) fun _ _ =>
          bind_returns (certVerifySig_returns _) fun _ _ => returns_pure _
      · exact bind_returns (certVerifySig_returns _) fun _ _ => returns_pure _

theorem C33_new_session_ticket (m : NewSessionTicketMsg) (data : Bytes) : (m.unmarshal data).returns := by
  unfold NewSessionTicketMsg.unmarshal
  split
  · ret
  · refine bind_returns (u24_returns (by omega)) fun _ _ => ?_
    refine ite_returns (fun _ => ?_) (fun _ => ?_)
    · ret
    · refine bind_returns (int16_returns (by omega)) fun _ _ => ?_
      split
      · ret
      · exact bind_returns (sfrom_returns (by omega)) fun _ _ => returns_pure _

end Verif.Tls.Wire
