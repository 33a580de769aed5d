import Verif.Tls.Ticket
import Mathlib.Tactic.ByContra
import Mathlib.Tactic.Basic
namespace Verif.Tls
open Verif

/-- a session state whose lengths fit the ticket format -/
structure SessionState.Fits (s : SessionState) : Prop where
  ms : s.masterSecret.length < 2 ^ 16
  count : s.certificates.length < 2 ^ 16
  cert : ∀ c ∈ s.certificates, c.length < 2 ^ 32

theorem parseCerts_marshal (l : List Bytes) (r : Bytes) (h : ∀ c ∈ l, c.length < 2 ^ 32) :
    parseCerts l.length (l.flatMap marshalCert ++ r) = some (l, r) := by
  induction l with
  | nil => rfl
  | cons c t ih =>
    have hc := h c (by simp)
    have e : (c :: t).flatMap marshalCert ++ r = beFixed 4 c.length ++ (c ++ (t.flatMap marshalCert ++ r)) := by
      simp [marshalCert]
    rw [e, List.length_cons, parseCerts]
    rw [if_neg (by simp), List.take_left' (by simp), List.drop_left' (by simp), beNat_beFixed_of_lt (by
      rw [show 256 ^ 4 = 2 ^ 32 by decide]; exact hc)]
    dsimp only
    rw [if_neg (by simp), List.drop_left' rfl, List.take_left' rfl, ih (fun x hx => h x (by simp [hx]))]

theorem parseCerts_inv (n : Nat) (d r : Bytes) (l : List Bytes) (h : parseCerts n d = some (l, r)) :
    l.length = n ∧ d = l.flatMap marshalCert ++ r ∧ ∀ c ∈ l, c.length < 2 ^ 32 := by
  induction n generalizing d l with
  | zero =>
    simp only [parseCerts, Option.some.injEq, Prod.mk.injEq] at h
    obtain ⟨rfl, rfl⟩ := h
    simp
  | succ n ih =>
    rw [parseCerts] at h
    split at h
    · simp at h
    rename_i h4
    dsimp only at h
    split at h
    · simp at h
    rename_i hlen
    split at h
    · simp at h
    rename_i l' r' hp
    simp only [Option.some.injEq, Prod.mk.injEq] at h
    obtain ⟨rfl, rfl⟩ := h
    obtain ⟨i1, i2, i3⟩ := ih _ _ hp
    have ht4 : (d.take 4).length = 4 := by simp; omega
    have hv := beFixed_beNat (d.take 4)
    have hlt := beNat_lt (d.take 4)
    rw [ht4] at hv hlt
    have hcl : ((d.drop 4).take (beNat (d.take 4))).length = beNat (d.take 4) := by
      rw [List.length_take]; omega
    refine ⟨by simp [i1], ?_, ?_⟩
    · have e : marshalCert ((d.drop 4).take (beNat (d.take 4))) = d.take 4 ++ (d.drop 4).take (beNat (d.take 4)) := by
        rw [marshalCert, hcl, hv]
      rw [List.flatMap_cons, e]
      have h1 := List.take_append_drop 4 d
      have h2 := List.take_append_drop (beNat (d.take 4)) (d.drop 4)
      rw [List.append_assoc, ← i2, List.append_assoc, h2, h1]
    · intro c hc
      rcases List.mem_cons.1 hc with rfl | hc
      · rw [hcl]; exact hlt
      · exact i3 c hc

theorem ofNat_beNat_beFixed (v : BitVec 16) : BitVec.ofNat 16 (beNat (beFixed 2 v.toNat)) = v := by
  rw [beNat_beFixed_of_lt (by have := v.isLt; omega)]
  simp

/-- **C34** The serialized session state parses back to itself. -/
theorem C34_state_roundtrip (s : SessionState) (h : s.Fits) (old : Bool) :
    SessionState.unmarshal old s.marshal = some { s with usedOldKey := old } := by
  obtain ⟨v, cs, ms, certs, u⟩ := s
  obtain ⟨h1, h2, h3⟩ := h
  dsimp only at h1 h2 h3
  have e : SessionState.marshal ⟨v, cs, ms, certs, u⟩ = beFixed 2 v.toNat ++ (beFixed 2 cs.toNat ++ (beFixed 2 ms.length ++
      (ms ++ (beFixed 2 certs.length ++ certs.flatMap marshalCert)))) := by
    simp [SessionState.marshal]
  rw [e, SessionState.unmarshal]
  rw [if_neg (by simp; omega)]
  have d2 : ∀ (a b : Bytes), a.length = 2 → (a ++ b).drop 2 = b := fun a b ha => List.drop_left' ha
  have t2 : ∀ (a b : Bytes), a.length = 2 → (a ++ b).take 2 = a := fun a b ha => List.take_left' ha
  have hd4 : List.drop 4 (beFixed 2 v.toNat ++ (beFixed 2 cs.toNat ++ (beFixed 2 ms.length ++
      (ms ++ (beFixed 2 certs.length ++ certs.flatMap marshalCert))))) = beFixed 2 ms.length ++
      (ms ++ (beFixed 2 certs.length ++ certs.flatMap marshalCert)) := by
    rw [show 4 = 2 + 2 from rfl, ← List.drop_drop, d2 _ _ (by simp), d2 _ _ (by simp)]
  have hd6 : List.drop 6 (beFixed 2 v.toNat ++ (beFixed 2 cs.toNat ++ (beFixed 2 ms.length ++
      (ms ++ (beFixed 2 certs.length ++ certs.flatMap marshalCert))))) =
      (ms ++ (beFixed 2 certs.length ++ certs.flatMap marshalCert)) := by
    rw [show 6 = 4 + 2 from rfl, ← List.drop_drop, hd4, d2 _ _ (by simp)]
  have hl : beNat (beFixed 2 ms.length) = ms.length := beNat_beFixed_of_lt (by omega)
  have hc : beNat (beFixed 2 certs.length) = certs.length := beNat_beFixed_of_lt (by omega)
  have hp := parseCerts_marshal certs [] h3
  rw [List.append_nil] at hp
  dsimp only
  rw [hd4, hd6, t2 _ _ (by simp), d2 _ _ (by simp), t2 _ _ (by simp), t2 _ _ (by simp), hl,
    if_neg (by simp), List.drop_left' rfl, List.take_left' rfl, if_neg (by simp), t2 _ _ (by simp), d2 _ _ (by simp), hc, hp]
  dsimp only
  rw [if_pos (by simp), ofNat_beNat_beFixed, ofNat_beNat_beFixed]

/-- **C34** and the format is canonical: bytes that parse are exactly the serialization of the result
(no trailing data, no second encoding). -/
theorem C34_state_canonical (old : Bool) (data : Bytes) (s : SessionState)
    (h : SessionState.unmarshal old data = some s) : s.marshal = data ∧ s.Fits ∧ s.usedOldKey = old := by
  rw [SessionState.unmarshal] at h
  split at h
  · simp at h
  rename_i h8
  dsimp only at h
  split at h
  · simp at h
  rename_i hms
  split at h
  · simp at h
  rename_i h2
  split at h
  · simp at h
  rename_i certs rest hp
  by_cases hr : rest.length = 0
  case neg => rw [if_neg hr] at h; simp at h
  rw [if_pos hr] at h
  simp only [Option.some.injEq] at h
  subst h
  obtain ⟨p1, p2, p3⟩ := parseCerts_inv _ _ _ _ hp
  have hr' : rest = [] := List.eq_nil_of_length_eq_zero hr
  subst hr'
  rw [List.append_nil] at p2
  have cast2 : ∀ x : Bytes, x.length = 2 → beFixed 2 (BitVec.ofNat 16 (beNat x)).toNat = x := by
    intro x hx
    have := beFixed_beNat x
    have hlt := beNat_lt x
    rw [hx] at this hlt
    rw [BitVec.toNat_ofNat, Nat.mod_eq_of_lt (by omega), this]
  have cast2' : ∀ x : Bytes, x.length = 2 → beFixed 2 (beNat x) = x ∧ beNat x < 2 ^ 16 := by
    intro x hx
    have := beFixed_beNat x
    have hlt := beNat_lt x
    rw [hx] at this hlt
    exact ⟨this, by omega⟩
  have l0 : (data.take 2).length = 2 := by simp; omega
  have l1 : ((data.drop 2).take 2).length = 2 := by simp; omega
  have l2 : ((data.drop 4).take 2).length = 2 := by simp; omega
  have c2 := cast2' _ l2
  have lms : ((data.drop 6).take (beNat ((data.drop 4).take 2))).length = beNat ((data.drop 4).take 2) := by
    rw [List.length_take]; omega
  have l3 : (((data.drop 6).drop (beNat ((data.drop 4).take 2))).take 2).length = 2 := by
    rw [List.length_take]; omega
  have c3 := cast2' _ l3
  refine ⟨?_, ⟨by dsimp only; rw [lms]; exact c2.2, by dsimp only; rw [p1]; exact c3.2, p3⟩, rfl⟩
  rw [SessionState.marshal]
  dsimp only
  rw [cast2 _ l0, cast2 _ l1, lms, c2.1, p1, c3.1, ← p2]
  simp only [List.append_assoc]
  rw [List.take_append_drop, List.take_append_drop]
  have e4 : data.drop 6 = (data.drop 4).drop 2 := by rw [List.drop_drop]
  have e2 : data.drop 4 = (data.drop 2).drop 2 := by rw [List.drop_drop]
  rw [e4, List.take_append_drop, e2, List.take_append_drop, List.take_append_drop]

/-! ## Tickets -/

theorem findKey_inv {name : Bytes} {l : List TicketKey} {j i : Nat} {k : TicketKey} (h : findKey name l j = some (i, k)) :
    ∃ n, i = j + n ∧ l[n]? = some k ∧ k.keyName = name ∧ ∀ m < n, ∀ k', l[m]? = some k' → k'.keyName ≠ name := by
  induction l generalizing j with
  | nil => simp [findKey] at h
  | cons a t ih =>
    rw [findKey] at h
    split at h
    · rename_i hn
      simp only [Option.some.injEq, Prod.mk.injEq] at h
      obtain ⟨rfl, rfl⟩ := h
      exact ⟨0, rfl, rfl, hn.symm, by omega⟩
    · rename_i hn
      obtain ⟨n, h1, h2, h3, h4⟩ := ih h
      refine ⟨n + 1, by omega, by simpa using h2, h3, ?_⟩
      intro m hm k' hk'
      cases m with
      | zero =>
        simp only [List.getElem?_cons_zero, Option.some.injEq] at hk'
        subst hk'; exact fun hh => hn hh.symm
      | succ m => exact h4 m (by omega) k' (by simpa using hk')

theorem findKey_some {name : Bytes} {l : List TicketKey} {n : Nat} {k : TicketKey} (j : Nat) (h1 : l[n]? = some k)
    (h2 : k.keyName = name) (h3 : ∀ m < n, ∀ k', l[m]? = some k' → k'.keyName ≠ name) :
    findKey name l j = some (j + n, k) := by
  induction l generalizing n j with
  | nil => simp at h1
  | cons a t ih =>
    rw [findKey]
    cases n with
    | zero =>
      simp only [List.getElem?_cons_zero, Option.some.injEq] at h1
      subst h1
      rw [if_pos h2.symm]; rfl
    | succ n =>
      have := h3 0 (by omega) a rfl
      rw [if_neg (fun hh => this hh.symm),
        ih (n := n) (j + 1) (by simpa using h1) (fun m hm k' hk' => h3 (m + 1) (by omega) k' (by simpa using hk'))]
      rw [show j + 1 + n = j + (n + 1) by omega]

theorem findKey_none {name : Bytes} {l : List TicketKey} (j : Nat) : findKey name l j = none ↔ ∀ k ∈ l, k.keyName ≠ name := by
  induction l generalizing j with
  | nil => simp [findKey]
  | cons a t ih =>
    rw [findKey]
    by_cases h : name = a.keyName
    · rw [if_pos h]; simp [h]
    · rw [if_neg h, ih]
      simp only [List.mem_cons, forall_eq_or_imp]
      exact ⟨fun hh => ⟨fun e => h e.symm, hh⟩, fun hh => hh.2⟩

/-- **C34** Exactly which tickets are accepted: tickets enabled, at least 64 bytes, the name is that
of a configured key (the first with this name, number `i`), the last 32 bytes are the MAC under that
key of everything before them, and the decrypted body is the serialization of the state returned. -/
theorem C34_accepts_iff (C : TicketCrypto) (c : TicketConfig) (t : Bytes) (s : SessionState) :
    decryptTicket C c t = some s ↔
      c.disabled = false ∧ 64 ≤ t.length ∧ ∃ i k, c.keys[i]? = some k ∧
        (∀ m < i, ∀ k', c.keys[m]? = some k' → k'.keyName ≠ t.take 16) ∧ k.keyName = t.take 16 ∧
        t.drop (t.length - 32) = C.mac k.hmacKey (t.take (t.length - 32)) ∧
        xorCtr C k.aesKey ((t.drop 16).take 16) ((t.take (t.length - 32)).drop 32) = s.marshal ∧ s.Fits ∧
        s.usedOldKey = decide (0 < i) := by
  rw [decryptTicket]
  by_cases h0 : c.disabled = true ∨ t.length < 16 + 16 + 32
  · rw [if_pos h0]
    constructor
    · intro h; simp at h
    · rintro ⟨h1, h2, -⟩
      rcases h0 with h | h
      · rw [h] at h1; simp at h1
      · omega
  · rw [if_neg h0]
    have hdis : c.disabled = false := by
      cases hd : c.disabled with
      | false => rfl
      | true => exact absurd (Or.inl hd) h0
    have hlen : 64 ≤ t.length := by
      by_contra hh; exact h0 (Or.inr (by omega))
    dsimp only
    constructor
    · intro h
      split at h
      · simp at h
      rename_i i k hf
      obtain ⟨n, e1, e2, e3, e4⟩ := findKey_inv hf
      rw [Nat.zero_add] at e1
      subst e1
      split at h
      · simp at h
      rename_i hmac
      obtain ⟨g1, g2, g3⟩ := C34_state_canonical _ _ _ h
      exact ⟨hdis, hlen, i, k, e2, e4, e3, by simpa using hmac, g1.symm, g2, g3⟩
    · rintro ⟨-, -, i, k, e2, e4, e3, hmac, g1, g2, g3⟩
      rw [findKey_some 0 e2 e3 e4]
      dsimp only
      rw [if_neg (by simpa using hmac), g1, C34_state_roundtrip s g2]
      rw [Nat.zero_add, ← g3]

theorem encrypt_form (C : TicketCrypto) (c : TicketConfig) (rand : Bytes) (s : SessionState) (t : Bytes)
    (hname : ∀ k ∈ c.keys, k.keyName.length = 16) (h : encryptTicket C c rand s = .ok t) :
    ∃ k rest, c.keys = k :: rest ∧ t.length = 64 + s.marshal.length ∧ t.take 16 = k.keyName ∧
      t.drop (t.length - 32) = C.mac k.hmacKey (t.take (t.length - 32)) ∧
      xorCtr C k.aesKey ((t.drop 16).take 16) ((t.take (t.length - 32)).drop 32) = s.marshal := by
  rw [encryptTicket] at h
  split at h
  · simp at h
  rename_i hr
  split at h
  · simp at h
  rename_i k rest hk
  simp only [Res.ok.injEq] at h
  have hn : k.keyName.length = 16 := hname k (by rw [hk]; simp)
  have hiv : (rand.take 16).length = 16 := by simp; omega
  have hx : (xorCtr C k.aesKey (rand.take 16) s.marshal).length = s.marshal.length := by
    rw [xorCtr, Std.xorB_length, C.ctr_len, Nat.min_self]
  have hm := C.mac_len k.hmacKey (k.keyName ++ rand.take 16 ++ xorCtr C k.aesKey (rand.take 16) s.marshal)
  generalize hX : xorCtr C k.aesKey (rand.take 16) s.marshal = X at *
  generalize hM : C.mac k.hmacKey (k.keyName ++ rand.take 16 ++ X) = M at *
  generalize hI : rand.take 16 = iv at *
  have hbl : (k.keyName ++ iv ++ X).length = 32 + s.marshal.length := by simp [hn, hiv, hx]; omega
  have htl : t.length = 64 + s.marshal.length := by rw [← h, List.length_append, hbl, hm]; omega
  have ht32 : t.length - 32 = (k.keyName ++ iv ++ X).length := by omega
  refine ⟨k, rest, hk, htl, ?_, ?_, ?_⟩
  · rw [← h, List.append_assoc, List.append_assoc, List.take_left' hn]
  · rw [ht32, ← h, List.drop_left' rfl, List.take_left' rfl, hM]
  · have e1 : (t.drop 16).take 16 = iv := by
      rw [← h, List.append_assoc, List.append_assoc, List.drop_left' hn, List.take_left' hiv]
    have e2 : (t.take (t.length - 32)).drop 32 = X := by
      rw [ht32, ← h, List.take_left' rfl, List.drop_left' (by simp [hn, hiv])]
    rw [e1, e2, ← hX, xorCtr, xorCtr, Std.xorB_length, C.ctr_len, Nat.min_self,
      Std.xorB_cancel _ _ (by rw [C.ctr_len])]

/-- **C34** A ticket is opened by the configuration that made it: same state, not flagged old. -/
theorem C34_roundtrip (C : TicketCrypto) (c : TicketConfig) (rand : Bytes) (s : SessionState) (t : Bytes)
    (hname : ∀ k ∈ c.keys, k.keyName.length = 16) (hen : c.disabled = false) (hs : s.Fits)
    (h : encryptTicket C c rand s = .ok t) :
    decryptTicket C c t = some { s with usedOldKey := false } := by
  obtain ⟨k, rest, hk, hl, hn, hm, hx⟩ := encrypt_form C c rand s t hname h
  rw [C34_accepts_iff]
  exact ⟨hen, by omega, 0, k, by rw [hk]; rfl, by omega, hn.symm, hm, hx, ⟨hs.ms, hs.count, hs.cert⟩, rfl⟩

theorem keyFromBytes_lengths (C : TicketCrypto) (b : Bytes) :
    (ticketKeyFromBytes C b).keyName.length = 16 ∧ (ticketKeyFromBytes C b).aesKey.length = 16 ∧
      (ticketKeyFromBytes C b).hmacKey.length = 16 := by
  simp [ticketKeyFromBytes, C.sha512_len]

/-- C34, key separation: the name, the AES key and the HMAC key of a configured ticket key are three
disjoint, consecutive 16-byte segments of the SHA-512 hash of the configured bytes. -/
theorem C34_key_separation (C : TicketCrypto) (b : Bytes) :
    let k := ticketKeyFromBytes C b
    k.keyName.length = 16 ∧ k.aesKey.length = 16 ∧ k.hmacKey.length = 16 ∧
      ∃ unused, C.sha512 b = k.keyName ++ k.aesKey ++ k.hmacKey ++ unused := by
  have hl := C.sha512_len b
  refine ⟨?_, ?_, ?_, (C.sha512 b).drop 48, ?_⟩
  · simp [ticketKeyFromBytes, hl]
  · simp [ticketKeyFromBytes, hl]
  · simp [ticketKeyFromBytes, hl]
  · simp only [ticketKeyFromBytes]
    conv_lhs => rw [← List.take_append_drop 16 (C.sha512 b), ← List.take_append_drop 16 ((C.sha512 b).drop 16),
      ← List.take_append_drop 16 (((C.sha512 b).drop 16).drop 16)]
    simp [List.drop_drop, List.append_assoc]


/-- **C35** Rotation. A ticket made while `ks` was installed (so under its first key `b`) is opened
after installing any list `ks'` holding `b` whose other keys have other names: the state comes back,
flagged old exactly when `b` is not first in `ks'`. -/
theorem C35_rotation_accepts (C : TicketCrypto) (c c1 c2 : TicketConfig) (b : Bytes) (ks a r : List Bytes)
    (rand : Bytes) (s : SessionState) (t : Bytes) (hen : c.disabled = false) (hs : s.Fits)
    (h1 : c.setKeys C (b :: ks) = .ok c1) (ht : encryptTicket C c1 rand s = .ok t)
    (h2 : c.setKeys C (a ++ b :: r) = .ok c2)
    (hdist : ∀ x ∈ a, (ticketKeyFromBytes C x).keyName ≠ (ticketKeyFromBytes C b).keyName) :
    decryptTicket C c2 t = some { s with usedOldKey := decide (a ≠ []) } := by
  rw [TicketConfig.setKeys, if_neg (by simp)] at h1 h2
  simp only [Res.ok.injEq] at h1 h2
  subst h1 h2
  have hname : ∀ k ∈ (b :: ks).map (ticketKeyFromBytes C), k.keyName.length = 16 := by
    intro k hk
    obtain ⟨x, -, rfl⟩ := List.mem_map.1 hk
    exact (keyFromBytes_lengths C x).1
  obtain ⟨k, rest, hk, hl, hn, hm, hx⟩ := encrypt_form C _ rand s t hname ht
  simp only [List.map_cons, List.cons.injEq] at hk
  obtain ⟨rfl, -⟩ := hk
  rw [C34_accepts_iff]
  refine ⟨hen, by omega, a.length, ticketKeyFromBytes C b, ?_, ?_, hn.symm, hm, hx, ⟨hs.ms, hs.count, hs.cert⟩, ?_⟩
  · simp
  · intro m hm' k' hk'
    dsimp only at hk'
    rw [List.map_append, List.getElem?_append_left (by simpa using hm'), List.getElem?_map,
      Option.map_eq_some_iff] at hk'
    obtain ⟨x, hx1, rfl⟩ := hk'
    rw [hn]
    exact hdist x (List.mem_of_getElem? hx1)
  · dsimp only
    cases a <;> simp

/-- **C35** Dropped keys. After installing a list in which no key has the name of `b`, tickets made
under `b` are refused. -/
theorem C35_rotation_refuses (C : TicketCrypto) (c c1 c2 : TicketConfig) (b : Bytes) (ks ks' : List Bytes)
    (rand : Bytes) (s : SessionState) (t : Bytes)
    (h1 : c.setKeys C (b :: ks) = .ok c1) (ht : encryptTicket C c1 rand s = .ok t)
    (h2 : c.setKeys C ks' = .ok c2)
    (hdist : ∀ x ∈ ks', (ticketKeyFromBytes C x).keyName ≠ (ticketKeyFromBytes C b).keyName) :
    decryptTicket C c2 t = none := by
  rw [TicketConfig.setKeys, if_neg (by simp)] at h1
  rw [TicketConfig.setKeys] at h2
  split at h2
  · simp at h2
  simp only [Res.ok.injEq] at h1 h2
  subst h1 h2
  have hname : ∀ k ∈ (b :: ks).map (ticketKeyFromBytes C), k.keyName.length = 16 := by
    intro k hk
    obtain ⟨x, -, rfl⟩ := List.mem_map.1 hk
    exact (keyFromBytes_lengths C x).1
  obtain ⟨k, rest, hk, hl, hn, hm, hx⟩ := encrypt_form C _ rand s t hname ht
  simp only [List.map_cons, List.cons.injEq] at hk
  obtain ⟨rfl, -⟩ := hk
  cases hd : decryptTicket C { c with keys := ks'.map (ticketKeyFromBytes C) } t with
  | none => rfl
  | some st =>
    exfalso
    rw [C34_accepts_iff] at hd
    obtain ⟨-, -, i, k', e1, -, e3, -⟩ := hd
    obtain ⟨x, hx1, rfl⟩ := List.mem_map.1 (List.mem_of_getElem? e1)
    exact hdist x hx1 (by rw [e3, hn])

/-- `SetSessionTicketKeys` panics exactly on the empty list -/
theorem C35_setKeys_panics_iff (C : TicketCrypto) (c : TicketConfig) (ks : List Bytes) :
    c.setKeys C ks = .panic ↔ ks = [] := by
  rw [TicketConfig.setKeys]
  cases ks <;> simp

/-- **C35** After any history of rotations the installed keys are those of the last call. -/
theorem C35_last_call_wins (C : TicketCrypto) (c : TicketConfig) (hist : List (List Bytes)) (last : List Bytes)
    (hh : ∀ ks ∈ hist ++ [last], ks ≠ []) :
    ∃ c', (hist ++ [last]).foldlM (fun c ks => c.setKeys C ks) c = .ok c' ∧
      c'.keys = last.map (ticketKeyFromBytes C) ∧ c'.disabled = c.disabled := by
  induction hist generalizing c with
  | nil =>
    have : last ≠ [] := hh last (by simp)
    refine ⟨{ c with keys := last.map (ticketKeyFromBytes C) }, ?_, rfl, rfl⟩
    simp only [List.nil_append, List.foldlM_cons, List.foldlM_nil]
    rw [TicketConfig.setKeys, if_neg (by simpa using this)]
    rfl
  | cons ks t ih =>
    have hk : ks ≠ [] := hh ks (by simp)
    obtain ⟨c', h1, h2, h3⟩ := ih { c with keys := ks.map (ticketKeyFromBytes C) } (fun x hx => hh x (by
      simp only [List.cons_append, List.mem_cons]; exact Or.inr hx))
    refine ⟨c', ?_, h2, h3⟩
    rw [List.cons_append, List.foldlM_cons, TicketConfig.setKeys, if_neg (by simpa using hk)]
    exact h1

/-! ## Initialization and GetConfigForClient -/

/-- After initialization of a server's own configuration, tickets are either disabled or there is a
key: issuing never panics. -/
theorem C70_server_config_never_panics_partial (C : TicketCrypto) (c : TicketConfig) (rand rand' : Bytes) (s : SessionState)
    (hen : (c.serverInit C rand none).disabled = false) :
    encryptTicket C (c.serverInit C rand none) rand' s ≠ .panic := by
  have hne : (c.serverInit C rand none).keys ≠ [] := by
    rw [TicketConfig.serverInit] at hen ⊢
    by_cases h : c.disabled = true ∨ c.keys.length ≠ 0
    · rw [if_pos h] at hen ⊢
      rcases h with h | h
      · rw [h] at hen; simp at hen
      · intro hh; rw [hh] at h; simp at h
    · rw [if_neg h] at hen ⊢
      dsimp only at hen ⊢
      split
      · simp
      · rename_i ha
        rw [if_neg ha] at hen
        split
        · rename_i hr
          rw [if_pos hr] at hen; simp at hen
        · simp
  rw [encryptTicket]
  split
  · simp
  · split
    · rename_i hk; exact absurd hk hne
    · simp

/-- **C70, violated**: with tickets disabled in the server's configuration and a configuration from
`GetConfigForClient` that leaves them enabled (and did not call `SetSessionTicketKeys`), issuing a
ticket panics, whatever the client. -/
theorem C70_issue_panics_violated (C : TicketCrypto) (orig new : TicketConfig) (rand rand' rand'' : Bytes) (s : SessionState)
    (ho : orig.disabled = true) (hok : orig.keys = []) (hn : new.disabled = false) (hnk : new.keys = [])
    (hr : 16 ≤ rand''.length) :
    (new.serverInit C rand' (some (orig.serverInit C rand none))).disabled = false ∧
      encryptTicket C (new.serverInit C rand' (some (orig.serverInit C rand none))) rand'' s = .panic := by
  have e1 : orig.serverInit C rand none = orig := by rw [TicketConfig.serverInit, if_pos (Or.inl ho)]
  have e2 : (new.serverInit C rand' (some orig)).keys = [] ∧ (new.serverInit C rand' (some orig)).disabled = false := by
    rw [TicketConfig.serverInit, if_neg (by simp [hn, hnk])]
    dsimp only
    split <;> exact ⟨hok, hn⟩
  rw [e1]
  refine ⟨e2.2, ?_⟩
  rw [encryptTicket, if_neg (by omega), e2.1]

/-- **C71, violated**: a `SessionTicketKey` set on the configuration returned by `GetConfigForClient`
is never used; the server's own (possibly random) keys are, although neither documented case for
copying them applies. -/
theorem C71_returned_key_ignored_violated (C : TicketCrypto) (orig new : TicketConfig) (rand rand' : Bytes)
    (hn : new.disabled = false) (hnk : new.keys = []) :
    (new.serverInit C rand' (some (orig.serverInit C rand none))).keys = (orig.serverInit C rand none).keys := by
  rw [TicketConfig.serverInit, if_neg (by simp [hn, hnk])]

/-- **C71** what does hold: keys installed with `SetSessionTicketKeys` on the returned configuration
are kept, and the server's own configuration uses its `SessionTicketKey` when it is set. -/
theorem C71_explicit_keys_kept_partial (C : TicketCrypto) (orig new : TicketConfig) (rand : Bytes) (hnk : new.keys ≠ []) :
    (new.serverInit C rand (some orig)).keys = new.keys := by
  rw [TicketConfig.serverInit, if_pos (Or.inr (by simpa using hnk))]

theorem C71_own_key_used_partial (C : TicketCrypto) (c : TicketConfig) (rand : Bytes) (hen : c.disabled = false)
    (hk : c.keys = []) (hset : ∃ b ∈ c.ticketKey, b ≠ 0) :
    (c.serverInit C rand none).keys = [ticketKeyFromBytes C c.ticketKey] := by
  have ha : c.ticketKey.any (fun b => b != 0) = true := by
    rw [List.any_eq_true]; obtain ⟨b, h1, h2⟩ := hset; exact ⟨b, h1, by simpa using h2⟩
  rw [TicketConfig.serverInit, if_neg (by simp [hen, hk])]
  dsimp only
  rw [if_pos ha]

/-! ## The hypotheses are satisfiable -/

def toyCrypto : TicketCrypto where
  ctr := fun k iv n => List.replicate n (k.headD 0 + iv.headD 0)
  ctr_len := by simp
  mac := fun k m => List.replicate 32 (m.foldl (· + ·) (k.headD 0))
  mac_len := by simp
  sha512 := fun m => (m ++ List.replicate 64 0).take 64
  sha512_len := by simp

example : ∃ c1 c2 t, TicketConfig.setKeys toyCrypto ⟨false, [], []⟩ [[1], [2]] = .ok c1 ∧
    encryptTicket toyCrypto c1 (List.replicate 16 5) ⟨0x0303, 0xc02f, [1, 2, 3], [[4, 5]], false⟩ = .ok t ∧
    TicketConfig.setKeys toyCrypto ⟨false, [], []⟩ [[3], [1]] = .ok c2 ∧
    decryptTicket toyCrypto c2 t = some ⟨0x0303, 0xc02f, [1, 2, 3], [[4, 5]], true⟩ := by
  refine ⟨_, _, _, rfl, rfl, rfl, ?_⟩
  decide +kernel

end Verif.Tls
