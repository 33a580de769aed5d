import Verif.Tls.MessagesSafe
/-!
C32: encoding a well-formed handshake message and parsing the bytes gives the message back.
-/
namespace Verif.Tls.Wire
open Verif

macro "len" : tactic => `(tactic| first | (simp; done) | (simp; omega) | omega)

/-! ## reading what was written -/

theorem beFixed_one (n : Nat) : beFixed 1 n = [BitVec.ofNat 8 n] := rfl
theorem beFixed_two (n : Nat) : beFixed 2 n = [BitVec.ofNat 8 (n / 256), BitVec.ofNat 8 n] := rfl
theorem beFixed_three (n : Nat) :
    beFixed 3 n = [BitVec.ofNat 8 (n / 256 / 256), BitVec.ofNat 8 (n / 256), BitVec.ofNat 8 n] := rfl

theorem sfrom_append {a r : Bytes} {i : Nat} (h : a.length = i) : sfrom (a ++ r) i = .ok r := by
  subst h
  unfold sfrom
  rw [if_pos (by simp), List.drop_left]

theorem sl_append {a b r : Bytes} {i j : Nat} (h : a.length = i) (hj : i + b.length = j) :
    sl (a ++ (b ++ r)) i j = .ok b := by
  subst h; subst hj
  unfold sl
  rw [if_pos (by len), List.drop_left, Nat.add_sub_cancel_left, List.take_left]

theorem sl_zero {b r : Bytes} {j : Nat} (hj : b.length = j) : sl (b ++ r) 0 j = .ok b := by
  subst hj
  unfold sl
  rw [if_pos (by simp), List.drop_zero, Nat.sub_zero, List.take_left]

theorem sl_tail {a b : Bytes} {i j : Nat} (h : a.length = i) (hj : i + b.length = j) : sl (a ++ b) i j = .ok b := by
  have := sl_append (r := []) h hj
  rwa [List.append_nil] at this

theorem idx_append {a r : Bytes} {x : Byte} {i : Nat} (h : a.length = i) : idx (a ++ x :: r) i = .ok x := by
  subst h
  unfold idx
  rw [dif_pos (by simp)]
  simp

theorem idx_zero {r : Bytes} {x : Byte} : idx (x :: r) 0 = .ok x := rfl

theorem int16_append {a r : Bytes} {n i : Nat} (h : a.length = i) (hn : n < 65536) :
    int16 (a ++ (beFixed 2 n ++ r)) i = .ok n := by
  have h1 : idx (a ++ (beFixed 2 n ++ r)) i = .ok (BitVec.ofNat 8 (n / 256)) := idx_append h
  have h2 : idx (a ++ (beFixed 2 n ++ r)) (i + 1) = .ok (BitVec.ofNat 8 n) := by
    have : a ++ (beFixed 2 n ++ r) = (a ++ [BitVec.ofNat 8 (n / 256)]) ++ (BitVec.ofNat 8 n :: r) := by
      rw [beFixed_two]; simp
    rw [this]
    exact idx_append (by simp [h])
  unfold int16
  rw [h1, Res.ok_bind, h2, Res.ok_bind, Res.pure_eq]
  congr 1
  simp only [BitVec.toNat_ofNat]
  omega

theorem int16_zero {r : Bytes} {n : Nat} (hn : n < 65536) : int16 (beFixed 2 n ++ r) 0 = .ok n :=
  int16_append (a := []) rfl hn

theorem u16_append {a r : Bytes} {v : U16} {i : Nat} (h : a.length = i) :
    u16 (a ++ (beFixed 2 v.toNat ++ r)) i = .ok v := by
  unfold u16
  rw [int16_append h v.isLt, Res.ok_bind, Res.pure_eq, BitVec.ofNat_toNat, BitVec.setWidth_eq]

theorem u16_zero {r : Bytes} {v : U16} : u16 (beFixed 2 v.toNat ++ r) 0 = .ok v := u16_append (a := []) rfl

theorem u24_append {a r : Bytes} {n i : Nat} (h : a.length = i) (hn : n < 2^24) :
    u24 (a ++ (beFixed 3 n ++ r)) i = .ok n := by
  have h1 : idx (a ++ (beFixed 3 n ++ r)) i = .ok (BitVec.ofNat 8 (n / 256 / 256)) := idx_append h
  have h2 : idx (a ++ (beFixed 3 n ++ r)) (i + 1) = .ok (BitVec.ofNat 8 (n / 256)) := by
    have : a ++ (beFixed 3 n ++ r) =
        (a ++ [BitVec.ofNat 8 (n / 256 / 256)]) ++ (BitVec.ofNat 8 (n / 256) :: (BitVec.ofNat 8 n :: r)) := by
      rw [beFixed_three]; simp
    rw [this]
    exact idx_append (by simp [h])
  have h3 : idx (a ++ (beFixed 3 n ++ r)) (i + 2) = .ok (BitVec.ofNat 8 n) := by
    have : a ++ (beFixed 3 n ++ r) =
        (a ++ [BitVec.ofNat 8 (n / 256 / 256), BitVec.ofNat 8 (n / 256)]) ++ (BitVec.ofNat 8 n :: r) := by
      rw [beFixed_three]; simp
    rw [this]
    exact idx_append (by simp [h])
  unfold u24
  rw [h1, Res.ok_bind, h2, Res.ok_bind, h3, Res.ok_bind, Res.pure_eq]
  congr 1
  simp only [BitVec.toNat_ofNat]
  omega

theorem u24_zero {r : Bytes} {n : Nat} (hn : n < 2^24) : u24 (beFixed 3 n ++ r) 0 = .ok n :=
  u24_append (a := []) rfl hn

theorem byteLen {n : Nat} (h : n < 256) : (BitVec.ofNat 8 n).toNat = n := by
  rw [BitVec.toNat_ofNat]; exact Nat.mod_eq_of_lt h

theorem putU16s_length (l : List U16) : (putU16s l).length = 2 * l.length := by
  induction l with
  | nil => rfl
  | cons v l ih => simp only [putU16s, List.flatMap_cons, List.length_append, beFixed_length, List.length_cons] at ih ⊢; omega

theorem putU16s_cons (v : U16) (l : List U16) : putU16s (v :: l) = beFixed 2 v.toNat ++ putU16s l := rfl

theorem readU16s_put (l : List U16) (r : Bytes) : readU16s l.length (putU16s l ++ r) = .ok (l, r) := by
  induction l with
  | nil => rfl
  | cons v l ih =>
    rw [putU16s_cons, List.append_assoc, List.length_cons, readU16s, u16_zero, Res.ok_bind, sfrom_append (by simp),
      Res.ok_bind, ih, Res.ok_bind]
    rfl

theorem readSuites_put (l : List U16) : ∀ (p r : Bytes) (i : Nat) (m : ClientHelloMsg), p.length = 2 + 2 * i →
    readSuites (p ++ (putU16s l ++ r)) i l.length m =
      .ok { m with cipherSuites := m.cipherSuites ++ l,
                   secureRenegotiationSupported := m.secureRenegotiationSupported || decide (scsvRenegotiation ∈ l) } := by
  induction l with
  | nil => intro p r i m _; simp [readSuites]
  | cons v l ih =>
    intro p r i m hp
    rw [putU16s_cons, List.append_assoc, List.length_cons, readSuites, u16_append hp, Res.ok_bind, ← List.append_assoc]
    rw [ih _ _ _ _ (by simp [hp]; omega)]
    simp only [List.append_assoc, List.singleton_append, List.mem_cons, Bool.or_assoc, Bool.decide_or,
      eq_comm (a := scsvRenegotiation)]

theorem putStrings_cons (s : Bytes) (l : List Bytes) : putStrings (s :: l) = beFixed 1 s.length ++ s ++ putStrings l := rfl
theorem putScts_cons (s : Bytes) (l : List Bytes) : putScts (s :: l) = beFixed 2 s.length ++ s ++ putScts l := rfl
theorem putCerts_cons (s : Bytes) (l : List Bytes) : putCerts (s :: l) = beFixed 3 s.length ++ s ++ putCerts l := rfl

theorem stringsLoop_put (l : List Bytes) : ∀ (fuel : Nat) (acc : List Bytes),
    (∀ s ∈ l, 0 < s.length ∧ s.length < 256) → (putStrings l).length < fuel →
    stringsLoop fuel (putStrings l) acc = .ok (acc ++ l) := by
  induction l with
  | nil =>
    intro fuel acc _ hf
    obtain ⟨f, rfl⟩ : ∃ f, fuel = f + 1 := ⟨fuel - 1, by simp only [putStrings, List.flatMap_nil, List.length_nil] at hf; omega⟩
    simp [stringsLoop, putStrings]
  | cons s l ih =>
    intro fuel acc hs hf
    obtain ⟨f, rfl⟩ : ∃ f, fuel = f + 1 := ⟨fuel - 1, by omega⟩
    have h1 := hs s List.mem_cons_self
    rw [putStrings_cons] at hf ⊢
    simp only [List.length_append, beFixed_length] at hf
    unfold stringsLoop
    rw [if_pos (by simp), beFixed_one]
    simp only [List.cons_append, List.nil_append]
    rw [idx_zero, Res.ok_bind]
    have e1 : sfrom (BitVec.ofNat 8 s.length :: (s ++ putStrings l)) 1 = .ok (s ++ putStrings l) :=
      sfrom_append (a := [BitVec.ofNat 8 s.length]) rfl
    rw [e1, Res.ok_bind, byteLen h1.2, if_neg (by simp; intro h; simp [h] at h1), sl_zero rfl, Res.ok_bind, sfrom_append rfl,
      Res.ok_bind, ih f _ (fun t ht => hs t (List.mem_cons_of_mem _ ht)) (by omega)]
    simp

theorem sctLoop_put (l : List Bytes) : ∀ (fuel : Nat) (acc : List Bytes),
    (∀ s ∈ l, 0 < s.length ∧ s.length < 65536) → (putScts l).length < fuel →
    sctLoop fuel (putScts l) acc = .ok (acc ++ l) := by
  induction l with
  | nil =>
    intro fuel acc _ hf
    obtain ⟨f, rfl⟩ : ∃ f, fuel = f + 1 := ⟨fuel - 1, by simp only [putScts, List.flatMap_nil, List.length_nil] at hf; omega⟩
    simp [sctLoop, putScts]
  | cons s l ih =>
    intro fuel acc hs hf
    obtain ⟨f, rfl⟩ : ∃ f, fuel = f + 1 := ⟨fuel - 1, by omega⟩
    have h1 := hs s List.mem_cons_self
    rw [putScts_cons] at hf ⊢
    simp only [List.length_append, beFixed_length] at hf
    unfold sctLoop
    rw [if_pos (by simp), if_neg (by len), List.append_assoc, int16_zero h1.2, Res.ok_bind, sfrom_append (by simp), Res.ok_bind,
      if_neg (by simp; intro h; simp [h] at h1), sl_zero rfl, Res.ok_bind, sfrom_append rfl, Res.ok_bind,
      ih f _ (fun t ht => hs t (List.mem_cons_of_mem _ ht)) (by omega)]
    simp

theorem casLoop_put (l : List Bytes) : ∀ (fuel : Nat) (acc : List Bytes),
    (∀ s ∈ l, s.length < 65536) → (putScts l).length < fuel →
    casLoop fuel (putScts l) acc = .ok (acc ++ l) := by
  induction l with
  | nil =>
    intro fuel acc _ hf
    obtain ⟨f, rfl⟩ : ∃ f, fuel = f + 1 := ⟨fuel - 1, by simp only [putScts, List.flatMap_nil, List.length_nil] at hf; omega⟩
    simp [casLoop, putScts]
  | cons s l ih =>
    intro fuel acc hs hf
    obtain ⟨f, rfl⟩ : ∃ f, fuel = f + 1 := ⟨fuel - 1, by omega⟩
    have h1 := hs s List.mem_cons_self
    rw [putScts_cons] at hf ⊢
    simp only [List.length_append, beFixed_length] at hf
    unfold casLoop
    rw [if_pos (by len), if_neg (by len), List.append_assoc, int16_zero h1, Res.ok_bind, sfrom_append (by simp),
      Res.ok_bind, if_neg (by simp), sl_zero rfl, Res.ok_bind, sfrom_append rfl, Res.ok_bind,
      ih f _ (fun t ht => hs t (List.mem_cons_of_mem _ ht)) (by omega)]
    simp

/-! ## the extension loop -/

/-- with enough steps, the loop turns `m` into `m'` -/
def ExtRuns {M : Type} (sw : M → Nat → Bytes → Nat → Res M) (data : Bytes) (m m' : M) : Prop :=
  ∀ fuel, data.length < fuel → extLoop sw fuel data m = .ok m'

theorem ExtRuns.nil {M : Type} {sw : M → Nat → Bytes → Nat → Res M} (m : M) : ExtRuns sw [] m m := by
  intro fuel hf
  obtain ⟨f, rfl⟩ : ∃ f, fuel = f + 1 := ⟨fuel - 1, by simp at hf; omega⟩
  simp [extLoop]

theorem ExtRuns.cons {M : Type} {sw : M → Nat → Bytes → Nat → Res M} {ty : Nat} {body rest : Bytes} {m m1 m' : M}
    (hty : ty < 65536) (hb : body.length < 65536) (h : sw m ty (body ++ rest) body.length = .ok m1)
    (hr : ExtRuns sw rest m1 m') : ExtRuns sw (extension ty body ++ rest) m m' := by
  intro fuel hf
  obtain ⟨f, rfl⟩ : ∃ f, fuel = f + 1 := ⟨fuel - 1, by omega⟩
  unfold extension at hf ⊢
  simp only [List.length_append, beFixed_length] at hf
  simp only [List.append_assoc]
  unfold extLoop
  rw [if_pos (by simp), if_neg (by len), int16_zero hty, Res.ok_bind,
    int16_append (by simp) hb, Res.ok_bind]
  have e : sfrom (beFixed 2 ty ++ (beFixed 2 body.length ++ (body ++ rest))) 4 = .ok (body ++ rest) := by
    rw [← List.append_assoc]; exact sfrom_append (by simp)
  rw [e, Res.ok_bind, if_neg (by simp), h, Res.ok_bind, sfrom_append rfl, Res.ok_bind]
  exact hr f (by omega)

theorem extBlockLoop_put {M : Type} {sw : M → Nat → Bytes → Nat → Res M} {e : Bytes} {m m' : M}
    (hl : e.length < 65536) (h : ExtRuns sw e m m') : extBlockLoop sw (extBlock e) m = .ok m' := by
  unfold extBlockLoop extBlock
  split
  · rename_i hpos
    rw [if_neg (by simp), if_neg (by len), int16_zero hl, Res.ok_bind, sfrom_append (by simp), Res.ok_bind,
      if_neg (by simp)]
    exact h _ (by omega)
  · rename_i h0
    have : e = [] := List.length_eq_zero_iff.1 (by omega)
    subst this
    have := h 1 (by simp)
    simp [extLoop] at this
    simp [this]

theorem renegExt_eq {sr : Bytes} (h : sr.length ≤ 254) :
    renegExt sr = extension extRenegotiationInfo (beFixed 1 sr.length ++ sr) := by
  unfold renegExt extension
  simp only [List.append_assoc, List.length_append, beFixed_length, beFixed_one, beFixed_two, List.cons_append,
    List.nil_append, List.length_cons]
  have h1 : (sr.length + 1) / 256 = 0 := by omega
  rw [h1]
  rfl

/-! ## ClientHello -/

theorem putStrings_length (l : List Bytes) : (putStrings l).length = (l.map (fun s => 1 + s.length)).sum := by
  induction l with
  | nil => rfl
  | cons s l ih => rw [putStrings_cons, List.map_cons, List.sum_cons, ← ih]; simp; omega

theorem putScts_length (l : List Bytes) : (putScts l).length = (l.map (fun s => s.length + 2)).sum := by
  induction l with
  | nil => rfl
  | cons s l ih => rw [putScts_cons, List.map_cons, List.sum_cons, ← ih]; simp; omega

theorem length_ite {c : Prop} [Decidable c] (a : Bytes) :
    List.length (if c then a else []) = if c then a.length else 0 := by split <;> rfl

/-- the buffer Go allocates for the extensions has exactly the size of what is written into it -/
theorem chExts_length (m : ClientHelloMsg) : (chExts m).length = chExtensionsLength m := by
  have h1 : (chNpn m).length = if m.nextProtoNeg then 4 else 0 := by
    unfold chNpn; rw [length_ite]; rfl
  have h2 : (chStatus m).length = if m.ocspStapling then 4 + (1 + 2 + 2) else 0 := by
    unfold chStatus; rw [length_ite]; rfl
  have h3 : (chSni m).length = if m.serverName.length > 0 then 4 + (5 + m.serverName.length) else 0 := by
    unfold chSni; rw [length_ite]; simp [extension]; split <;> omega
  have h4 : (chCurves m).length = if m.supportedCurves.length > 0 then 4 + (2 + 2 * m.supportedCurves.length) else 0 := by
    unfold chCurves; rw [length_ite]; simp [extension, putU16s_length]; split <;> omega
  have h5 : (chPoints m).length = if m.supportedPoints.length > 0 then 4 + (1 + m.supportedPoints.length) else 0 := by
    unfold chPoints; rw [length_ite]; simp [extension]; split <;> omega
  have h6 : (chTicket m).length = if m.ticketSupported then 4 + m.sessionTicket.length else 0 := by
    unfold chTicket; rw [length_ite]; simp [extension]; split <;> omega
  have h7 : (chSigAlgs m).length =
      if m.supportedSignatureAlgorithms.length > 0 then 4 + (2 + 2 * m.supportedSignatureAlgorithms.length) else 0 := by
    unfold chSigAlgs; rw [length_ite]; simp [extension, putU16s_length]; split <;> omega
  have h8 : (chReneg m).length = if m.secureRenegotiationSupported then 4 + (1 + m.secureRenegotiation.length) else 0 := by
    unfold chReneg; rw [length_ite]; simp [renegExt]; split <;> omega
  have h9 : (chAlpn m).length =
      if m.alpnProtocols.length > 0 then 4 + (2 + (m.alpnProtocols.map (fun s => 1 + s.length)).sum) else 0 := by
    unfold chAlpn; rw [length_ite]; simp [extension, putStrings_length]; split <;> omega
  have h10 : (chSct m).length = if m.scts then 4 else 0 := by
    unfold chSct; rw [length_ite]; rfl
  unfold chExts chExtensionsLength
  simp only [List.length_append, h1, h2, h3, h4, h5, h6, h7, h8, h9, h10]
  ac_rfl

/-- What a `ClientHello` must satisfy to survive the wire. -/
structure ClientHelloMsg.WellFormed (m : ClientHelloMsg) : Prop where
  fresh : m.raw = none
  random : m.random.length = 32
  sessionId : m.sessionId.length ≤ 32
  suites : 2 * m.cipherSuites.length < 65536
  compression : m.compressionMethods.length < 256
  name : m.serverName.getLast? ≠ some 0x2e
  points : m.supportedPoints.length < 256
  ticket : m.ticketSupported = false → m.sessionTicket = []
  reneg : m.secureRenegotiationSupported = false → m.secureRenegotiation = [] ∧ scsvRenegotiation ∉ m.cipherSuites
  renegLen : m.secureRenegotiation.length ≤ 254
  alpn : ∀ s ∈ m.alpnProtocols, 0 < s.length ∧ s.length < 256
  /-- the extensions fit their 16-bit length -/
  exts : chExtensionsLength m < 65536

theorem ite_append {c : Prop} [Decidable c] (a r : Bytes) : (if c then a else []) ++ r = if c then a ++ r else r := by
  split <;> simp

section steps
variable {m st m' : ClientHelloMsg} {r : Bytes}

theorem chNpn_runs (h0 : st.nextProtoNeg = false) (hr : ExtRuns chExtension r { st with nextProtoNeg := m.nextProtoNeg } m') :
    ExtRuns chExtension (chNpn m ++ r) st m' := by
  unfold chNpn
  cases hm : m.nextProtoNeg
  · rw [hm] at hr
    rw [show ({ st with nextProtoNeg := false } : ClientHelloMsg) = st by rw [← h0]] at hr
    simpa using hr
  · rw [if_pos rfl]
    rw [hm] at hr
    exact ExtRuns.cons (by decide) (by simp) rfl hr

theorem chSni_runs (hl : (chSni m).length < 65536) (hn : m.serverName.getLast? ≠ some 0x2e) (h0 : st.serverName = [])
    (hr : ExtRuns chExtension r { st with serverName := m.serverName } m') :
    ExtRuns chExtension (chSni m ++ r) st m' := by
  unfold chSni at hl ⊢
  split at hl
  · rename_i hpos
    rw [if_pos hpos]
    simp only [extension, List.length_append, beFixed_length, List.length_cons] at hl
    refine ExtRuns.cons (by decide) (by len) ?_ hr
    unfold chExtension
    rw [if_pos rfl, sl_zero rfl, Res.ok_bind, if_neg (by simp)]
    simp only [List.append_assoc]
    rw [int16_zero (by omega), Res.ok_bind, sfrom_append (by simp), Res.ok_bind, if_neg (by len)]
    unfold sniLoop
    rw [if_pos (by simp), if_neg (by len)]
    simp only [List.cons_append]
    have e0 : int16 ((0 : Byte) :: (beFixed 2 m.serverName.length ++ m.serverName)) 1 = .ok m.serverName.length := by
      have := int16_append (a := [(0 : Byte)]) (r := m.serverName) (n := m.serverName.length) (i := 1) rfl (by omega)
      exact this
    rw [idx_zero, Res.ok_bind, e0, Res.ok_bind]
    have e : sfrom ((0 : Byte) :: (beFixed 2 m.serverName.length ++ m.serverName)) 3 = .ok m.serverName :=
      sfrom_append (a := (0 : Byte) :: beFixed 2 m.serverName.length) (by simp)
    rw [e, Res.ok_bind, if_neg (Nat.lt_irrefl _), if_pos rfl]
    have e2 : sl m.serverName 0 m.serverName.length = .ok m.serverName := sl_tail (a := []) (b := m.serverName) rfl (Nat.zero_add _)
    rw [e2, Res.ok_bind, if_neg hn]
    rfl
  · rename_i h00
    rw [if_neg h00]
    have hz : m.serverName = [] := List.length_eq_zero_iff.1 (by omega)
    rw [hz, show ({ st with serverName := [] } : ClientHelloMsg) = st by rw [← h0]] at hr
    simpa using hr

theorem chStatus_runs (h0 : st.ocspStapling = false) (hr : ExtRuns chExtension r { st with ocspStapling := m.ocspStapling } m') :
    ExtRuns chExtension (chStatus m ++ r) st m' := by
  unfold chStatus
  cases hm : m.ocspStapling
  · rw [hm] at hr
    rw [show ({ st with ocspStapling := false } : ClientHelloMsg) = st by rw [← h0]] at hr
    simpa using hr
  · rw [if_pos rfl]
    rw [hm] at hr
    exact ExtRuns.cons (by decide) (by simp) rfl hr

theorem chCurves_runs (hl : (chCurves m).length < 65536) (h0 : st.supportedCurves = [])
    (hr : ExtRuns chExtension r { st with supportedCurves := m.supportedCurves } m') :
    ExtRuns chExtension (chCurves m ++ r) st m' := by
  unfold chCurves at hl ⊢
  split at hl
  · rename_i hpos
    rw [if_pos hpos]
    simp only [extension, List.length_append, beFixed_length, putU16s_length] at hl
    refine ExtRuns.cons (by decide) (by simp [putU16s_length]; omega) ?_ hr
    unfold chExtension
    rw [if_neg (by decide), if_neg (by decide), if_neg (by decide), if_pos rfl, if_neg (by simp)]
    simp only [List.append_assoc]
    rw [int16_zero (by omega), Res.ok_bind,
      if_neg (by simp only [List.length_append, beFixed_length, putU16s_length]; omega), sfrom_append (by simp), Res.ok_bind,
      Nat.mul_div_cancel_left _ (by decide), readU16s_put, Res.ok_bind]
    rfl
  · rename_i h00
    rw [if_neg h00]
    have hz : m.supportedCurves = [] := List.length_eq_zero_iff.1 (by omega)
    rw [hz, show ({ st with supportedCurves := [] } : ClientHelloMsg) = st by rw [← h0]] at hr
    simpa using hr

theorem chPoints_runs (hl : m.supportedPoints.length < 256) (h0 : st.supportedPoints = [])
    (hr : ExtRuns chExtension r { st with supportedPoints := m.supportedPoints } m') :
    ExtRuns chExtension (chPoints m ++ r) st m' := by
  unfold chPoints
  by_cases hpos : m.supportedPoints.length > 0
  · rw [if_pos hpos]
    refine ExtRuns.cons (by decide) (by len) ?_ hr
    unfold chExtension
    rw [if_neg (by decide), if_neg (by decide), if_neg (by decide), if_neg (by decide), if_pos rfl,
      if_neg (by simp), beFixed_one]
    simp only [List.append_assoc, List.cons_append, List.nil_append]
    rw [idx_zero, Res.ok_bind, byteLen hl, if_neg (by simp)]
    have e : sfrom (BitVec.ofNat 8 m.supportedPoints.length :: (m.supportedPoints ++ r)) 1 = .ok (m.supportedPoints ++ r) :=
      sfrom_append (a := [BitVec.ofNat 8 m.supportedPoints.length]) rfl
    rw [e, Res.ok_bind, List.take_left]
    rfl
  · rw [if_neg hpos]
    have hz : m.supportedPoints = [] := List.length_eq_zero_iff.1 (by omega)
    rw [hz, show ({ st with supportedPoints := [] } : ClientHelloMsg) = st by rw [← h0]] at hr
    simpa using hr

theorem chTicket_runs (hl : (chTicket m).length < 65536) (hw : m.ticketSupported = false → m.sessionTicket = [])
    (h0 : st.ticketSupported = false) (h1 : st.sessionTicket = [])
    (hr : ExtRuns chExtension r { st with ticketSupported := m.ticketSupported, sessionTicket := m.sessionTicket } m') :
    ExtRuns chExtension (chTicket m ++ r) st m' := by
  unfold chTicket at hl ⊢
  cases hm : m.ticketSupported
  · rw [hm, hw hm] at hr
    rw [show ({ st with ticketSupported := false, sessionTicket := [] } : ClientHelloMsg) = st by rw [← h0, ← h1]] at hr
    simpa using hr
  · rw [if_pos rfl]
    rw [hm] at hr hl
    rw [if_pos rfl] at hl
    simp only [extension, List.length_append, beFixed_length] at hl
    refine ExtRuns.cons (by decide) (by omega) ?_ hr
    unfold chExtension
    rw [if_neg (by decide), if_neg (by decide), if_neg (by decide), if_neg (by decide), if_neg (by decide), if_pos rfl,
      sl_zero rfl, Res.ok_bind]
    rfl

theorem chSigAlgs_runs (hl : (chSigAlgs m).length < 65536) (h0 : st.supportedSignatureAlgorithms = [])
    (hr : ExtRuns chExtension r { st with supportedSignatureAlgorithms := m.supportedSignatureAlgorithms } m') :
    ExtRuns chExtension (chSigAlgs m ++ r) st m' := by
  unfold chSigAlgs at hl ⊢
  split at hl
  · rename_i hpos
    rw [if_pos hpos]
    simp only [extension, List.length_append, beFixed_length, putU16s_length] at hl
    refine ExtRuns.cons (by decide) (by simp [putU16s_length]; omega) ?_ hr
    unfold chExtension
    rw [if_neg (by decide), if_neg (by decide), if_neg (by decide), if_neg (by decide), if_neg (by decide), if_neg (by decide),
      if_pos rfl, if_neg (by simp [putU16s_length])]
    simp only [List.append_assoc]
    rw [int16_zero (by omega), Res.ok_bind,
      if_neg (by simp only [List.length_append, beFixed_length, putU16s_length]; omega), sfrom_append (by simp), Res.ok_bind,
      Nat.mul_div_cancel_left _ (by decide), readU16s_put, Res.ok_bind]
    rfl
  · rename_i h00
    rw [if_neg h00]
    have hz : m.supportedSignatureAlgorithms = [] := List.length_eq_zero_iff.1 (by omega)
    rw [hz, show ({ st with supportedSignatureAlgorithms := [] } : ClientHelloMsg) = st by rw [← h0]] at hr
    simpa using hr

theorem chReneg_runs (hl : m.secureRenegotiation.length ≤ 254)
    (hw : m.secureRenegotiationSupported = false → m.secureRenegotiation = [])
    (h0 : m.secureRenegotiationSupported = false → st.secureRenegotiationSupported = false) (h1 : st.secureRenegotiation = [])
    (hr : ExtRuns chExtension r
      { st with secureRenegotiation := m.secureRenegotiation, secureRenegotiationSupported := m.secureRenegotiationSupported } m') :
    ExtRuns chExtension (chReneg m ++ r) st m' := by
  unfold chReneg
  cases hm : m.secureRenegotiationSupported
  · rw [hm, hw hm] at hr
    rw [show ({ st with secureRenegotiation := [], secureRenegotiationSupported := false } : ClientHelloMsg) = st by
      rw [← h0 hm, ← h1]] at hr
    simpa using hr
  · rw [if_pos rfl, renegExt_eq hl]
    rw [hm] at hr
    refine ExtRuns.cons (by decide) (by len) ?_ hr
    unfold chExtension
    rw [if_neg (by decide), if_neg (by decide), if_neg (by decide), if_neg (by decide), if_neg (by decide), if_neg (by decide),
      if_neg (by decide), if_pos rfl, if_neg (by simp), sl_zero rfl, Res.ok_bind, beFixed_one, List.singleton_append, idx_zero,
      Res.ok_bind]
    have e : sfrom (BitVec.ofNat 8 m.secureRenegotiation.length :: m.secureRenegotiation) 1 = .ok m.secureRenegotiation :=
      sfrom_append (a := [BitVec.ofNat 8 m.secureRenegotiation.length]) rfl
    rw [e, Res.ok_bind, byteLen (by omega), if_neg (by simp)]
    rfl

theorem chAlpn_runs (hl : (chAlpn m).length < 65536) (hs : ∀ s ∈ m.alpnProtocols, 0 < s.length ∧ s.length < 256)
    (h0 : st.alpnProtocols = [])
    (hr : ExtRuns chExtension r { st with alpnProtocols := m.alpnProtocols } m') :
    ExtRuns chExtension (chAlpn m ++ r) st m' := by
  unfold chAlpn at hl ⊢
  split at hl
  · rename_i hpos
    rw [if_pos hpos]
    simp only [extension, List.length_append, beFixed_length] at hl
    refine ExtRuns.cons (by decide) (by len) ?_ hr
    unfold chExtension
    rw [if_neg (by decide), if_neg (by decide), if_neg (by decide), if_neg (by decide), if_neg (by decide), if_neg (by decide),
      if_neg (by decide), if_neg (by decide), if_pos rfl, if_neg (by simp)]
    simp only [List.append_assoc]
    rw [int16_zero (by omega), Res.ok_bind, if_neg (by len), sl_append (by simp) (by simp), Res.ok_bind,
      stringsLoop_put _ _ _ hs (by omega), Res.ok_bind, h0]
    rfl
  · rename_i h00
    rw [if_neg h00]
    have hz : m.alpnProtocols = [] := List.length_eq_zero_iff.1 (by omega)
    rw [hz, show ({ st with alpnProtocols := [] } : ClientHelloMsg) = st by rw [← h0]] at hr
    simpa using hr

theorem chSct_runs (h0 : st.scts = false) (hr : ExtRuns chExtension r { st with scts := m.scts } m') :
    ExtRuns chExtension (chSct m ++ r) st m' := by
  unfold chSct
  cases hm : m.scts
  · rw [hm] at hr
    rw [show ({ st with scts := false } : ClientHelloMsg) = st by rw [← h0]] at hr
    simpa using hr
  · rw [if_pos rfl]
    rw [hm] at hr
    exact ExtRuns.cons (by decide) (by simp) rfl hr
end steps

theorem pad32_eq {r : Bytes} (h : r.length = 32) : pad32 r = r := by
  unfold pad32
  rw [h, List.take_of_length_le (by omega)]
  simp

/-- A well-formed ClientHello: marshalling succeeds, and unmarshalling the bytes into a new message
gives exactly the message (as it is after marshalling, i.e. with `raw` set to those bytes). -/
theorem C32_client_hello (m : ClientHelloMsg) (h : m.WellFormed) :
    ∃ x, m.marshal = .ok (x, { m with raw := some x }) ∧
      ClientHelloMsg.zero.unmarshal x = .ok { m with raw := some x } := by
  have hany : (m.alpnProtocols.any (fun s => s.length == 0 || decide (s.length > 255))) = false := by
    rw [List.any_eq_false]
    intro s hs
    have h1 := h.alpn s hs
    have h2 : (s.length == 0) = false := by simpa using fun h0 : s = [] => by simp [h0] at h1
    have h3 : decide (s.length > 255) = false := by simpa using by omega
    rw [h2, h3]; decide
  refine ⟨header 1 (chBody m).length ++ chBody m, ?_, ?_⟩
  · unfold ClientHelloMsg.marshal
    rw [h.fresh]
    dsimp only
    rw [hany]
    rfl
  · generalize hx : header 1 (chBody m).length ++ chBody m = x
    have hhl : (header 1 (chBody m).length).length = 4 := by simp [header]
    -- the layout of the message
    have hx1 : x = (header 1 (chBody m).length) ++ (beFixed 2 m.vers.toNat ++ (m.random ++ (beFixed 1 m.sessionId.length ++
        (m.sessionId ++ (beFixed 2 (2 * m.cipherSuites.length) ++ (putU16s m.cipherSuites ++
        (beFixed 1 m.compressionMethods.length ++ (m.compressionMethods ++ extBlock (chExts m))))))))) := by
      rw [← hx]
      simp only [chBody, pad32_eq h.random, List.append_assoc]
    generalize header 1 (chBody m).length = H at hx1 hhl
    have hlen : 42 ≤ x.length := by
      rw [hx1]; simp only [List.length_append, beFixed_length, hhl, h.random]; omega
    have e1 : u16 x 4 = .ok m.vers := by rw [hx1]; exact u16_append hhl
    have e2 : sl x 6 38 = .ok m.random := by
      rw [hx1, ← List.append_assoc]
      exact sl_append (by simp [hhl]) (by simp [h.random])
    have e3 : idx x 38 = .ok (BitVec.ofNat 8 m.sessionId.length) := by
      rw [hx1, ← List.append_assoc, ← List.append_assoc]
      exact idx_append (by simp [hhl, h.random])
    have e4 : sl x 39 (39 + m.sessionId.length) = .ok m.sessionId := by
      rw [hx1, ← List.append_assoc, ← List.append_assoc, ← List.append_assoc]
      exact sl_append (by simp [hhl, h.random]) rfl
    have e5 : sfrom x (39 + m.sessionId.length) = .ok (beFixed 2 (2 * m.cipherSuites.length) ++ (putU16s m.cipherSuites ++
        (beFixed 1 m.compressionMethods.length ++ (m.compressionMethods ++ extBlock (chExts m))))) := by
      rw [hx1, ← List.append_assoc, ← List.append_assoc, ← List.append_assoc, ← List.append_assoc]
      exact sfrom_append (by simp [hhl, h.random]; omega)
    have hsl : 39 + m.sessionId.length ≤ x.length := by
      rw [hx1]; simp only [List.length_append, beFixed_length, hhl, h.random]; omega
    have hsid := h.sessionId
    have hb1 : (BitVec.ofNat 8 m.sessionId.length).toNat = m.sessionId.length := byteLen (by omega)
    have hcs := h.suites
    have hcm := h.compression
    have hb2 : (BitVec.ofNat 8 m.compressionMethods.length).toNat = m.compressionMethods.length := byteLen (by omega)
    unfold ClientHelloMsg.unmarshal
    rw [if_neg (by omega), e1, Res.ok_bind, e2, Res.ok_bind, e3, Res.ok_bind, hb1, if_neg (by omega), e4, Res.ok_bind, e5,
      Res.ok_bind, if_neg (by simp), int16_zero hcs, Res.ok_bind,
      if_neg (by simp only [List.length_append, beFixed_length, putU16s_length]; omega),
      Nat.mul_div_cancel_left _ (by decide), readSuites_put _ _ _ _ _ (by simp), Res.ok_bind]
    have e6 : sfrom (beFixed 2 (2 * m.cipherSuites.length) ++ (putU16s m.cipherSuites ++
        (beFixed 1 m.compressionMethods.length ++ (m.compressionMethods ++ extBlock (chExts m))))) (2 + 2 * m.cipherSuites.length) =
        .ok (beFixed 1 m.compressionMethods.length ++ (m.compressionMethods ++ extBlock (chExts m))) := by
      rw [← List.append_assoc]
      exact sfrom_append (by simp [putU16s_length])
    rw [e6, Res.ok_bind, if_neg (by simp), beFixed_one]
    have e7 : idx ([BitVec.ofNat 8 m.compressionMethods.length] ++ (m.compressionMethods ++ extBlock (chExts m))) 0 =
        .ok (BitVec.ofNat 8 m.compressionMethods.length) := rfl
    have e9 : sl ([BitVec.ofNat 8 m.compressionMethods.length] ++ (m.compressionMethods ++ extBlock (chExts m))) 1
        (1 + m.compressionMethods.length) = .ok m.compressionMethods := sl_append rfl rfl
    rw [e7, Res.ok_bind, hb2, if_neg (by simp; omega), e9, Res.ok_bind]
    have e8 : sfrom ([BitVec.ofNat 8 m.compressionMethods.length] ++ (m.compressionMethods ++ extBlock (chExts m)))
        (1 + m.compressionMethods.length) = .ok (extBlock (chExts m)) := by
      rw [← List.append_assoc]
      exact sfrom_append (by len)
    rw [e8, Res.ok_bind]
    apply extBlockLoop_put (by rw [chExts_length]; exact h.exts)
    have hex := h.exts
    rw [← chExts_length] at hex
    simp only [chExts, List.length_append] at hex
    have happ : chExts m = chNpn m ++ (chSni m ++ (chStatus m ++ (chCurves m ++ (chPoints m ++ (chTicket m ++ (chSigAlgs m ++
        (chReneg m ++ (chAlpn m ++ (chSct m ++ []))))))))) := by
      simp only [chExts, List.append_assoc, List.append_nil]
    rw [happ]
    apply chNpn_runs rfl
    apply chSni_runs (by omega) h.name rfl
    apply chStatus_runs rfl
    apply chCurves_runs (by omega) rfl
    apply chPoints_runs h.points rfl
    apply chTicket_runs (by omega) h.ticket rfl rfl
    apply chSigAlgs_runs (by omega) rfl
    apply chReneg_runs h.renegLen (fun hs => (h.reneg hs).1) (fun hs => by simp [ClientHelloMsg.zero, (h.reneg hs).2]) rfl
    apply chAlpn_runs (by omega) h.alpn rfl
    apply chSct_runs rfl
    exact ExtRuns.nil _

end Verif.Tls.Wire
