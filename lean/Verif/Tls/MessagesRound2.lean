import Verif.Tls.MessagesRound
/-!
C32 for the remaining handshake messages, the retained encoding, and the message framing.
-/
namespace Verif.Tls.Wire
open Verif

/-! ## ServerHello -/

/-- What a `ServerHello` must satisfy to survive the wire. -/
structure ServerHelloMsg.WellFormed (m : ServerHelloMsg) : Prop where
  fresh : m.raw = none
  random : m.random.length = 32
  sessionId : m.sessionId.length ≤ 32
  npn : m.nextProtoNeg = false → m.nextProtos = []
  npnNames : ∀ s ∈ m.nextProtos, 0 < s.length ∧ s.length < 256
  reneg : m.secureRenegotiationSupported = false → m.secureRenegotiation = []
  renegLen : m.secureRenegotiation.length ≤ 254
  alpn : m.alpnProtocol.length < 256
  scts : ∀ s ∈ m.scts, 0 < s.length
  exts : shExtensionsLength m < 65536

theorem putNpn_eq {l : List Bytes} (h : ∀ s ∈ l, 0 < s.length ∧ s.length < 256) : putNpn l = putStrings l := by
  induction l with
  | nil => rfl
  | cons s l ih =>
    have h1 := h s List.mem_cons_self
    have e : putNpn (s :: l) = beFixed 1 (min s.length 255) ++ s.take 255 ++ putNpn l := rfl
    rw [e, putStrings_cons, ih (fun t ht => h t (List.mem_cons_of_mem _ ht)), Nat.min_eq_left (by omega),
      List.take_of_length_le (by omega)]

theorem npnLen_eq (l : List Bytes) : npnLen l = (putStrings l).length := by
  unfold npnLen
  induction l with
  | nil => rfl
  | cons s l ih => rw [putStrings_cons]; simp at ih ⊢; omega

section steps
variable {m st m' : ServerHelloMsg} {r : Bytes}

theorem shNpn_runs (hl : (shNpn m).length < 65536) (hs : ∀ s ∈ m.nextProtos, 0 < s.length ∧ s.length < 256)
    (hw : m.nextProtoNeg = false → m.nextProtos = []) (h0 : st.nextProtoNeg = false) (h1 : st.nextProtos = [])
    (hr : ExtRuns shExtension r { st with nextProtoNeg := m.nextProtoNeg, nextProtos := m.nextProtos } m') :
    ExtRuns shExtension (shNpn m ++ r) st m' := by
  unfold shNpn at hl ⊢
  cases hm : m.nextProtoNeg
  · rw [hm, hw hm] at hr
    rw [show ({ st with nextProtoNeg := false, nextProtos := [] } : ServerHelloMsg) = st by rw [← h0, ← h1]] at hr
    simpa using hr
  · rw [hm] at hr hl
    rw [if_pos rfl, npnLen_eq, putNpn_eq hs] at hl ⊢
    simp only [List.length_append, beFixed_length] at hl
    have e : beFixed 2 extNextProtoNeg ++ beFixed 2 (putStrings m.nextProtos).length ++ putStrings m.nextProtos =
        extension extNextProtoNeg (putStrings m.nextProtos) := rfl
    rw [e]
    refine ExtRuns.cons (by decide) (by omega) ?_ hr
    unfold shExtension
    rw [if_pos rfl, sl_zero rfl, Res.ok_bind, stringsLoop_put _ _ _ hs (by omega), Res.ok_bind, h1]
    rfl

theorem shStatus_runs (h0 : st.ocspStapling = false) (hr : ExtRuns shExtension r { st with ocspStapling := m.ocspStapling } m') :
    ExtRuns shExtension (shStatus m ++ r) st m' := by
  unfold shStatus
  cases hm : m.ocspStapling
  · rw [hm] at hr
    rw [show ({ st with ocspStapling := false } : ServerHelloMsg) = st by rw [← h0]] at hr
    simpa using hr
  · rw [if_pos rfl]
    rw [hm] at hr
    exact ExtRuns.cons (by decide) (by simp) rfl hr

theorem shTicket_runs (h0 : st.ticketSupported = false)
    (hr : ExtRuns shExtension r { st with ticketSupported := m.ticketSupported } m') :
    ExtRuns shExtension (shTicket m ++ r) st m' := by
  unfold shTicket
  cases hm : m.ticketSupported
  · rw [hm] at hr
    rw [show ({ st with ticketSupported := false } : ServerHelloMsg) = st by rw [← h0]] at hr
    simpa using hr
  · rw [if_pos rfl]
    rw [hm] at hr
    exact ExtRuns.cons (by decide) (by simp) rfl hr

theorem shReneg_runs (hl : m.secureRenegotiation.length ≤ 254)
    (hw : m.secureRenegotiationSupported = false → m.secureRenegotiation = [])
    (h0 : st.secureRenegotiationSupported = false) (h1 : st.secureRenegotiation = [])
    (hr : ExtRuns shExtension r
      { st with secureRenegotiation := m.secureRenegotiation, secureRenegotiationSupported := m.secureRenegotiationSupported } m') :
    ExtRuns shExtension (shReneg m ++ r) st m' := by
  unfold shReneg
  cases hm : m.secureRenegotiationSupported
  · rw [hm, hw hm] at hr
    rw [show ({ st with secureRenegotiation := [], secureRenegotiationSupported := false } : ServerHelloMsg) = st by
      rw [← h0, ← h1]] at hr
    simpa using hr
  · rw [if_pos rfl, renegExt_eq hl]
    rw [hm] at hr
    refine ExtRuns.cons (by decide) (by len) ?_ hr
    unfold shExtension
    rw [if_neg (by decide), if_neg (by decide), if_neg (by decide), if_pos rfl, if_neg (by simp), sl_zero rfl, Res.ok_bind,
      beFixed_one, List.singleton_append, idx_zero, Res.ok_bind]
    have e : sfrom (BitVec.ofNat 8 m.secureRenegotiation.length :: m.secureRenegotiation) 1 = .ok m.secureRenegotiation :=
      sfrom_append (a := [BitVec.ofNat 8 m.secureRenegotiation.length]) rfl
    rw [e, Res.ok_bind, byteLen (by omega), if_neg (by simp)]
    rfl

theorem shAlpn_runs (hl : m.alpnProtocol.length < 256) (h0 : st.alpnProtocol = [])
    (hr : ExtRuns shExtension r { st with alpnProtocol := m.alpnProtocol } m') :
    ExtRuns shExtension (shAlpn m ++ r) st m' := by
  unfold shAlpn
  by_cases hpos : m.alpnProtocol.length > 0
  · rw [if_pos hpos]
    refine ExtRuns.cons (by decide) (by len) ?_ hr
    unfold shExtension
    rw [if_neg (by decide), if_neg (by decide), if_neg (by decide), if_neg (by decide), if_pos rfl, sl_zero rfl, Res.ok_bind,
      if_neg (by len)]
    simp only [List.append_assoc]
    rw [int16_zero (by omega), Res.ok_bind, if_neg (by len), sfrom_append (by simp), Res.ok_bind, beFixed_one,
      List.singleton_append, idx_zero, Res.ok_bind, byteLen hl, if_neg (by simp)]
    have e : sfrom (BitVec.ofNat 8 m.alpnProtocol.length :: m.alpnProtocol) 1 = .ok m.alpnProtocol :=
      sfrom_append (a := [BitVec.ofNat 8 m.alpnProtocol.length]) rfl
    rw [e, Res.ok_bind, if_neg (by omega)]
    rfl
  · rw [if_neg hpos]
    have hz : m.alpnProtocol = [] := List.length_eq_zero_iff.1 (by omega)
    rw [hz, show ({ st with alpnProtocol := [] } : ServerHelloMsg) = st by rw [← h0]] at hr
    simpa using hr

theorem mem_putScts_le {l : List Bytes} {s : Bytes} (h : s ∈ l) : s.length ≤ (putScts l).length := by
  induction l with
  | nil => cases h
  | cons t l ih =>
    rw [putScts_cons]
    simp only [List.length_append, beFixed_length]
    rcases List.mem_cons.1 h with rfl | h
    · omega
    · have := ih h; omega

theorem shSct_runs (hl : (shSct m).length < 65536) (hs : ∀ s ∈ m.scts, 0 < s.length) (h0 : st.scts = [])
    (hr : ExtRuns shExtension r { st with scts := m.scts } m') :
    ExtRuns shExtension (shSct m ++ r) st m' := by
  unfold shSct at hl ⊢
  by_cases hpos : m.scts.length > 0
  · rw [if_pos hpos] at hl ⊢
    simp only [extension, List.length_append, beFixed_length] at hl
    have hne : 0 < (putScts m.scts).length := by
      obtain ⟨s, l, hsl⟩ := List.exists_cons_of_length_pos hpos
      rw [hsl, putScts_cons]; simp; omega
    refine ExtRuns.cons (by decide) (by len) ?_ hr
    unfold shExtension
    rw [if_neg (by decide), if_neg (by decide), if_neg (by decide), if_neg (by decide), if_neg (by decide), if_pos rfl,
      sl_zero rfl, Res.ok_bind, if_neg (by len), int16_zero (by omega), Res.ok_bind, sfrom_append (by simp), Res.ok_bind,
      if_neg (by omega), sctLoop_put _ _ _ (fun s hm => ⟨hs s hm, by have := mem_putScts_le hm; omega⟩) (by omega), Res.ok_bind]
    rfl
  · rw [if_neg hpos]
    have hz : m.scts = [] := List.length_eq_zero_iff.1 (by omega)
    rw [hz, show ({ st with scts := [] } : ServerHelloMsg) = st by rw [← h0]] at hr
    simpa using hr
end steps

theorem npnShort_zero {m : ServerHelloMsg} (h : ∀ s ∈ m.nextProtos, 0 < s.length ∧ s.length < 256) : npnShort m = 0 := by
  unfold npnShort
  rw [npnLen_eq, putNpn_eq h, Nat.sub_self]
  split <;> rfl

theorem putNpn_le (l : List Bytes) : (putNpn l).length ≤ npnLen l := by
  induction l with
  | nil => simp [putNpn]
  | cons s l ih =>
    have e : putNpn (s :: l) = beFixed 1 (min s.length 255) ++ s.take 255 ++ putNpn l := rfl
    rw [e]
    unfold npnLen at ih ⊢
    simp at ih ⊢
    omega

/-- the buffer Go allocates is exactly what is written plus the zero tail -/
theorem shExts_length (m : ServerHelloMsg) : (shExts m).length + npnShort m = shExtensionsLength m := by
  have h1 : (shNpn m).length + npnShort m = if m.nextProtoNeg then 4 + npnLen m.nextProtos else 0 := by
    have := putNpn_le m.nextProtos
    unfold shNpn npnShort; rw [length_ite]; simp; split <;> omega
  have h2 : (shStatus m).length = if m.ocspStapling then 4 else 0 := by
    unfold shStatus; rw [length_ite]; rfl
  have h3 : (shTicket m).length = if m.ticketSupported then 4 else 0 := by
    unfold shTicket; rw [length_ite]; rfl
  have h4 : (shReneg m).length = if m.secureRenegotiationSupported then 4 + (1 + m.secureRenegotiation.length) else 0 := by
    unfold shReneg; rw [length_ite]; simp [renegExt]; split <;> omega
  have h5 : (shAlpn m).length = if m.alpnProtocol.length > 0 then 4 + (2 + 1 + m.alpnProtocol.length) else 0 := by
    unfold shAlpn; rw [length_ite]; simp [extension]; split <;> omega
  have h6 : (shSct m).length =
      if m.scts.length > 0 then 4 + (2 + (m.scts.map (fun s => s.length + 2)).sum) else 0 := by
    unfold shSct; rw [length_ite]; simp [extension, putScts_length]; split <;> omega
  unfold shExts shExtensionsLength
  simp only [List.length_append, ← h1, h2, h3, h4, h5, h6]
  omega

/-- A well-formed ServerHello survives the wire. -/
theorem C32_server_hello (m : ServerHelloMsg) (h : m.WellFormed) :
    ∃ x, m.marshal = .ok (x, { m with raw := some x }) ∧
      ServerHelloMsg.zero.unmarshal x = .ok { m with raw := some x } := by
  have hal := h.alpn
  refine ⟨header 2 (shBody m).length ++ shBody m, ?_, ?_⟩
  · unfold ServerHelloMsg.marshal
    rw [h.fresh]
    dsimp only
    rw [if_neg (by omega)]
  · generalize hx : header 2 (shBody m).length ++ shBody m = x
    have hhl : (header 2 (shBody m).length).length = 4 := by simp [header]
    have hns := npnShort_zero h.npnNames
    have hblk : shExtBlock m = extBlock (shExts m) := by
      unfold shExtBlock extBlock
      rw [hns]
      simp
    have hx1 : x = (header 2 (shBody m).length) ++ (beFixed 2 m.vers.toNat ++ (m.random ++ (beFixed 1 m.sessionId.length ++
        (m.sessionId ++ (beFixed 2 m.cipherSuite.toNat ++ ([m.compressionMethod] ++ extBlock (shExts m))))))) := by
      rw [← hx]
      simp only [shBody, pad32_eq h.random, List.append_assoc, hblk]
    generalize header 2 (shBody m).length = H at hx1 hhl
    have hlen : 42 ≤ x.length := by
      rw [hx1]; simp only [List.length_append, beFixed_length, hhl, h.random, List.length_singleton]; omega
    have e1 : u16 x 4 = .ok m.vers := by rw [hx1]; exact u16_append hhl
    have e2 : sl x 6 38 = .ok m.random := by
      rw [hx1, ← List.append_assoc]
      exact sl_append (by simp [hhl]) (by simp [h.random])
    have e3 : idx x 38 = .ok (BitVec.ofNat 8 m.sessionId.length) := by
      rw [hx1, ← List.append_assoc, ← List.append_assoc]
      exact idx_append (by simp [hhl, h.random])
    have e4 : sl x 39 (39 + m.sessionId.length) = .ok m.sessionId := by
      rw [hx1, ← List.append_assoc, ← List.append_assoc, ← List.append_assoc]
      exact sl_append (by simp [hhl, h.random]) rfl
    have e5 : sfrom x (39 + m.sessionId.length) =
        .ok (beFixed 2 m.cipherSuite.toNat ++ ([m.compressionMethod] ++ extBlock (shExts m))) := by
      rw [hx1, ← List.append_assoc, ← List.append_assoc, ← List.append_assoc, ← List.append_assoc]
      exact sfrom_append (by simp [hhl, h.random]; omega)
    have hsl : 39 + m.sessionId.length ≤ x.length := by
      rw [hx1]; simp only [List.length_append, beFixed_length, hhl, h.random]; omega
    have hsid := h.sessionId
    have hb1 : (BitVec.ofNat 8 m.sessionId.length).toNat = m.sessionId.length := byteLen (by omega)
    have e6 : idx (beFixed 2 m.cipherSuite.toNat ++ ([m.compressionMethod] ++ extBlock (shExts m))) 2 = .ok m.compressionMethod :=
      idx_append (by simp)
    have e7 : sfrom (beFixed 2 m.cipherSuite.toNat ++ ([m.compressionMethod] ++ extBlock (shExts m))) 3 =
        .ok (extBlock (shExts m)) := by
      rw [← List.append_assoc]; exact sfrom_append (by simp)
    unfold ServerHelloMsg.unmarshal
    rw [if_neg (by omega), e1, Res.ok_bind, e2, Res.ok_bind, e3, Res.ok_bind, hb1, if_neg (by omega), e4, Res.ok_bind, e5,
      Res.ok_bind, if_neg (by len), u16_zero, Res.ok_bind, e6, Res.ok_bind, e7, Res.ok_bind]
    have hex := h.exts
    rw [← shExts_length, hns] at hex
    apply extBlockLoop_put hex
    simp only [shExts, List.length_append] at hex
    have happ : shExts m = shNpn m ++ (shStatus m ++ (shTicket m ++ (shReneg m ++ (shAlpn m ++ (shSct m ++ []))))) := by
      simp only [shExts, List.append_assoc, List.append_nil]
    rw [happ]
    apply shNpn_runs (by omega) h.npnNames h.npn rfl rfl
    apply shStatus_runs rfl
    apply shTicket_runs rfl
    apply shReneg_runs h.renegLen h.reneg rfl rfl
    apply shAlpn_runs h.alpn rfl
    apply shSct_runs (by omega) h.scts rfl
    exact ExtRuns.nil _

/-! ## Certificate -/

/-- the `uint32` counting loop accepts exactly what was written -/
theorem countCerts_put (l : List Bytes) : ∀ (fuel n : Nat), (∀ s ∈ l, 0 < s.length) → (putCerts l).length < 2^24 →
    (putCerts l).length < fuel → countCerts fuel (putCerts l).length (putCerts l) n = .ok (n + l.length) := by
  induction l with
  | nil =>
    intro fuel n _ _ hf
    obtain ⟨f, rfl⟩ : ∃ f, fuel = f + 1 := ⟨fuel - 1, by simp only [putCerts, List.flatMap_nil, List.length_nil] at hf; omega⟩
    simp [countCerts, putCerts]
  | cons s l ih =>
    intro fuel n hs hl hf
    obtain ⟨f, rfl⟩ : ∃ f, fuel = f + 1 := ⟨fuel - 1, by omega⟩
    have h1 := hs s List.mem_cons_self
    rw [putCerts_cons] at hl hf ⊢
    have hlen : (beFixed 3 s.length ++ s ++ putCerts l).length = 3 + s.length + (putCerts l).length := by
      simp only [List.length_append, beFixed_length]
    rw [hlen] at hl hf
    unfold countCerts
    rw [hlen, if_pos (by omega), if_neg (by omega), List.append_assoc, u24_zero (by omega), Res.ok_bind,
      ← List.append_assoc, if_neg (by omega), sfrom_append (by simp), Res.ok_bind]
    have e : (3 + s.length + (putCerts l).length + 2^32 - (3 + s.length)) % 2^32 = (putCerts l).length := by omega
    rw [e, ih f (n + 1) (fun t ht => hs t (List.mem_cons_of_mem _ ht)) (by omega) (by omega), List.length_cons]
    congr 1; omega

theorem takeCerts_put (l : List Bytes) : (putCerts l).length < 2^24 → takeCerts l.length (putCerts l) = .ok l := by
  induction l with
  | nil => intro _; rfl
  | cons s l ih =>
    intro hl
    rw [putCerts_cons] at hl ⊢
    have hlen : (beFixed 3 s.length ++ s ++ putCerts l).length = 3 + s.length + (putCerts l).length := by
      simp only [List.length_append, beFixed_length]
    rw [hlen] at hl
    rw [List.length_cons, takeCerts, List.append_assoc, u24_zero (by omega), Res.ok_bind,
      sl_append (by simp) rfl, Res.ok_bind, ← List.append_assoc, sfrom_append (by simp), Res.ok_bind, ih (by omega), Res.ok_bind]
    rfl

theorem putCerts_length (l : List Bytes) : (putCerts l).length = (l.map (fun s => 3 + s.length)).sum := by
  induction l with
  | nil => rfl
  | cons s l ih => rw [putCerts_cons, List.map_cons, List.sum_cons, ← ih]; simp; omega

/-- A Certificate message whose certificates are all nonempty and fit the 24-bit length. -/
theorem C32_certificate (m : CertificateMsg) (h0 : m.raw = none) (hs : ∀ c ∈ m.certificates, 0 < c.length)
    (hl : (m.certificates.map (fun c => 3 + c.length)).sum < 2^24) (m0 : CertificateMsg) :
    ∃ x, m.marshal = .ok (x, { m with raw := some x }) ∧ m0.unmarshal x = .ok { m with raw := some x } := by
  rw [← putCerts_length] at hl
  refine ⟨_, by unfold CertificateMsg.marshal; rw [h0], ?_⟩
  generalize hb : putCerts m.certificates = b at hl ⊢
  generalize hx : header 11 (3 + b.length) ++ (beFixed 3 b.length ++ b) = x
  have hhl : (header 11 (3 + b.length)).length = 4 := by simp [header]
  have hlen : x.length = b.length + 7 := by
    rw [← hx, List.length_append, hhl]; simp; omega
  have e1 : u24 x 4 = .ok b.length := by rw [← hx]; exact u24_append hhl hl
  have e2 : sfrom x 7 = .ok b := by
    rw [← hx, ← List.append_assoc]; exact sfrom_append (by simp [header])
  unfold CertificateMsg.unmarshal
  have hmod : ¬ x.length % 2^32 ≠ (b.length + 7) % 2^32 := by rw [hlen]; simp
  rw [if_neg (by omega), e1, Res.ok_bind, if_neg hmod, e2, Res.ok_bind]
  have h1 := countCerts_put m.certificates (b.length + 1) 0 hs (by rw [hb]; exact hl) (by rw [hb]; omega)
  rw [hb, Nat.zero_add] at h1
  have h2 := takeCerts_put m.certificates (by rw [hb]; exact hl)
  rw [hb] at h2
  rw [h1, Res.ok_bind, Res.ok_bind, h2, Res.ok_bind]
  rfl

/-- Without "nonempty" it fails: a certificate list ending in an empty certificate is refused. -/
theorem C32_certificate_empty_refused (m0 : CertificateMsg) :
    ∃ x m', (CertificateMsg.mk none [[]]).marshal = .ok (x, m') ∧ m0.unmarshal x = no :=
  ⟨_, _, rfl, by unfold CertificateMsg.unmarshal; decide +kernel⟩

/-! ## opaque bodies -/

theorem C32_server_key_exchange (m m0 : ServerKeyExchangeMsg) (h0 : m.raw = none) :
    ∃ x, m.marshal = .ok (x, { m with raw := some x }) ∧ m0.unmarshal x = .ok { m with raw := some x } := by
  refine ⟨_, by unfold ServerKeyExchangeMsg.marshal; rw [h0], ?_⟩
  unfold ServerKeyExchangeMsg.unmarshal
  rw [if_neg (by simp [header]), sfrom_append (by simp [header]), Res.ok_bind]
  rfl

theorem C32_client_key_exchange (m m0 : ClientKeyExchangeMsg) (h0 : m.raw = none) (hl : m.ciphertext.length < 2^24) :
    ∃ x, m.marshal = .ok (x, { m with raw := some x }) ∧ m0.unmarshal x = .ok { m with raw := some x } := by
  refine ⟨_, by unfold ClientKeyExchangeMsg.marshal; rw [h0], ?_⟩
  unfold ClientKeyExchangeMsg.unmarshal
  have e : u24 (header 16 m.ciphertext.length ++ m.ciphertext) 1 = .ok m.ciphertext.length :=
    u24_append (a := [16]) (i := 1) rfl hl
  rw [if_neg (by simp [header]), e, Res.ok_bind, if_neg (by simp [header]), sfrom_append (by simp [header]), Res.ok_bind]
  rfl

theorem C32_finished (m m0 : FinishedMsg) (h0 : m.raw = none) :
    ∃ x, m.marshal = .ok (x, { m with raw := some x }) ∧ m0.unmarshal x = .ok { m with raw := some x } := by
  refine ⟨_, by unfold FinishedMsg.marshal; rw [h0], ?_⟩
  unfold FinishedMsg.unmarshal
  rw [if_neg (by simp), sfrom_append (by simp), Res.ok_bind]
  rfl

/-! ## CertificateStatus -/

/-- The response travels only with status type OCSP (1). -/
theorem C32_certificate_status (m m0 : CertificateStatusMsg) (h0 : m.raw = none) (hl : m.response.length < 2^24)
    (hr : m.statusType ≠ 1 → m.response = []) :
    ∃ x, m.marshal = .ok (x, { m with raw := some x }) ∧ m0.unmarshal x = .ok { m with raw := some x } := by
  refine ⟨_, by unfold CertificateStatusMsg.marshal; rw [h0], ?_⟩
  by_cases ht : m.statusType = 1
  · rw [if_pos ht]
    generalize hx : header 22 (m.response.length + 4) ++ ((1 : Byte) :: beFixed 3 m.response.length ++ m.response) = x
    have hhl : (header 22 (m.response.length + 4)).length = 4 := by simp [header]
    have hlen : x.length = 8 + m.response.length := by
      rw [← hx, List.length_append, hhl]; simp; omega
    have e1 : idx x 4 = .ok 1 := by rw [← hx]; exact idx_append hhl
    have hx2 : x = (header 22 (m.response.length + 4) ++ [(1 : Byte)]) ++ (beFixed 3 m.response.length ++ m.response) := by
      rw [← hx]; simp
    have e2 : u24 x 5 = .ok m.response.length := by rw [hx2]; exact u24_append (by simp [header]) hl
    have e3 : sfrom x 8 = .ok m.response := by rw [hx2, ← List.append_assoc]; exact sfrom_append (by simp [header])
    unfold CertificateStatusMsg.unmarshal
    have hmod : ¬ x.length % 2^32 ≠ (8 + m.response.length) % 2^32 := by rw [hlen]; simp
    rw [if_neg (by omega), e1, Res.ok_bind, if_pos rfl, if_neg (by omega), e2, Res.ok_bind, if_neg hmod, e3, Res.ok_bind, ← ht]
    rfl
  · rw [if_neg ht]
    unfold CertificateStatusMsg.unmarshal
    rw [if_neg (by simp), show idx [22, 0, 0, 1, m.statusType] 4 = .ok m.statusType from rfl, Res.ok_bind, if_neg ht, hr ht]
    rfl

/-! ## ServerHelloDone, HelloRequest -/

theorem C32_empty_messages :
    serverHelloDoneUnmarshal serverHelloDoneMarshal = .ok () ∧ helloRequestUnmarshal helloRequestMarshal = .ok () :=
  ⟨rfl, rfl⟩

/-! ## NextProtocol -/

theorem C32_next_proto (m m0 : NextProtoMsg) (h0 : m.raw = none) (hl : m.proto.length < 256) :
    ∃ x, m.marshal = .ok (x, { m with raw := some x }) ∧ m0.unmarshal x = .ok { m with raw := some x } := by
  refine ⟨_, by unfold NextProtoMsg.marshal; rw [h0], ?_⟩
  have hmin : min m.proto.length 255 = m.proto.length := Nat.min_eq_left (by omega)
  rw [hmin, List.take_length]
  generalize hp : 32 - (m.proto.length + 2) % 32 = p
  have hp2 : p < 256 := by omega
  generalize hhd : header 67 (m.proto.length + p + 2) = H
  have hhl : H.length = 4 := by rw [← hhd]; simp [header]
  generalize hx : H ++ (beFixed 1 m.proto.length ++ m.proto ++ beFixed 1 p ++ List.replicate p 0) = x
  have hx1 : x = H ++ (beFixed 1 m.proto.length ++ (m.proto ++ (beFixed 1 p ++ List.replicate p 0))) := by
    rw [← hx]; simp only [List.append_assoc]
  unfold NextProtoMsg.unmarshal
  rw [hx1]
  have e0 : ¬ (H ++ (beFixed 1 m.proto.length ++ (m.proto ++ (beFixed 1 p ++ List.replicate p 0)))).length < 5 := by
    simp only [List.length_append, hhl, beFixed_length]; omega
  rw [if_neg e0, sfrom_append hhl, Res.ok_bind, beFixed_one]
  have e1 : idx ([BitVec.ofNat 8 m.proto.length] ++ (m.proto ++ (beFixed 1 p ++ List.replicate p 0))) 0 =
      .ok (BitVec.ofNat 8 m.proto.length) := rfl
  rw [e1, Res.ok_bind, sfrom_append (by simp), Res.ok_bind, byteLen hl, if_neg (by simp), sl_zero rfl, Res.ok_bind,
    sfrom_append rfl, Res.ok_bind, if_neg (by simp), beFixed_one]
  have e2 : idx ([BitVec.ofNat 8 p] ++ List.replicate p (0 : Byte)) 0 = .ok (BitVec.ofNat 8 p) := rfl
  rw [e2, Res.ok_bind, sfrom_append (by simp), Res.ok_bind, byteLen hp2, if_neg (by simp)]
  rfl

/-! ## CertificateRequest -/

theorem lenMinus4_eq {x : Bytes} {n : Nat} (h : x.length = n + 4) (hn : n < 2^24) : lenMinus4 x = n := by
  unfold lenMinus4
  rw [h]
  omega

theorem certTypes_put (tys rest : Bytes) (hl : 1 + tys.length + rest.length < 2^24) (h1 : 0 < tys.length) (h2 : tys.length < 256)
    (hr : 0 < rest.length) (n : Nat) (hn : n = 1 + tys.length + rest.length) :
    certTypes (header 13 n ++ (beFixed 1 tys.length ++ (tys ++ rest))) = .ok (tys, rest) := by
  subst hn
  generalize hx : header 13 (1 + tys.length + rest.length) ++ (beFixed 1 tys.length ++ (tys ++ rest)) = x
  have hhl : (header 13 (1 + tys.length + rest.length)).length = 4 := by simp [header]
  have hlen : x.length = 1 + tys.length + rest.length + 4 := by
    rw [← hx, List.length_append, hhl]; simp; omega
  have e1 : u24 x 1 = .ok (1 + tys.length + rest.length) := by
    rw [← hx]; exact u24_append (a := [13]) (i := 1) rfl hl
  have e2 : idx x 4 = .ok (BitVec.ofNat 8 tys.length) := by rw [← hx]; exact idx_append hhl
  have e3 : sfrom x 5 = .ok (tys ++ rest) := by
    rw [← hx, ← List.append_assoc]; exact sfrom_append (by simp [header])
  have hle : ¬ (tys.length = 0 ∨ (tys ++ rest).length ≤ tys.length) := by
    rw [List.length_append]; omega
  unfold certTypes
  rw [if_neg (by omega), e1, Res.ok_bind, lenMinus4_eq hlen hl, if_neg (by simp), e2, Res.ok_bind, e3, Res.ok_bind,
    byteLen h2, if_neg hle]
  dsimp only
  rw [List.take_left, if_neg (by simp), sfrom_append rfl, Res.ok_bind]
  rfl

theorem casTail_put (l : List Bytes) (h : (putScts l).length < 65536) :
    casTail (beFixed 2 (putScts l).length ++ putScts l) = .ok l := by
  unfold casTail
  have e : sl (putScts l) 0 (putScts l).length = .ok (putScts l) := sl_tail (a := []) (b := putScts l) rfl (Nat.zero_add _)
  have e2 : sfrom (putScts l) (putScts l).length = .ok [] := by
    have := sfrom_append (a := putScts l) (r := []) rfl
    rwa [List.append_nil] at this
  rw [if_neg (by simp), int16_zero h, Res.ok_bind, sfrom_append (by simp), Res.ok_bind, if_neg (by simp), e, Res.ok_bind, e2,
    Res.ok_bind, casLoop_put _ _ _ (fun s hs => by have := mem_putScts_le hs; omega) (by omega), Res.ok_bind]
  rfl

theorem certReqSigAlgs_put (as : List U16) (r : Bytes) (h : 2 * as.length < 65536) :
    certReqSigAlgs (beFixed 2 (2 * as.length) ++ (putU16s as ++ r)) = .ok (as, r) := by
  unfold certReqSigAlgs
  rw [if_neg (by simp), int16_zero h, Res.ok_bind, sfrom_append (by simp), Res.ok_bind, if_neg (by simp),
    if_neg (by simp [putU16s_length]), Nat.mul_div_cancel_left _ (by decide), readU16s_put]

/-- A CertificateRequest for a version with (`hasSignatureAndHash`) or without signature algorithms.
The receiver carries the flag of the version, as `readHandshake` sets it. -/
theorem C32_certificate_request (m m0 : CertificateRequestMsg) (h0 : m.raw = none)
    (hf : m0.hasSignatureAndHash = m.hasSignatureAndHash)
    (hs0 : m.hasSignatureAndHash = false → m.supportedSignatureAlgorithms = m0.supportedSignatureAlgorithms)
    (ht : 0 < m.certificateTypes.length ∧ m.certificateTypes.length < 256)
    (hs : 2 * m.supportedSignatureAlgorithms.length < 65536)
    (hc : (m.certificateAuthorities.map (fun c => c.length + 2)).sum < 65536) :
    ∃ x, m.marshal = .ok (x, { m with raw := some x }) ∧ m0.unmarshal x = .ok { m with raw := some x } := by
  rw [← putScts_length] at hc
  refine ⟨_, by unfold CertificateRequestMsg.marshal; rw [h0], ?_⟩
  unfold CertificateRequestMsg.unmarshal
  rw [hf]
  cases hh : m.hasSignatureAndHash
  · have := certTypes_put m.certificateTypes (beFixed 2 (putScts m.certificateAuthorities).length ++ putScts m.certificateAuthorities)
      (by simp only [List.length_append, beFixed_length]; omega) ht.1 ht.2 (by simp; omega) _ rfl
    have e : ∀ (b : Bool) (a : Bytes), (if (false : Bool) = true then a else []) = [] := fun _ _ => rfl
    simp only [Bool.false_eq_true, if_false, List.append_nil, List.append_assoc, List.length_append, beFixed_length] at this ⊢
    rw [← Nat.add_assoc, this, Res.ok_bind]
    dsimp only
    rw [casTail_put _ hc, Res.ok_bind, ← hs0 hh, ← hh]
    rfl
  · have := certTypes_put m.certificateTypes
      (beFixed 2 (2 * m.supportedSignatureAlgorithms.length) ++ (putU16s m.supportedSignatureAlgorithms ++
        (beFixed 2 (putScts m.certificateAuthorities).length ++ putScts m.certificateAuthorities)))
      (by simp only [List.length_append, beFixed_length, putU16s_length]; omega) ht.1 ht.2 (by simp; omega) _ rfl
    simp only [if_true, List.append_assoc, List.length_append, beFixed_length] at this ⊢
    rw [← Nat.add_assoc, this, Res.ok_bind]
    dsimp only
    rw [certReqSigAlgs_put _ _ hs, Res.ok_bind]
    dsimp only
    rw [casTail_put _ hc, Res.ok_bind, ← hh]
    rfl

theorem C32_certificate_request_gm (m m0 : CertificateRequestMsgGM) (h0 : m.raw = none)
    (ht : 0 < m.certificateTypes.length ∧ m.certificateTypes.length < 256)
    (hc : (m.certificateAuthorities.map (fun c => c.length + 2)).sum < 65536) :
    ∃ x, m.marshal = .ok (x, { m with raw := some x }) ∧ m0.unmarshal x = .ok { m with raw := some x } := by
  rw [← putScts_length] at hc
  refine ⟨_, by unfold CertificateRequestMsgGM.marshal; rw [h0], ?_⟩
  unfold CertificateRequestMsgGM.unmarshal
  have := certTypes_put m.certificateTypes (beFixed 2 (putScts m.certificateAuthorities).length ++ putScts m.certificateAuthorities)
    (by simp only [List.length_append, beFixed_length]; omega) ht.1 ht.2 (by simp; omega) _ rfl
  simp only [List.append_assoc, List.length_append, beFixed_length] at this ⊢
  rw [← Nat.add_assoc, this, Res.ok_bind]
  dsimp only
  rw [casTail_put _ hc, Res.ok_bind]
  rfl

/-! ## CertificateVerify -/

theorem certVerifySig_put (s : Bytes) (h : s.length < 65536) : certVerifySig (beFixed 2 s.length ++ s) = .ok s := by
  unfold certVerifySig
  rw [if_neg (by simp), int16_zero h, Res.ok_bind, sfrom_append (by simp), Res.ok_bind, if_neg (by simp)]
  rfl

theorem C32_certificate_verify (m m0 : CertificateVerifyMsg) (h0 : m.raw = none)
    (hf : m0.hasSignatureAndHash = m.hasSignatureAndHash)
    (hs0 : m.hasSignatureAndHash = false → m.signatureAlgorithm = m0.signatureAlgorithm) (hl : m.signature.length < 65536) :
    ∃ x, m.marshal = .ok (x, { m with raw := some x }) ∧ m0.unmarshal x = .ok { m with raw := some x } := by
  refine ⟨_, by unfold CertificateVerifyMsg.marshal; rw [h0], ?_⟩
  unfold CertificateVerifyMsg.unmarshal
  rw [hf]
  generalize hb : (if m.hasSignatureAndHash then beFixed 2 m.signatureAlgorithm.toNat else []) ++
      beFixed 2 m.signature.length ++ m.signature = b
  have hbl : b.length < 2^24 ∧ 2 ≤ b.length := by
    rw [← hb]; split <;> simp <;> omega
  generalize hx : header 15 b.length ++ b = x
  have hhl : (header 15 b.length).length = 4 := by simp [header]
  have hlen : x.length = b.length + 4 := by rw [← hx, List.length_append, hhl]; omega
  have e1 : u24 x 1 = .ok b.length := by rw [← hx]; exact u24_append (a := [15]) (i := 1) rfl hbl.1
  have e2 : sfrom x 4 = .ok b := by rw [← hx]; exact sfrom_append hhl
  rw [if_neg (by omega), e1, Res.ok_bind, lenMinus4_eq hlen hbl.1, if_neg (by simp), e2, Res.ok_bind]
  cases hh : m.hasSignatureAndHash
  · rw [hh] at hb
    simp only [Bool.false_eq_true, if_false, List.nil_append] at hb ⊢
    rw [← hb, certVerifySig_put _ hl, Res.ok_bind, ← hs0 hh, ← hh]
    rfl
  · rw [hh] at hb
    simp only [if_true, List.append_assoc] at hb ⊢
    rw [← hb, u16_zero, Res.ok_bind, sfrom_append (by simp), Res.ok_bind, certVerifySig_put _ hl, Res.ok_bind, ← hh]
    rfl

/-! ## NewSessionTicket -/

theorem C32_new_session_ticket (m m0 : NewSessionTicketMsg) (h0 : m.raw = none) (hl : m.ticket.length < 65536) :
    ∃ x, m.marshal = .ok (x, { m with raw := some x }) ∧ m0.unmarshal x = .ok { m with raw := some x } := by
  refine ⟨_, by unfold NewSessionTicketMsg.marshal; rw [h0], ?_⟩
  generalize hx : header 4 (6 + m.ticket.length) ++ ([0, 0, 0, 0] ++ beFixed 2 m.ticket.length ++ m.ticket) = x
  have hhl : (header 4 (6 + m.ticket.length)).length = 4 := by simp [header]
  have hx1 : x = (header 4 (6 + m.ticket.length) ++ [0, 0, 0, 0]) ++ (beFixed 2 m.ticket.length ++ m.ticket) := by
    rw [← hx]; simp
  have hlen : x.length = 6 + m.ticket.length + 4 := by rw [hx1, List.length_append, List.length_append, hhl]; simp; omega
  have e1 : u24 x 1 = .ok (6 + m.ticket.length) := by rw [← hx]; exact u24_append (a := [4]) (i := 1) rfl (by omega)
  have e2 : int16 x 8 = .ok m.ticket.length := by rw [hx1]; exact int16_append (by simp [header]) hl
  have e3 : sfrom x 10 = .ok m.ticket := by rw [hx1, ← List.append_assoc]; exact sfrom_append (by simp [header])
  unfold NewSessionTicketMsg.unmarshal
  rw [if_neg (by omega), e1, Res.ok_bind, lenMinus4_eq hlen (by omega), if_neg (by simp), e2, Res.ok_bind, if_neg (by omega), e3,
    Res.ok_bind]
  rfl

/-! ## non-vacuity: concrete messages meeting the hypotheses -/

/-- a ServerHello carrying every extension -/
def exampleServerHello : ServerHelloMsg :=
  { raw := none, vers := 0x0303, random := List.replicate 32 9, sessionId := [4, 5], cipherSuite := 0xe013,
    compressionMethod := 0, nextProtoNeg := true, nextProtos := [[0x68, 0x32], [0x78]], ocspStapling := true,
    scts := [[1, 2, 3], [4]], ticketSupported := true, secureRenegotiation := [5, 6], secureRenegotiationSupported := true,
    alpnProtocol := [0x68, 0x32] }

example : exampleServerHello.WellFormed := by constructor <;> decide

example : ∃ x, exampleServerHello.marshal = .ok (x, { exampleServerHello with raw := some x }) ∧
    ServerHelloMsg.zero.unmarshal x = .ok { exampleServerHello with raw := some x } :=
  C32_server_hello exampleServerHello (by constructor <;> decide)

/-- a chain of two certificates, into a message that already held something else -/
example : ∃ x, (CertificateMsg.mk none [[0x30, 1], [0x30, 2, 3]]).marshal = .ok (x, ⟨some x, [[0x30, 1], [0x30, 2, 3]]⟩) ∧
    (CertificateMsg.mk (some [1]) [[7]]).unmarshal x = .ok ⟨some x, [[0x30, 1], [0x30, 2, 3]]⟩ :=
  C32_certificate ⟨none, [[0x30, 1], [0x30, 2, 3]]⟩ rfl (by decide) (by decide) _

/-- the exact bytes -/
example : (CertificateMsg.mk none [[0x30, 1], [0x30, 2, 3]]).marshal.map Prod.fst =
    .ok [11, 0, 0, 14, 0, 0, 11, 0, 0, 2, 0x30, 1, 0, 0, 3, 0x30, 2, 3] := by decide +kernel

/-- both certificate-verify layouts, TLS 1.2 with the algorithm and earlier ones without -/
example : ∃ x, (CertificateVerifyMsg.mk none true 0x0401 [1, 2]).marshal = .ok (x, ⟨some x, true, 0x0401, [1, 2]⟩) ∧
    (CertificateVerifyMsg.mk none true 0 []).unmarshal x = .ok ⟨some x, true, 0x0401, [1, 2]⟩ :=
  C32_certificate_verify ⟨none, true, 0x0401, [1, 2]⟩ ⟨none, true, 0, []⟩ rfl rfl (by decide) (by decide)
example : ∃ x, (CertificateVerifyMsg.mk none false 0 [1, 2]).marshal = .ok (x, ⟨some x, false, 0, [1, 2]⟩) ∧
    (CertificateVerifyMsg.mk none false 0 []).unmarshal x = .ok ⟨some x, false, 0, [1, 2]⟩ :=
  C32_certificate_verify ⟨none, false, 0, [1, 2]⟩ ⟨none, false, 0, []⟩ rfl rfl (by decide) (by decide)

/-- certificate requests: TLS 1.2, earlier, and GM -/
example : ∃ x, (CertificateRequestMsg.mk none true [1, 64] [0x0401, 0x0403] [[0x30, 0], [0x30]]).marshal =
      .ok (x, ⟨some x, true, [1, 64], [0x0401, 0x0403], [[0x30, 0], [0x30]]⟩) ∧
    (CertificateRequestMsg.mk none true [] [] []).unmarshal x = .ok ⟨some x, true, [1, 64], [0x0401, 0x0403], [[0x30, 0], [0x30]]⟩ :=
  C32_certificate_request ⟨none, true, [1, 64], [0x0401, 0x0403], [[0x30, 0], [0x30]]⟩ ⟨none, true, [], [], []⟩
    rfl rfl (by decide) (by decide) (by decide) (by decide)
example : ∃ x, (CertificateRequestMsg.mk none false [1, 64] [] [[0x30, 0]]).marshal =
      .ok (x, ⟨some x, false, [1, 64], [], [[0x30, 0]]⟩) ∧
    (CertificateRequestMsg.mk none false [] [] []).unmarshal x = .ok ⟨some x, false, [1, 64], [], [[0x30, 0]]⟩ :=
  C32_certificate_request ⟨none, false, [1, 64], [], [[0x30, 0]]⟩ ⟨none, false, [], [], []⟩
    rfl rfl (by decide) (by decide) (by decide) (by decide)
example : ∃ x, (CertificateRequestMsgGM.mk none [1, 64, 80] [[0x30, 0], [0x30]]).marshal =
      .ok (x, ⟨some x, [1, 64, 80], [[0x30, 0], [0x30]]⟩) ∧
    (CertificateRequestMsgGM.mk none [] []).unmarshal x = .ok ⟨some x, [1, 64, 80], [[0x30, 0], [0x30]]⟩ :=
  C32_certificate_request_gm ⟨none, [1, 64, 80], [[0x30, 0], [0x30]]⟩ ⟨none, [], []⟩ rfl (by decide) (by decide)

example : ∃ x, (CertificateStatusMsg.mk none 1 [7, 8]).marshal = .ok (x, ⟨some x, 1, [7, 8]⟩) ∧
    (CertificateStatusMsg.mk none 0 []).unmarshal x = .ok ⟨some x, 1, [7, 8]⟩ :=
  C32_certificate_status ⟨none, 1, [7, 8]⟩ ⟨none, 0, []⟩ rfl (by decide) (by decide)
example : ∃ x, (ClientKeyExchangeMsg.mk none [7, 8]).marshal = .ok (x, ⟨some x, [7, 8]⟩) ∧
    (ClientKeyExchangeMsg.mk none []).unmarshal x = .ok ⟨some x, [7, 8]⟩ :=
  C32_client_key_exchange ⟨none, [7, 8]⟩ ⟨none, []⟩ rfl (by decide)
example : ∃ x, (NextProtoMsg.mk none [0x68, 0x32]).marshal = .ok (x, ⟨some x, [0x68, 0x32]⟩) ∧
    (NextProtoMsg.mk none []).unmarshal x = .ok ⟨some x, [0x68, 0x32]⟩ :=
  C32_next_proto ⟨none, [0x68, 0x32]⟩ ⟨none, []⟩ rfl (by decide)
example : ∃ x, (NewSessionTicketMsg.mk none [1, 2, 3]).marshal = .ok (x, ⟨some x, [1, 2, 3]⟩) ∧
    (NewSessionTicketMsg.mk none []).unmarshal x = .ok ⟨some x, [1, 2, 3]⟩ :=
  C32_new_session_ticket ⟨none, [1, 2, 3]⟩ ⟨none, []⟩ rfl (by decide)
/-- the bytes of a session ticket: type, length, zero lifetime, ticket length, ticket -/
example : (NewSessionTicketMsg.mk none [1, 2, 3]).marshal.map Prod.fst = .ok [4, 0, 0, 9, 0, 0, 0, 0, 0, 3, 1, 2, 3] := by
  decide +kernel

end Verif.Tls.Wire
