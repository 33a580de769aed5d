import Verif.X509.Prefix
/-!
`ParseCertificates` and `Pem2Cert`: C147.
-/
namespace Verif.X509
open Verif

/-- x509/x509.go:1475-1483: the structures one after the other. Each takes at least one byte (`rawCert_prefix`), so `fuel`, which the code does not have, is at least the number
of iterations when it is the length of the data; `rawCerts_fuel` says that more makes no difference. -/
def rawCerts (E : ParseEnv) : Nat → Bytes → Option (List RawCert)
  | _, [] => some []
  | 0, _ :: _ => none
  | fuel + 1, b :: l =>
    match parseRawCert E (b :: l) with
    | none => none
    | some (c, rest) => (rawCerts E fuel rest).map (c :: ·)

/-- x509/x509.go:1472-1495 `ParseCertificates`: all are unmarshalled before the first is parsed -/
def parseAllCerts (E : ParseEnv) (b : Bytes) : Option (List Certificate) :=
  match rawCerts E b.length b with
  | none => none
  | some v => v.mapM (parseCertificate E)

/-- x509/x509.go:2451-2464 `Pem2Cert`; `decode` is `pem.Decode`: the first block, and what follows it (which is ignored); `headers` says that there are some. "CERTIFICATE" is written out. -/
def pem2Cert (E : ParseEnv) (decode : Bytes → Option (PemBlock × Bytes)) (b : Bytes) : Option Certificate :=
  match decode b with
  | none => none
  | some (block, _) =>
    if block.type ≠ [67, 69, 82, 84, 73, 70, 73, 67, 65, 84, 69] ∨ block.headers = true then none
    else parse E block.bytes

theorem rawCert_prefix {E : ParseEnv} {b r : Bytes} {c : RawCert} (h : parseRawCert E b = some (c, r)) :
    b = c.raw ++ r ∧ c.raw ≠ [] ∧ ∀ r', parseRawCert E (c.raw ++ r') = some (c, r') := by
  have h0 := h
  unfold parseRawCert at h
  simp only [Option.bind_eq_bind, Option.bind_eq_some_iff] at h
  obtain ⟨⟨e, rest⟩, h1, ⟨t, c1⟩, h2, tbs, h3, ⟨a, c2⟩, h4, ⟨s, c3⟩, h5, h6⟩ := h
  simp only [Option.some.injEq, Prod.mk.injEq] at h6
  obtain ⟨rfl, rfl⟩ := h6
  obtain ⟨hb, hall⟩ := seqField_inv h1
  refine ⟨hb, ?_, ?_⟩
  · intro he
    have := hall []
    dsimp only at he
    rw [he] at this
    exact nomatch this
  · intro r'
    unfold parseRawCert
    simp only [Option.bind_eq_bind, Option.bind_eq_some_iff]
    exact ⟨(e, r'), hall r', (t, c1), h2, tbs, h3, (a, c2), h4, (s, c3), h5, rfl⟩

theorem parsed_raw {E : ParseEnv} {c : RawCert} {x : Certificate} (h : parseCertificate E c = some x) : x.cert.raw = c.raw := by
  unfold parseCertificate at h
  simp only [Option.bind_eq_bind, Option.bind_eq_some_iff] at h
  obtain ⟨pub, _, cn, _, i, _, p, _, h⟩ := h
  obtain rfl := Option.some.inj h
  rfl

theorem rawCerts_iff (E : ParseEnv) (fuel : Nat) (b : Bytes) (hf : b.length ≤ fuel) (v : List RawCert) :
    rawCerts E fuel b = some v ↔ b = (v.map (·.raw)).flatten ∧ ∀ c ∈ v, parseRawCert E c.raw = some (c, []) := by
  induction fuel generalizing b v with
  | zero =>
    obtain rfl := List.length_eq_zero_iff.1 (Nat.le_zero.1 hf)
    constructor
    · intro h
      simp only [rawCerts, Option.some.injEq] at h
      subst h
      exact ⟨rfl, by simp⟩
    · rintro ⟨hb, hv⟩
      cases v with
      | nil => rfl
      | cons c v =>
        have hn := (rawCert_prefix (hv c (by simp))).2.1
        have : c.raw = [] ∧ (v.map (·.raw)).flatten = [] := by simpa using hb.symm
        exact absurd this.1 hn
  | succ n ih =>
    cases b with
    | nil =>
      constructor
      · intro h
        simp only [rawCerts, Option.some.injEq] at h
        subst h
        exact ⟨rfl, by simp⟩
      · rintro ⟨hb, hv⟩
        cases v with
        | nil => rfl
        | cons c v =>
          have hn := (rawCert_prefix (hv c (by simp))).2.1
          have : c.raw = [] ∧ (v.map (·.raw)).flatten = [] := by simpa using hb.symm
          exact absurd this.1 hn
    | cons a l =>
      constructor
      · intro h
        simp only [rawCerts] at h
        split at h
        · cases h
        · rename_i c rest hp
          obtain ⟨v', hv', rfl⟩ := Option.map_eq_some_iff.1 h
          obtain ⟨h1, h2, h3⟩ := rawCert_prefix hp
          have hl : rest.length ≤ n := by
            have := congrArg List.length h1
            have hpos := List.length_pos_iff.2 h2
            simp only [List.length_append, List.length_cons] at this hf
            omega
          obtain ⟨e1, e2⟩ := (ih rest hl v').1 hv'
          refine ⟨by rw [h1, List.map_cons, List.flatten_cons, ← e1], ?_⟩
          intro x hx
          rcases List.mem_cons.1 hx with rfl | hx
          · have := h3 []
            rwa [List.append_nil] at this
          · exact e2 x hx
      · rintro ⟨hb, hv⟩
        cases v with
        | nil => cases hb
        | cons c v =>
          obtain ⟨_, h2, h3⟩ := rawCert_prefix (hv c (by simp))
          have hb' : a :: l = c.raw ++ (v.map (·.raw)).flatten := by rw [hb]; rfl
          have hl : (v.map (·.raw)).flatten.length ≤ n := by
            have := congrArg List.length hb'
            have hpos := List.length_pos_iff.2 h2
            simp only [List.length_append, List.length_cons] at this hf
            omega
          simp only [rawCerts]
          rw [hb', h3]
          dsimp only
          rw [(ih _ hl v).2 ⟨rfl, fun x hx => hv x (by simp [hx])⟩]
          rfl

/-- the fuel makes no difference -/
theorem rawCerts_fuel (E : ParseEnv) (b : Bytes) (m n : Nat) (hm : b.length ≤ m) (hn : b.length ≤ n) : rawCerts E m b = rawCerts E n b := by
  ext v
  rw [rawCerts_iff E m b hm, rawCerts_iff E n b hn]

theorem parsed_iff {E : ParseEnv} {b : Bytes} {x : Certificate} : parse E b = some x ↔ ∃ c, parseRawCert E b = some (c, []) ∧ parseCertificate E c = some x := by
  unfold parse
  constructor
  · intro h
    split at h
    · rename_i c hc
      exact ⟨c, hc, h⟩
    · cases h
  · rintro ⟨c, h1, h2⟩
    rw [h1]
    exact h2

/-- **C147.** `ParseCertificates` accepts exactly the concatenations of certificates each of which `ParseCertificate` accepts alone, and returns what that returns, in order:
nothing is skipped, nothing may stand between them or after the last, and one bad certificate spoils all. -/
theorem C147_certificates (E : ParseEnv) (b : Bytes) (l : List Certificate) :
    parseAllCerts E b = some l ↔ b = (l.map (·.cert.raw)).flatten ∧ ∀ x ∈ l, parse E x.cert.raw = some x := by
  unfold parseAllCerts
  constructor
  · intro h
    split at h
    · cases h
    · rename_i v hv
      obtain ⟨h1, h2⟩ := (rawCerts_iff E _ b (Nat.le_refl _) v).1 hv
      clear hv
      have : l.map (·.cert.raw) = v.map (·.raw) ∧ ∀ x ∈ l, parse E x.cert.raw = some x := by
        clear h1
        induction v generalizing l with
        | nil =>
          obtain rfl : l = [] := by simpa using h.symm
          exact ⟨rfl, by simp⟩
        | cons c v ih =>
          simp only [List.mapM_cons, Option.bind_eq_bind, Option.bind_eq_some_iff, Option.pure_def, Option.some.injEq] at h
          obtain ⟨x, hx, l', hl', rfl⟩ := h
          obtain ⟨e1, e2⟩ := ih l' hl' (fun y hy => h2 y (by simp [hy]))
          have hr := parsed_raw hx
          refine ⟨by simp [hr, e1], ?_⟩
          intro y hy
          rcases List.mem_cons.1 hy with rfl | hy
          · rw [hr]
            exact parsed_iff.2 ⟨c, h2 c (by simp), hx⟩
          · exact e2 y hy
      exact ⟨by rw [h1, this.1], this.2⟩
  · rintro ⟨hb, hl⟩
    have : ∃ v : List RawCert, v.map (·.raw) = l.map (·.cert.raw) ∧ (∀ c ∈ v, parseRawCert E c.raw = some (c, [])) ∧ v.mapM (parseCertificate E) = some l := by
      clear hb
      induction l with
      | nil => exact ⟨[], rfl, by simp, rfl⟩
      | cons x l ih =>
        obtain ⟨v, e1, e2, e3⟩ := ih (fun y hy => hl y (by simp [hy]))
        obtain ⟨c, h1, h2⟩ := parsed_iff.1 (hl x (by simp))
        have hr := parsed_raw h2
        refine ⟨c :: v, by simp [hr, e1], ?_, by simp [h2, e3]⟩
        intro y hy
        rcases List.mem_cons.1 hy with rfl | hy
        · rw [← hr]; exact h1
        · exact e2 y hy
    obtain ⟨v, e1, e2, e3⟩ := this
    rw [(rawCerts_iff E _ b (Nat.le_refl _) v).2 ⟨by rw [hb, e1], e2⟩]
    exact e3

/-- **C147.** So the certificates of two inputs are those of their concatenation, if both are accepted, and an accepted input determines them. -/
theorem C147_append (E : ParseEnv) (a b : Bytes) (l m : List Certificate) (ha : parseAllCerts E a = some l) (hb : parseAllCerts E b = some m) :
    parseAllCerts E (a ++ b) = some (l ++ m) := by
  rw [C147_certificates] at ha hb ⊢
  refine ⟨by simp [ha.1, hb.1], ?_⟩
  intro x hx
  rcases List.mem_append.1 hx with hx | hx
  · exact ha.2 x hx
  · exact hb.2 x hx

/-- **C147.** On one certificate it agrees with `ParseCertificate`: an input accepted as a single certificate is accepted as a list of one, and conversely. -/
theorem C147_single (E : ParseEnv) (b : Bytes) (x : Certificate) : parseAllCerts E b = some [x] ↔ parse E b = some x := by
  rw [C147_certificates]
  constructor
  · rintro ⟨rfl, h⟩
    simpa using h x (by simp)
  · intro h
    obtain ⟨c, h1, h2⟩ := parsed_iff.1 h
    have hr := parsed_raw h2
    have hb := (rawCert_prefix h1).1
    rw [List.append_nil] at hb
    subst hb
    exact ⟨by simp [hr], by intro y hy; obtain rfl := List.mem_singleton.1 hy; rw [hr]; exact h⟩

/-- **C147.** `Pem2Cert` returns the certificate of the first block, if that is a CERTIFICATE without headers; what follows is not looked at. -/
theorem C147_pem (E : ParseEnv) (decode : Bytes → Option (PemBlock × Bytes)) (b : Bytes) (x : Certificate) :
    pem2Cert E decode b = some x ↔
      ∃ der rest, decode b = some (⟨"CERTIFICATE".toUTF8.toList.map (fun u => u.toBitVec), false, der⟩, rest) ∧ parse E der = some x := by
  have hs : "CERTIFICATE".toUTF8.toList.map (fun u => u.toBitVec) = [67, 69, 82, 84, 73, 70, 73, 67, 65, 84, 69] := by decide +kernel
  rw [hs]
  unfold pem2Cert
  constructor
  · intro h
    split at h
    · cases h
    · rename_i block rest hd
      split at h
      · cases h
      · rename_i hn
        simp only [ne_eq, not_or, Decidable.not_not, Bool.not_eq_true] at hn
        obtain ⟨t, hh, bb⟩ := block
        obtain ⟨rfl, rfl⟩ := hn
        exact ⟨bb, rest, hd, h⟩
  · rintro ⟨der, rest, h1, h2⟩
    rw [h1]
    simp [h2]

end Verif.X509
