import Verif.X509.StrictProps
import Verif.X509.CsrProps
import Verif.X509.CrlProps
import Verif.X509.IssueExample
/-!
Concrete inputs for C100, C101, C105, C106 and C107.
-/
namespace Verif.X509.IssueExample
open Verif Asn1 Sm2 Verif.Sm2.Witness

/-- a request for "b.c" and the address 1.2.3.4, with an extra critical extension -/
def csrReq : CsrTemplate where
  dnsNames := [[0x62, 0x2e, 0x63]]
  emails := []
  ips := [[1, 2, 3, 4]]
  extra := [⟨[1, 2, 3, 4], true, [5, 0]⟩]
  subject := nameB
  sigAlg := .unknown

def csrTbs : Bytes := encCsrTbs nameB keyAlg keyBits (okVal (encAttributes csrReq.extensions))
def csrHash : Bytes := okVal (msgDigest Gx Gy csrTbs)
theorem csr_hash : msgDigest Gx Gy csrTbs = .ok csrHash := by decide +kernel
theorem csr_rs : rOf csrHash ≠ 0 ∧ sOf csrHash ≠ 0 ∧ (rOf csrHash + sOf csrHash).toNat % N ≠ N - 6 := by decide +kernel
def csrDer : Bytes := encCert csrTbs algDefault (marshalPair (rOf csrHash) (sOf csrHash))

theorem csr_created : createCSR csrReq (.sm2 true) (sm2Signer Amd64.sm2Curve zeros key) (marshalSM2 Gx Gy) = .ok csrDer := by
  have h1 : signingParams (.sm2 true) csrReq.sigAlg = .ok (.sm3, algDefault) := by decide
  have h2 : marshalSM2 Gx Gy = .ok (keyAlg, keyBits) := by decide +kernel
  have h3 : encAttributes csrReq.extensions = .ok (okVal (encAttributes csrReq.extensions)) := by decide +kernel
  unfold createCSR
  rw [h1, h2, h3]
  simp only [Res.ok_bind, csrSignature, sm2Signer, privSign]
  have hv : sign Amd64.sm2Curve zeros key (encCsrTbs csrReq.subject keyAlg keyBits (okVal (encAttributes csrReq.extensions))) = _ :=
    sign_value _ _ csr_hash
  rw [hv]
  rfl

theorem csr_good (r s : Int) (hr : r = rOf csrHash) (hs : s = sOf csrHash) : r ≠ 0 ∧ s ≠ 0 ∧ (r + s).toNat % N ∉ Amd64.sm2Lawful.bad := by
  rw [hr, hs]
  refine ⟨csr_rs.1, csr_rs.2.1, ?_⟩
  intro h
  exact csr_rs.2.2 h

example : ∃ c, parseCSR PE csrDer = some c ∧ c.pub = .key (.sm2 Gx Gy) ∧ c.dnsNames = [[0x62, 0x2e, 0x63]] ∧ c.extensions.length = 2 ∧
    csrCheckSignature env (fun _ _ _ _ => false) c = none := by
  obtain ⟨c, h1, h2, h3, h4, h5, h6, h7, h8, h9, h10, h11, h12⟩ := C105_request_round_trip_partial env Amd64.sm2Lawful key 1 key_of
    (by decide +kernel) PE csrReq zeros csrDer [0x61] g_on (.inl rfl) csr_created (by decide +kernel) (by decide) (by decide) (isName _) (by
      intro c hc r s hs
      have ht : c.rawTBS = csrTbs := by
        have : (match parseCSR PE csrDer with | some c => decide (c.rawTBS = csrTbs) | none => false) = true := by decide +kernel
        rw [hc] at this
        exact of_decide_eq_true this
      rw [ht] at hs
      change sign Amd64.sm2Curve zeros key csrTbs = _ at hs
      rw [sign_value _ _ csr_hash] at hs
      simp only [Res.ok.injEq, Prod.mk.injEq] at hs
      exact csr_good r s hs.1.symm hs.2.symm) (fun _ _ _ _ => false)
  refine ⟨c, h1, h7, h9, ?_, h12⟩
  rw [h8]
  rfl

/-- the same request, labelled ECDSA with SHA-256 -/
def csrDer' : Bytes := encCert csrTbs ⟨[1, 2, 840, 10045, 4, 3, 2], []⟩ (marshalPair (rOf csrHash) (sOf csrHash))

/-- **C112 fails**: the kind of key a request is read with depends on the label of its signature, which is not signed -/
theorem C112_key_kind_violated : ∃ c c', parseCSR PE csrDer = some c ∧ parseCSR PE csrDer' = some c' ∧ c.rawTBS = c'.rawTBS ∧ c.pub = .key (.sm2 Gx Gy) ∧
    c'.keyAlg = .ecdsa ∧ c'.pub ≠ c.pub := by
  have h : (match parseCSR PE csrDer, parseCSR PE csrDer' with
    | some c, some c' => decide (c.rawTBS = c'.rawTBS ∧ c.pub = .key (.sm2 Gx Gy) ∧ c'.keyAlg = .ecdsa ∧ c'.pub ≠ c.pub)
    | _, _ => false) = true := by decide +kernel
  split at h
  · rename_i c c' h1 h2
    have := of_decide_eq_true h
    exact ⟨c, c', h1, h2, this⟩
  · cases h

/-- the RSA request without a signature -/
example : ∃ der, createCSR csrReq .rsa (fun _ _ => .ok [1, 2, 3]) (.ok (⟨Keys.oidRSA, nullBytes⟩, [7])) = .ok der :=
  C105_rsa_always_violated csrReq _ [7] (okVal (encAttributes csrReq.extensions)) rfl (by decide +kernel)

/-- C100, C101 on the CA's certificate -/
example : ∃ ca der', parse PE caDer = some ca ∧ der' ≠ caDer ∧ parse PE der' = some { ca with cert := { ca.cert with raw := der' } } := by
  have hca := ca_ok
  unfold caOk at hca
  split at hca
  · rename_i ca hp
    obtain ⟨d, h1, h2⟩ := C101_unique_encoding_violated PE caDer [0xff] ca hp (by decide) (by decide +kernel)
    exact ⟨ca, d, hp, h1, h2⟩
  · cases hca

example : (mergeAttributes [⟨[1, 2], [[]]⟩] [⟨oidSAN, false, []⟩]).2 = [⟨[1, 2], [[]]⟩] := (C106_template_kept_partial _ _).2 (by decide)

/-! ## a revocation list -/

theorem timeLaw' : TimeLaw' PE time where
  back := timeLaw
  der := by
    intro t b h
    unfold time at h
    split at h
    · simp only [Res.ok.injEq] at h
      exact ⟨0x17, _, .inl rfl, by simp, h.symm⟩
    · cases h

/-- two revoked certificates, the second with an extension -/
def revokedList : List Revoked := [⟨-77, 3000, none⟩, ⟨5, 3500, some [⟨[1, 2, 3, 4], true, [5, 0]⟩]⟩]
def crlTbs : Bytes := okVal (encCrlTbs time algDefault nameA 4000 (some 5000) revokedList (crlExtensions [1, 2, 3, 4]))
def crlHash : Bytes := okVal (msgDigest Gx Gy crlTbs)
theorem crl_hash : msgDigest Gx Gy crlTbs = .ok crlHash := by decide +kernel
theorem crl_rs : rOf crlHash ≠ 0 ∧ sOf crlHash ≠ 0 ∧ (rOf crlHash + sOf crlHash).toNat % N ≠ N - 6 := by decide +kernel
def crlDer : Bytes := encCert crlTbs algDefault (marshalPair (rOf crlHash) (sOf crlHash))

theorem crl_created :
    createCRL time nameA [1, 2, 3, 4] (.sm2 true) (sm2Signer Amd64.sm2Curve zeros key) revokedList 4000 (some 5000) = .ok crlDer := by
  have h1 : signingParams (.sm2 true) .unknown = .ok (.sm3, algDefault) := by decide
  have h3 : encCrlTbs time algDefault nameA 4000 (some 5000) revokedList (crlExtensions [1, 2, 3, 4]) = .ok crlTbs := by decide +kernel
  unfold createCRL
  rw [h1]
  simp only [Res.ok_bind, h3, sm2Signer, privSign]
  rw [sign_value _ _ crl_hash]
  rfl

theorem crl_good (r s : Int) (hr : r = rOf crlHash) (hs : s = sOf crlHash) : r ≠ 0 ∧ s ≠ 0 ∧ (r + s).toNat % N ∉ Amd64.sm2Lawful.bad := by
  rw [hr, hs]
  refine ⟨crl_rs.1, crl_rs.2.1, ?_⟩
  intro h
  exact crl_rs.2.2 h

example : ∃ c, parseCRL PE crlDer = some c ∧ c.revoked.map (·.serial) = [-77, 5] ∧ checkCRLSignature env (.sm2 Gx Gy) c = none := by
  obtain ⟨c, h1, h2, h3, h4, h5, h6, h7, h8, h9, h10, h11⟩ := C107_crl_round_trip env Amd64.sm2Lawful key 1 key_of
    (by decide +kernel) PE time timeLaw' nameA [1, 2, 3, 4] zeros crlDer [0x61] revokedList 4000 (some 5000) crl_created (by decide +kernel)
    (isName _) (by
      intro r hr l hl e he
      have : ∀ r ∈ revokedList, ∀ e ∈ r.extensions.getD [], OIDok e.id := by decide
      exact this r hr e (by rw [hl]; exact he)) (by
      intro c hc r s hs
      have ht : c.rawTBS = crlTbs := by
        have : (match parseCRL PE crlDer with | some c => decide (c.rawTBS = crlTbs) | none => false) = true := by decide +kernel
        rw [hc] at this
        exact of_decide_eq_true this
      rw [ht] at hs
      change sign Amd64.sm2Curve zeros key crlTbs = _ at hs
      rw [sign_value _ _ crl_hash] at hs
      simp only [Res.ok.injEq, Prod.mk.injEq] at hs
      exact crl_good r s hs.1.symm hs.2.symm)
  exact ⟨c, h1, by rw [h6]; rfl, h11⟩

end Verif.X509.IssueExample

