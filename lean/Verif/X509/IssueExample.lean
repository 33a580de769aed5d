import Verif.X509.IssueProps
import Verif.Sm2.Witness
/-!
A concrete CA and a concrete leaf: the hypotheses of C98, C99, C102 and C103 are met on the real curve.
-/
namespace Verif.X509.IssueExample
open Verif Asn1 Sm2 Verif.Sm2.Witness

/-- a stand-in for the standard library's time format: four bytes -/
def time (t : Int) : Res Bytes := if 0 ≤ t ∧ t < 2 ^ 32 then .ok (Der.encTLV 0x17 (beFixed 4 t.toNat)) else .err "time"

def PE : ParseEnv where
  time b := match Der.parseTLV 0x17 b with
    | some (c, r) => if c.length = 4 then some ((beNat c : Int), r) else none
    | none => none
  rdn _ := some [0x61]
  rdnRelative _ := false
  rsaKey _ := false
  dsaKey _ _ := false
  nistPoint _ _ := false

theorem timeLaw : TimeLaw PE time := by
  intro t b r h
  unfold time at h
  split at h
  · rename_i ht
    simp only [Res.ok.injEq] at h
    subst h
    simp only [PE]
    rw [Der.parseTLV_encTLV 0x17 _ r (by decide) (by simp)]
    simp only
    rw [if_pos (by simp), beNat_beFixed_of_lt (by omega)]
    simp; omega
  · cases h

/-- "CN=a" and "CN=b" in shape: one SEQUENCE -/
def nameA : Bytes := Der.encTLV 0x30 [0x0c, 1, 0x61]
def nameB : Bytes := Der.encTLV 0x30 [0x0c, 1, 0x62]

theorem isName (c : Bytes) : Name PE (Der.encTLV 0x30 c) [0x61] := ⟨⟨_, rfl⟩, rfl⟩

/-- a CA certificate: key usage certificate and CRL signing, no path length limit -/
def caReq : Request where
  fields := { basicConstraintsValid := true, isCA := true, keyUsage := 96, subjectKeyId := [1, 2, 3, 4] }
  extra := []
  serial := 1
  notBefore := 1000
  notAfter := 9000
  sigAlg := .unknown
  subject := nameA
  issuer := nameA
  parentKeyId := []

/-- a leaf for "b.c", with an extra extension; the algorithm asked for is SM2 with SHA-256 -/
def leafReq : Request where
  fields := { keyUsage := 1, extKeyUsage := [1], dnsNames := [[0x62, 0x2e, 0x63]], subjectKeyId := [9] }
  extra := [⟨[1, 2, 3, 4], false, [5, 0]⟩]
  serial := -77
  notBefore := 2000
  notAfter := 8000
  sigAlg := .sm2Sha256
  subject := nameB
  issuer := nameA
  parentKeyId := [1, 2, 3, 4]

def keyAlg : AlgId := ⟨Keys.oidECDSA, Keys.encOIDTLV Keys.oidSM2⟩
def keyBits : Bytes := [4] ++ beFixed 32 Gx ++ beFixed 32 Gy

def tbsOf (r : Request) (alg : AlgId) : Bytes :=
  match buildExtensions r.fields r.aki r.extra with
  | .ok exts => okVal (encTbs time r alg keyAlg keyBits exts)
  | _ => []

def algDefault : AlgId := ⟨oidSM2SM3, []⟩
def algSha256 : AlgId := ⟨[1, 2, 156, 10197, 1, 503], []⟩

def caTbs : Bytes := tbsOf caReq algDefault
def leafTbs : Bytes := tbsOf leafReq algSha256
def caHash : Bytes := okVal (msgDigest Gx Gy caTbs)
def leafHash : Bytes := okVal (msgDigest Gx Gy leafTbs)
theorem ca_hash : msgDigest Gx Gy caTbs = .ok caHash := by decide +kernel
theorem leaf_hash : msgDigest Gx Gy leafTbs = .ok leafHash := by decide +kernel

def rOf (h : Bytes) : Int := ((beNat h : Int) + Gx) % N
def sOf (h : Bytes) : Int := ((1 - rOf h * 1) * ((N + 1) / 2 : Nat)) % N

theorem ca_rs : rOf caHash ≠ 0 ∧ sOf caHash ≠ 0 ∧ (rOf caHash + sOf caHash).toNat % N ≠ N - 6 := by decide +kernel
theorem leaf_rs : rOf leafHash ≠ 0 ∧ sOf leafHash ≠ 0 ∧ (rOf leafHash + sOf leafHash).toNat % N ≠ N - 6 := by decide +kernel

def caDer : Bytes := encCert caTbs algDefault (marshalPair (rOf caHash) (sOf caHash))
def leafDer : Bytes := encCert leafTbs algSha256 (marshalPair (rOf leafHash) (sOf leafHash))

def created (r : Request) (alg : AlgId) (h : HashId) (tbs : Bytes) : Bool :=
  match signingParams (.sm2 true) r.sigAlg, marshalSM2 Gx Gy, buildExtensions r.fields r.aki r.extra with
  | .ok p, .ok k, .ok exts =>
    decide (p = (h, alg)) && (match encTbs time r p.2 k.1 k.2 exts with | .ok t => decide (t = tbs) | _ => false)
  | _, _, _ => false

theorem create_of {r : Request} {alg : AlgId} {h : HashId} {tbs hs : Bytes} (hc : created r alg h tbs = true) (hh : msgDigest Gx Gy tbs = .ok hs) :
    createCertificate time r (.sm2 true) (sm2Signer Amd64.sm2Curve zeros key) (marshalSM2 Gx Gy) =
      .ok (encCert tbs alg (marshalPair (rOf hs) (sOf hs))) := by
  unfold created at hc
  split at hc
  · rename_i p k exts h1 h2 h3
    rw [Bool.and_eq_true, decide_eq_true_eq] at hc
    obtain ⟨hp, hc⟩ := hc
    split at hc
    · rename_i t ht
      have hc := of_decide_eq_true hc
      subst hc hp
      unfold createCertificate
      rw [h1, h2, h3]
      simp only [Res.ok_bind]
      rw [ht]
      simp only [Res.ok_bind, sm2Signer, privSign, sign_value _ _ hh]
      rfl
    · cases hc
  · cases hc

theorem ca_created : createCertificate time caReq (.sm2 true) (sm2Signer Amd64.sm2Curve zeros key) (marshalSM2 Gx Gy) = .ok caDer :=
  create_of (h := .sm3) (by decide +kernel) ca_hash
theorem leaf_created : createCertificate time leafReq (.sm2 true) (sm2Signer Amd64.sm2Curve zeros key) (marshalSM2 Gx Gy) = .ok leafDer :=
  create_of (h := .sha256) (by decide +kernel) leaf_hash

theorem g_on : Keys.OnCurve Gx Gy := by unfold Keys.OnCurve; decide +kernel

def caOk : Bool :=
  match parse PE caDer with
  | some ca => decide (ca.cert.pub = .sm2 Gx Gy) && !ca.cert.keyAlgUnknown && ca.cert.basicConstraintsValid && ca.cert.isCA &&
      ca.cert.keyUsage.testBit 5 && decide (ca.cert.maxPathLen < 0) && decide (ca.cert.unhandledCritical = []) &&
      decide (ca.cert.permittedDNS = [] ∧ ca.cert.excludedDNS = []) && decide (ca.cert.rawSubject = nameA) &&
      decide (ca.cert.subjectKeyId = [1, 2, 3, 4]) && decide (ca.cert.notBefore = 1000 ∧ ca.cert.notAfter = 9000)
  | none => false

theorem ca_ok : caOk = true := by decide +kernel

noncomputable def env : Env where
  curve := Amd64.sm2Curve
  parseIP _ := none
  ipEqual _ _ := false
  equalFold a b := a == b
  otherVerify _ _ _ _ := some .badSignature

theorem leafTbs_eq (c : Certificate) (h : parse PE leafDer = some c) : c.cert.rawTBS = leafTbs := by
  have : (match parse PE leafDer with | some c => decide (c.cert.rawTBS = leafTbs) | none => false) = true := by decide +kernel
  rw [h] at this
  exact of_decide_eq_true this

theorem leaf_good (r s : Int) (hr : r = rOf leafHash) (hs : s = sOf leafHash) : r ≠ 0 ∧ s ≠ 0 ∧ (r + s).toNat % N ∉ Amd64.sm2Lawful.bad := by
  rw [hr, hs]
  refine ⟨leaf_rs.1, leaf_rs.2.1, ?_⟩
  intro h
  exact leaf_rs.2.2 h

/-- the CA's certificate and the leaf's verify, at time 5000, for "b.c" -/
example : ∃ ca leaf chains, parse PE caDer = some ca ∧ parse PE leafDer = some leaf ∧
    verify env [] none leaf.cert
      { dnsName := [0x62, 0x2e, 0x63], intermediates := none, roots := some (poolOf [ca.cert]), now := 5000, keyUsages := [0] } = some (.ok chains) ∧
    chains ≠ [] ∧ ∀ ch ∈ chains, ch = [leaf.cert, ca.cert] := by
  have hca := ca_ok
  unfold caOk at hca
  split at hca
  · rename_i ca hp
    simp only [Bool.and_eq_true, decide_eq_true_eq, Bool.not_eq_true'] at hca
    obtain ⟨⟨⟨⟨⟨⟨⟨⟨⟨⟨a1, a2⟩, a3⟩, a4⟩, a5⟩, a6⟩, a7⟩, a8⟩, a9⟩, a10⟩, a11⟩ := hca
    obtain ⟨leaf, chains, h1, h2, h3, h4⟩ := C103_issue_then_verify env Amd64.sm2Lawful key 1 key_of (by decide +kernel) PE time timeLaw
      caDer ca hp a1 a2 ⟨a3, a4⟩ (.inr a5) a6 a7 a8 leafReq zeros Gx Gy leafDer [0x61] [0x61] g_on leaf_created (by decide +kernel)
      ⟨by decide, by decide, by decide, by decide, by decide, by decide⟩ (by decide) (isName _) (isName _)
      ⟨a9.symm, a10.symm, by decide +kernel⟩ (by decide) (by decide) (by
        intro c hc r s hs
        rw [leafTbs_eq c hc] at hs
        have hv := sign_value _ _ leaf_hash
        change sign Amd64.sm2Curve zeros key leafTbs = _ at hs
        rw [hv] at hs
        simp only [Res.ok.injEq, Prod.mk.injEq] at hs
        exact leaf_good r s hs.1.symm hs.2.symm) 5000 (by rw [a11.1, a11.2]; decide) [0x62, 0x2e, 0x63] [] (by
        intro c hc _
        have : (match parse PE leafDer with | some c => decide (verifyHostname env c.cert [0x62, 0x2e, 0x63] = none) | none => false) = true := by
          decide +kernel
        rw [hc] at this
        exact of_decide_eq_true this)
    exact ⟨ca, leaf, chains, hp, h1, h2, h3, h4⟩
  · cases hca

end Verif.X509.IssueExample
