import Verif.Keys.Props
import Verif.Keys.PubProps
import Verif.Keys.RsaProps
/-!
Loading certificates with their keys: `X509KeyPair`, `parsePrivateKey` (tls/tls.go:191-310), `getCert`, `getKey`, `matchKeyCert`, `GMX509KeyPairs`,
`GMX509KeyPairsSingle` (tls/gm_support.go:274-433).

Parameters: `encoding/pem`, `x509.ParseCertificate` (only the public key matters here) and the public points of NIST keys.
Error texts are shortened.
-/
namespace Verif.Keys
open Verif Verif.Sm2

/-- the public key of a parsed certificate: SM2 or ECDSA point, RSA modulus and exponent, anything else -/
inductive CertPub where
  | sm2 (x y : Nat)
  | ecdsa (x y : Nat)
  | rsa (n e : Nat)
  | other
deriving DecidableEq, Repr

/-- a private key as the loaders return it, with the public part they compare -/
inductive TlsKey (c : Curve) where
  | sm2 (k : PrivateKey c)
  | ecdsa (d x y : Nat)
  | rsa (k : RsaKey)

structure PairEnv where
  /-- `pem.Decode`: the next block and the rest -/
  decode : Bytes → Option (Block × Bytes)
  /-- the rest is shorter than the input -/
  shorter : ∀ b blk rest, decode b = some (blk, rest) → rest.length < b.length
  /-- `x509.ParseCertificate`, the public key -/
  cert : Bytes → Option CertPub
  /-- the public point of a scalar on a NIST curve (x509/sec1.go:126-152) -/
  nist : Named → Nat → Nat × Nat
  order : Named → Nat

/-- all blocks of a PEM text: the repeated `pem.Decode`. The fuel is the length of the text. -/
def blocks (E : PairEnv) : Nat → Bytes → List Block
  | 0, _ => []
  | n + 1, b =>
    match E.decode b with
    | none => []
    | some (blk, rest) => blk :: blocks E n rest

def PairEnv.blocksOf (E : PairEnv) (b : Bytes) : List Block := blocks E (b.length + 1) b

/-- tls/gm_support.go:274-304 `getCert`, tls/tls.go:198-221 -/
def getCert (E : PairEnv) (b : Bytes) : Res (List Bytes) :=
  let certs := ((E.blocksOf b).filter (fun x => x.type == "CERTIFICATE")).map (·.bytes)
  if certs.length = 0 then .err "tls: failed to find certificate PEM data in certificate input" else .ok certs

/-- `Type == "PRIVATE KEY" || strings.HasSuffix(Type, " PRIVATE KEY")` -/
def isKeyBlock (b : Block) : Bool := b.type == "PRIVATE KEY" || " PRIVATE KEY".toList.isSuffixOf b.type.toList

/-- tls/gm_support.go:306-328 `getKey`, tls/tls.go:222-240 -/
def getKey (E : PairEnv) (b : Bytes) : Res Block :=
  match (E.blocksOf b).find? isKeyBlock with
  | none => .err "tls: failed to find PEM block with type ending in PRIVATE KEY in key input"
  | some k => .ok k

/-- a `ParsedKey` with the public part -/
def tlsKey (E : PairEnv) {c : Curve} (der : Bytes) : ParsedKey c → Option (TlsKey c)
  | .sm2 k => some (.sm2 k)
  | .ecdsa cv d => some (.ecdsa d (E.nist cv d).1 (E.nist cv d).2)
  | .rsa => (pkcs8Rsa der).map .rsa

/-- the PKCS#8 attempt of `parsePrivateKey`, tls/tls.go:291-298 -/
def tryPkcs8 (E : PairEnv) (c : Curve) (der : Bytes) : Res (Option (TlsKey c)) :=
  match parsePKCS8 c E.order der with
  | .ok k => .ok (tlsKey E der k)
  | .err _ => .ok none
  | .panic => .panic

/-- tls/tls.go:287-306 `parsePrivateKey`: PKCS#1, then PKCS#8, then SEC 1. (The type switch in the PKCS#8 case never fails: these are all the types.) -/
def parsePrivateKey (E : PairEnv) (c : Curve) (der : Bytes) : Res (TlsKey c) :=
  match parsePKCS1 der with
  | .ok k => .ok (.rsa k)
  | .panic => .panic
  | .err _ =>
    match tryPkcs8 E c der with
    | .ok (some k) => .ok k
    | .ok none =>
      match parseECPrivateKeyDer c E.order der with
      | .ok k =>
        match tlsKey E der k with
        | some k => .ok k
        | none => .err "tls: failed to parse private key"
      | .err _ => .err "tls: failed to parse private key"
      | .panic => .panic
    | .err e => .err e
    | .panic => .panic

/-- tls/tls.go:252-281: does the private key belong to the leaf? -/
def matches_ {c : Curve} (p : CertPub) (k : TlsKey c) : Bool :=
  match p, k with
  | .rsa n _, .rsa k => n == k.n
  | .ecdsa x y, .ecdsa _ x' y' => x == x' && y == y'
  | .sm2 x y, .sm2 k => x == k.x && y == k.y
  | _, _ => false

/-- the fields of `tls.Certificate` that are filled in -/
structure Loaded (c : Curve) where
  chain : List Bytes
  key : TlsKey c

/-- tls/tls.go:243-284, the end of `X509KeyPair` -/
def checkPair (E : PairEnv) (c : Curve) (chain : List Bytes) (kb : Block) : Res (Loaded c) :=
  match E.cert (chain.headD []) with
  | none => .err "x509"
  | some p =>
    match parsePrivateKey E c kb.bytes with
    | .ok k => if matches_ p k then .ok ⟨chain, k⟩ else .err "tls: private key does not match public key"
    | .err e => .err e
    | .panic => .panic

/-- tls/tls.go:194-285 `X509KeyPair` -/
def x509KeyPair (E : PairEnv) (c : Curve) (certPEM keyPEM : Bytes) : Res (Loaded c) :=
  match getCert E certPEM with
  | .ok chain =>
    match getKey E keyPEM with
    | .ok kb => checkPair E c chain kb
    | .err e => .err e
    | .panic => .panic
  | .err e => .err e
  | .panic => .panic

/-- tls/gm_support.go:328-354 `matchKeyCert`: SM2 keys only -/
def matchKeyCert (E : PairEnv) (c : Curve) (kb : Block) (cert : Bytes) : Res (TlsKey c) :=
  match E.cert cert with
  | none => .err "x509"
  | some p =>
    match parsePrivateKey E c kb.bytes with
    | .ok k =>
      match p, k with
      | .sm2 x y, .sm2 k => if x ≠ k.x ∨ y ≠ k.y then .err "tls: private key does not match public key" else .ok (.sm2 k)
      | .sm2 _ _, _ => .err "tls: private key type does not match public key type"
      | _, _ => .err "tls: unknown public key algorithm"
    | .err e => .err e
    | .panic => .panic

/-- tls/gm_support.go:356-393 `GMX509KeyPairs`; the last argument is never used. (On an error the Go function may also return the certificates found so
far; only the error is modelled.) -/
def gmX509KeyPairs (E : PairEnv) (c : Curve) (certPEM keyPEM encCertPEM _encKeyPEM : Bytes) : Res (Loaded c) :=
  match getCert E certPEM with
  | .ok signCerts =>
    match getCert E encCertPEM with
    | .ok encCerts =>
      match getKey E keyPEM with
      | .ok kb =>
        match matchKeyCert E c kb (signCerts.headD []) with
        | .ok k => .ok ⟨[signCerts.headD [], encCerts.headD []], k⟩
        | .err e => .err e
        | .panic => .panic
      | .err e => .err e
      | .panic => .panic
    | .err e => .err e
    | .panic => .panic
  | .err e => .err e
  | .panic => .panic

/-- tls/gm_support.go:400-433 `GMX509KeyPairsSingle`. x509/x509.go:1196-1203: the algorithm is SM2 exactly when the public key is an SM2 key. -/
def gmX509KeyPairsSingle (E : PairEnv) (c : Curve) (certPEM keyPEM : Bytes) : Res (Loaded c) :=
  match getCert E certPEM with
  | .ok certs =>
    match E.cert (certs.headD []) with
    | none => .err "tls: failed to parse certificate"
    | some (.sm2 _ _) =>
      match getKey E keyPEM with
      | .ok kb =>
        match matchKeyCert E c kb (certs.headD []) with
        | .ok k => .ok ⟨[certs.headD []], k⟩
        | .err e => .err e
        | .panic => .panic
      | .err e => .err e
      | .panic => .panic
    | some _ => x509KeyPair E c certPEM keyPEM
  | .err e => .err e
  | .panic => .panic

/-! ### Specification -/

namespace Spec

/-- the blocks of a PEM text, as a relation: what `pem.Decode` finds one after another, until it finds none -/
inductive Blocks (E : PairEnv) : Bytes → List Block → Prop where
  | nil {b : Bytes} (h : E.decode b = none) : Blocks E b []
  | cons {b rest : Bytes} {blk : Block} {l : List Block} (h : E.decode b = some (blk, rest)) (t : Blocks E rest l) : Blocks E b (blk :: l)

/-- the first certificate of a PEM text -/
def FirstCert (E : PairEnv) (pem cert : Bytes) : Prop :=
  ∃ l pre blk post, Blocks E pem l ∧ l = pre ++ blk :: post ∧ (∀ b ∈ pre, b.type ≠ "CERTIFICATE") ∧ blk.type = "CERTIFICATE" ∧ blk.bytes = cert

/-- the contents of the first private key block of a PEM text -/
def FirstKey (E : PairEnv) (pem der : Bytes) : Prop :=
  ∃ l pre blk post, Blocks E pem l ∧ l = pre ++ blk :: post ∧
    (∀ b ∈ pre, b.type ≠ "PRIVATE KEY" ∧ ∀ s : List Char, b.type.toList ≠ s ++ " PRIVATE KEY".toList) ∧
    (blk.type = "PRIVATE KEY" ∨ ∃ s : List Char, blk.type.toList = s ++ " PRIVATE KEY".toList) ∧ blk.bytes = der

/-- a private key in range with its own public part; for SM2 without tables and cached inverse -/
def Own (c : Curve) (E : PairEnv) (k : TlsKey c) : Prop :=
  match k with
  | .sm2 k => 0 ≤ k.d ∧ k.d < N ∧ (k.x, k.y) = c.scalarBaseMult (beFixed 32 k.d.toNat) ∧ k.pre = none ∧ k.dInv = none
  | .ecdsa d x y => ∃ cv, cv ≠ .sm2 ∧ d < E.order cv ∧ (x, y) = E.nist cv d
  | .rsa k => RsaValid k ∧ ∃ c, k.pre = some c ∧ PreOk k c

/-- the private key belongs to the public key: for SM2 and ECDSA the certificate holds the point of the scalar, for RSA the modulus (the exponent is not compared, see `C55_exponent_violated`) -/
def Belongs (c : Curve) (E : PairEnv) (p : CertPub) (k : TlsKey c) : Prop :=
  Own c E k ∧
  match k with
  | .sm2 k => p = .sm2 k.x k.y
  | .ecdsa _ x y => p = .ecdsa x y
  | .rsa k => ∃ e, p = .rsa k.n e

end Spec

theorem blocks_spec (E : PairEnv) (n : Nat) : ∀ b : Bytes, b.length < n → Spec.Blocks E b (blocks E n b) := by
  induction n with
  | zero => intro b h; omega
  | succ n ih =>
    intro b h
    unfold blocks
    cases hd : E.decode b with
    | none => exact .nil hd
    | some r =>
      obtain ⟨blk, rest⟩ := r
      have := E.shorter b blk rest hd
      exact .cons hd (ih rest (by omega))

theorem getCert_inv {E : PairEnv} {b : Bytes} {l : List Bytes} (h : getCert E b = .ok l) : Spec.FirstCert E b (l.headD []) := by
  unfold getCert at h
  dsimp only at h
  split at h
  · cases h
  rename_i hne
  have hl := Res.ok.inj h
  have hb := blocks_spec E (b.length + 1) b (by omega)
  rw [← hl]
  have key : ∀ bl : List Block, ((bl.filter (fun x => x.type == "CERTIFICATE")).map (·.bytes)).length ≠ 0 →
      ∃ pre blk post, bl = pre ++ blk :: post ∧ (∀ b ∈ pre, b.type ≠ "CERTIFICATE") ∧ blk.type = "CERTIFICATE" ∧
        blk.bytes = ((bl.filter (fun x => x.type == "CERTIFICATE")).map (·.bytes)).headD [] := by
    intro bl
    induction bl with
    | nil => intro h; exact absurd rfl h
    | cons x t ih =>
      intro h
      by_cases hx : x.type = "CERTIFICATE"
      · exact ⟨[], x, t, rfl, nofun, hx, by simp [hx]⟩
      · have hf : (x :: t).filter (fun x => x.type == "CERTIFICATE") = t.filter (fun x => x.type == "CERTIFICATE") := by
          rw [List.filter_cons, if_neg (by simpa using hx)]
        rw [hf] at h ⊢
        obtain ⟨pre, blk, post, h1, h2, h3, h4⟩ := ih h
        refine ⟨x :: pre, blk, post, by rw [h1]; rfl, ?_, h3, h4⟩
        intro b hb
        rcases List.mem_cons.1 hb with rfl | hb
        · exact hx
        · exact h2 b hb
  obtain ⟨pre, blk, post, h1, h2, h3, h4⟩ := key _ hne
  exact ⟨_, pre, blk, post, hb, h1, h2, h3, h4⟩

theorem parseEC_bare {c : Curve} {order : Named → Nat} {o : Option OID} {der : Bytes} {k : PrivateKey c}
    (h : parseECPrivateKey c order o der = .ok (.sm2 k)) : k.pre = none ∧ k.dInv = none := by
  unfold parseECPrivateKey at h
  split at h
  · cases h
  split at h
  · cases h
  dsimp only at h
  split at h
  · cases h
  · split at h
    · cases h
    · split at h
      · cases h
      · cases h
        exact ⟨rfl, rfl⟩
  · split at h
    · cases h
    · cases h

theorem parsePKCS8_ec {c : Curve} {order : Named → Nat} {der : Bytes} {p : ParsedKey c} (h : parsePKCS8 c order der = .ok p) (hne : p ≠ .rsa) :
    ∃ o d, parseECPrivateKey c order o d = .ok p := by
  unfold parsePKCS8 at h
  split at h
  · cases h
  · split at h
    · cases h
      exact absurd rfl hne
    · split at h
      · dsimp only at h
        split at h
        · rename_i hq
          cases h
          exact ⟨_, _, hq⟩
        · cases h
        · cases h
      · cases h

theorem pkcs8Rsa_inv {der : Bytes} {k : RsaKey} (h : pkcs8Rsa der = some k) : Spec.RsaValid k ∧ ∃ c, k.pre = some c ∧ Spec.PreOk k c := by
  unfold pkcs8Rsa at h
  split at h
  · cases h
  split at h
  · split at h
    · rename_i hq
      cases h
      obtain ⟨a, b, -⟩ := C127_parsed _ _ hq
      exact ⟨a, b⟩
    · cases h
  · cases h

/-- the two formats exclude each other: after the version comes an INTEGER in one and a SEQUENCE in the other -/
theorem pkcs8_not_pkcs1 {c : Curve} {order : Named → Nat} {der : Bytes} {p : ParsedKey c} (h : parsePKCS8 c order der = .ok p) :
    ∃ m, parsePKCS1 der = .err m := by
  cases hq : parsePKCS1 der with
  | err m => exact ⟨m, rfl⟩
  | panic => exact absurd hq (C127_never_panics der)
  | ok k =>
    exfalso
    obtain ⟨s, f, k0, h1, h2, -⟩ := parsePKCS1_inv hq
    unfold parsePKCS8 at h
    split at h
    · cases h
    rename_i x hx
    simp only [Option.bind_eq_bind, Option.bind_eq_some_iff, Prod.exists, parseAlgId] at hx
    obtain ⟨s', r', g1, v, s1, g2, a1, a2, s2, ⟨s3, r3, g3, -⟩, -⟩ := hx
    simp only [pkcs1Fields, Option.bind_eq_bind, Option.bind_eq_some_iff, Prod.exists] at h2
    obtain ⟨v', s1', k1, n, s4, k2, -⟩ := h2
    unfold X509.Asn1.only at h1
    split at h1
    · rename_i hp
      cases h1
      unfold Der.parseSeq at g1 g3
      rw [hp] at g1
      cases g1
      rw [k1] at g2
      cases g2
      unfold Der.parseInt at k2
      unfold Der.parseTLV at k2 g3
      cases hh : Der.parseHdr s1 with
      | none => rw [hh] at g3; cases g3
      | some y =>
        obtain ⟨id, l, r⟩ := y
        rw [hh] at g3 k2
        dsimp only at g3 k2
        by_cases hid : id = 2
        · rw [if_pos (by rw [hid]; decide)] at g3
          cases g3
        · rw [if_pos hid] at k2
          cases k2
    · cases h1

/-- what `parsePrivateKey` returns is a key in range together with its own public part -/
theorem parsePrivateKey_inv {E : PairEnv} {c : Curve} {der : Bytes} {k : TlsKey c} (h : parsePrivateKey E c der = .ok k) : Spec.Own c E k := by
  have ec : ∀ (o : Option OID) (d : Bytes) (p : ParsedKey c), parseECPrivateKey c E.order o d = .ok p → ∀ der k, tlsKey E der p = some k → Spec.Own c E k := by
    intro o d p hp der k hk
    have := C21_range_checked E.order o d p hp
    cases p with
    | sm2 q =>
      cases hk
      exact ⟨this.1, this.2.1, this.2.2, parseEC_bare hp⟩
    | ecdsa cv q => cases hk; exact ⟨cv, this.1, this.2, rfl⟩
    | rsa => exact this.elim
  have try8 : ∀ r, tryPkcs8 E c der = .ok (some r) → Spec.Own c E r := by
    intro r hr
    unfold tryPkcs8 at hr
    split at hr
    · rename_i p hp
      have hr := Res.ok.inj hr
      cases p with
      | rsa =>
        unfold tlsKey at hr
        cases hq : pkcs8Rsa der with
        | none => rw [hq] at hr; cases hr
        | some n =>
          rw [hq] at hr
          cases hr
          exact pkcs8Rsa_inv hq
      | sm2 q =>
        obtain ⟨o, d, hq⟩ := parsePKCS8_ec hp nofun
        exact ec _ _ _ hq der r hr
      | ecdsa cv q =>
        obtain ⟨o, d, hq⟩ := parsePKCS8_ec hp nofun
        exact ec _ _ _ hq der r hr
    · cases hr
    · cases hr
  unfold parsePrivateKey at h
  split at h
  · rename_i hq
    cases h
    obtain ⟨a, b, -⟩ := C127_parsed _ _ hq
    exact ⟨a, b⟩
  · cases h
  split at h
  · rename_i hr
    cases h
    exact try8 _ hr
  · split at h
    · rename_i p hp
      split at h
      · rename_i hq
        cases h
        exact ec _ _ _ hp der _ hq
      · cases h
    · cases h
    · cases h
  · cases h
  · cases h

theorem matchKeyCert_inv {E : PairEnv} {c : Curve} {kb : Block} {cert : Bytes} {k : TlsKey c} (h : matchKeyCert E c kb cert = .ok k) :
    ∃ q p, k = .sm2 q ∧ E.cert cert = some p ∧ Spec.Belongs c E p k := by
  unfold matchKeyCert at h
  split at h
  · cases h
  rename_i p hp
  split at h
  · rename_i k' hk
    have hi := parsePrivateKey_inv hk
    cases p with
    | sm2 x y =>
      cases k' with
      | sm2 q =>
        dsimp only at h
        split at h
        · cases h
        · rename_i hxy
          cases h
          simp only [not_or, not_not] at hxy
          exact ⟨q, _, rfl, hp, hi, by rw [hxy.1, hxy.2]⟩
      | ecdsa d a b => cases h
      | rsa n => cases h
    | ecdsa x y => cases h
    | rsa n => cases h
    | other => cases h
  · cases h
  · cases h

/-- **C55.** What `GMX509KeyPairs` returns: the first certificate of each certificate text, in the order signature, encryption, and an SM2 private key that
belongs to the signature certificate: its scalar is in range and the certificate holds its public point. -/
theorem C55_gm_pairs_partial (E : PairEnv) (c : Curve) (certPEM keyPEM encCertPEM encKeyPEM : Bytes) (r : Loaded c)
    (h : gmX509KeyPairs E c certPEM keyPEM encCertPEM encKeyPEM = .ok r) :
    ∃ sc ec k p, r.chain = [sc, ec] ∧ Spec.FirstCert E certPEM sc ∧ Spec.FirstCert E encCertPEM ec ∧ r.key = .sm2 k ∧ E.cert sc = some p ∧
      Spec.Belongs c E p r.key := by
  unfold gmX509KeyPairs at h
  split at h
  · rename_i sc hs
    split at h
    · rename_i ec he
      split at h
      · rename_i kb _
        split at h
        · rename_i k hk
          cases h
          obtain ⟨q, p, h1, h2, h3⟩ := matchKeyCert_inv hk
          exact ⟨_, _, q, p, rfl, getCert_inv hs, getCert_inv he, h1, h2, h3⟩
        · cases h
        · cases h
      · cases h
      · cases h
    · cases h
    · cases h
  · cases h
  · cases h

/-- **C55** fails for the encryption pair: the encryption key is never looked at, and no private key of the encryption certificate is returned: any four
texts that load also load with any other encryption key text, to the same result, whatever the encryption certificate is. -/
theorem C55_enc_key_violated (E : PairEnv) (c : Curve) (certPEM keyPEM encCertPEM encKeyPEM other : Bytes) :
    gmX509KeyPairs E c certPEM keyPEM encCertPEM other = gmX509KeyPairs E c certPEM keyPEM encCertPEM encKeyPEM := rfl

/-- **C55** for the standard loader: all certificates of the text in order (the first is the leaf), and a private key that belongs to the leaf (for RSA: of the leaf's modulus, and whose exponents fit each other). -/
theorem C55_x509_pair_partial (E : PairEnv) (c : Curve) (certPEM keyPEM : Bytes) (r : Loaded c) (h : x509KeyPair E c certPEM keyPEM = .ok r) :
    ∃ p l, Spec.FirstCert E certPEM (r.chain.headD []) ∧ E.cert (r.chain.headD []) = some p ∧ Spec.Belongs c E p r.key ∧
      Spec.Blocks E certPEM l ∧ r.chain = (l.filter (fun b => b.type == "CERTIFICATE")).map (·.bytes) := by
  unfold x509KeyPair at h
  split at h
  · rename_i chain hc
    split at h
    · unfold checkPair at h
      split at h
      · cases h
      rename_i p hp
      split at h
      · rename_i k hk
        split at h
        · rename_i hm
          cases h
          have hi := parsePrivateKey_inv hk
          refine ⟨p, _, getCert_inv hc, hp, ?_, blocks_spec E (certPEM.length + 1) certPEM (by omega), ?_⟩
          · cases p <;> cases k <;> unfold matches_ at hm <;> simp only [Bool.and_eq_true, beq_iff_eq, Bool.false_eq_true] at hm
            · exact ⟨hi, by rw [hm.1, hm.2]⟩
            · exact ⟨hi, by rw [hm.1, hm.2]⟩
            · exact ⟨hi, _, by rw [hm]⟩
          · unfold getCert at hc
            dsimp only at hc
            split at hc
            · cases hc
            · exact (Res.ok.inj hc).symm
        · cases h
      · cases h
      · cases h
    · cases h
    · cases h
  · cases h
  · cases h

/-- **C55** for the loader of one GM certificate -/
theorem C55_gm_single (E : PairEnv) (c : Curve) (certPEM keyPEM : Bytes) (r : Loaded c) (h : gmX509KeyPairsSingle E c certPEM keyPEM = .ok r) :
    ∃ p, Spec.FirstCert E certPEM (r.chain.headD []) ∧ E.cert (r.chain.headD []) = some p ∧ Spec.Belongs c E p r.key := by
  unfold gmX509KeyPairsSingle at h
  split at h
  · rename_i certs hc
    split at h
    · cases h
    · split at h
      · split at h
        · rename_i k hk
          cases h
          obtain ⟨q, p, h1, h2, h3⟩ := matchKeyCert_inv hk
          have hf := getCert_inv hc
          exact ⟨p, hf, h2, h3⟩
        · cases h
        · cases h
      · cases h
      · cases h
    · obtain ⟨p, l, h1, h2, h3, _⟩ := C55_x509_pair_partial E c certPEM keyPEM r h
      exact ⟨p, h1, h2, h3⟩
  · cases h
  · cases h

variable {c : Curve} {G : Type} [AddCommGroup G]

/-- **C55, used.** A key that belongs to a certificate whose point is not the point at infinity (a parsed certificate's is on the curve) is a private key
of that point in the sense of SM2: signatures made with it verify under the certificate's key (`C10_sign_verifies`). -/
theorem C55_usable (L : Lawful c G) (E : PairEnv) (k : PrivateKey c) (x y : Nat) (h : Spec.Belongs c E (.sm2 x y) (.sm2 k)) (hne : (x, y) ≠ (0, 0)) :
    ∃ d : Nat, 1 ≤ d ∧ d < N ∧ L.PrivOf k d ∧ L.PubOf { x := x, y := y, pre := none } (d • L.g) := by
  obtain ⟨⟨h2, h3, h4, hpre, hinv⟩, h1⟩ := h
  simp only [CertPub.sm2.injEq] at h1
  obtain ⟨rfl, rfl⟩ := h1
  have hd : k.d = (k.d.toNat : Int) := (Int.toNat_of_nonneg h2).symm
  have hlt : k.d.toNat < N := by omega
  have hb : beNat (beFixed 32 k.d.toNat) = k.d.toNat := by
    apply beNat_beFixed_of_lt
    exact lt_of_lt_of_le (lt_trans hlt N_lt) (by norm_num)
  rw [L.base, hb] at h4
  have hq : k.d.toNat • L.g ≠ 0 := by
    intro hz
    rw [hz, L.enc_zero] at h4
    exact hne h4
  have hpos : 1 ≤ k.d.toNat := by
    rcases Nat.eq_zero_or_pos k.d.toNat with h0 | h0
    · exact absurd (by rw [h0, zero_smul]) hq
    · exact h0
  have hx : k.x = (L.enc (k.d.toNat • L.g)).1 := congrArg Prod.fst h4
  have hy : k.y = (L.enc (k.d.toNat • L.g)).2 := congrArg Prod.snd h4
  exact ⟨k.d.toNat, hpos, hlt, ⟨⟨hq, hx, hy, .inl hpre⟩, hd, .inl hinv⟩, ⟨hq, hx, hy, .inl rfl⟩⟩

theorem Spec.Blocks.unique {E : PairEnv} {b : Bytes} {l l' : List Block} (h : Spec.Blocks E b l) (h' : Spec.Blocks E b l') : l = l' := by
  induction h generalizing l' with
  | nil hd =>
    cases h' with
    | nil _ => rfl
    | cons hd' _ => rw [hd] at hd'; cases hd'
  | cons hd _ ih =>
    cases h' with
    | nil hd' => rw [hd] at hd'; cases hd'
    | cons hd' t' =>
      rw [hd] at hd'
      cases hd'
      rw [ih t']

theorem blocksOf_eq {E : PairEnv} {b : Bytes} {l : List Block} (h : Spec.Blocks E b l) : E.blocksOf b = l :=
  (blocks_spec E (b.length + 1) b (by omega)).unique h

theorem getCert_of {E : PairEnv} {pem cert : Bytes} (h : Spec.FirstCert E pem cert) : ∃ t, getCert E pem = .ok (cert :: t) := by
  obtain ⟨l, pre, blk, post, h1, h2, h3, h4, h5⟩ := h
  have hf : (l.filter (fun x => x.type == "CERTIFICATE")) = blk :: post.filter (fun x => x.type == "CERTIFICATE") := by
    rw [h2, List.filter_append, List.filter_cons, if_pos (by simpa using h4), List.filter_eq_nil_iff.2 (by intro b hb; simpa using h3 b hb)]
    rfl
  unfold getCert
  rw [blocksOf_eq h1, hf]
  dsimp only [List.map_cons]
  rw [if_neg (by simp), List.map_cons, h5]
  exact ⟨_, rfl⟩

theorem getKey_of {E : PairEnv} {pem der : Bytes} (h : Spec.FirstKey E pem der) : ∃ b, getKey E pem = .ok b ∧ b.bytes = der := by
  obtain ⟨l, pre, blk, post, h1, h2, h3, h4, h5⟩ := h
  have hf : l.find? isKeyBlock = some blk := by
    rw [h2, List.find?_append, List.find?_eq_none.2, Option.none_or, List.find?_cons_of_pos]
    · unfold isKeyBlock
      rcases h4 with h4 | ⟨s, h4⟩
      · simp [h4]
      · rw [h4, Bool.or_eq_true]
        exact .inr (List.isSuffixOf_iff_suffix.2 ⟨s, rfl⟩)
    · intro b hb hk
      unfold isKeyBlock at hk
      rw [Bool.or_eq_true] at hk
      rcases hk with hk | hk
      · exact (h3 b hb).1 (by simpa using hk)
      · obtain ⟨s, hs⟩ := List.isSuffixOf_iff_suffix.1 hk
        exact (h3 b hb).2 s hs.symm
  refine ⟨blk, ?_, h5⟩
  unfold getKey
  rw [blocksOf_eq h1, hf]

/-- **C55, the honest case.** A signature certificate, any encryption certificate and the PKCS#8 form of the signature certificate's own key load, to the
first certificate of each text and a private key equivalent to the one that was written. -/
theorem C55_honest_loads (L : Lawful c G) (E : PairEnv) (k : PrivateKey c) (d : Nat) (hk : L.PrivOf k d) (hd : d < N) (der : Bytes)
    (hder : pkcs8Of k = .ok der) (certPEM keyPEM encCertPEM encKeyPEM sc ec : Bytes) (hs : Spec.FirstCert E certPEM sc)
    (he : Spec.FirstCert E encCertPEM ec) (hkey : Spec.FirstKey E keyPEM der) (hc : E.cert sc = some (.sm2 k.x k.y)) :
    ∃ q, gmX509KeyPairs E c certPEM keyPEM encCertPEM encKeyPEM = .ok ⟨[sc, ec], .sm2 q⟩ ∧ q.d = k.d ∧ L.PrivOf q d := by
  obtain ⟨der', e1, -, -, e4⟩ := pkcs8_roundtrip L E.order hk hd
  rw [hder] at e1
  cases e1
  obtain ⟨t1, g1⟩ := getCert_of hs
  obtain ⟨t2, g2⟩ := getCert_of he
  obtain ⟨b, g3, rfl⟩ := getKey_of hkey
  refine ⟨{ x := k.x, y := k.y, pre := none, d := d, dInv := none }, ?_, hk.scalar.symm, ⟨⟨hk.pub.ne, hk.pub.x, hk.pub.y, Or.inl rfl⟩, rfl, Or.inl rfl⟩⟩
  unfold gmX509KeyPairs
  rw [g1, g2, g3]
  dsimp only [List.headD_cons]
  unfold matchKeyCert
  rw [hc]
  dsimp only
  unfold parsePrivateKey
  obtain ⟨m, h1⟩ := pkcs8_not_pkcs1 e4
  rw [h1]
  dsimp only
  unfold tryPkcs8
  rw [e4]
  dsimp only [tlsKey]
  rw [if_neg (by simp)]

/-- **C55** fails for RSA: the public exponent of the certificate is not compared. A certificate with the modulus of the key and any exponent loads. -/
theorem C55_exponent_violated (E : PairEnv) (c : Curve) (certPEM keyPEM leaf der : Bytes) (k : RsaKey) (e : Nat) (hs : Spec.FirstCert E certPEM leaf) (hkey : Spec.FirstKey E keyPEM der)
    (hc : E.cert leaf = some (.rsa k.n e)) (hk : parsePKCS1 der = .ok k) : ∃ chain, x509KeyPair E c certPEM keyPEM = .ok ⟨leaf :: chain, .rsa k⟩ := by
  obtain ⟨t, g1⟩ := getCert_of hs
  obtain ⟨b, g2, rfl⟩ := getKey_of hkey
  refine ⟨t, ?_⟩
  unfold x509KeyPair
  rw [g1, g2]
  dsimp only
  unfold checkPair
  rw [List.headD_cons, hc]
  dsimp only
  unfold parsePrivateKey
  rw [hk]
  dsimp only
  rw [if_pos (by simp [matches_])]

/-- for instance: a certificate with modulus 15 and exponent 5 loads with a key of exponents 3 and 3, which does not decrypt what is encrypted under the certificate -/
example (c : Curve) : ∃ (E : PairEnv) (certPEM keyPEM leaf : Bytes) (chain : List Bytes) (k : RsaKey), x509KeyPair E c certPEM keyPEM = .ok ⟨leaf :: chain, .rsa k⟩ ∧
    E.cert leaf = some (.rsa k.n 5) ∧ (2 ^ 5 % k.n) ^ k.d % k.n ≠ 2 := by
  let der : Bytes := [0x30, 18, 2, 1, 0, 2, 1, 15, 2, 1, 3, 2, 1, 3, 2, 1, 3, 2, 1, 5]
  let E : PairEnv :=
    { decode := fun b => if b = [0] then some (⟨"CERTIFICATE", [], [7]⟩, []) else if b = [2] then some (⟨"RSA PRIVATE KEY", [], der⟩, []) else none
      shorter := by
        intro b blk rest h
        split at h
        · cases h; subst b; decide
        split at h
        · cases h; subst b; decide
        · cases h
      cert := fun b => if b = [7] then some (.rsa 15 5) else none
      nist := fun _ _ => (0, 0)
      order := fun _ => 1 }
  have hc : Spec.FirstCert E [0] [7] := ⟨_, [], ⟨"CERTIFICATE", [], [7]⟩, [], .cons rfl (.nil rfl), rfl, nofun, rfl, rfl⟩
  have hkey : Spec.FirstKey E [2] der := ⟨_, [], ⟨"RSA PRIVATE KEY", [], der⟩, [], .cons rfl (.nil rfl), rfl, nofun, .inr ⟨['R', 'S', 'A'], by dsimp only; decide⟩, rfl⟩
  obtain ⟨chain, h⟩ := C55_exponent_violated E c [0] [2] [7] der ⟨15, 3, 3, [3, 5], some ⟨1, 3, some 2, []⟩⟩ 5 hc hkey rfl (by decide +kernel)
  exact ⟨E, [0], [2], [7], chain, _, h, rfl, by decide⟩

/-- a PEM codec for the examples: the text `[0]` holds the certificate `[7]`, the text `[1]` a block of another kind and then the key -/
def toyPair (key : Bytes) (x y : Nat) : PairEnv where
  decode b := if b = [0] then some (⟨"CERTIFICATE", [], [7]⟩, []) else if b = [1, 2] then some (⟨"EC PARAMETERS", [], []⟩, [2]) else
    if b = [2] then some (⟨"EC PRIVATE KEY", [], key⟩, []) else none
  shorter := by
    intro b blk rest h
    split at h
    · cases h; subst b; decide
    split at h
    · cases h; subst b; decide
    split at h
    · cases h; subst b; decide
    · cases h
  cert b := if b = [7] then some (.sm2 x y) else none
  nist _ _ := (0, 0)
  order _ := 1

/-- a generated key of the real curve, written and loaded -/
example : ∃ (k : PrivateKey Amd64.sm2Curve) (der : Bytes) (q : PrivateKey Amd64.sm2Curve), pkcs8Of k = .ok der ∧ q.d = k.d ∧
    gmX509KeyPairs (toyPair der k.x k.y) _ [0] [1, 2] [0] [] = .ok ⟨[[7], [7]], .sm2 q⟩ := by
  obtain ⟨k, hg⟩ : ∃ priv, generateKey Amd64.sm2Curve (List.replicate 40 0x11) = .ok priv := by
    have h : ∃ k, randFieldElement (List.replicate 40 0x11) = .ok k := ⟨_, rfl⟩
    obtain ⟨k, hk⟩ := h
    rw [generateKey, hk]; exact ⟨_, rfl⟩
  obtain ⟨d, h1, h2, h3⟩ := C10_generated_keys Amd64.sm2Lawful _ k hg
  obtain ⟨der, e1, -, -, -⟩ := pkcs8_roundtrip Amd64.sm2Lawful (fun _ => 1) h3 h2
  have hc : Spec.FirstCert (toyPair der k.x k.y) [0] [7] := ⟨_, [], ⟨"CERTIFICATE", [], [7]⟩, [], .cons rfl (.nil rfl), rfl, nofun, rfl, rfl⟩
  have hkey : Spec.FirstKey (toyPair der k.x k.y) [1, 2] der := by
    refine ⟨_, [⟨"EC PARAMETERS", [], []⟩], ⟨"EC PRIVATE KEY", [], der⟩, [], .cons rfl (.cons rfl (.nil rfl)), rfl, ?_, .inr ⟨['E', 'C'], by dsimp only; decide⟩, rfl⟩
    intro b hb
    rw [List.mem_singleton.1 hb]
    refine ⟨by decide, fun s hs => ?_⟩
    have hx : " PRIVATE KEY".toList.isSuffixOf "EC PARAMETERS".toList = true := List.isSuffixOf_iff_suffix.2 ⟨s, hs.symm⟩
    exact absurd hx (by decide)
  obtain ⟨q, a, b, -⟩ := C55_honest_loads Amd64.sm2Lawful (toyPair der k.x k.y) k d h3 h2 der e1 [0] [1, 2] [0] [] [7] [7] hc hc hkey rfl
  exact ⟨k, der, q, e1, b, a⟩

end Verif.Keys
