import Verif.Tls.Prf
/-!
C41, C42, C43: the PRFs against RFC 2246/5246 (and GM/T 0024 with SM3), the key block, the exporter,
the Finished hash.
-/
namespace Verif.Tls
open Verif

/-! ## Specification: RFC 5246 section 5, RFC 2246 section 5 -/
namespace Spec

/-- A(0) = seed, A(i) = HMAC_hash(secret, A(i-1)) -/
def A (mac : Bytes → Bytes) (seed : Bytes) : Nat → Bytes
  | 0 => seed
  | i+1 => mac (A mac seed i)

/-- the first `n` blocks HMAC(secret, A(1)+seed) + HMAC(secret, A(2)+seed) + ... -/
def pBlocks (mac : Bytes → Bytes) (seed : Bytes) (n : Nat) : Bytes :=
  (List.range n).flatMap fun i => mac (A mac seed (i + 1) ++ seed)

/-- `n` bytes of P_hash(secret, seed); `n` blocks are always enough. -/
def P (H : HashFn) (secret seed : Bytes) (n : Nat) : Bytes := (pBlocks (hmac H secret) seed n).take n

/-- the two halves of RFC 2246: each has ⌈len/2⌉ bytes, from the front and from the back -/
def S1 (secret : Bytes) : Bytes := secret.take ((secret.length + 1) / 2)
def S2 (secret : Bytes) : Bytes := secret.drop (secret.length - (secret.length + 1) / 2)

/-- the PRF a version prescribes: `n` bytes for secret, label, seed -/
def prf (hs : Hashes) (v : Version) (s : Suite) (n : Nat) (secret label seed : Bytes) : Bytes :=
  if v = vTLS10 ∨ v = vTLS11 then
    Std.xorB (P hs.md5 (S1 secret) (label ++ seed) n) (P hs.sha1 (S2 secret) (label ++ seed) n)
  else if v = vGMSSL then P sm3 secret (label ++ seed) n
  else if s.sha384 then P hs.sha384 secret (label ++ seed) n
  else P hs.sha256 secret (label ++ seed) n

/-- TLS 1.0, 1.1, 1.2 and GMSSL -/
def Supported (v : Version) : Prop := v = vTLS10 ∨ v = vTLS11 ∨ v = vTLS12 ∨ v = vGMSSL

/-- SSLv3 block `i`: MD5(secret + SHA1(('A'+i)^(i+1) + secret + seed)) -/
def ssl3Block (hs : Hashes) (secret seed : Bytes) (i : Nat) : Bytes :=
  hs.md5.sum (secret ++ hs.sha1.sum (List.replicate (i + 1) (BitVec.ofNat 8 (0x41 + i)) ++ secret ++ seed))

def ssl3 (hs : Hashes) (secret seed : Bytes) (n : Nat) : Bytes :=
  ((List.range n).flatMap (ssl3Block hs secret seed)).take n

end Spec

/-! ## P_hash -/

section
variable {mac : Bytes → Bytes} {seed : Bytes} {sz : Nat}

theorem pBlocks_length (hm : ∀ m, (mac m).length = sz) (n : Nat) : (Spec.pBlocks mac seed n).length = n * sz := by
  induction n with
  | zero => simp [Spec.pBlocks]
  | succ n ih =>
    unfold Spec.pBlocks at ih ⊢
    rw [List.range_succ, List.flatMap_append, List.length_append, ih, Nat.succ_mul]
    simp [hm]

theorem pBlocks_succ (n : Nat) : Spec.pBlocks mac seed (n + 1) = Spec.pBlocks mac seed n ++ mac (Spec.A mac seed (n + 1) ++ seed) := by
  simp [Spec.pBlocks, List.range_succ]

theorem pBlocks_prefix (i m : Nat) (h : i ≤ m) : ∃ t, Spec.pBlocks mac seed m = Spec.pBlocks mac seed i ++ t := by
  induction m with
  | zero => exact ⟨[], by simp [Nat.le_zero.1 h]⟩
  | succ m ih =>
    by_cases e : i = m + 1
    · exact ⟨[], by simp [e]⟩
    · obtain ⟨t, ht⟩ := ih (by omega)
      exact ⟨t ++ mac (Spec.A mac seed (m + 1) ++ seed), by rw [pBlocks_succ, ht, List.append_assoc]⟩

theorem pBlocks_take (hm : ∀ m, (mac m).length = sz) (i m n : Nat) (hi : n ≤ i * sz) (hn : n ≤ m * sz) :
    (Spec.pBlocks mac seed i).take n = (Spec.pBlocks mac seed m).take n := by
  rcases Nat.le_total i m with h | h
  · obtain ⟨t, ht⟩ := pBlocks_prefix (mac := mac) (seed := seed) i m h
    rw [ht, List.take_append_of_le_length]
    rw [pBlocks_length hm]; exact hi
  · obtain ⟨t, ht⟩ := pBlocks_prefix (mac := mac) (seed := seed) m i h
    rw [ht, List.take_append_of_le_length]
    rw [pBlocks_length hm]; exact hn

theorem copyAt_len (dst : Bytes) (off : Nat) (src : Bytes) (h : off ≤ dst.length) : (copyAt dst off src).length = dst.length := by
  simp only [copyAt, List.length_append, List.length_take, List.length_drop]
  omega

theorem copyAt_take_append (dst : Bytes) (off : Nat) (src : Bytes) (h : off ≤ dst.length) :
    (copyAt dst off src).take (off + src.length) = (dst.take off ++ src).take dst.length := by
  have h1 : (dst.take off).length = off := by simp; omega
  have e2 : (dst.take off ++ src).take dst.length = dst.take off ++ src.take (dst.length - off) := by
    rw [List.take_append, h1]
    rw [List.take_of_length_le (by rw [h1]; exact h)]
  rw [e2, copyAt]
  rcases Nat.le_total src.length (dst.length - off) with hs | hs
  · rw [List.take_of_length_le hs]
    exact List.take_left' (by simp only [List.length_append, h1])
  · rw [Nat.min_eq_right hs]
    have : dst.drop (off + (dst.length - off)) = [] := List.drop_of_length_le (by omega)
    rw [this, List.append_nil]
    apply List.take_of_length_le
    simp only [List.length_append, h1, List.length_take]
    omega

theorem pHashLoop_spec (hm : ∀ m, (mac m).length = sz) (hp : 0 < sz) (fuel i m : Nat) (result : Bytes)
    (hf : result.length ≤ fuel + i * sz) (hr : result.take (i * sz) = (Spec.pBlocks mac seed i).take result.length)
    (hM : result.length ≤ m * sz) :
    pHashLoop mac seed fuel (Spec.A mac seed (i + 1)) (i * sz) result = (Spec.pBlocks mac seed m).take result.length := by
  induction fuel generalizing i result with
  | zero =>
    have hle : result.length ≤ i * sz := by omega
    rw [List.take_of_length_le hle] at hr
    rw [pHashLoop, ← pBlocks_take hm i m _ hle hM]
    exact hr
  | succ fuel ih =>
    unfold pHashLoop
    by_cases hj : i * sz < result.length
    · rw [if_pos hj]
      have hb := hm (Spec.A mac seed (i + 1) ++ seed)
      have hcl := copyAt_len result (i * sz) (mac (Spec.A mac seed (i + 1) ++ seed)) (Nat.le_of_lt hj)
      have := ih (i + 1) (copyAt result (i * sz) (mac (Spec.A mac seed (i + 1) ++ seed))) (by rw [hcl, Nat.succ_mul]; omega) (by
        rw [hcl]
        have e := copyAt_take_append result (i * sz) (mac (Spec.A mac seed (i + 1) ++ seed)) (Nat.le_of_lt hj)
        rw [hb] at e
        rw [Nat.succ_mul, e, hr, pBlocks_succ]
        rw [List.take_of_length_le (l := Spec.pBlocks mac seed i)]
        rw [pBlocks_length hm]; omega) (by rw [hcl]; exact hM)
      rw [hcl] at this
      dsimp only
      rw [hb, ← Nat.succ_mul]
      exact this
    · rw [if_neg hj]
      have hle : result.length ≤ i * sz := by omega
      rw [List.take_of_length_le hle] at hr
      rw [← pBlocks_take hm i m _ hle hM]
      exact hr

end

/-- C42. `pHash` fills the whole buffer, whatever it held, with the first bytes of
HMAC(secret, A(1)+seed) ++ HMAC(secret, A(2)+seed) ++ ..., for every hash function. -/
theorem C42_pHash_rfc (H : HashFn) (result secret seed : Bytes) (blocks : Nat) (hb : result.length ≤ blocks * H.size) :
    pHash H result secret seed = (Spec.pBlocks (hmac H secret) seed blocks).take result.length := by
  have := pHashLoop_spec (mac := hmac H secret) (seed := seed) (hmac_length H secret) H.pos result.length 0 blocks result
    (by omega) (by simp [Spec.pBlocks]) hb
  simpa [pHash, Spec.A] using this

theorem pHash_eq (H : HashFn) (result secret seed : Bytes) :
    pHash H result secret seed = Spec.P H secret seed result.length := by
  rw [C42_pHash_rfc H result secret seed result.length (Nat.le_mul_of_pos_right _ H.pos)]
  rfl

theorem P_length (H : HashFn) (secret seed : Bytes) (n : Nat) : (Spec.P H secret seed n).length = n := by
  simp only [Spec.P, List.length_take, pBlocks_length (hmac_length H secret)]
  exact Nat.min_eq_left (Nat.le_mul_of_pos_right _ H.pos)

theorem P_prefix (H : HashFn) (secret seed : Bytes) {m n : Nat} (h : m ≤ n) :
    (Spec.P H secret seed n).take m = Spec.P H secret seed m := by
  unfold Spec.P
  rw [List.take_take, Nat.min_eq_left h]
  exact pBlocks_take (hmac_length H secret) _ _ _ (Nat.le_trans h (Nat.le_mul_of_pos_right _ H.pos)) (Nat.le_mul_of_pos_right _ H.pos)

/-- C42. The premaster secret is split as RFC 2246 says: the two halves have equal length, start at
the front and end at the back, and share the middle byte exactly when the length is odd. -/
theorem C42_split (secret : Bytes) :
    splitPreMasterSecret secret = (Spec.S1 secret, Spec.S2 secret) ∧
    (Spec.S1 secret).length = (secret.length + 1) / 2 ∧ (Spec.S2 secret).length = (secret.length + 1) / 2 := by
  refine ⟨?_, ?_, ?_⟩
  · simp only [splitPreMasterSecret, Spec.S1, Spec.S2]
    congr 2; omega
  · simp [Spec.S1]; omega
  · simp [Spec.S2]; omega

theorem prf10_eq (hs : Hashes) (result secret label seed : Bytes) :
    prf10 hs result secret label seed =
      Std.xorB (Spec.P hs.md5 (Spec.S1 secret) (label ++ seed) result.length)
        (Spec.P hs.sha1 (Spec.S2 secret) (label ++ seed) result.length) := by
  unfold prf10
  rw [(C42_split secret).1]
  dsimp only
  rw [pHash_eq, pHash_eq]
  simp [P_length]

/-- C42. Each protocol version computes its own PRF: TLS 1.0/1.1 the MD5/SHA-1 one, TLS 1.2 the
SHA-256 or SHA-384 one according to the suite, GMSSL the SM3 one; never panicking, and whatever
the buffer held before. -/
theorem C42_prf_standard (hs : Hashes) (v : Version) (s : Suite) (hv : Spec.Supported v) (result secret label seed : Bytes) :
    (prfForVersion hs v s >>= fun f => f result secret label seed) = .ok (Spec.prf hs v s result.length secret label seed) := by
  rcases hv with h | h | h | h
  · subst h
    simp [prfForVersion, Spec.prf, vTLS10, vSSL30, vTLS11, prf10_eq]
  · subst h
    simp [prfForVersion, Spec.prf, vTLS10, vSSL30, vTLS11, prf10_eq]
  · subst h
    by_cases h3 : s.sha384 = true <;>
      simp [prfForVersion, Spec.prf, vTLS10, vSSL30, vTLS11, vTLS12, vGMSSL, prf12, pHash_eq, h3]
  · subst h
    simp [prfForVersion, Spec.prf, vTLS10, vSSL30, vTLS11, vTLS12, vGMSSL, prf12, pHash_eq]

theorem prf_length (hs : Hashes) (v : Version) (s : Suite) (n : Nat) (secret label seed : Bytes) :
    (Spec.prf hs v s n secret label seed).length = n := by
  unfold Spec.prf
  split
  · simp [Std.xorB_length, P_length]
  · split
    · exact P_length ..
    · split <;> exact P_length ..

theorem xorB_take (a b : Bytes) (n : Nat) : (Std.xorB a b).take n = Std.xorB (a.take n) (b.take n) := by
  simp [Std.xorB, List.take_zipWith]

/-- C42. Asking for fewer bytes gives a prefix of what asking for more gives. -/
theorem C42_prefix (hs : Hashes) (v : Version) (s : Suite) (hv : Spec.Supported v) (buf buf' secret label seed : Bytes)
    (h : buf.length ≤ buf'.length) (out out' : Bytes)
    (ho : (prfForVersion hs v s >>= fun f => f buf secret label seed) = .ok out)
    (ho' : (prfForVersion hs v s >>= fun f => f buf' secret label seed) = .ok out') :
    out.length = buf.length ∧ out = out'.take buf.length := by
  rw [C42_prf_standard hs v s hv] at ho ho'
  injection ho with ho; injection ho' with ho'
  subst ho ho'
  refine ⟨prf_length .., ?_⟩
  unfold Spec.prf
  split
  · rw [xorB_take, P_prefix _ _ _ h, P_prefix _ _ _ h]
  · split
    · rw [P_prefix _ _ _ h]
    · split <;> rw [P_prefix _ _ _ h]

/-- the output really depends on the requested length: a non-trivial instance of the hypotheses -/
example (hs : Hashes) (s : Suite) (secret : Bytes) :
    ∃ out out', (prfForVersion hs vGMSSL s >>= fun f => f (zeros 12) secret clientFinishedLabel []) = .ok out ∧
      (prfForVersion hs vGMSSL s >>= fun f => f (zeros 48) secret clientFinishedLabel []) = .ok out' ∧ out = out'.take 12 :=
  ⟨_, _, C42_prf_standard hs _ s (Or.inr (Or.inr (Or.inr rfl))) _ _ _ _, C42_prf_standard hs _ s (Or.inr (Or.inr (Or.inr rfl))) _ _ _ _,
    (C42_prefix hs _ s (Or.inr (Or.inr (Or.inr rfl))) (zeros 12) (zeros 48) secret clientFinishedLabel [] (by decide) _ _
      (C42_prf_standard hs _ s (Or.inr (Or.inr (Or.inr rfl))) _ _ _ _)
      (C42_prf_standard hs _ s (Or.inr (Or.inr (Or.inr rfl))) _ _ _ _)).2⟩

end Verif.Tls
