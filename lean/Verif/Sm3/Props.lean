import Verif.Sm3.Lemmas
/-
Property theorems about SM3: C01, C02, C03.
-/
namespace Verif.Sm3

/-- What a caller may do with an SM3 `hash.Hash`. -/
inductive Op where
  | write (p : Bytes)
  | sum (input : Bytes)
  | reset

/-- The model: run a history on a hash object, collecting what the `Sum` calls return
(sm3/sm3.go:45-104). -/
def run (d : Digest) : List Op → List (Res Bytes)
  | [] => []
  | .write p :: ops => run (d.write p) ops
  | .sum input :: ops => d.sum input :: run d ops
  | .reset :: ops => run d.reset ops

/-- The specification: a hash object is just the bytes written since creation or the last Reset;
`Sum(in)` returns `in` followed by the standard's hash of them. -/
def specRun (m : Bytes) : List Op → List Bytes
  | [] => []
  | .write p :: ops => specRun (m ++ p) ops
  | .sum input :: ops => (input ++ Spec.hash m) :: specRun m ops
  | .reset :: ops => specRun [] ops

theorem spec_hash_length (m : Bytes) : (Spec.hash m).length = 32 := by
  have hr : List.range 8 = [0, 1, 2, 3, 4, 5, 6, 7] := by decide
  simp [Spec.hash, hr]

/-- C02. `sm3.SumSM3` computes the GB/T 32905 hash of every message (the length field is taken
modulo 2^64; below 2^61 bytes that is the bit length itself). -/
theorem C02_sumSM3_is_standard (m : Bytes) : sumSM3 m = .ok (Spec.hash m) := by
  refine checkSum_ok _ m ?_
  have := rep_write _ [] m (rep_reset { h := ⟨0,0,0,0,0,0,0,0⟩, x := List.replicate 64 0, nx := 0, len := 0 } (by simp))
  simpa using this

/-- C02, length field: the last eight bytes of the padded message are the bit length. -/
theorem C02_length_field (m : Bytes) (h : m.length < 2 ^ 61) :
    beNat ((Spec.pad m).drop ((Spec.pad m).length - 8)) = 8 * m.length := by
  have : (Spec.pad m).drop ((Spec.pad m).length - 8) = beFixed 8 (8 * m.length) := by
    unfold Spec.pad
    exact List.drop_left' (by simp; omega)
  rw [this, beNat_beFixed_of_lt (by omega)]

/-- C02, padding is a whole number of blocks and as short as possible: fewer than 64+9 bytes are
added. -/
theorem C02_padding (m : Bytes) : (Spec.pad m).length % 64 = 0 ∧
    m.length + 9 ≤ (Spec.pad m).length ∧ (Spec.pad m).length < m.length + 9 + 64 := by
  refine ⟨pad_length m, ?_, ?_⟩ <;> simp [Spec.pad] <;> omega

theorem drop_replicate_ne {a b : Nat} {s t : Bytes} (x : Byte) (hx : x ≠ 0)
    (h : List.replicate a (0 : Byte) ++ x :: s = List.replicate b 0 ++ x :: t) : s = t := by
  induction a generalizing b with
  | zero =>
    cases b with
    | zero => simpa using h
    | succ b => simp [List.replicate_succ] at h; exact absurd h.1 hx
  | succ a ih =>
    cases b with
    | zero => simp [List.replicate_succ] at h; exact absurd h.1.symm hx
    | succ b => simp [List.replicate_succ] at h; exact ih h

/-- C02, the padding is injective: distinct messages never pad to the same string. -/
theorem C02_padding_injective (m m' : Bytes) (h : Spec.pad m = Spec.pad m') : m = m' := by
  have hl : (beFixed 8 (8 * m.length)).length = (beFixed 8 (8 * m'.length)).length := by simp
  have h1 := (List.append_inj' h hl).1
  have h2 := congrArg List.reverse h1
  simp only [List.reverse_append, List.reverse_replicate, List.reverse_cons, List.reverse_nil,
    List.nil_append, List.cons_append, List.append_assoc] at h2
  have := drop_replicate_ne 0x80 (by decide) h2
  simpa using congrArg List.reverse this

/-- C01. Any sequence of `Write` calls followed by `Sum` gives `SumSM3` of the concatenation. -/
theorem C01_chunking (ps : List Bytes) : (ps.foldl Digest.write new).sum [] = sumSM3 ps.flatten := by
  have key : ∀ (ps : List Bytes) (d : Digest) (m : Bytes), Rep d m →
      Rep (ps.foldl Digest.write d) (m ++ ps.flatten) := by
    intro ps
    induction ps with
    | nil => intro d m h; simpa using h
    | cons p ps ih =>
      intro d m h
      have := ih _ _ (rep_write d m p h)
      simpa [List.append_assoc] using this
  have h := key ps new [] rep_new
  rw [C02_sumSM3_is_standard]
  unfold Digest.sum
  rw [checkSum_ok _ _ h]; simp

/-- C01, two cuttings of the same message hash alike. -/
theorem C01_cuttings (ps qs : List Bytes) (h : ps.flatten = qs.flatten) :
    (ps.foldl Digest.write new).sum [] = (qs.foldl Digest.write new).sum [] := by
  rw [C01_chunking, C01_chunking, h]

/-- C03. For every history of Write, Sum and Reset calls, every Sum returns (no panic) its argument
followed by the standard hash of the bytes written since the last Reset: Sum never disturbs the
object and Reset forgets everything. -/
theorem C03_history (ops : List Op) : run new ops = (specRun [] ops).map .ok := by
  have key : ∀ (ops : List Op) (d : Digest) (m : Bytes), Rep d m →
      run d ops = (specRun m ops).map .ok := by
    intro ops
    induction ops with
    | nil => intros; rfl
    | cons op ops ih =>
      intro d m h
      cases op with
      | write p => exact ih _ _ (rep_write d m p h)
      | sum i =>
        simp only [run, specRun, List.map_cons]
        rw [ih d m h]
        unfold Digest.sum
        rw [checkSum_ok _ _ h]; rfl
      | reset => exact ih _ _ (rep_reset d h.xlen)
  exact key ops new [] rep_new

/-- C03, Sum appends exactly 32 bytes and never panics, in every history. -/
theorem C03_sum_length (ops : List Op) (r : Res Bytes) (h : r ∈ run new ops) :
    ∃ input hash, r = .ok (input ++ hash) ∧ hash.length = 32 := by
  rw [C03_history] at h
  obtain ⟨b, hb, rfl⟩ := List.mem_map.mp h
  have key : ∀ (ops : List Op) (m b : Bytes), b ∈ specRun m ops →
      ∃ input hash, b = input ++ hash ∧ hash.length = 32 := by
    intro ops
    induction ops with
    | nil => intro m b hb; simp [specRun] at hb
    | cons op ops ih =>
      intro m b hb
      cases op with
      | write p => exact ih _ _ hb
      | reset => exact ih _ _ hb
      | sum i =>
        simp only [specRun, List.mem_cons] at hb
        rcases hb with rfl | hb
        · exact ⟨i, Spec.hash m, rfl, spec_hash_length m⟩
        · exact ih _ _ hb
  obtain ⟨i, hs, rfl, hl⟩ := key ops [] b hb
  exact ⟨i, hs, rfl, hl⟩

/-! Non-vacuity: concrete histories; the standard's test vector for "abc" (a test, not a proof). -/

example : sumSM3 [0x61, 0x62, 0x63] = .ok (beFixed 32
    0x66c7f0f462eeedd9d1f2d46bdc10e4e24167c4875cf2f7a2297da02b8f4ba8e0) := by decide +kernel

example : run new [.write [0x61], .sum [], .write [0x62, 0x63], .sum [7], .reset, .sum []]
    = [.ok ([] ++ Spec.hash [0x61]), .ok ([7] ++ Spec.hash [0x61, 0x62, 0x63]), .ok ([] ++ Spec.hash [])] := by
  rw [C03_history]; rfl

end Verif.Sm3
