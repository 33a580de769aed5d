import Verif.X509.PoolProps
/-!
C128: the system's roots. x509/root_unix.go:36-88 (`loadSystemRoots`), root_linux.go, x509/root.go:9-22 (`systemRootsPool`), x509/cert_pool.go:59-70 (`SystemCertPool`), on Unix other than macOS.

The file system is what the calls `ioutil.ReadFile` and `ioutil.ReadDir` return, at the time of the call; the two environment variables are part of it. `decode` is the sequence of blocks `pem.Decode` finds in a text, `parse` is
`ParseCertificate`.
-/
namespace Verif.X509.SystemRoots
open Verif

/-- the result of reading a file or a directory: `os.IsNotExist` distinguishes the errors -/
inductive Io (α : Type) where
  | ok (a : α)
  | notExist
  | fails (e : String)

structure Fs where
  /-- `SSL_CERT_FILE`, `SSL_CERT_DIR`; empty if not set -/
  fileEnv : Bytes
  dirEnv : Bytes
  read : Bytes → Io Bytes
  /-- the names in a directory -/
  list : Bytes → Io (List Bytes)

structure Codec where
  decode : Bytes → List PemBlock
  parse : Bytes → Option Cert
  certType : Bytes

/-- `roots.AppendCertsFromPEM(data)` -/
def Codec.append (C : Codec) (p : Pool) (data : Bytes) : Pool × Bool := p.appendBlocks C.parse C.certType (C.decode data)

/-- `if firstErr == nil && !os.IsNotExist(err) { firstErr = err }` -/
def firstErr {α : Type} (old : Option String) (r : Io α) : Option String :=
  match old, r with
  | none, .fails e => some e
  | o, _ => o

/-- x509/root_unix.go:45-54 -/
def loadFiles (C : Codec) (fs : Fs) : List Bytes → Pool → Option String → Pool × Option String
  | [], p, e => (p, e)
  | f :: r, p, e =>
    match fs.read f with
    | .ok data => ((C.append p data).1, e)
    | x => loadFiles C fs r p (firstErr e x)

/-- x509/root_unix.go:70-76; "/" is 0x2f -/
def loadDir (C : Codec) (fs : Fs) (dir : Bytes) : List Bytes → Pool → Pool × Bool
  | [], p => (p, false)
  | n :: r, p =>
    match fs.read (dir ++ 0x2f :: n) with
    | .ok data =>
      let (p', added) := C.append p data
      let (q, more) := loadDir C fs dir r p'
      (q, added || more)
    | _ => loadDir C fs dir r p

/-- x509/root_unix.go:61-80: none in the middle if it does not return from within the loop -/
def loadDirs (C : Codec) (fs : Fs) : List Bytes → Pool → Option String → Pool × Bool × Option String
  | [], p, e => (p, false, e)
  | d :: r, p, e =>
    match fs.list d with
    | .ok names =>
      let (p', added) := loadDir C fs d names p
      if added then (p', true, e) else loadDirs C fs r p' e
    | x => loadDirs C fs r p (firstErr e x)

/-- x509/root_unix.go:36-88; `files` and `dirs` are `certFiles` and `certDirectories`. The pool and the error, either may be nil. -/
def load (C : Codec) (files dirs : List Bytes) (fs : Fs) : Option Pool × Option String :=
  let (p, e) := loadFiles C fs (if fs.fileEnv = [] then files else [fs.fileEnv]) .new none
  let (p, found, e) := loadDirs C fs (if fs.dirEnv = [] then dirs else [fs.dirEnv]) p e
  if found then (some p, none)
  else if 0 < p.certs.length then (some p, none)
  else (none, e)

/-- x509/root.go:9-22: the variables of the package; none before `once` -/
abbrev Cache := Option (Option Pool × Option String)

/-- `systemRootsPool`, used by `Verify` if no roots are given (x509/verify.go:299-304): the variables afterwards and the result, with the error that `Verify` wraps if it is nil -/
def systemRootsPool (C : Codec) (files dirs : List Bytes) (c : Cache) (fs : Fs) : Cache × (Option Pool × Option String) :=
  match c with
  | some r => (c, r)
  | none => (some (load C files dirs fs), load C files dirs fs)

/-- x509/cert_pool.go:59-70 `SystemCertPool` (a copy: pools are values here) -/
def systemCertPool (C : Codec) (files dirs : List Bytes) (c : Cache) (fs : Fs) : Cache × (Option Pool × Option String) :=
  let (c, r) := systemRootsPool C files dirs c fs
  match r.1 with
  | some p => (c, (some p, none))
  | none => (c, load C files dirs fs)

/-! ### specification -/

namespace Spec

/-- the certificates in a text -/
def inText (C : Codec) (data : Bytes) : List Cert := pemCerts C.parse C.certType (C.decode data)

/-- the certificates in a file; none if it cannot be read -/
def inFile (C : Codec) (fs : Fs) (f : Bytes) : List Cert :=
  match fs.read f with
  | .ok data => inText C data
  | _ => []

/-- the certificates in the files of a directory; none if it cannot be listed -/
def inDir (C : Codec) (fs : Fs) (d : Bytes) : List Cert :=
  match fs.list d with
  | .ok names => names.flatMap fun n => inFile C fs (d ++ 0x2f :: n)
  | _ => []

def Readable (fs : Fs) (f : Bytes) : Prop := ∃ data, fs.read f = .ok data

/-- the certificates taken from the files: those of the first one that can be read -/
def FromFiles (C : Codec) (fs : Fs) (files : List Bytes) (l : List Cert) : Prop :=
  (∃ pre f post, files = pre ++ f :: post ∧ (∀ g ∈ pre, ¬ Readable fs g) ∧ Readable fs f ∧ l = inFile C fs f) ∨ (∀ g ∈ files, ¬ Readable fs g) ∧ l = []

/-- the certificates taken from the directories: those of the first one that holds any -/
def FromDirs (C : Codec) (fs : Fs) (dirs : List Bytes) (l : List Cert) : Prop :=
  (∃ pre d post, dirs = pre ++ d :: post ∧ (∀ g ∈ pre, inDir C fs g = []) ∧ inDir C fs d ≠ [] ∧ l = inDir C fs d) ∨ (∀ g ∈ dirs, inDir C fs g = []) ∧ l = []

/-- the roots that the file system holds -/
def Roots (C : Codec) (files dirs : List Bytes) (fs : Fs) (l : List Cert) : Prop :=
  ∃ a b, FromFiles C fs (if fs.fileEnv = [] then files else [fs.fileEnv]) a ∧ FromDirs C fs (if fs.dirEnv = [] then dirs else [fs.dirEnv]) b ∧ l = a ++ b

end Spec

/-! ### proofs -/

theorem append_eq (C : Codec) (hist : List Cert) (data : Bytes) :
    C.append (poolOf hist) data = (poolOf (hist ++ Spec.inText C data), decide (Spec.inText C data ≠ [])) := C50_append_pem _ _ _ _

theorem loadFiles_eq (C : Codec) (fs : Fs) (files : List Bytes) : ∀ hist e, ∃ l e', loadFiles C fs files (poolOf hist) e = (poolOf (hist ++ l), e') ∧ Spec.FromFiles C fs files l ∧
    (∀ x, e = some x → e' = some x) := by
  induction files with
  | nil => intro hist e; exact ⟨[], e, by simp [loadFiles], .inr ⟨nofun, rfl⟩, fun _ h => h⟩
  | cons f r ih =>
    intro hist e
    have skip : ¬ Spec.Readable fs f → loadFiles C fs (f :: r) (poolOf hist) e = loadFiles C fs r (poolOf hist) (firstErr e (fs.read f)) := by
      intro hn
      rw [loadFiles]
      cases hf : fs.read f with
      | ok data => exact absurd ⟨data, hf⟩ hn
      | notExist => rfl
      | fails x => rfl
    cases hf : fs.read f with
    | ok data =>
      refine ⟨Spec.inFile C fs f, e, ?_, .inl ⟨[], f, r, rfl, nofun, ⟨data, hf⟩, rfl⟩, fun _ h => h⟩
      rw [loadFiles, hf]
      dsimp only
      rw [append_eq, Spec.inFile, hf]
    | notExist =>
      have hn : ¬ Spec.Readable fs f := by rintro ⟨d, h⟩; rw [hf] at h; cases h
      obtain ⟨l, e', h1, h2, h3⟩ := ih hist (firstErr e (fs.read f))
      refine ⟨l, e', (skip hn).trans h1, ?_, fun x hx => h3 x (by rw [hx]; rfl)⟩
      rcases h2 with ⟨pre, g, post, a, b, c, d⟩ | ⟨a, b⟩
      · exact .inl ⟨f :: pre, g, post, by rw [a]; rfl, by simpa using ⟨hn, b⟩, c, d⟩
      · exact .inr ⟨by simpa using ⟨hn, a⟩, b⟩
    | fails y =>
      have hn : ¬ Spec.Readable fs f := by rintro ⟨d, h⟩; rw [hf] at h; cases h
      obtain ⟨l, e', h1, h2, h3⟩ := ih hist (firstErr e (fs.read f))
      refine ⟨l, e', (skip hn).trans h1, ?_, fun x hx => h3 x (by rw [hx]; rfl)⟩
      rcases h2 with ⟨pre, g, post, a, b, c, d⟩ | ⟨a, b⟩
      · exact .inl ⟨f :: pre, g, post, by rw [a]; rfl, by simpa using ⟨hn, b⟩, c, d⟩
      · exact .inr ⟨by simpa using ⟨hn, a⟩, b⟩

theorem loadDir_eq (C : Codec) (fs : Fs) (d : Bytes) (names : List Bytes) : ∀ hist, loadDir C fs d names (poolOf hist) =
    (poolOf (hist ++ names.flatMap fun n => Spec.inFile C fs (d ++ 0x2f :: n)), decide ((names.flatMap fun n => Spec.inFile C fs (d ++ 0x2f :: n)) ≠ [])) := by
  induction names with
  | nil => intro hist; simp [loadDir]
  | cons n r ih =>
    intro hist
    rw [loadDir]
    cases hf : fs.read (d ++ 0x2f :: n) with
    | ok data =>
      dsimp only
      rw [append_eq]
      dsimp only
      rw [ih]
      simp only [List.flatMap_cons, Spec.inFile, hf, List.append_assoc, Prod.mk.injEq, true_and]
      by_cases hx : Spec.inText C data = [] <;> simp [hx]
    | notExist =>
      have hin : Spec.inFile C fs (d ++ 0x2f :: n) = [] := by rw [Spec.inFile, hf]
      dsimp only
      rw [ih, List.flatMap_cons, hin, List.nil_append]
    | fails x =>
      have hin : Spec.inFile C fs (d ++ 0x2f :: n) = [] := by rw [Spec.inFile, hf]
      dsimp only
      rw [ih, List.flatMap_cons, hin, List.nil_append]

theorem loadDirs_eq (C : Codec) (fs : Fs) (dirs : List Bytes) : ∀ hist e, ∃ l e', loadDirs C fs dirs (poolOf hist) e = (poolOf (hist ++ l), decide (l ≠ []), e') ∧
    Spec.FromDirs C fs dirs l := by
  induction dirs with
  | nil => intro hist e; exact ⟨[], e, by simp [loadDirs], .inr ⟨nofun, rfl⟩⟩
  | cons d r ih =>
    intro hist e
    have skip : ∀ e1, Spec.inDir C fs d = [] → loadDirs C fs (d :: r) (poolOf hist) e = loadDirs C fs r (poolOf hist) e1 →
        ∃ l e', loadDirs C fs (d :: r) (poolOf hist) e = (poolOf (hist ++ l), decide (l ≠ []), e') ∧ Spec.FromDirs C fs (d :: r) l := by
      intro e1 hd he
      obtain ⟨l, e', h1, h2⟩ := ih hist e1
      refine ⟨l, e', he.trans h1, ?_⟩
      rcases h2 with ⟨pre, g, post, a, b, c, f⟩ | ⟨a, b⟩
      · exact .inl ⟨d :: pre, g, post, by rw [a]; rfl, by simpa using ⟨hd, b⟩, c, f⟩
      · exact .inr ⟨by simpa using ⟨hd, a⟩, b⟩
    cases hf : fs.list d with
    | ok names =>
      have hin : Spec.inDir C fs d = names.flatMap fun n => Spec.inFile C fs (d ++ 0x2f :: n) := by rw [Spec.inDir, hf]
      by_cases hl : Spec.inDir C fs d = []
      · refine skip e hl ?_
        rw [loadDirs, hf]
        dsimp only
        rw [loadDir_eq, ← hin, hl]
        simp
      · refine ⟨_, e, ?_, .inl ⟨[], d, r, rfl, nofun, hl, rfl⟩⟩
        rw [loadDirs, hf]
        dsimp only
        rw [loadDir_eq, ← hin]
        dsimp only
        rw [if_pos (by simpa using hl)]
        simp [hl]
    | notExist =>
      refine skip (firstErr e (fs.list d)) (by rw [Spec.inDir, hf]) ?_
      rw [loadDirs, hf]
    | fails x =>
      refine skip (firstErr e (fs.list d)) (by rw [Spec.inDir, hf]) ?_
      rw [loadDirs, hf]

theorem poolOf_nil (l : List Cert) : 0 < (poolOf l).certs.length ↔ l ≠ [] := by
  constructor
  · rintro h rfl
    exact absurd h (by decide)
  · intro h
    cases l with
    | nil => exact absurd rfl h
    | cons c r =>
      obtain ⟨d, hd, _⟩ := (C50_set (c :: r)).2.2 c (by simp)
      exact List.length_pos_of_mem hd

theorem first_unique {α : Type} {P : α → Prop} {pre pre' : List α} {f f' : α} {post post' : List α} (h : pre ++ f :: post = pre' ++ f' :: post')
    (h1 : ∀ g ∈ pre, ¬ P g) (h2 : ∀ g ∈ pre', ¬ P g) (hf : P f) (hf' : P f') : f = f' := by
  induction pre generalizing pre' with
  | nil =>
    cases pre' with
    | nil => exact (List.cons.inj h).1
    | cons x xs =>
      have := (List.cons.inj h).1
      exact absurd (this ▸ hf) (h2 x (by simp))
  | cons y ys ih =>
    cases pre' with
    | nil =>
      have := (List.cons.inj h).1
      exact absurd (this ▸ hf') (h1 y (by simp))
    | cons x xs => exact ih (List.cons.inj h).2 (fun g hg => h1 g (by simp [hg])) (fun g hg => h2 g (by simp [hg]))

/-- what the file system holds is determined -/
theorem roots_unique {C : Codec} {files dirs : List Bytes} {fs : Fs} {l l' : List Cert} (h : Spec.Roots C files dirs fs l) (h' : Spec.Roots C files dirs fs l') : l = l' := by
  obtain ⟨a, b, h1, h2, rfl⟩ := h
  obtain ⟨a', b', h1', h2', rfl⟩ := h'
  have e1 : a = a' := by
    rcases h1 with ⟨pre, f, post, p1, p2, p3, p4⟩ | ⟨p1, p2⟩ <;> rcases h1' with ⟨pre', f', post', q1, q2, q3, q4⟩ | ⟨q1, q2⟩
    · rw [p4, q4, first_unique (P := Spec.Readable fs) (p1.symm.trans q1) p2 q2 p3 q3]
    · exact absurd p3 (q1 f (by rw [p1]; simp))
    · exact absurd q3 (p1 f' (by rw [q1]; simp))
    · rw [p2, q2]
  have e2 : b = b' := by
    rcases h2 with ⟨pre, f, post, p1, p2, p3, p4⟩ | ⟨p1, p2⟩ <;> rcases h2' with ⟨pre', f', post', q1, q2, q3, q4⟩ | ⟨q1, q2⟩
    · rw [p4, q4, first_unique (P := fun d => Spec.inDir C fs d ≠ []) (p1.symm.trans q1) (by simpa using p2) (by simpa using q2) p3 q3]
    · exact absurd (q1 f (by rw [p1]; simp)) p3
    · exact absurd (p1 f' (by rw [q1]; simp)) q3
    · rw [p2, q2]
  rw [e1, e2]

/-- **C128, loading.** The pool loaded holds exactly the certificates of the first certificate file that can be read and of the first directory that holds any; if there are none, no pool is returned. -/
theorem C128_load (C : Codec) (files dirs : List Bytes) (fs : Fs) :
    ∃ l, (∀ m, Spec.Roots C files dirs fs m ↔ m = l) ∧ (l ≠ [] → load C files dirs fs = (some (poolOf l), none)) ∧ (l = [] → (load C files dirs fs).1 = none) := by
  obtain ⟨a, e1, h1, h2, -⟩ := loadFiles_eq C fs (if fs.fileEnv = [] then files else [fs.fileEnv]) [] none
  obtain ⟨b, e2, h3, h4⟩ := loadDirs_eq C fs (if fs.dirEnv = [] then dirs else [fs.dirEnv]) a e1
  rw [List.nil_append] at h1
  have e : load C files dirs fs = if decide (b ≠ []) then (some (poolOf (a ++ b)), none) else if 0 < (poolOf (a ++ b)).certs.length then (some (poolOf (a ++ b)), none) else (none, e2) := by
    unfold load
    rw [show Pool.new = poolOf [] from rfl, h1]
    dsimp only
    rw [h3]
  have hR : Spec.Roots C files dirs fs (a ++ b) := ⟨a, b, h2, h4, rfl⟩
  refine ⟨a ++ b, fun m => ⟨fun hm => roots_unique hm hR, fun hm => hm ▸ hR⟩, ?_, ?_⟩
  · intro hl
    rw [e]
    split
    · rfl
    · rw [if_pos ((poolOf_nil _).2 hl)]
  · intro hl
    rw [e]
    obtain ⟨ha, hb⟩ := List.append_eq_nil_iff.1 hl
    rw [if_neg (by simpa using hb), if_neg (by rw [poolOf_nil]; simpa using hl)]

/-- the calls of a program's life, each with the file system at its time -/
inductive Call where
  /-- `Verify` without roots -/
  | verify (fs : Fs)
  /-- `SystemCertPool` -/
  | pool (fs : Fs)

def Call.fs : Call → Fs
  | .verify fs => fs
  | .pool fs => fs

/-- one call -/
def step (C : Codec) (files dirs : List Bytes) (c : Cache) : Call → Cache × (Option Pool × Option String)
  | .verify fs => systemRootsPool C files dirs c fs
  | .pool fs => systemCertPool C files dirs c fs

/-- the results of a sequence of calls -/
def run (C : Codec) (files dirs : List Bytes) : Cache → List Call → List (Option Pool × Option String)
  | _, [] => []
  | c, k :: ks => (step C files dirs c k).2 :: run C files dirs (step C files dirs c k).1 ks

theorem step_cache (C : Codec) (files dirs : List Bytes) (c : Cache) (k : Call) :
    (step C files dirs c k).1 = some (c.getD (load C files dirs k.fs)) := by
  cases k <;> cases c <;> simp only [step, systemRootsPool, systemCertPool, Call.fs, Option.getD_none, Option.getD_some] <;> split <;> rfl

theorem run_warm (C : Codec) (files dirs : List Bytes) (r : Option Pool × Option String) (ks : List Call) : ∀ i (h : i < ks.length),
    (run C files dirs (some r) ks)[i]? = some (step C files dirs (some r) ks[i]).2 := by
  induction ks with
  | nil => intro i h; cases h
  | cons k ks ih =>
    intro i h
    rw [run, step_cache]
    cases i with
    | zero => rfl
    | succ i => exact ih i (by simpa using h)

theorem run_length (C : Codec) (files dirs : List Bytes) (ks : List Call) : ∀ c, (run C files dirs c ks).length = ks.length := by
  induction ks with
  | nil => intro c; rfl
  | cons k ks ih => intro c; rw [run, List.length_cons, ih]; rfl

/-- **C128, one set of roots.** In every history of calls, whatever happens to the file system meanwhile: if the first call finds roots, then every call, of `Verify` and of `SystemCertPool`, uses those roots. -/
theorem C128_stable (C : Codec) (files dirs : List Bytes) (k : Call) (ks : List Call) (p : Pool) (e : Option String) (h : load C files dirs k.fs = (some p, e)) :
    ∀ r ∈ run C files dirs none (k :: ks), r.1 = some p := by
  intro r hr
  rw [run, step_cache, Option.getD_none, h] at hr
  rcases List.mem_cons.1 hr with rfl | hr
  · cases k <;> simp only [step, systemRootsPool, systemCertPool, Call.fs] at * <;> rw [h]
  · obtain ⟨i, hi, hr⟩ := List.mem_iff_getElem.1 hr
    have hi' : i < ks.length := by rw [← run_length C files dirs ks]; exact hi
    have := run_warm C files dirs (some p, e) ks i hi'
    rw [List.getElem?_eq_getElem hi, hr] at this
    cases this
    cases hk : ks[i]'hi' <;> simp only [step, systemRootsPool, systemCertPool]

theorem load_nothing (C : Codec) (files dirs : List Bytes) (fs : Fs) (h1 : ∀ f, fs.read f = .notExist) (h2 : ∀ d, fs.list d = .notExist) : load C files dirs fs = (none, none) := by
  have e1 : ∀ l p e, loadFiles C fs l p e = (p, e) := by
    intro l
    induction l with
    | nil => intro p e; rfl
    | cons f r ih =>
      intro p e
      rw [loadFiles, h1]
      dsimp only
      rw [ih]
      cases e <;> rfl
  have e2 : ∀ l p e, loadDirs C fs l p e = (p, false, e) := by
    intro l
    induction l with
    | nil => intro p e; rfl
    | cons f r ih =>
      intro p e
      rw [loadDirs, h2]
      dsimp only
      rw [ih]
      cases e <;> rfl
  unfold load
  rw [e1]
  dsimp only
  rw [e2]
  rfl

/-- **C128** fails: where none of the files and directories exists, `SystemCertPool` returns neither a pool nor an error, at any time. -/
theorem C128_nil_nil_violated (C : Codec) (files dirs : List Bytes) (fs : Fs) (h1 : ∀ f, fs.read f = .notExist) (h2 : ∀ d, fs.list d = .notExist) (c : Cache) (hc : ∀ r, c = some r → r.1 = none) :
    (systemCertPool C files dirs c fs).2 = (none, none) := by
  have e := load_nothing C files dirs fs h1 h2
  unfold systemCertPool systemRootsPool
  cases c with
  | none =>
    dsimp only
    rw [e]
  | some r =>
    have := hc r rfl
    dsimp only
    rw [this]
    exact e

/-- **C128** fails: if the first call finds no roots, `Verify` never finds any again, even when `SystemCertPool` returns them. -/
theorem C128_never_again_violated (C : Codec) (files dirs : List Bytes) (fs0 fs1 : Fs) (h0 : (load C files dirs fs0).1 = none) (p : Pool) (h1 : load C files dirs fs1 = (some p, none)) :
    (run C files dirs none [.verify fs0, .pool fs1, .verify fs1]).map (·.1) = [none, some p, none] := by
  simp only [run, step, systemRootsPool, systemCertPool, h0, h1, List.map_cons, List.map_nil]

/-- a codec for the examples: every text is one certificate, itself -/
def toyCodec : Codec := ⟨fun b => [⟨[1], false, b⟩], fun b => some { raw := b, rawSubject := b }, [1]⟩

/-- a file system: the second file is there, and a directory with an unreadable file and two that are the same -/
def toyFs : Fs :=
  { fileEnv := [], dirEnv := [], read := fun f => if f = [2] then .ok [7] else if f = [9, 0x2f, 1] then .fails "permission" else if f = [9, 0x2f, 2] ∨ f = [9, 0x2f, 3] then .ok [8] else .notExist
    list := fun d => if d = [9] then .ok [[1], [2], [3]] else .notExist }

/-- roots are found there -/
example : load toyCodec [[1], [2]] [[5], [9]] toyFs = (some (poolOf [{ raw := [7], rawSubject := [7] }, { raw := [8], rawSubject := [8] }, { raw := [8], rawSubject := [8] }]), none) := rfl


/-! ### the error -/

/-- the error of a read other than "does not exist" -/
def Spec.failure {α : Type} : Io α → Option String
  | .fails e => some e
  | _ => none

/-- the failures met on the way, in order: of the files before the first readable one, then of the directories -/
def Spec.failures (fs : Fs) (files dirs : List Bytes) : List String :=
  (files.takeWhile fun f => match fs.read f with | .ok _ => false | _ => true).filterMap (fun f => Spec.failure (fs.read f)) ++
    dirs.filterMap fun d => Spec.failure (fs.list d)

theorem firstErr_eq {α : Type} (o : Option String) (r : Io α) (h : ∀ a, r ≠ .ok a) : firstErr o r = o.or (Spec.failure r) := by
  cases o <;> cases r <;> simp_all [firstErr, Spec.failure]

theorem loadFiles_err (C : Codec) (fs : Fs) : ∀ (l : List Bytes) (p : Pool) (e : Option String),
    (loadFiles C fs l p e).2 = e.or ((l.takeWhile fun f => match fs.read f with | .ok _ => false | _ => true).filterMap (fun f => Spec.failure (fs.read f))).head? := by
  intro l
  induction l with
  | nil => intro p e; simp [loadFiles]
  | cons f r ih =>
    intro p e
    rw [loadFiles]
    cases hf : fs.read f with
    | ok d => simp [hf]
    | notExist => dsimp only; rw [ih, firstErr_eq _ _ (by simp)]; simp [hf, Spec.failure]
    | fails x => dsimp only; rw [ih, firstErr_eq _ _ (by simp)]; cases e <;> simp [hf, Spec.failure]

theorem loadDirs_err (C : Codec) (fs : Fs) : ∀ (l : List Bytes) (p : Pool) (e : Option String), (loadDirs C fs l p e).2.1 = false →
    (loadDirs C fs l p e).2.2 = e.or (l.filterMap fun d => Spec.failure (fs.list d)).head? := by
  intro l
  induction l with
  | nil => intro p e _; simp [loadDirs]
  | cons f r ih =>
    intro p e h
    rw [loadDirs] at h ⊢
    cases hf : fs.list f with
    | ok names =>
      simp only [hf] at h ⊢
      split at h
      · cases h
      · rename_i hx; rw [if_neg hx, ih _ _ h]; simp [hf, Spec.failure]
    | notExist => simp only [hf] at h ⊢; rw [ih _ _ h, firstErr_eq _ _ (by simp)]; simp [hf, Spec.failure]
    | fails x => simp only [hf] at h ⊢; rw [ih _ _ h, firstErr_eq _ _ (by simp)]; cases e <;> simp [hf, Spec.failure]

/-- **C128, the error.** If no root is found, the error returned is the first failure met that is not the absence of a file or directory, if there was any. -/
theorem C128_error (C : Codec) (files dirs : List Bytes) (fs : Fs) (h : (load C files dirs fs).1 = none) :
    (load C files dirs fs).2 = (Spec.failures fs (if fs.fileEnv = [] then files else [fs.fileEnv]) (if fs.dirEnv = [] then dirs else [fs.dirEnv])).head? := by
  unfold load at h ⊢
  generalize hA : (if fs.fileEnv = [] then files else [fs.fileEnv]) = A at *
  generalize hB : (if fs.dirEnv = [] then dirs else [fs.dirEnv]) = B at *
  obtain ⟨p1, e1, h1⟩ : ∃ p e, loadFiles C fs A .new none = (p, e) := ⟨_, _, rfl⟩
  obtain ⟨p2, b2, e2, h2⟩ : ∃ p b e, loadDirs C fs B p1 e1 = (p, b, e) := ⟨_, _, _, rfl⟩
  have a1 := loadFiles_err C fs A .new none
  have a2 := loadDirs_err C fs B p1 e1
  rw [h1] at a1 h ⊢
  dsimp only at a1 h ⊢
  rw [h2] at a2 h ⊢
  dsimp only at a2 h ⊢
  split at h
  · cases h
  rename_i hb
  rw [if_neg hb]
  split at h
  · cases h
  rename_i hc
  rw [if_neg hc]
  dsimp only
  rw [a2 (by simpa using hb), a1, Option.none_or, Spec.failures, List.head?_append]

/-- a file that may not be read, then nothing -/
example (C : Codec) : load C [[1]] [] { fileEnv := [], dirEnv := [], read := fun _ => .fails "permission denied", list := fun _ => .notExist } = (none, some "permission denied") := rfl
end Verif.X509.SystemRoots
