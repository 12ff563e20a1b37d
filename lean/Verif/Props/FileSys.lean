import Verif.Lemmas.FileSys

/- Properties of path validation and file handlers (C62, C63). -/
namespace Verif.Props
open Spec

/-! ## C62 -/

/-- C62: a regular file is accepted for work exactly when its path is one of an `.enc` file, it can be read, and it is
empty or has plausible size fields; this does not depend on how the stream delivers the bytes (`e.sched`). -/
theorem C62_accepts (e : Env) (fs : FS) (p : Path) (c : List Byte) (hp : fs p = .file c) (hc : c.length < 2 ^ 63) (i : Nat) :
    (∃ f, FileHandler.new e fs p i = .ok f) ↔ EncPath p ∧ e.canRead p = true ∧ ∃ n, Plausible c n := by
  rw [← extension_iff]
  simp only [FileHandler.new, isValidPath_true, hp]
  have hne : p = [] → Path.extension p ≠ FileHandler.ext := by rintro rfl; decide
  by_cases h2 : Path.extension p = FileHandler.ext
  · have h1 : p ≠ [] := fun h => hne h h2
    cases hr : e.canRead p with
    | false => simp [h1, h2]
    | true =>
      simp only [h1, h2, ne_eq, not_true, if_false, if_true, Res.bind_ok, true_and]
      rcases update_file hp hr (by omega) i with ⟨n, h3, h4⟩ | ⟨h3, x, -, h4⟩
      · exact ⟨fun _ => ⟨n, h3⟩, fun _ => ⟨_, h4⟩⟩
      · simp [h3, h4]
  · by_cases h1 : p = []
    · have h3 : Path.extension [] ≠ FileHandler.ext := by decide
      simp [h1, h3]
    · simp [h1, h2]

/-- C62: an accepted file handler reports the path, the size of the file, the header size the file announces, the
difference as the data size, and whether the file is empty. -/
theorem C62_sizes (e : Env) (fs : FS) (p : Path) (c : List Byte) (hp : fs p = .file c) (hc : c.length < 2 ^ 63) (i : Nat)
    (f : FileHandler) (h : FileHandler.new e fs p i = .ok f) :
    f.path = p ∧ f.fileSize = c.length ∧ Plausible c f.headerSize ∧ f.headerSize + f.getDataSize = c.length ∧
      (f.isEmpty = true ↔ c = []) := by
  obtain ⟨h1, h2, -⟩ := (C62_accepts e fs p c hp hc i).mp ⟨f, h⟩
  have h1' := (extension_iff p).mpr h1
  have hne : p ≠ [] := by rintro rfl; revert h1'; decide
  simp only [FileHandler.new, isValidPath_true, hp, hne, h1', h2, ne_eq, not_true, if_false, if_true, Res.bind_ok] at h
  rcases update_file hp h2 (by omega) i with ⟨n, h3, h4⟩ | ⟨-, x, -, h4⟩
  · rw [h4] at h
    cases h
    refine ⟨rfl, rfl, h3, ?_, ?_⟩
    · have : n ≤ c.length := by
        rcases h3 with ⟨rfl, rfl⟩ | ⟨-, -, -, h⟩
        · simp
        · exact h
      simp only [FileHandler.getDataSize]; omega
    · exact List.isEmpty_iff
  · rw [h4] at h; cases h

/-- C62: a refused regular file is reported by an exception, the process goes on. -/
theorem C62_refusal (e : Env) (fs : FS) (p : Path) (c : List Byte) (hp : fs p = .file c) (hc : c.length < 2 ^ 63) (i : Nat)
    (h : ¬ (EncPath p ∧ e.canRead p = true ∧ ∃ n, Plausible c n)) :
    ∃ x, FileHandler.new e fs p i = .exn x ∧ (x = .runtimeError ∨ x = .lengthError ∨ x = .logicError) := by
  rw [← extension_iff] at h
  simp only [FileHandler.new, isValidPath_true, hp]
  by_cases h1 : p = []
  · simp [h1]
  · by_cases h2 : Path.extension p = FileHandler.ext
    · cases hr : e.canRead p with
      | false => simp [h1, h2]
      | true =>
        simp only [h1, h2, ne_eq, not_true, if_false, if_true, Res.bind_ok]
        rcases update_file hp hr (by omega) i with ⟨n, h3, h4⟩ | ⟨h3, x, hx, h4⟩
        · exact absurd ⟨h2, hr, n, h3⟩ h
        · exact ⟨x, h4, .inr hx⟩
    · simp [h1, h2]

/-- C62: a directory with the name of an `.enc` file is accepted exactly when it can be opened and the system reports
size 0 for it; it is then taken for an empty file. -/
theorem C62_directory (e : Env) (fs : FS) (p : Path) (hp : fs p = .dir) (i : Nat) :
    (∃ f, FileHandler.new e fs p i = .ok f) ↔ EncPath p ∧ e.canRead p = true ∧ e.dirSize p = 0 := by
  rw [← extension_iff]
  simp only [FileHandler.new, isValidPath_true, hp]
  have hne : p = [] → Path.extension p ≠ FileHandler.ext := by rintro rfl; decide
  by_cases h2 : Path.extension p = FileHandler.ext
  · have h1 : p ≠ [] := fun h => hne h h2
    cases hr : e.canRead p with
    | false => simp [h1, h2]
    | true =>
      simp only [h1, h2, ne_eq, not_true, if_false, if_true, Res.bind_ok, true_and, update_dir hp hr i]
      by_cases h3 : e.dirSize p = 0 <;> simp [h3]
  · by_cases h1 : p = []
    · have h3 : Path.extension [] ≠ FileHandler.ext := by decide
      simp [h1, h3]
    · simp [h1, h2]

/-- an environment in which everything is permitted -/
def openEnv : Env where
  canRead := fun _ => true
  canWrite := fun _ => true
  canCreate := fun _ => true
  canRemove := fun _ => true
  canList := fun _ => true
  dirSize := fun _ => 4096
  stored := 2 ^ 40
  list := fun _ => []
  sched := fun _ i => i + 3
  rand := fun i => ⟨true, fun k => UInt8.ofNat (31 * i + 7 * k + 1)⟩
  clk := fun _ _ => 0
  peek := 0

/-- a file of 120 bytes announcing a header of 104 bytes, delivered in growing pieces -/
def plausibleFile : List Byte := [0, 0, 0, 0, 0, 0, 0, 120, 0, 0, 0, 0, 0, 0, 0, 104] ++ List.replicate 104 7

def oneFile (p : Path) (c : List Byte) : FS := fun q => if q = p then .file c else .missing

example : Plausible plausibleFile 104 := .inr ⟨List.replicate 104 7, by decide +kernel, by decide +kernel, by decide +kernel⟩
example : EncPath (ascii "data/enc/my.vault.enc") :=
  ⟨ascii "data/enc/", ascii "my.vault", by decide, by decide, by decide, .inr ⟨ascii "data/enc", by decide⟩⟩
example : FileHandler.new openEnv (oneFile (ascii "data/a.enc") plausibleFile) (ascii "data/a.enc") 0 =
    .ok ⟨ascii "data/a.enc", 104, 120, false⟩ := by decide +kernel
example : FileHandler.new openEnv (oneFile (ascii "a.enc") (plausibleFile ++ [1])) (ascii "a.enc") 0 =
    .exn .logicError := by decide +kernel
example : FileHandler.new { openEnv with dirSize := fun _ => 0 } (fun _ => .dir) (ascii "a.enc") 0 =
    .ok ⟨ascii "a.enc", 0, 0, true⟩ := by decide +kernel

/-! ## C63 -/

/-- C63: a path is accepted for opening exactly when it is the path of an `.enc` file (in particular not empty), exists
and can be opened. -/
theorem C63_open (e : Env) (fs : FS) (p : Path) :
    FileHandler.isValidPath e fs p true = .ok (.success ()) ↔
      p ≠ [] ∧ EncPath p ∧ (fs p = .dir ∨ ∃ c, fs p = .file c) ∧ e.canRead p = true := by
  rw [← extension_iff, isValidPath_true]
  by_cases h1 : p = []
  · simp [h1]
  · by_cases h2 : Path.extension p = FileHandler.ext
    · cases hn : fs p <;> simp [h1, h2] <;> cases e.canRead p <;> simp
    · simp [h1, h2]

/-- C63: a path is accepted for creation exactly when it is the path of an `.enc` file and nothing exists there. -/
theorem C63_create (e : Env) (fs : FS) (p : Path) :
    FileHandler.isValidPath e fs p false = .ok (.success ()) ↔ p ≠ [] ∧ EncPath p ∧ fs p = .missing := by
  rw [← extension_iff, isValidPath_false]
  by_cases h1 : p = []
  · simp [h1]
  · by_cases h2 : Path.extension p = FileHandler.ext
    · cases hn : fs p <;> simp [h1, h2]
    · simp [h1, h2]

/-- C63, as far as it holds: the first failed condition determines the error. Missing: paths whose status cannot be
determined, see `C63_unreachable`. -/
theorem C63_errors_partial (e : Env) (fs : FS) (p : Path) (hu : fs p ≠ .unreachable) (ex : Bool) :
    (p = [] → FileHandler.isValidPath e fs p ex = .ok (.fail .ERR_EMPTY_FILEPATH)) ∧
    (p ≠ [] → ¬ EncPath p → FileHandler.isValidPath e fs p ex = .ok (.fail .ERR_EXTENSION_INVALID)) ∧
    (p ≠ [] → EncPath p → fs p = .missing →
      FileHandler.isValidPath e fs p true = .ok (.fail .ERR_FILE_NOT_FOUND)) ∧
    (p ≠ [] → EncPath p → fs p ≠ .missing → e.canRead p = false →
      FileHandler.isValidPath e fs p true = .ok (.fail .ERR_FILE_NOT_OPEN)) ∧
    (p ≠ [] → EncPath p → fs p ≠ .missing →
      FileHandler.isValidPath e fs p false = .ok (.fail .ERR_FILE_EXISTS)) := by
  rw [← extension_iff]
  have ha : ∀ b : Bool, (p = [] → FileHandler.isValidPath e fs p b = .ok (.fail .ERR_EMPTY_FILEPATH)) ∧
    (p ≠ [] → ¬ Path.extension p = FileHandler.ext →
      FileHandler.isValidPath e fs p b = .ok (.fail .ERR_EXTENSION_INVALID)) := by
    intro b
    cases b
    · rw [isValidPath_false]; constructor
      · intro h; simp [h]
      · intro h1 h2; simp [h1, h2]
    · rw [isValidPath_true]; constructor
      · intro h; simp [h]
      · intro h1 h2; simp [h1, h2]
  refine ⟨(ha ex).1, (ha ex).2, ?_, ?_, ?_⟩
  · intro h1 h2 h3; rw [isValidPath_true]; simp [h1, h2, h3]
  · intro h1 h2 h3 h4; rw [isValidPath_true]
    cases hn : fs p <;> simp_all
  · intro h1 h2 h3; rw [isValidPath_false]
    cases hn : fs p <;> simp_all

/-- C63 is violated: when the status of an `.enc` path cannot be determined (name too long, missing search permission),
both checks end the process instead of reporting an error. -/
theorem C63_unreachable (e : Env) (fs : FS) (p : Path) (hp : EncPath p) (hu : fs p = .unreachable) (ex : Bool) :
    FileHandler.isValidPath e fs p ex = .fatal .terminate := by
  rw [← extension_iff] at hp
  have h1 : p ≠ [] := by rintro rfl; revert hp; decide
  cases ex
  · rw [isValidPath_false]; simp [h1, hp, hu]
  · rw [isValidPath_true]; simp [h1, hp, hu]

example : FileHandler.isValidPath openEnv (oneFile (ascii "d/..enc") []) (ascii "d/..enc") true = .ok (.success ()) := by
  decide
example : FileHandler.isValidPath openEnv (oneFile (ascii "d/.enc") []) (ascii "d/.enc") true =
    .ok (.fail .ERR_EXTENSION_INVALID) := by decide
example : FileHandler.isValidPath openEnv (fun _ => .unreachable) (ascii "locked/a.enc") true = .fatal .terminate := by
  decide

end Verif.Props
