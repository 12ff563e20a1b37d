import Verif.Lemmas.Listing
import Verif.Props.Sample

/- Listing of files: C50. -/
namespace Verif.Props
open Spec

/-- C50, the part that holds: the names of the regular `.enc` files of a directory are listed, all of them and in the order
the system delivers them, when the directory can be listed and the status of each entry can be determined. -/
theorem C50_all_files_partial (e : Env) (fs : FS) (dir : Path) (hd : dir ≠ []) (hdir : fs dir = .dir)
    (hl : e.canList dir = true) (hn : Names (e.list dir))
    (hu : ∀ n ∈ e.list dir, ∀ p, Entry dir n p → fs p ≠ .unreachable) :
    ∃ names, Api.getAllEncFileNames e fs dir = .ok (.success names) ∧ EncFiles fs dir (e.list dir) names := by
  have hu' : ∀ n ∈ e.list dir, fs (Path.join dir n) ≠ .unreachable := fun n h => hu n h _ ((entry_iff hd).mpr rfl)
  obtain ⟨names, h1, h2, h3, h4⟩ := Api.pick_ok hd hn hu'
  refine ⟨names, ?_, h2, ?_⟩
  · simp [Api.getAllEncFileNames, hd, FS.existsAt, hdir, hl, h1]
  · intro n hn p hp
    rw [entry_iff hd] at hp
    subst hp
    exact ⟨h3 n, fun h => h4 n hn h.1 h.2⟩

/-- C50, outcomes without a listing: an empty path and a missing directory are reported; a file instead of a directory, a
directory that cannot be listed, and an entry or directory whose status cannot be determined end the process. -/
theorem C50_no_listing (e : Env) (fs : FS) (dir : Path) :
    (dir = [] → Api.getAllEncFileNames e fs dir = .ok (.fail .ERR_EMPTY_FILEPATH)) ∧
    (dir ≠ [] → fs dir = .missing → Api.getAllEncFileNames e fs dir = .ok (.fail .ERR_FILEPATH_INVALID)) ∧
    (dir ≠ [] → fs dir = .unreachable ∨ (∃ c, fs dir = .file c) ∨ (fs dir = .dir ∧ e.canList dir = false) ∨
        (fs dir = .dir ∧ ∃ n ∈ e.list dir, ∃ p, Entry dir n p ∧ fs p = .unreachable) →
      Api.getAllEncFileNames e fs dir = .fatal .terminate) := by
  refine ⟨?_, ?_, ?_⟩
  · rintro rfl
    simp [Api.getAllEncFileNames]
  · intro hd h
    simp [Api.getAllEncFileNames, hd, FS.existsAt, h]
  · intro hd h
    rcases h with h | ⟨c, h⟩ | ⟨h, h2⟩ | ⟨h, n, hn, p, hp, h2⟩
    · simp [Api.getAllEncFileNames, hd, FS.existsAt, h, Res.noexcept]
    · simp [Api.getAllEncFileNames, hd, FS.existsAt, h, Res.noexcept]
    · simp [Api.getAllEncFileNames, hd, FS.existsAt, h, h2, Res.noexcept]
    · rw [entry_iff hd] at hp
      subst hp
      have := Api.pick_exn ⟨n, hn, h2⟩
      by_cases hc : e.canList dir = false
      · simp [Api.getAllEncFileNames, hd, FS.existsAt, h, hc, Res.noexcept]
      · simp [Api.getAllEncFileNames, hd, FS.existsAt, h, hc, this, Res.noexcept]

/-- C50 violated in every case: whatever is in the directory, if the relevant files are listed, the list is empty. -/
theorem C50_always_empty (hs : Hashes) (e : Env) (fs : FS) (mode : Byte) (dir : Path) (l : List (List Byte))
    (h : Api.getRelevantFileNames hs e fs mode dir = .ok (.success l)) : l = [] := by
  rw [Api.getRelevantFileNames, Res.noexcept_eq_ok] at h
  obtain ⟨o, -, h⟩ := Res.bind_eq_ok.mp h
  split at h
  · obtain ⟨r, hr, h⟩ := Res.bind_eq_ok.mp h
    cases h
    exact Api.scan_same hr
  · cases h
  · cases h

/-- C50, the part that holds: nothing that should not be listed is listed (since nothing is), and the errors are those of the
listing of all `.enc` files. -/
theorem C50_errors_partial (hs : Hashes) (rest : Api.Helper → Res Api.Helper) (e : Env) (w w' : World) (dir : Path) (r : Ret)
    (hst : w.api.state = .INIT) (h : Api.call hs rest e w (.getRelevantFileNames dir) = .ok (r, w')) :
    w' = w ∧ (r = .names (.success []) ∨ ∃ c, r = .names (.fail c) ∧ Api.getAllEncFileNames e w.fs dir = .ok (.fail c)) := by
  simp only [Api.call, hst] at h
  obtain ⟨o, ho, h⟩ := Res.bind_eq_ok.mp h
  cases h
  refine ⟨rfl, ?_⟩
  cases o with
  | success l => rw [C50_always_empty _ _ _ _ _ _ ho]; exact .inl rfl
  | fail c =>
    refine .inr ⟨c, rfl, ?_⟩
    rw [Api.getRelevantFileNames, Res.noexcept_eq_ok] at ho
    obtain ⟨o, ho2, ho⟩ := Res.bind_eq_ok.mp ho
    split at ho
    · obtain ⟨r, -, ho⟩ := Res.bind_eq_ok.mp ho
      cases ho
    · cases ho; exact ho2
    · cases ho
  | timeout =>
    exfalso
    rw [Api.getRelevantFileNames, Res.noexcept_eq_ok] at ho
    obtain ⟨o, ho2, ho⟩ := Res.bind_eq_ok.mp ho
    split at ho
    · obtain ⟨r, -, ho⟩ := Res.bind_eq_ok.mp ho
      cases ho
    · cases ho
    · rw [Api.getAllEncFileNames, Res.noexcept_eq_ok] at ho2
      split at ho2
      · cases ho2
      · obtain ⟨b, -, ho2⟩ := Res.bind_eq_ok.mp ho2
        split at ho2
        · cases ho2
        · split at ho2
          · cases ho2
          · obtain ⟨x, -, ho2⟩ := Res.bind_eq_ok.mp ho2
            cases ho2

/-- a directory with an empty `.enc` file, another file, and a directory named like an `.enc` file -/
def vaultFS : FS := fun p =>
  if p = ascii "v" then .dir
  else if p = ascii "v/a.enc" then .file []
  else if p = ascii "v/b.txt" then .file (ascii "note")
  else if p = ascii "v/c.enc" then .dir
  else if p = ascii "v/.enc" then .file []
  else .missing

def vaultEnv : Env :=
  { openEnv with list := fun p => if p = ascii "v" then [ascii "b.txt", ascii ".enc", ascii "a.enc", ascii "c.enc"] else [] }

/-- the hypotheses of the listing theorem hold, and this is what is listed -/
example : vaultFS (ascii "v") = .dir ∧ Names (vaultEnv.list (ascii "v")) ∧
    (∀ n ∈ vaultEnv.list (ascii "v"), ∀ p, Entry (ascii "v") n p → vaultFS p ≠ .unreachable) ∧
    Api.getAllEncFileNames vaultEnv vaultFS (ascii "v") = .ok (.success [ascii "a.enc"]) := by
  refine ⟨by decide +kernel, by unfold Names; decide +kernel, ?_, by decide +kernel⟩
  intro n _ p _
  unfold vaultFS
  repeat' split
  all_goals simp

example : Api.getAllEncFileNames vaultEnv vaultFS (ascii "v/b.txt") = .fatal .terminate := by decide +kernel

/-- C50 violated: the empty file `a.enc` is relevant for every file mode and is not listed. -/
theorem C50_violated : Api.getRelevantFileNames toyHashes vaultEnv vaultFS 1 (ascii "v") = .ok (.success []) ∧
    vaultFS (ascii "v/a.enc") = .file [] ∧ Entry (ascii "v") (ascii "a.enc") (ascii "v/a.enc") ∧
    ascii "a.enc" ∈ vaultEnv.list (ascii "v") :=
  ⟨by decide +kernel, by decide +kernel, (entry_iff (by decide)).mpr (by decide), by decide +kernel⟩

/-- C50, the directory listed by default: it is `data/enc` if something lies there, a missing one is reported, and one whose
status cannot be determined ends the process. If it is reported, and it is a directory that can be listed, and the status
of each entry can be determined, exactly the `.enc` files in it are listed. -/
theorem C50_default_dir_partial (e : Env) (fs : FS) :
    (fs (ascii "data/enc") = .missing → Api.getEncDirPath fs = .ok (.fail .ERR_FILEPATH_INVALID)) ∧
    (fs (ascii "data/enc") = .unreachable → Api.getEncDirPath fs = .fatal .terminate) ∧
    (∀ dir, Api.getEncDirPath fs = .ok (.success dir) →
      dir = ascii "data/enc" ∧ (fs dir = .dir ∨ ∃ c, fs dir = .file c) ∧
      (fs dir = .dir → e.canList dir = true → Names (e.list dir) →
        (∀ n ∈ e.list dir, ∀ p, Entry dir n p → fs p ≠ .unreachable) →
        ∃ names, Api.getAllEncFileNames e fs dir = .ok (.success names) ∧ EncFiles fs dir (e.list dir) names)) ∧
    (fs (ascii "data/enc") ≠ .missing → fs (ascii "data/enc") ≠ .unreachable →
      Api.getEncDirPath fs = .ok (.success (ascii "data/enc"))) := by
  refine ⟨?_, ?_, ?_, ?_⟩
  · intro h
    simp [Api.getEncDirPath, FS.existsAt, h]
  · intro h
    simp [Api.getEncDirPath, FS.existsAt, h, Res.noexcept]
  · intro dir h
    have hdir : dir = ascii "data/enc" ∧ (fs dir = .dir ∨ ∃ c, fs dir = .file c) := by
      cases hn : fs (ascii "data/enc") <;> simp [Api.getEncDirPath, FS.existsAt, hn, Res.noexcept] at h <;> subst h <;>
        simp [hn]
    refine ⟨hdir.1, hdir.2, fun h1 h2 h3 h4 => ?_⟩
    refine C50_all_files_partial e fs dir ?_ h1 h2 h3 h4
    rw [hdir.1]
    decide
  · intro h1 h2
    cases hn : fs (ascii "data/enc") <;> simp_all [Api.getEncDirPath, FS.existsAt]

/-- the files of a user: `data/enc` with one `.enc` file in it -/
def homeFS : FS := fun p =>
  if p = ascii "data/enc" then .dir else if p = ascii "data/enc/a.enc" then .file [] else .missing

def homeEnv : Env := { openEnv with list := fun p => if p = ascii "data/enc" then [ascii "a.enc", ascii "b.enc"] else [] }

/-- the default directory is found and listed; a missing one is reported -/
example : Api.getEncDirPath homeFS = .ok (.success (ascii "data/enc")) ∧
    Api.getAllEncFileNames homeEnv homeFS (ascii "data/enc") = .ok (.success [ascii "a.enc"]) ∧
    Api.getEncDirPath vaultFS = .ok (.fail .ERR_FILEPATH_INVALID) := by decide +kernel

/-- C50 violated: a regular file in place of the default directory is reported as the directory, and listing it ends the
process. -/
theorem C50_violated_default (e : Env) (fs : FS) (c : List Byte) (h : fs (ascii "data/enc") = .file c) :
    Api.getEncDirPath fs = .ok (.success (ascii "data/enc")) ∧
    Api.getAllEncFileNames e fs (ascii "data/enc") = .fatal .terminate :=
  ⟨(C50_default_dir_partial e fs).2.2.2 (by simp [h]) (by simp [h]),
    (C50_no_listing e fs _).2.2 (by decide) (.inr (.inl ⟨c, h⟩))⟩

example : (fun _ => .file [1] : FS) (ascii "data/enc") = .file [1] := rfl

end Verif.Props
