import Verif.Props.Select

/- C75 for paths that do not lead to a regular file. -/
namespace Verif.Props
open Spec
variable {hs : Hashes} {rest : Api.Helper → Res Api.Helper}

/-- C75: a directory that cannot be opened, or for which the system reports a size, is refused, and nothing is changed. -/
theorem C75_directory_partial (e : Env) (w : World) (p : Path) (hst : w.api.state = .INIT) (hp : EncPath p) (hf : w.fs p = .dir) :
    (e.canRead p = false → Api.call hs rest e w (.selectFile p) = .ok (.flag (.fail .ERR_FILE_NOT_OPEN), w)) ∧
    (e.canRead p = true → e.dirSize p ≠ 0 →
      Api.call hs rest e w (.selectFile p) = .ok (.flag (.fail .ERR_FILEHANDLER_CREATION), w)) := by
  have hx := (extension_iff p).mpr hp
  have hne : p ≠ [] := by rintro rfl; revert hx; decide
  constructor
  · intro hr
    have hv : FileHandler.isValidPath e w.fs p true = .ok (.fail .ERR_FILE_NOT_OPEN) := by
      simp [isValidPath_true, hne, hx, hf, hr]
    simp only [Api.call, hst, Api.selectFile, Api.getFileHandler, hv, Res.bind_ok, Res.noexcept_ok]
  · intro hr hd
    have hv : FileHandler.isValidPath e w.fs p true = .ok (.success ()) := by
      simp [isValidPath_true, hne, hx, hf, hr]
    have hn : FileHandler.new e w.fs p 0 = .exn .lengthError := by
      simp only [FileHandler.new, hv, Res.bind_ok, update_dir hf hr 0, hd, if_false]
    simp only [Api.call, hst, Api.selectFile, Api.getFileHandler, hv, hn, Res.bind_ok, Res.noexcept_ok, Res.attempt]

/-- C75 is violated: a directory for which the system reports the size 0 is selected as if it were an empty file. -/
theorem C75_violated_directory (e : Env) (w : World) (p : Path) (hst : w.api.state = .INIT) (hp : EncPath p) (hf : w.fs p = .dir)
    (hr : e.canRead p = true) (hd : e.dirSize p = 0) :
    ∃ w', Api.call hs rest e w (.selectFile p) = .ok (.flag (.success true), w') ∧ w'.api.state = .EMPTY_FILE_SELECTED ∧
      w'.fs = w.fs := by
  have hx := (extension_iff p).mpr hp
  have hne : p ≠ [] := by rintro rfl; revert hx; decide
  have hv : FileHandler.isValidPath e w.fs p true = .ok (.success ()) := by
    simp [isValidPath_true, hne, hx, hf, hr]
  have hn : FileHandler.new e w.fs p 0 = .ok ⟨p, 0, 0, true⟩ := by
    simp only [FileHandler.new, hv, Res.bind_ok, update_dir hf hr 0, hd, if_true]
  refine ⟨{ w with api := Api.selectEmptyFile w.api ⟨p, 0, 0, true⟩ }, ?_, rfl, rfl⟩
  simp only [Api.call, hst, Api.selectFile, Api.getFileHandler, hv, hn, Res.bind_ok, Res.noexcept_ok, Res.attempt,
    FileHandler.isEmpty, if_true]

/-- C75 is violated: a path whose status the system does not tell ends the process. -/
theorem C75_violated_unreachable (e : Env) (w : World) (p : Path) (hst : w.api.state = .INIT) (hp : EncPath p)
    (hf : w.fs p = .unreachable) : Api.call hs rest e w (.selectFile p) = .fatal .terminate := by
  have hx := (extension_iff p).mpr hp
  have hne : p ≠ [] := by rintro rfl; revert hx; decide
  have hv : FileHandler.isValidPath e w.fs p true = .fatal .terminate := by
    simp [isValidPath_true, hne, hx, hf]
  simp only [Api.call, hst, Api.selectFile, Api.getFileHandler, hv]
  rfl

/-- what a new session answers for a directory of a given size, for one that may not be opened, and for an unreachable path -/
example : selectAnswer { openEnv with dirSize := fun _ => 4096 } (fun _ => .dir) samplePath =
    .ok (.flag (.fail .ERR_FILEHANDLER_CREATION)) := by decide +kernel
example : selectAnswer { openEnv with canRead := fun _ => false } (fun _ => .dir) samplePath =
    .ok (.flag (.fail .ERR_FILE_NOT_OPEN)) := by decide +kernel
example : selectAnswer { openEnv with dirSize := fun _ => 0 } (fun _ => .dir) samplePath = .ok (.flag (.success true)) := by
  decide +kernel
example : selectAnswer openEnv (fun _ => .unreachable) samplePath = .fatal .terminate := by decide +kernel

end Verif.Props
