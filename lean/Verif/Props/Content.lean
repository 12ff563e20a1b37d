import Verif.Lemmas.FileSys
import Verif.Lemmas.SessionInv
import Verif.Props.Sample

/- Properties of reading the raw content of files: C68. -/
namespace Verif.Props
open Spec

variable {hs : Hashes} {rest : Api.Helper → Res Api.Helper}

/-- reading a whole file: at most `2^32 - 1` bytes arrive -/
theorem getAllBytes_eq (e : Env) (fs : FS) (f : FileHandler) (c : List Byte) (hc : fs f.path = .file c)
    (hr : e.canRead f.path = true) (i : Nat) :
    f.getAllBytes e fs i = .ok ⟨c.take (c.length % 2 ^ 32), c.length⟩ := by
  have ho : fs.opens e f.path = true := by simp [FS.opens, hc, hr]
  have hm : FileHandler.measure e fs f.path = c.length := by simp [FileHandler.measure, hc, hr]
  have hi : fs.openIn e f.path i = ⟨c, e.sched i, false, false⟩ := by simp [FS.openIn, hc, hr]
  have hle := Nat.mod_le c.length (2 ^ 32)
  have hmod : readData ⟨c, e.sched i, false, false⟩ (Bytes.empty c.length) c.length =
      readData ⟨c, e.sched i, false, false⟩ (Bytes.empty c.length) (c.length % 2 ^ 32) := by
    simp only [readData, Nat.mod_mod]
  obtain ⟨s', h⟩ := readData_spec ⟨c, e.sched i, false, false⟩ (Bytes.empty c.length) (c.length % 2 ^ 32) rfl
    (Nat.mod_lt _ (by decide))
  have h1 : ¬ (Bytes.empty c.length).cap - (Bytes.empty c.length).data.length < c.length % 2 ^ 32 := by
    simp only [Bytes.empty, List.length_nil]; omega
  rw [if_neg h1, if_pos hle] at h
  simp only [FileHandler.getAllBytes, ho, hm, hi, Bool.not_true, Bool.false_eq_true, if_false, hmod, h.1, Res.bind_ok]
  simp [Bytes.empty]

/-- C68, the part that holds: for a selected non-empty file of less than 2^32 bytes that can be read, `getFileContent` returns
exactly the bytes the file has now, whatever happened to the file since it was selected; nothing else changes. -/
theorem C68_content_partial (e : Env) (w : World) (f : FileHandler) (hst : w.api.state = .FILE_SELECTED)
    (hsel : w.api.selected = some f) (c : List Byte) (hc : w.fs f.path = .file c) (hl : c.length < 2 ^ 32)
    (hr : e.canRead f.path = true) :
    ∃ b, Api.call hs rest e w .getFileContent = .ok (.content (.success b), w) ∧ b.data = c := by
  refine ⟨⟨c.take (c.length % 2 ^ 32), c.length⟩, ?_, ?_⟩
  · simp only [Api.call, hst, Api.getFileContent, hsel, deref, Res.bind_ok, getAllBytes_eq e w.fs f c hc hr, Res.attempt,
      Res.noexcept_ok]
  · simp only [Nat.mod_eq_of_lt hl, List.take_length]

/-- a saved file is selected and its content read -/
example : runIs (sampleSave ++ [.call .logout openEnv, .call (.selectFile samplePath) openEnv, .call .getFileContent openEnv])
    (fun rs w => w.api.state == .FILE_SELECTED && (match w.fs samplePath, rs.getLast? with
      | .file c, some (some (.content (.success b))) => b.data == c && c.length == 369
      | _, _ => false)) = true := by decide +kernel

/-- C68, the part that holds: if the file is gone or may not be read, that is reported. -/
theorem C68_unreadable_partial (e : Env) (w : World) (f : FileHandler) (hst : w.api.state = .FILE_SELECTED)
    (hsel : w.api.selected = some f) (h : w.fs f.path = .missing ∨ w.fs f.path = .unreachable ∨ e.canRead f.path = false) :
    Api.call hs rest e w .getFileContent = .ok (.content (.fail .ERR_FILE_READ), w) := by
  have ho : w.fs.opens e f.path = false := by
    rcases h with h | h | h
    · simp [FS.opens, h]
    · simp [FS.opens, h]
    · unfold FS.opens; split <;> simp [h]
  simp only [Api.call, hst, Api.getFileContent, hsel, deref, Res.bind_ok, FileHandler.getAllBytes, ho, Bool.not_false,
    if_true, Res.attempt, Res.noexcept_ok]

example : runIs (sampleSave ++ [.call .logout openEnv, .call (.selectFile samplePath) openEnv, .outside samplePath .missing,
      .call .getFileContent openEnv])
    (fun rs w => w.api.state == .FILE_SELECTED && rs.getLast? == some (some (.content (.fail .ERR_FILE_READ)))) = true := by
  decide +kernel

/-- C68 violated for large files: of a file of 2^32 bytes or more only the first `size mod 2^32` bytes are returned, and the
call reports success. -/
theorem C68_violated_big (e : Env) (w : World) (f : FileHandler) (hst : w.api.state = .FILE_SELECTED)
    (hsel : w.api.selected = some f) (c : List Byte) (hc : w.fs f.path = .file c) (hl : 2 ^ 32 ≤ c.length)
    (hr : e.canRead f.path = true) :
    ∃ b, Api.call hs rest e w .getFileContent = .ok (.content (.success b), w) ∧ b.data ≠ c ∧
      b.data.length = c.length % 2 ^ 32 := by
  have hlt := Nat.mod_lt c.length (show 2 ^ 32 > 0 by decide)
  refine ⟨⟨c.take (c.length % 2 ^ 32), c.length⟩, ?_, ?_, ?_⟩
  · simp only [Api.call, hst, Api.getFileContent, hsel, deref, Res.bind_ok, getAllBytes_eq e w.fs f c hc hr, Res.attempt,
      Res.noexcept_ok]
  · intro h
    have := congrArg List.length h
    simp only [List.length_take] at this
    omega
  · simp only [List.length_take]
    omega

/-- the session on a file that has grown to 2^32 + 5 bytes after it was selected -/
example : ∃ (w : World) (f : FileHandler) (c : List Byte), w.api.state = .FILE_SELECTED ∧ w.api.selected = some f ∧
    w.fs f.path = .file c ∧ 2 ^ 32 ≤ c.length ∧ c.length % 2 ^ 32 = 5 := by
  refine ⟨⟨⟨.FILE_SELECTED, 1, none, Bytes.empty 0, none, none, some ⟨samplePath, 150, 150, false⟩⟩,
    fun _ => .file (List.replicate (2 ^ 32 + 5) 0)⟩, _, _, rfl, rfl, rfl, ?_, ?_⟩ <;> rw [List.length_replicate] <;> decide

/-- C68 violated for files that were empty when they were selected: the call returns nothing, whatever the file contains by
now, and reports success. -/
theorem C68_violated_stale : ∃ rs w c, Api.run toyHashes noRest (freshWorld fun _ => .missing)
      [.call (.createFile samplePath) openEnv, .call (.selectFile samplePath) openEnv,
       .outside samplePath (.file (ascii "something")), .call .getFileContent openEnv] = .ok (rs, w) ∧
    w.fs samplePath = .file c ∧ c ≠ [] ∧ rs.getLast? = some (some (.content (.success (Bytes.empty 0)))) := by
  refine ⟨_, _, ascii "something", rfl, ?_, ?_, ?_⟩ <;> decide +kernel

/-- C68, `getFirstBytes`: exactly the first `n` bytes of the file, or `length_error` if it has fewer. -/
theorem C68_first_bytes_partial (e : Env) (fs : FS) (f : FileHandler) (c : List Byte) (hc : fs f.path = .file c)
    (hr : e.canRead f.path = true) (n i : Nat) (hn : n < 2 ^ 32) :
    if n ≤ c.length then ∃ b, f.getFirstBytes e fs n i = .ok b ∧ b.data = c.take n
    else f.getFirstBytes e fs n i = .exn .lengthError := by
  have ho : fs.opens e f.path = true := by simp [FS.opens, hc, hr]
  have hi : fs.openIn e f.path i = ⟨c, e.sched i, false, false⟩ := by simp [FS.openIn, hc, hr]
  obtain ⟨s', h⟩ := readData_spec ⟨c, e.sched i, false, false⟩ (Bytes.empty n) n rfl hn
  rw [if_neg (show ¬ (Bytes.empty n).cap - (Bytes.empty n).data.length < n by simp [Bytes.empty])] at h
  simp only [FileHandler.getFirstBytes, ho, hi, Bool.not_true, Bool.false_eq_true, if_false]
  split
  · rename_i hle
    rw [if_pos hle] at h
    rw [h.1]
    exact ⟨_, rfl, rfl⟩
  · rename_i hle
    rw [if_neg hle] at h
    rw [h.1]
    rfl

example : (FileHandler.mk samplePath 0 0 true).getFirstBytes openEnv (fun _ => .file [1, 2, 3]) 2 0 = .ok ⟨[1, 2], 2⟩ ∧
    (FileHandler.mk samplePath 0 0 true).getFirstBytes openEnv (fun _ => .file [1, 2, 3]) 4 0 = .exn .lengthError := by
  decide +kernel

end Verif.Props
