import Verif.Lemmas.NoCrash
import Verif.Props.Save
import Verif.Props.DataHeader

/- Property of sessions: C54. -/
namespace Verif.Props
open Spec Api HeaderParse

variable {hs : Hashes} {rest : Api.Helper → Res Api.Helper}

/-- C54, the part that holds: from a new session every sequence of calls runs through (no uncaught exception, no failed
assertion, no null dereference, no endless loop), provided that all files on the disk, at the beginning and whenever
another program changes one, are harmless (`Tame`), the random source works, directories can be listed and files can be
removed (`Calm`), the arguments are those of a careful program (`Careful`) and only directories are listed. The files
written by the session itself are not restricted, whatever part of them reaches the disk. -/
theorem C54_no_crash_partial (mode : Byte) (s0 : Session) (h0 : Api.new mode = .ok s0) (fs : FS) (evs : List Event)
    (hfs : ∀ p, Tame (fs p)) (hevs : ∀ ev ∈ evs, Bearable ev) (hl : ListsDirs fs evs) :
    ∃ rs w, Api.run hs rest ⟨s0, fs⟩ evs = .ok (rs, w) := by
  obtain ⟨-, rfl⟩ := new_mode h0
  have : Sound hs ⟨⟨.INIT, 1, none, Bytes.empty 0, none, none, none⟩, fs⟩ :=
    ⟨.init, .none rfl, ⟨none, fun h => (by cases h), fun x h => (by cases h)⟩, .none rfl, hfs⟩
  obtain ⟨rs, w, h, -⟩ := run_total (rest := rest) this hevs hl
  exact ⟨rs, w, h⟩

/-- C54, the part that holds: the same files, events and arguments keep the disk harmless, so that a second session can
follow. -/
theorem C54_stays_tame_partial (mode : Byte) (s0 : Session) (h0 : Api.new mode = .ok s0) (fs : FS) (evs : List Event)
    (hfs : ∀ p, Tame (fs p)) (hevs : ∀ ev ∈ evs, Bearable ev) (hl : ListsDirs fs evs) (rs : List (Option Ret)) (w : World)
    (h : Api.run hs rest ⟨s0, fs⟩ evs = .ok (rs, w)) (p : Path) : Tame (w.fs p) := by
  obtain ⟨-, rfl⟩ := new_mode h0
  have : Sound hs ⟨⟨.INIT, 1, none, Bytes.empty 0, none, none, none⟩, fs⟩ :=
    ⟨.init, .none rfl, ⟨none, fun h => (by cases h), fun x h => (by cases h)⟩, .none rfl, hfs⟩
  obtain ⟨rs', w', h', hw⟩ := run_total (rest := rest) this hevs hl
  rw [h] at h'
  cases h'
  exact hw.tame p

/-- a careful history: list a directory, save, open again, change the salt, save with a full disk, try to open the damaged
file, delete it; meanwhile another program writes and removes files -/
def carefulHistory : List Event :=
  [.call (.getRelevantFileNames (ascii "data")) openEnv] ++ sampleSave ++
  [.outside (ascii "b.enc") (.file [1, 2, 3])] ++ sampleOpen ++
  [.call .changeSalt openEnv, .call (.encryptData (some ⟨some 1, some (Bytes.full (ascii "other"))⟩)) openEnv,
   .call .writeToFile { openEnv with stored := 20 }, .call .logout openEnv, .call (.selectFile samplePath) openEnv,
   .outside samplePath (.file []), .call (.selectFile samplePath) openEnv, .call .deleteFile openEnv,
   .call (.selectFile (ascii "b.enc")) openEnv]

theorem openEnv_calm (n : Nat) : Calm { openEnv with stored := n } := ⟨fun _ => rfl, fun _ => rfl, fun _ => rfl⟩

example : (∀ p, Tame (if p = ascii "data" then Node.dir else .missing)) ∧ (∀ ev ∈ carefulHistory, Bearable ev) ∧
    ListsDirs (fun p => if p = ascii "data" then .dir else .missing) carefulHistory := by
  refine ⟨fun p => by split <;> trivial, ?_, ?_⟩
  · have e0 : Calm openEnv := openEnv_calm _
    have hb : Harmless [1, 2, 3] := .inr ⟨by decide, by
      rintro n (⟨h, -⟩ | ⟨r, h, -, -⟩)
      · cases h
      · have := congrArg List.length h
        simp [num8] at this⟩
    simp only [carefulHistory, sampleSave, sampleOpen, List.cons_append, List.nil_append, List.forall_mem_cons]
    exact ⟨⟨e0, trivial⟩, ⟨e0, trivial⟩, ⟨e0, trivial⟩, ⟨e0, usable_sample.built, usable_sample.full⟩,
      ⟨e0, _, _, rfl, by decide⟩, ⟨e0, trivial⟩, hb, ⟨e0, trivial⟩, ⟨e0, trivial⟩, ⟨e0, trivial⟩, ⟨e0, trivial⟩,
      ⟨e0, trivial⟩, ⟨e0, _, _, rfl, by decide⟩, ⟨openEnv_calm 20, trivial⟩, ⟨e0, trivial⟩, ⟨e0, trivial⟩, .inl rfl,
      ⟨e0, trivial⟩, ⟨e0, trivial⟩, ⟨e0, trivial⟩, by simp⟩
  · intro dir e h
    simp [carefulHistory, sampleSave, sampleOpen] at h
    obtain ⟨rfl, -⟩ := h
    refine ⟨?_, fun c => by simp, fun c hc => ?_⟩
    rotate_left
    · simp [carefulHistory, sampleSave, sampleOpen] at hc
      rcases hc with ⟨h, -⟩ | ⟨h, -⟩ <;> exact absurd h (by decide)
    rintro ⟨d, stem, h, hne, -, -⟩
    have h2 := congrArg (fun l => l.reverse.take 4) h
    simp [ascii] at h2

/-- how it ends -/
example : runIs carefulHistory (fun rs w => rs.length == 20 && w.api.state == .INIT && w.fs samplePath == .missing) = true := by
  decide +kernel

/-! Every condition is needed. -/

/-- crafted files: 120 bytes announcing a header of 104 bytes, with a data block of length zero; with a chain hash of mode 1
with data; and a proper header of 104 bytes announced as one of 105 bytes -/
def zeroVault : List Byte := num8 120 ++ (num8 104 ++ [1, 1, 1, 7, 0] ++ List.replicate 99 0)
def chainVault : List Byte := num8 120 ++ (num8 104 ++ [1, 1, 0, 1, 0, 0, 0, 0, 0, 0, 0, 1, 5] ++ List.replicate 91 0)
def sizeVault : List Byte := num8 107 ++ (num8 105 ++ (smallHeader.content ++ [9, 9, 9]))

/-- C54 violated: selecting a file that passes for one of the program's kills the process exactly when its header has one of
three flaws. -/
theorem C54_select_dies (e : Env) (hr : ∀ i, (e.rand i).good = true) (w : World) (hst : w.api.state = .INIT) (p : Path)
    (hp : EncPath p) (c : List Byte) (hc : w.fs p = .file c) (hread : e.canRead p = true) (hl : c.length < 2 ^ 63)
    (hne : c ≠ []) (n : Nat) (hn : Plausible c n) :
    (Api.call hs rest e w (.selectFile p) = .fatal .terminate ↔ ZeroBlock c) ∧
    (Api.call hs rest e w (.selectFile p) = .fatal .abort ↔ WrongChainLength c ∨ WrongHeaderSize c) := by
  have hf : getFileHandler e w.fs p 0 = .ok (.success ⟨p, n, c.length, false⟩) := by
    rcases update_file hc hread (by omega) 0 with ⟨n', hn', hu⟩ | ⟨hno, -⟩
    · rw [plausible_unique (by omega) hn hn']
      have : c.isEmpty = false := by cases c <;> simp_all
      rw [this] at hu
      exact getFileHandler_ok hp hc hread hu
    · exact absurd ⟨n, hn⟩ hno
  have ho : w.fs.openIn e p 1 = ⟨c, e.sched 1, false, false⟩ := by simp [FS.openIn, hc, hread]
  obtain ⟨k1, k2, -⟩ := C34_killed_iff_partial hs (e.rand 0) (hr 0) c (by omega) (w.fs.openIn e p 1) (by rw [ho]; exact ⟨rfl, rfl⟩)
  have hcases := setHeaderStream_cases (hs := hs) (hr 0) (w.fs.openIn e p 1) (by rw [ho])
  have hcall : ∀ x, Api.call hs rest e w (.selectFile p) = .fatal x ↔ setHeaderStream hs (e.rand 0) (w.fs.openIn e p 1) = .fatal x := by
    intro x
    simp only [Api.call, hst, selectFile, hf, Res.bind_ok, FileHandler.isEmpty, Bool.false_eq_true, if_false, selectNonEmptyFile,
      FileHandler.getDataHeader]
    rcases hcases with ⟨y, h⟩ | ⟨_, _, -, -, -, -, h⟩ | ⟨-, h⟩ | ⟨-, h⟩ <;> rw [h]
    · constructor <;> intro h' <;> cases h'
    · constructor <;> intro h' <;> cases h'
    · show Res.fatal .terminate = Res.fatal x ↔ _
      constructor <;> intro h' <;> cases h' <;> rfl
    · show Res.fatal .abort = Res.fatal x ↔ _
      constructor <;> intro h' <;> cases h' <;> rfl
  exact ⟨(hcall _).trans k1, (hcall _).trans k2⟩

/-- such files -/
theorem sample_enc : EncPath samplePath := ⟨[], ascii "a", by decide, by decide, by decide, .inl rfl⟩
example : EncPath samplePath ∧ oneFile samplePath zeroVault samplePath = .file zeroVault ∧ Plausible zeroVault 104 ∧
    ZeroBlock zeroVault :=
  ⟨sample_enc, by decide, .inr ⟨_, rfl, by decide, by decide +kernel⟩,
    104, 1, 1, [], 7, List.replicate 99 0, ⟨rfl, by decide, by decide, by decide, by simp⟩, by decide⟩
example : Plausible sizeVault 105 ∧ WrongHeaderSize sizeVault :=
  ⟨.inr ⟨_, rfl, by decide, by decide +kernel⟩,
    smallHeader, 105, [9, 9, 9], smallHeader_valid, by decide +kernel, rfl, by decide +kernel, by decide +kernel⟩
example : Plausible chainVault 104 ∧ WrongChainLength chainVault :=
  ⟨.inr ⟨_, rfl, by decide, by decide +kernel⟩,
    104, 1, 0, [], _, ⟨rfl, by decide, by decide, by decide, by simp⟩, rfl,
    .inl ⟨1, 1, 5, List.replicate 91 0, 0, rfl, by decide, rfl, by decide, by simp⟩⟩

/-- C54 violated: a null pointer for the data to encrypt is dereferenced, in every session with an open file. -/
theorem C54_null_dies (mode : Byte) (s0 : Session) (h0 : Api.new mode = .ok s0) (fs : FS) (evs : List Event)
    (hb : BuiltArgs evs) (rs : List (Option Ret)) (w : World) (h : Api.run hs rest ⟨s0, fs⟩ evs = .ok (rs, w))
    (hst : w.api.state = .DECRYPTED) (e : Env) :
    Api.call hs rest e w (.encryptData none) = .fatal .ub ∧
    Api.call hs rest e w (.encryptData (some ⟨some 1, none⟩)) = .fatal .ub := by
  obtain ⟨hi, -, -⟩ := history_key h0 hb h
  simp only [Api.call, hst]
  refine ⟨rfl, ?_⟩
  generalize w.api = s at *
  cases hi <;> simp at hst
  rfl

example : BuiltArgs (sampleSave ++ sampleOpen) ∧ runIs (sampleSave ++ sampleOpen) (fun _ w => w.api.state == .DECRYPTED) = true :=
  ⟨built_save, by decide +kernel⟩

/-- C54 violated: deleting the selected file when the system refuses it terminates the process. -/
theorem C54_delete_dies (e : Env) (w : World) (hst : w.api.state = .FILE_SELECTED ∨ w.api.state = .EMPTY_FILE_SELECTED)
    (f : FileHandler) (hf : w.api.selected = some f) (hm : w.fs f.path ≠ .missing) (hr : e.canRemove f.path = false) :
    Api.call hs rest e w .deleteFile = .fatal .terminate := by
  have key : deleteSelected e w = .fatal .terminate := by
    unfold deleteSelected FS.remove
    simp only [hf, deref, Res.bind_ok]
    cases hx : w.fs f.path <;> simp_all [Res.noexcept]
  rcases hst with h | h <;> simp only [Api.call, h, key] <;> rfl

example : runIs (sampleSave.take 2) (fun _ w => w.api.state == .EMPTY_FILE_SELECTED &&
    w.api.selected == some ⟨samplePath, 0, 0, true⟩ && w.fs samplePath == .file []) = true := by decide +kernel

/-- C54 violated: a path whose status cannot be determined terminates the process. -/
theorem C54_unreachable_dies (e : Env) (w : World) (p : Path) (hp : EncPath p) (hu : w.fs p = .unreachable) :
    (w.api.state = .INIT → Api.call hs rest e w (.selectFile p) = .fatal .terminate ∧
      Api.call hs rest e w (.createFile p) = .fatal .terminate) ∧
    (w.api.state = .ENCRYPTED → Api.call hs rest e w (.writeToFileAt p) = .fatal .terminate) := by
  have h1 := C63_unreachable e w.fs p hp hu true
  have h2 := C63_unreachable e w.fs p hp hu false
  have h3 : getFileHandler e w.fs p 0 = .fatal .terminate := by simp only [getFileHandler, h1]; rfl
  refine ⟨fun h => ⟨?_, ?_⟩, fun h => ?_⟩
  · simp only [Api.call, h, selectFile, h3]; rfl
  · simp only [Api.call, h, FileHandler.createFile, h2]; rfl
  · simp only [Api.call, h, writeToPath, h3]; rfl

example : EncPath (ascii "locked/a.enc") ∧ (freshWorld fun _ => .unreachable).fs (ascii "locked/a.enc") = .unreachable ∧
    (freshWorld fun _ => .unreachable).api.state = .INIT :=
  ⟨⟨ascii "locked/", ascii "a", by decide, by decide, by decide, .inr ⟨ascii "locked", by decide⟩⟩, rfl, rfl⟩

/-- C54 violated: changing the salt with a failing random source terminates the process. -/
theorem C54_salt_dies (mode : Byte) (s0 : Session) (h0 : Api.new mode = .ok s0) (fs : FS) (evs : List Event)
    (hb : BuiltArgs evs) (rs : List (Option Ret)) (w : World) (h : Api.run hs rest ⟨s0, fs⟩ evs = .ok (rs, w))
    (hst : w.api.state = .DECRYPTED) (e : Env) (hr : (e.rand 0).good = false) :
    Api.call hs rest e w .changeSalt = .fatal .terminate := by
  obtain ⟨hi, -, -⟩ := history_key h0 hb h
  simp only [Api.call, hst]
  generalize w.api = s at *
  cases hi <;> simp at hst
  rename_i fd k d f hd _ _ _
  obtain ⟨m, hm, hms⟩ := hd.inv.hm
  obtain ⟨salt, hs1, hs2⟩ := hd.inv.salt
  have : (Bytes.empty salt.len).fillrandom (e.rand 0) = .fatal .terminate := by
    simp only [Bytes.fillrandom, Bytes.randomBytes, hr, or_true, if_true]
    rfl
  simp only [changeSalt, deref, Res.bind_ok, DataHeader.getDataHeaderParts, hd.complete, Bool.not_true, Bool.false_eq_true,
      if_false, hs1, DataHeaderParts.get, this]
  rfl

/-- does the history kill the process in this way? -/
def runDies (fs : FS) (evs : List Event) (f : Fatal) : Bool :=
  match Api.run toyHashes noRest (freshWorld fs) evs with
  | .fatal g => g == f
  | _ => false

/-- C54 is violated: histories of new sessions that kill the process. -/
theorem C54_violated :
    -- a file made by somebody else is selected, or its directory is listed
    runDies (oneFile samplePath zeroVault) [.call (.selectFile samplePath) openEnv] .terminate = true ∧
    runDies (oneFile samplePath chainVault) [.call (.selectFile samplePath) openEnv] .abort = true ∧
    runDies (oneFile samplePath sizeVault) [.call (.selectFile samplePath) openEnv] .abort = true ∧
    runDies (fun p => if p = ascii "v" then .dir else if p = ascii "v/a.enc" then .file zeroVault else .missing)
      [.call (.getRelevantFileNames (ascii "v")) { openEnv with list := fun _ => [ascii "a.enc"] }] .terminate = true ∧
    -- a file is listed as if it were a directory
    runDies (oneFile samplePath []) [.call (.getRelevantFileNames samplePath) openEnv] .terminate = true ∧
    -- a directory that may not be listed
    runDies (fun _ => .dir) [.call (.getRelevantFileNames (ascii "v")) { openEnv with canList := fun _ => false }] .terminate = true ∧
    -- null pointers
    runDies (fun _ => .missing) (sampleSave.take 3 ++ [.call (.encryptData none) openEnv]) .ub = true ∧
    runDies (fun _ => .missing) (sampleSave.take 3 ++ [.call (.encryptData (some ⟨some 1, none⟩)) openEnv]) .ub = true ∧
    -- the random source fails
    runDies (fun _ => .missing) (sampleSave.take 3 ++ [.call .changeSalt { openEnv with rand := fun _ => ⟨false, fun _ => 0⟩ }])
      .terminate = true ∧
    -- a file that cannot be removed
    runDies (fun _ => .missing) (sampleSave.take 2 ++ [.call .deleteFile { openEnv with canRemove := fun _ => false }])
      .terminate = true ∧
    -- a header made by run time
    runDies (fun _ => .missing) (sampleSave.take 2 ++ [.call (.createDataHeaderTime samplePw
      { fileMode := some 1, hashMode := some 1, ch1Mode := some 1, ch2Mode := some 1, ch1Time := some 5, ch2Time := some 5 })
      openEnv]) .terminate = true ∧
    -- a data block without content is written and read again
    runDies (fun _ => .missing) ([.call (.createFile samplePath) openEnv, .call (.selectFile samplePath) openEnv,
      .call (.createDataHeader samplePw { sampleSettings with dec := [DataBlock.default] } 0) openEnv,
      .call (.encryptData (some ⟨some 1, some (Bytes.full (ascii "hello"))⟩)) openEnv, .call .writeToFile openEnv,
      .call .logout openEnv, .call (.selectFile samplePath) openEnv]) .terminate = true := by
  decide +kernel

end Verif.Props
