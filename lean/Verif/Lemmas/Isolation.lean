import Verif.Spec.Isolation
import Verif.Lemmas.Session

/- What a call does depends only on the paths it names and on the selected file. -/
namespace Verif
open Spec

/-- the disk `a` on the paths in `P`, and `b` elsewhere -/
def over (P : Path → Bool) (a b : FS) : FS := fun p => if P p then a p else b p

/-- lay `b` over the disk of a result -/
def relay {α : Type} (P : Path → Bool) (b : FS) (x : Res (α × FS)) : Res (α × FS) := do
  let (r, fs) ← x
  .ok (r, over P fs b)

/-- lay `b` over the disk of a world -/
def World.over (P : Path → Bool) (b : FS) (w : World) : World := ⟨w.api, Verif.over P w.fs b⟩

def relayW {α : Type} (P : Path → Bool) (b : FS) (x : Res (α × World)) : Res (α × World) := do
  let (r, w) ← x
  .ok (r, w.over P b)

section
variable {P : Path → Bool} {a b : FS} {p : Path} {e : Env} {hs : Hashes}

theorem over_in (hp : P p = true) : over P a b p = a p := by simp [over, hp]

theorem over_out (hp : P p = false) : over P a b p = b p := by simp [over, hp]

theorem over_set (hp : P p = true) (n : Node) : (over P a b).set p n = over P (a.set p n) b := by
  funext q
  by_cases h : q = p
  · subst h; simp [FS.set, over, hp]
  · simp [FS.set, over, h]

theorem over_set_out (hp : P p = false) (n : Node) : (over P a b).set p n = over P a (b.set p n) := by
  funext q
  by_cases h : q = p
  · subst h; simp [FS.set, over, hp]
  · simp [FS.set, over, h]

theorem over_self (fs : FS) : over P fs fs = fs := by funext q; simp [over]

@[simp] theorem relay_ok {α : Type} (r : α) (fs : FS) : relay P b (.ok (r, fs)) = .ok (r, over P fs b) := rfl
@[simp] theorem relay_exn {α : Type} (x : Exn) : relay P b (.exn x : Res (α × FS)) = .exn x := rfl
@[simp] theorem relay_fatal {α : Type} (x : Fatal) : relay P b (.fatal x : Res (α × FS)) = .fatal x := rfl
@[simp] theorem relayW_ok {α : Type} (r : α) (w : World) : relayW P b (.ok (r, w)) = .ok (r, w.over P b) := rfl
@[simp] theorem relayW_exn {α : Type} (x : Exn) : relayW P b (.exn x : Res (α × World)) = .exn x := rfl
@[simp] theorem relayW_fatal {α : Type} (x : Fatal) : relayW P b (.fatal x : Res (α × World)) = .fatal x := rfl

theorem relay_noexcept {α : Type} (x : Res (α × FS)) : relay P b x.noexcept = (relay P b x).noexcept := by
  cases x <;> rfl

theorem relayW_noexcept {α : Type} (x : Res (α × World)) : relayW P b x.noexcept = (relayW P b x).noexcept := by
  cases x <;> rfl

theorem existsAt_over (hp : P p = true) : (over P a b).existsAt p = a.existsAt p := by
  simp only [FS.existsAt, over_in hp]

theorem opens_over (hp : P p = true) : (over P a b).opens e p = a.opens e p := by
  simp only [FS.opens, over_in hp]

theorem openIn_over (hp : P p = true) (i : Nat) : (over P a b).openIn e p i = a.openIn e p i := by
  simp only [FS.openIn, over_in hp]

theorem measure_over (hp : P p = true) : FileHandler.measure e (over P a b) p = FileHandler.measure e a p := by
  simp only [FileHandler.measure, over_in hp]

theorem openOut_over (hp : P p = true) : (over P a b).openOut e p = (a.openOut e p).map (over P · b) := by
  simp only [FS.openOut, over_in hp, over_set hp]
  cases a p with
  | missing => cases e.canCreate p <;> rfl
  | file c => cases e.canWrite p <;> rfl
  | _ => rfl

theorem remove_over (hp : P p = true) : (over P a b).remove e p = relay P b (a.remove e p) := by
  simp only [FS.remove, over_in hp, over_set hp]
  cases a p with
  | missing => rfl
  | unreachable => rfl
  | _ => cases e.canRemove p <;> rfl

theorem isValidPath_over (hp : P p = true) (x : Bool) :
    FileHandler.isValidPath e (over P a b) p x = FileHandler.isValidPath e a p x := by
  simp only [FileHandler.isValidPath, existsAt_over hp, opens_over hp]

theorem createFile_over (hp : P p = true) :
    FileHandler.createFile e (over P a b) p = relay P b (FileHandler.createFile e a p) := by
  simp only [FileHandler.createFile, relay_noexcept, isValidPath_over hp, openOut_over hp]
  congr 1
  cases FileHandler.isValidPath e a p false with
  | ok o =>
    cases o with
    | success u => cases a.openOut e p <;> rfl
    | _ => rfl
  | _ => rfl

theorem new_over (hp : P p = true) (i : Nat) : FileHandler.new e (over P a b) p i = FileHandler.new e a p i := by
  simp only [FileHandler.new, FileHandler.update, isValidPath_over hp, measure_over hp, openIn_over hp]

theorem getDataHeader_over (f : FileHandler) (hp : P f.path = true) (i : Nat) (r : Rand) :
    f.getDataHeader hs e (over P a b) i r = f.getDataHeader hs e a i r := by
  simp only [FileHandler.getDataHeader, openIn_over hp]

theorem isDataHeader_over (f : FileHandler) (hp : P f.path = true) (m : Byte) (i : Nat) (r : Rand) :
    f.isDataHeader hs e (over P a b) m i r = f.isDataHeader hs e a m i r := by
  simp only [FileHandler.isDataHeader, getDataHeader_over f hp]

theorem getDataStream_over (f : FileHandler) (hp : P f.path = true) (i : Nat) :
    f.getDataStream e (over P a b) i = f.getDataStream e a i := by
  simp only [FileHandler.getDataStream, openIn_over hp]

theorem getAllBytes_over (f : FileHandler) (hp : P f.path = true) (i : Nat) :
    f.getAllBytes e (over P a b) i = f.getAllBytes e a i := by
  simp only [FileHandler.getAllBytes, opens_over hp, openIn_over hp, measure_over hp]

/-- a triple with a disk at the end -/
def relay3 {α β : Type} (P : Path → Bool) (b : FS) (x : Res (α × β × FS)) : Res (α × β × FS) := do
  let (r, f, fs) ← x
  .ok (r, f, over P fs b)

theorem relay3_noexcept {α β : Type} (x : Res (α × β × FS)) : relay3 P b x.noexcept = (relay3 P b x).noexcept := by
  cases x <;> rfl

theorem getWriteStream_over (f : FileHandler) (hp : P f.path = true) :
    f.getWriteStream e (over P a b) = relay3 P b (f.getWriteStream e a) := by
  simp only [FileHandler.getWriteStream, relay3_noexcept, isValidPath_over hp, openOut_over hp]
  congr 1
  cases FileHandler.isValidPath e a f.path true with
  | ok o =>
    cases o with
    | success u => cases a.openOut e f.path <;> rfl
    | _ => rfl
  | _ => rfl

theorem getWriteStreamIfEmpty_over (f : FileHandler) (hp : P f.path = true) :
    f.getWriteStreamIfEmpty e (over P a b) = relay3 P b (f.getWriteStreamIfEmpty e a) := by
  simp only [FileHandler.getWriteStreamIfEmpty, relay3_noexcept]
  congr 1
  cases f.isEmpty
  · rfl
  · simp only [if_true, getWriteStream_over f hp]

namespace Api

theorem getFileHandler_over (hp : P p = true) (i : Nat) : getFileHandler e (over P a b) p i = getFileHandler e a p i := by
  simp only [getFileHandler, isValidPath_over hp, new_over hp]

/-- a file handler keeps the path it was made for -/
theorem getFileHandler_path {fs : FS} {i : Nat} {f : FileHandler} (h : getFileHandler e fs p i = .ok (.success f)) : f.path = p := by
  simp only [getFileHandler] at h
  rw [Res.noexcept_eq_ok] at h
  obtain ⟨o, -, h⟩ := Res.bind_eq_ok.mp h
  cases o with
  | success u =>
    simp only [] at h
    obtain ⟨x, h1, h2⟩ := Res.bind_eq_ok.mp h
    cases x with
    | none => cases h2
    | some g =>
      cases h2
      cases hn : FileHandler.new e fs p i with
      | ok g' =>
        rw [hn] at h1
        cases h1
        simp only [FileHandler.new] at hn
        obtain ⟨o, -, hn⟩ := Res.bind_eq_ok.mp hn
        cases o with
        | success u =>
          simp only [FileHandler.update] at hn
          obtain ⟨n, -, hn⟩ := Res.bind_eq_ok.mp hn
          split at hn
          · cases hn
          · split at hn
            · cases hn
            · cases hn; rfl
        | _ => cases hn
      | exn x => rw [hn] at h1; cases x <;> cases h1
      | fatal x => rw [hn] at h1; cases h1
  | _ => cases h

theorem pick_over {dir : Path} (hp : ∀ n, P (Path.join dir n) = true) (l : List (List Byte)) :
    getAllEncFileNames.pick (over P a b) dir l = getAllEncFileNames.pick a dir l := by
  induction l with
  | nil => rfl
  | cons n ns ih => simp only [getAllEncFileNames.pick, over_in (hp n), ih]

theorem getAllEncFileNames_over {dir : Path} (hd : P dir = true) (hp : ∀ n, P (Path.join dir n) = true) :
    getAllEncFileNames e (over P a b) dir = getAllEncFileNames e a dir := by
  simp only [getAllEncFileNames, existsAt_over hd, over_in hd, pick_over hp]

theorem scan_over {mode : Byte} {dir : Path} (hp : ∀ n, P (Path.join dir n) = true) (l : List (List Byte)) :
    ∀ i ret, getRelevantFileNames.scan hs e (over P a b) mode dir l i ret = getRelevantFileNames.scan hs e a mode dir l i ret := by
  induction l with
  | nil => intro i ret; rfl
  | cons n ns ih =>
    intro i ret
    simp only [getRelevantFileNames.scan, getFileHandler_over (hp n), ih]
    cases hf : getFileHandler e a (Path.join dir n) (2 * i) with
    | ok o =>
      cases o with
      | success f =>
        have hpath : P f.path = true := by rw [getFileHandler_path hf]; exact hp n
        simp only [Res.bind_ok, isDataHeader_over f hpath]
      | _ => rfl
    | _ => rfl

theorem getRelevantFileNames_over {mode : Byte} {dir : Path} (hd : P dir = true) (hp : ∀ n, P (Path.join dir n) = true) :
    getRelevantFileNames hs e (over P a b) mode dir = getRelevantFileNames hs e a mode dir := by
  simp only [getRelevantFileNames, getAllEncFileNames_over hd hp, scan_over hp]

theorem selectFile_over {s : Session} (hp : P p = true) :
    selectFile hs e ⟨s, over P a b⟩ p = relayW P b (selectFile hs e ⟨s, a⟩ p) := by
  simp only [selectFile, relayW_noexcept, getFileHandler_over hp]
  congr 1
  cases hf : getFileHandler e a p 0 with
  | ok o =>
    cases o with
    | success f =>
      have hpath : P f.path = true := by rw [getFileHandler_path hf]; exact hp
      simp only [Res.bind_ok]
      cases f.isEmpty
      · simp only [selectNonEmptyFile, getDataHeader_over f hpath, Bool.false_eq_true, if_false]
        cases f.getDataHeader hs e a 1 (e.rand 0) with
        | ok o => cases o <;> rfl
        | _ => rfl
      · rfl
    | _ => rfl
  | _ => rfl

theorem getFileContent_over {s : Session} (h : SelectedIn P s) : getFileContent e ⟨s, over P a b⟩ = getFileContent e ⟨s, a⟩ := by
  simp only [getFileContent]
  cases hf : s.selected with
  | none => rfl
  | some f => simp only [deref, Res.bind_ok, getAllBytes_over f (h f hf)]

theorem deleteSelected_over {s : Session} (h : SelectedIn P s) :
    deleteSelected e ⟨s, over P a b⟩ = relayW P b (deleteSelected e ⟨s, a⟩) := by
  simp only [deleteSelected, relayW_noexcept]
  congr 1
  cases hf : s.selected with
  | none => rfl
  | some f =>
    simp only [deref, Res.bind_ok, remove_over (h f hf)]
    cases a.remove e f.path with
    | ok x => obtain ⟨x, fs⟩ := x; cases x <;> rfl
    | _ => rfl

theorem getDecryptedData_over {s : Session} (h : SelectedIn P s) :
    getDecryptedData hs e ⟨s, over P a b⟩ = relayW P b (getDecryptedData hs e ⟨s, a⟩) := by
  have ht : decryptTry hs e ⟨s, over P a b⟩ = decryptTry hs e ⟨s, a⟩ := by
    simp only [decryptTry]
    cases hf : s.selected with
    | none => rfl
    | some f => simp only [deref, Res.bind_ok, getDataStream_over f (h f hf)]
  simp only [getDecryptedData, relayW_noexcept, ht]
  congr 1
  cases (decryptTry hs e ⟨s, a⟩).attempt with
  | ok o => cases o <;> rfl
  | _ => rfl

theorem finishWrite_over {s : Session} (hp : P p = true) : finishWrite e s (over P a b) p = relayW P b (finishWrite e s a p) := by
  simp only [finishWrite, over_set hp]
  cases fullData s <;> rfl

theorem writeStream_path {fs fs' : FS} {f f' : FileHandler} {o : Out Unit} (h : f.getWriteStream e fs = .ok (o, f', fs')) :
    f'.path = f.path := by
  simp only [FileHandler.getWriteStream] at h
  rw [Res.noexcept_eq_ok] at h
  obtain ⟨x, -, h⟩ := Res.bind_eq_ok.mp h
  cases x with
  | success u => cases hx : fs.openOut e f.path <;> simp only [hx] at h <;> cases h <;> rfl
  | _ => cases h; rfl

theorem writeToPath_over {s : Session} (hp : P p = true) :
    writeToPath e ⟨s, over P a b⟩ p = relayW P b (writeToPath e ⟨s, a⟩ p) := by
  simp only [writeToPath, relayW_noexcept, getFileHandler_over hp]
  congr 1
  cases hf : getFileHandler e a p 0 with
  | ok o =>
    cases o with
    | success f =>
      have hpath : P f.path = true := by rw [getFileHandler_path hf]; exact hp
      simp only [Res.bind_ok, getWriteStreamIfEmpty_over f hpath]
      cases hw : f.getWriteStreamIfEmpty e a with
      | ok x =>
        obtain ⟨o, f', fs⟩ := x
        cases o with
        | success u =>
          have hpath' : P f'.path = true := by
            simp only [FileHandler.getWriteStreamIfEmpty] at hw
            rw [Res.noexcept_eq_ok] at hw
            split at hw
            · rw [writeStream_path hw]; exact hpath
            · cases hw
          simp only [relay3, Res.bind_ok, finishWrite_over hpath']
        | _ => rfl
      | _ => rfl
    | _ => rfl
  | _ => rfl

theorem writeToSelected_over {s : Session} (h : SelectedIn P s) :
    writeToSelected e ⟨s, over P a b⟩ = relayW P b (writeToSelected e ⟨s, a⟩) := by
  simp only [writeToSelected, relayW_noexcept]
  congr 1
  cases hf : s.selected with
  | none => rfl
  | some f =>
    have hpath := h f hf
    simp only [deref, Res.bind_ok, getWriteStream_over f hpath]
    cases hw : f.getWriteStream e a with
    | ok x =>
      obtain ⟨o, f', fs⟩ := x
      cases o with
      | success u =>
        have hpath' : P f'.path = true := by rw [writeStream_path hw]; exact hpath
        simp only [relay3, Res.bind_ok, finishWrite_over hpath']
      | _ => rfl
    | _ => rfl

variable {rest : Helper → Res Helper}

/-- a call depends on the disk and changes it only at the paths it names and at the selected file -/
theorem call_over {s : Session} {c : Call} (h : SelectedIn P s) (hc : ∀ q, Mentions c q → P q = true) :
    call hs rest e ⟨s, over P a b⟩ c = relayW P b (call hs rest e ⟨s, a⟩ c) := by
  cases c with
  | getRelevantFileNames dir =>
    have hd : P dir = true := hc dir (.inl rfl)
    have hp : ∀ n, P (Path.join dir n) = true := by
      intro n
      refine hc _ (.inr ⟨n, ?_⟩)
      unfold Path.join
      split
      · exact .inl rfl
      · exact .inr rfl
    simp only [call]
    cases s.state <;> try rfl
    simp only [getRelevantFileNames_over hd hp]
    cases getRelevantFileNames hs e a s.fileMode dir <;> rfl
  | createFile p =>
    have hp : P p = true := hc p rfl
    simp only [call]
    cases s.state <;> try rfl
    simp only [createFile_over hp]
    cases FileHandler.createFile e a p with
    | ok x => rfl
    | _ => rfl
  | selectFile p =>
    have hp : P p = true := hc p rfl
    simp only [call]
    cases s.state <;> try rfl
    simp only [selectFile_over hp]
    cases selectFile hs e ⟨s, a⟩ p <;> rfl
  | writeToFileAt p =>
    have hp : P p = true := hc p rfl
    simp only [call]
    cases s.state <;> try rfl
    simp only [writeToPath_over hp]
    cases writeToPath e ⟨s, a⟩ p <;> rfl
  | deleteFile =>
    simp only [call]
    cases s.state <;> (try rfl) <;> simp only [deleteSelected_over h] <;> cases deleteSelected e ⟨s, a⟩ <;> rfl
  | getFileContent =>
    simp only [call]
    cases s.state <;> (try rfl) <;> simp only [getFileContent_over h] <;> cases getFileContent e ⟨s, a⟩ <;> rfl
  | getDecryptedData =>
    simp only [call]
    cases s.state <;> (try rfl) <;> simp only [getDecryptedData_over h] <;> cases getDecryptedData hs e ⟨s, a⟩ <;> rfl
  | writeToFile =>
    simp only [call]
    cases s.state <;> (try rfl) <;> simp only [writeToSelected_over h] <;> cases writeToSelected e ⟨s, a⟩ <;> rfl
  | isFileEmpty => simp only [call]; cases s.state <;> rfl
  | unselectFile => simp only [call]; cases s.state <;> rfl
  | verifyPassword pw t =>
    simp only [call]; cases s.state <;> (try rfl) <;> simp only [] <;> cases verifyPassword hs e s pw t <;> rfl
  | createDataHeader pw ds t =>
    simp only [call]
    cases ds.isComplete
    · rfl
    · cases s.state <;> (try rfl) <;> simp only [] <;> cases createDataHeaderIters hs s.fileMode pw ds t e <;> (try rfl) <;>
        simp only [Res.bind_ok]
      · rename_i x; cases headerForEmpty s x <;> rfl
      · rename_i x; cases headerForOpen s x <;> rfl
  | createDataHeaderTime pw ds =>
    simp only [call]
    cases ds.isComplete
    · rfl
    · cases s.state <;> (try rfl) <;> simp only [] <;> cases createDataHeaderTime rest ds <;> (try rfl) <;>
        simp only [Res.bind_ok]
      · rename_i x; cases headerForEmpty s x <;> rfl
      · rename_i x; cases headerForOpen s x <;> rfl
  | changeSalt => simp only [call]; cases s.state <;> (try rfl) <;> simp only [] <;> cases changeSalt e s <;> rfl
  | getFileData => simp only [call]; cases s.state <;> rfl
  | encryptData fd => simp only [call]; cases s.state <;> (try rfl) <;> simp only [] <;> cases encryptData hs e s fd <;> rfl
  | logout => rfl
  | logoutMode m => rfl

theorem headerForEmpty_selected {s s' : Session} {x : Helper} {o : Out Bool} (h : headerForEmpty s x = .ok (o, s')) :
    s'.selected = s.selected := by
  simp only [headerForEmpty, Res.noexcept_eq_ok] at h
  split at h
  · obtain ⟨_, -, h⟩ := Res.bind_eq_ok.mp h; cases h; rfl
  · cases h; rfl

theorem headerForOpen_selected {s s' : Session} {x : Helper} {o : Out Bool} (h : headerForOpen s x = .ok (o, s')) :
    s'.selected = s.selected := by
  simp only [headerForOpen] at h
  split at h <;> cases h <;> rfl

/-- the selected file stays the same, is one named in the call, or there is none -/
theorem call_selected {w w' : World} {c : Call} {r : Ret} (h : call hs rest e w c = .ok (r, w')) :
    ∀ f', w'.api.selected = some f' → (∃ f, w.api.selected = some f ∧ f'.path = f.path) ∨ Mentions c f'.path := by
  have same : w'.api.selected = w.api.selected → ∀ f', w'.api.selected = some f' →
      (∃ f, w.api.selected = some f ∧ f'.path = f.path) ∨ Mentions c f'.path :=
    fun hs' f' hf => .inl ⟨f', by rw [← hs']; exact hf, rfl⟩
  have none : w'.api.selected = none → ∀ f', w'.api.selected = some f' →
      (∃ f, w.api.selected = some f ∧ f'.path = f.path) ∨ Mentions c f'.path := by
    intro hs' f' hf; rw [hs'] at hf; cases hf
  cases c with
  | getRelevantFileNames dir =>
    simp only [call] at h
    split at h
    · obtain ⟨x, -, h⟩ := Res.bind_eq_ok.mp h; cases h; exact same rfl
    · cases h; exact same rfl
  | createFile p =>
    simp only [call] at h
    split at h
    · obtain ⟨x, -, h⟩ := Res.bind_eq_ok.mp h; cases h; exact same rfl
    · cases h; exact same rfl
  | selectFile p =>
    simp only [call] at h
    split at h
    · obtain ⟨⟨o, w1⟩, h1, h⟩ := Res.bind_eq_ok.mp h
      cases h
      simp only [selectFile, Res.noexcept_eq_ok] at h1
      obtain ⟨x, hx, h1⟩ := Res.bind_eq_ok.mp h1
      cases x with
      | success f =>
        have hpath := getFileHandler_path hx
        simp only [] at h1
        split at h1
        · cases h1
          intro f' hf
          cases hf
          exact .inr hpath
        · obtain ⟨⟨o', s'⟩, h2, h1⟩ := Res.bind_eq_ok.mp h1
          cases h1
          simp only [selectNonEmptyFile, Res.noexcept_eq_ok] at h2
          obtain ⟨y, -, h2⟩ := Res.bind_eq_ok.mp h2
          cases y with
          | success d =>
            cases h2
            intro f' hf
            cases hf
            exact .inr hpath
          | _ => cases h2; exact same rfl
      | _ => cases h1; exact same rfl
    · cases h; exact same rfl
  | writeToFileAt p =>
    simp only [call] at h
    split at h
    · obtain ⟨⟨o, w1⟩, h1, h⟩ := Res.bind_eq_ok.mp h
      cases h
      simp only [writeToPath, Res.noexcept_eq_ok] at h1
      obtain ⟨x, hx, h1⟩ := Res.bind_eq_ok.mp h1
      cases x with
      | success f =>
        obtain ⟨⟨o', f', fs'⟩, -, h1⟩ := Res.bind_eq_ok.mp h1
        cases o' with
        | success u =>
          simp only [finishWrite] at h1
          obtain ⟨y, -, h1⟩ := Res.bind_eq_ok.mp h1
          cases h1; exact same rfl
        | _ => cases h1; exact same rfl
      | _ => cases h1; exact same rfl
    · cases h; exact same rfl
  | deleteFile =>
    have key : ∀ {o w1}, deleteSelected e w = .ok (o, w1) → w1.api.selected = w.api.selected ∨ w1.api.selected = .none := by
      intro o w1 h1
      simp only [deleteSelected, Res.noexcept_eq_ok] at h1
      obtain ⟨f, -, h1⟩ := Res.bind_eq_ok.mp h1
      obtain ⟨⟨ok, fs⟩, -, h1⟩ := Res.bind_eq_ok.mp h1
      cases ok <;> cases h1
      · exact .inl rfl
      · exact .inr rfl
    simp only [call] at h
    split at h
    · obtain ⟨⟨o, w1⟩, h1, h⟩ := Res.bind_eq_ok.mp h
      cases h
      exact (key h1).elim same none
    · obtain ⟨⟨o, w1⟩, h1, h⟩ := Res.bind_eq_ok.mp h
      cases h
      exact (key h1).elim same none
    · cases h; exact same rfl
  | getFileContent =>
    simp only [call] at h
    split at h
    · obtain ⟨x, -, h⟩ := Res.bind_eq_ok.mp h; cases h; exact same rfl
    · cases h; exact same rfl
    · cases h; exact same rfl
  | getDecryptedData =>
    simp only [call] at h
    split at h
    · obtain ⟨⟨o, w1⟩, h1, h⟩ := Res.bind_eq_ok.mp h
      cases h
      simp only [getDecryptedData, Res.noexcept_eq_ok] at h1
      obtain ⟨x, hx, h1⟩ := Res.bind_eq_ok.mp h1
      cases x with
      | none => cases h1; exact same rfl
      | some y =>
        cases h1
        cases ht : decryptTry hs e w with
        | ok z =>
          rw [ht] at hx
          cases hx
          simp only [decryptTry] at ht
          obtain ⟨_, -, ht⟩ := Res.bind_eq_ok.mp ht
          obtain ⟨_, -, ht⟩ := Res.bind_eq_ok.mp ht
          obtain ⟨_, -, ht⟩ := Res.bind_eq_ok.mp ht
          obtain ⟨_, -, ht⟩ := Res.bind_eq_ok.mp ht
          obtain ⟨_, -, ht⟩ := Res.bind_eq_ok.mp ht
          obtain ⟨_, -, ht⟩ := Res.bind_eq_ok.mp ht
          obtain ⟨_, -, ht⟩ := Res.bind_eq_ok.mp ht
          obtain ⟨_, -, ht⟩ := Res.bind_eq_ok.mp ht
          obtain ⟨_, -, ht⟩ := Res.bind_eq_ok.mp ht
          cases ht
          exact same rfl
        | exn x => rw [ht] at hx; cases x <;> cases hx
        | fatal x => rw [ht] at hx; cases hx
    · cases h; exact same rfl
  | writeToFile =>
    simp only [call] at h
    split at h
    · obtain ⟨⟨o, w1⟩, h1, h⟩ := Res.bind_eq_ok.mp h
      cases h
      simp only [writeToSelected, Res.noexcept_eq_ok] at h1
      obtain ⟨f, hf, h1⟩ := Res.bind_eq_ok.mp h1
      have hsel : w.api.selected = some f := by
        cases hx : w.api.selected with
        | none => rw [hx] at hf; cases hf
        | some g => rw [hx] at hf; cases hf; rfl
      obtain ⟨⟨o', f', fs'⟩, hw, h1⟩ := Res.bind_eq_ok.mp h1
      have hpath := writeStream_path hw
      cases o' with
      | success u =>
        simp only [finishWrite] at h1
        obtain ⟨y, -, h1⟩ := Res.bind_eq_ok.mp h1
        cases h1
        intro g hg
        cases hg
        exact .inl ⟨f, hsel, hpath⟩
      | fail x =>
        cases h1
        intro g hg
        cases hg
        exact .inl ⟨f, hsel, hpath⟩
      | timeout =>
        cases h1
        intro g hg
        cases hg
        exact .inl ⟨f, hsel, hpath⟩
    · cases h; exact same rfl
  | isFileEmpty => simp only [call] at h; split at h <;> cases h <;> exact same rfl
  | unselectFile =>
    simp only [call] at h
    split at h <;> cases h
    · exact none rfl
    · exact none rfl
    · exact same rfl
  | verifyPassword pw t =>
    simp only [call] at h
    split at h
    · obtain ⟨⟨o, s1⟩, h1, h⟩ := Res.bind_eq_ok.mp h
      cases h
      simp only [verifyPassword, Res.noexcept_eq_ok] at h1
      obtain ⟨x, hx, h1⟩ := Res.bind_eq_ok.mp h1
      cases x with
      | none => cases h1; exact same rfl
      | some y =>
        cases h1
        cases ht : verifyTry hs e w.api pw t with
        | ok z =>
          rw [ht] at hx
          cases hx
          simp only [verifyTry] at ht
          obtain ⟨_, -, ht⟩ := Res.bind_eq_ok.mp ht
          obtain ⟨_, -, ht⟩ := Res.bind_eq_ok.mp ht
          obtain ⟨_, -, ht⟩ := Res.bind_eq_ok.mp ht
          obtain ⟨x1, -, ht⟩ := Res.bind_eq_ok.mp ht
          cases x1 with
          | success h1 =>
            simp only [] at ht
            split at ht
            · cases ht; exact same rfl
            · obtain ⟨x2, -, ht⟩ := Res.bind_eq_ok.mp ht
              cases x2 with
              | success v =>
                obtain ⟨_, -, ht⟩ := Res.bind_eq_ok.mp ht
                split at ht <;> cases ht <;> exact same rfl
              | _ => cases ht; exact same rfl
          | _ => cases ht; exact same rfl
        | exn x => rw [ht] at hx; cases x <;> cases hx
        | fatal x => rw [ht] at hx; cases hx
    · cases h; exact same rfl
  | createDataHeader pw ds t =>
    simp only [call] at h
    split at h
    · cases h; exact same rfl
    · split at h
      · obtain ⟨x, -, h⟩ := Res.bind_eq_ok.mp h
        obtain ⟨⟨o, s1⟩, h1, h⟩ := Res.bind_eq_ok.mp h
        cases h
        exact same (headerForEmpty_selected h1)
      · obtain ⟨x, -, h⟩ := Res.bind_eq_ok.mp h
        obtain ⟨⟨o, s1⟩, h1, h⟩ := Res.bind_eq_ok.mp h
        cases h
        exact same (headerForOpen_selected h1)
      · cases h; exact same rfl
  | createDataHeaderTime pw ds =>
    simp only [call] at h
    split at h
    · cases h; exact same rfl
    · split at h
      · obtain ⟨x, -, h⟩ := Res.bind_eq_ok.mp h
        obtain ⟨⟨o, s1⟩, h1, h⟩ := Res.bind_eq_ok.mp h
        cases h
        exact same (headerForEmpty_selected h1)
      · obtain ⟨x, -, h⟩ := Res.bind_eq_ok.mp h
        obtain ⟨⟨o, s1⟩, h1, h⟩ := Res.bind_eq_ok.mp h
        cases h
        exact same (headerForOpen_selected h1)
      · cases h; exact same rfl
  | changeSalt =>
    simp only [call] at h
    split at h
    · obtain ⟨⟨o, s1⟩, h1, h⟩ := Res.bind_eq_ok.mp h
      cases h
      simp only [changeSalt, Res.noexcept_eq_ok] at h1
      obtain ⟨_, -, h1⟩ := Res.bind_eq_ok.mp h1
      obtain ⟨_, -, h1⟩ := Res.bind_eq_ok.mp h1
      obtain ⟨_, -, h1⟩ := Res.bind_eq_ok.mp h1
      obtain ⟨_, -, h1⟩ := Res.bind_eq_ok.mp h1
      obtain ⟨_, -, h1⟩ := Res.bind_eq_ok.mp h1
      obtain ⟨x, -, h1⟩ := Res.bind_eq_ok.mp h1
      cases x <;> cases h1 <;> exact same rfl
    · cases h; exact same rfl
  | getFileData =>
    simp only [call] at h
    split at h
    · cases h
      refine same ?_
      simp only [getFileData]
      split <;> rfl
    · cases h; exact same rfl
  | encryptData fd =>
    simp only [call] at h
    split at h
    · obtain ⟨⟨o, s1⟩, h1, h⟩ := Res.bind_eq_ok.mp h
      cases h
      simp only [encryptData, Res.noexcept_eq_ok] at h1
      obtain ⟨_, -, h1⟩ := Res.bind_eq_ok.mp h1
      split at h1
      · cases h1; exact same rfl
      · obtain ⟨_, -, h1⟩ := Res.bind_eq_ok.mp h1
        split at h1
        · cases h1; exact same rfl
        · obtain ⟨_, -, h1⟩ := Res.bind_eq_ok.mp h1
          obtain ⟨_, -, h1⟩ := Res.bind_eq_ok.mp h1
          obtain ⟨x, -, h1⟩ := Res.bind_eq_ok.mp h1
          cases x <;> cases h1 <;> exact same rfl
    · cases h; exact same rfl
  | logout => cases h; exact none rfl
  | logoutMode m => cases h; exact none rfl

theorem call_selectedIn {w w' : World} {c : Call} {r : Ret} (h : call hs rest e w c = .ok (r, w')) (hsel : SelectedIn P w.api)
    (hc : ∀ q, Mentions c q → P q = true) : SelectedIn P w'.api := by
  intro f' hf'
  rcases call_selected h f' hf' with ⟨f, hf, hp⟩ | hn
  · rw [hp]; exact hsel f hf
  · exact hc _ hn

end Api
end
end Verif
