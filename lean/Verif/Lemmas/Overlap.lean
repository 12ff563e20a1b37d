import Verif.Spec.Overlap
import Verif.Lemmas.Isolation

/- Lemmas for C83: what a call does when nobody interrupts it, and the paths it goes to. -/
namespace Verif

namespace Prog

/-- what a call does when nobody interrupts it -/
def eval {α : Type} : Prog α → FS → Res α × FS
  | .done r, fs => (r, fs)
  | .act p f k, fs => (k (fs p)).eval (fs.alter p f)

/-- the same, without the disk after death -/
def solo {α : Type} (x : Prog α) (fs : FS) : Res (α × FS) := do
  let a ← (x.eval fs).1
  .ok (a, (x.eval fs).2)

variable {α β : Type} {fs : FS}

theorem eval_bind (x : Prog α) (g : α → Prog β) (fs : FS) : (x >>= g).eval fs = match x.eval fs with
    | (.ok a, fs') => (g a).eval fs'
    | (.exn x, fs') => (.exn x, fs')
    | (.fatal x, fs') => (.fatal x, fs') := by
  show (Prog.bind x g).eval fs = _
  induction x generalizing fs with
  | done r => cases r <;> rfl
  | act p f k ih => exact ih _ _

theorem eval_noexcept (x : Prog α) (fs : FS) : x.noexcept.eval fs = ((x.eval fs).1.noexcept, (x.eval fs).2) := by
  induction x generalizing fs with
  | done r => rfl
  | act p f k ih => exact ih _ _

theorem eval_attempt (x : Prog α) (fs : FS) : x.attempt.eval fs = ((x.eval fs).1.attempt, (x.eval fs).2) := by
  induction x generalizing fs with
  | done r => rfl
  | act p f k ih => exact ih _ _

theorem solo_bind (x : Prog α) (g : α → Prog β) (fs : FS) :
    (x >>= g).solo fs = (do let (a, fs') ← x.solo fs; (g a).solo fs') := by
  simp only [solo, eval_bind]
  rcases h : x.eval fs with ⟨r, fs'⟩
  cases r <;> rfl

theorem solo_noexcept (x : Prog α) (fs : FS) : x.noexcept.solo fs = (x.solo fs).noexcept := by
  simp only [solo, eval_noexcept]
  cases (x.eval fs).1 <;> rfl

/-- the call only looks at the disk -/
def Quiet (x : Prog α) (fs : FS) (r : Res α) : Prop := x.eval fs = (r, fs)

theorem solo_lift (r : Res α) (fs : FS) : (liftM r : Prog α).solo fs = (do let a ← r; .ok (a, fs)) := rfl

theorem solo_pure (a : α) (fs : FS) : (pure a : Prog α).solo fs = .ok (a, fs) := rfl

theorem Quiet.done (r : Res α) : Quiet (.done r) fs r := rfl
theorem Quiet.pure (a : α) : Quiet (Pure.pure a) fs (.ok a) := rfl
theorem Quiet.look (p : Path) : Quiet (look p) fs (.ok (fs p)) := rfl

theorem Quiet.bind {x : Prog α} {r : Res α} {g : α → Prog β} {h : α → Res β} (hx : Quiet x fs r)
    (hg : ∀ a, Quiet (g a) fs (h a)) : Quiet (x >>= g) fs (r >>= h) := by
  unfold Quiet at *
  rw [eval_bind, hx]
  cases r with
  | ok a => exact hg a
  | exn _ => rfl
  | fatal _ => rfl

theorem Quiet.noexcept {x : Prog α} {r : Res α} (hx : Quiet x fs r) : Quiet x.noexcept fs r.noexcept := by
  unfold Quiet at *
  rw [eval_noexcept, hx]

theorem Quiet.attempt {x : Prog α} {r : Res α} (hx : Quiet x fs r) : Quiet x.attempt fs r.attempt := by
  unfold Quiet at *
  rw [eval_attempt, hx]

theorem Quiet.ite {c : Prop} [Decidable c] {x y : Prog α} {r s : Res α} (hx : Quiet x fs r) (hy : Quiet y fs s) :
    Quiet (if c then x else y) fs (if c then r else s) := by
  split <;> assumption

theorem Quiet.solo {x : Prog α} {r : Res α} (hx : Quiet x fs r) : x.solo fs = (do let a ← r; .ok (a, fs)) := by
  simp only [Prog.solo, show x.eval fs = (r, fs) from hx]

end Prog

namespace Steps
open Prog

variable {hs : Hashes} {rest : Api.Helper → Res Api.Helper} {e : Env} {fs : FS}

theorem existsAt_quiet (p : Path) : Quiet (existsAt p) fs (fs.existsAt p) := .bind (.look p) (fun _ => .done _)

theorem isValidPath_quiet (p : Path) (b : Bool) : Quiet (isValidPath e p b) fs (FileHandler.isValidPath e fs p b) := by
  unfold isValidPath FileHandler.isValidPath
  refine .noexcept (.ite (.pure _) (.ite (.pure _) (.ite (.bind (existsAt_quiet p) fun a => .ite (.pure _) ?_)
    (.bind (existsAt_quiet p) fun a => .ite (.pure _) (.pure _)))))
  exact (Quiet.look p).bind fun n => .ite (.pure _) (.pure _)

theorem newHandler_quiet (p : Path) (i : Nat) : Quiet (newHandler e p i) fs (FileHandler.new e fs p i) := by
  unfold newHandler FileHandler.new
  refine .bind (isValidPath_quiet p true) fun o => ?_
  rcases o with ⟨⟩ | c | _
  · exact (Quiet.look p).bind fun n => .done _
  · exact .done _
  · exact .done _

theorem getFileHandler_quiet (p : Path) (i : Nat) : Quiet (getFileHandler e p i) fs (Api.getFileHandler e fs p i) := by
  unfold getFileHandler Api.getFileHandler
  refine .noexcept (.bind (isValidPath_quiet p true) fun o => ?_)
  rcases o with ⟨⟩ | c | _
  · refine .bind (newHandler_quiet p i).attempt fun o => ?_
    cases o
    · exact .pure _
    · exact .pure _
  · exact .pure _
  · exact .pure _

theorem getDataHeader_quiet (f : FileHandler) (i : Nat) (r : Rand) :
    Quiet (getDataHeader hs e f i r) fs (f.getDataHeader hs e fs i r) := (Quiet.look f.path).bind fun _ => .done _

theorem isDataHeader_quiet (f : FileHandler) (m : Byte) (i : Nat) (r : Rand) :
    Quiet (isDataHeader hs e f m i r) fs (f.isDataHeader hs e fs m i r) := (Quiet.look f.path).bind fun _ => .done _

theorem pick_quiet (dir : Path) : ∀ l, Quiet (pick dir l) fs (Api.getAllEncFileNames.pick fs dir l)
  | [] => .pure _
  | n :: ns => by
    unfold pick Api.getAllEncFileNames.pick
    refine (Quiet.look _).bind (h := fun x => match x with
      | .unreachable => .exn .runtimeError
      | .file _ => do
        let rest ← Api.getAllEncFileNames.pick fs dir ns
        .ok (if Path.extension (Path.join dir n) = FileHandler.ext then Path.filename (Path.join dir n) :: rest else rest)
      | _ => Api.getAllEncFileNames.pick fs dir ns) fun x => ?_
    cases x with
    | missing => exact pick_quiet dir ns
    | file c => exact (pick_quiet dir ns).bind fun _ => .pure _
    | dir => exact pick_quiet dir ns
    | unreachable => exact .done _

theorem getAllEncFileNames_quiet (dir : Path) : Quiet (getAllEncFileNames e dir) fs (Api.getAllEncFileNames e fs dir) := by
  unfold getAllEncFileNames Api.getAllEncFileNames
  refine .noexcept (.ite (.pure _) (.bind (existsAt_quiet dir) fun b => .ite (.pure _) ?_))
  exact (Quiet.look dir).bind (h := fun n => if n ≠ .dir ∨ e.canList dir = false then .exn .runtimeError else do
      let names ← Api.getAllEncFileNames.pick fs dir (e.list dir)
      Res.ok (Out.success names)) fun n => .ite (.done _) (.bind (pick_quiet dir _) fun _ => .pure _)

theorem scan_quiet (mode : Byte) (dir : Path) : ∀ l i ret,
    Quiet (scan hs e mode dir l i ret) fs (Api.getRelevantFileNames.scan hs e fs mode dir l i ret)
  | [], _, _ => .pure _
  | n :: ns, i, ret => by
    unfold scan Api.getRelevantFileNames.scan
    refine .bind (getFileHandler_quiet _ _) fun o => ?_
    rcases o with f | c | _
    · simp only []
      by_cases hf : f.isEmpty = true
      · simp only [hf, if_true]
        exact scan_quiet mode dir ns _ _
      · simp only [hf]
        refine .bind (isDataHeader_quiet f mode _ _) fun o => ?_
        rcases o with _ | _ | _ <;> exact scan_quiet mode dir ns _ _
    · exact scan_quiet mode dir ns _ _
    · exact scan_quiet mode dir ns _ _

theorem getRelevantFileNames_quiet (mode : Byte) (dir : Path) :
    Quiet (getRelevantFileNames hs e mode dir) fs (Api.getRelevantFileNames hs e fs mode dir) := by
  unfold getRelevantFileNames Api.getRelevantFileNames
  refine .noexcept (.bind (getAllEncFileNames_quiet dir) fun o => ?_)
  rcases o with l | c | _
  · exact .bind (scan_quiet mode dir l 0 []) fun _ => .pure _
  · exact .pure _
  · exact .pure _

theorem selectNonEmptyFile_quiet (s : Session) (f : FileHandler) :
    Quiet (selectNonEmptyFile hs e s f) fs (Api.selectNonEmptyFile hs e fs s f) := by
  unfold selectNonEmptyFile Api.selectNonEmptyFile
  refine .noexcept (.bind (getDataHeader_quiet f _ _) fun o => ?_)
  cases o <;> exact .pure _

theorem getFileContent_quiet (s : Session) : Quiet (getFileContent e s) fs (Api.getFileContent e ⟨s, fs⟩) := by
  unfold getFileContent Api.getFileContent
  refine .noexcept (.bind (.done _) fun f => (Quiet.look f.path).bind
    (h := fun n => do
      match ← Res.attempt (f.getAllBytes e (only n) 0) with
      | some b => Res.ok (Out.success b)
      | none => Res.ok (Out.fail .ERR_FILE_READ)) fun n => .bind (.done _) fun o => ?_)
  cases o <;> exact .pure _

/-! ### calls that change the disk -/

theorem openOut_solo (p : Path) : (openOut e p).solo fs = match fs.openOut e p with
    | none => .ok (false, fs)
    | some fs' => .ok (true, fs') := by
  have h1 : ∀ n, FS.openOut (only n) e p = match n with
    | .file _ => if e.canWrite p then some ((only n).set p (.file [])) else none
    | .missing => if e.canCreate p then some ((only n).set p (.file [])) else none
    | _ => none := fun n => by cases n <;> rfl
  simp only [openOut, solo, eval, FS.alter, h1]
  unfold FS.openOut
  cases fs p with
  | missing =>
    simp only []
    split <;> simp [FS.set]
  | file c =>
    simp only []
    split <;> simp [FS.set]
  | dir => rfl
  | unreachable => rfl

theorem createFile_solo (p : Path) : (createFile e p).solo fs = FileHandler.createFile e fs p := by
  unfold createFile FileHandler.createFile
  rw [solo_noexcept, solo_bind, (isValidPath_quiet p false).solo]
  rcases FileHandler.isValidPath e fs p false with (⟨⟩ | c | _) | _ | _
  · simp only [Res.bind_ok, solo_bind, openOut_solo]
    cases fs.openOut e p <;> rfl
  all_goals rfl

theorem getWriteStream_solo (f : FileHandler) : (getWriteStream e f).solo fs = (do
    let (o, f, fs') ← f.getWriteStream e fs
    .ok ((o, f), fs')) := by
  unfold getWriteStream FileHandler.getWriteStream
  simp only []
  rw [solo_noexcept, solo_bind, (isValidPath_quiet f.path true).solo]
  rcases FileHandler.isValidPath e fs f.path true with (⟨⟩ | c | _) | _ | _
  · simp only [Res.bind_ok, solo_bind, openOut_solo]
    cases fs.openOut e f.path <;> rfl
  all_goals rfl

theorem getWriteStreamIfEmpty_solo (f : FileHandler) : (getWriteStreamIfEmpty e f).solo fs = (do
    let (o, f, fs') ← f.getWriteStreamIfEmpty e fs
    .ok ((o, f), fs')) := by
  unfold getWriteStreamIfEmpty FileHandler.getWriteStreamIfEmpty
  rw [solo_noexcept]
  split
  · rw [getWriteStream_solo]
    rcases f.getWriteStream e fs with _ | _ | _ <;> rfl
  · rfl

theorem finishWrite_solo (s : Session) {p : Path} (h : fs p = .file []) : (finishWrite e s p).solo fs = (do
    let (o, w) ← Api.finishWrite e s fs p
    .ok ((o, w.api), w.fs)) := by
  unfold finishWrite Api.finishWrite
  rw [solo_bind, solo_lift]
  cases Api.fullData s with
  | ok b =>
    simp only [Res.bind_ok, solo_bind]
    simp only [writeOut, solo, eval, FS.alter, h, Res.bind_ok, List.drop_nil, List.append_nil]
    rfl
  | exn _ => rfl
  | fatal _ => rfl

theorem getWriteStream_file {f f' : FileHandler} {fs' : FS} (h : f.getWriteStream e fs = .ok (.success (), f', fs')) :
    fs' f'.path = .file [] ∧ f'.path = f.path := by
  simp only [FileHandler.getWriteStream, Res.noexcept_eq_ok] at h
  obtain ⟨o, h1, h⟩ := Res.bind_eq_ok.mp h
  rcases o with ⟨⟩ | c | _
  · simp only at h
    split at h
    · cases h
    · rename_i h2
      cases h
      refine ⟨?_, rfl⟩
      simp only [FS.openOut] at h2
      split at h2 <;> (try split at h2) <;> cases h2 <;> simp [FS.set]
  · cases h
  · cases h

theorem writeToPath_solo (s : Session) (p : Path) : (writeToPath e s p).solo fs = (do
    let (o, w) ← Api.writeToPath e ⟨s, fs⟩ p
    .ok ((o, w.api), w.fs)) := by
  unfold writeToPath Api.writeToPath
  rw [solo_noexcept, solo_bind, (getFileHandler_quiet p 0).solo]
  rcases Api.getFileHandler e fs p 0 with (f | c | _) | _ | _
  · simp only [Res.bind_ok, solo_bind, getWriteStreamIfEmpty_solo]
    rcases h : f.getWriteStreamIfEmpty e fs with ⟨o, f', fs'⟩ | _ | _
    · rcases o with ⟨⟩ | c | _
      · have h' : fs' f'.path = .file [] := by
          simp only [FileHandler.getWriteStreamIfEmpty, Res.noexcept_eq_ok] at h
          split at h
          · exact (getWriteStream_file h).1
          · cases h
        simp only [Res.bind_ok, finishWrite_solo s h']
        cases Api.finishWrite e s fs' f'.path <;> rfl
      · rfl
      · rfl
    · rfl
    · rfl
  all_goals rfl

theorem writeToSelected_solo (s : Session) : (writeToSelected e s).solo fs = (do
    let (o, w) ← Api.writeToSelected e ⟨s, fs⟩
    .ok ((o, w.api), w.fs)) := by
  unfold writeToSelected Api.writeToSelected
  rw [solo_noexcept, solo_bind, solo_lift]
  simp only []
  rcases deref s.selected with f | _ | _
  · simp only [Res.bind_ok, solo_bind, getWriteStream_solo]
    rcases h : f.getWriteStream e fs with ⟨o, f', fs'⟩ | _ | _
    · rcases o with ⟨⟩ | c | _
      · simp only [Res.bind_ok, finishWrite_solo _ (getWriteStream_file h).1]
        rcases Api.finishWrite e { s with selected := some f' } fs' f'.path with _ | _ | _ <;> rfl
      · rfl
      · rfl
    · rfl
    · rfl
  all_goals rfl

theorem remove_solo (p : Path) : (remove e p).solo fs = fs.remove e p := by
  have h1 : ∀ n, FS.remove (only n) e p = match n with
    | .missing => .ok (false, only n)
    | .unreachable => .exn .runtimeError
    | _ => if e.canRemove p then .ok (true, (only n).set p .missing) else .exn .runtimeError := fun n => by cases n <;> rfl
  simp only [remove, solo, eval, FS.alter, h1]
  unfold FS.remove
  cases fs p with
  | missing => rfl
  | unreachable => rfl
  | file c =>
    simp only []
    split <;> simp [FS.set]
  | dir =>
    simp only []
    split <;> simp [FS.set]

theorem deleteSelected_solo (s : Session) : (deleteSelected e s).solo fs = (do
    let (o, w) ← Api.deleteSelected e ⟨s, fs⟩
    .ok ((o, w.api), w.fs)) := by
  unfold deleteSelected Api.deleteSelected
  rw [solo_noexcept, solo_bind, solo_lift]
  simp only []
  rcases deref s.selected with f | _ | _
  · simp only [Res.bind_ok, solo_bind, remove_solo]
    rcases h : fs.remove e f.path with ⟨o, fs'⟩ | _ | _
    · cases o
      · have : fs' = fs := by
          simp only [FS.remove] at h
          split at h <;> (try split at h) <;> cases h
          rfl
        rw [this]
        rfl
      · rfl
    · rfl
    · rfl
  all_goals rfl

theorem selectFile_quiet (s : Session) (p : Path) : Quiet (selectFile hs e s p) fs (do
    let (o, w) ← Api.selectFile hs e ⟨s, fs⟩ p
    .ok (o, w.api)) := by
  have : (do
      let (o, w) ← Api.selectFile hs e ⟨s, fs⟩ p
      Res.ok (o, w.api)) = Res.noexcept (do
        match ← Api.getFileHandler e fs p 0 with
        | .success f => if f.isEmpty then Res.ok (.success true, Api.selectEmptyFile s f) else Api.selectNonEmptyFile hs e fs s f
        | .fail c => .ok (.fail c, s)
        | .timeout => .ok (.timeout, s)) := by
    unfold Api.selectFile
    rcases Api.getFileHandler e fs p 0 with (f | c | _) | _ | _
    · simp only [Res.bind_ok]
      by_cases hf : f.isEmpty = true
      · simp only [hf, if_true]
        rfl
      · simp only [hf]
        rcases Api.selectNonEmptyFile hs e fs s f with _ | _ | _ <;> rfl
    all_goals rfl
  rw [this]
  refine .noexcept (.bind (getFileHandler_quiet p 0) fun o => ?_)
  rcases o with f | c | _
  · exact .ite (.pure _) (selectNonEmptyFile_quiet s f)
  · exact .pure _
  · exact .pure _

theorem selectFile_fs {s : Session} {p : Path} {o : Out Bool} {w : World}
    (h : Api.selectFile hs e ⟨s, fs⟩ p = .ok (o, w)) : w.fs = fs := by
  simp only [Api.selectFile, Res.noexcept_eq_ok] at h
  obtain ⟨a, -, h⟩ := Res.bind_eq_ok.mp h
  rcases a with f | c | _
  · simp only at h
    split at h
    · cases h
      rfl
    · obtain ⟨a, -, h⟩ := Res.bind_eq_ok.mp h
      cases h
      rfl
  · cases h
    rfl
  · cases h
    rfl

theorem getDecryptedData_fs {s : Session} {o : Out FileDataStruct} {w : World}
    (h : Api.getDecryptedData hs e ⟨s, fs⟩ = .ok (o, w)) : w.fs = fs := by
  simp only [Api.getDecryptedData, Res.noexcept_eq_ok] at h
  obtain ⟨a, -, h⟩ := Res.bind_eq_ok.mp h
  rcases a with _ | ⟨_, _⟩ <;> cases h <;> rfl

/-- decryption sees the selected file only -/
theorem getDecryptedData_only {s : Session} {f : FileHandler} (h : s.selected = some f) (g : FS) (hg : g f.path = fs f.path) :
    (do let (o, w) ← Api.getDecryptedData hs e ⟨s, g⟩; Res.ok (o, w.api)) =
    (do let (o, w) ← Api.getDecryptedData hs e ⟨s, fs⟩; Res.ok (o, w.api)) := by
  have h1 : Api.decryptTry hs e ⟨s, g⟩ = Api.decryptTry hs e ⟨s, fs⟩ := by
    have : f.getDataStream e g 0 = f.getDataStream e fs 0 := by simp only [FileHandler.getDataStream, FS.openIn, hg]
    simp only [Api.decryptTry, h, deref, Res.bind_ok, this]
  simp only [Api.getDecryptedData, h1]
  rcases (Api.decryptTry hs e ⟨s, fs⟩).attempt with (_ | ⟨_, _⟩) | _ | _ <;> rfl

theorem getDecryptedData_none {s : Session} (h : s.selected = none) (g : FS) :
    (do let (o, w) ← Api.getDecryptedData hs e ⟨s, g⟩; Res.ok (o, w.api)) =
    (do let (o, w) ← Api.getDecryptedData hs e ⟨s, fs⟩; Res.ok (o, w.api)) := by
  have h1 : Api.decryptTry hs e ⟨s, g⟩ = Api.decryptTry hs e ⟨s, fs⟩ := by
    simp only [Api.decryptTry, h, deref, Res.bind_fatal]
  simp only [Api.getDecryptedData, h1]
  rcases (Api.decryptTry hs e ⟨s, fs⟩).attempt with (_ | ⟨_, _⟩) | _ | _ <;> rfl

theorem getDecryptedData_quiet (s : Session) : Quiet (getDecryptedData hs e s) fs (do
    let (o, w) ← Api.getDecryptedData hs e ⟨s, fs⟩
    .ok (o, w.api)) := by
  unfold getDecryptedData
  split
  · rename_i f h
    rw [← getDecryptedData_only (hs := hs) (e := e) (fs := fs) h (only (fs f.path)) rfl]
    exact (Quiet.look f.path).bind
      (h := fun n => (do let (o, w) ← Api.getDecryptedData hs e ⟨s, only n⟩; Res.ok (o, w.api))) fun n =>
        .bind (.done _) fun _ => .pure _
  · rename_i h
    rw [← getDecryptedData_none (fs := fs) h (only .missing)]
    exact .bind (.done _) fun _ => .pure _

/-- A call that nobody interrupts does what the call does in one go. -/
theorem call_solo (s : Session) (c : Call) : (call hs rest e s c).solo fs = (do
    let (r, w) ← Api.call hs rest e ⟨s, fs⟩ c
    .ok ((r, w.api), w.fs)) := by
  unfold call
  split
  · rename_i dir hst
    rw [((getRelevantFileNames_quiet s.fileMode dir).bind fun o => Quiet.pure _).solo]
    simp only [Api.call, hst]
    rcases Api.getRelevantFileNames hs e fs s.fileMode dir with _ | _ | _ <;> rfl
  · rename_i p hst
    rw [solo_bind, createFile_solo]
    simp only [Api.call, hst]
    rcases FileHandler.createFile e fs p with ⟨_ | _ | _, _⟩ | _ | _ <;> rfl
  · rename_i p hst
    rw [solo_bind, (selectFile_quiet s p).solo]
    simp only [Api.call, hst]
    rcases h : Api.selectFile hs e ⟨s, fs⟩ p with ⟨o, w⟩ | _ | _
    · simp [solo_pure, selectFile_fs h]
    · rfl
    · rfl
  · rename_i hst
    rw [solo_bind, deleteSelected_solo]
    simp only [Api.call, hst]
    rcases Api.deleteSelected e ⟨s, fs⟩ with ⟨o, w⟩ | _ | _ <;> rfl
  · rename_i hst
    rw [solo_bind, deleteSelected_solo]
    simp only [Api.call, hst]
    rcases Api.deleteSelected e ⟨s, fs⟩ with ⟨o, w⟩ | _ | _ <;> rfl
  · rename_i hst
    rw [solo_bind, (getFileContent_quiet s).solo]
    simp only [Api.call, hst]
    rcases Api.getFileContent e ⟨s, fs⟩ with _ | _ | _ <;> rfl
  · rename_i hst
    rw [solo_bind, (getDecryptedData_quiet s).solo]
    simp only [Api.call, hst]
    rcases h : Api.getDecryptedData hs e ⟨s, fs⟩ with ⟨o, w⟩ | _ | _
    · simp [solo_pure, getDecryptedData_fs h]
    · rfl
    · rfl
  · rename_i hst
    rw [solo_bind, writeToSelected_solo]
    simp only [Api.call, hst]
    rcases Api.writeToSelected e ⟨s, fs⟩ with ⟨o, w⟩ | _ | _ <;> rfl
  · rename_i p hst
    rw [solo_bind, writeToPath_solo]
    simp only [Api.call, hst]
    rcases Api.writeToPath e ⟨s, fs⟩ p with ⟨o, w⟩ | _ | _ <;> rfl
  · rename_i c _ _ h1 h2 h3 h4 h5 h6 h7 h8 h9
    rw [solo_bind, solo_lift]
    rcases s with ⟨st, mode, fd, ph, enc, dh, sel⟩
    cases c <;> cases st <;> first
      | rfl
      | exact (h1 _ rfl rfl).elim
      | exact (h2 _ rfl rfl).elim
      | exact (h3 _ rfl rfl).elim
      | exact (h4 rfl rfl).elim
      | exact (h5 rfl rfl).elim
      | exact (h6 rfl rfl).elim
      | exact (h7 rfl rfl).elim
      | exact (h8 rfl rfl).elim
      | exact (h9 _ rfl rfl).elim
      | skip
    all_goals clear h1 h2 h3 h4 h5 h6 h7 h8 h9
    all_goals simp only [Api.call]
    all_goals first
      | (rename_i pw t; rcases Api.verifyPassword hs e _ pw t with _ | _ | _ <;> rfl)
      | (rcases Api.changeSalt e _ with _ | _ | _ <;> rfl)
      | (rename_i d; rcases Api.encryptData hs e _ d with _ | _ | _ <;> rfl)
      | skip
    all_goals split
    all_goals first
      | rfl
      | (rename_i pw ds t _; rcases Api.createDataHeaderIters hs mode pw ds t e with h | _ | _ <;> first
          | rfl
          | (simp only [Res.bind_ok]; rcases Api.headerForEmpty _ h with _ | _ | _ <;> rfl)
          | (simp only [Res.bind_ok]; rcases Api.headerForOpen _ h with _ | _ | _ <;> rfl))
      | (rename_i ds _; rcases Api.createDataHeaderTime rest ds with h | _ | _ <;> first
          | rfl
          | (simp only [Res.bind_ok]; rcases Api.headerForEmpty _ h with _ | _ | _ <;> rfl)
          | (simp only [Res.bind_ok]; rcases Api.headerForOpen _ h with _ | _ | _ <;> rfl))

end Steps
end Verif
