import Verif.Model.Told

/- Leaving out what is said (`errorInfo`), the functions of Model/Told are those of Model/Api. -/
namespace Verif

/-- leaving out the information -/
def Said.forget {σ α : Type} : Said σ α → Step σ α
  | .val a s => .val a s
  | .stop c _ => .stop c

namespace Tell
variable {σ α β : Type}

/-- the parser `q` is the parser `p` without the information -/
def Forgets (p : Say σ α) (q : Par σ α) : Prop := ∀ s, Said.forget <$> p s = q s

theorem forgets_pure (a : α) : Forgets (pure a : Say σ α) (pure a) := fun _ => rfl

theorem forgets_bind {p : Say σ α} {q : Par σ α} {f : α → Say σ β} {g : α → Par σ β} (h : Forgets p q) (hf : ∀ a, Forgets (f a) (g a)) :
    Forgets (p >>= f) (q >>= g) := by
  intro s
  have h := h s
  show Said.forget <$> (match p s with
    | .ok (.val a s) => f a s
    | .ok (.stop c i) => .ok (.stop c i)
    | .exn e => .exn e
    | .fatal f => .fatal f) = (match q s with
    | .ok (.val a s) => g a s
    | .ok (.stop c) => .ok (.stop c)
    | .exn e => .exn e
    | .fatal f => .fatal f)
  rw [← h]
  rcases p s with (⟨a, s'⟩ | ⟨c, i⟩) | e | x
  · exact hf a s'
  · rfl
  · rfl
  · rfl

theorem forgets_fail (c : ErrorCode) (i : List Byte) : Forgets (Say.fail c i : Say σ α) (Par.fail c) := fun _ => rfl

theorem forgets_lift (x : Res α) : Forgets (Say.lift x : Say σ α) (Par.lift x) := by
  intro s
  cases x <;> rfl

theorem forgets_onExn {p : Say σ α} {q : Par σ α} {h : Exn → Option (ErrorCode × List Byte)} {g : Exn → Option ErrorCode}
    (hp : Forgets p q) (hg : ∀ e, (h e).map Prod.fst = g e) : Forgets (Say.onExn p h) (Par.onExn q g) := by
  intro s
  have hp := hp s
  unfold Say.onExn Par.onExn
  rw [← hp]
  rcases p s with r | e | x
  · rfl
  · show Said.forget <$> (match h e with
      | some (c, i) => (Res.ok (Said.stop c i) : Res (Said σ α))
      | none => .exn e) = (match g e with
      | some c => (Res.ok (Step.stop c) : Res (Step σ α))
      | none => .exn e)
    rw [← hg e]
    rcases h e with _ | ⟨c, i⟩ <;> rfl
  · rfl

section stream
variable {rd : List Byte → (cap n : Nat) → Say σ (List Byte)} {rd' : (cap n : Nat) → Par σ (List Byte)}
  (hrd : ∀ name cap n, Forgets (rd name cap n) (rd' cap n))
include hrd

theorem forgets_rdByte (name : List Byte) : Forgets (rdByte rd name) (HeaderParse.rdByte rd') := by
  refine forgets_bind (hrd _ _ _) fun l => ?_
  cases l with
  | nil => exact forgets_lift _
  | cons x l => exact forgets_pure x

theorem forgets_rdLong (name : List Byte) : Forgets (rdLong rd name) (HeaderParse.rdLong rd') :=
  forgets_bind (hrd _ _ _) fun _ => forgets_lift _

theorem forgets_rdBlocks (k : Nat) : ∀ d, Forgets (rdBlocks rd k d) (HeaderParse.rdBlocks rd' k d) := by
  induction k with
  | zero => exact fun d => forgets_pure d
  | succ k ih =>
    exact fun d => forgets_bind (forgets_rdByte hrd _) fun _ => forgets_bind (forgets_rdByte hrd _) fun _ =>
      forgets_bind (hrd _ _ _) fun _ => forgets_bind (forgets_lift _) fun d => ih d

theorem forgets_rdEncBlocks (k : Nat) : ∀ d, Forgets (rdEncBlocks rd k d) (HeaderParse.rdEncBlocks rd' k d) := by
  induction k with
  | zero => exact fun d => forgets_pure d
  | succ k ih =>
    exact fun d => forgets_bind (forgets_rdByte hrd _) fun _ => forgets_bind (forgets_rdByte hrd _) fun _ =>
      forgets_bind (hrd _ _ _) fun _ => forgets_bind (forgets_lift _) fun d => ih d

theorem forgets_rdParts (num : List Byte) (dblen : Nat) : ∀ (nls : List NameLen) (c : ChainHashData) (n : Nat),
    Forgets (rdParts rd num dblen nls c n) (HeaderParse.rdParts rd' dblen nls c n) := by
  intro nls
  induction nls with
  | nil => exact fun c n => forgets_pure (c, n)
  | cons nl nls ih =>
    intro c n
    unfold rdParts HeaderParse.rdParts
    by_cases h : nl.len ≠ 0
    · rw [if_pos h, if_pos h]
      exact forgets_bind (hrd _ _ _) fun l => forgets_bind (forgets_onExn (forgets_lift _) (fun e => by cases e <;> rfl)) fun c => ih c _
    · rw [if_neg h, if_neg h]
      exact forgets_bind (hrd _ _ _) fun l => forgets_bind (forgets_onExn (forgets_lift _) (fun e => by cases e <;> rfl)) fun c =>
        forgets_pure (c, dblen)

theorem forgets_rdChainHash (num : List Byte) : Forgets (rdChainHash rd num) (HeaderParse.rdChainHash rd') := by
  refine forgets_bind (forgets_rdByte hrd _) fun mode => ?_
  cases CHMode.ofByte mode with
  | none => exact forgets_fail _ _
  | some m =>
    exact forgets_bind (forgets_rdLong hrd _) fun _ => forgets_bind (forgets_rdByte hrd _) fun _ =>
      forgets_bind (forgets_rdParts hrd _ _ _ _ _) fun _ => forgets_bind (forgets_lift _) fun _ =>
      forgets_bind (forgets_lift _) fun _ => forgets_pure _

theorem forgets_rdContent (hs : Hashes) (r : Rand) (fileSize : UInt64) :
    Forgets (rdContent rd hs r fileSize) (HeaderParse.rdContent rd' hs r fileSize) := by
  have b := fun name => forgets_rdByte hrd name
  refine forgets_bind (b _) fun fmode => forgets_bind (b _) fun hmode =>
    forgets_bind (forgets_onExn (forgets_lift _) (fun e => by cases e <;> rfl)) fun d =>
    forgets_bind (forgets_onExn (forgets_lift _) (fun e => by cases e <;> rfl)) fun d =>
    forgets_bind (b _) fun count => forgets_bind (forgets_rdBlocks hrd _ _) fun d =>
    forgets_bind (forgets_rdChainHash hrd _) fun c1 =>
    forgets_bind (forgets_onExn (forgets_lift _) (fun e => by cases e <;> rfl)) fun d =>
    forgets_bind (forgets_rdChainHash hrd _) fun c2 =>
    forgets_bind (forgets_onExn (forgets_lift _) (fun e => by cases e <;> rfl)) fun d =>
    forgets_bind (hrd _ _ _) fun v =>
    forgets_bind (forgets_onExn (forgets_lift _) (fun e => by cases e <;> rfl)) fun d =>
    forgets_bind (hrd _ _ _) fun s =>
    forgets_bind (forgets_onExn (forgets_lift _) (fun e => by cases e <;> rfl)) fun d =>
    forgets_bind (forgets_onExn (forgets_lift _) (fun e => by cases e <;> rfl)) fun d =>
    forgets_bind (b _) fun ecount => forgets_bind (forgets_rdEncBlocks hrd _ _) fun d =>
    forgets_onExn (forgets_lift _) (fun e => by cases e <;> rfl)

theorem forgets_rdHeader (remaining : σ → Nat) (hs : Hashes) (r : Rand) :
    Forgets (rdHeader rd remaining hs r) (HeaderParse.rdHeader rd' remaining hs r) := by
  intro start
  refine (forgets_bind (forgets_rdLong hrd _) fun fileSize => forgets_bind (forgets_rdLong hrd _) fun headerSize => ?_) start
  by_cases h1 : remaining start ≠ fileSize.toNat
  · rw [if_pos h1, if_pos h1]
    exact forgets_fail _ _
  · rw [if_neg h1, if_neg h1]
    by_cases h2 : headerSize > fileSize
    · rw [if_pos h2, if_pos h2]
      exact forgets_fail _ _
    · rw [if_neg h2, if_neg h2]
      exact forgets_bind (forgets_rdContent hrd _ _ _) fun d => fun s => forgets_lift _ s

end stream

theorem forgets_rdStream (name : List Byte) (cap n : Nat) : Forgets (rdStream name cap n) (HeaderParse.rdStream cap n) := by
  intro s
  unfold rdStream HeaderParse.rdStream
  rcases readData s (Bytes.empty cap) n with ⟨_ | b, s'⟩ | e | x <;> rfl

/-! ### calls -/

theorem map_noexcept {f : α → β} (x : Res α) : f <$> x.noexcept = (f <$> x).noexcept := by
  cases x <;> rfl

theorem map_bind {γ : Type} {f : β → γ} (x : Res α) (k : α → Res β) : f <$> (x >>= k) = x >>= fun a => f <$> k a := by
  cases x <;> rfl

/-- a bind over a told result equals the bind over the bare one -/
theorem bind_of_map {γ : Type} {f : α → β} {x : Res α} {y : Res β} {k : α → Res γ} {k' : β → Res γ} (h : f <$> x = y)
    (hk : ∀ a, k a = k' (f a)) : x >>= k = y >>= k' := by
  subst h
  cases x with
  | ok a => exact hk a
  | exn e => rfl
  | fatal x => rfl

theorem getDataHeader_out (hs : Hashes) (e : Env) (fs : FS) (f : FileHandler) (i : Nat) (r : Rand) :
    Prod.fst <$> getDataHeader hs e fs f i r = f.getDataHeader hs e fs i r := by
  unfold getDataHeader FileHandler.getDataHeader
  rw [map_noexcept, map_bind]
  refine congrArg _ (bind_of_map (f := Said.forget) ?_ fun a => ?_)
  · rw [map_noexcept]
    exact congrArg _ (forgets_rdHeader forgets_rdStream _ hs r _)
  · cases a <;> rfl

theorem isValidPath_out (e : Env) (fs : FS) (p : Path) (b : Bool) : Prod.fst <$> isValidPath e fs p b = FileHandler.isValidPath e fs p b := by
  unfold isValidPath FileHandler.isValidPath
  rw [map_noexcept]
  congr 1
  by_cases h1 : p = []
  · rw [if_pos h1, if_pos h1]; rfl
  rw [if_neg h1, if_neg h1]
  by_cases h2 : Path.extension p ≠ FileHandler.ext
  · rw [if_pos h2, if_pos h2]; rfl
  rw [if_neg h2, if_neg h2]
  cases b
  · rcases fs.existsAt p with x | _ | _
    · cases x <;> rfl
    · rfl
    · rfl
  · rcases fs.existsAt p with x | _ | _
    · cases x
      · rfl
      · cases h : fs.opens e p <;> simp
    · rfl
    · rfl

/-- leaving out the information of a result with more to it -/
def bare (r : Told α × β) : Out α × β := (r.1.1, r.2)

theorem createFile_out (e : Env) (fs : FS) (p : Path) : bare <$> createFile e fs p = FileHandler.createFile e fs p := by
  unfold createFile FileHandler.createFile
  rw [map_noexcept, map_bind]
  refine congrArg _ (bind_of_map (isValidPath_out e fs p false) fun a => ?_)
  obtain ⟨_ | _ | _, i⟩ := a
  · cases h : fs.openOut e p <;> simp [bare]
  · rfl
  · rfl

theorem getWriteStream_out (e : Env) (fs : FS) (f : FileHandler) : bare <$> getWriteStream e fs f = f.getWriteStream e fs := by
  unfold getWriteStream FileHandler.getWriteStream
  rw [map_noexcept]
  dsimp only
  rw [map_bind]
  refine congrArg _ (bind_of_map (isValidPath_out e fs f.path true) fun a => ?_)
  obtain ⟨_ | _ | _, i⟩ := a
  · cases h : fs.openOut e f.path <;> simp [bare]
  · rfl
  · rfl

theorem getWriteStreamIfEmpty_out (e : Env) (fs : FS) (f : FileHandler) :
    bare <$> getWriteStreamIfEmpty e fs f = f.getWriteStreamIfEmpty e fs := by
  unfold getWriteStreamIfEmpty FileHandler.getWriteStreamIfEmpty
  rw [map_noexcept]
  by_cases h : f.isEmpty = true
  · rw [if_pos h, if_pos h, getWriteStream_out]
  · rw [if_neg h, if_neg h]; rfl

theorem getFileHandler_out (e : Env) (fs : FS) (p : Path) (i : Nat) :
    Prod.fst <$> getFileHandler e fs p i = Api.getFileHandler e fs p i := by
  unfold getFileHandler Api.getFileHandler
  rw [map_noexcept, map_bind]
  refine congrArg _ (bind_of_map (isValidPath_out e fs p true) fun a => ?_)
  obtain ⟨_ | _ | _, j⟩ := a
  · dsimp only
    rw [map_bind]
    rcases Res.attempt (FileHandler.new e fs p i) with _ | _ | _
    · rename_i x; cases x <;> rfl
    · rfl
    · rfl
  · rfl
  · rfl

theorem selectNonEmptyFile_out (hs : Hashes) (e : Env) (fs : FS) (s : Session) (f : FileHandler) :
    bare <$> selectNonEmptyFile hs e fs s f = Api.selectNonEmptyFile hs e fs s f := by
  unfold selectNonEmptyFile Api.selectNonEmptyFile
  rw [map_noexcept, map_bind]
  refine congrArg _ (bind_of_map (getDataHeader_out hs e fs f 1 (e.rand 0)) fun a => ?_)
  obtain ⟨_ | _ | _, j⟩ := a <;> rfl

theorem selectFile_out (hs : Hashes) (e : Env) (w : World) (p : Path) : bare <$> selectFile hs e w p = Api.selectFile hs e w p := by
  unfold selectFile Api.selectFile
  rw [map_noexcept, map_bind]
  refine congrArg _ (bind_of_map (getFileHandler_out e w.fs p 0) fun a => ?_)
  obtain ⟨f | _ | _, j⟩ := a
  · dsimp only
    by_cases h : f.isEmpty = true
    · rw [if_pos h, if_pos h]; rfl
    · rw [if_neg h, if_neg h, map_bind]
      exact bind_of_map (selectNonEmptyFile_out hs e w.fs w.api f) fun _ => rfl
  · rfl
  · rfl

theorem deleteSelected_out (e : Env) (w : World) : bare <$> deleteSelected e w = Api.deleteSelected e w := by
  unfold deleteSelected Api.deleteSelected
  rw [map_noexcept, map_bind]
  refine congrArg _ (congrArg _ (funext fun f => ?_))
  rw [map_bind]
  refine congrArg _ (funext fun a => ?_)
  obtain ⟨_ | _, fs⟩ := a <;> rfl

theorem getFileContent_out (e : Env) (w : World) : Prod.fst <$> getFileContent e w = Api.getFileContent e w := by
  unfold getFileContent Api.getFileContent
  rw [map_noexcept, map_bind]
  refine congrArg _ (congrArg _ (funext fun f => ?_))
  rw [map_bind]
  refine congrArg _ (funext fun a => ?_)
  cases a <;> rfl

theorem verifyTry_out (hs : Hashes) (e : Env) (s : Session) (pw : List Byte) (t : Nat) :
    bare <$> verifyTry hs e s pw t = Api.verifyTry hs e s pw t := by
  unfold verifyTry Api.verifyTry
  rw [map_bind]
  refine congrArg _ (funext fun d => ?_)
  rw [map_bind]
  refine congrArg _ (funext fun p => ?_)
  rw [map_bind]
  refine congrArg _ (funext fun m => ?_)
  rw [map_bind]
  refine congrArg _ (funext fun o => ?_)
  rcases o with h1 | c | _
  · dsimp only
    by_cases h : t ≠ 0 ∧ (t + (2 ^ 64 - e.peek % 2 ^ 64)) % 2 ^ 64 = 0
    · rw [if_pos h, if_pos h]; rfl
    · rw [if_neg h, if_neg h, map_bind]
      refine congrArg _ (funext fun o => ?_)
      rcases o with v | c | _
      · dsimp only
        rw [map_bind]
        refine congrArg _ (funext fun v' => ?_)
        by_cases hv : v.beq v' = true
        · rw [if_pos hv, if_pos hv]; rfl
        · rw [if_neg hv, if_neg hv]; rfl
      · rfl
      · rfl
  · rfl
  · rfl

theorem map_attempt {f : α → β} (x : Res α) : Option.map f <$> Res.attempt x = Res.attempt (f <$> x) := by
  rcases x with a | e | x
  · rfl
  · cases e <;> rfl
  · rfl

theorem verifyPassword_out (hs : Hashes) (e : Env) (s : Session) (pw : List Byte) (t : Nat) :
    bare <$> verifyPassword hs e s pw t = Api.verifyPassword hs e s pw t := by
  unfold verifyPassword Api.verifyPassword
  rw [map_noexcept, map_bind]
  refine congrArg _ (bind_of_map (f := Option.map bare) ?_ fun a => ?_)
  · rw [map_attempt, verifyTry_out]
  · cases a <;> rfl

theorem getDecryptedData_out (hs : Hashes) (e : Env) (w : World) : bare <$> getDecryptedData hs e w = Api.getDecryptedData hs e w := by
  unfold getDecryptedData Api.getDecryptedData
  rw [map_noexcept, map_bind]
  refine congrArg _ (congrArg _ (funext fun a => ?_))
  rcases a with _ | ⟨fd, s⟩ <;> rfl

theorem encryptData_out (hs : Hashes) (e : Env) (s : Session) (fd : Option FileDataStruct) :
    bare <$> encryptData hs e s fd = Api.encryptData hs e s fd := by
  unfold encryptData Api.encryptData
  rw [map_noexcept, map_bind]
  refine congrArg _ (congrArg _ (funext fun fd => ?_))
  dsimp only
  by_cases h1 : (!fd.isComplete) = true
  · rw [if_pos h1, if_pos h1]; rfl
  rw [if_neg h1, if_neg h1, map_bind]
  refine congrArg _ (funext fun m => ?_)
  by_cases h2 : m ≠ s.fileMode
  · rw [if_pos h2, if_pos h2]; rfl
  rw [if_neg h2, if_neg h2, map_bind]
  refine congrArg _ (funext fun d => ?_)
  rw [map_bind]
  refine congrArg _ (funext fun data => ?_)
  rw [map_bind]
  refine congrArg _ (funext fun a => ?_)
  cases a <;> rfl

theorem changeSalt_out (e : Env) (s : Session) : bare <$> changeSalt e s = Api.changeSalt e s := by
  unfold changeSalt
  rw [map_bind]
  rcases Api.changeSalt e s with ⟨o, s'⟩ | _ | _ <;> rfl

theorem writeToPath_out (e : Env) (w : World) (p : Path) : bare <$> writeToPath e w p = Api.writeToPath e w p := by
  unfold writeToPath Api.writeToPath
  rw [map_noexcept, map_bind]
  refine congrArg _ (bind_of_map (getFileHandler_out e w.fs p 0) fun a => ?_)
  obtain ⟨f | _ | _, j⟩ := a
  · dsimp only
    rw [map_bind]
    refine bind_of_map (getWriteStreamIfEmpty_out e w.fs f) fun a => ?_
    obtain ⟨⟨_ | _ | _, i⟩, f, fs⟩ := a
    · simp only [bare]
      rw [map_bind]
      rcases Api.finishWrite e w.api fs f.path with ⟨o, w'⟩ | _ | _ <;> rfl
    · rfl
    · rfl
  · rfl
  · rfl

theorem writeToSelected_out (e : Env) (w : World) : bare <$> writeToSelected e w = Api.writeToSelected e w := by
  unfold writeToSelected Api.writeToSelected
  rw [map_noexcept, map_bind]
  refine congrArg _ (congrArg _ (funext fun f => ?_))
  rw [map_bind]
  refine bind_of_map (getWriteStream_out e w.fs f) fun a => ?_
  obtain ⟨⟨_ | _ | _, i⟩, f, fs⟩ := a
  · simp only [bare]
    rw [map_bind]
    rcases Api.finishWrite e { w.api with selected := some f } fs f.path with ⟨o, w'⟩ | _ | _ <;> rfl
  · rfl
  · rfl

theorem makeHeader_out (hs : Hashes) (pw : List Byte) (ds : SettingsIters) (t : Nat) (e : Env) (c1 c2 : ChainHash) :
    Prod.fst <$> makeHeader hs pw ds t e c1 c2 = Api.makeHeader hs pw ds t e c1 c2 := by
  unfold makeHeader Api.makeHeader
  dsimp only
  rw [map_bind]
  refine congrArg _ (funext fun m => ?_)
  rw [map_bind]
  refine congrArg _ (funext fun p => ?_)
  rw [map_bind]
  refine congrArg _ (funext fun m => ?_)
  rw [map_bind]
  refine congrArg _ (funext fun p => ?_)
  rw [map_bind]
  refine congrArg _ (funext fun m => ?_)
  rw [map_bind]
  refine congrArg _ (funext fun o => ?_)
  rcases o with h1 | c | _
  · dsimp only
    by_cases h : t ≠ 0 ∧ t ≤ e.peek
    · rw [if_pos h, if_pos h]; rfl
    · rw [if_neg h, if_neg h, map_bind]
      refine congrArg _ (funext fun o => ?_)
      rcases o with v | c | _
      · dsimp only
        rw [map_bind]
        refine congrArg _ (funext fun p => ?_)
        rw [map_bind]
        refine congrArg _ (funext fun salt => ?_)
        rw [map_bind]
        refine congrArg _ (funext fun p => ?_)
        rw [map_bind]
        rfl
      · rfl
      · rfl
  · rfl
  · rfl

theorem createDataHeaderIters_out (hs : Hashes) (mode : Byte) (pw : List Byte) (ds : SettingsIters) (t : Nat) (e : Env) :
    Prod.fst <$> createDataHeaderIters hs mode pw ds t e = Api.createDataHeaderIters hs mode pw ds t e := by
  unfold createDataHeaderIters Api.createDataHeaderIters
  rw [map_noexcept]
  by_cases h1 : (!ds.isComplete) = true
  · rw [if_pos h1, if_pos h1]; rfl
  rw [if_neg h1, if_neg h1, map_bind]
  refine congrArg _ (congrArg _ (funext fun m => ?_))
  by_cases h2 : m ≠ mode.toNat
  · rw [if_pos h2, if_pos h2]; rfl
  rw [if_neg h2, if_neg h2, map_bind]
  refine congrArg _ (funext fun a => ?_)
  rcases a with _ | ⟨c1, c2⟩
  · rfl
  · exact makeHeader_out hs pw ds t e c1 c2

/-- the answer of a call without its information -/
def answer (r : (Ret × List Byte) × World) : Ret × World := (r.1.1, r.2)

theorem createIn_out (w : World) (k : Session → Api.Helper → Res (Out Bool × Session)) (x : Res Helper) (y : Res Api.Helper)
    (h : Prod.fst <$> x = y) :
    answer <$> createIn w k x = (do
      let (o, s) ← k w.api (← y)
      .ok (.flag o, { w with api := s })) := by
  unfold createIn createDataHeader
  rw [map_bind]
  refine bind_of_map h fun a => ?_
  rw [map_bind]
  dsimp only
  generalize k w.api a.1 = z
  rcases z with ⟨o, s⟩ | _ | _ <;> rfl

theorem createDataHeaderTime_out (rest : Api.Helper → Res Api.Helper) (ds : SettingsTime) :
    Prod.fst <$> createDataHeaderTime rest ds = Api.createDataHeaderTime rest ds := by
  unfold createDataHeaderTime
  rcases Api.createDataHeaderTime rest ds with _ | _ | _ <;> rfl

theorem getRelevantFileNames_out (hs : Hashes) (e : Env) (fs : FS) (mode : Byte) (dir : Path) :
    Prod.fst <$> getRelevantFileNames hs e fs mode dir = Api.getRelevantFileNames hs e fs mode dir := by
  unfold getRelevantFileNames
  rcases Api.getRelevantFileNames hs e fs mode dir with _ | _ | _ <;> rfl

/-- without the information, `Tell.call` is `Api.call` -/
theorem call_out (hs : Hashes) (rest : Api.Helper → Res Api.Helper) (e : Env) (w : World) (c : Call) :
    answer <$> call hs rest e w c = Api.call hs rest e w c := by
  obtain ⟨⟨st, mode, fd, ph, ed, dh, sel⟩, fs⟩ := w
  cases c with
  | getRelevantFileNames d =>
    cases st <;> first | rfl | skip
    simp only [call, Api.call]
    rw [map_bind]
    exact bind_of_map (getRelevantFileNames_out ..) fun _ => rfl
  | createFile p =>
    cases st <;> first | rfl | skip
    simp only [call, Api.call]
    rw [map_bind]
    refine bind_of_map (createFile_out ..) fun a => ?_
    obtain ⟨⟨_ | _ | _, _⟩, _⟩ := a <;> rfl
  | selectFile p =>
    cases st <;> first | rfl | skip
    simp only [call, Api.call]
    rw [map_bind]
    exact bind_of_map (selectFile_out ..) fun _ => rfl
  | isFileEmpty => cases st <;> rfl
  | unselectFile => cases st <;> rfl
  | deleteFile =>
    cases st <;> first | rfl | skip
    all_goals
      simp only [call, Api.call]
      rw [map_bind]
      exact bind_of_map (deleteSelected_out ..) fun _ => rfl
  | getFileContent =>
    cases st <;> first | rfl | skip
    simp only [call, Api.call]
    rw [map_bind]
    exact bind_of_map (getFileContent_out ..) fun _ => rfl
  | verifyPassword pw t =>
    cases st <;> first | rfl | skip
    simp only [call, Api.call]
    rw [map_bind]
    exact bind_of_map (verifyPassword_out ..) fun _ => rfl
  | createDataHeader pw ds t =>
    simp only [call, Api.call]
    by_cases h : (!ds.isComplete) = true
    · rw [if_pos h, if_pos h]; rfl
    · rw [if_neg h, if_neg h]
      cases st <;> first | rfl | skip
      all_goals exact createIn_out _ _ _ _ (createDataHeaderIters_out ..)
  | createDataHeaderTime pw ds =>
    simp only [call, Api.call]
    by_cases h : (!ds.isComplete) = true
    · rw [if_pos h, if_pos h]; rfl
    · rw [if_neg h, if_neg h]
      cases st <;> first | rfl | skip
      all_goals exact createIn_out _ _ _ _ (createDataHeaderTime_out ..)
  | changeSalt =>
    cases st <;> first | rfl | skip
    simp only [call, Api.call]
    rw [map_bind]
    exact bind_of_map (changeSalt_out ..) fun _ => rfl
  | getDecryptedData =>
    cases st <;> first | rfl | skip
    simp only [call, Api.call]
    rw [map_bind]
    exact bind_of_map (getDecryptedData_out ..) fun _ => rfl
  | getFileData => cases st <;> rfl
  | encryptData fd =>
    cases st <;> first | rfl | skip
    simp only [call, Api.call]
    rw [map_bind]
    exact bind_of_map (encryptData_out ..) fun _ => rfl
  | writeToFile =>
    cases st <;> first | rfl | skip
    simp only [call, Api.call]
    rw [map_bind]
    exact bind_of_map (writeToSelected_out ..) fun _ => rfl
  | writeToFileAt p =>
    cases st <;> first | rfl | skip
    simp only [call, Api.call]
    rw [map_bind]
    exact bind_of_map (writeToPath_out ..) fun _ => rfl
  | logout => rfl
  | logoutMode m => rfl

end Tell
end Verif
