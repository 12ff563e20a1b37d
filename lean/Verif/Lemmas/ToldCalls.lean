import Verif.Lemmas.ToldTexts
import Verif.Lemmas.Isolation

/- The texts that come with the errors of the calls. -/
namespace Verif.Tell
open Spec
variable {α β : Type}

/-- `Q` holds of the value of `x`, if there is one -/
def All (Q : α → Prop) (x : Res α) : Prop := ∀ a, x = .ok a → Q a

variable {Q : α → Prop}

theorem all_ok {a : α} (h : Q a) : All Q (.ok a) := fun _ e => by cases e; exact h

theorem all_exn (e : Exn) : All Q (.exn e) := fun _ e => by cases e

theorem all_true (x : Res α) : All (fun _ => True) x := fun _ _ => trivial

theorem all_bind {R : β → Prop} {x : Res α} {f : α → Res β} (h : All Q x) (hf : ∀ a, Q a → All R (f a)) : All R (x >>= f) := by
  intro b hb
  cases x with
  | ok a => exact hf a (h a rfl) b hb
  | exn e => cases hb
  | fatal x => cases hb

theorem all_then {R : β → Prop} {x : Res α} {f : α → Res β} (hf : ∀ a, All R (f a)) : All R (x >>= f) :=
  all_bind (all_true x) fun a _ => hf a

theorem all_noexcept {x : Res α} (h : All Q x) : All Q x.noexcept := by
  intro a ha
  cases x with
  | ok b => exact h a ha
  | exn e => cases ha
  | fatal f => cases ha

/-- a success says nothing; an error says `P`, running out of time says `T` -/
def Good (P : ErrorCode → List Byte → Prop) (T : List Byte → Prop) (t : Told α) : Prop :=
  match t.1 with
  | .success _ => t.2 = []
  | .fail c => P c t.2
  | .timeout => T t.2

/-- the text is the path -/
def Names (p : List Byte) (c : ErrorCode) (i : List Byte) : Prop := c ∈ pathCodes ∧ i = shown p

/-- never -/
def never (_ : List Byte) : Prop := False

theorem shown_eq : ∀ p : Path, p.cString = shown p
  | [] => rfl
  | b :: l => by
    unfold Path.cString shown
    by_cases h : b = 0
    · rw [List.takeWhile_cons, if_neg (by simp [h]), if_pos h]
    · rw [List.takeWhile_cons, if_pos (by simp [h]), if_neg h]
      exact congrArg _ (shown_eq l)

theorem isValidPath_all (e : Env) (fs : FS) (p : Path) (b : Bool) : All (Good (Names p) never) (isValidPath e fs p b) := by
  refine all_noexcept ?_
  have name : ∀ c : ErrorCode, c ∈ pathCodes → Good (α := Unit) (Names p) never (.fail c, p.cString) := fun c h => ⟨h, shown_eq p⟩
  by_cases h1 : p = []
  · rw [if_pos h1]; exact all_ok (name _ (by decide))
  rw [if_neg h1]
  by_cases h2 : Path.extension p ≠ FileHandler.ext
  · rw [if_pos h2]; exact all_ok (name _ (by decide))
  rw [if_neg h2]
  cases b
  · refine all_then fun x => ?_
    cases x
    · exact all_ok rfl
    · exact all_ok (name _ (by decide))
  · refine all_then fun x => ?_
    cases x
    · exact all_ok (name _ (by decide))
    · cases h : fs.opens e p
      · simp only [Bool.not_true, Bool.false_eq_true, if_false, Bool.not_false, if_true]
        exact all_ok (name _ (by decide))
      · simp only [Bool.not_true, Bool.false_eq_true, if_false]
        exact all_ok rfl

theorem createFile_all (e : Env) (fs : FS) (p : Path) : All (fun r => Good (Names p) never r.1) (createFile e fs p) := by
  refine all_noexcept (all_bind (isValidPath_all e fs p false) fun a ha => ?_)
  obtain ⟨_ | _ | _, i⟩ := a
  · dsimp only
    cases fs.openOut e p
    · exact all_ok ⟨by decide, shown_eq _⟩
    · exact all_ok rfl
  · exact all_ok ha
  · exact absurd ha id

theorem getWriteStream_all (e : Env) (fs : FS) (f : FileHandler) :
    All (fun r => Good (Names f.path) never r.1 ∧ r.2.1.path = f.path) (getWriteStream e fs f) := by
  refine all_noexcept (all_bind (isValidPath_all e fs f.path true) fun a ha => ?_)
  obtain ⟨_ | _ | _, i⟩ := a
  · dsimp only
    cases fs.openOut e f.path
    · exact all_ok ⟨⟨by decide, shown_eq _⟩, rfl⟩
    · exact all_ok ⟨rfl, rfl⟩
  · exact all_ok ⟨ha, rfl⟩
  · exact absurd ha id

theorem getWriteStreamIfEmpty_all (e : Env) (fs : FS) (f : FileHandler) :
    All (fun r => Good (Names f.path) never r.1) (getWriteStreamIfEmpty e fs f) := by
  refine all_noexcept ?_
  by_cases h : f.isEmpty = true
  · rw [if_pos h]
    exact fun a ha => (getWriteStream_all e fs f a ha).1
  · rw [if_neg h]
    exact all_ok ⟨by decide, shown_eq _⟩

/-- the path, or nothing for a file that cannot be taken -/
def NamesOr (p : List Byte) (c : ErrorCode) (i : List Byte) : Prop := Names p c i ∨ (c = .ERR_FILEHANDLER_CREATION ∧ i = [])

theorem getFileHandler_all (e : Env) (fs : FS) (p : Path) (i : Nat) :
    All (fun r => Good (NamesOr p) never r ∧ ∀ f, r.1 = .success f → f.path = p) (getFileHandler e fs p i) := by
  have key : All (Good (NamesOr p) never) (getFileHandler e fs p i) := by
    refine all_noexcept (all_bind (isValidPath_all e fs p true) fun a ha => ?_)
    obtain ⟨_ | _ | _, j⟩ := a
    · refine all_then fun x => ?_
      cases x
      · exact all_ok (.inr ⟨rfl, rfl⟩)
      · exact all_ok rfl
    · exact all_ok (.inl ha)
    · exact absurd ha id
  intro r hr
  refine ⟨key r hr, fun f hf => ?_⟩
  have h := getFileHandler_out e fs p i
  rw [hr] at h
  exact Api.getFileHandler_path (h.symm.trans (congrArg Res.ok hf))

/-- what `getDataHeader` may say -/
theorem getDataHeader_all (hs : Hashes) (e : Env) (fs : FS) (f : FileHandler) (i : Nat) (r : Rand)
    (hl : (fs.openIn e f.path i).rest.length < 2 ^ 64) : All (Good Says never) (getDataHeader hs e fs f i r) := by
  refine all_noexcept (all_bind (Q := fun a => ∀ c i, a = .stop c i → Says c i) ?_ fun a ha => ?_)
  · refine all_noexcept fun a ha c j hj => ?_
    exact stops_rdHeader stops_rdStream _ hs r _ hl c j (hj ▸ ha)
  · cases a with
    | val d s => exact all_ok rfl
    | stop c j => exact all_ok (ha c j rfl)

/-- the errors of a header are no errors about paths -/
theorem says_other {c : ErrorCode} {i : List Byte} (h : Says c i) : c ∉ pathCodes := by
  rcases h with h | h
  · cases h <;> decide
  · simp only [List.mem_cons, List.mem_nil_iff, or_false] at h
    rcases h with rfl | rfl | rfl <;> decide

/-- what `selectFile` may say -/
def SelectSays (p : List Byte) (c : ErrorCode) (i : List Byte) : Prop := NamesOr p c i ∨ Says c i

theorem selectFile_all (hs : Hashes) (e : Env) (w : World) (p : Path) (hl : (w.fs.openIn e p 1).rest.length < 2 ^ 64) :
    All (fun r => Good (SelectSays p) never r.1) (selectFile hs e w p) := by
  refine all_noexcept (all_bind (getFileHandler_all e w.fs p 0) fun a ha => ?_)
  obtain ⟨f | _ | _, j⟩ := a
  · obtain ⟨-, hf⟩ := ha
    have hf := hf f rfl
    dsimp only
    by_cases h : f.isEmpty = true
    · rw [if_pos h]
      exact all_ok rfl
    · rw [if_neg h]
      refine all_bind (Q := fun r => Good (SelectSays p) never r.1) ?_ fun r hr => all_ok hr
      refine all_noexcept (all_bind (getDataHeader_all hs e w.fs f 1 (e.rand 0) (by rw [hf]; exact hl)) fun a ha => ?_)
      obtain ⟨_ | _ | _, j⟩ := a
      · exact all_ok rfl
      · exact all_ok (.inr ha)
      · exact absurd ha id
  · exact all_ok (.inl ha.1)
  · exact absurd ha.1 id

theorem deleteSelected_all (e : Env) (w : World) :
    All (fun r => ∃ f, w.api.selected = some f ∧ Good (Names f.path) never r.1) (deleteSelected e w) := by
  refine all_noexcept ?_
  cases h : w.api.selected with
  | none => exact fun _ h => by cases h
  | some f =>
    show All _ (w.fs.remove e f.path >>= _)
    refine all_then fun a => ?_
    obtain ⟨_ | _, fs⟩ := a
    · exact all_ok ⟨f, rfl, by decide, shown_eq _⟩
    · exact all_ok ⟨f, rfl, rfl⟩

theorem getFileContent_all (e : Env) (w : World) :
    All (fun r => ∃ f, w.api.selected = some f ∧ Good (Names f.path) never r) (getFileContent e w) := by
  refine all_noexcept ?_
  cases h : w.api.selected with
  | none => exact fun _ h => by cases h
  | some f =>
    show All _ (Res.attempt (f.getAllBytes e w.fs 0) >>= _)
    refine all_then fun a => ?_
    cases a
    · exact all_ok ⟨f, rfl, by decide, shown_eq _⟩
    · exact all_ok ⟨f, rfl, rfl⟩

theorem finishWrite_all (e : Env) (s : Session) (fs : FS) (p : Path) : All (fun r => r.1 = .success ()) (Api.finishWrite e s fs p) :=
  all_then fun _ => all_ok rfl

theorem writeToPath_all (e : Env) (w : World) (p : Path) : All (fun r => Good (NamesOr p) never r.1) (writeToPath e w p) := by
  refine all_noexcept (all_bind (getFileHandler_all e w.fs p 0) fun a ha => ?_)
  obtain ⟨f | _ | _, j⟩ := a
  · obtain ⟨-, hf⟩ := ha
    have hf := hf f rfl
    refine all_bind (getWriteStreamIfEmpty_all e w.fs f) fun a ha => ?_
    rw [hf] at ha
    obtain ⟨⟨_ | _ | _, i⟩, f, fs⟩ := a
    · refine all_bind (finishWrite_all _ _ _ _) fun a ha => all_ok ?_
      obtain ⟨o, w'⟩ := a
      cases ha
      rfl
    · exact all_ok (.inl ha)
    · exact absurd ha id
  · exact all_ok ha.1
  · exact absurd ha.1 id

theorem writeToSelected_all (e : Env) (w : World) :
    All (fun r => ∃ f, w.api.selected = some f ∧ Good (Names f.path) never r.1) (writeToSelected e w) := by
  refine all_noexcept ?_
  cases h : w.api.selected with
  | none => exact fun _ h => by cases h
  | some f =>
    show All _ (getWriteStream e w.fs f >>= _)
    refine all_bind (getWriteStream_all e w.fs f) fun a ha => ?_
    obtain ⟨⟨_ | _ | _, i⟩, f', fs⟩ := a
    · refine all_bind (finishWrite_all _ _ _ _) fun a ha => all_ok ⟨f, rfl, ?_⟩
      obtain ⟨o, w'⟩ := a
      cases ha
      rfl
    · exact all_ok ⟨f, rfl, ha.1⟩
    · exact absurd ha.1 id

theorem getRelevantFileNames_all (hs : Hashes) (e : Env) (fs : FS) (mode : Byte) (dir : Path) :
    All (Good (Names dir) never) (getRelevantFileNames hs e fs mode dir) := by
  have key : All (fun o => (∃ a, o = .success a) ∨ (o = .fail .ERR_EMPTY_FILEPATH ∧ dir = []) ∨ o = .fail .ERR_FILEPATH_INVALID)
      (Api.getRelevantFileNames hs e fs mode dir) := by
    refine all_noexcept (all_bind (Q := fun o => (∃ a, o = .success a) ∨ (o = .fail .ERR_EMPTY_FILEPATH ∧ dir = []) ∨
      o = .fail .ERR_FILEPATH_INVALID) ?_ fun o ho => ?_)
    · refine all_noexcept ?_
      by_cases h1 : dir = []
      · rw [if_pos h1]
        exact all_ok (.inr (.inl ⟨rfl, h1⟩))
      · rw [if_neg h1]
        refine all_then fun x => ?_
        cases x
        · exact all_ok (.inr (.inr rfl))
        · by_cases h2 : fs dir ≠ .dir ∨ e.canList dir = false
          · simp only [Bool.not_true, Bool.false_eq_true, if_false, if_pos h2]
            exact all_exn _
          · simp only [Bool.not_true, Bool.false_eq_true, if_false, if_neg h2]
            exact all_then fun _ => all_ok (.inl ⟨_, rfl⟩)
    · rcases ho with ⟨a, rfl⟩ | ⟨rfl, h⟩ | rfl
      · exact all_then fun _ => all_ok (.inl ⟨_, rfl⟩)
      · exact all_ok (.inr (.inl ⟨rfl, h⟩))
      · exact all_ok (.inr (.inr rfl))
  refine all_bind key fun o ho => all_ok ?_
  rcases ho with ⟨a, rfl⟩ | ⟨rfl, rfl⟩ | rfl
  · rfl
  · exact ⟨by decide, rfl⟩
  · exact ⟨by decide, shown_eq dir⟩

/-! ### calls with secrets -/

/-- hashing does not fail: it ends or runs out of time -/
def Ends (o : Out α) : Prop := ∀ c, o ≠ .fail c

theorem chOut_ends {σ : Type} (f : σ → Bytes) (x : Option σ) : Ends (chOut f x) := by
  intro c h
  cases x <;> cases h

theorem performStr_ends (ch : ChainHash) (H : HashFn) (pw : List Byte) (t : Nat) (clk : Nat → Nat) :
    All Ends (ChainHashModes.performStr ch H pw t clk) := by
  refine all_then fun m => all_then fun n => all_then fun d => ?_
  cases m
  · exact all_noexcept (all_then fun _ => all_then fun _ => all_ok (chOut_ends _ _))
  · exact all_then fun _ => all_noexcept (all_then fun _ => all_then fun _ => all_ok (chOut_ends _ _))
  · exact all_then fun _ => all_then fun _ => all_noexcept (all_then fun _ => all_then fun _ => all_ok (chOut_ends _ _))
  · exact all_then fun _ => all_then fun _ => all_then fun _ => all_noexcept (all_then fun _ => all_then fun _ => all_ok (chOut_ends _ _))
  · exact all_then fun _ => all_then fun _ => all_then fun _ => all_then fun _ => all_then fun _ => all_then fun _ => all_then fun _ =>
      all_then fun _ => all_noexcept (all_then fun _ => all_then fun _ => all_ok (chOut_ends _ _))

theorem performBytes_ends (ch : ChainHash) (H : HashFn) (b : Bytes) (t : Nat) (clk : Nat → Nat) :
    All Ends (ChainHashModes.performBytes ch H b t clk) := by
  refine all_then fun m => all_then fun n => all_then fun d => ?_
  cases m
  · exact all_noexcept (all_then fun _ => all_ok (chOut_ends _ _))
  · exact all_then fun _ => all_noexcept (all_then fun _ => all_ok (chOut_ends _ _))
  · exact all_then fun _ => all_then fun _ => all_noexcept (all_then fun _ => all_ok (chOut_ends _ _))
  · exact all_then fun _ => all_then fun _ => all_then fun _ => all_noexcept (all_then fun _ => all_ok (chOut_ends _ _))
  · exact all_then fun _ => all_then fun _ => all_then fun _ => all_then fun _ => all_then fun _ => all_then fun _ => all_then fun _ =>
      all_then fun _ => all_noexcept (all_then fun _ => all_ok (chOut_ends _ _))

/-- one of the fixed texts -/
def Fixed (k : Call) (i : List Byte) : Prop := i ∈ (secretTexts k none).map ascii

theorem fixed {k : Call} {c : Option ErrorCode} {i : List Byte} (s : String) (hi : i = ascii s) (h : s ∈ secretTexts k c) :
    i ∈ (secretTexts k c).map ascii := hi ▸ List.mem_map_of_mem h

/-- one of the fixed texts, and no error about a path -/
def FixedSays (k : Call) (c : ErrorCode) (i : List Byte) : Prop := c ∉ pathCodes ∧ i ∈ (secretTexts k (some c)).map ascii

theorem verifyTry_all (hs : Hashes) (e : Env) (s : Session) (pw : List Byte) (t : Nat) :
    All (fun r => Good (FixedSays (.verifyPassword pw t)) (Fixed (.verifyPassword pw t)) r.1) (verifyTry hs e s pw t) := by
  have none : Fixed (.verifyPassword pw t) [] := fixed "" rfl (by simp [secretTexts])
  refine all_then fun d => all_then fun p => all_then fun m => all_bind (performStr_ends _ _ _ _ _) fun o ho => ?_
  rcases o with h1 | c | _
  · dsimp only
    by_cases h : t ≠ 0 ∧ (t + (2 ^ 64 - e.peek % 2 ^ 64)) % 2 ^ 64 = 0
    · rw [if_pos h]
      exact all_ok (fixed "Timeout reached after the first chainhash" rfl (by simp [secretTexts]))
    · rw [if_neg h]
      refine all_bind (performBytes_ends _ _ _ _ _) fun o ho => ?_
      rcases o with v | c | _
      · refine all_then fun v' => ?_
        by_cases hv : v.beq v' = true
        · rw [if_pos hv]; exact all_ok rfl
        · rw [if_neg hv]; exact all_ok ⟨by decide, fixed "" rfl (by simp [secretTexts])⟩
      · exact absurd rfl (ho c)
      · exact all_ok none
  · exact absurd rfl (ho c)
  · exact all_ok none

theorem all_attempt {x : Res α} (h : All Q x) : All (fun o => ∀ a, o = some a → Q a) (Res.attempt x) := by
  intro o ho a ha
  subst ha
  rcases x with b | e | x
  · cases ho
    exact h a rfl
  · cases e <;> cases ho
  · cases ho

theorem verifyPassword_all (hs : Hashes) (e : Env) (s : Session) (pw : List Byte) (t : Nat) :
    All (fun r => Good (FixedSays (.verifyPassword pw t)) (Fixed (.verifyPassword pw t)) r.1) (verifyPassword hs e s pw t) := by
  refine all_noexcept (all_bind (all_attempt (verifyTry_all hs e s pw t)) fun o ho => ?_)
  cases o with
  | none => exact all_ok ⟨by decide, fixed "Some error occurred while verifying the password" rfl (by simp [secretTexts])⟩
  | some r => exact all_ok (ho r rfl)

theorem getDecryptedData_all (hs : Hashes) (e : Env) (w : World) : All (fun r => Good (FixedSays .getDecryptedData) (Fixed .getDecryptedData) r.1) (getDecryptedData hs e w) := by
  refine all_noexcept (all_then fun o => ?_)
  rcases o with _ | ⟨fd, s⟩
  · exact all_ok ⟨by decide, fixed "In getDecryptedData: Something went wrong while decrypting the data" rfl (by simp [secretTexts])⟩
  · exact all_ok rfl

theorem encryptData_all (hs : Hashes) (e : Env) (s : Session) (fd : Option FileDataStruct) :
    All (fun r => Good (FixedSays (.encryptData fd)) (Fixed (.encryptData fd)) r.1) (encryptData hs e s fd) := by
  refine all_noexcept (all_then fun fd' => ?_)
  by_cases h1 : (!fd'.isComplete) = true
  · rw [if_pos h1]
    exact all_ok ⟨by decide, fixed "" rfl (by simp [secretTexts])⟩
  rw [if_neg h1]
  refine all_then fun m => ?_
  by_cases h2 : m ≠ s.fileMode
  · rw [if_pos h2]
    exact all_ok ⟨by decide, fixed " In encryptData: The provided file mode does not match with the given file data mode" rfl (by simp [secretTexts])⟩
  rw [if_neg h2]
  refine all_then fun d => all_then fun data => all_then fun o => ?_
  cases o with
  | none => exact all_ok ⟨by decide, fixed "In encryptData: Something went wrong while encrypting the data" rfl (by simp [secretTexts])⟩
  | some enc => exact all_ok rfl

/-- setting the parts of a header works, or ends in `ERR` -/
theorem setHeaderParts_all (p : DataHeaderParts) (r : Rand) :
    All (fun o => (∃ d, o = .success d) ∨ o = .fail .ERR) (DataHeader.setHeaderParts p r) := by
  refine all_noexcept fun o ho => ?_
  have inner : ∀ (x : Res (Out DataHeader)), All (fun o => ∃ d, o = .success d) x →
      ∀ o, Res.catchStd x (fun _ => .ok (.fail .ERR)) = .ok o → (∃ d, o = .success d) ∨ o = .fail .ERR := by
    intro x hx o ho
    rcases x with a | e | f
    · cases ho
      exact .inl (hx _ rfl)
    · cases e <;> cases ho <;> exact .inr rfl
    · cases ho
  exact inner _ (all_then fun _ => all_then fun _ => all_then fun _ => all_then fun _ => all_then fun _ => all_then fun _ =>
    all_then fun _ => all_then fun _ => all_then fun _ => all_then fun _ => all_then fun _ => all_then fun _ => all_ok ⟨_, rfl⟩) o ho

theorem changeSalt_all (e : Env) (s : Session) : All (fun r => Good (FixedSays .changeSalt) (Fixed .changeSalt) r.1) (changeSalt e s) := by
  have hf : FixedSays .changeSalt .ERR (ascii "An error occurred while setting the header parts") :=
    ⟨by decide, fixed "An error occurred while setting the header parts" rfl (by simp [secretTexts])⟩
  refine all_bind (Q := fun r => (∃ u, r.1 = .success u) ∨ r.1 = .fail .ERR) ?_ fun a ha => ?_
  · refine all_noexcept (all_then fun _ => all_then fun _ => all_then fun _ => all_then fun _ => all_then fun _ =>
      all_bind (setHeaderParts_all _ _) fun o ho => ?_)
    rcases ho with ⟨d, rfl⟩ | rfl
    · exact all_ok (.inl ⟨_, rfl⟩)
    · exact all_ok (.inr rfl)
  · obtain ⟨o, s'⟩ := a
    rcases ha with ⟨u, rfl⟩ | rfl
    · exact all_ok rfl
    · exact all_ok hf

/-- the header made by a helper and what it says -/
def GoodHelper (k : Call) (h : Helper) : Prop := Good (FixedSays k) (Fixed k) (h.1.err, h.2)

theorem makeHeader_all (hs : Hashes) (pw : List Byte) (ds : SettingsIters) (t : Nat) (e : Env) (c1 c2 : ChainHash) :
    All (GoodHelper (.createDataHeader pw ds t)) (makeHeader hs pw ds t e c1 c2) := by
  have none : Fixed (.createDataHeader pw ds t) [] := fixed "" rfl (by simp [secretTexts])
  refine all_then fun m => all_then fun p => all_then fun m => all_then fun p => all_then fun m => all_bind (performStr_ends _ _ _ _ _) fun o ho => ?_
  rcases o with h1 | c | _
  · dsimp only
    by_cases h : t ≠ 0 ∧ t ≤ e.peek
    · rw [if_pos h]
      exact all_ok none
    · rw [if_neg h]
      refine all_bind (performBytes_ends _ _ _ _ _) fun o ho => ?_
      rcases o with v | c | _
      · refine all_then fun _ => all_then fun _ => all_then fun _ => all_bind (setHeaderParts_all _ _) fun o ho => ?_
        rcases ho with ⟨d, rfl⟩ | rfl
        · exact all_ok rfl
        · exact all_ok (a := _) ⟨by decide, fixed "An error occurred while setting the header parts" rfl (by simp [secretTexts])⟩
      · exact absurd rfl (ho c)
      · exact all_ok none
  · exact absurd rfl (ho c)
  · exact all_ok none

theorem createDataHeaderIters_all (hs : Hashes) (mode : Byte) (pw : List Byte) (ds : SettingsIters) (t : Nat) (e : Env)
    (hc : ds.isComplete = true) : All (GoodHelper (.createDataHeader pw ds t)) (createDataHeaderIters hs mode pw ds t e) := by
  refine all_noexcept ?_
  rw [if_neg (by rw [hc]; decide)]
  refine all_then fun m => ?_
  by_cases h2 : m ≠ mode.toNat
  · rw [if_pos h2]
    exact all_ok (a := _) ⟨by decide, fixed "The file mode does not match with the file data mode" rfl (by simp [secretTexts])⟩
  rw [if_neg h2]
  refine all_then fun o => ?_
  rcases o with _ | ⟨c1, c2⟩
  · exact all_ok (a := _) ⟨by decide, fixed "Something went wrong while creating the chainhashes" rfl (by simp [secretTexts])⟩
  · exact makeHeader_all hs pw ds t e c1 c2

theorem createDataHeaderTime_all (rest : Api.Helper → Res Api.Helper) (ds : SettingsTime) :
    All (fun _ => False) (createDataHeaderTime rest ds) := by
  refine all_bind (Q := fun _ => False) ?_ fun _ h => h.elim
  refine all_noexcept ?_
  by_cases h1 : (!ds.isComplete) = true
  · rw [if_pos h1]
    exact all_exn _
  · rw [if_neg h1]
    exact all_exn _

theorem createIn_all (k : Call) (w : World) (x : Res Helper) (hx : All (GoodHelper k) x) :
    All (fun r => ∃ o, r.1.1 = .flag o ∧ Good (FixedSays k) (Fixed k) (o, r.1.2)) (createIn w Api.headerForEmpty x) ∧
    All (fun r => ∃ o, r.1.1 = .flag o ∧ Good (FixedSays k) (Fixed k) (o, r.1.2)) (createIn w Api.headerForOpen x) := by
  constructor
  all_goals
    refine all_bind hx fun h hh => ?_
    obtain ⟨⟨o, pw⟩, i⟩ := h
    refine all_bind (Q := fun r => Good (FixedSays k) (Fixed k) r.1) ?_ fun r hr => all_ok ⟨_, rfl, hr⟩
    rcases o with d | c | _
  · refine all_bind (Q := fun r => ∃ b, r.1 = .success b) (all_noexcept (all_then fun _ => all_ok ⟨_, rfl⟩)) fun r hr => all_ok ?_
    obtain ⟨o, s⟩ := r
    obtain ⟨b, rfl⟩ := hr
    exact hh
  · exact all_ok hh
  · exact all_ok hh
  · exact all_ok hh
  · exact all_ok hh
  · exact all_ok hh

/-- what holds of every text that a call returns -/
structure Fits (w : World) (c : Call) (r : Ret) (i : List Byte) : Prop where
  success : succeeded r = true → i = []
  path : ∀ code, retCode r = some code → code ∈ pathCodes → ∃ p, aboutPath w.api c = some p ∧ i = shown p
  secret : handlesSecrets c = true → i ∈ (secretTexts c (retCode r)).map ascii

/-- a kind of result that shows success and errors -/
structure Shows (k : Out α → Ret) : Prop where
  success : ∀ o, succeeded (k o) = true → ∃ a, o = .success a
  code : ∀ o, retCode (k o) = failCode o

theorem shows_flag : Shows Ret.flag := ⟨fun o h => (by rcases o with a | _ | _ <;> first | exact ⟨_, rfl⟩ | (cases h)), fun _ => rfl⟩
theorem shows_plain : Shows Ret.plain := ⟨fun o h => (by rcases o with a | _ | _ <;> first | exact ⟨_, rfl⟩ | (cases h)), fun _ => rfl⟩
theorem shows_names : Shows Ret.names := ⟨fun o h => (by rcases o with a | _ | _ <;> first | exact ⟨_, rfl⟩ | (cases h)), fun _ => rfl⟩
theorem shows_content : Shows Ret.content := ⟨fun o h => (by rcases o with a | _ | _ <;> first | exact ⟨_, rfl⟩ | (cases h)), fun _ => rfl⟩
theorem shows_data : Shows Ret.data := ⟨fun o h => (by rcases o with a | _ | _ <;> first | exact ⟨_, rfl⟩ | (cases h)), fun _ => rfl⟩

theorem fits_path {k : Out α → Ret} (hk : Shows k) {P : ErrorCode → List Byte → Prop} {w : World} {c : Call} {o : Out α} {i : List Byte}
    {p : List Byte} (hc : handlesSecrets c = false) (hp : aboutPath w.api c = some p) (hg : Good P never (o, i))
    (hP : ∀ code, P code i → code ∈ pathCodes → i = shown p) : Fits w c (k o) i where
  success h := by
    obtain ⟨a, rfl⟩ := hk.success o h
    exact hg
  path code h hm := by
    rw [hk.code] at h
    rcases o with a | code' | _
    · cases h
    · cases h
      exact ⟨p, hp, hP _ hg hm⟩
    · cases h
  secret h := by rw [hc] at h; cases h

theorem fits_fixed {k : Out α → Ret} (hk : Shows k) {w : World} {c : Call} {o : Out α} {i : List Byte}
    (hg : Good (FixedSays c) (Fixed c) (o, i)) (h0 : (∃ a, o = .success a) → "" ∈ secretTexts c none) : Fits w c (k o) i where
  success h := by
    obtain ⟨a, rfl⟩ := hk.success o h
    exact hg
  path code h hm := by
    rw [hk.code] at h
    rcases o with a | code' | _
    · cases h
    · cases h
      exact absurd hm hg.1
    · cases h
  secret _ := by
    rw [hk.code]
    rcases o with a | code' | _
    · rw [show i = [] from hg]
      exact fixed "" rfl (h0 ⟨a, rfl⟩)
    · exact hg.2
    · exact hg

theorem fits_refused {k : Out α → Ret} (hk : Shows k) {w : World} {c : Call} {code : ErrorCode} {i : List Byte} (hc : code ∉ pathCodes)
    (hi : handlesSecrets c = true → i ∈ (secretTexts c (some code)).map ascii) : Fits w c (k (.fail code)) i where
  success h := by
    obtain ⟨a, ha⟩ := hk.success _ h
    cases ha
  path code' h hm := by
    rw [hk.code] at h
    cases h
    exact absurd hm hc
  secret := by rw [hk.code]; exact hi

theorem fits_plain (w : World) (c : Call) (r : Ret) (h : retCode r = none) (hc : handlesSecrets c = false) : Fits w c r [] where
  success _ := rfl
  path code h' := by rw [h] at h'; cases h'
  secret h := by rw [hc] at h; cases h

theorem call_text (hs : Hashes) (rest : Api.Helper → Res Api.Helper) (e : Env) (w : World) (c : Call)
    (hl : ∀ p l, w.fs p = .file l → l.length < 2 ^ 64) : All (fun r => Fits w c r.1.1 r.1.2) (call hs rest e w c) := by
  have names : ∀ {p : List Byte} {i : List Byte} (code : ErrorCode), Names p code i → code ∈ pathCodes → i = shown p := fun _ h _ => h.2
  have namesOr : ∀ {p : List Byte} {i : List Byte} (code : ErrorCode), NamesOr p code i → code ∈ pathCodes → i = shown p := by
    rintro p i code (h | ⟨rfl, -⟩) hm
    · exact h.2
    · exact absurd hm (by decide)
  cases c with
  | getRelevantFileNames d =>
    simp only [call]
    cases w.api.state
    case INIT => exact all_bind (getRelevantFileNames_all _ _ _ _ _) fun o ho => all_ok (fits_path shows_names rfl rfl ho names)
    all_goals exact all_ok (fits_refused shows_names (by decide) nofun)
  | createFile p =>
    simp only [call]
    cases w.api.state
    case INIT =>
      refine all_bind (createFile_all _ _ _) fun r hr => all_ok ?_
      obtain ⟨⟨o, i⟩, fs⟩ := r
      rcases o with ⟨⟩ | code | _
      · exact fits_path (k := Ret.flag) shows_flag (P := Names p) (o := .success true) rfl rfl hr names
      · exact fits_path (k := Ret.flag) shows_flag (P := Names p) (o := .fail code) rfl rfl hr names
      · exact absurd hr id
    all_goals exact all_ok (fits_refused shows_flag (by decide) nofun)
  | selectFile p =>
    simp only [call]
    cases w.api.state
    case INIT =>
      refine all_bind (selectFile_all _ _ _ _ ?_) fun r hr => all_ok (fits_path shows_flag rfl rfl hr ?_)
      · unfold FS.openIn
        cases hn : w.fs p with
        | file l => 
          have := hl p l hn
          cases hc : e.canRead p
          · simp
          · simpa using this
        | _ => simp
      · rintro code (h | h) hm
        · exact namesOr code h hm
        · exact absurd hm (says_other h)
    all_goals exact all_ok (fits_refused shows_flag (by decide) nofun)
  | isFileEmpty =>
    simp only [call]
    cases w.api.state
    case FILE_SELECTED => exact all_ok (fits_plain _ _ _ rfl rfl)
    case EMPTY_FILE_SELECTED => exact all_ok (fits_plain _ _ _ rfl rfl)
    all_goals exact all_ok (fits_refused shows_flag (by decide) nofun)
  | unselectFile =>
    simp only [call]
    cases w.api.state
    case FILE_SELECTED => exact all_ok (fits_plain _ _ _ rfl rfl)
    case EMPTY_FILE_SELECTED => exact all_ok (fits_plain _ _ _ rfl rfl)
    all_goals exact all_ok (fits_refused shows_flag (by decide) nofun)
  | deleteFile =>
    simp only [call]
    have key : All (fun r => Fits w .deleteFile r.1.1 r.1.2) (do
        let (o, w) ← deleteSelected e w
        .ok ((.flag o.1, o.2), w)) := by
      refine all_bind (deleteSelected_all _ _) fun r hr => ?_
      obtain ⟨f, hf, hr⟩ := hr
      exact all_ok (fits_path shows_flag rfl (by rw [aboutPath, hf]; rfl) hr names)
    cases w.api.state
    case FILE_SELECTED => exact key
    case EMPTY_FILE_SELECTED => exact key
    all_goals exact all_ok (fits_refused shows_flag (by decide) nofun)
  | getFileContent =>
    simp only [call]
    cases w.api.state
    case FILE_SELECTED =>
      refine all_bind (getFileContent_all _ _) fun r hr => ?_
      obtain ⟨f, hf, hr⟩ := hr
      exact all_ok (fits_path shows_content rfl (by rw [aboutPath, hf]; rfl) hr names)
    case EMPTY_FILE_SELECTED => exact all_ok (fits_plain _ _ _ rfl rfl)
    all_goals exact all_ok (fits_refused shows_content (by decide) nofun)
  | verifyPassword pw t =>
    simp only [call]
    cases w.api.state
    case FILE_SELECTED => exact all_bind (verifyPassword_all _ _ _ _ _) fun r hr => all_ok (fits_fixed shows_flag hr (by simp [secretTexts]))
    all_goals exact all_ok (fits_refused shows_flag (by decide)
      fun _ => fixed "verifyPassword is only available in the FILE_SELECTED state" rfl (by simp [secretTexts]))
  | createDataHeader pw ds t =>
    simp only [call]
    by_cases h : (!ds.isComplete) = true
    · rw [if_pos h]
      exact all_ok (fits_refused shows_flag (by decide)
        fun _ => fixed "API call made (createDataHeader) with incomplete DataHeaderSettingsIters" rfl (by simp [secretTexts]))
    · rw [if_neg h]
      have key := createIn_all _ w _ (createDataHeaderIters_all hs w.api.fileMode pw ds t e (by simpa using h))
      cases w.api.state
      case EMPTY_FILE_SELECTED =>
        intro r hr
        obtain ⟨o, ho, hg⟩ := key.1 r hr
        rw [ho]
        exact fits_fixed shows_flag hg (by simp [secretTexts])
      case DECRYPTED =>
        intro r hr
        obtain ⟨o, ho, hg⟩ := key.2 r hr
        rw [ho]
        exact fits_fixed shows_flag hg (by simp [secretTexts])
      all_goals exact all_ok (fits_refused shows_flag (by decide)
        fun _ => fixed "createDataHeader is only available in the EMPTY_FILE_SELECTED or DECRYPT state" rfl (by simp [secretTexts]))
  | createDataHeaderTime pw ds =>
    simp only [call]
    by_cases h : (!ds.isComplete) = true
    · rw [if_pos h]
      exact all_ok (fits_refused shows_flag (by decide)
        fun _ => fixed "API call made (createDataHeader) with incomplete DataHeaderSettingsTime" rfl (by simp [secretTexts]))
    · rw [if_neg h]
      have key := createDataHeaderTime_all rest ds
      cases w.api.state
      case EMPTY_FILE_SELECTED => exact all_bind key fun _ h => h.elim
      case DECRYPTED => exact all_bind key fun _ h => h.elim
      all_goals exact all_ok (fits_refused shows_flag (by decide)
        fun _ => fixed "createDataHeader is only available in the EMPTY_FILE_SELECTED or DECRYPTED state" rfl (by simp [secretTexts]))
  | changeSalt =>
    simp only [call]
    cases w.api.state
    case DECRYPTED => exact all_bind (changeSalt_all _ _) fun r hr => all_ok (fits_fixed shows_plain hr (by simp [secretTexts]))
    all_goals exact all_ok (fits_refused shows_plain (by decide)
      fun _ => fixed "changeSalt is only available in the DECRYPTED state" rfl (by simp [secretTexts]))
  | getDecryptedData =>
    simp only [call]
    cases w.api.state
    case PASSWORD_VERIFIED => exact all_bind (getDecryptedData_all _ _ _) fun r hr => all_ok (fits_fixed shows_data hr (by simp [secretTexts]))
    all_goals exact all_ok (fits_refused shows_data (by decide)
      fun _ => fixed "getDecryptedData is only available in the PASSWORD_VERIFIED state" rfl (by simp [secretTexts]))
  | getFileData =>
    simp only [call]
    cases w.api.state
    case DECRYPTED =>
      refine all_ok (fits_fixed shows_data ?_ (by simp [secretTexts]))
      unfold Api.getFileData
      cases w.api.fileData
      · exact ⟨by decide, fixed "" rfl (by simp [secretTexts])⟩
      · exact rfl
    all_goals exact all_ok (fits_refused shows_data (by decide)
      fun _ => fixed "getFileData is only available in the DECRYPTED state" rfl (by simp [secretTexts]))
  | encryptData fd =>
    simp only [call]
    cases w.api.state
    case DECRYPTED => exact all_bind (encryptData_all _ _ _ _) fun r hr => all_ok (fits_fixed shows_flag hr (by simp [secretTexts]))
    all_goals exact all_ok (fits_refused shows_flag (by decide)
      fun _ => fixed "encryptData is only available in the DECRYPTED state" rfl (by simp [secretTexts]))
  | writeToFile =>
    simp only [call]
    cases w.api.state
    case ENCRYPTED =>
      refine all_bind (writeToSelected_all _ _) fun r hr => ?_
      obtain ⟨f, hf, hr⟩ := hr
      exact all_ok (fits_path shows_plain rfl (by rw [aboutPath, hf]; rfl) hr names)
    all_goals exact all_ok (fits_refused shows_plain (by decide) nofun)
  | writeToFileAt p =>
    simp only [call]
    cases w.api.state
    case ENCRYPTED => exact all_bind (writeToPath_all _ _ _) fun r hr => all_ok (fits_path shows_plain rfl rfl hr namesOr)
    all_goals exact all_ok (fits_refused shows_plain (by decide) nofun)
  | logout => exact all_ok (fits_plain _ _ _ rfl rfl)
  | logoutMode m => exact all_ok (fits_plain _ _ _ rfl rfl)

end Verif.Tell
