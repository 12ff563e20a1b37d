import Verif.Spec.NoCrash
import Verif.Spec.Cipher

/-
An ideal vault: what the program is supposed to be, without headers, keys, streams, handles and state objects. Locked boxes
lie in slots; a session goes through phases. Used in the statement that a session behaves like the ideal vault.
-/
namespace Verif.Spec

/-- a locked box: the passwords that open it, what each of them shows, and its bytes as seen from outside -/
structure Box where
  accepts : List Byte → Prop
  shows : List Byte → List Byte
  raw : List Byte

/-- what lies under a path -/
inductive Slot
  | missing
  | empty
  | box (b : Box)

/-- how far a session has come; a lock is the set of passwords that will open the box -/
inductive Phase
  | idle
  | chosen (p : Path)
  | verified (p : Path) (pw : List Byte)
  | opened (p : Path) (lock : List Byte → Prop) (pw : List Byte) (fresh : Bool)
  | ready (p : Path) (lock : List Byte → Prop) (pw data : List Byte)
  | done

/-- the file a phase is about -/
def Phase.path : Phase → Option Path
  | .chosen p | .verified p _ | .opened p _ _ _ | .ready p _ _ _ => some p
  | .idle | .done => none

structure Vault where
  slots : Path → Slot
  phase : Phase

namespace Vault

/-- put something into a slot -/
def put (v : Vault) (p : Path) (s : Slot) (ph : Phase) : Vault := ⟨fun q => if q = p then s else v.slots q, ph⟩

/-- go on to another phase -/
def goto (v : Vault) (ph : Phase) : Vault := ⟨v.slots, ph⟩

end Vault

/-- which calls have an effect in which phase -/
def Phase.admits : Phase → Call → Prop
  | .idle, .createFile _ | .idle, .selectFile _ | .idle, .getRelevantFileNames _ => True
  | .chosen _, .isFileEmpty | .chosen _, .unselectFile | .chosen _, .deleteFile | .chosen _, .getFileContent
  | .chosen _, .verifyPassword _ _ | .chosen _, .createDataHeader _ _ _ | .chosen _, .createDataHeaderTime _ _ => True
  | .verified _ _, .getDecryptedData => True
  | .opened _ _ _ _, .getFileData | .opened _ _ _ _, .changeSalt | .opened _ _ _ _, .createDataHeader _ _ _
  | .opened _ _ _ _, .createDataHeaderTime _ _ | .opened _ _ _ _, .encryptData _ => True
  | .ready _ _ _ _, .writeToFile | .ready _ _ _ _, .writeToFileAt _ => True
  | _, .logout | _, .logoutMode _ => True
  | _, _ => False

/-- a refusal, in the type of the call -/
def refusal (c : Call) (code : ErrorCode) : Ret :=
  match c with
  | .getRelevantFileNames _ => .names (.fail code)
  | .getFileContent => .content (.fail code)
  | .getDecryptedData | .getFileData => .data (.fail code)
  | .changeSalt | .writeToFile | .writeToFileAt _ => .plain (.fail code)
  | .logout | .logoutMode _ => .void
  | _ => .flag (.fail code)

/-- paths nothing can lie under, with the reason -/
def BadPath (p : Path) (code : ErrorCode) : Prop :=
  (p = [] ∧ code = .ERR_EMPTY_FILEPATH) ∨ (p ≠ [] ∧ ¬ EncPath p ∧ code = .ERR_EXTENSION_INVALID)

/-- the settings in a call that lack something -/
def Lacking : Call → Prop
  | .createDataHeader _ ds _ => ds.isComplete = false
  | .createDataHeaderTime _ ds => ds.isComplete = false
  | _ => False

/-- at most 255 data blocks of each kind -/
def Fits (ds : SettingsIters) : Prop := ds.dec.length ≤ 255 ∧ ds.enc.length ≤ 255

/-- One call to the ideal vault with its answer. `locks ds pw lock`: with these settings and this password this lock may be
made. A call with a time limit may always run out of time, and then has no effect. -/
inductive VStep (locks : SettingsIters → List Byte → (List Byte → Prop) → Prop) : Vault → Call → Ret → Vault → Prop
  | logout (v : Vault) : VStep locks v .logout .void (v.goto .idle)
  | logoutMode (v : Vault) (m : Byte) : VStep locks v (.logoutMode m) .void (v.goto .idle)
  -- settings are looked at before anything else
  | lacking {v : Vault} {c : Call} (h : Lacking c) : VStep locks v c (refusal c .ERR_DATAHEADERSETTINGS_INCOMPLETE) v
  -- everything at its time
  | refused {v : Vault} {c : Call} (h : ¬ v.phase.admits c) (hl : ¬ Lacking c) :
      VStep locks v c (refusal c .ERR_API_STATE_INVALID) v
  -- files
  | createBad {v : Vault} {p : Path} {code : ErrorCode} (h : v.phase = .idle) (hp : BadPath p code) :
      VStep locks v (.createFile p) (.flag (.fail code)) v
  | createExists {v : Vault} {p : Path} (h : v.phase = .idle) (hp : EncPath p) (hs : v.slots p ≠ .missing) :
      VStep locks v (.createFile p) (.flag (.fail .ERR_FILE_EXISTS)) v
  | create {v : Vault} {p : Path} (h : v.phase = .idle) (hp : EncPath p) (hs : v.slots p = .missing) :
      VStep locks v (.createFile p) (.flag (.success true)) (v.put p .empty .idle)
  | selectBad {v : Vault} {p : Path} {code : ErrorCode} (h : v.phase = .idle) (hp : BadPath p code) :
      VStep locks v (.selectFile p) (.flag (.fail code)) v
  | selectMissing {v : Vault} {p : Path} (h : v.phase = .idle) (hp : EncPath p) (hs : v.slots p = .missing) :
      VStep locks v (.selectFile p) (.flag (.fail .ERR_FILE_NOT_FOUND)) v
  | select {v : Vault} {p : Path} (h : v.phase = .idle) (hp : EncPath p) (hs : v.slots p ≠ .missing) :
      VStep locks v (.selectFile p) (.flag (.success true)) (v.goto (.chosen p))
  | isEmpty {v : Vault} {p : Path} (h : v.phase = .chosen p) (hs : v.slots p = .empty) :
      VStep locks v .isFileEmpty (.flag (.success true)) v
  | isFull {v : Vault} {p : Path} {b : Box} (h : v.phase = .chosen p) (hs : v.slots p = .box b) :
      VStep locks v .isFileEmpty (.flag (.success false)) v
  | unselect {v : Vault} {p : Path} (h : v.phase = .chosen p) :
      VStep locks v .unselectFile (.flag (.success true)) (v.goto .idle)
  | delete {v : Vault} {p : Path} (h : v.phase = .chosen p) :
      VStep locks v .deleteFile (.flag (.success true)) (v.put p .missing .idle)
  | contentEmpty {v : Vault} {p : Path} {r : Bytes} (h : v.phase = .chosen p) (hs : v.slots p = .empty) (hr : r.data = []) :
      VStep locks v .getFileContent (.content (.success r)) v
  | content {v : Vault} {p : Path} {b : Box} {r : Bytes} (h : v.phase = .chosen p) (hs : v.slots p = .box b)
      (hr : r.data = b.raw) : VStep locks v .getFileContent (.content (.success r)) v
  -- passwords
  | verifyEmpty {v : Vault} {p : Path} {pw : List Byte} {t : Nat} (h : v.phase = .chosen p) (hs : v.slots p = .empty) :
      VStep locks v (.verifyPassword pw t) (.flag (.fail .ERR_API_STATE_INVALID)) v
  | verifyLate {v : Vault} {p : Path} {b : Box} {pw : List Byte} {t : Nat} (h : v.phase = .chosen p)
      (hs : v.slots p = .box b) (ht : t ≠ 0) : VStep locks v (.verifyPassword pw t) (.flag .timeout) v
  | verifyWrong {v : Vault} {p : Path} {b : Box} {pw : List Byte} {t : Nat} (h : v.phase = .chosen p)
      (hs : v.slots p = .box b) (hb : ¬ b.accepts pw) :
      VStep locks v (.verifyPassword pw t) (.flag (.fail .ERR_PASSWORD_INVALID)) v
  | verify {v : Vault} {p : Path} {b : Box} {pw : List Byte} {t : Nat} (h : v.phase = .chosen p)
      (hs : v.slots p = .box b) (hb : b.accepts pw) :
      VStep locks v (.verifyPassword pw t) (.flag (.success true)) (v.goto (.verified p pw))
  | decrypt {v : Vault} {p : Path} {pw : List Byte} {b : Box} {r : Bytes} (h : v.phase = .verified p pw)
      (hs : v.slots p = .box b) (hr : r.data = b.shows pw) :
      VStep locks v .getDecryptedData (.data (.success ⟨some 1, some r⟩)) (v.goto (.opened p b.accepts pw false))
  -- new locks
  | headerFull {v : Vault} {p : Path} {b : Box} {pw : List Byte} {ds : SettingsIters} {t : Nat} (h : v.phase = .chosen p)
      (hs : v.slots p = .box b) (hc : ds.isComplete = true) :
      VStep locks v (.createDataHeader pw ds t) (.flag (.fail .ERR_API_STATE_INVALID)) v
  | headerLate {v : Vault} {pw : List Byte} {ds : SettingsIters} {t : Nat}
      (h : (∃ p, v.phase = .chosen p ∧ v.slots p = .empty) ∨ ∃ p L pw b, v.phase = .opened p L pw b)
      (hc : ds.isComplete = true) (ht : t ≠ 0) : VStep locks v (.createDataHeader pw ds t) (.flag .timeout) v
  | headerMany {v : Vault} {pw : List Byte} {ds : SettingsIters} {t : Nat}
      (h : (∃ p, v.phase = .chosen p ∧ v.slots p = .empty) ∨ ∃ p L pw b, v.phase = .opened p L pw b)
      (hc : ds.isComplete = true) (hf : ¬ Fits ds) : VStep locks v (.createDataHeader pw ds t) (.flag (.fail .ERR)) v
  | header {v : Vault} {p : Path} {pw : List Byte} {ds : SettingsIters} {t : Nat} {L : List Byte → Prop}
      (h : v.phase = .chosen p) (hs : v.slots p = .empty) (hc : ds.isComplete = true) (hf : Fits ds) (hL : locks ds pw L) :
      VStep locks v (.createDataHeader pw ds t) (.flag (.success true)) (v.goto (.opened p L pw true))
  | reheader {v : Vault} {p : Path} {L0 : List Byte → Prop} {pw0 : List Byte} {b : Bool} {pw : List Byte}
      {ds : SettingsIters} {t : Nat} {L : List Byte → Prop} (h : v.phase = .opened p L0 pw0 b) (hc : ds.isComplete = true)
      (hf : Fits ds) (hL : locks ds pw L) :
      VStep locks v (.createDataHeader pw ds t) (.flag (.success true)) (v.goto (.opened p L pw b))
  -- work on the open box
  | fresh {v : Vault} {p : Path} {L : List Byte → Prop} {pw : List Byte} {r : Bytes} (h : v.phase = .opened p L pw true)
      (hr : r.data = []) :
      VStep locks v .getFileData (.data (.success ⟨some 1, some r⟩)) (v.goto (.opened p L pw false))
  | stale {v : Vault} {p : Path} {L : List Byte → Prop} {pw : List Byte} (h : v.phase = .opened p L pw false) :
      VStep locks v .getFileData (.data (.fail .ERR_FILEDATASTRUCT_NULL)) v
  | salt {v : Vault} {p : Path} {L : List Byte → Prop} {pw : List Byte} {b : Bool} (h : v.phase = .opened p L pw b) :
      VStep locks v .changeSalt (.plain (.success ())) v
  | encryptNoMode {v : Vault} {p : Path} {L : List Byte → Prop} {pw : List Byte} {b : Bool} {data : Bytes}
      (h : v.phase = .opened p L pw b) :
      VStep locks v (.encryptData (some ⟨none, some data⟩)) (.flag (.fail .ERR_FILEDATASTRUCT_INCOMPLETE)) v
  | encryptMode {v : Vault} {p : Path} {L : List Byte → Prop} {pw : List Byte} {b : Bool} {data : Bytes} {m : Byte}
      (h : v.phase = .opened p L pw b) (hm : m ≠ 1) :
      VStep locks v (.encryptData (some ⟨some m, some data⟩)) (.flag (.fail .ERR_FILEMODE_INVALID)) v
  | encrypt {v : Vault} {p : Path} {L : List Byte → Prop} {pw : List Byte} {b : Bool} {data : Bytes}
      (h : v.phase = .opened p L pw b) :
      VStep locks v (.encryptData (some ⟨some 1, some data⟩)) (.flag (.success true)) (v.goto (.ready p L pw data.data))
  -- saving
  | save {v : Vault} {p : Path} {L : List Byte → Prop} {pw data : List Byte} {b : Box} (h : v.phase = .ready p L pw data)
      (ha : b.accepts = L) (hb : b.shows pw = data) :
      VStep locks v .writeToFile (.plain (.success ())) (v.put p (.box b) .done)
  | saveAtBad {v : Vault} {p : Path} {L : List Byte → Prop} {pw data : List Byte} {q : Path} {code : ErrorCode}
      (h : v.phase = .ready p L pw data) (hq : BadPath q code) :
      VStep locks v (.writeToFileAt q) (.plain (.fail code)) v
  | saveAtMissing {v : Vault} {p : Path} {L : List Byte → Prop} {pw data : List Byte} {q : Path}
      (h : v.phase = .ready p L pw data) (hq : EncPath q) (hs : v.slots q = .missing) :
      VStep locks v (.writeToFileAt q) (.plain (.fail .ERR_FILE_NOT_FOUND)) v
  | saveAtFull {v : Vault} {p : Path} {L : List Byte → Prop} {pw data : List Byte} {q : Path} {b : Box}
      (h : v.phase = .ready p L pw data) (hq : EncPath q) (hs : v.slots q = .box b) :
      VStep locks v (.writeToFileAt q) (.plain (.fail .ERR_FILE_NOT_EMPTY)) v
  | saveAt {v : Vault} {p : Path} {L : List Byte → Prop} {pw data : List Byte} {q : Path} {b : Box}
      (h : v.phase = .ready p L pw data) (hq : EncPath q) (hs : v.slots q = .empty) (ha : b.accepts = L)
      (hb : b.shows pw = data) : VStep locks v (.writeToFileAt q) (.plain (.success ())) (v.put q (.box b) .done)

/-- a history of calls with their answers, as the ideal vault can give them -/
inductive VRun (locks : SettingsIters → List Byte → (List Byte → Prop) → Prop) :
    Vault → List Event → List (Option Ret) → Vault → Prop
  | nil (v : Vault) : VRun locks v [] [] v
  | call {v v1 v2 : Vault} {c : Call} {e : Env} {r : Ret} {evs : List Event} {rs : List (Option Ret)}
      (h : VStep locks v c r v1) (ht : VRun locks v1 evs rs v2) : VRun locks v (.call c e :: evs) (some r :: rs) v2

/-- the locks made by the program: the passwords that reproduce the validator of a header made from the settings, the given
password among them -/
def madeLocks (hs : Hashes) (ds : SettingsIters) (pw : List Byte) (L : List Byte → Prop) : Prop :=
  ∃ h : Header, MadeFrom ds h ∧ Opens hs h pw ∧ ∀ x, L x ↔ Opens hs h x

/-- a file with this header and these encrypted data, as a locked box -/
structure Filed (hs : Hashes) (h : Header) (enc : List Byte) (m : HMode) (b : Box) : Prop where
  valid : h.Valid
  size : h.fileSize = h.length + enc.length
  small : enc.length < 2 ^ 31
  mode : m.toByte = h.hashMode
  accepts : ∀ x, b.accepts x ↔ Opens hs h x
  shows : ∀ x, IsEncryption (hs.get m).h (hs.get m).size (h.ch1.digest (hs.get m).h x) h.salt (b.shows x) enc
  raw : b.raw = h.bytes ++ enc

/-- what lies on the disk is what lies in the slot -/
inductive InSlot (hs : Hashes) : Node → Slot → Prop
  | missing : InSlot hs .missing .missing
  | empty : InSlot hs (.file []) .empty
  | box {h : Header} {enc : List Byte} {m : HMode} {b : Box} (hf : Filed hs h enc m b) :
      InSlot hs (.file (h.bytes ++ enc)) (.box b)

/-- the outside cooperates with everything, and there is room on the disk -/
structure Friendly (e : Env) : Prop where
  healthy : ∀ p, Healthy e p
  remove : ∀ p, e.canRemove p = true
  room : 2 ^ 31 + 200000 ≤ e.stored

/-- steps of a session without accidents: nobody else writes to the disk, the outside cooperates, arguments are sensible;
listing a directory is left out -/
def Smooth : Event → Prop
  | .outside _ _ => False
  | .call (.getRelevantFileNames _) _ => False
  | .call c e => Friendly e ∧ Careful c

/-- two answers that a caller cannot tell apart: byte containers are compared by their content -/
def SameAnswer : Ret → Ret → Prop
  | .content (.success a), .content (.success b) => a.data = b.data
  | .data (.success ⟨m, some a⟩), .data (.success ⟨m', some b⟩) => m = m' ∧ a.data = b.data
  | r, r' => r = r'

/-- calls without a time limit -/
def NoLimit : Call → Prop
  | .verifyPassword _ t => t = 0
  | .createDataHeader _ _ t => t = 0
  | _ => True

end Verif.Spec
