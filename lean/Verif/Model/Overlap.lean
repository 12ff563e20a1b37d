import Verif.Model.Many

/-
Calls that overlap in time: several sessions, each in a thread or program of its own, on one disk.
A call is broken up into its accesses to the disk. Between two accesses other calls may make theirs.
What is taken to be one access: asking for the status of a path; opening a file for reading and reading what the call wants from
it; opening a file for writing, which creates or empties it; writing the data into an open file; removing; looking at an entry
of a directory. (Really reading and writing may take several accesses each.)
Computations without disk access are those of Model/Api and Model/FileSys; functions that look at one path there are used here on
a disk that has everywhere what was found under the path.
-/
namespace Verif

/-- the accesses of a call to the disk: `act p f k` finds some `n` under `p`, replaces it by `f n` if that is something, and goes
on with `k n`, filehandler.cpp l.33, l.39, l.47, l.71, l.158, l.163, l.207, api.cpp l.251, l.297, l.320, l.328 -/
inductive Prog (α : Type) where
  | done (r : Res α)
  | act (p : Path) (f : Node → Option Node) (k : Node → Prog α)

namespace Prog

/-- one statement after the other, as in filehandler.cpp l.194-215 -/
def bind {α β : Type} : Prog α → (α → Prog β) → Prog β
  | .done (.ok a), g => g a
  | .done (.exn x), _ => .done (.exn x)
  | .done (.fatal x), _ => .done (.fatal x)
  | .act p f k, g => .act p f fun n => (k n).bind g

/-- sequences of statements (`do` notation), as in filehandler.cpp l.194-215 -/
instance : Monad Prog where
  pure a := .done (.ok a)
  bind := bind

/-- computations without disk access, for example api.cpp l.595-598 -/
instance : MonadLift Res Prog := ⟨.done⟩

/-- looking at what is under a path, `std::filesystem::exists` and alike, filehandler.cpp l.33, l.47 -/
def look (p : Path) : Prog Node := .act p (fun _ => none) fun n => .done (.ok n)

/-- `noexcept`, api.h l.330-463 -/
def noexcept {α : Type} : Prog α → Prog α
  | .done r => .done r.noexcept
  | .act p f k => .act p f fun n => (k n).noexcept

/-- `try { x } catch (const std::exception&) { … }`, api.cpp l.22, l.63, l.170, l.409, l.487, l.566, l.606 -/
def attempt {α : Type} : Prog α → Prog (Option α)
  | .done r => .done r.attempt
  | .act p f k => .act p f fun n => (k n).attempt

end Prog

/-- the disk after an access, filehandler.cpp l.71, l.207, api.cpp l.251 -/
def FS.alter (fs : FS) (p : Path) (f : Node → Option Node) : FS := match f (fs p) with
  | some n => fs.set p n
  | none => fs

namespace Steps
open Prog

/-- a disk with the same everywhere, no code of its own: the argument for what filehandler.cpp l.33-207 finds under one path -/
def only (n : Node) : FS := fun _ => n

/-- `std::filesystem::exists`, filehandler.cpp l.33 and l.47, api.cpp l.320 -/
def existsAt (p : Path) : Prog Bool := do
  let n ← look p
  FS.existsAt (only n) p

/-- `isValidPath` (noexcept), filehandler.cpp l.14-56 -/
def isValidPath (e : Env) (p : Path) (shouldExist : Bool) : Prog (Out Unit) := Prog.noexcept <|
  if p = [] then pure (.fail .ERR_EMPTY_FILEPATH)
  else if Path.extension p ≠ FileHandler.ext then pure (.fail .ERR_EXTENSION_INVALID)
  else if shouldExist then do
    if !(← existsAt p) then pure (.fail .ERR_FILE_NOT_FOUND)
    else do
      let n ← look p
      if !FS.opens (only n) e p then pure (.fail .ERR_FILE_NOT_OPEN)
      else pure (.success ())
  else do
    if ← existsAt p then pure (.fail .ERR_FILE_EXISTS)
    else pure (.success ())

/-- `std::ofstream(p)`: did it open? filehandler.cpp l.71 and l.207 -/
def openOut (e : Env) (p : Path) : Prog Bool :=
  .act p (fun n => (FS.openOut (only n) e p).map (· p)) fun n => .done (.ok (FS.openOut (only n) e p).isSome)

/-- `createFile` (noexcept), filehandler.cpp l.58-81 -/
def createFile (e : Env) (p : Path) : Prog (Out Unit) := Prog.noexcept do
  match ← isValidPath e p false with
  | .success () => do
    if ← openOut e p then pure (.success ()) else pure (.fail .ERR_FILE_NOT_CREATED)
  | .fail c => pure (.fail c)
  | .timeout => pure .timeout

/-- constructor, filehandler.cpp l.83-90, with `update`, l.92-129 -/
def newHandler (e : Env) (p : Path) (i : Nat) : Prog FileHandler := do
  match ← isValidPath e p true with
  | .success () => do
    let n ← look p
    FileHandler.update e (only n) p i
  | _ => .done (.exn .runtimeError)

/-- `_getFileHandler` (noexcept), api.cpp l.12-27 -/
def getFileHandler (e : Env) (p : Path) (i : Nat) : Prog (Out FileHandler) := Prog.noexcept do
  match ← isValidPath e p true with
  | .success () => do
    match ← Prog.attempt (newHandler e p i) with
    | some f => pure (.success f)
    | none => pure (.fail .ERR_FILEHANDLER_CREATION)
  | .fail c => pure (.fail c)
  | .timeout => pure .timeout

/-- `getDataHeader` (noexcept), filehandler.cpp l.148-154 -/
def getDataHeader (hs : Hashes) (e : Env) (f : FileHandler) (i : Nat) (r : Rand) : Prog (Out DataHeader) := do
  let n ← look f.path
  f.getDataHeader hs e (only n) i r

/-- `isDataHeader` (noexcept), filehandler.cpp l.131-144 -/
def isDataHeader (hs : Hashes) (e : Env) (f : FileHandler) (mode : Byte) (i : Nat) (r : Rand) : Prog (Out Unit) := do
  let n ← look f.path
  f.isDataHeader hs e (only n) mode i r

/-- `getWriteStream` (noexcept), filehandler.cpp l.194-215: outcome and the object afterwards -/
def getWriteStream (e : Env) (f : FileHandler) : Prog (Out Unit × FileHandler) := Prog.noexcept do
  let f := { f with headerSize := 0, fileSize := 0 }
  match ← isValidPath e f.path true with
  | .success () => do
    if ← openOut e f.path then pure (.success (), f) else pure (.fail .ERR_FILE_NOT_OPEN, f)
  | .fail c => pure (.fail c, f)
  | .timeout => pure (.timeout, f)

/-- `getWriteStreamIfEmpty` (noexcept), filehandler.cpp l.217-226 -/
def getWriteStreamIfEmpty (e : Env) (f : FileHandler) : Prog (Out Unit × FileHandler) := Prog.noexcept <|
  if f.isEmpty then getWriteStream e f else pure (.fail .ERR_FILE_NOT_EMPTY, f)

/-- writing `b` through an open stream, api.cpp l.713 and l.731: the bytes replace the first bytes of the file; if the file
has been removed in the meantime the name is gone and nothing can be seen of it -/
def writeOut (p : Path) (b : List Byte) : Prog Unit :=
  .act p (fun n => match n with
    | .file old => some (.file (b ++ old.drop b.length))
    | _ => none) fun _ => .done (.ok ())

/-- writing into the emptied file and closing it, api.cpp l.712-714 and l.730-732 -/
def finishWrite (e : Env) (s : Session) (p : Path) : Prog (Out Unit × Session) := do
  let b ← Api.fullData s
  writeOut p (b.data.take e.stored)
  pure (.success (), { s with encrypted := none, state := .FINISHED })

/-- `ENCRYPTED::writeToFile(path)` (noexcept), api.cpp l.698-719 -/
def writeToPath (e : Env) (s : Session) (p : Path) : Prog (Out Unit × Session) := Prog.noexcept do
  match ← getFileHandler e p 0 with
  | .success f => do
    match ← getWriteStreamIfEmpty e f with
    | (.success (), f) => finishWrite e s f.path
    | (.fail c, _) => pure (.fail c, s)
    | (.timeout, _) => pure (.timeout, s)
  | .fail c => pure (.fail c, s)
  | .timeout => pure (.timeout, s)

/-- `ENCRYPTED::writeToFile()` (noexcept), api.cpp l.721-737 -/
def writeToSelected (e : Env) (s : Session) : Prog (Out Unit × Session) := Prog.noexcept do
  let f ← deref s.selected
  match ← getWriteStream e f with
  | (.success (), f) => finishWrite e { s with selected := some f } f.path
  | (.fail c, f) => pure (.fail c, { s with selected := some f })
  | (.timeout, f) => pure (.timeout, { s with selected := some f })

/-- `std::filesystem::remove`, api.cpp l.251 -/
def remove (e : Env) (p : Path) : Prog Bool :=
  .act p (fun n => match FS.remove (only n) e p with
    | .ok (true, fs) => some (fs p)
    | _ => none) fun n => .done (do
      let (ok, _) ← FS.remove (only n) e p
      .ok ok)

/-- `_deleteFile` (noexcept), api.cpp l.249-258 -/
def deleteSelected (e : Env) (s : Session) : Prog (Out Bool × Session) := Prog.noexcept do
  let f ← deref s.selected
  if !(← remove e f.path) then pure (.fail .ERR_FILE_NOT_DELETED, s)
  else pure (.success true, Api.unselect s)

/-- the loop over the directory entries in `getAllEncFileNames`, api.cpp l.328-333 -/
def pick (dir : Path) : List (List Byte) → Prog (List (List Byte))
  | [] => pure []
  | n :: ns => do
    match ← look (Path.join dir n) with
    | .unreachable => .done (.exn .runtimeError)
    | .file _ => do
      let rest ← pick dir ns
      pure (if Path.extension (Path.join dir n) = FileHandler.ext then Path.filename (Path.join dir n) :: rest else rest)
    | _ => pick dir ns

/-- `getAllEncFileNames` (static, noexcept), api.cpp l.309-335 -/
def getAllEncFileNames (e : Env) (dir : Path) : Prog (Out (List (List Byte))) := Prog.noexcept <|
  if dir = [] then pure (.fail .ERR_EMPTY_FILEPATH)
  else do
    if !(← existsAt dir) then pure (.fail .ERR_FILEPATH_INVALID)
    else do
      let n ← look dir
      if n ≠ .dir ∨ e.canList dir = false then .done (.exn .runtimeError)
      else do
        let names ← pick dir (e.list dir)
        pure (.success names)

/-- the loop of `INIT::getRelevantFileNames`, api.cpp l.347-361 -/
def scan (hs : Hashes) (e : Env) (mode : Byte) (dir : Path) :
    List (List Byte) → Nat → List (List Byte) → Prog (List (List Byte))
  | [], _, ret => pure ret
  | n :: ns, i, ret => do
    match ← getFileHandler e (Path.join dir n) (2 * i) with
    | .success f => do
      if f.isEmpty then scan hs e mode dir ns (i + 1) ret
      else do
        let _ ← isDataHeader hs e f mode (2 * i + 1) (e.rand i)
        scan hs e mode dir ns (i + 1) ret
    | _ => scan hs e mode dir ns (i + 1) ret

/-- `INIT::getRelevantFileNames` (noexcept), api.cpp l.337-363 -/
def getRelevantFileNames (hs : Hashes) (e : Env) (mode : Byte) (dir : Path) : Prog (Out (List (List Byte))) :=
  Prog.noexcept do
    match ← getAllEncFileNames e dir with
    | .success names => do
      let ret ← scan hs e mode dir names 0 []
      pure (.success ret)
    | .fail c => pure (.fail c)
    | .timeout => pure .timeout

/-- `_select_non_empty_file` (noexcept), api.cpp l.233-247 -/
def selectNonEmptyFile (hs : Hashes) (e : Env) (s : Session) (f : FileHandler) : Prog (Out Bool × Session) :=
  Prog.noexcept do
    match ← getDataHeader hs e f 1 (e.rand 0) with
    | .success d => pure (.success true, { s with dh := some d, selected := some f, state := .FILE_SELECTED })
    | .fail c => pure (.fail c, s)
    | .timeout => pure (.timeout, s)

/-- `INIT::selectFile` (noexcept), api.cpp l.370-383 -/
def selectFile (hs : Hashes) (e : Env) (s : Session) (p : Path) : Prog (Out Bool × Session) := Prog.noexcept do
  match ← getFileHandler e p 0 with
  | .success f =>
    if f.isEmpty then pure (.success true, Api.selectEmptyFile s f)
    else selectNonEmptyFile hs e s f
  | .fail c => pure (.fail c, s)
  | .timeout => pure (.timeout, s)

/-- `FILE_SELECTED::getFileContent` (noexcept), api.cpp l.405-414 -/
def getFileContent (e : Env) (s : Session) : Prog (Out Bytes) := Prog.noexcept do
  let f ← deref s.selected
  let n ← look f.path
  match ← Res.attempt (f.getAllBytes e (only n) 0) with
  | some b => pure (.success b)
  | none => pure (.fail .ERR_FILE_READ)

/-- `PASSWORD_VERIFIED::getDecryptedData` (noexcept), api.cpp l.550-571. The chain is set up before the file is opened (l.557);
setting it up does not look at the disk. Without a selected file nothing is opened. -/
def getDecryptedData (hs : Hashes) (e : Env) (s : Session) : Prog (Out FileDataStruct × Session) := do
  match s.selected with
  | some f => do
    let n ← look f.path
    let (o, w) ← Api.getDecryptedData hs e ⟨s, only n⟩
    pure (o, w.api)
  | none => do
    let (o, w) ← Api.getDecryptedData hs e ⟨s, only .missing⟩
    pure (o, w.api)

/-- One call (api.h l.143-274 and l.339-463), see `Api.call`. Calls that do not look at the disk are taken from there. -/
def call (hs : Hashes) (rest : Api.Helper → Res Api.Helper) (e : Env) (s : Session) (c : Call) : Prog (Ret × Session) :=
  match c, s.state with
  | .getRelevantFileNames dir, .INIT => do
    let o ← getRelevantFileNames hs e s.fileMode dir
    pure (.names o, s)
  | .createFile p, .INIT => do
    let o ← createFile e p
    pure (match o with
      | .success () => .flag (.success true)
      | .fail c => .flag (.fail c)
      | .timeout => .flag .timeout, s)
  | .selectFile p, .INIT => do
    let (o, s) ← selectFile hs e s p
    pure (.flag o, s)
  | .deleteFile, .FILE_SELECTED | .deleteFile, .EMPTY_FILE_SELECTED => do
    let (o, s) ← deleteSelected e s
    pure (.flag o, s)
  | .getFileContent, .FILE_SELECTED => do
    let o ← getFileContent e s
    pure (.content o, s)
  | .getDecryptedData, .PASSWORD_VERIFIED => do
    let (o, s) ← getDecryptedData hs e s
    pure (.data o, s)
  | .writeToFile, .ENCRYPTED => do
    let (o, s) ← writeToSelected e s
    pure (.plain o, s)
  | .writeToFileAt p, .ENCRYPTED => do
    let (o, s) ← writeToPath e s p
    pure (.plain o, s)
  | c, _ => do
    let (r, w) ← Api.call hs rest e ⟨s, only .missing⟩ c
    pure (r, w.api)

end Steps

/-- a call that has been started: which one, and what it still has to do; api.h l.339-463 -/
structure Running where
  call : Call
  prog : Prog (Ret × Session)

/-- several `API` objects (api.h l.276-285 each), the calls that are going on, and the disk -/
structure Over where
  api : Nat → Session
  running : Nat → Option Running
  fs : FS

/-- a session starts a call, a call makes its next access to the disk or returns, another program changes a path; api.h l.339-463 -/
inductive OverEvent
  | start (i : Nat) (c : Call) (e : Env)
  | step (i : Nat)
  | outside (p : Path) (n : Node)

/-- sessions on a disk, none of them in a call; api.h l.276-285 -/
def Over.quiet (m : Many) : Over := ⟨m.api, fun _ => none, m.fs⟩

/-- the `i`-th session goes on with `r`, api.h l.339-463 -/
def Over.set (m : Over) (i : Nat) (r : Option Running) : Over := { m with running := fun j => if j = i then r else m.running j }

namespace Api

/-- One step (api.h l.339-463 for the calls). A session that is in a call starts no other; a call that dies takes everything with
it. -/
def stepOver (hs : Hashes) (rest : Helper → Res Helper) (m : Over) : OverEvent → Res (Option (Nat × Ret) × Over)
  | .start i c e => match m.running i with
    | some _ => .ok (none, m)
    | none => .ok (none, m.set i (some ⟨c, Steps.call hs rest e (m.api i) c⟩))
  | .step i => match m.running i with
    | none => .ok (none, m)
    | some r => match r.prog with
      | .done x => do
        let (ret, s) ← x
        .ok (some (i, ret), { m.set i none with api := fun j => if j = i then s else m.api j })
      | .act p f k => .ok (none, { m.set i (some { r with prog := k (m.fs p) }) with fs := m.fs.alter p f })
  | .outside p n => .ok (none, { m with fs := m.fs.set p n })

/-- a history (api.h l.339-463 for the calls); the values returned, in the order in which calls return -/
def runOver (hs : Hashes) (rest : Helper → Res Helper) (m : Over) : List OverEvent → Res (List (Option (Nat × Ret)) × Over)
  | [] => .ok ([], m)
  | ev :: evs => do
    let (r, m) ← stepOver hs rest m ev
    let (rs, m) ← runOver hs rest m evs
    .ok (r :: rs, m)

end Api
end Verif
