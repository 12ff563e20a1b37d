import Verif.Model.HeaderParse

/-
Model of the file system as far as the code observes it, of `std::filesystem::path` as far as the code uses it, and of
`/repo/src/filehandler.cpp`.
Paths are byte strings; two different strings name two different files (no `..`, no symbolic links, no NUL bytes, no
hard links). Nothing else changes the file system while a call runs; changes by other programs happen between calls.
-/
namespace Verif

/-- `std::filesystem::path` in its native form, filehandler.h l.14 -/
abbrev Path := List Byte

/-- What is found under a path. `unreachable`: the status query itself fails with an error other than "not found"
(name too long, missing search permission, too many symbolic links, …). Asked for in filehandler.cpp l.33, l.47 and api.cpp l.297, l.320. -/
inductive Node
  | missing
  | file (content : List Byte)
  | dir
  | unreachable
deriving DecidableEq, Repr

/-- The disk as the code sees it through `std::filesystem`, filehandler.cpp l.33-207 and api.cpp l.251-331. -/
abbrev FS := Path → Node

/-- the file system with one path changed, done by filehandler.cpp l.71, l.207 and api.cpp l.251 -/
def FS.set (fs : FS) (p : Path) (n : Node) : FS := fun q => if q = p then n else fs q

/-- Everything outside of the program that a single call can observe: permissions, the size reported for a directory,
the number of bytes a write really stores, the directory listing, how the streams of the call deliver their bytes,
the random source, and the clocks. Met in filehandler.cpp l.33-207, api.cpp l.251-331, rng.cpp l.53. -/
structure Env where
  canRead : Path → Bool
  canWrite : Path → Bool
  canCreate : Path → Bool
  canRemove : Path → Bool
  canList : Path → Bool
  /-- position `seekg(0, end)` reports for an opened directory (depends on the file system) -/
  dirSize : Path → Nat
  /-- how many bytes of the data passed to the output stream reach the disk (the disk may be full) -/
  stored : Nat
  /-- names in a directory, in the order the system delivers them -/
  list : Path → List (List Byte)
  /-- delivery schedule of the `i`-th stream read in the call -/
  sched : Nat → Nat → Nat
  /-- answer to the `i`-th request to the random generator in the call -/
  rand : Nat → Rand
  /-- readings of the clock in the `i`-th chain hash of the call -/
  clk : Nat → Nat → Nat
  /-- milliseconds the timer of the call shows between the two chain hashes -/
  peek : Nat

/-! paths -/

/-- `'/'` and `'.'`, filehandler.cpp l.26, api.cpp l.330-331 -/
abbrev slash : Byte := 47
/-- `'.'`, filehandler.cpp l.26, api.cpp l.330 -/
abbrev dot : Byte := 46

/-- `std::filesystem::path::filename`: everything after the last slash, api.cpp l.331 -/
def Path.filename (p : Path) : List Byte := (p.reverse.takeWhile (· ≠ slash)).reverse

/-- `std::filesystem::path::extension` as in libstdc++ (`_M_find_extension`): nothing for names of at most two
characters starting with a dot, otherwise everything from the last dot on unless that is the first character; filehandler.cpp l.26, api.cpp l.330 -/
def Path.extension (p : Path) : List Byte :=
  let f := Path.filename p
  if f.length ≤ 2 ∧ f.head? = some dot then []
  else
    let tail := (f.reverse.takeWhile (· ≠ dot)).reverse
    if tail.length = f.length then []                -- no dot
    else if tail.length + 1 = f.length then []        -- the only dot is the first character
    else f.drop (f.length - tail.length - 1)

/-- `dir / name` for a name without slash, api.cpp l.328-331, app.cpp l.128 -/
def Path.join (dir : Path) (name : List Byte) : Path :=
  if dir = [] ∨ dir.getLast? = some slash then dir ++ name else dir ++ slash :: name

/-- `std::filesystem::exists`: throws `filesystem_error` (a `runtime_error`) if the status cannot be determined, filehandler.cpp l.33, l.47, api.cpp l.297, l.320 -/
def FS.existsAt (fs : FS) (p : Path) : Res Bool :=
  match fs p with
  | .missing => .ok false
  | .unreachable => .exn .runtimeError
  | _ => .ok true

/-- does `std::ifstream(p)` open? (opening a directory for reading succeeds on Linux), filehandler.cpp l.39, l.158 -/
def FS.opens (fs : FS) (e : Env) (p : Path) : Bool :=
  match fs p with
  | .file _ => e.canRead p
  | .dir => e.canRead p
  | _ => false

/-- `std::ifstream(p, binary)`. A stream that could not be opened and a stream on a directory deliver nothing and never
recover, like a stream whose end-of-file flag is set. `i` numbers the streams of the call. See filehandler.cpp l.39, l.158, l.163. -/
def FS.openIn (fs : FS) (e : Env) (p : Path) (i : Nat) : IStream :=
  match fs p with
  | .file c => if e.canRead p then ⟨c, e.sched i, false, false⟩ else ⟨[], e.sched i, false, true⟩
  | _ => ⟨[], e.sched i, false, true⟩

/-- `std::ofstream(p)`: creates or truncates; `none` = could not be opened, filehandler.cpp l.71, l.207 -/
def FS.openOut (fs : FS) (e : Env) (p : Path) : Option FS :=
  match fs p with
  | .file _ => if e.canWrite p then some (fs.set p (.file [])) else none
  | .missing => if e.canCreate p then some (fs.set p (.file [])) else none
  | _ => none

/-- `std::filesystem::remove`: false if there is nothing, throws if it does not work; api.cpp l.251 -/
def FS.remove (fs : FS) (e : Env) (p : Path) : Res (Bool × FS) :=
  match fs p with
  | .missing => .ok (false, fs)
  | .unreachable => .exn .runtimeError
  | _ => if e.canRemove p then .ok (true, fs.set p .missing) else .exn .runtimeError

/-- `MIN_DATAHEADER_LEN`, /repo/include/settings.h l.49 -/
abbrev minDataHeaderLen : Nat := 104

/-- `class FileHandler`, filehandler.h l.13-17 -/
structure FileHandler where
  path : Path
  headerSize : Nat
  fileSize : Nat
  empty : Bool
deriving DecidableEq, Repr

namespace FileHandler

/-- `FileHandler::extension`, filehandler.cpp l.12 -/
def ext : List Byte := ascii ".enc"

/-- `isValidPath` (noexcept), filehandler.cpp l.14-56 -/
def isValidPath (e : Env) (fs : FS) (p : Path) (shouldExist : Bool) : Res (Out Unit) := Res.noexcept <|
  if p = [] then .ok (.fail .ERR_EMPTY_FILEPATH)
  else if Path.extension p ≠ ext then .ok (.fail .ERR_EXTENSION_INVALID)
  else if shouldExist then do
    if !(← fs.existsAt p) then .ok (.fail .ERR_FILE_NOT_FOUND)
    else if !fs.opens e p then .ok (.fail .ERR_FILE_NOT_OPEN)
    else .ok (.success ())
  else do
    if ← fs.existsAt p then .ok (.fail .ERR_FILE_EXISTS)
    else .ok (.success ())

/-- `createFile` (noexcept), filehandler.cpp l.58-81 -/
def createFile (e : Env) (fs : FS) (p : Path) : Res (Out Unit × FS) := Res.noexcept do
  match ← isValidPath e fs p false with
  | .success () =>
    match fs.openOut e p with
    | none => .ok (.fail .ERR_FILE_NOT_CREATED, fs)
    | some fs' => .ok (.success (), fs')
  | .fail c => .ok (.fail c, fs)
  | .timeout => .ok (.timeout, fs)

/-- `end - begin` in `update`, filehandler.cpp l.93-97. For a stream that is not open both positions are -1. Sizes are
natural numbers (files are shorter than 2^63 bytes). -/
def measure (e : Env) (fs : FS) (p : Path) : Nat :=
  match fs p with
  | .file c => if e.canRead p then c.length else 0
  | .dir => if e.canRead p then e.dirSize p else 0
  | _ => 0

/-- reading the two size fields in `update`, filehandler.cpp l.100-119 -/
def readHeaderSize (s : IStream) (fileSize : Nat) : Res Nat := do
  let (r, s) ← readData s (Bytes.empty 8) 8
  match r with
  | none => if fileSize = 0 then .ok 0 else .exn .lengthError
  | some tmp =>
    if (← tmp.toLong).toNat ≠ fileSize then .exn .logicError
    else do
      let tmp ← tmp.setLen 0
      let (r, _) ← readData s tmp 8
      match r with
      | none => .exn .lengthError
      | some tmp => do
        let n ← tmp.toLong
        .ok n.toNat

/-- `update`, filehandler.cpp l.92-129, on an object for path `p`; `i` is the number of the stream -/
def update (e : Env) (fs : FS) (p : Path) (i : Nat) : Res FileHandler := do
  let size := measure e fs p
  let header ← readHeaderSize (fs.openIn e p i) size
  if header > size then .exn .logicError
  else if header < minDataHeaderLen ∧ ¬ (header = 0 ∧ size = 0) then .exn .lengthError
  else .ok ⟨p, header, size, size == 0⟩

/-- constructor, filehandler.cpp l.83-90 -/
def new (e : Env) (fs : FS) (p : Path) (i : Nat) : Res FileHandler := do
  match ← isValidPath e fs p true with
  | .success () => update e fs p i
  | _ => .exn .runtimeError

/-- `getDataHeader` (noexcept), filehandler.cpp l.148-154; `i` is the number of the stream, `r` the random source of the
header constructor -/
def getDataHeader (hs : Hashes) (e : Env) (fs : FS) (f : FileHandler) (i : Nat) (r : Rand) : Res (Out DataHeader) :=
  Res.noexcept do
    match ← HeaderParse.setHeaderStream hs r (fs.openIn e f.path i) with
    | .val d _ => .ok (.success d)
    | .stop c => .ok (.fail c)

/-- `isDataHeader` (noexcept), filehandler.cpp l.131-144 -/
def isDataHeader (hs : Hashes) (e : Env) (fs : FS) (f : FileHandler) (mode : Byte) (i : Nat) (r : Rand) : Res (Out Unit) :=
  Res.noexcept do
    match ← f.getDataHeader hs e fs i r with
    | .success d => do
      let p ← d.getDataHeaderParts
      let m ← DataHeaderParts.get p.fileMode
      if m = mode then .ok (.success ()) else .ok (.fail .ERR_FILEMODE_INVALID)
    | .fail c => .ok (.fail c)
    | .timeout => .ok .timeout

/-- `isEmtpy`, filehandler.cpp l.146 -/
def isEmpty (f : FileHandler) : Bool := f.empty

/-- `getDataStream`, filehandler.cpp l.161-166: positioned behind the header (seeking on a stream that is not open does
nothing; seeking behind the end works, reading then finds the end) -/
def getDataStream (e : Env) (fs : FS) (f : FileHandler) (i : Nat) : IStream :=
  let s := fs.openIn e f.path i
  { s with rest := s.rest.drop f.headerSize }

/-- `getDataSize`, filehandler.cpp l.172 (`size_t`; the header size never exceeds the file size, l.121) -/
def getDataSize (f : FileHandler) : Nat := f.fileSize - f.headerSize

/-- `getWriteStream` (noexcept), filehandler.cpp l.194-215: outcome, the object afterwards (both sizes are set to 0 in
every case) and the file system with the file truncated on success -/
def getWriteStream (e : Env) (fs : FS) (f : FileHandler) : Res (Out Unit × FileHandler × FS) := Res.noexcept do
  let f := { f with headerSize := 0, fileSize := 0 }
  match ← isValidPath e fs f.path true with
  | .success () =>
    match fs.openOut e f.path with
    | none => .ok (.fail .ERR_FILE_NOT_OPEN, f, fs)
    | some fs' => .ok (.success (), f, fs')
  | .fail c => .ok (.fail c, f, fs)
  | .timeout => .ok (.timeout, f, fs)

/-- `getWriteStreamIfEmpty` (noexcept), filehandler.cpp l.217-226 -/
def getWriteStreamIfEmpty (e : Env) (fs : FS) (f : FileHandler) : Res (Out Unit × FileHandler × FS) := Res.noexcept <|
  if f.isEmpty then f.getWriteStream e fs else .ok (.fail .ERR_FILE_NOT_EMPTY, f, fs)

/-- `getAllBytes`, filehandler.cpp l.246-267. `readData` takes a 32-bit size, so for files of 2^32 bytes and more only
the remainder is read. -/
def getAllBytes (e : Env) (fs : FS) (f : FileHandler) (i : Nat) : Res Bytes :=
  if !fs.opens e f.path then .exn .runtimeError
  else do
    let size := measure e fs f.path
    let (r, _) ← readData (fs.openIn e f.path i) (Bytes.empty size) size
    match r with
    | none => .exn .lengthError
    | some b => .ok b

/-- `getFirstBytes`, filehandler.cpp l.269-283 -/
def getFirstBytes (e : Env) (fs : FS) (f : FileHandler) (num : Nat) (i : Nat) : Res Bytes :=
  if !fs.opens e f.path then .exn .runtimeError
  else do
    let (r, _) ← readData (fs.openIn e f.path i) (Bytes.empty num) num
    match r with
    | none => .exn .lengthError
    | some b => .ok b

end FileHandler
end Verif
