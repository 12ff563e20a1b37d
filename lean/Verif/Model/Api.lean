import Verif.Model.FileSys
import Verif.Model.BlockChain
import Verif.Model.Settings

/-
Model of `/repo/src/api.cpp`, `/repo/include/api.h` and `/repo/include/file_data.h`.
The state objects (`INIT`, `FILE_SELECTED`, …) hold nothing but a pointer to the session; they are modelled by the name
of the state, virtual dispatch by a case distinction. Deleting a state object through its base class, which has no
virtual destructor (api.h l.113-217), is formally undefined; it is not modelled.
What a call that kills the process leaves behind is not recorded in `Res`; no such call touches the disk before it dies
except a save that dies between truncation and writing; `Api.fullData_inv` (Lemmas/Crash.lean) shows that it does not.
-/
namespace Verif

/-- the state classes, api.h l.219-274 -/
inductive WState
  | INIT | FILE_SELECTED | EMPTY_FILE_SELECTED | PASSWORD_VERIFIED | DECRYPTED | ENCRYPTED | FINISHED
deriving DecidableEq, Repr

/-- `struct FileDataStruct`, file_data.h l.10-64; `decData = none`: null pointer -/
structure FileDataStruct where
  fileMode : Option Byte
  decData : Option Bytes
deriving DecidableEq, Repr

/-- constructor, file_data.h l.24-28 with `setFileMode`, l.46-54 -/
def FileDataStruct.make (mode : Byte) (data : Option Bytes) : Res FileDataStruct :=
  if fileModeValid mode then .ok ⟨some mode, data⟩ else .exn .invalidArgument

/-- `isComplete`, file_data.h l.56-63 -/
def FileDataStruct.isComplete (f : FileDataStruct) : Bool := f.fileMode.isSome

/-- `getFileMode`, file_data.h l.37-45 -/
def FileDataStruct.getFileMode (f : FileDataStruct) : Res Byte := DataHeaderParts.get f.fileMode

/-- the fields of `class API`, api.h l.276-285 -/
structure Session where
  state : WState
  fileMode : Byte
  fileData : Option FileDataStruct
  pwHash : Bytes
  encrypted : Option Bytes
  dh : Option DataHeader
  selected : Option FileHandler
deriving DecidableEq, Repr

/-- the session together with the disk, the data members of an object, api.h l.276-285, and the files it works on -/
structure World where
  api : Session
  fs : FS

/-- `try { x } catch (const std::exception&) { … }` where the handler only needs to know that something was thrown, api.cpp l.22, l.63, l.170, l.409, l.487, l.566, l.606 -/
def Res.attempt {α : Type} (x : Res α) : Res (Option α) :=
  match x with
  | .ok a => .ok (some a)
  | .exn .pointer => .exn .pointer
  | .exn _ => .ok none
  | .fatal f => .fatal f

/-- dereferencing a pointer, `std::unique_ptr`, api.h l.277-285 -/
def deref {α : Type} : Option α → Res α
  | some a => .ok a
  | none => .fatal .ub

namespace Api

/-- constructor, api.cpp l.268-279 -/
def new (mode : Byte) : Res Session :=
  if fileModeValid mode then .ok ⟨.INIT, mode, none, Bytes.empty 0, none, none, none⟩ else .exn .invalidArgument

/-- `_getFileHandler` (noexcept), api.cpp l.12-27; `i` is the number of the stream -/
def getFileHandler (e : Env) (fs : FS) (p : Path) (i : Nat) : Res (Out FileHandler) := Res.noexcept do
  match ← FileHandler.isValidPath e fs p true with
  | .success () => do
    match ← Res.attempt (FileHandler.new e fs p i) with
    | some f => .ok (.success f)
    | none => .ok (.fail .ERR_FILEHANDLER_CREATION)
  | .fail c => .ok (.fail c)
  | .timeout => .ok .timeout

/-- `struct DataHeaderHelperStruct`, api.h l.81-111 -/
structure Helper where
  err : Out DataHeader
  pwHash : Bytes
deriving DecidableEq, Repr

/-- `DataHeaderHelperStruct::createMove`, api.h l.91-95 -/
def Helper.createMove (err : Out DataHeader) : Helper := ⟨err, Bytes.empty 0⟩

/-- converting constructor, api.h l.88-90: copies the header, `returnRef` throws if there is none -/
def Helper.convert (err : Out DataHeader) : Res Helper :=
  match err with
  | .success d => .ok ⟨.success d, Bytes.empty 0⟩
  | _ => .exn .logicError

/-- an enumerator for a chain-hash mode; `Format` refuses other numbers, format.cpp l.48-52 -/
def chMode (n : Nat) : Res CHMode :=
  match CHMode.ofByte (UInt8.ofNat n) with
  | some m => .ok m
  | none => .exn .invalidArgument

/-- the `try` block of `_createDataHeaderIters`, api.cpp l.49-62 -/
def makeChains (ds : SettingsIters) (e : Env) : Res (ChainHash × ChainHash) := do
  let m1 ← chMode (← ds.getChainHash1Mode)
  let m2 ← chMode (← ds.getChainHash2Mode)
  let d1 ← (ChainHashData.new m1).generateRandomData (e.rand 0)
  let d2 ← (ChainHashData.new m2).generateRandomData (e.rand 1)
  let c1 ← (ChainHash.make m1 (UInt64.ofNat (← ds.getChainHash1Iters)) (some d1)).assign
  let c2 ← (ChainHash.make m2 (UInt64.ofNat (← ds.getChainHash2Iters)) (some d2)).assign
  if (← c1.getData).getLen ≠ d1.getLen ∨ (← c2.getData).getLen ≠ d2.getLen then .exn .logicError else .ok (c1, c2)

/-- the two chain hashes and the header, api.cpp l.70-128. `timeout` is a 64-bit number; the subtraction l.104 does not
wrap because of l.96. -/
def makeHeader (hs : Hashes) (pw : List Byte) (ds : SettingsIters) (timeout : Nat) (e : Env) (c1 c2 : ChainHash) :
    Res Helper := do
  let p : DataHeaderParts := { DataHeaderParts.empty with dec := ds.dec, enc := ds.enc, ch1 := c1, ch2 := c2 }
  let p ← p.setFileDataMode (UInt8.ofNat (← ds.getFileDataMode))
  let p ← p.setHashMode (UInt8.ofNat (← ds.getHashMode))
  let m ← DataHeaderParts.get p.hashMode
  match ← ChainHashModes.performStr p.ch1 (hs.get m) pw timeout (e.clk 0) with
  | .fail c => .ok (.createMove (.fail c))
  | .timeout => .ok (.createMove .timeout)
  | .success h1 =>
    if timeout ≠ 0 ∧ timeout ≤ e.peek then .ok (.createMove .timeout)
    else do
      match ← ChainHashModes.performBytes p.ch2 (hs.get m) h1 (if timeout ≠ 0 then timeout - e.peek else timeout) (e.clk 1) with
      | .fail c => .ok (.createMove (.fail c))
      | .timeout => .ok (.createMove .timeout)
      | .success v => do
        let p ← p.setValidPasswordHash v
        let salt ← (Bytes.empty (hs.get m).size).fillrandom (e.rand 2)
        let p ← p.setEncSalt salt
        let o ← DataHeader.setHeaderParts p (e.rand 3)
        .ok ⟨o, h1⟩

/-- `_createDataHeaderIters` (noexcept), api.cpp l.29-129 -/
def createDataHeaderIters (hs : Hashes) (mode : Byte) (pw : List Byte) (ds : SettingsIters) (timeout : Nat) (e : Env) :
    Res Helper := Res.noexcept <|
  if !ds.isComplete then .ok (.createMove (.fail .ERR_DATAHEADERSETTINGS_INCOMPLETE))
  else do
    if (← ds.getFileDataMode) ≠ mode.toNat then .ok (.createMove (.fail .ERR_FILEMODE_INVALID))
    else do
      match ← Res.attempt (makeChains ds e) with
      | none => .ok (.createMove (.fail .ERR))
      | some (c1, c2) => makeHeader hs pw ds timeout e c1 c2

/-- `_createDataHeaderTime` (noexcept), api.cpp l.131-222. `rest` stands for the code from l.142 on; it is arbitrary
because l.140 never lets it run. -/
def createDataHeaderTime (rest : Helper → Res Helper) (ds : SettingsTime) : Res Helper := Res.noexcept <|
  if !ds.isComplete then do
    Helper.convert (.fail .ERR_DATAHEADERSETTINGS_INCOMPLETE)
  else do
    let dhhs ← Helper.convert (.fail .ERR)
    rest dhhs

/-- `_select_empty_file`, api.cpp l.224-231 -/
def selectEmptyFile (s : Session) (f : FileHandler) : Session :=
  { s with selected := some f, state := .EMPTY_FILE_SELECTED }

/-- `_select_non_empty_file` (noexcept), api.cpp l.233-247 -/
def selectNonEmptyFile (hs : Hashes) (e : Env) (fs : FS) (s : Session) (f : FileHandler) : Res (Out Bool × Session) :=
  Res.noexcept do
    match ← f.getDataHeader hs e fs 1 (e.rand 0) with
    | .success d => .ok (.success true, { s with dh := some d, selected := some f, state := .FILE_SELECTED })
    | .fail c => .ok (.fail c, s)
    | .timeout => .ok (.timeout, s)

/-- `_unselectFile`, api.cpp l.260-266 -/
def unselect (s : Session) : Session := { s with selected := none, dh := none, state := .INIT }

/-- `_deleteFile` (noexcept), api.cpp l.249-258; the state object's `unselectFile` (l.421-429) calls `_unselectFile` -/
def deleteSelected (e : Env) (w : World) : Res (Out Bool × World) := Res.noexcept do
  let f ← deref w.api.selected
  let (ok, fs) ← w.fs.remove e f.path
  if !ok then .ok (.fail .ERR_FILE_NOT_DELETED, w)
  else .ok (.success true, ⟨unselect w.api, fs⟩)

/-- logout, api.h l.125-141 (both overloads do the same, the file mode argument is not used) -/
def logout (s : Session) : Session :=
  { s with pwHash := Bytes.empty 0, dh := none, encrypted := none, selected := none, fileData := none, state := .INIT }

/-- `getAllEncFileNames` (static, noexcept), api.cpp l.309-335. `directory_iterator` throws for anything but a readable
directory, `is_regular_file` throws when the status of an entry cannot be determined. -/
def getAllEncFileNames (e : Env) (fs : FS) (dir : Path) : Res (Out (List (List Byte))) := Res.noexcept <|
  if dir = [] then .ok (.fail .ERR_EMPTY_FILEPATH)
  else do
    if !(← fs.existsAt dir) then .ok (.fail .ERR_FILEPATH_INVALID)
    else if fs dir ≠ .dir ∨ e.canList dir = false then .exn .runtimeError
    else do
      let names ← pick fs dir (e.list dir)
      .ok (.success names)
where
  /-- the loop over the directory entries, l.328-333 -/
  pick (fs : FS) (dir : Path) : List (List Byte) → Res (List (List Byte))
    | [] => .ok []
    | n :: ns =>
      match fs (Path.join dir n) with
      | .unreachable => .exn .runtimeError
      | .file _ => do
        let rest ← pick fs dir ns
        .ok (if Path.extension (Path.join dir n) = FileHandler.ext then Path.filename (Path.join dir n) :: rest else rest)
      | _ => pick fs dir ns

/-- `INIT::getRelevantFileNames` (noexcept), api.cpp l.337-363. For each name a file handler is opened and its header is
parsed if needed; a matching name is pushed into a *copy* of the result vector (l.357-358), so the result stays as it
was created. `i` numbers the files: streams `2 i`, `2 i + 1` and random request `i` belong to it. -/
def getRelevantFileNames (hs : Hashes) (e : Env) (fs : FS) (mode : Byte) (dir : Path) : Res (Out (List (List Byte))) :=
  Res.noexcept do
    match ← getAllEncFileNames e fs dir with
    | .success names => do
      let ret ← scan names 0 []
      .ok (.success ret)
    | .fail c => .ok (.fail c)
    | .timeout => .ok .timeout
where
  /-- the loop l.347-361 -/
  scan : List (List Byte) → Nat → List (List Byte) → Res (List (List Byte))
    | [], _, ret => .ok ret
    | n :: ns, i, ret => do
      match ← getFileHandler e fs (Path.join dir n) (2 * i) with
      | .success f => do
        let relevant ← if f.isEmpty then .ok true else do
          match ← f.isDataHeader hs e fs mode (2 * i + 1) (e.rand i) with
          | .success () => .ok true
          | _ => .ok false
        let tmp := if relevant then ret ++ [n] else ret
        let _ := tmp
        scan ns (i + 1) ret
      | _ => scan ns (i + 1) ret

/-- `getEncDirPath` (static, noexcept), api.cpp l.286-307 -/
def getEncDirPath (fs : FS) : Res (Out Path) := Res.noexcept do
  if !(← fs.existsAt (ascii "data/enc")) then .ok (.fail .ERR_FILEPATH_INVALID)
  else .ok (.success (ascii "data/enc"))

/-- `INIT::selectFile` (noexcept), api.cpp l.370-383 -/
def selectFile (hs : Hashes) (e : Env) (w : World) (p : Path) : Res (Out Bool × World) := Res.noexcept do
  match ← getFileHandler e w.fs p 0 with
  | .success f =>
    if f.isEmpty then .ok (.success true, { w with api := selectEmptyFile w.api f })
    else do
      let (o, s) ← selectNonEmptyFile hs e w.fs w.api f
      .ok (o, { w with api := s })
  | .fail c => .ok (.fail c, w)
  | .timeout => .ok (.timeout, w)

/-- `FILE_SELECTED::getFileContent` (noexcept), api.cpp l.405-414 -/
def getFileContent (e : Env) (w : World) : Res (Out Bytes) := Res.noexcept do
  let f ← deref w.api.selected
  match ← Res.attempt (f.getAllBytes e w.fs 0) with
  | some b => .ok (.success b)
  | none => .ok (.fail .ERR_FILE_READ)

/-- the `try` block of `verifyPassword`, api.cpp l.438-485; the time left for the second chain hash is computed in 64-bit
unsigned arithmetic (l.454) and compared with zero afterwards (l.456) -/
def verifyTry (hs : Hashes) (e : Env) (s : Session) (pw : List Byte) (timeout : Nat) : Res (Out Bool × Session) := do
  let p ← (← deref s.dh).getDataHeaderParts
  let m ← DataHeaderParts.get p.hashMode
  match ← ChainHashModes.performStr p.ch1 (hs.get m) pw timeout (e.clk 0) with
  | .fail c => .ok (.fail c, s)
  | .timeout => .ok (.timeout, s)
  | .success h1 =>
    let newTimeout := (timeout + (2 ^ 64 - e.peek % 2 ^ 64)) % 2 ^ 64
    if timeout ≠ 0 ∧ newTimeout = 0 then .ok (.timeout, s)
    else do
      match ← ChainHashModes.performBytes p.ch2 (hs.get m) h1 newTimeout (e.clk 1) with
      | .fail c => .ok (.fail c, s)
      | .timeout => .ok (.timeout, s)
      | .success v => do
        let v' ← DataHeaderParts.get p.validator
        if v.beq v' then .ok (.success true, { s with pwHash := h1, state := .PASSWORD_VERIFIED })
        else .ok (.fail .ERR_PASSWORD_INVALID, s)

/-- `FILE_SELECTED::verifyPassword` (noexcept), api.cpp l.431-493 -/
def verifyPassword (hs : Hashes) (e : Env) (s : Session) (pw : List Byte) (timeout : Nat) : Res (Out Bool × Session) :=
  Res.noexcept do
    match ← Res.attempt (verifyTry hs e s pw timeout) with
    | some r => .ok r
    | none => .ok (.fail .ERR, s)

/-- outcome of a helper that did not succeed, as an `ErrorStruct<bool>`; api.cpp l.451 and alike -/
def failed (err : Out DataHeader) : Out Bool := match err with
  | .fail c => .fail c
  | .timeout => .timeout
  | .success _ => .success true

/-- `EMPTY_FILE_SELECTED::createDataHeader` (noexcept), api.cpp l.495-521 and l.523-548, after the helper ran -/
def headerForEmpty (s : Session) (h : Helper) : Res (Out Bool × Session) := Res.noexcept <|
  match h.err with
  | .success d => do
    let fd ← FileDataStruct.make s.fileMode (some (Bytes.empty 0))
    .ok (.success true, { s with pwHash := h.pwHash, dh := some d, fileData := some fd, state := .DECRYPTED })
  | o => .ok (failed o, s)

/-- `DECRYPTED::createDataHeader` (noexcept), api.cpp l.643-669 and l.671-696, after the helper ran -/
def headerForOpen (s : Session) (h : Helper) : Res (Out Bool × Session) :=
  match h.err with
  | .success d => .ok (.success true, { s with pwHash := h.pwHash, dh := some d })
  | o => .ok (failed o, s)

/-- the `try` block of `getDecryptedData`, api.cpp l.555-565 -/
def decryptTry (hs : Hashes) (e : Env) (w : World) : Res (FileDataStruct × Session) := do
  let p ← (← deref w.api.dh).getDataHeaderParts
  let m ← DataHeaderParts.get p.hashMode
  let salt ← DataHeaderParts.get p.encSalt
  let c ← Chain.new (hs.get m) w.api.pwHash salt
  let f ← deref w.api.selected
  let (c, _) ← c.addStream .dec (hs.get m) (f.getDataStream e w.fs 0) f.getDataSize
  let (r, _) ← c.getResult .dec (hs.get m)
  let fd ← FileDataStruct.make w.api.fileMode (some r)
  .ok (fd, { w.api with fileData := none, state := .DECRYPTED })

/-- `PASSWORD_VERIFIED::getDecryptedData` (noexcept), api.cpp l.550-571 -/
def getDecryptedData (hs : Hashes) (e : Env) (w : World) : Res (Out FileDataStruct × World) := Res.noexcept do
  match ← Res.attempt (decryptTry hs e w) with
  | some (fd, s) => .ok (.success fd, { w with api := s })
  | none => .ok (.fail .ERR, w)

/-- encryption of the data with the key material of the session, api.cpp l.595-600 -/
def encryptWith (hs : Hashes) (s : Session) (d : DataHeader) (data : Bytes) : Res Bytes := do
  let p ← d.getDataHeaderParts
  let m ← DataHeaderParts.get p.hashMode
  let salt ← DataHeaderParts.get p.encSalt
  let c ← Chain.new (hs.get m) s.pwHash salt
  let c ← c.addData .enc (hs.get m) data
  let (r, _) ← c.getResult .enc (hs.get m)
  .ok r

/-- the `try` block of `encryptData`, api.cpp l.591-605: outcome and the header object afterwards (it is changed in place,
also when a later step throws) -/
def encryptTry (hs : Hashes) (e : Env) (s : Session) (d : DataHeader) (data : Bytes) : Res Bytes × DataHeader :=
  match d.setDataSize (UInt32.ofNat data.len) with
  | .exn x => (.exn x, d)
  | .fatal f => (.fatal f, d)
  | .ok d1 =>
    match d1.calcHeaderBytes hs (Bytes.empty 0) (e.clk 0) with
    | (.ok (), d2) => (encryptWith hs s d2 data, d2)
    | (.exn x, d2) => (.exn x, d2)
    | (.fatal f, d2) => (.fatal f, d2)

/-- `DECRYPTED::encryptData` (noexcept), api.cpp l.573-613. The argument is a pointer and so is its data member; what
happens to the caller's object on failure is not modelled. -/
def encryptData (hs : Hashes) (e : Env) (s : Session) (fd : Option FileDataStruct) : Res (Out Bool × Session) :=
  Res.noexcept do
    let fd ← deref fd
    if !fd.isComplete then .ok (.fail .ERR_FILEDATASTRUCT_INCOMPLETE, s)
    else if (← fd.getFileMode) ≠ s.fileMode then .ok (.fail .ERR_FILEMODE_INVALID, s)
    else do
      let d ← deref s.dh
      let data ← deref fd.decData
      let r := encryptTry hs e s d data
      match ← Res.attempt r.1 with
      | some enc => .ok (.success true, { s with
          dh := some r.2, encrypted := some enc, fileData := some { fd with decData := none }, state := .ENCRYPTED })
      | none => .ok (.fail .ERR, { s with dh := some r.2 })

/-- `DECRYPTED::getFileData`, api.cpp l.615-621 -/
def getFileData (s : Session) : Out FileDataStruct × Session :=
  match s.fileData with
  | none => (.fail .ERR_FILEDATASTRUCT_NULL, s)
  | some fd => (.success fd, { s with fileData := none })

/-- `DECRYPTED::changeSalt` (noexcept), api.cpp l.623-641. On success the returned object carries no value. -/
def changeSalt (e : Env) (s : Session) : Res (Out Unit × Session) := Res.noexcept do
  let p ← (← deref s.dh).getDataHeaderParts
  let old ← DataHeaderParts.get p.encSalt
  let b ← (Bytes.empty old.len).fillrandom (e.rand 0)
  let p ← p.setEncSalt b
  match ← DataHeader.setHeaderParts p (e.rand 1) with
  | .success d => .ok (.success (), { s with dh := some d })
  | .fail c => .ok (.fail c, s)
  | .timeout => .ok (.timeout, s)

/-- assembling header and data, api.cpp l.709-711 and l.727-729 -/
def fullData (s : Session) : Res Bytes := do
  let d ← deref s.dh
  let h ← d.getHeaderBytes
  let enc ← deref s.encrypted
  let b := Bytes.empty (h.len + enc.len)
  let b ← h.addcopyToBytes b
  enc.addcopyToBytes b

/-- writing into the truncated file and closing it, api.cpp l.712-714 and l.730-732. Whether all bytes reach the disk is
not checked. -/
def finishWrite (e : Env) (s : Session) (fs : FS) (p : Path) : Res (Out Unit × World) := do
  let b ← fullData s
  .ok (.success (), ⟨{ s with encrypted := none, state := .FINISHED }, fs.set p (.file (b.data.take e.stored))⟩)

/-- `ENCRYPTED::writeToFile(path)` (noexcept), api.cpp l.698-719. On success the returned object carries no value. -/
def writeToPath (e : Env) (w : World) (p : Path) : Res (Out Unit × World) := Res.noexcept do
  match ← getFileHandler e w.fs p 0 with
  | .success f => do
    match ← f.getWriteStreamIfEmpty e w.fs with
    | (.success (), f, fs) => finishWrite e w.api fs f.path
    | (.fail c, _, fs) => .ok (.fail c, { w with fs := fs })
    | (.timeout, _, fs) => .ok (.timeout, { w with fs := fs })
  | .fail c => .ok (.fail c, w)
  | .timeout => .ok (.timeout, w)

/-- `ENCRYPTED::writeToFile()` (noexcept), api.cpp l.721-737. The sizes stored in the selected file handler are reset by
`getWriteStream` even on failure. -/
def writeToSelected (e : Env) (w : World) : Res (Out Unit × World) := Res.noexcept do
  let f ← deref w.api.selected
  match ← f.getWriteStream e w.fs with
  | (.success (), f, fs) => finishWrite e { w.api with selected := some f } fs f.path
  | (.fail c, f, fs) => .ok (.fail c, ⟨{ w.api with selected := some f }, fs⟩)
  | (.timeout, f, fs) => .ok (.timeout, ⟨{ w.api with selected := some f }, fs⟩)

end Api

/-- the public calls of a session, api.h l.339-463, with their arguments -/
inductive Call
  | getRelevantFileNames (dir : Path)
  | createFile (p : Path)
  | selectFile (p : Path)
  | isFileEmpty
  | unselectFile
  | deleteFile
  | getFileContent
  | verifyPassword (pw : List Byte) (timeout : Nat)
  | createDataHeader (pw : List Byte) (ds : SettingsIters) (timeout : Nat)
  | createDataHeaderTime (pw : List Byte) (ds : SettingsTime)
  | changeSalt
  | getDecryptedData
  | getFileData
  | encryptData (fd : Option FileDataStruct)
  | writeToFile
  | writeToFileAt (p : Path)
  | logout
  | logoutMode (mode : Byte)

/-- what a call returns, the return types of the public functions, api.h l.329-463 -/
inductive Ret
  | flag (o : Out Bool)
  | plain (o : Out Unit)              -- `ErrorStruct<bool>` without a value on success
  | names (o : Out (List (List Byte)))
  | content (o : Out Bytes)
  | data (o : Out FileDataStruct)
  | void
deriving DecidableEq, Repr

/-- the error every state gives for calls it does not override, api.h l.145-213 -/
def wrongState {α : Type} : Out α := .fail .ERR_API_STATE_INVALID

namespace Api

/-- One call: virtual dispatch on the state (api.h l.143-274) and the wrappers (api.h l.339-463). `rest` is the part of
the time-based header creation that is never reached, see `createDataHeaderTime`. -/
def call (hs : Hashes) (rest : Helper → Res Helper) (e : Env) (w : World) : Call → Res (Ret × World)
  | .getRelevantFileNames dir => match w.api.state with
    | .INIT => do
      let o ← getRelevantFileNames hs e w.fs w.api.fileMode dir
      .ok (.names o, w)
    | _ => .ok (.names wrongState, w)
  | .createFile p => match w.api.state with
    | .INIT => do
      let (o, fs) ← FileHandler.createFile e w.fs p
      .ok (match o with
        | .success () => .flag (.success true)
        | .fail c => .flag (.fail c)
        | .timeout => .flag .timeout, { w with fs := fs })
    | _ => .ok (.flag wrongState, w)
  | .selectFile p => match w.api.state with
    | .INIT => do
      let (o, w) ← selectFile hs e w p
      .ok (.flag o, w)
    | _ => .ok (.flag wrongState, w)
  | .isFileEmpty => match w.api.state with
    | .FILE_SELECTED => .ok (.flag (.success false), w)
    | .EMPTY_FILE_SELECTED => .ok (.flag (.success true), w)
    | _ => .ok (.flag wrongState, w)
  | .unselectFile => match w.api.state with
    | .FILE_SELECTED => .ok (.flag (.success true), { w with api := unselect w.api })
    | .EMPTY_FILE_SELECTED => .ok (.flag (.success true), { w with api := unselect w.api })
    | _ => .ok (.flag wrongState, w)
  | .deleteFile => match w.api.state with
    | .FILE_SELECTED => do
      let (o, w) ← deleteSelected e w
      .ok (.flag o, w)
    | .EMPTY_FILE_SELECTED => do
      let (o, w) ← deleteSelected e w
      .ok (.flag o, w)
    | _ => .ok (.flag wrongState, w)
  | .getFileContent => match w.api.state with
    | .FILE_SELECTED => do
      let o ← getFileContent e w
      .ok (.content o, w)
    | .EMPTY_FILE_SELECTED => .ok (.content (.success (Bytes.empty 0)), w)
    | _ => .ok (.content wrongState, w)
  | .verifyPassword pw t => match w.api.state with
    | .FILE_SELECTED => do
      let (o, s) ← verifyPassword hs e w.api pw t
      .ok (.flag o, { w with api := s })
    | _ => .ok (.flag wrongState, w)
  | .createDataHeader pw ds t =>
    if !ds.isComplete then .ok (.flag (.fail .ERR_DATAHEADERSETTINGS_INCOMPLETE), w)
    else match w.api.state with
      | .EMPTY_FILE_SELECTED => do
        let (o, s) ← headerForEmpty w.api (← createDataHeaderIters hs w.api.fileMode pw ds t e)
        .ok (.flag o, { w with api := s })
      | .DECRYPTED => do
        let (o, s) ← headerForOpen w.api (← createDataHeaderIters hs w.api.fileMode pw ds t e)
        .ok (.flag o, { w with api := s })
      | _ => .ok (.flag wrongState, w)
  | .createDataHeaderTime _ ds =>
    if !ds.isComplete then .ok (.flag (.fail .ERR_DATAHEADERSETTINGS_INCOMPLETE), w)
    else match w.api.state with
      | .EMPTY_FILE_SELECTED => do
        let (o, s) ← headerForEmpty w.api (← createDataHeaderTime rest ds)
        .ok (.flag o, { w with api := s })
      | .DECRYPTED => do
        let (o, s) ← headerForOpen w.api (← createDataHeaderTime rest ds)
        .ok (.flag o, { w with api := s })
      | _ => .ok (.flag wrongState, w)
  | .changeSalt => match w.api.state with
    | .DECRYPTED => do
      let (o, s) ← changeSalt e w.api
      .ok (.plain o, { w with api := s })
    | _ => .ok (.plain wrongState, w)
  | .getDecryptedData => match w.api.state with
    | .PASSWORD_VERIFIED => do
      let (o, w) ← getDecryptedData hs e w
      .ok (.data o, w)
    | _ => .ok (.data wrongState, w)
  | .getFileData => match w.api.state with
    | .DECRYPTED => .ok (.data (getFileData w.api).1, { w with api := (getFileData w.api).2 })
    | _ => .ok (.data wrongState, w)
  | .encryptData fd => match w.api.state with
    | .DECRYPTED => do
      let (o, s) ← encryptData hs e w.api fd
      .ok (.flag o, { w with api := s })
    | _ => .ok (.flag wrongState, w)
  | .writeToFile => match w.api.state with
    | .ENCRYPTED => do
      let (o, w) ← writeToSelected e w
      .ok (.plain o, w)
    | _ => .ok (.plain wrongState, w)
  | .writeToFileAt p => match w.api.state with
    | .ENCRYPTED => do
      let (o, w) ← writeToPath e w p
      .ok (.plain o, w)
    | _ => .ok (.plain wrongState, w)
  | .logout => .ok (.void, { w with api := logout w.api })
  | .logoutMode _ => .ok (.void, { w with api := logout w.api })

end Api

/-- A step of a history: a call with everything it observes of the outside, or a change made by another program. The public functions, api.h l.339-463. -/
inductive Event
  | call (c : Call) (e : Env)
  | outside (p : Path) (n : Node)

namespace Api

/-- one step, api.h l.339-463 -/
def step (hs : Hashes) (rest : Helper → Res Helper) (w : World) : Event → Res (Option Ret × World)
  | .call c e => do
    let (r, w) ← call hs rest e w c
    .ok (some r, w)
  | .outside p n => .ok (none, { w with fs := w.fs.set p n })

/-- a history; the returned values in order (`none` for changes by other programs), api.h l.339-463 -/
def run (hs : Hashes) (rest : Helper → Res Helper) (w : World) : List Event → Res (List (Option Ret) × World)
  | [] => .ok ([], w)
  | ev :: evs => do
    let (r, w) ← step hs rest w ev
    let (rs, w) ← run hs rest w evs
    .ok (r :: rs, w)

end Api
end Verif
