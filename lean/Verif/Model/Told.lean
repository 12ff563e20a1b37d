import Verif.Model.Names
import Verif.Model.ErrorMessage

/-
What the calls tell when they fail: the field `errorInfo` of `ErrorStruct` (error.h l.67). Model/Api leaves it out; here every function
that sets or passes it is written down again with it. On success the field is empty (error.h l.71-81, l.96). The field `what`, the
text of an exception, is not modelled.
-/
namespace Verif

/-- an `ErrorStruct` with its `errorInfo`, error.h l.58-97 -/
abbrev Told (α : Type) := Out α × List Byte

/-- result of a parser step with `errorInfo`, dataheader.cpp l.624-1144 -/
inductive Said (σ α : Type) where
  | val (a : α) (s : σ)
  | stop (c : ErrorCode) (info : List Byte)
deriving DecidableEq, Repr

/-- a parser step, dataheader.cpp l.624-1144 -/
def Say (σ α : Type) := σ → Res (Said σ α)

namespace Say
variable {σ α β : Type}

/-- a step that reads nothing; one of the connectives for dataheader.cpp l.624-1144 -/
protected def pure (a : α) : Say σ α := fun s => .ok (.val a s)

/-- one step after the other (early returns stop the parser), dataheader.cpp l.624-1144 -/
protected def bind (p : Say σ α) (f : α → Say σ β) : Say σ β := fun s =>
  match p s with
  | .ok (.val a s) => f a s
  | .ok (.stop c i) => .ok (.stop c i)
  | .exn e => .exn e
  | .fatal f => .fatal f

/-- sequences of steps (`do` notation), dataheader.cpp l.624-1144 -/
instance : Monad (Say σ) where
  pure := Say.pure
  bind := Say.bind

/-- `err.errorCode = c; err.errorInfo = i; return err`, for example dataheader.cpp l.660-665 -/
def fail (c : ErrorCode) (i : List Byte) : Say σ α := fun _ => .ok (.stop c i)

/-- code that does not read, in dataheader.cpp l.624-1144 -/
def lift (x : Res α) : Say σ α := fun s =>
  match x with
  | .ok a => .ok (.val a s)
  | .exn e => .exn e
  | .fatal f => .fatal f

/-- `try { x } catch …` where an exception makes the function return an error; `none` = not caught, for example dataheader.cpp l.694-703 -/
def onExn (x : Say σ α) (h : Exn → Option (ErrorCode × List Byte)) : Say σ α := fun s =>
  match x s with
  | .ok r => .ok r
  | .exn e => match h e with
    | some (c, i) => .ok (.stop c i)
    | none => .exn e
  | .fatal f => .fatal f

end Say

namespace Tell

/-- `catch (const std::invalid_argument&)` returning error `c`, dataheader.cpp l.696, l.708, l.1082 -/
def invalid (c : ErrorCode) (i : List Byte) : Exn → Option (ErrorCode × List Byte)
  | .invalidArgument => some (c, i)
  | _ => none

/-- `catch (const std::exception&)` returning `ERR`, dataheader.cpp l.1050, l.1071, l.1133 -/
def any (i : List Byte) : Exn → Option (ErrorCode × List Byte)
  | .pointer => none
  | _ => some (.ERR, i)

/-- the text `errorInfo` is set to at first, dataheader.cpp l.627 -/
def initial : List Byte := ascii "An error occurred while reading the header"

section stream
variable {σ : Type} (rd : List Byte → (cap n : Nat) → Say σ (List Byte))

/-- reading one byte, `name` goes into `errorInfo` if there is none, for example dataheader.cpp l.676-682 -/
def rdByte (name : List Byte) : Say σ Byte := do
  match ← rd name 1 1 with
  | x :: _ => pure x
  | [] => Say.lift (.fatal .ub)

/-- reading an 8-byte number, for example dataheader.cpp l.641-648 -/
def rdLong (name : List Byte) : Say σ UInt64 := do
  let l ← rd name 8 8
  Say.lift (Bytes.toLong ⟨l, 8⟩)

/-- data blocks, dataheader.cpp l.728-757 -/
def rdBlocks : Nat → DataHeader → Say σ DataHeader
  | 0, d => pure d
  | k + 1, d => do
    let type ← rdByte rd (ascii "Data block type")
    let len ← rdByte rd (ascii "Data block len")
    let data ← rd (ascii "Data block data") len.toNat len.toNat
    let d ← Say.lift (do d.addDataBlock (← DataBlock.make type ⟨data, len.toNat⟩))
    rdBlocks k d

/-- the handlers for a data part `tmp` of chain hash `num`, dataheader.cpp l.837-874 and l.977-1015. The variable `copied` tested in
the first one is not the one set in the `try` block. -/
def partHandler (num : List Byte) (tmp : Bytes) : Exn → Option (ErrorCode × List Byte)
  | .lengthError => some (.ERR_NOT_ENOUGH_DATA, ascii "Chainhash data block " ++ num)
  | .invalidArgument => some (.ERR_CHAINHASH_DATAPART_INVALID, tmp.toHex.map fun c => UInt8.ofNat c.toNat)
  | .logicError => some (.ERR_CHAINHASH_DATABLOCK_ALREADY_COMPLETED, tmp.toHex.map fun c => UInt8.ofNat c.toNat)
  | .runtimeError => some (.ERR, ascii "An error occurred while reading the chainhash data block " ++ num)
  | .pointer => none

/-- loop over the parts of a chain-hash data block, dataheader.cpp l.814-875 and l.955-1016 -/
def rdParts (num : List Byte) (dblen : Nat) : List NameLen → ChainHashData → (dataLen : Nat) → Say σ (ChainHashData × Nat)
  | [], c, n => pure (c, n)
  | nl :: rest, c, n =>
    if nl.len ≠ 0 then do
      let l ← rd (ascii "Chainhash data block " ++ num) 255 nl.len
      let c ← Say.onExn (Say.lift (c.addBytes ⟨l, 255⟩)) (partHandler num ⟨l, 255⟩)
      rdParts num dblen rest c (n + nl.len)
    else do
      let l ← rd (ascii "Chainhash data block " ++ num) 255 (toU32 ((dblen : Int) - n))
      let c ← Say.onExn (Say.lift (c.addBytes ⟨l, 255⟩)) (partHandler num ⟨l, 255⟩)
      pure (c, dblen)

/-- one chain hash without setting it, dataheader.cpp l.759-877 and l.898-1018. The mode that is refused goes into `errorInfo` as the
character with that number (l.778, l.917). -/
def rdChainHash (num : List Byte) : Say σ ChainHash := do
  let mode ← rdByte rd (ascii "Chainhash" ++ num ++ ascii " mode")
  match CHMode.ofByte mode with
  | none => Say.fail .ERR_CHAINHASHMODE_FORMAT_INVALID [mode]
  | some m => do
    let iters ← rdLong rd (ascii "Chainhash" ++ num ++ ascii " iters")
    let dblen ← rdByte rd (ascii "Chainhash" ++ num ++ ascii " blocklen")
    let (c, n) ← rdParts rd num dblen.toNat m.nameLens (ChainHashData.new m) 0
    Say.lift (Res.assert (c.getLen == dblen.toNat))
    Say.lift (Res.assert (n == dblen.toNat))
    pure (ChainHash.make m iters (some c))

/-- the handlers around setting a chain hash, dataheader.cpp l.881-896 and l.1022-1037; the first one leaves `errorInfo` as it is -/
def chainHandler (c : ErrorCode) (num : List Byte) : Exn → Option (ErrorCode × List Byte)
  | .invalidArgument => some (c, initial)
  | .pointer => none
  | _ => some (.ERR, ascii "An error occurred while setting the chainhash data block " ++ num)

/-- encrypted data blocks, dataheader.cpp l.1101-1130 -/
def rdEncBlocks : Nat → DataHeader → Say σ DataHeader
  | 0, d => pure d
  | k + 1, d => do
    let type ← rdByte rd (ascii "Enc datablock type")
    let len ← rdByte rd (ascii "Enc datablock len")
    let data ← rd (ascii "Enc datablock data") 255 255
    let d ← Say.lift (do d.addEncDataBlock (← EncDataBlock.createEncBlock type ⟨data, 255⟩ len))
    rdEncBlocks k d

/-- everything between the length fields and the last assertions, dataheader.cpp l.674-1140. Modes that are refused and the file size
go into `errorInfo` as one character (l.700, l.713, l.1085). -/
def rdContent (hs : Hashes) (r : Rand) (fileSize : UInt64) : Say σ DataHeader := do
  let fmode ← rdByte rd (ascii "File mode")
  let hmode ← rdByte rd (ascii "Hash mode")
  let d ← Say.onExn (Say.lift (DataHeader.new hmode r)) (invalid .ERR_HASHMODE_INVALID [hmode])
  let d ← Say.onExn (Say.lift (d.setFileDataMode fmode)) (invalid .ERR_FILEMODE_INVALID [fmode])
  let count ← rdByte rd (ascii "Data block count")
  let d ← rdBlocks rd count.toNat d
  let c1 ← rdChainHash rd (ascii "1")
  let d ← Say.onExn (Say.lift (d.setChainHash1 c1)) (chainHandler .ERR_CHAINHASH1_INVALID (ascii "1"))
  let c2 ← rdChainHash rd (ascii "2")
  let d ← Say.onExn (Say.lift (d.setChainHash2 c2)) (chainHandler .ERR_CHAINHASH2_INVALID (ascii "2"))
  let v ← rd (ascii "Password validator hash") d.hashSize d.hashSize
  let d ← Say.onExn (Say.lift (d.setValidPasswordHashBytes ⟨v, d.hashSize⟩))
    (any (ascii "An error occurred while setting and reading the password validator hash"))
  let s ← rd (ascii "Encrypted salt") d.hashSize d.hashSize
  let d ← Say.onExn (Say.lift (d.setEncSalt ⟨s, d.hashSize⟩))
    (any (ascii "An error occurred while setting and reading the salt hash"))
  let d ← Say.onExn (Say.lift (d.setFileSize fileSize)) (invalid .ERR_FILESIZE_INVALID [UInt8.ofNat fileSize.toNat])
  let ecount ← rdByte rd (ascii "Encrypted block count")
  let d ← rdEncBlocks rd ecount.toNat d
  Say.onExn (Say.lift (d.calcHeaderBytes! hs (Bytes.empty 0) fun _ => 0))
    (any (ascii "An error occurred while calculating the header bytes"))

/-- the whole parser, dataheader.cpp l.624-1144 -/
def rdHeader (remaining : σ → Nat) (hs : Hashes) (r : Rand) : Say σ DataHeader := fun start =>
  (do
    let fileSize ← rdLong rd (ascii "File size")
    let headerSize ← rdLong rd (ascii "Header size")
    if remaining start ≠ fileSize.toNat then
      Say.fail .ERR_FILESIZE_INVALID (ascii "file size is not equal to the given stream size (file_size: " ++ toDec fileSize ++
        ascii ", stream size: " ++ toDec (UInt64.ofNat (remaining start)) ++ ascii ")")
    else if headerSize > fileSize then
      Say.fail .ERR_HEADERSIZE_FILESIZE_MISMATCH (ascii "header size is bigger than the file size (header_size: " ++
        toDec headerSize ++ ascii ", file size: " ++ toDec fileSize ++ ascii ")")
    else do
      let d ← rdContent rd hs r fileSize
      fun s => Say.lift (do
        let l ← d.getHeaderLength
        Res.assert (remaining start - remaining s == l)
        Res.assert (l == headerSize.toNat)
        .ok d) s : Say σ DataHeader) start

end stream

/-- reading from a stream, `readData`, utility.cpp l.81-103, as called in dataheader.cpp l.624-1144 -/
def rdStream (name : List Byte) (cap n : Nat) : Say IStream (List Byte) := fun s =>
  match readData s (Bytes.empty cap) n with
  | .ok (some b, s) => .ok (.val b.data s)
  | .ok (none, _) => .ok (.stop .ERR_NOT_ENOUGH_DATA name)
  | .exn e => .exn e
  | .fatal f => .fatal f

/-- `FileHandler::getDataHeader` (noexcept), filehandler.cpp l.148-154, with `setHeaderBytes(std::ifstream&)` (noexcept), dataheader.cpp
l.624-1144 -/
def getDataHeader (hs : Hashes) (e : Env) (fs : FS) (f : FileHandler) (i : Nat) (r : Rand) : Res (Told DataHeader) :=
  Res.noexcept do
    match ← Res.noexcept (rdHeader rdStream (fun s => s.rest.length) hs r (fs.openIn e f.path i)) with
    | .val d _ => .ok (.success d, [])
    | .stop c info => .ok (.fail c, info)

/-- `isValidPath` (noexcept), filehandler.cpp l.14-56; `file.c_str()` goes into `errorInfo` (l.19) -/
def isValidPath (e : Env) (fs : FS) (p : Path) (shouldExist : Bool) : Res (Told Unit) := Res.noexcept <|
  if p = [] then .ok (.fail .ERR_EMPTY_FILEPATH, p.cString)
  else if Path.extension p ≠ FileHandler.ext then .ok (.fail .ERR_EXTENSION_INVALID, p.cString)
  else if shouldExist then do
    if !(← fs.existsAt p) then .ok (.fail .ERR_FILE_NOT_FOUND, p.cString)
    else if !fs.opens e p then .ok (.fail .ERR_FILE_NOT_OPEN, p.cString)
    else .ok (.success (), [])
  else do
    if ← fs.existsAt p then .ok (.fail .ERR_FILE_EXISTS, p.cString)
    else .ok (.success (), [])

/-- `createFile` (noexcept), filehandler.cpp l.58-81 -/
def createFile (e : Env) (fs : FS) (p : Path) : Res (Told Unit × FS) := Res.noexcept do
  match ← isValidPath e fs p false with
  | (.success (), _) =>
    match fs.openOut e p with
    | none => .ok ((.fail .ERR_FILE_NOT_CREATED, p.cString), fs)
    | some fs' => .ok ((.success (), []), fs')
  | (.fail c, i) => .ok ((.fail c, i), fs)
  | (.timeout, i) => .ok ((.timeout, i), fs)

/-- `getWriteStream` (noexcept), filehandler.cpp l.194-215 -/
def getWriteStream (e : Env) (fs : FS) (f : FileHandler) : Res (Told Unit × FileHandler × FS) := Res.noexcept do
  let f := { f with headerSize := 0, fileSize := 0 }
  match ← isValidPath e fs f.path true with
  | (.success (), _) =>
    match fs.openOut e f.path with
    | none => .ok ((.fail .ERR_FILE_NOT_OPEN, f.path.cString), f, fs)
    | some fs' => .ok ((.success (), []), f, fs')
  | (.fail c, i) => .ok ((.fail c, i), f, fs)
  | (.timeout, i) => .ok ((.timeout, i), f, fs)

/-- `getWriteStreamIfEmpty` (noexcept), filehandler.cpp l.217-226 -/
def getWriteStreamIfEmpty (e : Env) (fs : FS) (f : FileHandler) : Res (Told Unit × FileHandler × FS) := Res.noexcept <|
  if f.isEmpty then getWriteStream e fs f else .ok ((.fail .ERR_FILE_NOT_EMPTY, f.path.cString), f, fs)

/-- `_getFileHandler` (noexcept), api.cpp l.12-27 -/
def getFileHandler (e : Env) (fs : FS) (p : Path) (i : Nat) : Res (Told FileHandler) := Res.noexcept do
  match ← isValidPath e fs p true with
  | (.success (), _) => do
    match ← Res.attempt (FileHandler.new e fs p i) with
    | some f => .ok (.success f, [])
    | none => .ok (.fail .ERR_FILEHANDLER_CREATION, [])
  | (.fail c, info) => .ok (.fail c, info)
  | (.timeout, info) => .ok (.timeout, info)

/-- `struct DataHeaderHelperStruct` with the `errorInfo` of its `errorStruct`, api.h l.81-111 -/
abbrev Helper := Api.Helper × List Byte

/-- the two chain hashes and the header, api.cpp l.70-128. A chain hash that runs out of time leaves `errorInfo` empty (pwfunc.cpp
l.52, l.71, l.91, l.113, l.134, l.151 and alike); `setHeaderParts` sets it on its only error, dataheader.cpp l.1171. -/
def makeHeader (hs : Hashes) (pw : List Byte) (ds : SettingsIters) (timeout : Nat) (e : Env) (c1 c2 : ChainHash) :
    Res Helper := do
  let p : DataHeaderParts := { DataHeaderParts.empty with dec := ds.dec, enc := ds.enc, ch1 := c1, ch2 := c2 }
  let p ← p.setFileDataMode (UInt8.ofNat (← ds.getFileDataMode))
  let p ← p.setHashMode (UInt8.ofNat (← ds.getHashMode))
  let m ← DataHeaderParts.get p.hashMode
  match ← ChainHashModes.performStr p.ch1 (hs.get m) pw timeout (e.clk 0) with
  | .fail c => .ok (.createMove (.fail c), [])
  | .timeout => .ok (.createMove .timeout, [])
  | .success h1 =>
    if timeout ≠ 0 ∧ timeout ≤ e.peek then .ok (.createMove .timeout, [])
    else do
      match ← ChainHashModes.performBytes p.ch2 (hs.get m) h1 (if timeout ≠ 0 then timeout - e.peek else timeout) (e.clk 1) with
      | .fail c => .ok (.createMove (.fail c), [])
      | .timeout => .ok (.createMove .timeout, [])
      | .success v => do
        let p ← p.setValidPasswordHash v
        let salt ← (Bytes.empty (hs.get m).size).fillrandom (e.rand 2)
        let p ← p.setEncSalt salt
        let o ← DataHeader.setHeaderParts p (e.rand 3)
        .ok (⟨o, h1⟩, match o with
          | .success _ => []
          | _ => ascii "An error occurred while setting the header parts")

/-- `_createDataHeaderIters` (noexcept), api.cpp l.29-129 -/
def createDataHeaderIters (hs : Hashes) (mode : Byte) (pw : List Byte) (ds : SettingsIters) (timeout : Nat) (e : Env) :
    Res Helper := Res.noexcept <|
  if !ds.isComplete then .ok (.createMove (.fail .ERR_DATAHEADERSETTINGS_INCOMPLETE), [])
  else do
    if (← ds.getFileDataMode) ≠ mode.toNat then
      .ok (.createMove (.fail .ERR_FILEMODE_INVALID), ascii "The file mode does not match with the file data mode")
    else do
      match ← Res.attempt (Api.makeChains ds e) with
      | none => .ok (.createMove (.fail .ERR), ascii "Something went wrong while creating the chainhashes")
      | some (c1, c2) => makeHeader hs pw ds timeout e c1 c2

/-- `EMPTY_FILE_SELECTED::createDataHeader` (noexcept), api.cpp l.495-521 and l.523-548, and `DECRYPTED::createDataHeader`, l.643-669
and l.671-696, pass on what the helper says -/
def createDataHeader (k : Session → Api.Helper → Res (Out Bool × Session)) (s : Session) (h : Helper) : Res (Told Bool × Session) := do
  let (o, s) ← k s h.1
  .ok ((o, h.2), s)

/-- `_select_non_empty_file` (noexcept), api.cpp l.233-247 -/
def selectNonEmptyFile (hs : Hashes) (e : Env) (fs : FS) (s : Session) (f : FileHandler) : Res (Told Bool × Session) :=
  Res.noexcept do
    match ← getDataHeader hs e fs f 1 (e.rand 0) with
    | (.success d, _) => .ok ((.success true, []), { s with dh := some d, selected := some f, state := .FILE_SELECTED })
    | (.fail c, i) => .ok ((.fail c, i), s)
    | (.timeout, i) => .ok ((.timeout, i), s)

/-- `_deleteFile` (noexcept), api.cpp l.249-258 -/
def deleteSelected (e : Env) (w : World) : Res (Told Bool × World) := Res.noexcept do
  let f ← deref w.api.selected
  let (ok, fs) ← w.fs.remove e f.path
  if !ok then .ok ((.fail .ERR_FILE_NOT_DELETED, f.path.cString), w)
  else .ok ((.success true, []), ⟨Api.unselect w.api, fs⟩)

/-- `getRelevantFileNames` (noexcept), api.cpp l.337-363, passes on the errors of `getAllEncFileNames`, l.309-335: an empty path
leaves `errorInfo` empty, a path that does not exist goes into it -/
def getRelevantFileNames (hs : Hashes) (e : Env) (fs : FS) (mode : Byte) (dir : Path) : Res (Told (List (List Byte))) := do
  let o ← Api.getRelevantFileNames hs e fs mode dir
  .ok (o, match o with
    | .fail .ERR_FILEPATH_INVALID => dir.cString
    | _ => [])

/-- `INIT::selectFile` (noexcept), api.cpp l.370-383 -/
def selectFile (hs : Hashes) (e : Env) (w : World) (p : Path) : Res (Told Bool × World) := Res.noexcept do
  match ← getFileHandler e w.fs p 0 with
  | (.success f, _) =>
    if f.isEmpty then .ok ((.success true, []), { w with api := Api.selectEmptyFile w.api f })
    else do
      let (o, s) ← selectNonEmptyFile hs e w.fs w.api f
      .ok (o, { w with api := s })
  | (.fail c, i) => .ok ((.fail c, i), w)
  | (.timeout, i) => .ok ((.timeout, i), w)

/-- `FILE_SELECTED::getFileContent` (noexcept), api.cpp l.405-414 -/
def getFileContent (e : Env) (w : World) : Res (Told Bytes) := Res.noexcept do
  let f ← deref w.api.selected
  match ← Res.attempt (f.getAllBytes e w.fs 0) with
  | some b => .ok (.success b, [])
  | none => .ok (.fail .ERR_FILE_READ, f.path.cString)

/-- the `try` block of `verifyPassword`, api.cpp l.438-485 -/
def verifyTry (hs : Hashes) (e : Env) (s : Session) (pw : List Byte) (timeout : Nat) : Res (Told Bool × Session) := do
  let p ← (← deref s.dh).getDataHeaderParts
  let m ← DataHeaderParts.get p.hashMode
  match ← ChainHashModes.performStr p.ch1 (hs.get m) pw timeout (e.clk 0) with
  | .fail c => .ok ((.fail c, []), s)
  | .timeout => .ok ((.timeout, []), s)
  | .success h1 =>
    let newTimeout := (timeout + (2 ^ 64 - e.peek % 2 ^ 64)) % 2 ^ 64
    if timeout ≠ 0 ∧ newTimeout = 0 then .ok ((.timeout, ascii "Timeout reached after the first chainhash"), s)
    else do
      match ← ChainHashModes.performBytes p.ch2 (hs.get m) h1 newTimeout (e.clk 1) with
      | .fail c => .ok ((.fail c, []), s)
      | .timeout => .ok ((.timeout, []), s)
      | .success v => do
        let v' ← DataHeaderParts.get p.validator
        if v.beq v' then .ok ((.success true, []), { s with pwHash := h1, state := .PASSWORD_VERIFIED })
        else .ok ((.fail .ERR_PASSWORD_INVALID, []), s)

/-- `FILE_SELECTED::verifyPassword` (noexcept), api.cpp l.431-493 -/
def verifyPassword (hs : Hashes) (e : Env) (s : Session) (pw : List Byte) (timeout : Nat) : Res (Told Bool × Session) :=
  Res.noexcept do
    match ← Res.attempt (verifyTry hs e s pw timeout) with
    | some r => .ok r
    | none => .ok ((.fail .ERR, ascii "Some error occurred while verifying the password"), s)

/-- `PASSWORD_VERIFIED::getDecryptedData` (noexcept), api.cpp l.550-571 -/
def getDecryptedData (hs : Hashes) (e : Env) (w : World) : Res (Told FileDataStruct × World) := Res.noexcept do
  match ← Res.attempt (Api.decryptTry hs e w) with
  | some (fd, s) => .ok ((.success fd, []), { w with api := s })
  | none => .ok ((.fail .ERR, ascii "In getDecryptedData: Something went wrong while decrypting the data"), w)

/-- `DECRYPTED::encryptData` (noexcept), api.cpp l.573-613 -/
def encryptData (hs : Hashes) (e : Env) (s : Session) (fd : Option FileDataStruct) : Res (Told Bool × Session) :=
  Res.noexcept do
    let fd ← deref fd
    if !fd.isComplete then .ok ((.fail .ERR_FILEDATASTRUCT_INCOMPLETE, []), s)
    else if (← fd.getFileMode) ≠ s.fileMode then
      .ok ((.fail .ERR_FILEMODE_INVALID, ascii " In encryptData: The provided file mode does not match with the given file data mode"), s)
    else do
      let d ← deref s.dh
      let data ← deref fd.decData
      let r := Api.encryptTry hs e s d data
      match ← Res.attempt r.1 with
      | some enc => .ok ((.success true, []), { s with
          dh := some r.2, encrypted := some enc, fileData := some { fd with decData := none }, state := .ENCRYPTED })
      | none => .ok ((.fail .ERR, ascii "In encryptData: Something went wrong while encrypting the data"), { s with dh := some r.2 })

/-- `DECRYPTED::changeSalt` (noexcept), api.cpp l.623-641; `setHeaderParts`, dataheader.cpp l.1146-1174, sets `errorInfo` on its
only error (l.1171) -/
def changeSalt (e : Env) (s : Session) : Res (Told Unit × Session) := do
  let (o, s) ← Api.changeSalt e s
  .ok ((o, match o with
    | .success _ => []
    | _ => ascii "An error occurred while setting the header parts"), s)

/-- `ENCRYPTED::writeToFile(path)` (noexcept), api.cpp l.698-719 -/
def writeToPath (e : Env) (w : World) (p : Path) : Res (Told Unit × World) := Res.noexcept do
  match ← getFileHandler e w.fs p 0 with
  | (.success f, _) => do
    match ← getWriteStreamIfEmpty e w.fs f with
    | ((.success (), _), f, fs) => do
      let (o, w) ← Api.finishWrite e w.api fs f.path
      .ok ((o, []), w)
    | ((.fail c, i), _, fs) => .ok ((.fail c, i), { w with fs := fs })
    | ((.timeout, i), _, fs) => .ok ((.timeout, i), { w with fs := fs })
  | (.fail c, i) => .ok ((.fail c, i), w)
  | (.timeout, i) => .ok ((.timeout, i), w)

/-- `ENCRYPTED::writeToFile()` (noexcept), api.cpp l.721-737 -/
def writeToSelected (e : Env) (w : World) : Res (Told Unit × World) := Res.noexcept do
  let f ← deref w.api.selected
  match ← getWriteStream e w.fs f with
  | ((.success (), _), f, fs) => do
    let (o, w) ← Api.finishWrite e { w.api with selected := some f } fs f.path
    .ok ((o, []), w)
  | ((.fail c, i), f, fs) => .ok ((.fail c, i), ⟨{ w.api with selected := some f }, fs⟩)
  | ((.timeout, i), f, fs) => .ok ((.timeout, i), ⟨{ w.api with selected := some f }, fs⟩)

/-- the texts for calls in a state that does not offer them, api.h l.145-213 -/
def refusal : Call → List Byte
  | .getRelevantFileNames _ => ascii "getRelevantFileNames is only available in the INIT state"
  | .createFile _ => ascii "createEncFile is only available in the INIT state"
  | .selectFile _ => ascii "selectFile is only available in the INIT state"
  | .isFileEmpty => ascii "isFileEmpty is only available in the FILE_SELECTED or EMPTY_FILE_SELECTED state"
  | .unselectFile => ascii "selectFile is only available in the FILE_SELECTED or EMPTY_FILE_SELECTED state"
  | .deleteFile => ascii "deleteEncFile is only available in the FILE_SELECTED or EMPTY_FILE_SELECTED state"
  | .getFileContent => ascii "getFileContent is only available in the FILE_SELECTED or EMPTY_FILE_SELECTED state"
  | .verifyPassword _ _ => ascii "verifyPassword is only available in the FILE_SELECTED state"
  | .createDataHeader _ _ _ => ascii "createDataHeader is only available in the EMPTY_FILE_SELECTED or DECRYPT state"
  | .createDataHeaderTime _ _ => ascii "createDataHeader is only available in the EMPTY_FILE_SELECTED or DECRYPTED state"
  | .changeSalt => ascii "changeSalt is only available in the DECRYPTED state"
  | .getDecryptedData => ascii "getDecryptedData is only available in the PASSWORD_VERIFIED state"
  | .getFileData => ascii "getFileData is only available in the DECRYPTED state"
  | .encryptData _ => ascii "encryptData is only available in the DECRYPTED state"
  | .writeToFile => ascii "writeToFile is only available in the ENCRYPTED state"
  | .writeToFileAt _ => ascii "writeToFile is only available in the ENCRYPTED state"
  | .logout => []
  | .logoutMode _ => []

/-- `createDataHeader` of a state, after the check of the settings, api.h l.410-425; `k` is what the state does with what the helper
`x` made -/
def createIn (w : World) (k : Session → Api.Helper → Res (Out Bool × Session)) (x : Res Helper) : Res ((Ret × List Byte) × World) := do
  let (o, s) ← createDataHeader k w.api (← x)
  .ok ((.flag o.1, o.2), { w with api := s })

/-- `_createDataHeaderTime` (noexcept), api.cpp l.131-222: l.140 ends the program, so no text of the rest is ever set -/
def createDataHeaderTime (rest : Api.Helper → Res Api.Helper) (ds : SettingsTime) : Res Helper := do
  .ok (← Api.createDataHeaderTime rest ds, [])

/-- One call, api.h l.143-274 and l.339-463: what it returns, its `errorInfo`, and the world afterwards. -/
def call (hs : Hashes) (rest : Api.Helper → Res Api.Helper) (e : Env) (w : World) : Call → Res ((Ret × List Byte) × World)
  | .getRelevantFileNames dir => match w.api.state with
    | .INIT => do
      let o ← getRelevantFileNames hs e w.fs w.api.fileMode dir
      .ok ((.names o.1, o.2), w)
    | _ => .ok ((.names wrongState, refusal (.getRelevantFileNames dir)), w)
  | .createFile p => match w.api.state with
    | .INIT => do
      let (o, fs) ← createFile e w.fs p
      .ok ((match o.1 with
        | .success () => .flag (.success true)
        | .fail c => .flag (.fail c)
        | .timeout => .flag .timeout, o.2), { w with fs := fs })
    | _ => .ok ((.flag wrongState, refusal (.createFile p)), w)
  | .selectFile p => match w.api.state with
    | .INIT => do
      let (o, w) ← selectFile hs e w p
      .ok ((.flag o.1, o.2), w)
    | _ => .ok ((.flag wrongState, refusal (.selectFile p)), w)
  | .isFileEmpty => match w.api.state with
    | .FILE_SELECTED => .ok ((.flag (.success false), []), w)
    | .EMPTY_FILE_SELECTED => .ok ((.flag (.success true), []), w)
    | _ => .ok ((.flag wrongState, refusal .isFileEmpty), w)
  | .unselectFile => match w.api.state with
    | .FILE_SELECTED => .ok ((.flag (.success true), []), { w with api := Api.unselect w.api })
    | .EMPTY_FILE_SELECTED => .ok ((.flag (.success true), []), { w with api := Api.unselect w.api })
    | _ => .ok ((.flag wrongState, refusal .unselectFile), w)
  | .deleteFile => match w.api.state with
    | .FILE_SELECTED => do
      let (o, w) ← deleteSelected e w
      .ok ((.flag o.1, o.2), w)
    | .EMPTY_FILE_SELECTED => do
      let (o, w) ← deleteSelected e w
      .ok ((.flag o.1, o.2), w)
    | _ => .ok ((.flag wrongState, refusal .deleteFile), w)
  | .getFileContent => match w.api.state with
    | .FILE_SELECTED => do
      let o ← getFileContent e w
      .ok ((.content o.1, o.2), w)
    | .EMPTY_FILE_SELECTED => .ok ((.content (.success (Bytes.empty 0)), []), w)
    | _ => .ok ((.content wrongState, refusal .getFileContent), w)
  | .verifyPassword pw t => match w.api.state with
    | .FILE_SELECTED => do
      let (o, s) ← verifyPassword hs e w.api pw t
      .ok ((.flag o.1, o.2), { w with api := s })
    | _ => .ok ((.flag wrongState, refusal (.verifyPassword pw t)), w)
  | .createDataHeader pw ds t =>
    if !ds.isComplete then .ok ((.flag (.fail .ERR_DATAHEADERSETTINGS_INCOMPLETE),
      ascii "API call made (createDataHeader) with incomplete DataHeaderSettingsIters"), w)
    else match w.api.state with
      | .EMPTY_FILE_SELECTED => createIn w Api.headerForEmpty (createDataHeaderIters hs w.api.fileMode pw ds t e)
      | .DECRYPTED => createIn w Api.headerForOpen (createDataHeaderIters hs w.api.fileMode pw ds t e)
      | _ => .ok ((.flag wrongState, refusal (.createDataHeader pw ds t)), w)
  | .createDataHeaderTime pw ds =>
    if !ds.isComplete then .ok ((.flag (.fail .ERR_DATAHEADERSETTINGS_INCOMPLETE),
      ascii "API call made (createDataHeader) with incomplete DataHeaderSettingsTime"), w)
    else match w.api.state with
      | .EMPTY_FILE_SELECTED => createIn w Api.headerForEmpty (createDataHeaderTime rest ds)
      | .DECRYPTED => createIn w Api.headerForOpen (createDataHeaderTime rest ds)
      | _ => .ok ((.flag wrongState, refusal (.createDataHeaderTime pw ds)), w)
  | .changeSalt => match w.api.state with
    | .DECRYPTED => do
      let (o, s) ← changeSalt e w.api
      .ok ((.plain o.1, o.2), { w with api := s })
    | _ => .ok ((.plain wrongState, refusal .changeSalt), w)
  | .getDecryptedData => match w.api.state with
    | .PASSWORD_VERIFIED => do
      let (o, w) ← getDecryptedData hs e w
      .ok ((.data o.1, o.2), w)
    | _ => .ok ((.data wrongState, refusal .getDecryptedData), w)
  | .getFileData => match w.api.state with
    | .DECRYPTED => .ok ((.data (Api.getFileData w.api).1, []), { w with api := (Api.getFileData w.api).2 })
    | _ => .ok ((.data wrongState, refusal .getFileData), w)
  | .encryptData fd => match w.api.state with
    | .DECRYPTED => do
      let (o, s) ← encryptData hs e w.api fd
      .ok ((.flag o.1, o.2), { w with api := s })
    | _ => .ok ((.flag wrongState, refusal (.encryptData fd)), w)
  | .writeToFile => match w.api.state with
    | .ENCRYPTED => do
      let (o, w) ← writeToSelected e w
      .ok ((.plain o.1, o.2), w)
    | _ => .ok ((.plain wrongState, refusal .writeToFile), w)
  | .writeToFileAt p => match w.api.state with
    | .ENCRYPTED => do
      let (o, w) ← writeToPath e w p
      .ok ((.plain o.1, o.2), w)
    | _ => .ok ((.plain wrongState, refusal (.writeToFileAt p)), w)
  | .logout => .ok ((.void, []), { w with api := Api.logout w.api })
  | .logoutMode _ => .ok ((.void, []), { w with api := Api.logout w.api })

end Tell
end Verif
