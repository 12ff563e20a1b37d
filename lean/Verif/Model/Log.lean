import Verif.Model.Api

/-
What the program writes to its log. `plog` is set to write every line, down to `verbose`, to a file and the console
(main.cpp l.30-33). The functions below repeat the functions of the model that handle passwords, keys or data, and those
that call them, with the log statements put where they stand in the source; what they return is what the model returns
(`Log.call_res`, Lemmas/Log.lean).
A line is its severity and the list of things put into it. Texts of exceptions are represented by their kind, the texts
of an `ErrorStruct` by its error code: the code takes them from string constants, file paths aside. Time stamps, thread
numbers and function names that `plog` adds are not modelled.
Not modelled: the lines of setters and getters that refuse their argument, written right before the exception is thrown
(bytes.cpp, format.cpp, chainhash_data.cpp, chainhash_modes.h l.90-155, dataheader.h l.156-229, block.cpp, block_encrypt.cpp,
block_decrypt.cpp, file_data.h l.42, l.51); they hold the name of what is refused, mode numbers and lengths. The lines of
the file handler and of the header parser, which see neither passwords nor keys nor plaintext, are an arbitrary function of
what these see (`FileLog`).
-/
namespace Verif

/-- severities of `plog`, as used by the macros `PLOG_FATAL` … `PLOG_VERBOSE`, /repo/include/logger.h l.1-10 -/
inductive Sev | fatal | error | warning | info | debug | verbose
deriving DecidableEq, Repr

/-- what is put into a line: a text, a number, bytes in hexadecimal (`Bytes::toHex`), a character, a path, the text of an
exception, an error code; for example dataheader.cpp l.74, pwfunc.cpp l.21, api.cpp l.65, l.83 -/
inductive Item
  | text (s : String)
  | num (n : Nat)
  | hex (b : List Byte)
  | char (b : Byte)
  | path (p : Path)
  | what (x : Exn)
  | code (c : ErrorCode)
deriving DecidableEq, Repr

/-- a line of the log, for example api.cpp l.36 -/
structure Line where
  sev : Sev
  items : List Item
deriving DecidableEq, Repr

/-- running code that logs: the lines written and what comes out; the log statements of api.cpp l.29-129 and elsewhere -/
structure Logged (α : Type) where
  lines : List Line
  res : Res α

namespace Logged

/-- one piece of code after the other: the second runs if the first returns, api.cpp l.29-129 and elsewhere -/
def bind {α β : Type} (x : Logged α) (f : α → Logged β) : Logged β :=
  match x.res with
  | .ok a => ⟨x.lines ++ (f a).lines, (f a).res⟩
  | .exn y => ⟨x.lines, .exn y⟩
  | .fatal y => ⟨x.lines, .fatal y⟩

/-- sequences of statements, api.cpp l.29-129 and elsewhere -/
instance : Monad Logged where
  pure a := ⟨[], .ok a⟩
  bind := bind

/-- `noexcept`, for example api.cpp l.29 -/
def noexcept {α : Type} (x : Logged α) : Logged α := ⟨x.lines, x.res.noexcept⟩

/-- the line of the handler of `catch (const std::exception&)`, for example api.cpp l.487-489 -/
def caught {α : Type} (l : Exn → Line) (r : Res α) : List Line :=
  match r with
  | .exn .pointer => []
  | .exn y => [l y]
  | _ => []

/-- `try { x } catch (const std::exception& e) { PLOG << …; … }`, for example api.cpp l.438-492 -/
def attempt {α : Type} (x : Logged α) (l : Exn → Line) : Logged (Option α) :=
  ⟨x.lines ++ caught l x.res, x.res.attempt⟩

end Logged

/-- The lines of the file handler and of the header parser (src/filehandler.cpp, src/dataheader.cpp l.254-1144): any function
of what the code sees, that is the file system, the path or the file and the number of the stream. -/
structure FileLog where
  create : Env → FS → Path → List Line
  handler : Env → FS → Path → List Line
  header : Env → FS → FileHandler → List Line
  content : Env → FS → FileHandler → List Line
  write : Env → FS → FileHandler → List Line
  names : Env → FS → Byte → Path → List Line

namespace Log

/-- a log statement, for example api.cpp l.36 -/
def say (s : Sev) (is : List Item) : Logged Unit := ⟨[⟨s, is⟩], .ok ()⟩

/-- some lines, for example filehandler.cpp l.22-28 -/
def emit (ls : List Line) : Logged Unit := ⟨ls, .ok ()⟩

/-- code without log statements, for example api.cpp l.120 -/
def quiet {α : Type} (r : Res α) : Logged α := ⟨[], r⟩

/-- `(… ? std::to_string(…) : "not set")`, dataheader.h l.251-252, l.424-429 -/
def optNum : Option Nat → Item
  | some n => .num n
  | none => .text "not set"

/-- `(… ? ….toHex() : "not set")`, dataheader.h l.253-254 -/
def optHex : Option Bytes → Item
  | some b => .hex b.data
  | none => .text "not set"

/-- the data block of a chain hash, chainhash_modes.h l.171 -/
def block : Option ChainHashData → Item
  | some d => if d.isComplete then .hex d.block.data else .text "not completed"
  | none => .text "not set"

/-- `operator<<` of `ChainHash`, chainhash_modes.h l.166-173 -/
def chain (c : ChainHash) : List Item :=
  [.text "[ChainHash] ch_mode: ", optNum (c.mode.map fun m => m.toByte.toNat), .text ", iters: ", .num c.iters.toNat,
   .text ", datablock: ", block c.data, .text ", valid: ", .num (if c.val then 1 else 0)]

/-- `operator<<` of `DataHeaderParts`, dataheader.h l.248-257 -/
def parts (p : DataHeaderParts) : List Item :=
  [.text "[DataHeaderParts] file_mode: ", optNum (p.fileMode.map fun m => m.toNat), .text ", hash_mode: ",
   optNum (p.hashMode.map fun m => m.toByte.toNat), .text ", valid_hash: ", optHex p.validator, .text ", enc_salt: ",
   optHex p.encSalt, .text ", chainhash1: "] ++ chain p.ch1 ++ [.text ", chainhash2: "] ++ chain p.ch2

/-- `operator<<` of `DataHeaderSettingsIters`, dataheader.h l.421-430 -/
def settings (ds : SettingsIters) : List Item :=
  [.text "[DataHeaderSettingsIters] file_mode: ", optNum ds.fileMode, .text ", hash_mode: ", optNum ds.hashMode,
   .text ", ch1_mode: ", optNum ds.ch1Mode, .text ", ch1_iters: ", optNum ds.ch1Iters, .text ", ch2_mode: ",
   optNum ds.ch2Mode, .text ", ch2_iters: ", optNum ds.ch2Iters]

/-- the fields of a returned `ErrorStruct` that are put into a line, for example api.cpp l.83, l.238 -/
def error {α : Type} : Out α → List Item
  | .success _ => []
  | .fail c => [.num 1, .code c]
  | .timeout => [.num 2, .code .ERR_TIMEOUT]

/-- `operator<<` of `DataHeaderSettingsTime`, dataheader.h l.595-604 -/
def settingsTime (ds : SettingsTime) : List Item :=
  [.text "[DataHeaderSettingsTime] file_mode: ", optNum ds.fileMode, .text ", hash_mode: ", optNum ds.hashMode,
   .text ", ch1_mode: ", optNum ds.ch1Mode, .text ", ch1_time: ", optNum ds.ch1Time, .text ", ch2_mode: ",
   optNum ds.ch2Mode, .text ", ch2_time: ", optNum ds.ch2Time]

/-- `HashModes::getHash`, hash_modes.cpp l.17-19 -/
def getHash (m : HMode) : Logged Unit := say .verbose [.text "getting hash function for hash mode: ", .num m.toByte.toNat]

/-- `ChainHash::isValid`, chainhash_modes.h l.47-78, called for `c`; the data block of a valid format is never too long -/
def isValid (c : ChainHash) : List Line :=
  if chainHashValid c.mode c.data c.iters then []
  else if c.mode.isNone || c.data.isNone then
    [⟨.warning, [.text "The chainhash is invalid (not all values are set)"]⟩, ⟨.debug, chain { c with val := false }⟩]
  else if c.iters.toNat = 0 ∨ maxIterations < c.iters.toNat then
    [⟨.warning, [.text "chainhash iterations are not valid (", .num c.iters.toNat, .text ")"]⟩, ⟨.debug, chain { c with val := false }⟩]
  else
    [⟨.warning, [.text "chainhash datablock is not completed or has the wrong format"]⟩, ⟨.debug, chain { c with val := false }⟩]

/-- `operator=`, chainhash_modes.h l.101-107 -/
def assign (c : ChainHash) : Logged ChainHash := do
  let c ← quiet c.assign
  emit (isValid c)
  pure c

/-- constructing a chain hash (chainhash_modes.h l.109-116) and assigning it, api.cpp l.57 and l.58 -/
def newChain (m : CHMode) (n : Nat) (d : ChainHashData) : Logged ChainHash := do
  emit (isValid (ChainHash.make m (UInt64.ofNat n) (some d)))
  assign (ChainHash.make m (UInt64.ofNat n) (some d))

/-- the round in which a loop of pwfunc.cpp leaves with a timeout, pwfunc.cpp l.46-55 and alike; see `chLoop` -/
def stopRound (timeout : Nat) (clk : Nat → Nat) : Nat → Nat → Option Nat
  | 0, _ => none
  | n + 1, i =>
    if timeout ≠ 0 ∧ i % timeoutIterations = 0 then
      if timeout ≤ clk i then some i else stopRound timeout clk n (i + 1)
    else stopRound timeout clk n (i + 1)

/-- the line about a timeout, pwfunc.cpp l.50 and alike, in a chain hash that ended with `o` -/
def timeoutLine (timeout : Nat) (round : Option Nat) (o : Out Bytes) : List Line :=
  match o, round with
  | .timeout, some i => [⟨.warning, [.text "timeout reached (timeout: ", .num timeout, .text ", iterations: ", .num i, .text ")"]⟩]
  | _, _ => []

/-- first line of `performChainHash`, chainhash_modes.cpp l.63 and l.97 -/
def performLine (ch : ChainHash) (timeout : Nat) : Logged UInt64 := do
  let m ← quiet ch.getMode
  let n ← quiet ch.getIters
  say .verbose [.text "performing chainhash (mode: ", .num m.toByte.toNat, .text ", iterations: ", .num n.toNat, .text ", timeout ",
    .num timeout, .text ")"]
  pure n

/-- `performChainHash` for a string, chainhash_modes.cpp l.95-127; the loops start with round 1, pwfunc.cpp l.46 -/
def performStr (ch : ChainHash) (H : HashFn) (data : List Byte) (timeout : Nat) (clk : Nat → Nat) : Logged (Out Bytes) := do
  let n ← performLine ch timeout
  let o ← quiet (ChainHashModes.performStr ch H data timeout clk)
  emit (timeoutLine timeout (stopRound timeout clk (n.toNat - 1) 1) o)
  pure o

/-- `performChainHash` for `Bytes`, chainhash_modes.cpp l.61-93; the loops start with round 0, pwfunc.cpp l.147-157 -/
def performBytes (ch : ChainHash) (H : HashFn) (data : Bytes) (timeout : Nat) (clk : Nat → Nat) : Logged (Out Bytes) := do
  let n ← performLine ch timeout
  let o ← quiet (ChainHashModes.performBytes ch H data timeout clk)
  emit (timeoutLine timeout (stopRound timeout clk n.toNat 0) o)
  pure o

/-- `PwFunc::isPasswordValid`, pwfunc.cpp l.8-38 -/
def isPasswordValid (pw : List Byte) : List Line :=
  match Verif.isPasswordValid pw with
  | .valid => []
  | .charInvalid c => [⟨.warning, [.text "invalid character found in password (char: ", .char c, .text ", ascii: ", .num c.toNat, .text ")"]⟩]
  | .tooShort => [⟨.warning, [.text "password is too short (length: ", .num pw.length, .text ", min length: ", .num 8, .text ")"]⟩]

/-- `DataHeader::isComplete`, dataheader.cpp l.22-26 with dataheader.h l.234-246 -/
def isComplete (d : DataHeader) : Logged Bool :=
  if d.isComplete then pure true
  else do
    say .debug (.text "isComplete failed: \n" :: parts d.dh)
    pure false

/-- `getDataHeaderParts`, dataheader.cpp l.244-252 -/
def getDataHeaderParts (d : DataHeader) : Logged DataHeaderParts := do
  if ← isComplete d then pure d.dh
  else do
    say .error [.text "not all required data is set to get DataHeaderParts"]
    quiet (.exn .logicError)

/-- constructor, dataheader.cpp l.10-20; `getHash` also runs in `setHashMode`, dataheader.h l.205-214 -/
def newHeader (m : HMode) (r : Rand) : Logged DataHeader := do
  say .verbose [.text "new DataHeader created (hash mode: ", .num m.toByte.toNat, .text ")"]
  getHash m
  getHash m
  quiet (DataHeader.new m.toByte r)

/-- `setChainHash1`, dataheader.cpp l.41-51 -/
def setChainHash1 (d : DataHeader) (c : ChainHash) : Logged DataHeader := do
  say .verbose (.text "setting chainhash1: " :: chain c)
  if !c.val then do
    say .error (.text "got invalid chainhash1: " :: chain c)
    quiet (.exn .invalidArgument)
  else do
    let c ← assign c
    pure (DataHeader.clear { d with dh := { d.dh with ch1 := c } })

/-- `setChainHash2`, dataheader.cpp l.53-63 -/
def setChainHash2 (d : DataHeader) (c : ChainHash) : Logged DataHeader := do
  say .verbose (.text "setting chainhash2: " :: chain c)
  if !c.val then do
    say .error (.text "got invalid chainhash2: " :: chain c)
    quiet (.exn .invalidArgument)
  else do
    let c ← assign c
    pure (DataHeader.clear { d with dh := { d.dh with ch2 := c } })

/-- `setFileDataMode`, dataheader.cpp l.65-70 -/
def setFileDataMode (d : DataHeader) (m : Byte) : Logged DataHeader := do
  say .verbose [.text "setting file mode: ", .num m.toNat]
  quiet (d.setFileDataMode m)

/-- `setValidPasswordHashBytes`, dataheader.cpp l.72-77 -/
def setValidPasswordHashBytes (d : DataHeader) (b : Bytes) : Logged DataHeader := do
  say .verbose [.text "setting password validator hash: ", .hex b.data]
  quiet (d.setValidPasswordHashBytes b)

/-- `setEncSalt`, dataheader.cpp l.143-148 -/
def setEncSalt (d : DataHeader) (b : Bytes) : Logged DataHeader := do
  say .verbose [.text "setting salt: ", .hex b.data]
  quiet (d.setEncSalt b)

/-- adding the data blocks, dataheader.cpp l.87-97 and l.1156-1158 -/
def addBlocks (bs : List DataBlock) (d : DataHeader) : Logged DataHeader := do
  emit (if 255 < d.dh.dec.length + bs.length then [⟨.error, [.text "there are already 255 datablocks"]⟩] else [])
  quiet (DataHeader.addBlocks bs d)

/-- adding the encrypted data blocks, dataheader.cpp l.99-110 and l.1159-1161 -/
def addEncBlocks (bs : List EncDataBlock) (d : DataHeader) : Logged DataHeader := do
  emit (if 255 < d.dh.enc.length + bs.length then [⟨.error, [.text "there are already 255 encrypted datablocks"]⟩] else [])
  quiet (DataHeader.addEncBlocks bs d)

/-- the `try` block of `setHeaderParts`, dataheader.cpp l.1149-1164 -/
def setHeaderTry (p : DataHeaderParts) (r : Rand) : Logged DataHeader := do
  let m ← quiet (DataHeaderParts.get p.hashMode)
  let d ← newHeader m r
  let f ← quiet (DataHeaderParts.get p.fileMode)
  let d ← setFileDataMode d f
  let d ← setChainHash1 d p.ch1
  let d ← setChainHash2 d p.ch2
  let v ← quiet (DataHeaderParts.get p.validator)
  let d ← setValidPasswordHashBytes d v
  let s ← quiet (DataHeaderParts.get p.encSalt)
  let d ← setEncSalt d s
  let d ← addBlocks p.dec d
  addEncBlocks p.enc d

/-- `setHeaderParts` (noexcept), dataheader.cpp l.1146-1174 -/
def setHeaderParts (p : DataHeaderParts) (r : Rand) : Logged (Out DataHeader) := Logged.noexcept do
  match ← Logged.attempt (setHeaderTry p r) (fun x =>
      ⟨.error, [.text "An error occurred while setting the header parts (error msg: ", .what x, .text ")"]⟩) with
  | some d => pure (.success d)
  | none => pure (.fail .ERR)

/-- the `try` block of `_createDataHeaderIters`, api.cpp l.49-62 -/
def makeChains (ds : SettingsIters) (e : Env) : Logged (ChainHash × ChainHash) := do
  let m1 ← quiet (ds.getChainHash1Mode >>= Api.chMode)
  let m2 ← quiet (ds.getChainHash2Mode >>= Api.chMode)
  let d1 ← quiet ((ChainHashData.new m1).generateRandomData (e.rand 0))
  let d2 ← quiet ((ChainHashData.new m2).generateRandomData (e.rand 1))
  let n1 ← quiet ds.getChainHash1Iters
  let c1 ← newChain m1 n1 d1
  let n2 ← quiet ds.getChainHash2Iters
  let c2 ← newChain m2 n2 d2
  let a ← quiet c1.getData
  let b ← quiet c2.getData
  if a.getLen ≠ d1.getLen ∨ b.getLen ≠ d2.getLen then quiet (.exn .logicError) else pure (c1, c2)

/-- the last steps: validator, salt, header object, api.cpp l.119-128 -/
def lastSteps (hs : Hashes) (e : Env) (p : DataHeaderParts) (m : HMode) (h1 v : Bytes) : Logged Api.Helper := do
  let p ← quiet (p.setValidPasswordHash v)
  let salt ← quiet ((Bytes.empty (hs.get m).size).fillrandom (e.rand 2))
  let p ← quiet (p.setEncSalt salt)
  let o ← setHeaderParts p (e.rand 3)
  pure ⟨o, h1⟩

/-- the two chain hashes and the header, api.cpp l.70-128 -/
def makeHeader (hs : Hashes) (pw : List Byte) (ds : SettingsIters) (timeout : Nat) (e : Env) (c1 c2 : ChainHash) :
    Logged Api.Helper := do
  let p : DataHeaderParts := { DataHeaderParts.empty with dec := ds.dec, enc := ds.enc, ch1 := c1, ch2 := c2 }
  let f ← quiet ds.getFileDataMode
  let p ← quiet (p.setFileDataMode (UInt8.ofNat f))
  let h ← quiet ds.getHashMode
  let p ← quiet (p.setHashMode (UInt8.ofNat h))
  let m ← quiet (DataHeaderParts.get p.hashMode)
  getHash m
  getHash m
  match ← performStr p.ch1 (hs.get m) pw timeout (e.clk 0) with
  | .fail c => do
    say .error (.text "Something went wrong while performing the first chainhash" :: error (.fail c : Out Bytes))
    pure (.createMove (.fail c))
  | .timeout => do
    say .error (.text "Something went wrong while performing the first chainhash" :: error (.timeout : Out Bytes))
    pure (.createMove .timeout)
  | .success h1 =>
    if timeout ≠ 0 ∧ timeout ≤ e.peek then do
      say .error [.text "Timeout reached after the first chainhash"]
      pure (.createMove .timeout)
    else do
      match ← performBytes p.ch2 (hs.get m) h1 (if timeout ≠ 0 then timeout - e.peek else timeout) (e.clk 1) with
      | .fail c => do
        say .error (.text "Something went wrong while performing the second chainhash" :: error (.fail c : Out Bytes))
        pure (.createMove (.fail c))
      | .timeout => do
        say .error (.text "Something went wrong while performing the second chainhash" :: error (.timeout : Out Bytes))
        pure (.createMove .timeout)
      | .success v => lastSteps hs e p m h1 v

/-- `isComplete` of the settings, dataheader.h l.408-419 -/
def complete (ds : SettingsIters) : Logged Bool :=
  if ds.isComplete then pure true
  else do
    say .debug (.text "isComplete failed: \n" :: settings ds)
    pure false

/-- `_createDataHeaderIters` (noexcept), api.cpp l.29-129 -/
def createDataHeaderIters (hs : Hashes) (mode : Byte) (pw : List Byte) (ds : SettingsIters) (timeout : Nat) (e : Env) :
    Logged Api.Helper := Logged.noexcept do
  if !(← complete ds) then do
    say .error [.text "The given DataHeaderSettingsIters is not complete"]
    pure (.createMove (.fail .ERR_DATAHEADERSETTINGS_INCOMPLETE))
  else do
    say .verbose (.text "Creating data header with iter settings (" :: settings ds ++ [.text ", timeout: ", .num timeout, .text ")"])
    let f ← quiet ds.getFileDataMode
    if f ≠ mode.toNat then do
      say .error [.text "The provided file mode does not match with selected file (file_mode: ", .num f,
        .text ", selected file file_mode: ", .num mode.toNat, .text ")"]
      pure (.createMove (.fail .ERR_FILEMODE_INVALID))
    else do
      match ← Logged.attempt (makeChains ds e) (fun x =>
          ⟨.error, [.text "Something went wrong while creating the chainhashes (what: ", .what x, .text ")"]⟩) with
      | none => pure (.createMove (.fail .ERR))
      | some (c1, c2) => makeHeader hs pw ds timeout e c1 c2

/-- constructors of the state objects, api.h l.221-273 -/
def stateLine (s : WState) : Line := ⟨.debug, [.text "API state changed to ", .text (match s with
  | .INIT => "INIT"
  | .FILE_SELECTED => "FILE_SELECTED"
  | .EMPTY_FILE_SELECTED => "EMPTY_FILE_SELECTED"
  | .PASSWORD_VERIFIED => "PASSWORD_VERIFIED"
  | .DECRYPTED => "DECRYPTED"
  | .ENCRYPTED => "ENCRYPTED"
  | .FINISHED => "FINISHED")]⟩

/-- the lines after the helper of `createDataHeader` has run, api.cpp l.506-514 and l.656-664 -/
def headerLine (h : Api.Helper) : List Line :=
  match h.err with
  | .success _ => [⟨.info, [.text "The data header was created successfully (createDataHeader)"]⟩]
  | o => [⟨.error, .text "The data header could not be created (createDataHeader)" :: error o⟩]

/-- `EMPTY_FILE_SELECTED::createDataHeader` (noexcept), api.cpp l.495-521 -/
def createForEmpty (hs : Hashes) (s : Session) (pw : List Byte) (ds : SettingsIters) (timeout : Nat) (e : Env) :
    Logged (Out Bool × Session) := do
  let h ← createDataHeaderIters hs s.fileMode pw ds timeout e
  emit (headerLine h)
  let r ← quiet (Api.headerForEmpty s h)
  emit (match h.err with
    | .success _ => [stateLine .DECRYPTED]
    | _ => [])
  pure r

/-- `DECRYPTED::createDataHeader` (noexcept), api.cpp l.643-669 -/
def createForOpen (hs : Hashes) (s : Session) (pw : List Byte) (ds : SettingsIters) (timeout : Nat) (e : Env) :
    Logged (Out Bool × Session) := do
  say .verbose (.text "Creating data header with iterations settings (" :: settings ds ++ [.text ", timeout: ", .num timeout, .text ")"])
  let h ← createDataHeaderIters hs s.fileMode pw ds timeout e
  emit (headerLine h)
  quiet (Api.headerForOpen s h)

/-- the `try` block of `verifyPassword`, api.cpp l.438-485 -/
def verifyTry (hs : Hashes) (e : Env) (s : Session) (pw : List Byte) (timeout : Nat) : Logged (Out Bool × Session) := do
  let d ← quiet (deref s.dh)
  let p ← getDataHeaderParts d
  let m ← quiet (DataHeaderParts.get p.hashMode)
  getHash m
  match ← performStr p.ch1 (hs.get m) pw timeout (e.clk 0) with
  | .fail c => do
    say .error (.text "The first chain hash failed (verifyPassword)" :: error (.fail c : Out Bytes))
    pure (.fail c, s)
  | .timeout => do
    say .error (.text "The first chain hash failed (verifyPassword)" :: error (.timeout : Out Bytes))
    pure (.timeout, s)
  | .success h1 =>
    let newTimeout := (timeout + (2 ^ 64 - e.peek % 2 ^ 64)) % 2 ^ 64
    if timeout ≠ 0 ∧ newTimeout = 0 then do
      say .warning [.text "Timeout reached after the first chainhash"]
      pure (.timeout, s)
    else do
      match ← performBytes p.ch2 (hs.get m) h1 newTimeout (e.clk 1) with
      | .fail c => do
        say .error (.text "The second chain hash failed (verifyPassword)" :: error (.fail c : Out Bytes))
        pure (.fail c, s)
      | .timeout => do
        say .error (.text "The second chain hash failed (verifyPassword)" :: error (.timeout : Out Bytes))
        pure (.timeout, s)
      | .success v => do
        let v' ← quiet (DataHeaderParts.get p.validator)
        if v.beq v' then do
          say .info [.text "The given password is valid (verifyPassword)"]
          emit [stateLine .PASSWORD_VERIFIED]
          pure (.success true, { s with pwHash := h1, state := .PASSWORD_VERIFIED })
        else do
          say .warning [.text "The given password is invalid (verifyPassword)"]
          pure (.fail .ERR_PASSWORD_INVALID, s)

/-- `FILE_SELECTED::verifyPassword` (noexcept), api.cpp l.431-493 -/
def verifyPassword (hs : Hashes) (e : Env) (s : Session) (pw : List Byte) (timeout : Nat) : Logged (Out Bool × Session) :=
  Logged.noexcept do
    say .verbose [.text "Verifying password (timeout: ", .num timeout, .text ")"]
    match ← Logged.attempt (verifyTry hs e s pw timeout) (fun x =>
        ⟨.error, [.text "Some error occurred while verifying the password (verifyPassword) (what: ", .what x, .text ")"]⟩) with
    | some r => pure r
    | none => pure (.fail .ERR, s)

/-- lines of the constructor of a chain: blockchain.h l.56-63 on refusal, else blockchain_encrypt.h l.13, blockchain_decrypt.h
l.13 -/
def chainLine (dir : Dir) (H : HashFn) (pwHash salt : Bytes) : List Line :=
  if pwHash.len ≠ H.size then
    [⟨.fatal, [.text "passwordhash has to be the same size as the hash from the hash function (passwordhash_len: ",
      .num pwHash.len, .text ", hash_size: ", .num H.size, .text ")"]⟩]
  else if salt.len ≠ H.size then
    [⟨.fatal, [.text "encrypted salt has to be the same size as the hash from the hash function (enc_salt_len: ",
      .num salt.len, .text ", hash_size: ", .num H.size, .text ")"]⟩]
  else [⟨.verbose, [.text (match dir with
    | .enc => "created new EncryptBlockChain"
    | .dec => "created new DecryptBlockChain")]⟩]

/-- height and size of a chain as they are logged, blockchain.cpp l.30, l.53, l.72, l.77 -/
def chainState (H : HashFn) (c : Chain) : List Item :=
  [.num c.getHeight, .text " [DATA_SIZE] ", .num (c.getDataSize H), .text "B"]

/-- a new chain, blockchain.cpp l.7-12, blockchain_encrypt.h l.11-14, blockchain_decrypt.h l.11-14 -/
def newChain' (dir : Dir) (H : HashFn) (pwHash salt : Bytes) : Logged Chain := do
  emit (chainLine dir H pwHash salt)
  quiet (Chain.new H pwHash salt)

/-- `addData(std::unique_ptr<Bytes>&&)`, blockchain.cpp l.56-73 -/
def addData (dir : Dir) (H : HashFn) (c : Chain) (data : Bytes) : Logged Chain := do
  let c ← quiet (c.addData dir H data)
  say .verbose (.text "added new data to blockchain [HEIGHT] " :: chainState H c)
  pure c

/-- `addData(std::ifstream&&, size_t)`, blockchain.cpp l.33-54. Of the line l.42, written when the stream ends too early, only
the length asked for is kept. -/
def addStream (dir : Dir) (H : HashFn) (c : Chain) (s : IStream) (len : Nat) : Logged (Chain × IStream) := do
  emit (match c.addStream dir H s len with
    | .exn .runtimeError => [⟨.fatal, [.text "could not read all bytes from file. streamsize: ", .num len]⟩]
    | _ => [])
  let r ← quiet (c.addStream dir H s len)
  say .verbose (.text "added new data to blockchain [HEIGHT] " :: chainState H r.1)
  pure r

/-- `getResult`, blockchain.cpp l.75-80 -/
def getResult (dir : Dir) (H : HashFn) (c : Chain) : Logged (Bytes × Chain) := do
  say .debug (.text "moving blockchain result. [HEIGHT] " :: chainState H c)
  quiet (c.getResult dir H)

/-- the `try` block of `getDecryptedData`, api.cpp l.555-565 -/
def decryptTry (hs : Hashes) (e : Env) (w : World) : Logged (FileDataStruct × Session) := do
  let d ← quiet (deref w.api.dh)
  let p ← getDataHeaderParts d
  let m ← quiet (DataHeaderParts.get p.hashMode)
  getHash m
  let salt ← quiet (DataHeaderParts.get p.encSalt)
  let c ← newChain' .dec (hs.get m) w.api.pwHash salt
  let f ← quiet (deref w.api.selected)
  let r ← addStream .dec (hs.get m) c (f.getDataStream e w.fs 0) f.getDataSize
  let q ← getResult .dec (hs.get m) r.1
  let fd ← quiet (FileDataStruct.make w.api.fileMode (some q.1))
  emit [stateLine .DECRYPTED]
  pure (fd, { w.api with fileData := none, state := .DECRYPTED })

/-- `PASSWORD_VERIFIED::getDecryptedData` (noexcept), api.cpp l.550-571 -/
def getDecryptedData (hs : Hashes) (e : Env) (w : World) : Logged (Out FileDataStruct × World) := Logged.noexcept do
  say .verbose [.text "Getting decrypted data"]
  match ← Logged.attempt (decryptTry hs e w) (fun x =>
      ⟨.error, [.text "Something went wrong while decrypting the data (getDecryptedData) (what: ", .what x, .text ")"]⟩) with
  | some (fd, s) => pure (.success fd, { w with api := s })
  | none => pure (.fail .ERR, w)

/-- encryption of the data with the key material of the session, api.cpp l.595-600 -/
def encryptWith (hs : Hashes) (s : Session) (d : DataHeader) (data : Bytes) : Logged Bytes := do
  let p ← getDataHeaderParts d
  let m ← quiet (DataHeaderParts.get p.hashMode)
  getHash m
  let salt ← quiet (DataHeaderParts.get p.encSalt)
  let c ← newChain' .enc (hs.get m) s.pwHash salt
  let c ← addData .enc (hs.get m) c data
  let q ← getResult .enc (hs.get m) c
  emit [stateLine .ENCRYPTED]
  pure q.1

/-- `setDataSize`, dataheader.cpp l.129-139 -/
def setDataSize (d : DataHeader) (n : UInt32) : Logged DataHeader := do
  say .verbose [.text "setting file size with data size: ", .num n.toNat]
  if ← isComplete d then pure () else say .error [.text "all dataheader parts have to be set to set the file size"]
  quiet (d.setDataSize n)

/-- why `calcHeaderBytes` refuses, dataheader.cpp l.169-184 and l.232-239 -/
def calcFail (d : DataHeader) (x : Exn) : List Line :=
  if !d.isComplete then
    [⟨.debug, .text "isComplete failed: \n" :: parts d.dh⟩, ⟨.error, [.text "not all required data is set to calculate the header bytes"]⟩]
  else [⟨.error, [.text "file size or header length do not fit", .what x]⟩]

/-- `calcHeaderBytes()`, dataheader.cpp l.166-242, called without password hash. The wording of the error lines l.176, l.182,
l.234, l.238, which hold sizes, is not modelled. -/
def calcHeaderBytes (hs : Hashes) (e : Env) (d : DataHeader) : Logged Unit := do
  say .verbose [.text "calculating header bytes ", .text "without verifying"]
  emit (match (d.calcHeaderBytes hs (Bytes.empty 0) (e.clk 0)).1 with
    | .exn x => calcFail d x
    | _ => [])
  quiet (d.calcHeaderBytes hs (Bytes.empty 0) (e.clk 0)).1

/-- the `try` block of `encryptData`, api.cpp l.591-605 -/
def encryptTry (hs : Hashes) (e : Env) (s : Session) (d : DataHeader) (data : Bytes) : Logged Bytes := do
  let d1 ← setDataSize d (UInt32.ofNat data.len)
  calcHeaderBytes hs e d1
  encryptWith hs s (d1.calcHeaderBytes hs (Bytes.empty 0) (e.clk 0)).2 data

/-- `DECRYPTED::encryptData` (noexcept), api.cpp l.573-613 -/
def encryptData (hs : Hashes) (e : Env) (s : Session) (fd : Option FileDataStruct) : Logged (Out Bool × Session) :=
  Logged.noexcept do
    say .verbose [.text "encrypt data..."]
    let fd ← quiet (deref fd)
    if !fd.isComplete then do
      say .warning [.text "file mode is not completed"]
      say .error [.text "The given FileDataStruct is not complete"]
      pure (.fail .ERR_FILEDATASTRUCT_INCOMPLETE, s)
    else do
      let f ← quiet fd.getFileMode
      if f ≠ s.fileMode then do
        say .error [.text "The provided file mode does not match with the selected file data mode (encryptData) (provided file mode: ",
          .num f.toNat, .text ", selected file mode: ", .num s.fileMode.toNat, .text ")"]
        pure (.fail .ERR_FILEMODE_INVALID, s)
      else do
        let d ← quiet (deref s.dh)
        let data ← quiet (deref fd.decData)
        match ← Logged.attempt (encryptTry hs e s d data) (fun x =>
            ⟨.error, [.text "Something went wrong while encrypting the data (encryptData) (what: ", .what x, .text ")"]⟩) with
        | some enc => pure (.success true, { s with
            dh := some (Api.encryptTry hs e s d data).2, encrypted := some enc, fileData := some { fd with decData := none },
            state := .ENCRYPTED })
        | none => pure (.fail .ERR, { s with dh := some (Api.encryptTry hs e s d data).2 })

/-- `DECRYPTED::changeSalt` (noexcept), api.cpp l.623-641 -/
def changeSalt (e : Env) (s : Session) : Logged (Out Unit × Session) := Logged.noexcept do
  say .verbose [.text "Changing salt"]
  let d ← quiet (deref s.dh)
  let p ← getDataHeaderParts d
  let old ← quiet (DataHeaderParts.get p.encSalt)
  let b ← quiet ((Bytes.empty old.len).fillrandom (e.rand 0))
  let p ← quiet (p.setEncSalt b)
  match ← setHeaderParts p (e.rand 1) with
  | .success d => pure (.success (), { s with dh := some d })
  | .fail c => do
    say .error (.text "The data header could not be created (changeSalt)" :: error (.fail c : Out Unit))
    pure (.fail c, s)
  | .timeout => do
    say .error (.text "The data header could not be created (changeSalt)" :: error (.timeout : Out Unit))
    pure (.timeout, s)

/-- last line of a save, api.cpp l.714-717 and l.732-735 -/
def writeLine (sev : Sev) (t : String) (o : Out Unit) : List Line :=
  match o with
  | .success () => [stateLine .FINISHED]
  | o => [⟨sev, .text t :: error o⟩]

/-- `ENCRYPTED::writeToFile(path)` (noexcept), api.cpp l.698-719 -/
def writeToPath (fl : FileLog) (e : Env) (w : World) (p : Path) : Logged (Out Unit × World) := do
  say .verbose [.text "Writing to file (file_path: ", .path p, .text ")"]
  emit (fl.handler e w.fs p)
  emit (match Api.getFileHandler e w.fs p 0 with
    | .ok (.success f) => fl.write e w.fs f
    | .ok o => [⟨.error, .text "The provided file path is invalid (writeToFile)" :: error o⟩]
    | _ => [])
  let r ← quiet (Api.writeToPath e w p)
  emit (match Api.getFileHandler e w.fs p 0 with
    | .ok (.success _) => writeLine .error "Some error occurred while writing to the file (writeToFile)" r.1
    | _ => [])
  pure r

/-- `ENCRYPTED::writeToFile()` (noexcept), api.cpp l.721-737 -/
def writeToSelected (fl : FileLog) (e : Env) (w : World) : Logged (Out Unit × World) := do
  let f ← quiet (Res.noexcept (deref w.api.selected))
  say .verbose [.text "Writing to selected file (file_path: ", .path f.path, .text ")"]
  emit (fl.write e w.fs f)
  let r ← quiet (Api.writeToSelected e w)
  emit (writeLine .fatal "Some error occurred while writing to the selected file (writeToFile)" r.1)
  pure r

/-- `INIT::selectFile` (noexcept), api.cpp l.370-383, l.224-247 -/
def selectFile (fl : FileLog) (hs : Hashes) (e : Env) (w : World) (p : Path) : Logged (Out Bool × World) := do
  say .verbose [.text "Selecting file (file_path: ", .path p, .text ")"]
  emit (fl.handler e w.fs p)
  emit (match Api.getFileHandler e w.fs p 0 with
    | .ok (.success f) => if f.isEmpty then [] else fl.header e w.fs f
    | .ok o => [⟨.error, .text "The file path is invalid" :: error o⟩]
    | _ => [])
  let r ← quiet (Api.selectFile hs e w p)
  emit (match Api.getFileHandler e w.fs p 0, r.1 with
    | .ok (.success _), .success _ => [⟨.info, [.text "File selected (file_path: ", .path p, .text ")"]⟩, stateLine r.2.api.state]
    | .ok (.success _), o => [⟨.error, .text "The data header could not be read" :: error o⟩]
    | _, _ => [])
  pure r

/-- `deleteFile`, api.cpp l.394-403, l.249-258, l.421-429 -/
def deleteFile (e : Env) (w : World) : Logged (Out Bool × World) := do
  let f ← quiet (Res.noexcept (deref w.api.selected))
  say .verbose [.text "Deleting file (file_path: ", .path f.path, .text ")"]
  let r ← quiet (Api.deleteSelected e w)
  emit (match r.1 with
    | .success _ => [⟨.verbose, [.text "Unselecting file (file_path: ", .path f.path, .text ")"]⟩, stateLine .INIT]
    | _ => [⟨.error, [.text "The file could not be deleted (deleteFile)"]⟩])
  pure r

/-- `getFileContent`, api.cpp l.405-414 -/
def getFileContent (fl : FileLog) (e : Env) (w : World) : Logged (Out Bytes) := do
  let f ← quiet (Res.noexcept (deref w.api.selected))
  emit (fl.content e w.fs f)
  let r ← quiet (Api.getFileContent e w)
  emit (match r with
    | .success _ => []
    | o => [⟨.error, .text "The data could not be read" :: error o⟩])
  pure r

/-- `unselectFile`, api.cpp l.421-429 with l.260-266 -/
def unselect (s : Session) : List Line :=
  [⟨.verbose, [.text "Unselecting file (file_path: ", .path (match s.selected with
    | some f => f.path
    | none => []), .text ")"]⟩, stateLine .INIT]

/-- the time-based `createDataHeader`: api.h l.403-410, api.cpp l.681, l.139; then it dies -/
def timeLines (s : WState) (ds : SettingsTime) : List Line :=
  if !ds.isComplete then
    [⟨.debug, .text "isComplete failed: \n" :: settingsTime ds⟩,
     ⟨.error, [.text "API call made (createDataHeader) with incomplete DataHeaderSettingsTime"]⟩]
  else
    ⟨.debug, [.text "API call made (createDataHeader) with Time: ", optNum ds.ch1Time, .text " and ", optNum ds.ch2Time]⟩ ::
      (match s with
        | .EMPTY_FILE_SELECTED => [⟨.verbose, .text "Creating data header with time settings (" :: settingsTime ds⟩]
        | .DECRYPTED => [⟨.verbose, .text "Creating data header with time settings (" :: settingsTime ds⟩,
            ⟨.verbose, .text "Creating data header with time settings (" :: settingsTime ds⟩]
        | _ => [])

/-- One call: the wrappers (api.h l.339-463) and the dispatch on the state (api.h l.143-274). The time-based
`createDataHeader` dies in the code before anything but its settings is logged (`Api.createDataHeaderTime`). -/
def call (fl : FileLog) (hs : Hashes) (rest : Api.Helper → Res Api.Helper) (e : Env) (w : World) : Call → Logged (Ret × World)
  | .getRelevantFileNames dir => do
    say .debug [.text "API call made (getRelevantFileNames) with dir: ", .path dir]
    match w.api.state with
    | .INIT => do
      emit (fl.names e w.fs w.api.fileMode dir)
      quiet (Api.call hs rest e w (.getRelevantFileNames dir))
    | _ => pure (.names wrongState, w)
  | .createFile p => do
    say .debug [.text "API call made (createFile) with file_path: ", .path p]
    match w.api.state with
    | .INIT => do
      emit (fl.create e w.fs p)
      quiet (Api.call hs rest e w (.createFile p))
    | _ => pure (.flag wrongState, w)
  | .selectFile p => do
    say .debug [.text "API call made (selectFile) with file_path: ", .path p]
    match w.api.state with
    | .INIT => do
      let r ← selectFile fl hs e w p
      pure (.flag r.1, r.2)
    | _ => pure (.flag wrongState, w)
  | .isFileEmpty => do
    say .debug [.text "API call made (isFileEmpty)"]
    quiet (Api.call hs rest e w .isFileEmpty)
  | .unselectFile => do
    say .debug [.text "API call made (unselectFile)"]
    match w.api.state with
    | .FILE_SELECTED => do
      emit (unselect w.api)
      quiet (Api.call hs rest e w .unselectFile)
    | .EMPTY_FILE_SELECTED => do
      emit (unselect w.api)
      quiet (Api.call hs rest e w .unselectFile)
    | _ => pure (.flag wrongState, w)
  | .deleteFile => do
    say .debug [.text "API call made (deleteFile)"]
    match w.api.state with
    | .FILE_SELECTED => do
      let r ← deleteFile e w
      pure (.flag r.1, r.2)
    | .EMPTY_FILE_SELECTED => do
      let r ← deleteFile e w
      pure (.flag r.1, r.2)
    | _ => pure (.flag wrongState, w)
  | .getFileContent => do
    say .debug [.text "API call made (getFileContent)"]
    match w.api.state with
    | .FILE_SELECTED => do
      let r ← getFileContent fl e w
      pure (.content r, w)
    | .EMPTY_FILE_SELECTED => pure (.content (.success (Bytes.empty 0)), w)
    | _ => pure (.content wrongState, w)
  | .verifyPassword pw t => do
    say .debug [.text "API call made (verifyPassword) with timeout: ", .num t]
    match w.api.state with
    | .FILE_SELECTED => do
      let r ← verifyPassword hs e w.api pw t
      pure (.flag r.1, { w with api := r.2 })
    | _ => pure (.flag wrongState, w)
  | .createDataHeader pw ds t => do
    if !(← complete ds) then do
      say .error [.text "API call made (createDataHeader) with incomplete DataHeaderSettingsIters"]
      pure (.flag (.fail .ERR_DATAHEADERSETTINGS_INCOMPLETE), w)
    else do
      say .debug [.text "API call made (createDataHeader) with timeout: ", .num t, .text " and Iterations: ", optNum ds.ch1Iters,
        .text " and ", optNum ds.ch2Iters]
      match w.api.state with
      | .EMPTY_FILE_SELECTED => do
        let r ← createForEmpty hs w.api pw ds t e
        pure (.flag r.1, { w with api := r.2 })
      | .DECRYPTED => do
        let r ← createForOpen hs w.api pw ds t e
        pure (.flag r.1, { w with api := r.2 })
      | _ => pure (.flag wrongState, w)
  | .createDataHeaderTime pw ds => do
    emit (timeLines w.api.state ds)
    quiet (Api.call hs rest e w (.createDataHeaderTime pw ds))
  | .changeSalt => do
    say .debug [.text "API call made (changeSalt)"]
    match w.api.state with
    | .DECRYPTED => do
      let r ← changeSalt e w.api
      pure (.plain r.1, { w with api := r.2 })
    | _ => pure (.plain wrongState, w)
  | .getDecryptedData => do
    say .debug [.text "API call made (getDecryptedData)"]
    match w.api.state with
    | .PASSWORD_VERIFIED => do
      let r ← getDecryptedData hs e w
      pure (.data r.1, r.2)
    | _ => pure (.data wrongState, w)
  | .getFileData => do
    say .debug [.text "API call made (getFileData)"]
    match w.api.state with
    | .DECRYPTED => do
      emit (if w.api.fileData.isNone then [⟨.error, [.text "The file data struct is null (getFileData)"]⟩] else [])
      quiet (Api.call hs rest e w .getFileData)
    | _ => pure (.data wrongState, w)
  | .encryptData fd => do
    say .debug [.text "API call made (encryptData)"]
    match w.api.state with
    | .DECRYPTED => do
      let r ← encryptData hs e w.api fd
      pure (.flag r.1, { w with api := r.2 })
    | _ => pure (.flag wrongState, w)
  | .writeToFile => do
    say .debug [.text "API call made (writeToFile)"]
    match w.api.state with
    | .ENCRYPTED => do
      let r ← writeToSelected fl e w
      pure (.plain r.1, r.2)
    | _ => pure (.plain wrongState, w)
  | .writeToFileAt p => do
    say .debug [.text "API call made (writeToFile) with file_path: ", .path p]
    match w.api.state with
    | .ENCRYPTED => do
      let r ← writeToPath fl e w p
      pure (.plain r.1, r.2)
    | _ => pure (.plain wrongState, w)
  | .logout => do
    say .debug [.text "API call made (logout)"]
    emit [stateLine .INIT]
    pure (.void, { w with api := Api.logout w.api })
  | .logoutMode m => do
    say .debug [.text "API call made (logout) with new file_mode", .num m.toNat]
    emit [stateLine .INIT]
    pure (.void, { w with api := Api.logout w.api })

/-- a history: the lines written from the first to the last call, api.h l.339-463 -/
def run (fl : FileLog) (hs : Hashes) (rest : Api.Helper → Res Api.Helper) (w : World) :
    List Event → Logged (List (Option Ret) × World)
  | [] => pure ([], w)
  | .call c e :: evs => do
    let r ← call fl hs rest e w c
    let q ← run fl hs rest r.2 evs
    pure (some r.1 :: q.1, q.2)
  | .outside p n :: evs => do
    let q ← run fl hs rest { w with fs := w.fs.set p n } evs
    pure (none :: q.1, q.2)

end Log
end Verif
