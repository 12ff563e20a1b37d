import Verif.Model.Api

/-
The demonstration program `/repo/src/main.cpp`. The file does not compile against the present classes: it calls
`getEncryptedData`, today's `encryptData`, and expects `verifyPassword` and `createDataHeader` to hand out the hash and the
header, today a truth value; it is read as text with these calls. What it logs, the log file, and the time it measures are
not modelled. An exception that leaves `main` ends the program.
-/
namespace Verif.Demo

/-- `FILE`, main.cpp l.37; the fourth character is U+FFFD, three bytes in UTF-8 -/
def fileName : List Byte := ascii "qqY" ++ [0xEF, 0xBF, 0xBD] ++ ascii "7.enc"

/-- `PASS`, main.cpp l.38 -/
def pass : List Byte := ascii "test"

/-- `dsi`, main.cpp l.41-49; the numbers of the modes are those of base.h l.10-16 -/
def settings : Res SettingsIters := do
  let s ← SettingsIters.setChainHash1Mode {} 4
  let s ← s.setChainHash2Mode 5
  let s ← s.setChainHash1Iters 1000000
  let s ← s.setChainHash2Iters 200000
  let s ← s.setFileDataMode 1
  s.setHashMode 1

/-- Listing the directory, main.cpp l.62-68 and l.185-191: the directory of the encrypted files. `returnValue` and `returnRef`
throw `logic_error` if the call before has failed. -/
def start (e : Env) (fs : FS) : Res Path := do
  match ← Api.getEncDirPath fs with
  | .success dir => do
    match ← Api.getAllEncFileNames e fs dir with
    | .success _ => .ok dir
    | _ => .exn .logicError
  | _ => .exn .logicError

/-- Five bytes are added, main.cpp l.155-159 and l.283-287 -/
def addFive (b : Bytes) : Res Bytes := do
  let b ← b.addByte 0x00
  let b ← b.addByte 0x01
  let b ← b.addByte 0x02
  let b ← b.addByte 0x03
  b.addByte 0x04

/-- What the program makes of the decrypted data, main.cpp l.269-287 (the log line l.271 follows the same pointers). Copying
the container (l.282) keeps its capacity. -/
def appended : Ret → Res FileDataStruct
  | .data (.success fd) => do
    let old ← deref fd.decData
    let b ← old.addcopyToBytes (Bytes.empty (old.len + 5))
    let b ← addFive (b.copyExtra 0)
    .ok { fd with decData := some b }
  | _ => .exn .logicError

/-- What the program makes of the data of a new file, main.cpp l.146-160 -/
def replaced : Ret → Res FileDataStruct
  | .data (.success fd) => do
    let _ ← deref fd.decData
    let b ← addFive (Bytes.empty 5)
    .ok { fd with decData := some (b.copyExtra 0) }
  | _ => .exn .logicError

/-- How the program goes on after something that may end it; the disk then stays as it is. (A save that dies does so before
it touches the disk: afterwards nothing can fail any more, see `Api.fullData_inv`.); main.cpp l.50-307 -/
def next {α : Type} (fs : FS) (x : Res α) (k : α → Res Ret × FS) : Res Ret × FS :=
  match x with
  | .ok a => k a
  | .exn x => (.exn x, fs)
  | .fatal x => (.fatal x, fs)

/-- The common end, main.cpp l.161-174 and l.289-302: change the salt, encrypt, write. Failures are only logged. The value is
the answer of `writeToFile`. -/
def finish (hs : Hashes) (rest : Api.Helper → Res Api.Helper) (e : Nat → Env) (w : World) (fd : FileDataStruct) : Res Ret × FS :=
  next w.fs (Api.call hs rest (e 4) w .changeSalt) fun (_, w) =>
  next w.fs (Api.call hs rest (e 5) w (.encryptData (some fd))) fun (_, w) =>
  next w.fs (Api.call hs rest (e 6) w .writeToFile) fun (r, w) => (.ok r, w.fs)

/-- `main`, the branch that is taken, main.cpp l.175-303: select the file, check the password, decrypt, append five bytes, save.
The value is the answer of `writeToFile`, or what ended the program; with it the disk. `e i` is what the `i`-th call
observes. -/
def appendRun (hs : Hashes) (rest : Api.Helper → Res Api.Helper) (e : Nat → Env) (fs : FS) : Res Ret × FS :=
  next fs settings fun _ =>
  next fs (Api.new 1) fun s =>
  next fs (start (e 0) fs) fun dir =>
  next fs (Api.call hs rest (e 1) ⟨s, fs⟩ (.selectFile (Path.join dir fileName))) fun (_, w) =>
  next w.fs (Api.call hs rest (e 2) w (.verifyPassword pass 0)) fun (_, w) =>
  next w.fs (Api.call hs rest (e 3) w .getDecryptedData) fun (r, w) =>
  next w.fs (appended r) fun fd =>
  finish hs rest e w fd

/-- `main`, the branch that is switched off (`if (0)`), main.cpp l.52-174: create the file, select it, make a header, save five
bytes. -/
def newRun (hs : Hashes) (rest : Api.Helper → Res Api.Helper) (e : Nat → Env) (fs : FS) : Res Ret × FS :=
  next fs settings fun ds =>
  next fs (Api.new 1) fun s =>
  next fs (start (e 0) fs) fun dir =>
  next fs (Api.call hs rest (e 1) ⟨s, fs⟩ (.createFile (Path.join dir fileName))) fun (_, w) =>
  next w.fs (Api.call hs rest (e 2) w (.selectFile (Path.join dir fileName))) fun (_, w) =>
  next w.fs (Api.call hs rest (e 3) w (.createDataHeader pass ds 0)) fun (_, w) =>
  next w.fs (Api.call hs rest (e 7) w .getFileData) fun (r, w) =>
  next w.fs (replaced r) fun fd =>
  finish hs rest e w fd

end Verif.Demo
