import Verif.Model.FileSys

/-
One object of `class FileHandler` over its whole life (`/repo/src/filehandler.cpp`): the members it keeps after an `update` that
threw and after handing out write streams. Model/FileSys has the constructor and the single calls.
-/
namespace Verif
namespace FileHandler

/-- `update` on an existing object, filehandler.cpp l.92-129: what it throws and the object afterwards. The file size and the
emptiness are assigned before anything can throw (l.97-98), the header size where it has been read (l.103, l.117). -/
def refresh (e : Env) (fs : FS) (f : FileHandler) (i : Nat) : Res Unit × FileHandler :=
  let size := measure e fs f.path
  let f := { f with fileSize := size, empty := size == 0 }
  match readHeaderSize (fs.openIn e f.path i) size with
  | .ok n =>
    let f := { f with headerSize := n }
    if n > size then (.exn .logicError, f)
    else if n < minDataHeaderLen ∧ ¬ (n = 0 ∧ size = 0) then (.exn .lengthError, f)
    else (.ok (), f)
  | .exn x => (.exn x, f)
  | .fatal x => (.fatal x, f)

/-- `getDataSize` as computed, in `size_t`, filehandler.cpp l.172 -/
def dataSizeWord (f : FileHandler) : UInt64 := UInt64.ofNat f.fileSize - UInt64.ofNat f.headerSize

/-- what a caller does with an object, filehandler.h l.23-41, each with what it observes of the outside. `write x` and
`writeIfEmpty x` ask for the write stream, pass `x` to it if they get one, and close it (api.cpp l.707-714, l.725-732). -/
inductive Use
  | update (e : Env)
  | write (e : Env) (x : List Byte)
  | writeIfEmpty (e : Env) (x : List Byte)
  /-- another program changes what a path leads to -/
  | outside (p : Path) (n : Node)

/-- what the caller gets: nothing, an exception, or the outcome of asking for a write stream; filehandler.h l.23-41 -/
inductive Answer
  | done
  | threw (x : Exn)
  | stream (o : Out Unit)
deriving DecidableEq, Repr

/-- passing `x` to the stream and closing it, api.cpp l.712-714, l.730-732 -/
def putInto (e : Env) (x : List Byte) (r : Out Unit × FileHandler × FS) : Answer × FileHandler × FS :=
  match r with
  | (.success (), f, fs) => (.stream (.success ()), f, fs.set f.path (.file (x.take e.stored)))
  | (o, f, fs) => (.stream o, f, fs)

/-- one use of the object, filehandler.h l.23-41 -/
def use (f : FileHandler) (fs : FS) : Use → Res (Answer × FileHandler × FS)
  | .update e => match f.refresh e fs 0 with
    | (.ok (), f) => .ok (.done, f, fs)
    | (.exn x, f) => .ok (.threw x, f, fs)
    | (.fatal x, _) => .fatal x
  | .write e x => do
    let r ← f.getWriteStream e fs
    .ok (putInto e x r)
  | .writeIfEmpty e x => do
    let r ← f.getWriteStreamIfEmpty e fs
    .ok (putInto e x r)
  | .outside p n => .ok (.done, f, fs.set p n)

/-- a sequence of uses, filehandler.h l.23-41 -/
def uses (f : FileHandler) (fs : FS) : List Use → Res (List Answer × FileHandler × FS)
  | [] => .ok ([], f, fs)
  | u :: us => do
    let (a, f, fs) ← f.use fs u
    let (as, f, fs) ← f.uses fs us
    .ok (a :: as, f, fs)

end FileHandler
end Verif
