import Verif.Model.Api

/-
What a save leaves on the disk if the process or the machine stops in the middle of it. A save opens the file for writing,
which empties it (filehandler.cpp l.207), and then passes header and data to the stream (api.cpp l.713 and l.731). The
bytes reach the disk in order and in pieces of any size. (A file system that writes blocks out of order, and the loss of
data after a reported success because the code does not ask for it to be flushed to the disk, are not modelled.)
-/
namespace Verif.Api

/-- `writeToFile()` stopped when the stream was open and `n` bytes had been stored, api.cpp l.721-731 -/
def stopSave (e : Env) (w : World) (n : Nat) : Res FS := Res.noexcept do
  let f ← deref w.api.selected
  match ← f.getWriteStream e w.fs with
  | (.success (), f, fs) =>
    if n = 0 then .ok fs
    else do
      let b ← fullData { w.api with selected := some f }
      .ok (fs.set f.path (.file (b.data.take n)))
  | (_, _, fs) => .ok fs

/-- `writeToFile(path)` stopped when the stream was open and `n` bytes had been stored, api.cpp l.698-713 -/
def stopSaveAt (e : Env) (w : World) (p : Path) (n : Nat) : Res FS := Res.noexcept do
  match ← getFileHandler e w.fs p 0 with
  | .success f => do
    match ← f.getWriteStreamIfEmpty e w.fs with
    | (.success (), f, fs) =>
      if n = 0 then .ok fs
      else do
        let b ← fullData w.api
        .ok (fs.set f.path (.file (b.data.take n)))
    | (_, _, fs) => .ok fs
  | _ => .ok w.fs

/-- the disk after a save that may have stopped anywhere, or run to its end; api.cpp l.721-731 -/
def SaveStops (e : Env) (w : World) (fs : FS) : Prop := fs = w.fs ∨ ∃ n, stopSave e w n = .ok fs

/-- the disk after a save to another file that may have stopped anywhere, or run to its end; api.cpp l.698-713 -/
def SaveAtStops (e : Env) (w : World) (p : Path) (fs : FS) : Prop := fs = w.fs ∨ ∃ n, stopSaveAt e w p n = .ok fs

end Verif.Api
