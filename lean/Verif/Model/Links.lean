import Verif.Model.Overlap

/-
Links to files. A name in a directory may stand for a file, of which there may be several names ("hard" links), or for another path
(a symbolic link). The system follows symbolic links when it looks at a path (`std::filesystem::exists`, `is_regular_file`),
opens it for reading or for writing, where it creates what the link leads to if that is missing (filehandler.cpp l.33, l.39, l.47,
l.71, l.158, l.163, l.207, api.cpp l.297, l.320, l.328). It does not follow them when it removes a path, which removes the name
(api.cpp l.251). The accesses are those of Model/Overlap, made without interruption.
Simplifications: the target of a symbolic link is a full path, and directories on the way to it are not links (these are in
Model/Names); permissions are asked for by the path that was given.
-/
namespace Verif

/-- what the system knows under one path before it follows links; met in filehandler.cpp l.33-207, api.cpp l.251 -/
inductive Entry
  | none
  | unreachable
  /-- a name of the file (or directory) number `i` -/
  | name (i : Nat)
  | link (target : Path)
deriving DecidableEq, Repr

/-- the names, the files by number, and the first number not yet in use; the disk that filehandler.cpp l.33-207 and api.cpp l.251
work on -/
structure Disk where
  entry : Path → Entry
  file : Nat → Node
  next : Nat

/-- where a path leads to: a free name, or a file; filehandler.cpp l.33, l.39, l.47, l.71, l.158, l.163, l.207 -/
inductive Place
  | free (p : Path)
  | file (i : Nat)
deriving DecidableEq, Repr

/-- following symbolic links, at most so many; `none`: there are more or something cannot be reached. Linux follows 40.
Done by the system in filehandler.cpp l.33, l.39, l.47, l.71, l.158, l.163, l.207 -/
def Disk.follow (d : Disk) : Nat → Path → Option Place
  | n, p => match d.entry p, n with
    | .none, _ => some (.free p)
    | .unreachable, _ => none
    | .name i, _ => some (.file i)
    | .link _, 0 => none
    | .link q, n + 1 => d.follow n q

/-- where a path leads to, filehandler.cpp l.33, l.39, l.47, l.71, l.158, l.163, l.207 -/
def Disk.place (d : Disk) (p : Path) : Option Place := d.follow 40 p

/-- what is found there, filehandler.cpp l.33, l.39, l.47, l.158, l.163 -/
def Disk.at (d : Disk) : Option Place → Node
  | none => .unreachable
  | some (.free _) => .missing
  | some (.file i) => d.file i

/-- what is found under the paths, filehandler.cpp l.33, l.39, l.47, l.158, l.163 -/
def Disk.view (d : Disk) : FS := fun p => d.at (d.place p)

/-- the disk after an access that follows links left something under the path, filehandler.cpp l.71, l.207, api.cpp l.713, l.731 -/
def Disk.store (d : Disk) (p : Path) (n : Node) : Disk := match d.place p with
  | none => d
  | some (.file i) => { d with file := fun j => if j = i then n else d.file j }
  | some (.free q) =>
    { entry := fun r => if r = q then .name d.next else d.entry r, file := fun j => if j = d.next then n else d.file j,
      next := d.next + 1 }

/-- what a call does on a disk with links when nobody interrupts it, except removing; filehandler.cpp l.33-207 -/
def Prog.linked {α : Type} : Prog α → Disk → Res α × Disk
  | .done r, d => (r, d)
  | .act p f k, d => (k (d.view p)).linked (match f (d.view p) with
    | some n => d.store p n
    | none => d)

/-- `std::filesystem::remove`: removes a name, whatever it stands for; api.cpp l.251 -/
def Disk.remove (d : Disk) (e : Env) (p : Path) : Res (Bool × Disk) :=
  match d.entry p with
  | .none => .ok (false, d)
  | .unreachable => .exn .runtimeError
  | _ => if e.canRemove p then .ok (true, { d with entry := fun r => if r = p then .none else d.entry r }) else .exn .runtimeError

/-- `_deleteFile` (noexcept), api.cpp l.249-258 -/
def Steps.deleteLinked (e : Env) (s : Session) (d : Disk) : Res ((Ret × Session) × Disk) := Res.noexcept do
  let f ← deref s.selected
  let (ok, d') ← d.remove e f.path
  if !ok then .ok ((.flag (.fail .ERR_FILE_NOT_DELETED), s), d)
  else .ok ((.flag (.success true), Api.unselect s), d')

/-- several `API` objects (api.h l.276-285 each) and the disk -/
structure Linked where
  api : Nat → Session
  disk : Disk

/-- a call to one of the objects, or other programs leave some disk behind; api.h l.339-463 for the calls -/
inductive LinkedEvent
  | call (i : Nat) (c : Call) (e : Env)
  | outside (d : Disk)

namespace Api

/-- one call (api.h l.339-463) -/
def callLinked (hs : Hashes) (rest : Helper → Res Helper) (e : Env) (s : Session) (d : Disk) (c : Call) :
    Res ((Ret × Session) × Disk) :=
  match c, s.state with
  | .deleteFile, .FILE_SELECTED | .deleteFile, .EMPTY_FILE_SELECTED => Steps.deleteLinked e s d
  | c, _ => do
    let x := (Steps.call hs rest e s c).linked d
    let r ← x.1
    .ok (r, x.2)

/-- one step (api.h l.339-463 for the calls) -/
def stepLinked (hs : Hashes) (rest : Helper → Res Helper) (m : Linked) : LinkedEvent → Res (Option (Nat × Ret) × Linked)
  | .call i c e => do
    let ((r, s), d) ← callLinked hs rest e (m.api i) m.disk c
    .ok (some (i, r), ⟨fun j => if j = i then s else m.api j, d⟩)
  | .outside d => .ok (none, { m with disk := d })

/-- a history (api.h l.339-463 for the calls); the returned values in order -/
def runLinked (hs : Hashes) (rest : Helper → Res Helper) (m : Linked) :
    List LinkedEvent → Res (List (Option (Nat × Ret)) × Linked)
  | [] => .ok ([], m)
  | ev :: evs => do
    let (r, m) ← stepLinked hs rest m ev
    let (rs, m) ← runLinked hs rest m evs
    .ok (r :: rs, m)

end Api
end Verif
