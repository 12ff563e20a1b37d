import Verif.Model.Overlap

/-
Different names of one file. The code keeps a path as it was given and hands it to the system again and again (filehandler.h l.14;
filehandler.cpp l.33, l.39, l.47, l.71, l.158, l.163, l.207; api.cpp l.251). What a path means may depend on the current directory, on
links between directories and on what is mounted where; several paths may mean the same place, and one path may mean different
places at different times. The disk has places; `names` says which place a path means.
Links in the last part of a path, where removing removes the link and not what it points to, and hard links, where removing removes
only one of the names, are in Model/Links.
-/
namespace Verif

/-- what a call does on a disk with places when nobody interrupts it: it goes to the places that its paths mean, filehandler.cpp l.33-207, api.cpp l.251 -/
def Prog.named {α : Type} (σ : Path → Path) : Prog α → FS → Res α × FS
  | .done r, fs => (r, fs)
  | .act p f k, fs => (k (fs (σ p))).named σ (fs.alter (σ p) f)

/-- What the system gets of a path: it is handed over as a C string, which ends at the first zero byte. The checks of the code look at
the whole path (filehandler.cpp l.26); the system is asked with the C string (filehandler.cpp l.33, l.39, l.47, l.71, l.158, l.163,
l.207, api.cpp l.251) -/
def Path.cString (p : Path) : Path := p.takeWhile (· ≠ 0)

/-- several `API` objects (api.h l.276-285 each), the disk by places, and the places that paths mean -/
structure Named where
  api : Nat → Session
  fs : FS
  names : Path → Path

/-- a call to one of the objects, a change of a place made by another program, a change of what paths mean (the current
directory is changed, a link between directories is made, …); api.h l.339-463 for the calls -/
inductive NamedEvent
  | call (i : Nat) (c : Call) (e : Env)
  | outside (place : Path) (n : Node)
  | rename (names : Path → Path)

/-- what can be found under the paths, the paths of filehandler.h l.14 -/
def Named.view (m : Named) : FS := fun p => m.fs (m.names p)

namespace Api

/-- one step (api.h l.339-463 for the calls) -/
def stepNamed (hs : Hashes) (rest : Helper → Res Helper) (m : Named) : NamedEvent → Res (Option (Nat × Ret) × Named)
  | .call i c e => do
    let x := (Steps.call hs rest e (m.api i) c).named m.names m.fs
    let (r, s) ← x.1
    .ok (some (i, r), { m with api := fun j => if j = i then s else m.api j, fs := x.2 })
  | .outside d n => .ok (none, { m with fs := m.fs.set d n })
  | .rename σ => .ok (none, { m with names := σ })

/-- a history (api.h l.339-463 for the calls); the returned values in order -/
def runNamed (hs : Hashes) (rest : Helper → Res Helper) (m : Named) :
    List NamedEvent → Res (List (Option (Nat × Ret)) × Named)
  | [] => .ok ([], m)
  | ev :: evs => do
    let (r, m) ← stepNamed hs rest m ev
    let (rs, m) ← runNamed hs rest m evs
    .ok (r :: rs, m)

end Api
end Verif
