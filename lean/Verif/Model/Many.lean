import Verif.Model.Api

/-
Several sessions on one disk. The class `API` has no static data members (api.h l.66-463; its only static functions take
everything as arguments), so two `API` objects have nothing in common but the disk. Calls do not overlap in time: one thread
uses all the objects, or the objects belong to programs that take turns.
-/
namespace Verif

/-- several `API` objects (api.h l.276-285 each), told apart by a number, and the disk they share -/
structure Many where
  api : Nat → Session
  fs : FS

/-- a call to one of the objects, or a change made by another program; api.h l.339-463 for the calls -/
inductive ManyEvent
  | call (i : Nat) (c : Call) (e : Env)
  | outside (p : Path) (n : Node)

/-- the world as the `i`-th object sees it, api.h l.276-285 -/
def Many.of (m : Many) (i : Nat) : World := ⟨m.api i, m.fs⟩

/-- the world after a call to the `i`-th object, api.h l.276-285 -/
def Many.after (m : Many) (i : Nat) (w : World) : Many := ⟨fun j => if j = i then w.api else m.api j, w.fs⟩

namespace Api

/-- one step (api.h l.339-463 for the calls) -/
def stepMany (hs : Hashes) (rest : Helper → Res Helper) (m : Many) : ManyEvent → Res (Option (Nat × Ret) × Many)
  | .call i c e => do
    let (r, w) ← call hs rest e (m.of i) c
    .ok (some (i, r), m.after i w)
  | .outside p n => .ok (none, { m with fs := m.fs.set p n })

/-- a history (api.h l.339-463); the returned values in order -/
def runMany (hs : Hashes) (rest : Helper → Res Helper) (m : Many) : List ManyEvent → Res (List (Option (Nat × Ret)) × Many)
  | [] => .ok ([], m)
  | ev :: evs => do
    let (r, m) ← stepMany hs rest m ev
    let (rs, m) ← runMany hs rest m evs
    .ok (r :: rs, m)

end Api
end Verif
