import Verif.Model.Api
import Verif.Spec.Header

/- Who uses random bytes, used in statements. -/
namespace Verif.Spec

/-- the calls that make a header or a new salt -/
def DrawsRandom : Call → Prop
  | .createDataHeader .. | .createDataHeaderTime .. | .changeSalt => True
  | _ => False

/-- the calls that read headers of files -/
def ReadsHeaders : Call → Prop
  | .getRelevantFileNames _ | .selectFile _ => True
  | _ => False

/-- a random source that always delivers -/
def Works (q : Nat → Rand) : Prop := ∀ i, (q i).good = true

/-- the same events, met by other random bytes; no call is meant to use them -/
inductive SameButRandom : List Event → List Event → Prop
  | nil : SameButRandom [] []
  | call (c : Call) (e : Env) (q : Nat → Rand) (evs evs' : List Event) (hc : ¬ DrawsRandom c) (he : Works e.rand) (hq : Works q)
      (h : SameButRandom evs evs') : SameButRandom (.call c e :: evs) (.call c { e with rand := q } :: evs')
  | outside (p : Path) (n : Node) (evs evs' : List Event) (h : SameButRandom evs evs') :
      SameButRandom (.outside p n :: evs) (.outside p n :: evs')

/-- the sizes at the start are in order and the hash mode is known -/
def ModesRead (l : List Byte) : Prop := ∃ hsize fmode hmode rest, l = num8 l.length ++ (num8 hsize ++ fmode :: hmode :: rest) ∧
  hsize ≤ l.length ∧ (hmode = 1 ∨ hmode = 2 ∨ hmode = 3)

end Verif.Spec
