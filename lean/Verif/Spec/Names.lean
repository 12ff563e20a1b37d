import Verif.Model.Names
import Verif.Spec.Overlap

/- Different names of one file: which names a call uses, and the history as it looks to somebody who takes every name for a file of
its own. -/
namespace Verif.Spec

/-- the names a call comes across; a listing those that the system says are in the directory -/
def Comes (e : Env) : Call → Path → Prop
  | .createFile p, q | .selectFile p, q | .writeToFileAt p, q => q = p
  | .getRelevantFileNames d, q => q = d ∨ ∃ n ∈ e.list d, q = Path.join d n ∨ q = Path.join d (Path.filename (Path.join d n))
  | _, _ => False

/-- the calls of the history use only names in `Q` -/
def NamesIn (Q : List Path) : NamedEvent → Prop
  | .call _ c e => ∀ q, Comes e c q → q ∈ Q
  | _ => True

/-- The history for somebody who takes each of the names `Q` for a file of its own: after a call, some names change as if
by the hand of another program, but only names that have another one for the same place; a change of a place is a change of all
its names; when names change their meaning, only those may seem to change that do. -/
inductive Shadow (Q : List Path) : (Path → Path) → List NamedEvent → List ManyEvent → Prop
  | nil (σ) : Shadow Q σ [] []
  | call (σ i c e evs l evs') (h : ∀ ev ∈ l, ∃ p q n, ev = .outside q n ∧ q ∈ Q ∧ p ∈ Q ∧ p ≠ q ∧ σ p = σ q) :
      Shadow Q σ evs evs' → Shadow Q σ (.call i c e :: evs) (.call i c e :: (l ++ evs'))
  | outside (σ d n evs evs') :
      Shadow Q σ evs evs' → Shadow Q σ (.outside d n :: evs) ((Q.filter (σ · = d)).map (.outside · n) ++ evs')
  | rename (σ σ' evs l evs') (h : ∀ ev ∈ l, ∃ q n, ev = .outside q n ∧ q ∈ Q ∧ σ q ≠ σ' q) :
      Shadow Q σ' evs evs' → Shadow Q σ (.rename σ' :: evs) (l ++ evs')

/-- no name changes its meaning -/
def NoRename : NamedEvent → Prop
  | .rename _ => False
  | _ => True

/-- the history by names, when every place has at most one name in `Q` -/
def byName (Q : List Path) (σ : Path → Path) : List NamedEvent → List ManyEvent
  | [] => []
  | .call i c e :: evs => .call i c e :: byName Q σ evs
  | .outside d n :: evs => (Q.filter (σ · = d)).map (.outside · n) ++ byName Q σ evs
  | .rename σ' :: evs => byName Q σ' evs

end Verif.Spec
