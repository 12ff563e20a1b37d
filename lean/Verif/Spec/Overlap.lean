import Verif.Model.Overlap
import Verif.Spec.Isolation

/- Calls that overlap in time: which of them get into each other's way, and the history in which each call is over as soon as it
starts. -/
namespace Verif.Spec

/-- calls that go to the selected file -/
def OnSelected : Call → Prop
  | .deleteFile | .getFileContent | .getDecryptedData | .writeToFile => True
  | _ => False

/-- the paths a call looks at -/
def Uses (s : Session) (c : Call) (p : Path) : Prop := Mentions c p ∨ OnSelected c ∧ ∃ f, s.selected = some f ∧ f.path = p

/-- the paths a call may change -/
def Changes (s : Session) : Call → Path → Prop
  | .createFile q, p | .writeToFileAt q, p => q = p
  | .deleteFile, p | .writeToFile, p => ∃ f, s.selected = some f ∧ f.path = p
  | _, _ => False

/-- one of the two calls may change a path that the other one looks at -/
def Clash (s : Session) (c : Call) (s' : Session) (c' : Call) : Prop :=
  ∃ p, Changes s c p ∧ Uses s' c' p ∨ Uses s c p ∧ Changes s' c' p

/-- A session starts a call when it is in none and nobody is in a call that clashes with it; other programs change no path that
a call going on looks at. -/
def MayHappen (m : Over) : OverEvent → Prop
  | .start i c _ => m.running i = none ∧ ∀ j r, m.running j = some r → ¬ Clash (m.api i) c (m.api j) r.call
  | .step _ => True
  | .outside p _ => ∀ j r, m.running j = some r → ¬ Uses (m.api j) r.call p

/-- no two calls that clash go on at the same time -/
def Orderly (hs : Hashes) (rest : Api.Helper → Res Api.Helper) (m : Over) (evs : List OverEvent) : Prop :=
  ∀ pre ev post rs m1, evs = pre ++ ev :: post → Api.runOver hs rest m pre = .ok (rs, m1) → MayHappen m1 ev

/-- the calls one after the other, in the order in which they start -/
def begun : List OverEvent → List ManyEvent
  | [] => []
  | .start i c e :: evs => .call i c e :: begun evs
  | .step _ :: evs => begun evs
  | .outside p n :: evs => .outside p n :: begun evs

/-- nobody is in a call -/
def AllIdle (m : Over) : Prop := ∀ i, m.running i = none

/-- some order of the calls, one after the other, gives the same answers to every session, leaves the same sessions and the same
disk -/
def Serializable (hs : Hashes) (rest : Api.Helper → Res Api.Helper) (m : Many) (evs : List OverEvent)
    (rs : List (Option (Nat × Ret))) (m' : Over) : Prop :=
  ∃ l, l.Perm (begun evs) ∧ ∃ rs', Api.runMany hs rest m l = .ok (rs', ⟨m'.api, m'.fs⟩) ∧ ∀ i, answersOf i rs = answersOf i rs'

end Verif.Spec
