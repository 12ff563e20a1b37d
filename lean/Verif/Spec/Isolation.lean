import Verif.Model.Many

/- Which paths a call looks at; sessions that keep to their own paths. -/
namespace Verif.Spec

/-- the paths named in a call; listing a directory names the directory and everything directly in it -/
def Mentions : Call → Path → Prop
  | .createFile p, q | .selectFile p, q | .writeToFileAt p, q => q = p
  | .getRelevantFileNames d, q => q = d ∨ ∃ n, q = d ++ n ∨ q = d ++ 47 :: n
  | _, _ => False

/-- the calls of a history name only paths in `P`, and other programs change only other paths -/
def KeepsTo (P : Path → Bool) : Event → Prop
  | .call c _ => ∀ q, Mentions c q → P q = true
  | .outside p _ => P p = false

/-- the calls in a history, without the changes made by other programs -/
def alone : List Event → List Event
  | [] => []
  | .call c e :: evs => .call c e :: alone evs
  | .outside _ _ :: evs => alone evs

/-- the answers in a list of answers -/
def answers {α : Type} (rs : List (Option α)) : List α := rs.filterMap id

/-- the disk with the changes made by other programs only -/
def outsideOnly (fs : FS) : List Event → FS
  | [] => fs
  | .call _ _ :: evs => outsideOnly fs evs
  | .outside p n :: evs => outsideOnly (fs.set p n) evs

/-- the selected file, if any, lies in `P` -/
def SelectedIn (P : Path → Bool) (s : Session) : Prop := ∀ f, s.selected = some f → P f.path = true

/-- the events of the `i`-th session -/
def eventsOf (i : Nat) : List ManyEvent → List Event
  | [] => []
  | .call j c e :: evs => if j = i then .call c e :: eventsOf i evs else eventsOf i evs
  | .outside _ _ :: evs => eventsOf i evs

/-- the answers to the `i`-th session -/
def answersOf (i : Nat) (rs : List (Option (Nat × Ret))) : List Ret :=
  rs.filterMap fun r => match r with
    | some (j, r) => if j = i then some r else none
    | none => none

/-- each session has paths of its own, names no others, and other programs change no path of a session -/
def Apart (P : Nat → Path → Bool) : ManyEvent → Prop
  | .call i c _ => ∀ q, Mentions c q → P i q = true
  | .outside p _ => ∀ i, P i p = false

end Verif.Spec
