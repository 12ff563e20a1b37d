import Verif.Spec.Sharing

/- Histories without the listings of directories in them. Used in the statement that listing changes nothing. -/
namespace Verif.Spec

/-- the step lists a directory -/
def Lists : Event → Bool
  | .call (.getRelevantFileNames _) _ => true
  | _ => false

/-- a session lists a directory -/
def ListsMany : ManyEvent → Bool
  | .call _ (.getRelevantFileNames _) _ => true
  | _ => false

/-- the answers to the steps that are not listings, `ls` says which steps are -/
def otherAnswers {α : Type} : List Bool → List α → List α
  | true :: ls, _ :: rs => otherAnswers ls rs
  | false :: ls, r :: rs => r :: otherAnswers ls rs
  | _, _ => []

end Verif.Spec
