import Verif.Model.DecResult

/-!
What the holder of a decoding result is asked for: a shelf with one place for the content and one for the header.
Things can be put on the shelf, looked at and (the content) taken away, as long as the decoding counts as a success.
-/
namespace Verif.Spec
variable {α δ : Type}

/-- the shelf -/
structure Shelf (α δ : Type) where
  open' : Bool
  content : Option α
  header : Option δ

/-- one use of the shelf -/
def Shelf.use (s : Shelf α δ) : DecOp α δ → DecAnswer α δ × Shelf α δ
  | .mark m => (.none, { s with open' := m == .SUCCESS })
  | .setData d => (.none, { s with content := d })
  | .setHeader h => (.none, { s with header := some h })
  | .ref => match s.open', s.content with
    | true, some a => (.data a, s)
    | _, _ => (.refused, s)
  | .edit b => match s.open', s.content with
    | true, some _ => (.data b, { s with content := some b })
    | _, _ => (.refused, s)
  | .take => match s.open', s.content with
    | true, some a => (.data a, { s with content := none })
    | _, _ => (.refused, s)
  | .header => match s.open', s.header with
    | true, some h => (.header h, s)
    | _, _ => (.refused, s)

/-- the answers the shelf gives -/
def Shelf.answers : Shelf α δ → List (DecOp α δ) → List (DecAnswer α δ)
  | _, [] => []
  | s, o :: os => (s.use o).1 :: Shelf.answers (s.use o).2 os

/-- an empty, closed shelf -/
def Shelf.new : Shelf α δ := ⟨false, none, none⟩

/-- was content taken away in this history? -/
def tookAway (os : List (DecOp α δ)) (as : List (DecAnswer α δ)) : Nat :=
  (os.zip as).countP fun p => match p with
    | (.take, .data _) => true
    | _ => false

/-- does the caller put content on the shelf? -/
def fills : DecOp α δ → Bool
  | .setData _ => true
  | _ => false

/-- no content is put on the shelf after the first attempt to take it away -/
def filledBeforeTaken : List (DecOp α δ) → Bool
  | [] => true
  | .take :: os => !os.any fills
  | _ :: os => filledBeforeTaken os

/-- the header is asked for only after one was put on the shelf -/
def headerFirst : List (DecOp α δ) → Bool
  | [] => true
  | .setHeader _ :: _ => true
  | .header :: _ => false
  | _ :: os => headerFirst os

end Verif.Spec
