import Verif.Model.Error

/-!
Model of `struct WorkflowDecStruct`, `/repo/include/api.h` l.18-78: the result of decoding a file, from which the caller
takes the decrypted content and the data header. Nothing in the present code builds one; the struct is public.
-/
namespace Verif

/-- `struct WorkflowDecStruct`, api.h l.19-25: `success` is the public field `errorStruct.success` (the other fields of
`errorStruct` are never read), `data` the pointer `file_data`, `header` the optional `dh` -/
structure DecResult (α δ : Type) where
  success : SuccessType
  data : Option α
  header : Option δ
  moved : Bool
deriving DecidableEq, Repr

/-- what an access gives: nothing to give, the content, the header, `std::logic_error`, or
`std::bad_optional_access` (thrown by `std::optional::value`), api.h l.35-78 -/
inductive DecAnswer (α δ : Type)
  | none | data (a : α) | header (h : δ) | refused | noValue
deriving DecidableEq, Repr

/-- the public accesses; `mark` writes the public field `errorStruct.success`, `edit` writes through the reference
`getFileDataRef` returns, api.h l.27-78 -/
inductive DecOp (α δ : Type)
  | mark (s : SuccessType) | setData (d : Option α) | setHeader (h : δ) | ref | edit (a : α) | take | header
deriving DecidableEq, Repr

namespace DecResult
variable {α δ : Type}

/-- a new struct, api.h l.19-25: `errorStruct` is default constructed (error.h l.83-91) -/
def new : DecResult α δ := ⟨.FAIL, none, none, false⟩

/-- the three checks of `getFileDataRef`, api.h l.35-50, and `getFileData`, l.52-65 -/
def content (r : DecResult α δ) : Option α :=
  if r.success ≠ .SUCCESS then none
  else if r.moved then none
  else r.data

/-- one access: `setFileData` api.h l.27-30, `setDataHeader` l.31-34, `getFileDataRef` l.35-50, `getFileData` l.52-68
(moving out leaves a null pointer), `getDataHeader` l.70-77 -/
def step (r : DecResult α δ) : DecOp α δ → DecAnswer α δ × DecResult α δ
  | .mark s => (.none, { r with success := s })
  | .setData d => (.none, { r with data := d })
  | .setHeader h => (.none, { r with header := some h })
  | .ref => match r.content with
    | none => (.refused, r)
    | some a => (.data a, r)
  | .edit a => match r.content with
    | none => (.refused, r)
    | some _ => (.data a, { r with data := some a })
  | .take => match r.content with
    | none => (.refused, r)
    | some a => (.data a, { r with moved := true, data := none })
  | .header =>
    if r.success ≠ .SUCCESS then (.refused, r)
    else match r.header with
      | none => (.noValue, r)
      | some h => (.header h, r)

/-- the answers to a list of accesses, api.h l.27-78 -/
def answers : DecResult α δ → List (DecOp α δ) → List (DecAnswer α δ)
  | _, [] => []
  | r, o :: os => (r.step o).1 :: answers (r.step o).2 os

end DecResult
end Verif
