import Verif.Model.Basic

/-
Model of `/repo/include/error.h` and the success types of `/repo/include/base.h`.
-/
namespace Verif

/-- `enum SuccessType`, /repo/include/base.h l.31 -/
inductive SuccessType | SUCCESS | FAIL | TIMEOUT
deriving DecidableEq, Repr

/-- `enum ErrorCode`, error.h l.9-55 -/
inductive ErrorCode
  | NO_ERR | NO_ERROR_WAS_SET | ERR | ERR_BUG | ERR_TIMEOUT | ERR_ARGUMENT_INVALID | ERR_FILEMODE_INVALID
  | ERR_HASHMODE_INVALID | ERR_CHAINHASH_MISSING_VALUES | ERR_CHAINHASH_MODE_INVALID
  | ERR_CHAINHASHMODE_FORMAT_INVALID | ERR_CHAINHASH_DATAPART_INVALID | ERR_CHAINHASH_DATABLOCK_OUTOFRANGE
  | ERR_CHAINHASH_DATABLOCK_ALREADY_COMPLETED | ERR_CHAINHASH1_INVALID | ERR_CHAINHASH2_INVALID
  | ERR_ITERATIONS_INVALID | ERR_RUNTIME_INVALID | ERR_DATABLOCK_NOT_COMPLETED | ERR_DATABLOCK_TOO_LONG
  | ERR_PASSWD_CHAR_INVALID | ERR_PASSWORD_INVALID | ERR_LEN_INVALID | ERR_PASSWD_TOO_SHORT | ERR_EMPTY_FILEPATH
  | ERR_EXTENSION_INVALID | ERR_FILEPATH_INVALID | ERR_FILE_EXISTS | ERR_FILE_NOT_FOUND | ERR_FILE_NOT_DELETED
  | ERR_FILE_NOT_CREATED | ERR_FILE_NOT_OPEN | ERR_FILE_NOT_EMPTY | ERR_FILE_READ | ERR_NOT_ENOUGH_DATA
  | ERR_WRONG_WORKFLOW | ERR_API_NOT_INITIALIZED | ERR_API_STATE_INVALID | ERR_DATAHEADERSETTINGS_INCOMPLETE
  | ERR_FILEDATASTRUCT_INCOMPLETE | ERR_FILEDATA_INVALID | ERR_FILEDATASTRUCT_NULL | ERR_FILESIZE_INVALID
  | ERR_HEADERSIZE_FILESIZE_MISMATCH | ERR_FILEHANDLER_CREATION
deriving DecidableEq, Repr

/-- An `ErrorStruct<T>` as a returned value: success with a value, failure with a code, or timeout (always built with
`ERR_TIMEOUT`). Texts (`errorInfo`, `what`) are not modelled here. The access rules of the struct itself are modelled
by `ErrorStruct` below. See /repo/include/error.h l.58-156. -/
inductive Out (α : Type) where
  | success (a : α)
  | fail (c : ErrorCode)
  | timeout
deriving DecidableEq, Repr

/-- `struct ErrorStruct<T>`, error.h l.58-156. A value that has been moved out leaves the optional engaged with a
moved-from object: `value = some none`. -/
structure ErrorStruct (α : Type) where
  moved : Bool
  inputMoved : Bool
  success : SuccessType
  value : Option (Option α)
deriving DecidableEq, Repr

namespace ErrorStruct
variable {α : Type}

/-- default constructor, error.h l.83-91 -/
def default : ErrorStruct α := ⟨false, false, .FAIL, none⟩
/-- `createMove`, error.h l.69-80 -/
def createMove (a : α) : ErrorStruct α := ⟨false, true, .SUCCESS, some (some a)⟩
/-- constructors error.h l.92-96: with or without a value -/
def make (s : SuccessType) (v : Option α) : ErrorStruct α := ⟨false, false, s, v.map some⟩

/-- `returnValue`, error.h l.99-119. Copying a moved-from object hands out no value: `none`. -/
def returnValue (e : ErrorStruct α) : Res (Option α) :=
  if e.moved then .exn .logicError
  else if e.inputMoved then .exn .logicError
  else if e.success ≠ .SUCCESS then .exn .logicError
  else match e.value with
    | none => .exn .logicError
    | some v => .ok v

/-- `returnRef`, error.h l.120-136 -/
def returnRef (e : ErrorStruct α) : Res (Option α) :=
  if e.moved then .exn .logicError
  else if e.success ≠ .SUCCESS then .exn .logicError
  else match e.value with
    | none => .exn .logicError
    | some v => .ok v

/-- `returnMove`, error.h l.137-150, with the caller moving the value out (as all callers do). Note: no check of `moved`. -/
def returnMove (e : ErrorStruct α) : Res (Option α × ErrorStruct α) :=
  if e.success ≠ .SUCCESS then .exn .logicError
  else match e.value with
    | none => .exn .logicError
    | some v => .ok (v, { e with moved := true, value := some none })

/-- `setReturnValue`, error.h l.152 (does not reset `moved`) -/
def setReturnValue (e : ErrorStruct α) (a : α) : ErrorStruct α := { e with value := some (some a) }

end ErrorStruct

/-- the public accesses to a result object; `mark` is a write to the public field `success` (error.h l.64) -/
inductive Access (α : Type)
  | value | ref | move | set (a : α) | mark (s : SuccessType)

/-- One access: what it hands out (`some (some a)` = the value `a`, `some none` = an object that was moved out before,
`none` = nothing to hand out for this kind of access), and the object afterwards. See error.h l.64, l.99-152. -/
def Access.run {α : Type} : Access α → ErrorStruct α → Res (Option (Option α)) × ErrorStruct α
  | .value, e => (some <$> e.returnValue, e)
  | .ref, e => (some <$> e.returnRef, e)
  | .move, e => match e.returnMove with
    | .ok (v, e') => (.ok (some v), e')
    | .exn x => (.exn x, e)
    | .fatal x => (.fatal x, e)
  | .set a, e => (.ok none, e.setReturnValue a)
  | .mark s, e => (.ok none, { e with success := s })

/-- the object after a history of accesses, error.h l.58-156 -/
def Access.runAll {α : Type} (cs : List (Access α)) (e : ErrorStruct α) : ErrorStruct α :=
  cs.foldl (fun e c => (c.run e).2) e

end Verif
