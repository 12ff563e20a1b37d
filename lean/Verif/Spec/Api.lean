import Verif.Model.Api

/-
Small vocabulary for statements about sessions: which calls belong to which state (docs/api.md "Working with the API"
and the messages in api.h l.146-213), and how to read returned values.
-/
namespace Verif.Spec

/-- the states in which a call is meant to work -/
def statesFor : Call → List WState
  | .getRelevantFileNames _ => [.INIT]
  | .createFile _ => [.INIT]
  | .selectFile _ => [.INIT]
  | .isFileEmpty => [.FILE_SELECTED, .EMPTY_FILE_SELECTED]
  | .unselectFile => [.FILE_SELECTED, .EMPTY_FILE_SELECTED]
  | .deleteFile => [.FILE_SELECTED, .EMPTY_FILE_SELECTED]
  | .getFileContent => [.FILE_SELECTED, .EMPTY_FILE_SELECTED]
  | .verifyPassword _ _ => [.FILE_SELECTED]
  | .createDataHeader _ _ _ => [.EMPTY_FILE_SELECTED, .DECRYPTED]
  | .createDataHeaderTime _ _ => [.EMPTY_FILE_SELECTED, .DECRYPTED]
  | .changeSalt => [.DECRYPTED]
  | .getDecryptedData => [.PASSWORD_VERIFIED]
  | .getFileData => [.DECRYPTED]
  | .encryptData _ => [.DECRYPTED]
  | .writeToFile => [.ENCRYPTED]
  | .writeToFileAt _ => [.ENCRYPTED]
  | .logout => [.INIT, .FILE_SELECTED, .EMPTY_FILE_SELECTED, .PASSWORD_VERIFIED, .DECRYPTED, .ENCRYPTED, .FINISHED]
  | .logoutMode _ => [.INIT, .FILE_SELECTED, .EMPTY_FILE_SELECTED, .PASSWORD_VERIFIED, .DECRYPTED, .ENCRYPTED, .FINISHED]

/-- the error code carried by a failed result -/
def failCode {α : Type} : Out α → Option ErrorCode
  | .fail c => some c
  | _ => none

/-- the error code a call returned, if it failed -/
def retCode : Ret → Option ErrorCode
  | .flag o => failCode o
  | .plain o => failCode o
  | .names o => failCode o
  | .content o => failCode o
  | .data o => failCode o
  | .void => none

/-- a call whose settings argument is missing something (the wrappers check this before anything else) -/
def lacksSettings : Call → Bool
  | .createDataHeader _ ds _ => !ds.isComplete
  | .createDataHeaderTime _ ds => !ds.isComplete
  | _ => false

/-- the file a step of a history is allowed to change, given the session it starts from -/
def mayTouch (s : Session) (q : Path) : Event → Prop
  | .outside p _ => q = p
  | .call (.createFile p) _ => q = p
  | .call .deleteFile _ => ∃ f, s.selected = some f ∧ q = f.path
  | .call .writeToFile _ => ∃ f, s.selected = some f ∧ q = f.path
  | .call (.writeToFileAt p) _ => q = p
  | .call _ _ => False

/-- steps that are meant to change the disk -/
def changesDisk : Event → Bool
  | .outside _ _ => true
  | .call (.createFile _) _ => true
  | .call .deleteFile _ => true
  | .call .writeToFile _ => true
  | .call (.writeToFileAt _) _ => true
  | .call _ _ => false

/-- a step names a path: another program changes it, or the path is an argument of a call that works on a file -/
def names (q : Path) : Event → Prop
  | .outside p _ => q = p
  | .call (.createFile p) _ => q = p
  | .call (.selectFile p) _ => q = p
  | .call (.writeToFileAt p) _ => q = p
  | .call _ _ => False

end Verif.Spec
