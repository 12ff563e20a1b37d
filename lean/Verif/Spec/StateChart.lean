import Verif.Model.Api

/- The state chart of /repo/docs/api.md and /repo/docs/api_state.png, used in statements. -/
namespace Verif.Spec

/-- the six states of the chart -/
inductive CState
  | init | selected | verified | decrypted | encrypted | finished
deriving DecidableEq, Repr

/-- the arrows of the chart, with the calls the text around it adds (`isFileEmpty`, `changeSalt`); no arrow: the call is not
possible in that state. The chart calls `createFile` `createEncFile`, `encryptData` `getEncryptedData` and
`getRelevantFileNames` `getRelevantFiles`. -/
def chart : CState → Call → Option CState
  | .init, .getRelevantFileNames _ => some .init
  | .init, .createFile _ => some .init
  | .init, .selectFile _ => some .selected
  | .selected, .isFileEmpty => some .selected
  | .selected, .getFileContent => some .selected
  | .selected, .unselectFile => some .init
  | .selected, .deleteFile => some .init
  | .selected, .verifyPassword _ _ => some .verified
  | .selected, .createDataHeader _ _ _ => some .decrypted
  | .selected, .createDataHeaderTime _ _ => some .decrypted
  | .verified, .getDecryptedData => some .decrypted
  | .decrypted, .getFileData => some .decrypted
  | .decrypted, .changeSalt => some .decrypted
  | .decrypted, .createDataHeader _ _ _ => some .decrypted
  | .decrypted, .createDataHeaderTime _ _ => some .decrypted
  | .decrypted, .encryptData _ => some .encrypted
  | .encrypted, .writeToFile => some .finished
  | .encrypted, .writeToFileAt _ => some .finished
  | _, .logout => some .init
  | _, .logoutMode _ => some .init
  | _, _ => none

/-- success, with whatever value -/
def isSuccess {α : Type} : Out α → Bool
  | .success _ => true
  | _ => false

/-- did the call report success? -/
def reported : Ret → Bool
  | .flag o => isSuccess o
  | .plain o => isSuccess o
  | .names o => isSuccess o
  | .content o => isSuccess o
  | .data o => isSuccess o
  | .void => true

/-- the state after a history according to the chart: calls that report success follow their arrow, calls that do not stay,
and other programs do not matter; `none` if a call succeeded that has no arrow -/
def follow : CState → List (Event × Option Ret) → Option CState
  | s, [] => some s
  | s, (.call c _, some r) :: l => if reported r then (chart s c).bind (follow · l) else follow s l
  | s, _ :: l => follow s l

/-- which state of the chart a session is in: the code has two states for a selected file, depending on whether the file is
empty -/
def chartState : WState → CState
  | .INIT => .init
  | .FILE_SELECTED => .selected
  | .EMPTY_FILE_SELECTED => .selected
  | .PASSWORD_VERIFIED => .verified
  | .DECRYPTED => .decrypted
  | .ENCRYPTED => .encrypted
  | .FINISHED => .finished

end Verif.Spec
