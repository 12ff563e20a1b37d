import Verif.Spec.Api
import Verif.Spec.Flaw
import Verif.Model.ErrorMessage

/- What the text that comes with an error should say, used in statements. -/
namespace Verif.Spec

/-- a path as it can be shown: it ends before the first zero byte -/
def shown : List Byte → List Byte
  | [] => []
  | b :: l => if b = 0 then [] else b :: shown l

/-- the path a call is about: the one it is given, or the one of the selected file -/
def aboutPath (s : Session) : Call → Option (List Byte)
  | .getRelevantFileNames p | .createFile p | .selectFile p | .writeToFileAt p => some p
  | .deleteFile | .getFileContent | .writeToFile => s.selected.map fun f => f.path
  | _ => none

/-- the errors that are about a path -/
def pathCodes : List ErrorCode :=
  [.ERR_EMPTY_FILEPATH, .ERR_FILEPATH_INVALID, .ERR_EXTENSION_INVALID, .ERR_FILE_EXISTS, .ERR_FILE_NOT_OPEN, .ERR_FILE_NOT_FOUND,
   .ERR_FILE_NOT_CREATED, .ERR_FILE_NOT_DELETED, .ERR_FILE_NOT_EMPTY, .ERR_FILE_READ]

/-- whether a call succeeded (a call without a result always does) -/
def succeeded : Ret → Bool
  | .flag (.success _) | .plain (.success _) | .names (.success _) | .content (.success _) | .data (.success _) | .void => true
  | _ => false

/-- the names of the states -/
def stateName : WState → String
  | .INIT => "INIT"
  | .FILE_SELECTED => "FILE_SELECTED"
  | .EMPTY_FILE_SELECTED => "EMPTY_FILE_SELECTED"
  | .PASSWORD_VERIFIED => "PASSWORD_VERIFIED"
  | .DECRYPTED => "DECRYPTED"
  | .ENCRYPTED => "ENCRYPTED"
  | .FINISHED => "FINISHED"

/-- the names of the public methods -/
def methodName : Call → String
  | .getRelevantFileNames _ => "getRelevantFileNames"
  | .createFile _ => "createFile"
  | .selectFile _ => "selectFile"
  | .isFileEmpty => "isFileEmpty"
  | .unselectFile => "unselectFile"
  | .deleteFile => "deleteFile"
  | .getFileContent => "getFileContent"
  | .verifyPassword _ _ => "verifyPassword"
  | .createDataHeader _ _ _ => "createDataHeader"
  | .createDataHeaderTime _ _ => "createDataHeader"
  | .changeSalt => "changeSalt"
  | .getDecryptedData => "getDecryptedData"
  | .getFileData => "getFileData"
  | .encryptData _ => "encryptData"
  | .writeToFile => "writeToFile"
  | .writeToFileAt _ => "writeToFile"
  | .logout => "logout"
  | .logoutMode _ => "logout"

/-- "`method` is only available in the `A` or `B` state" -/
def availability (c : Call) : String :=
  methodName c ++ " is only available in the " ++ String.intercalate " or " ((statesFor c).map stateName) ++ " state"

/-- the fields of a header, as they are called in messages -/
def fieldNames : List String :=
  ["File size", "Header size", "File mode", "Hash mode", "Data block count", "Data block type", "Data block len", "Data block data",
   "Chainhash1 mode", "Chainhash1 iters", "Chainhash1 blocklen", "Chainhash data block 1",
   "Chainhash2 mode", "Chainhash2 iters", "Chainhash2 blocklen", "Chainhash data block 2",
   "Password validator hash", "Encrypted salt", "Encrypted block count", "Enc datablock type", "Enc datablock len", "Enc datablock data"]

/-- the texts that come with the errors of a damaged header -/
inductive HeaderText : ErrorCode → List Byte → Prop
  /-- the bytes end before a field, which is named -/
  | missing (name : String) (h : name ∈ fieldNames) : HeaderText .ERR_NOT_ENOUGH_DATA (ascii name)
  /-- the file size is not the size of the file: both are given -/
  | fileSize (a b : UInt64) (h : a ≠ b) : HeaderText .ERR_FILESIZE_INVALID
      (ascii "file size is not equal to the given stream size (file_size: " ++ toDec a ++ ascii ", stream size: " ++ toDec b ++ ascii ")")
  /-- the header does not fit in the file: one character -/
  | content (b : Byte) : HeaderText .ERR_FILESIZE_INVALID [b]
  /-- the header is larger than the file: both sizes are given -/
  | headerSize (a b : UInt64) (h : b < a) : HeaderText .ERR_HEADERSIZE_FILESIZE_MISMATCH
      (ascii "header size is bigger than the file size (header_size: " ++ toDec a ++ ascii ", file size: " ++ toDec b ++ ascii ")")
  /-- a hash mode that does not exist: one character -/
  | hashMode (m : Byte) (h : ¬ (m = 1 ∨ m = 2 ∨ m = 3)) : HeaderText .ERR_HASHMODE_INVALID [m]
  /-- a file mode that does not exist: one character -/
  | fileMode (m : Byte) (h : m ≠ 1) : HeaderText .ERR_FILEMODE_INVALID [m]
  /-- a chain-hash mode that does not exist: one character -/
  | chainMode (m : Byte) (h : ¬ knownChain m) : HeaderText .ERR_CHAINHASHMODE_FORMAT_INVALID [m]
  /-- a number of iterations out of range: neither the number nor the range is given -/
  | iters1 : HeaderText .ERR_CHAINHASH1_INVALID (ascii "An error occurred while reading the header")
  | iters2 : HeaderText .ERR_CHAINHASH2_INVALID (ascii "An error occurred while reading the header")

/-- the texts that calls with secrets (passwords, contents, salts) may come with, for each error they may end with (`none`: they succeed
or run out of time) -/
def secretTexts : Call → Option ErrorCode → List String
  | .verifyPassword _ _, none => ["", "Timeout reached after the first chainhash"]
  | .verifyPassword _ _, some .ERR => ["Some error occurred while verifying the password"]
  | .verifyPassword _ _, some .ERR_PASSWORD_INVALID => [""]
  | .verifyPassword _ _, some .ERR_API_STATE_INVALID => ["verifyPassword is only available in the FILE_SELECTED state"]
  | .createDataHeader _ _ _, none => [""]
  | .createDataHeader _ _ _, some .ERR => ["Something went wrong while creating the chainhashes", "An error occurred while setting the header parts"]
  | .createDataHeader _ _ _, some .ERR_FILEMODE_INVALID => ["The file mode does not match with the file data mode"]
  | .createDataHeader _ _ _, some .ERR_DATAHEADERSETTINGS_INCOMPLETE => ["API call made (createDataHeader) with incomplete DataHeaderSettingsIters"]
  | .createDataHeader _ _ _, some .ERR_API_STATE_INVALID => ["createDataHeader is only available in the EMPTY_FILE_SELECTED or DECRYPT state"]
  | .createDataHeaderTime _ _, some .ERR_DATAHEADERSETTINGS_INCOMPLETE => ["API call made (createDataHeader) with incomplete DataHeaderSettingsTime"]
  | .createDataHeaderTime _ _, some .ERR_API_STATE_INVALID => ["createDataHeader is only available in the EMPTY_FILE_SELECTED or DECRYPTED state"]
  | .changeSalt, none => [""]
  | .changeSalt, some .ERR => ["An error occurred while setting the header parts"]
  | .changeSalt, some .ERR_API_STATE_INVALID => ["changeSalt is only available in the DECRYPTED state"]
  | .getDecryptedData, none => [""]
  | .getDecryptedData, some .ERR => ["In getDecryptedData: Something went wrong while decrypting the data"]
  | .getDecryptedData, some .ERR_API_STATE_INVALID => ["getDecryptedData is only available in the PASSWORD_VERIFIED state"]
  | .getFileData, none => [""]
  | .getFileData, some .ERR_FILEDATASTRUCT_NULL => [""]
  | .getFileData, some .ERR_API_STATE_INVALID => ["getFileData is only available in the DECRYPTED state"]
  | .encryptData _, none => [""]
  | .encryptData _, some .ERR_FILEDATASTRUCT_INCOMPLETE => [""]
  | .encryptData _, some .ERR_FILEMODE_INVALID => [" In encryptData: The provided file mode does not match with the given file data mode"]
  | .encryptData _, some .ERR => ["In encryptData: Something went wrong while encrypting the data"]
  | .encryptData _, some .ERR_API_STATE_INVALID => ["encryptData is only available in the DECRYPTED state"]
  | _, _ => []

/-- the calls that handle passwords, contents or salts -/
def handlesSecrets : Call → Bool
  | .verifyPassword _ _ | .createDataHeader _ _ _ | .createDataHeaderTime _ _ | .changeSalt | .getDecryptedData | .getFileData
  | .encryptData _ => true
  | _ => false

end Verif.Spec
