import Verif.Model.Error
import Verif.Model.Util

/- Model of `getErrorMessage`, /repo/include/error.h l.158-319. Logging is not modelled. -/
namespace Verif

/-- the cases of the `switch`, error.h l.171-313, without the part about the exception -/
def errorText (info : List Byte) : ErrorCode → List Byte
  | .NO_ERROR_WAS_SET => ascii "Some developer forgot to set the right Error type"
  | .NO_ERR => ascii "No error occurred"
  | .ERR_BUG => ascii "An error occurred due to a bug in the program. Some checks failed: " ++ info
  | .ERR_TIMEOUT => ascii "A timeout occurred: "
  | .ERR_ARGUMENT_INVALID => ascii "An argument is invalid: " ++ info
  | .ERR_PASSWORD_INVALID => ascii "Password is invalid"
  | .ERR_CHAINHASH_MISSING_VALUES => ascii "Chainhash has missing values"
  | .ERR_CHAINHASH_MODE_INVALID => ascii "Chainhash mode is invalid"
  | .ERR_CHAINHASHMODE_FORMAT_INVALID => ascii "Chainhash mode format is invalid for chainhash mode: " ++ info
  | .ERR_CHAINHASH_DATAPART_INVALID => ascii "Chainhash data part is invalid: " ++ info
  | .ERR_CHAINHASH_DATABLOCK_OUTOFRANGE => ascii "Chainhash datablock is out of range due to data part: " ++ info
  | .ERR_CHAINHASH_DATABLOCK_ALREADY_COMPLETED => ascii "Chainhash datablock is already completed. Following data part wants to add more data: " ++ info
  | .ERR_CHAINHASH1_INVALID => ascii "Chainhash1 is invalid"
  | .ERR_CHAINHASH2_INVALID => ascii "Chainhash2 is invalid"
  | .ERR_HASHMODE_INVALID => ascii "Hashmode is invalid: " ++ info
  | .ERR_ITERATIONS_INVALID => ascii "Iterations number is invalid"
  | .ERR_RUNTIME_INVALID => ascii "Runtime (in ms) is invalid"
  | .ERR_LEN_INVALID => ascii "Invalid length from object: " ++ info
  | .ERR_DATABLOCK_NOT_COMPLETED => ascii "Datablock is not completed"
  | .ERR_DATABLOCK_TOO_LONG => ascii "Datablock is too long"
  | .ERR_PASSWD_CHAR_INVALID => ascii "Password contains illegal character: '" ++ info ++ ascii "'"
  | .ERR_PASSWD_TOO_SHORT => ascii "Password is too short, it has to be at least " ++ info ++ ascii " characters long"
  | .ERR_EMPTY_FILEPATH => if info = [] then ascii "Filepath is empty" else info ++ ascii " filepath is empty"
  | .ERR_FILEPATH_INVALID => ascii "Filepath is invalid: " ++ info
  | .ERR_EXTENSION_INVALID => if info = [] then ascii "File extension is invalid" else info ++ ascii " file extension is invalid"
  | .ERR_FILE_EXISTS => if info = [] then ascii "File already exists" else info ++ ascii " file already exists"
  | .ERR_FILE_NOT_OPEN => if info = [] then ascii "File could not be opened" else info ++ ascii " file could not be opened"
  | .ERR_FILE_NOT_FOUND => if info = [] then ascii "File could not be found" else info ++ ascii " file could not be found"
  | .ERR_FILE_NOT_CREATED => if info = [] then ascii "File could not be created" else info ++ ascii " file could not be created"
  | .ERR_FILE_NOT_DELETED => if info = [] then ascii "File could not be deleted" else info ++ ascii " file could not be deleted"
  | .ERR_FILE_NOT_EMPTY => if info = [] then ascii "File is not empty" else info ++ ascii " file is not empty"
  | .ERR_FILE_READ => ascii "File could not be read: " ++ info
  | .ERR_NOT_ENOUGH_DATA => ascii "Not enough data to read information: " ++ info
  | .ERR_FILEMODE_INVALID => ascii "File mode is invalid: " ++ info
  | .ERR_WRONG_WORKFLOW => ascii "Wrong workflow: " ++ info
  | .ERR_API_NOT_INITIALIZED => ascii "API is not initialized. Method failed: " ++ info
  | .ERR_API_STATE_INVALID => ascii "API is in the wrong state. Method failed: " ++ info
  | .ERR_DATAHEADERSETTINGS_INCOMPLETE => ascii "DataHeaderSettings are incomplete"
  | .ERR_FILEDATASTRUCT_INCOMPLETE => ascii "FileDataStruct is incomplete"
  | .ERR_FILEDATA_INVALID => ascii "FileData is invalid: " ++ info
  | .ERR_FILEDATASTRUCT_NULL => ascii "FileDataStruct is null. It was moved previously"
  | .ERR_FILESIZE_INVALID => ascii "Filesize is invalid: " ++ info
  | .ERR_HEADERSIZE_FILESIZE_MISMATCH => ascii "Header size and filesize mismatch: " ++ info
  | .ERR_FILEHANDLER_CREATION => ascii "FileHandler could not be created: " ++ info
  | .ERR => if info = [] then ascii "An error occurred" else info

/-- the part about the exception, error.h l.168-169 -/
def exceptionText (what : List Byte) (verbose : Bool) : List Byte :=
  if verbose then ascii "\nException message: " ++ what else []

/-- `getErrorMessage`, error.h l.160-319. `code = none`: a value outside of the enumeration (`default`, l.315-317). -/
def getErrorMessage (success : SuccessType) (code : Option ErrorCode) (info what : List Byte) (verbose : Bool) : List Byte :=
  if success = .SUCCESS then ascii "getErrorMessage was called on a succeeded ErrorStruct"
  else match code with
    | some c => errorText info c ++ exceptionText what verbose
    | none => ascii "Unknown error" ++ exceptionText what verbose

end Verif
