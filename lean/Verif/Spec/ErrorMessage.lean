import Verif.Model.Error

/- Classification of the error codes by what their message shows, used in statements. -/
namespace Verif.Spec

/-- all error codes -/
def allCodes : List ErrorCode :=
  [.NO_ERR, .NO_ERROR_WAS_SET, .ERR, .ERR_BUG, .ERR_TIMEOUT, .ERR_ARGUMENT_INVALID, .ERR_FILEMODE_INVALID,
   .ERR_HASHMODE_INVALID, .ERR_CHAINHASH_MISSING_VALUES, .ERR_CHAINHASH_MODE_INVALID, .ERR_CHAINHASHMODE_FORMAT_INVALID,
   .ERR_CHAINHASH_DATAPART_INVALID, .ERR_CHAINHASH_DATABLOCK_OUTOFRANGE, .ERR_CHAINHASH_DATABLOCK_ALREADY_COMPLETED,
   .ERR_CHAINHASH1_INVALID, .ERR_CHAINHASH2_INVALID, .ERR_ITERATIONS_INVALID, .ERR_RUNTIME_INVALID,
   .ERR_DATABLOCK_NOT_COMPLETED, .ERR_DATABLOCK_TOO_LONG, .ERR_PASSWD_CHAR_INVALID, .ERR_PASSWORD_INVALID, .ERR_LEN_INVALID,
   .ERR_PASSWD_TOO_SHORT, .ERR_EMPTY_FILEPATH, .ERR_EXTENSION_INVALID, .ERR_FILEPATH_INVALID, .ERR_FILE_EXISTS,
   .ERR_FILE_NOT_FOUND, .ERR_FILE_NOT_DELETED, .ERR_FILE_NOT_CREATED, .ERR_FILE_NOT_OPEN, .ERR_FILE_NOT_EMPTY,
   .ERR_FILE_READ, .ERR_NOT_ENOUGH_DATA, .ERR_WRONG_WORKFLOW, .ERR_API_NOT_INITIALIZED, .ERR_API_STATE_INVALID,
   .ERR_DATAHEADERSETTINGS_INCOMPLETE, .ERR_FILEDATASTRUCT_INCOMPLETE, .ERR_FILEDATA_INVALID, .ERR_FILEDATASTRUCT_NULL,
   .ERR_FILESIZE_INVALID, .ERR_HEADERSIZE_FILESIZE_MISMATCH, .ERR_FILEHANDLER_CREATION]

/-- codes whose message begins with the additional information -/
def infoFirst : List ErrorCode :=
  [.ERR, .ERR_EMPTY_FILEPATH, .ERR_EXTENSION_INVALID, .ERR_FILE_EXISTS, .ERR_FILE_NOT_OPEN, .ERR_FILE_NOT_FOUND,
   .ERR_FILE_NOT_CREATED, .ERR_FILE_NOT_DELETED, .ERR_FILE_NOT_EMPTY]

/-- codes whose message does not show the additional information -/
def infoHidden : List ErrorCode :=
  [.NO_ERR, .NO_ERROR_WAS_SET, .ERR_TIMEOUT, .ERR_PASSWORD_INVALID, .ERR_CHAINHASH_MISSING_VALUES, .ERR_CHAINHASH_MODE_INVALID,
   .ERR_CHAINHASH1_INVALID, .ERR_CHAINHASH2_INVALID, .ERR_ITERATIONS_INVALID, .ERR_RUNTIME_INVALID,
   .ERR_DATABLOCK_NOT_COMPLETED, .ERR_DATABLOCK_TOO_LONG, .ERR_DATAHEADERSETTINGS_INCOMPLETE,
   .ERR_FILEDATASTRUCT_INCOMPLETE, .ERR_FILEDATASTRUCT_NULL]

end Verif.Spec
