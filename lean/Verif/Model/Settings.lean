import Verif.Model.DataHeader

/-
Model of the settings structs, `/repo/include/dataheader.h` l.260-605. Arguments (enumerations and 64-bit numbers) are
natural numbers; the values the C++ types can represent are among them. The public vectors of data blocks are plain
fields.
-/
namespace Verif

/-- `MAX_FILEMODE_NUMBER`, `MAX_HASHMODE_NUMBER`, `MAX_CHAINHASHMODE_NUMBER`; `MAX_ITERATIONS` and `MAX_RUNTIME` are
in `Verif/Model/ChainHash.lean`; /repo/include/settings.h, l.16, l.22, l.28 -/
abbrev maxFileMode : Nat := 1
/-- `MAX_HASHMODE_NUMBER`, /repo/include/settings.h l.22 -/
abbrev maxHashMode : Nat := 3
/-- `MAX_CHAINHASHMODE_NUMBER`, /repo/include/settings.h l.28 -/
abbrev maxChainHashMode : Nat := 5

/-- `struct DataHeaderSettingsIters`, dataheader.h l.260-272 -/
structure SettingsIters where
  fileMode : Option Nat := none
  hashMode : Option Nat := none
  ch1Mode : Option Nat := none
  ch2Mode : Option Nat := none
  ch1Iters : Option Nat := none
  ch2Iters : Option Nat := none
  dec : List DataBlock := []
  enc : List EncDataBlock := []
deriving DecidableEq, Repr

namespace SettingsIters

/-- getters, dataheader.h l.299-352: `runtime_error` when not set -/
def getFileDataMode (s : SettingsIters) : Res Nat := DataHeaderParts.get s.fileMode
/-- `getHashMode`, dataheader.h l.308-316 -/
def getHashMode (s : SettingsIters) : Res Nat := DataHeaderParts.get s.hashMode
/-- `getChainHash1Mode`, dataheader.h l.317-325 -/
def getChainHash1Mode (s : SettingsIters) : Res Nat := DataHeaderParts.get s.ch1Mode
/-- `getChainHash2Mode`, dataheader.h l.326-334 -/
def getChainHash2Mode (s : SettingsIters) : Res Nat := DataHeaderParts.get s.ch2Mode
/-- `getChainHash1Iters`, dataheader.h l.335-343 -/
def getChainHash1Iters (s : SettingsIters) : Res Nat := DataHeaderParts.get s.ch1Iters
/-- `getChainHash2Iters`, dataheader.h l.344-352 -/
def getChainHash2Iters (s : SettingsIters) : Res Nat := DataHeaderParts.get s.ch2Iters

/-- `setFileDataMode`, dataheader.h l.353-361 with `FileModes::isModeValid`, file_modes.cpp l.28-31 -/
def setFileDataMode (s : SettingsIters) (n : Nat) : Res SettingsIters :=
  if 1 ≤ n ∧ n ≤ maxFileMode then .ok { s with fileMode := some n } else .exn .invalidArgument

/-- `setHashMode`, dataheader.h l.362-370 with `HashModes::isModeValid`, hash_modes.cpp l.12-15 -/
def setHashMode (s : SettingsIters) (n : Nat) : Res SettingsIters :=
  if 1 ≤ n ∧ n ≤ maxHashMode then .ok { s with hashMode := some n } else .exn .invalidArgument

/-- `setChainHash1Mode`, dataheader.h l.371-379 with `ChainHashModes::isModeValid`, chainhash_modes.cpp l.56-59 -/
def setChainHash1Mode (s : SettingsIters) (n : Nat) : Res SettingsIters :=
  if 1 ≤ n ∧ n ≤ maxChainHashMode then .ok { s with ch1Mode := some n } else .exn .invalidArgument

/-- `setChainHash2Mode`, dataheader.h l.380-388 -/
def setChainHash2Mode (s : SettingsIters) (n : Nat) : Res SettingsIters :=
  if 1 ≤ n ∧ n ≤ maxChainHashMode then .ok { s with ch2Mode := some n } else .exn .invalidArgument

/-- `setChainHash1Iters`, dataheader.h l.389-397 -/
def setChainHash1Iters (s : SettingsIters) (n : Nat) : Res SettingsIters :=
  if n > 0 ∧ n ≤ maxIterations then .ok { s with ch1Iters := some n } else .exn .invalidArgument

/-- `setChainHash2Iters`, dataheader.h l.398-406 -/
def setChainHash2Iters (s : SettingsIters) (n : Nat) : Res SettingsIters :=
  if n > 0 ∧ n ≤ maxIterations then .ok { s with ch2Iters := some n } else .exn .invalidArgument

/-- `isComplete`, dataheader.h l.408-419 -/
def isComplete (s : SettingsIters) : Bool :=
  s.fileMode.isSome && s.hashMode.isSome && s.ch1Mode.isSome && s.ch1Iters.isSome && s.ch2Mode.isSome && s.ch2Iters.isSome

end SettingsIters

/-- `struct DataHeaderSettingsTime`, dataheader.h l.433-446 -/
structure SettingsTime where
  fileMode : Option Nat := none
  hashMode : Option Nat := none
  ch1Mode : Option Nat := none
  ch2Mode : Option Nat := none
  ch1Time : Option Nat := none
  ch2Time : Option Nat := none
  dec : List DataBlock := []
  enc : List EncDataBlock := []
deriving DecidableEq, Repr

namespace SettingsTime

/-- getters, dataheader.h l.473-526 -/
def getFileDataMode (s : SettingsTime) : Res Nat := DataHeaderParts.get s.fileMode
/-- `getHashMode`, dataheader.h l.482-490 -/
def getHashMode (s : SettingsTime) : Res Nat := DataHeaderParts.get s.hashMode
/-- `getChainHash1Mode`, dataheader.h l.491-499 -/
def getChainHash1Mode (s : SettingsTime) : Res Nat := DataHeaderParts.get s.ch1Mode
/-- `getChainHash2Mode`, dataheader.h l.500-508 -/
def getChainHash2Mode (s : SettingsTime) : Res Nat := DataHeaderParts.get s.ch2Mode
/-- `getChainHash1Time`, dataheader.h l.509-517 -/
def getChainHash1Time (s : SettingsTime) : Res Nat := DataHeaderParts.get s.ch1Time
/-- `getChainHash2Time`, dataheader.h l.518-526 -/
def getChainHash2Time (s : SettingsTime) : Res Nat := DataHeaderParts.get s.ch2Time

/-- `setFileDataMode`, dataheader.h l.527-535 -/
def setFileDataMode (s : SettingsTime) (n : Nat) : Res SettingsTime :=
  if 1 ≤ n ∧ n ≤ maxFileMode then .ok { s with fileMode := some n } else .exn .invalidArgument

/-- `setHashMode`, dataheader.h l.536-544 -/
def setHashMode (s : SettingsTime) (n : Nat) : Res SettingsTime :=
  if 1 ≤ n ∧ n ≤ maxHashMode then .ok { s with hashMode := some n } else .exn .invalidArgument

/-- `setChainHash1Mode`, dataheader.h l.545-553 -/
def setChainHash1Mode (s : SettingsTime) (n : Nat) : Res SettingsTime :=
  if 1 ≤ n ∧ n ≤ maxChainHashMode then .ok { s with ch1Mode := some n } else .exn .invalidArgument

/-- `setChainHash2Mode`, dataheader.h l.554-562 -/
def setChainHash2Mode (s : SettingsTime) (n : Nat) : Res SettingsTime :=
  if 1 ≤ n ∧ n ≤ maxChainHashMode then .ok { s with ch2Mode := some n } else .exn .invalidArgument

/-- `setChainHash1Time`, dataheader.h l.563-571 -/
def setChainHash1Time (s : SettingsTime) (n : Nat) : Res SettingsTime :=
  if n > 0 ∧ n ≤ maxRuntime then .ok { s with ch1Time := some n } else .exn .invalidArgument

/-- `setChainHash2Time`, dataheader.h l.572-580 -/
def setChainHash2Time (s : SettingsTime) (n : Nat) : Res SettingsTime :=
  if n > 0 ∧ n ≤ maxRuntime then .ok { s with ch2Time := some n } else .exn .invalidArgument

/-- `isComplete`, dataheader.h l.582-593 -/
def isComplete (s : SettingsTime) : Bool :=
  s.fileMode.isSome && s.hashMode.isSome && s.ch1Mode.isSome && s.ch1Time.isSome && s.ch2Mode.isSome && s.ch2Time.isSome

end SettingsTime

/-! calls on settings objects -/

/-- the settings; `num1`/`num2` are iterations or run times, dataheader.h l.260-272, l.434-446 -/
inductive Setting
  | fileMode | hashMode | ch1Mode | ch2Mode | num1 | num2
deriving DecidableEq, Repr

/-- calling the setter of a setting, dataheader.h l.353-406 -/
def SettingsIters.set (s : SettingsIters) : Setting → Nat → Res SettingsIters
  | .fileMode, n => s.setFileDataMode n
  | .hashMode, n => s.setHashMode n
  | .ch1Mode, n => s.setChainHash1Mode n
  | .ch2Mode, n => s.setChainHash2Mode n
  | .num1, n => s.setChainHash1Iters n
  | .num2, n => s.setChainHash2Iters n

/-- calling the getter of a setting, dataheader.h l.299-352 -/
def SettingsIters.get (s : SettingsIters) : Setting → Res Nat
  | .fileMode => s.getFileDataMode
  | .hashMode => s.getHashMode
  | .ch1Mode => s.getChainHash1Mode
  | .ch2Mode => s.getChainHash2Mode
  | .num1 => s.getChainHash1Iters
  | .num2 => s.getChainHash2Iters

/-- calling the setter of a setting, dataheader.h l.527-580 -/
def SettingsTime.set (s : SettingsTime) : Setting → Nat → Res SettingsTime
  | .fileMode, n => s.setFileDataMode n
  | .hashMode, n => s.setHashMode n
  | .ch1Mode, n => s.setChainHash1Mode n
  | .ch2Mode, n => s.setChainHash2Mode n
  | .num1, n => s.setChainHash1Time n
  | .num2, n => s.setChainHash2Time n

/-- calling the getter of a setting, dataheader.h l.473-526 -/
def SettingsTime.get (s : SettingsTime) : Setting → Res Nat
  | .fileMode => s.getFileDataMode
  | .hashMode => s.getHashMode
  | .ch1Mode => s.getChainHash1Mode
  | .ch2Mode => s.getChainHash2Mode
  | .num1 => s.getChainHash1Time
  | .num2 => s.getChainHash2Time

/-- the object after a history of setter calls, exceptions being caught by the caller; dataheader.h l.353-406 -/
def SettingsIters.run (hist : List (Setting × Nat)) : SettingsIters :=
  hist.foldl (fun s c => match s.set c.1 c.2 with | .ok s' => s' | _ => s) {}

/-- the object after a history of setter calls, dataheader.h l.527-580 -/
def SettingsTime.run (hist : List (Setting × Nat)) : SettingsTime :=
  hist.foldl (fun s c => match s.set c.1 c.2 with | .ok s' => s' | _ => s) {}

end Verif
