import Verif.Model.ChainHash
import Verif.Model.DataHeader

/-
Mode numbers: `/repo/src/hash_modes.cpp`, `/repo/src/chainhash_modes.cpp` l.10-59, `/repo/src/file_modes.cpp` and
`/repo/src/format.cpp`, on every number a mode variable can hold. The enums of /repo/include/base.h l.10-29 have no fixed
underlying type; gcc and clang represent them as 32-bit unsigned numbers and keep whatever number is converted to them (the
standard leaves numbers outside 0..7, 0..3 and 0..1 undefined). The other modules use the enumerators (`CHMode`, `HMode`)
after the checks modelled here. The log lines are not modelled.
-/
namespace Verif.Modes

/-- a variable of one of the enum types, /repo/include/base.h l.10-29 -/
abbrev Num := UInt32

/-- `operator<<` with the promoted enum (`+mode`): decimal digits, hash_modes.cpp, chainhash_modes.cpp and format.cpp l.52 -/
def decimal (n : Num) : String := toString n.toNat

/-- `MAX_FILEMODE_NUMBER`, `MAX_HASHMODE_NUMBER`, `MAX_CHAINHASHMODE_NUMBER`, /repo/include/settings.h l.16, 22, 28 -/
abbrev maxFile : Num := 1
/-- `MAX_HASHMODE_NUMBER`, /repo/include/settings.h l.22 -/
abbrev maxHash : Num := 3
/-- `MAX_CHAINHASHMODE_NUMBER`, /repo/include/settings.h l.28 -/
abbrev maxChain : Num := 5

/-- `HashModes::isModeValid`, hash_modes.cpp l.12-15 -/
def hashValid (n : Num) : Bool := 1 ≤ n && n ≤ maxHash

/-- `HashModes::getHash`, hash_modes.cpp l.17-31 -/
def getHash (hs : Hashes) (n : Num) : Res HashFn :=
  if n = 1 then .ok (hs.get .sha256)
  else if n = 2 then .ok (hs.get .sha384)
  else if n = 3 then .ok (hs.get .sha512)
  else .exn .invalidArgument

/-- `HashModes::getInfo`, hash_modes.cpp l.33-55 -/
def hashInfo (n : Num) (onlyName : Bool) : Res String := do
  let msg := if !onlyName then "The hash mode " ++ decimal n ++ " corresponds to hash function: " else ""
  if n = 1 then .ok (msg ++ "SHA256")
  else if n = 2 then .ok (msg ++ "SHA384")
  else if n = 3 then .ok (msg ++ "SHA512")
  else .exn .invalidArgument

/-- `ChainHashModes::isModeValid`, chainhash_modes.cpp l.56-59 -/
def chainValid (n : Num) : Bool := 1 ≤ n && n ≤ maxChain

/-- `ChainHashModes::getInfo`, chainhash_modes.cpp l.11-36 -/
def chainInfo (n : Num) : Res String := do
  let msg := "The chainhash mode " ++ decimal n ++ " corresponds to a chainhash "
  if n = 1 then .ok (msg ++ "that hashes the old hash again")
  else if n = 2 then .ok (msg ++ "that hashes the old hash + a constant salt again")
  else if n = 3 then .ok (msg ++ "that hashes the old hash + an incrementing salt again")
  else if n = 4 then .ok (msg ++ "that hashes the old hash + a constant AND an incrementing salt again")
  else if n = 5 then
    .ok (msg ++ "that hashes the old hash + quadratic value derived from an incrementing salt and 3 coefficients")
  else .exn .invalidArgument

/-- `ChainHashModes::getShortInfo`, chainhash_modes.cpp l.38-54 -/
def chainShortInfo (n : Num) : Res String :=
  if n = 1 then .ok "normal"
  else if n = 2 then .ok "constant"
  else if n = 3 then .ok "count"
  else if n = 4 then .ok "constant+count"
  else if n = 5 then .ok "quadratic"
  else .exn .invalidArgument

/-- `FileModes::isModeValid`, file_modes.cpp l.28-31 -/
def fileValid (n : Num) : Bool := 1 ≤ n && n ≤ maxFile

/-- `FileModes::getInfo`, file_modes.cpp l.11-27 -/
def fileInfo (n : Num) : Res String := do
  let msg := "The file mode " ++ decimal n ++ " stores "
  if n = 1 then .ok (msg ++ "password data") else .exn .logicError

/-- `Format::getFormatString`, format.cpp l.10-27 -/
def formatString (n : Num) : String :=
  if n = 1 then ""
  else if n = 2 then "*B S"
  else if n = 3 then "8B SN"
  else if n = 4 then "8B SN *B S"
  else if n = 5 then "8B SN 8B A 8B B 8B C"
  else "error type"

/-- `Format::calcNameLenList`, format.cpp l.29-46 -/
def nameLenList (n : Num) : List NameLen :=
  if n = 1 then []
  else if n = 2 then [⟨"S", 0⟩]
  else if n = 3 then [⟨"SN", 8⟩]
  else if n = 4 then [⟨"SN", 8⟩, ⟨"S", 0⟩]
  else if n = 5 then [⟨"SN", 8⟩, ⟨"A", 8⟩, ⟨"B", 8⟩, ⟨"C", 8⟩]
  else []

/-- `class Format`, /repo/include/format.h l.15-18 -/
structure Format where
  mode : Num
  format : String
  nameLens : List NameLen
deriving DecidableEq, Repr

/-- constructor, format.cpp l.48-55 -/
def Format.new (n : Num) : Res Format :=
  if !chainValid n then .exn .invalidArgument else .ok ⟨n, formatString n, nameLenList n⟩

/-- `operator==`, format.cpp l.64-67 -/
def Format.eq (f g : Format) : Bool := f.format == g.format

end Verif.Modes
