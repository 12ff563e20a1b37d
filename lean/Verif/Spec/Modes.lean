import Verif.Model.Modes
import Verif.Spec.ChainHashData

/- Mode numbers, used in the statements of C71. -/
namespace Verif.Spec

/-- digest size of a hash mode in bytes -/
def hashBytes : Nat → Nat
  | 1 => 32 | 2 => 48 | 3 => 64 | _ => 0

/-- the format notation of chainhash_modes.md for a list of parts: length (`*` = free) and name of each part, separated by
spaces -/
def formatNotation : List (String × Option Nat) → String
  | [] => ""
  | [p] => part p
  | p :: ps => part p ++ " " ++ formatNotation ps
where
  part : String × Option Nat → String
    | (name, none) => "*B " ++ name
    | (name, some n) => toString n ++ "B " ++ name

/-- short name of a chain hash by the parts of its data block: the coefficients make it quadratic, otherwise the salts name it -/
def modeName (parts : List (String × Option Nat)) : String :=
  if "A" ∈ parts.map Prod.fst then "quadratic"
  else if parts = [] then "normal"
  else "+".intercalate ((if "S" ∈ parts.map Prod.fst then ["constant"] else []) ++ (if "SN" ∈ parts.map Prod.fst then ["count"] else []))

end Verif.Spec
