import Verif.Spec.ChainHash

/-
The data a chain-hash mode asks for (docs/chainhash_modes.md), stated without reference to the code. Modes are given by
their numbers 1 to 5.
-/
namespace Verif.Spec

/-- parts of the data block of a mode, in order: name and length (`none` = free length) -/
def modeParts : Nat → List (String × Option Nat)
  | 2 => [("S", none)]
  | 3 => [("SN", some 8)]
  | 4 => [("SN", some 8), ("S", none)]
  | 5 => [("SN", some 8), ("A", some 8), ("B", some 8), ("C", some 8)]
  | _ => []

/-- may `b` be added after the parts `acc`? -/
def acceptable (mode : Nat) (acc : List (List Byte)) (b : List Byte) : Bool :=
  match (modeParts mode)[acc.length]? with
  | none => false
  | some (_, some n) => b.length == n
  | some (_, none) => acc.flatten.length + b.length ≤ 255

/-- the parts kept after a history of attempted additions -/
def accepted (mode : Nat) (history : List (List Byte)) : List (List Byte) :=
  history.foldl (fun acc b => if acceptable mode acc b then acc ++ [b] else acc) []

/-- the salt rule described by a mode and its data block -/
def ruleOf (mode : Nat) (block : List Byte) : SaltRule :=
  match mode with
  | 2 => .const block
  | 3 => .count (beValue block)
  | 4 => .constCount (block.drop 8) (beValue (block.take 8))
  | 5 => .quad (beValue (block.take 8)) (beValue ((block.drop 8).take 8)) (beValue ((block.drop 16).take 8))
      (beValue ((block.drop 24).take 8))
  | _ => .none

/-- the length the data block of a mode must have (`none`: anything from the second component to 255) -/
def blockLenOk (mode : Nat) (n : Nat) : Bool :=
  match mode with
  | 1 => n == 0
  | 2 => n ≤ 255
  | 3 => n == 8
  | 4 => 8 ≤ n && n ≤ 255
  | 5 => n == 32
  | _ => false

end Verif.Spec
