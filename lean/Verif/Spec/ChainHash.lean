import Verif.Spec.Basic

/-
What a chain hash is meant to compute (docs/chainhash_modes.md), stated without reference to the code.
-/
namespace Verif.Spec

/-- decimal text of a natural number, as bytes -/
def decText (n : Nat) : List Byte := (Nat.toDigits 10 n).map fun c => UInt8.ofNat c.toNat

/-- how the salt of a round is obtained -/
inductive SaltRule
  | none
  | const (salt : List Byte)
  | count (start : Nat)
  | constCount (salt : List Byte) (start : Nat)
  | quad (start a b c : Nat)
deriving DecidableEq, Repr

/-- salt appended in round `i` (counting from 0); numbers are 64-bit -/
def SaltRule.at : SaltRule → Nat → List Byte
  | .none, _ => []
  | .const s, _ => s
  | .count start, i => decText ((start + i) % 2 ^ 64)
  | .constCount s start, i => s ++ decText ((start + i) % 2 ^ 64)
  | .quad start a b c, i => decText ((a * (start + i) ^ 2 + b * (start + i) + c) % 2 ^ 64)

/-- `n` rounds of "append the salt of the round and hash", starting from `x` -/
def chain (h : List Byte → List Byte) (rule : SaltRule) (n : Nat) (x : List Byte) : List Byte :=
  (List.range n).foldl (fun acc i => h (acc ++ rule.at i)) x

end Verif.Spec
