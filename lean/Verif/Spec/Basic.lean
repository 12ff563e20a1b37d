import Verif.Model.Basic

/-
Elementary specifications used in property statements. Nothing in this file refers to the model of the code.
-/
namespace Verif.Spec

/-- value of a byte string read as a number, most significant byte first -/
def beValue (l : List Byte) : Nat := l.foldl (fun acc x => acc * 256 + x.toNat) 0

/-- value of a decimal text, for strings of digits -/
def decValue (l : List Byte) : Nat := l.foldl (fun acc x => acc * 10 + (x.toNat - 48)) 0

/-- byte-wise sum of two byte strings -/
def addB : List Byte → List Byte → List Byte
  | x :: xs, y :: ys => (x + y) :: addB xs ys
  | _, _ => []

/-- byte-wise difference of two byte strings -/
def subB : List Byte → List Byte → List Byte
  | x :: xs, y :: ys => (x - y) :: subB xs ys
  | _, _ => []

/-- inverse of a hexadecimal digit (upper case) -/
def hexDigit (c : Char) : Option Nat :=
  if '0' ≤ c ∧ c ≤ '9' then some (c.toNat - '0'.toNat)
  else if 'A' ≤ c ∧ c ≤ 'F' then some (c.toNat - 'A'.toNat + 10)
  else none

/-- decoder of hexadecimal texts -/
def hexDecode : List Char → Option (List Byte)
  | [] => some []
  | a :: b :: rest =>
    match hexDigit a, hexDigit b, hexDecode rest with
    | some x, some y, some l => some (UInt8.ofNat (16 * x + y) :: l)
    | _, _, _ => none
  | _ => none

/-- bytes allowed in passwords: the visible ASCII characters except `"`, `'`, `\`, `^`, the backquote and `|`, and the two
bytes of `§` in UTF-8 -/
def passChar (c : Byte) : Bool :=
  (33 ≤ c && c ≤ 126 && c != 34 && c != 39 && c != 92 && c != 94 && c != 96 && c != 124) || c == 0xC2 || c == 0xA7

end Verif.Spec
