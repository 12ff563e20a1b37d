import Verif.Spec.History

/- Guessing passwords in order: all of length 0, then all of length 1 and so on. -/
namespace Verif.Spec

/-- the characters of passwords in the order in which they are guessed (settings.h, with `§` as two bytes of UTF-8) -/
def guessChars : List Byte :=
  ascii "a1eo0r2ins9lt357864mdycuhkbwgzpfvxjqAWYEZSRXMTNLVBDCOIPHUGKFJQ_.-!*@$#?%&;=~+[(/]{}):" ++ [194, 167] ++ ascii "<>,"

/-- the number of a password among those of its length, the first character counting least -/
def guessNumber : List Byte → Nat
  | [] => 0
  | c :: cs => guessChars.idxOf c + 90 * guessNumber cs

/-- one password is guessed before another -/
def GuessedBefore (x y : List Byte) : Prop :=
  x.length < y.length ∨ (x.length = y.length ∧ guessNumber x < guessNumber y)

/-- the passwords guessed by somebody who counts those of each length in 64 bits, up to length `n` -/
def Guessed (n : Nat) (x : List Byte) : Prop :=
  (∀ c ∈ x, c ∈ guessChars) ∧ x.length ≤ n ∧ guessNumber x < 90 ^ x.length % 2 ^ 64

/-- how many guesses it takes to come to a password, itself included -/
def guessesTo (x : List Byte) : Nat := ((List.range x.length).map fun k => 90 ^ k % 2 ^ 64).sum + guessNumber x + 1

end Verif.Spec
