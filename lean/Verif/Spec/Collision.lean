import Verif.Spec.Header

/- What is hashed when a password is checked against a header (docs/dataheader.md, "the password is encrypted with the first
chainhash, the result is encrypted with the second chainhash"). -/
namespace Verif.Spec

/-- the inputs of the hash function in `n` rounds of a chain hash starting from `x` -/
def chainInputs (h : List Byte → List Byte) (rule : SaltRule) (n : Nat) (x : List Byte) : List (List Byte) :=
  (List.range n).map fun i => chain h rule i x ++ rule.at i

/-- the inputs of the hash function in the check of a password -/
def checkInputs (h : List Byte → List Byte) (hd : Header) (pw : List Byte) : List (List Byte) :=
  chainInputs h (ruleOf hd.ch1.mode.toNat hd.ch1.block) hd.ch1.iters pw ++
    chainInputs h (ruleOf hd.ch2.mode.toNat hd.ch2.block) hd.ch2.iters (hd.ch1.digest h pw)

/-- two lists of inputs show a collision: at the same place they have different entries with the same hash -/
def ShowCollision (h : List Byte → List Byte) (xs ys : List (List Byte)) : Prop :=
  ∃ (k : Nat) (a b : List Byte), xs[k]? = some a ∧ ys[k]? = some b ∧ a ≠ b ∧ h a = h b

end Verif.Spec
