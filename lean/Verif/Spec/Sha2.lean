import Verif.Model.Sha2

/- What happens inside the computation of a digest: the blocks fed to the compression function, and collisions among them. -/
namespace Verif.Sha2

namespace Variant
variable (v : Variant)

/-- a state between two blocks: eight words -/
def State (st : List Nat) : Prop := st.length = 8 ∧ ∀ w ∈ st, w < 2 ^ v.bits

/-- the inputs of the compression function (state and block) in the first `n` blocks of a padded message -/
def steps : Nat → List Byte → List Nat → List (List Nat × List Byte)
  | 0, _, _ => []
  | n + 1, m, st => (st, m.take v.blockBytes) :: steps n (m.drop v.blockBytes) (v.compress st (m.take v.blockBytes))

/-- the inputs of the compression function in the computation of a digest -/
def digestSteps (iv : List Nat) (m : List Byte) : List (List Nat × List Byte) :=
  v.steps ((v.pad m).length / v.blockBytes) (v.pad m) iv

/-- the two lists of inputs contain two different ones for which the compression function gives the same first `k` words -/
def Collide (k : Nat) (xs ys : List (List Nat × List Byte)) : Prop :=
  ∃ x ∈ xs, ∃ y ∈ ys, x ≠ y ∧ (v.compress x.1 x.2).take k = (v.compress y.1 y.2).take k

instance (k : Nat) (xs ys : List (List Nat × List Byte)) : Decidable (v.Collide k xs ys) := by
  unfold Collide; infer_instance

end Variant

/-- the family of a hash mode -/
def variantOf : HMode → Variant
  | .sha256 => v256
  | .sha384 => v512
  | .sha512 => v512

/-- words of the last state that make up the digest -/
def wordsUsed : HMode → Nat
  | .sha256 => 8
  | .sha384 => 6
  | .sha512 => 8

/-- the inputs of the compression function in the computation of a digest -/
def hashSteps : HMode → List Byte → List (List Nat × List Byte)
  | .sha256, m => v256.digestSteps iv256 m
  | .sha384, m => v512.digestSteps iv384 m
  | .sha512, m => v512.digestSteps iv512 m

end Verif.Sha2
