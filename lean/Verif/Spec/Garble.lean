import Verif.Spec.Secrecy
import Verif.Spec.Collision

/- How the blocks of the data hang together (docs/doc.md, "every block depends on the blocks before"), used in statements: C107. -/
namespace Verif.Spec

/-- what is hashed for block `i` of a version, to get on to block `i + 1`: the block itself, and the inputs of the two hashes -/
def roundInputs (h : List Byte → List Byte) (n : Nat) (v : Version) (i : Nat) : List (List Byte) :=
  let k := keyPair h n v.pwhash v.salt v.data i
  let d := blockDigest h n v.data i
  [if i = 0 then [] else blockNo n i v.data, addB (addB k.1 k.2) d,
    addB (addB (keyPair h n v.pwhash v.salt v.data (i + 1)).1 k.2) d]

/-- on the way to the key of block `k` the hash function has the same value for different inputs -/
def HashesMeet (h : List Byte → List Byte) (n : Nat) (v v' : Version) (k : Nat) : Prop :=
  (∃ i, i < k ∧ ShowCollision h (roundInputs h n v i) (roundInputs h n v' i)) ∨
  ShowCollision h [keyInput h n v.pwhash v.salt v.data k] [keyInput h n v'.pwhash v'.salt v'.data k]

/-- different pairs of byte strings with the same sum -/
def SameSum (a b a' b' : List Byte) : Prop := (a, b) ≠ (a', b') ∧ addB a b = addB a' b'

/-- on the way to the key of block `k` two different pairs of hashes have the same sum -/
def SumsMeet (h : List Byte → List Byte) (n : Nat) (v v' : Version) (k : Nat) : Prop :=
  (∃ i, i < k ∧ SameSum (keyPair h n v.pwhash v.salt v.data i).2 (blockDigest h n v.data i)
    (keyPair h n v'.pwhash v'.salt v'.data i).2 (blockDigest h n v'.data i)) ∨
  SameSum (keyPair h n v.pwhash v.salt v.data k).1 (keyPair h n v.pwhash v.salt v.data k).2
    (keyPair h n v'.pwhash v'.salt v'.data k).1 (keyPair h n v'.pwhash v'.salt v'.data k).2

/-- in block `k` the encrypted data `c` and `c'` do not differ as the data `x` and `x'` do: at some place the difference is another -/
def Garbled (n : Nat) (x x' c c' : List Byte) (k : Nat) : Prop :=
  ∃ p a a' b b', (k - 1) * n ≤ p ∧ p < k * n ∧ x[p]? = some a ∧ x'[p]? = some a' ∧ c[p]? = some b ∧ c'[p]? = some b' ∧
    b - b' ≠ a - a'

end Verif.Spec
