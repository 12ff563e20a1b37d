import Verif.Spec.Cipher

/- What is hashed to encrypt data (docs/doc.md, comments in /repo/include/blockchain.h), used in statements. -/
namespace Verif.Spec

/-- the number of blocks that `len` bytes take -/
def blockCount (n len : Nat) : Nat := (len + n - 1) / n

/-- what is hashed to get the bytes that are added to block `i` -/
def keyInput (h : List Byte → List Byte) (n : Nat) (pwhash salt plain : List Byte) (i : Nat) : List Byte :=
  addB (keyPair h n pwhash salt plain i).1 (keyPair h n pwhash salt plain i).2

/-- these inputs for all blocks of the data -/
def keyInputs (h : List Byte → List Byte) (n : Nat) (pwhash salt plain : List Byte) : List (List Byte) :=
  (List.range (blockCount n plain.length)).map fun i => keyInput h n pwhash salt plain (i + 1)

/-- what else is hashed on the way to the last of them -/
def pathInputs (h : List Byte → List Byte) (n : Nat) (pwhash salt plain : List Byte) : List (List Byte) :=
  (List.range (blockCount n plain.length)).flatMap fun i =>
    let k := keyPair h n pwhash salt plain i
    let d := blockDigest h n plain i
    [addB (addB k.1 k.2) d, addB (addB (keyPair h n pwhash salt plain (i + 1)).1 k.2) d] ++
      (if i = 0 then [] else [blockNo n i plain])

/-- no two blocks are encrypted with the hash of the same input, and none with the hash of something hashed on the way -/
def DistinctInputs (h : List Byte → List Byte) (n : Nat) (pwhash salt plain : List Byte) : Prop :=
  (keyInputs h n pwhash salt plain).Nodup ∧
  ∀ x ∈ keyInputs h n pwhash salt plain, x ∉ pathInputs h n pwhash salt plain

/-- one version of some data: what it is encrypted with, and the data -/
structure Version where
  pwhash : List Byte
  salt : List Byte
  data : List Byte

/-- the same for several versions: all inputs for key streams are different, and none is hashed on the way to another -/
def AllDistinctInputs (h : List Byte → List Byte) (n : Nat) (vs : List Version) : Prop :=
  (vs.flatMap fun v => keyInputs h n v.pwhash v.salt v.data).Nodup ∧
  ∀ v ∈ vs, ∀ v' ∈ vs, ∀ x ∈ keyInputs h n v.pwhash v.salt v.data, x ∉ pathInputs h n v'.pwhash v'.salt v'.data

end Verif.Spec
