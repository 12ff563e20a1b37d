import Verif.Spec.Basic

/-
The cipher as documented (docs/, comments in /repo/include/blockchain.h), stated byte by byte.
`h` is the hash function, `n` its digest size. Blocks are numbered from 1.
-/
namespace Verif.Spec

/-- block number `i ≥ 1` of a byte string -/
def blockNo (n i : Nat) (x : List Byte) : List Byte := (x.drop ((i - 1) * n)).take n

/-- `d_0 = 0`, `d_i` = hash of plain block `i` -/
def blockDigest (h : List Byte → List Byte) (n : Nat) (plain : List Byte) : Nat → List Byte
  | 0 => List.replicate n 0
  | i + 1 => h (blockNo n (i + 1) plain)

/-- `(h_0, s_0) = (password hash, file salt)`, `h_{i+1} = H(h_i + s_i + d_i)`, `s_{i+1} = H(h_{i+1} + s_i + d_i)` -/
def keyPair (h : List Byte → List Byte) (n : Nat) (pwhash salt plain : List Byte) : Nat → List Byte × List Byte
  | 0 => (pwhash, salt)
  | i + 1 =>
    let k := keyPair h n pwhash salt plain i
    let d := blockDigest h n plain i
    let h' := h (addB (addB k.1 k.2) d)
    (h', h (addB (addB h' k.2) d))

/-- salt of block `i`: `H(h_i + s_i)` -/
def blockSalt (h : List Byte → List Byte) (n : Nat) (pwhash salt plain : List Byte) (i : Nat) : List Byte :=
  h (addB (keyPair h n pwhash salt plain i).1 (keyPair h n pwhash salt plain i).2)

/-- `cipher` is the encryption of `plain`: same length, and byte `k` is the plain byte plus the corresponding byte of
the salt of its block -/
def IsEncryption (h : List Byte → List Byte) (n : Nat) (pwhash salt plain cipher : List Byte) : Prop :=
  cipher.length = plain.length ∧
  ∀ k p, plain[k]? = some p → ∃ s, (blockSalt h n pwhash salt plain (k / n + 1))[k % n]? = some s ∧
    cipher[k]? = some (p + s)

end Verif.Spec
