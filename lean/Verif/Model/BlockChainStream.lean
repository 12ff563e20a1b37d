import Verif.Model.BlockChain

/-
Model of `/repo/include/blockchain_stream.h`, `/repo/src/blockchain_stream.cpp`, `blockchain_stream_encrypt.cpp`,
`blockchain_stream_decrypt.cpp`. `seedCap` is the capacity of the default argument of `SaltIterator::next`; the code has
`Bytes(0)` there (blockchain_stream.h l.72), i.e. `seedCap = 0`. Simplification: the output stream accepts all bytes.
-/
namespace Verif

/-- `class BlockChainStream`, blockchain_stream.h l.101-105; `height` is never initialised and not modelled -/
structure SChain where
  cur : Option Block
  iter : SaltIter
deriving DecidableEq, Repr

namespace SChain

/-- default argument of `SaltIterator::next`, blockchain_stream.h l.72 -/
def codeSeedCap : Nat := 0

/-- constructor, blockchain_stream.cpp l.3-6, with `SaltIterator::init`, blockchain_stream.h l.53-71 -/
def new (H : HashFn) (pwhash encSalt : Bytes) : Res SChain := do
  let it ← SaltIter.init H pwhash encSalt
  .ok ⟨none, it⟩

/-- `getFreeSpaceInLastBlock`, blockchain_stream.cpp l.39-45 -/
def freeSpace (H : HashFn) (c : SChain) : Nat := match c.cur with
  | some b => b.getFreeSpace H
  | none => 0

/-- `setBlock` (noexcept), blockchain_stream_encrypt.cpp l.5-28 / blockchain_stream_decrypt.cpp l.5-28 -/
def setBlock (H : HashFn) (seedCap : Nat) (c : SChain) : Res SChain :=
  Res.noexcept <|
    if c.freeSpace H ≠ 0 then .ok c
    else match c.cur with
      | some b => do
        let (salt, it) ← c.iter.next H (← b.getHash H)
        let nb ← Block.new H salt
        .ok ⟨some nb, it⟩
      | none => do
        let (salt, it) ← c.iter.next H (Bytes.empty seedCap)
        let nb ← Block.new H salt
        .ok ⟨some nb, it⟩

/-- loop of `enc_stream`, blockchain_stream.cpp l.10-34; `fuel` bounds the number of rounds -/
def encLoop (dir : Dir) (H : HashFn) (seedCap : Nat) : Nat → SChain → IStream → List Byte → Res (SChain × List Byte)
  | 0, _, _, _ => .fatal .diverge
  | fuel + 1, c, s, out => match c.cur with
    | none => .fatal .ub
    | some b => do
      let written := H.size - c.freeSpace H
      let (got, s) := s.readsome (c.freeSpace H)
      let b ← b.addData dir H ⟨got, got.length⟩
      let r ← b.getResult dir H
      let piece ← r.copySubBytes written H.size
      let out := out ++ piece.data
      let c := { c with cur := some b }
      let (e, s) := s.peekEof
      if e then .ok (c, out)
      else do
        Res.assert (c.freeSpace H == 0)
        let c ← c.setBlock H seedCap
        encLoop dir H seedCap fuel c s out

/-- `enc_stream` (noexcept), blockchain_stream.cpp l.8-37: the bytes appended to the output file -/
def encStream (dir : Dir) (H : HashFn) (seedCap : Nat) (c : SChain) (s : IStream) : Res (SChain × List Byte) :=
  Res.noexcept do
    let c ← match c.cur with
      | none => c.setBlock H seedCap
      | some _ => if c.freeSpace H = 0 then c.setBlock H seedCap else .ok c
    encLoop dir H seedCap (s.rest.length + 2) c s []

/-- calls of `enc_stream` (blockchain_stream.cpp l.8-37) one after the other on one chain and one output file: each call goes
on with the block the last one left, and the output file is appended to -/
def encStreams (dir : Dir) (H : HashFn) (seedCap : Nat) : SChain → List IStream → Res (SChain × List Byte)
  | c, [] => .ok (c, [])
  | c, s :: ss => do
    let (c, out) ← c.encStream dir H seedCap s
    let (c, out') ← encStreams dir H seedCap c ss
    .ok (c, out ++ out')

end SChain
end Verif
