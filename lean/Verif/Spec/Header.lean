import Verif.Spec.ChainHashData

/-
The file header as documented in /repo/docs/dataheader.md, stated without reference to the code.
-/
namespace Verif.Spec

/-- the eight bytes of a 64-bit number, most significant first -/
def num8 (n : Nat) : List Byte :=
  [UInt8.ofNat (n / 256 ^ 7), UInt8.ofNat (n / 256 ^ 6), UInt8.ofNat (n / 256 ^ 5), UInt8.ofNat (n / 256 ^ 4),
   UInt8.ofNat (n / 256 ^ 3), UInt8.ofNat (n / 256 ^ 2), UInt8.ofNat (n / 256), UInt8.ofNat n]

/-- digest sizes of the hash modes -/
def digestSize : Byte → Nat
  | 1 => 32
  | 2 => 48
  | 3 => 64
  | _ => 0

/-- description of a chain hash: mode, number of iterations, data block -/
structure ChainDesc where
  mode : Byte
  iters : Nat
  block : List Byte
deriving DecidableEq, Repr

/-- contents of a file header -/
structure Header where
  fileSize : Nat
  fileMode : Byte
  hashMode : Byte
  blocks : List (Byte × List Byte)
  ch1 : ChainDesc
  ch2 : ChainDesc
  validator : List Byte
  salt : List Byte
  encBlocks : List (Byte × Byte × List Byte)
deriving DecidableEq, Repr

/-- bytes of a chain-hash description -/
def ChainDesc.bytes (c : ChainDesc) : List Byte :=
  c.mode :: (num8 c.iters ++ UInt8.ofNat c.block.length :: c.block)

/-- bytes of the data blocks: type, length, data -/
def blockBytes (bs : List (Byte × List Byte)) : List Byte :=
  bs.flatMap fun b => b.1 :: UInt8.ofNat b.2.length :: b.2

/-- bytes of the encrypted data blocks: type, encrypted length, 255 bytes -/
def encBytes (bs : List (Byte × Byte × List Byte)) : List Byte :=
  bs.flatMap fun b => b.1 :: b.2.1 :: b.2.2

namespace Header

/-- length of the header: 40 + 2 * hash size + cs1 + cs2 + 2 * nd + 257 * ned + sdd -/
def length (h : Header) : Nat :=
  40 + 2 * digestSize h.hashMode + h.ch1.block.length + h.ch2.block.length + 2 * h.blocks.length +
    257 * h.encBlocks.length + (h.blocks.map fun b => b.2.length).sum

/-- bytes after the two size fields -/
def content (h : Header) : List Byte :=
  h.fileMode :: h.hashMode :: UInt8.ofNat h.blocks.length :: (blockBytes h.blocks ++ (h.ch1.bytes ++ (h.ch2.bytes ++
    (h.validator ++ (h.salt ++ UInt8.ofNat h.encBlocks.length :: encBytes h.encBlocks)))))

/-- the bytes of the header -/
def bytes (h : Header) : List Byte := num8 h.fileSize ++ (num8 h.length ++ h.content)

end Header

/-- a usable chain-hash description -/
def ChainDesc.Valid (c : ChainDesc) : Prop :=
  1 ≤ c.iters ∧ c.iters ≤ 1000000000 ∧ blockLenOk c.mode.toNat c.block.length = true

instance (c : ChainDesc) : Decidable c.Valid := by unfold ChainDesc.Valid; infer_instance

/-- a header that fits its format: known modes, iterations in range, block lengths as documented (data blocks not
empty), at most 255 blocks of each kind, and a file size that includes the header -/
structure Header.Valid (h : Header) : Prop where
  size : h.length ≤ h.fileSize
  size64 : h.fileSize < 2 ^ 64
  fileMode : h.fileMode = 1
  hashMode : h.hashMode = 1 ∨ h.hashMode = 2 ∨ h.hashMode = 3
  blockCount : h.blocks.length ≤ 255
  blockLen : ∀ b ∈ h.blocks, 1 ≤ b.2.length ∧ b.2.length ≤ 255
  ch1 : h.ch1.Valid
  ch2 : h.ch2.Valid
  validator : h.validator.length = digestSize h.hashMode
  salt : h.salt.length = digestSize h.hashMode
  encCount : h.encBlocks.length ≤ 255
  encLen : ∀ b ∈ h.encBlocks, b.2.2.length = 255

/-- number of bytes of the parts of given size in the data block of a chain-hash mode (chainhash_modes.md) -/
def fixedPart : Byte → Nat
  | 3 => 8
  | 4 => 8
  | 5 => 32
  | _ => 0

/-- the free part (the one of variable length) of a chain-hash description -/
def ChainDesc.free (c : ChainDesc) : List Byte := c.block.drop (fixedPart c.mode)

/-- the digest a chain-hash description stands for -/
def ChainDesc.digest (c : ChainDesc) (h : List Byte → List Byte) (x : List Byte) : List Byte :=
  chain h (ruleOf c.mode.toNat c.block) c.iters x

/-! Damaged headers -/

/-- length of the data block of the chain-hash modes without free part -/
def fixedLen : Byte → Option Nat
  | 1 => some 0
  | 3 => some 8
  | 5 => some 32
  | _ => none

/-- `l` starts with a chain-hash description of a mode without free part whose length byte is not the length of that mode,
followed by at least as many bytes as the mode asks for -/
def BadChain (l : List Byte) : Prop :=
  ∃ mode iters len rest k, l = mode :: (num8 iters ++ len :: rest) ∧ iters < 2 ^ 64 ∧ fixedLen mode = some k ∧
    len.toNat ≠ k ∧ k ≤ rest.length

/-- `l` starts with the size fields and modes of a header (file size correct, header size `hsize` not larger), the number
`count` of data blocks and `bs.length ≤ count` proper data blocks; `rest` follows -/
structure HeaderStart (l : List Byte) (hsize : Nat) (hmode : Byte) (count : Byte) (bs : List (Byte × List Byte))
    (rest : List Byte) : Prop where
  eq : l = num8 l.length ++ (num8 hsize ++ 1 :: hmode :: count :: (blockBytes bs ++ rest))
  size : hsize ≤ l.length
  mode : hmode = 1 ∨ hmode = 2 ∨ hmode = 3
  num : bs.length ≤ count.toNat
  blocks : ∀ b ∈ bs, 1 ≤ b.2.length ∧ b.2.length ≤ 255

/-- a data block of length zero is reached -/
def ZeroBlock (l : List Byte) : Prop :=
  ∃ hsize hmode count bs type rest, HeaderStart l hsize hmode count bs (type :: 0 :: rest) ∧ bs.length < count.toNat

/-- a chain-hash description with a wrong length byte is reached -/
def WrongChainLength (l : List Byte) : Prop :=
  ∃ hsize hmode count bs rest, HeaderStart l hsize hmode count bs rest ∧ bs.length = count.toNat ∧
    (BadChain rest ∨ ∃ c : ChainDesc, ∃ rest', rest = c.bytes ++ rest' ∧ c.Valid ∧ BadChain rest')

/-- the header is in order but for its header size field -/
def WrongHeaderSize (l : List Byte) : Prop :=
  ∃ (h : Header) (hsize : Nat) (data : List Byte), h.Valid ∧ h.fileSize = l.length ∧
    l = num8 l.length ++ (num8 hsize ++ (h.content ++ data)) ∧ hsize ≤ l.length ∧ hsize ≠ h.length

/-- key stream of an encrypted data block: hashes chained from the salt, `n` of them -/
def encStream (h : List Byte → List Byte) (key : List Byte) : Nat → List Byte → List Byte
  | 0, _ => []
  | n + 1, salt => h (subB salt key) ++ encStream h key n (h (subB salt key))

end Verif.Spec
