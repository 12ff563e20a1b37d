import Verif.Spec.Header
import Verif.Model.Error

/- The first flaw of a damaged header, used in statements. Files whose first flaw ends the process are described by `ZeroBlock`,
`WrongChainLength` and `WrongHeaderSize` in `Spec/Header.lean`. -/
namespace Verif.Spec

/-- the five chain-hash modes -/
def knownChain (mode : Byte) : Prop := mode = 1 ∨ mode = 2 ∨ mode = 3 ∨ mode = 4 ∨ mode = 5

/-- `l` should start with a chain-hash description, but does not, and `code` says why -/
inductive ChainFlaw : List Byte → ErrorCode → Prop
  /-- nothing is there -/
  | missing : ChainFlaw [] .ERR_NOT_ENOUGH_DATA
  /-- the mode does not exist -/
  | mode (mode : Byte) (l : List Byte) (h : ¬ knownChain mode) : ChainFlaw (mode :: l) .ERR_CHAINHASHMODE_FORMAT_INVALID
  /-- the bytes end before the length byte -/
  | fields (mode : Byte) (l : List Byte) (h : knownChain mode) (hl : l.length < 9) : ChainFlaw (mode :: l) .ERR_NOT_ENOUGH_DATA
  /-- the bytes end inside the data block -/
  | block (mode : Byte) (iters : Nat) (len : Byte) (l : List Byte) (h : knownChain mode) (hi : iters < 2 ^ 64)
      (hl : l.length < (fixedLen mode).getD len.toNat) : ChainFlaw (mode :: (num8 iters ++ len :: l)) .ERR_NOT_ENOUGH_DATA
  /-- mode 4, whose data block begins with eight bytes for the start number, announces fewer of them -/
  | start (iters : Nat) (len : Byte) (l : List Byte) (hi : iters < 2 ^ 64) (hl : len.toNat < 8) :
      ChainFlaw (4 :: (num8 iters ++ len :: l)) .ERR_NOT_ENOUGH_DATA

/-- a description in order but for its number of iterations, which is out of range -/
def BadIters (c : ChainDesc) : Prop :=
  blockLenOk c.mode.toNat c.block.length = true ∧ c.iters < 2 ^ 64 ∧ (c.iters = 0 ∨ 1000000000 < c.iters)

/-- `l` starts with a header that is in order up to and including its data blocks; `rest` follows -/
def UpToBlocks (l : List Byte) (hmode : Byte) (bs : List (Byte × List Byte)) (rest : List Byte) : Prop :=
  ∃ hsize count, HeaderStart l hsize hmode count bs rest ∧ bs.length = count.toNat

/-- the first flaw of the header that `l` starts with, and the error that belongs to it -/
inductive Flaw (l : List Byte) : ErrorCode → Prop
  /-- no room for the size fields -/
  | sizes (h : l.length < 16) : Flaw l .ERR_NOT_ENOUGH_DATA
  /-- the file size is not the size of the file -/
  | fileSize (h : 16 ≤ l.length) (hn : beValue (l.take 8) ≠ l.length) : Flaw l .ERR_FILESIZE_INVALID
  /-- the header is larger than the file -/
  | headerSize (hsize : Nat) (rest : List Byte) (h : l = num8 l.length ++ (num8 hsize ++ rest)) (h64 : hsize < 2 ^ 64)
      (hs : l.length < hsize) : Flaw l .ERR_HEADERSIZE_FILESIZE_MISMATCH
  /-- no room for the modes -/
  | modes (hsize : Nat) (rest : List Byte) (h : l = num8 l.length ++ (num8 hsize ++ rest)) (hs : hsize ≤ l.length)
      (hr : rest.length < 2) : Flaw l .ERR_NOT_ENOUGH_DATA
  /-- the hash mode does not exist -/
  | hashMode (hsize : Nat) (fmode hmode : Byte) (rest : List Byte) (h : l = num8 l.length ++ (num8 hsize ++ fmode :: hmode :: rest))
      (hs : hsize ≤ l.length) (hm : ¬ (hmode = 1 ∨ hmode = 2 ∨ hmode = 3)) : Flaw l .ERR_HASHMODE_INVALID
  /-- the file mode does not exist -/
  | fileMode (hsize : Nat) (fmode hmode : Byte) (rest : List Byte) (h : l = num8 l.length ++ (num8 hsize ++ fmode :: hmode :: rest))
      (hs : hsize ≤ l.length) (hm : hmode = 1 ∨ hmode = 2 ∨ hmode = 3) (hf : fmode ≠ 1) : Flaw l .ERR_FILEMODE_INVALID
  /-- no room for the number of data blocks -/
  | count (hsize : Nat) (hmode : Byte) (h : l = num8 l.length ++ (num8 hsize ++ [1, hmode])) (hs : hsize ≤ l.length)
      (hm : hmode = 1 ∨ hmode = 2 ∨ hmode = 3) : Flaw l .ERR_NOT_ENOUGH_DATA
  /-- the bytes end before or inside a data block -/
  | blocks (hsize : Nat) (hmode count : Byte) (bs : List (Byte × List Byte)) (rest : List Byte)
      (h : HeaderStart l hsize hmode count bs rest) (hn : bs.length < count.toNat)
      (hr : rest.length < 2 ∨ ∃ type len x, rest = type :: len :: x ∧ x.length < len.toNat) : Flaw l .ERR_NOT_ENOUGH_DATA
  /-- the first chain hash is no description of one -/
  | chain1 (hmode : Byte) (bs : List (Byte × List Byte)) (rest : List Byte) (code : ErrorCode) (h : UpToBlocks l hmode bs rest)
      (hc : ChainFlaw rest code) : Flaw l code
  /-- the first chain hash has a number of iterations out of range -/
  | iters1 (hmode : Byte) (bs : List (Byte × List Byte)) (c : ChainDesc) (rest : List Byte)
      (h : UpToBlocks l hmode bs (c.bytes ++ rest)) (hc : BadIters c) : Flaw l .ERR_CHAINHASH1_INVALID
  /-- the second chain hash is no description of one -/
  | chain2 (hmode : Byte) (bs : List (Byte × List Byte)) (c : ChainDesc) (rest : List Byte) (code : ErrorCode)
      (h : UpToBlocks l hmode bs (c.bytes ++ rest)) (hv : c.Valid) (hc : ChainFlaw rest code) : Flaw l code
  /-- the second chain hash has a number of iterations out of range -/
  | iters2 (hmode : Byte) (bs : List (Byte × List Byte)) (c c' : ChainDesc) (rest : List Byte)
      (h : UpToBlocks l hmode bs (c.bytes ++ (c'.bytes ++ rest))) (hv : c.Valid) (hc : BadIters c') :
      Flaw l .ERR_CHAINHASH2_INVALID
  /-- the bytes end inside the validator or the salt -/
  | digests (hmode : Byte) (bs : List (Byte × List Byte)) (c c' : ChainDesc) (rest : List Byte)
      (h : UpToBlocks l hmode bs (c.bytes ++ (c'.bytes ++ rest))) (hv : c.Valid) (hv' : c'.Valid)
      (hr : rest.length < 2 * digestSize hmode) : Flaw l .ERR_NOT_ENOUGH_DATA
  /-- the bytes end behind the salt. The file size is right; all the same this is the error. -/
  | encCount (hmode : Byte) (bs : List (Byte × List Byte)) (c c' : ChainDesc) (rest : List Byte)
      (h : UpToBlocks l hmode bs (c.bytes ++ (c'.bytes ++ rest))) (hv : c.Valid) (hv' : c'.Valid)
      (hr : rest.length = 2 * digestSize hmode) : Flaw l .ERR_FILESIZE_INVALID
  /-- the bytes end inside the encrypted data blocks -/
  | encBlocks (hmode : Byte) (bs : List (Byte × List Byte)) (c c' : ChainDesc) (digests : List Byte) (count : Byte) (rest : List Byte)
      (h : UpToBlocks l hmode bs (c.bytes ++ (c'.bytes ++ (digests ++ count :: rest)))) (hv : c.Valid) (hv' : c'.Valid)
      (hd : digests.length = 2 * digestSize hmode) (hr : rest.length < 257 * count.toNat) : Flaw l .ERR_NOT_ENOUGH_DATA

end Verif.Spec
