import Verif.Model.Util
import Verif.Model.Hash

/-
Model of `/repo/src/block.cpp`, `block_encrypt.cpp`, `block_decrypt.cpp`, `/repo/include/blockchain.h`,
`/repo/src/blockchain.cpp`, `blockchain_encrypt.cpp`, `blockchain_decrypt.cpp`.
The encrypting and the decrypting classes have the same structure and are modelled together, `dir` telling them apart.
-/
namespace Verif

/-- `EncryptBlock`/`EncryptBlockChain` or `DecryptBlock`/`DecryptBlockChain`, block_encrypt.h l.5, block_decrypt.h l.5, blockchain_encrypt.h l.6, blockchain_decrypt.h l.6 -/
inductive Dir | enc | dec
deriving DecidableEq, Repr

/-- `class Block`, /repo/include/block.h l.15-20; the block length is the hash size -/
structure Block where
  data : Bytes
  salt : Bytes
  decHash : Bytes
deriving DecidableEq, Repr

namespace Block

/-- constructor, block.cpp l.8-20 (hash sizes are positive) -/
def new (H : HashFn) (salt : Bytes) : Res Block :=
  if salt.len ≠ H.size then .exn .lengthError
  else .ok ⟨Bytes.empty H.size, salt, Bytes.empty H.size⟩

/-- `getFreeSpace`, block.cpp l.22-25 -/
def getFreeSpace (H : HashFn) (b : Block) : Nat := H.size - b.data.len

/-- `getHash`, block.cpp l.27-41 -/
def getHash (H : HashFn) (b : Block) : Res Bytes :=
  if b.getFreeSpace H ≠ 0 then .exn .lengthError
  else if b.decHash.len = 0 then .exn .lengthError
  else .ok b.decHash

/-- `EncryptBlock::addData` (block_encrypt.cpp l.5-25) / `DecryptBlock::addData` (block_decrypt.cpp l.5-25) -/
def addData (dir : Dir) (H : HashFn) (b : Block) (part : Bytes) : Res Block :=
  if b.getFreeSpace H < part.len then .exn .lengthError
  else do
    let data ← part.addcopyToBytes b.data
    let b := { b with data := data }
    if b.getFreeSpace H = 0 then
      if b.decHash.len ≠ 0 then .ok b
      else match dir with
        | .enc => do
          let hash ← H.hash b.data
          let data ← b.data.add b.salt
          .ok { b with data := data, decHash := hash }
        | .dec => do
          let data ← b.data.sub b.salt
          let hash ← H.hash data
          .ok { b with data := data, decHash := hash }
    else .ok b

/-- `getResult` (noexcept), block_encrypt.cpp l.27-36 / block_decrypt.cpp l.27-36 -/
def getResult (dir : Dir) (H : HashFn) (b : Block) : Res Bytes :=
  Res.noexcept <|
    if b.getFreeSpace H ≠ 0 then do
      let s ← b.salt.copySubBytes 0 b.data.len
      match dir with
      | .enc => b.data.add s
      | .dec => b.data.sub s
    else .ok b.data

end Block

/-- `BlockChain::SaltIterator`, blockchain.h l.30-43, once initialised -/
structure SaltIter where
  first : Bool
  hash : Bytes
  salt : Bytes
deriving DecidableEq, Repr

namespace SaltIter

/-- `init` with a non-null hash object, blockchain.h l.50-68 -/
def init (H : HashFn) (pwhash encSalt : Bytes) : Res SaltIter :=
  if pwhash.len ≠ H.size then .exn .invalidArgument
  else if encSalt.len ≠ H.size then .exn .invalidArgument
  else .ok ⟨true, pwhash, encSalt⟩

/-- the first call replaces its argument by zeros, blockchain.h l.70-77 -/
def seed (H : HashFn) (it : SaltIter) (lastBlockHash : Bytes) : Res Bytes :=
  if it.first then lastBlockHash.setBytes (List.replicate H.size 0) else .ok lastBlockHash

/-- `next`, blockchain.h l.69-95; the default argument is `Bytes(255)` -/
def next (H : HashFn) (it : SaltIter) (lastBlockHash : Bytes := Bytes.empty 255) : Res (Bytes × SaltIter) := do
  let lbh ← it.seed H lastBlockHash
  if lbh.len ≠ H.size then .exn .invalidArgument
  else do
    let hash ← H.hash (← (← it.hash.add it.salt).add lbh)
    let salt ← H.hash (← (← hash.add it.salt).add lbh)
    let out ← H.hash (← hash.add salt)
    .ok (out, ⟨false, hash, salt⟩)

end SaltIter

/-- `class BlockChain`, blockchain.h l.97-101; `result = none`: the pointer has been moved out by `getResult` -/
structure Chain where
  cur : Option Block
  result : Option Bytes
  iter : SaltIter
  height : Nat
deriving DecidableEq, Repr

/-- conversion of a `size_t` to `int`, in `std::min<int>`, blockchain.cpp l.21, l.40, l.63 -/
def toInt32 (n : Nat) : Int := if n % 2 ^ 32 < 2 ^ 31 then ((n % 2 ^ 32 : Nat) : Int) else ((n % 2 ^ 32 : Nat) : Int) - 2 ^ 32

/-- `std::min<int>(free, rest)`, blockchain.cpp l.21, l.40, l.63 -/
def minInt (free rest : Nat) : Int := min (free : Int) (toInt32 rest)

namespace Chain

/-- constructor, blockchain.cpp l.7-12 -/
def new (H : HashFn) (pwhash encSalt : Bytes) : Res Chain := do
  let it ← SaltIter.init H pwhash encSalt
  .ok ⟨none, some (Bytes.empty 0), it, 0⟩

/-- `getFreeSpaceInLastBlock`, blockchain.cpp l.82-88 (`unsigned char`; hash sizes are below 256) -/
def freeSpace (H : HashFn) (c : Chain) : Nat := match c.cur with
  | some b => b.getFreeSpace H % 256
  | none => 0

/-- `addBlock`, blockchain_encrypt.cpp l.5-29 / blockchain_decrypt.cpp l.5-29. The returned `bool` is ignored by all
callers. `chain_height` is not touched. -/
def addBlock (dir : Dir) (H : HashFn) (c : Chain) : Res Chain :=
  if c.freeSpace H ≠ 0 then .ok c
  else match c.cur with
    | some b => do
      let (salt, it) ← c.iter.next H (← b.getHash H)
      let r ← b.getResult dir H
      match c.result with
      | none => .fatal .ub
      | some res => do
        let res ← r.addcopyToBytes res
        let nb ← Block.new H salt
        .ok { c with cur := some nb, result := some res, iter := it }
    | none => do
      let (salt, it) ← c.iter.next H
      let nb ← Block.new H salt
      .ok { c with cur := some nb, iter := it }

/-- `current_block->addData(part)`, blockchain.cpp l.23, l.46, l.65 -/
def curAdd (dir : Dir) (H : HashFn) (c : Chain) (part : Bytes) : Res Chain := match c.cur with
  | none => .fatal .ub
  | some b => do
    let b ← b.addData dir H part
    .ok { c with cur := some b }

/-- `written + std::min<int>(…)` in `u_int64_t` arithmetic, blockchain.cpp l.21: a negative value is converted to
`u_int64_t` first -/
def addMin (written : Nat) (k : Int) : Nat := ((written : Int) + k % 2 ^ 64).toNat % 2 ^ 64

/-- loop of `addData(const Bytes&)`, blockchain.cpp l.18-29 (l.60-71 alike); `fuel` bounds the number of rounds -/
def addLoop (dir : Dir) (H : HashFn) (data : Bytes) : Nat → Nat → Chain → Res Chain
  | 0, _, _ => .fatal .diverge
  | fuel + 1, written, c => do
    let part ← data.copySubBytes written (addMin written (minInt (c.freeSpace H) (data.len - written)))
    let c ← c.curAdd dir H part
    if written + part.len < data.len then do
      let c ← c.addBlock dir H
      addLoop dir H data fuel (written + part.len) c
    else .ok c

/-- `result->addSize(n)` followed by the creation of the first block, blockchain.cpp l.15-16, l.34-35, l.57-58 -/
def start (dir : Dir) (H : HashFn) (c : Chain) (n : Nat) : Res Chain :=
  match c.result with
  | none => .fatal .ub
  | some r =>
    let c := { c with result := some (r.addSize n) }
    match c.cur with
    | none => c.addBlock dir H
    | some _ => .ok c

/-- `addData(const Bytes&)` and `addData(std::unique_ptr<Bytes>&&)`, blockchain.cpp l.14-31 and l.56-73, with an
explicit bound on the number of loop rounds -/
def addDataFuel (dir : Dir) (H : HashFn) (c : Chain) (data : Bytes) (fuel : Nat) : Res Chain := do
  let c ← c.start dir H data.len
  addLoop dir H data fuel 0 c

/-- the same with a bound that is shown to suffice whenever the loop ends at all, blockchain.cpp l.14-31 -/
def addData (dir : Dir) (H : HashFn) (c : Chain) (data : Bytes) : Res Chain :=
  c.addDataFuel dir H data (data.len + 2)

/-- loop of `addData(std::ifstream&&, size_t)`, blockchain.cpp l.37-52 -/
def streamLoop (dir : Dir) (H : HashFn) (len : Nat) : Nat → Nat → IStream → Chain → Res (Chain × IStream)
  | 0, _, _, _ => .fatal .diverge
  | fuel + 1, written, s, c => do
    let part ← Bytes.new (minInt (c.freeSpace H) (len - written))
    let (r, s) ← readData s part part.cap
    match r with
    | none => .exn .runtimeError
    | some part => do
      let c ← c.curAdd dir H part
      if written + part.len < len then do
        let c ← c.addBlock dir H
        streamLoop dir H len fuel (written + part.len) s c
      else .ok (c, s)

/-- `addData(std::ifstream&&, size_t)`, blockchain.cpp l.33-54 -/
def addStream (dir : Dir) (H : HashFn) (c : Chain) (s : IStream) (len : Nat) : Res (Chain × IStream) := do
  let c ← c.start dir H len
  streamLoop dir H len (len + 2) 0 s c

/-- `getResult`, blockchain.cpp l.75-80: dereferences `current_block` and `result` -/
def getResult (dir : Dir) (H : HashFn) (c : Chain) : Res (Bytes × Chain) :=
  match c.cur, c.result with
  | some b, some res => do
    let r ← b.getResult dir H
    let res ← r.addcopyToBytes res
    .ok (res, { c with result := none })
  | _, _ => .fatal .ub

/-- `getHeight`, blockchain.h l.125 -/
def getHeight (c : Chain) : Nat := c.height

/-- `getDataSize`, blockchain.h l.128 (`size_t` arithmetic) -/
def getDataSize (H : HashFn) (c : Chain) : Nat := (c.getHeight * H.size + 2 ^ 64 - c.freeSpace H) % 2 ^ 64

/-- feeding pieces one after the other, repeated calls of blockchain.cpp l.14-31 -/
def addPieces (dir : Dir) (H : HashFn) : Chain → List Bytes → Res Chain
  | c, [] => .ok c
  | c, p :: ps => do
    let c ← c.addData dir H p
    addPieces dir H c ps

end Chain

/-- construct a chain, feed the pieces, fetch the result (the calling sequence of api.cpp l.595-598) -/
def cryptPieces (dir : Dir) (H : HashFn) (pwhash salt : Bytes) (pieces : List Bytes) : Res (List Byte) := do
  let c ← Chain.new H pwhash salt
  let c ← c.addPieces dir H pieces
  let (r, _) ← c.getResult dir H
  .ok r.data

/-- the same with one piece of data from memory, api.cpp l.595-598 -/
def crypt (dir : Dir) (H : HashFn) (pwhash salt : Bytes) (data : List Byte) : Res (List Byte) :=
  cryptPieces dir H pwhash salt [Bytes.full data]

/-- construct a chain, feed it from a file stream, fetch the result (api.cpp l.557-561) -/
def cryptStream (dir : Dir) (H : HashFn) (pwhash salt : Bytes) (s : IStream) (len : Nat) : Res (List Byte) := do
  let c ← Chain.new H pwhash salt
  let (c, _) ← c.addStream dir H s len
  let (r, _) ← c.getResult dir H
  .ok r.data

end Verif
