import Verif.Model.DataHeader
import Verif.Model.Util

/-
Model of the two header parsers, `/repo/src/dataheader.cpp` l.254-1144.

The parsers are sequences of steps that read the next bytes and may return early with an error. `Par σ α` is such a
step on a position of type `σ`: it delivers a value and the new position, or stops the parser with an error code.
-/
namespace Verif

/-- result of a parser step, dataheader.cpp l.254-1144 -/
inductive Step (σ α : Type) where
  | val (a : α) (s : σ)
  | stop (c : ErrorCode)
deriving DecidableEq, Repr

/-- a parser step; C++ exceptions and fatal outcomes are those of `Res`, dataheader.cpp l.254-1144 -/
def Par (σ α : Type) := σ → Res (Step σ α)

namespace Par
variable {σ α β : Type}

/-- a step that reads nothing; one of the connectives for dataheader.cpp l.254-1144 -/
protected def pure (a : α) : Par σ α := fun s => .ok (.val a s)

/-- one step after the other (early returns stop the parser), dataheader.cpp l.254-1144 -/
protected def bind (p : Par σ α) (f : α → Par σ β) : Par σ β := fun s =>
  match p s with
  | .ok (.val a s) => f a s
  | .ok (.stop c) => .ok (.stop c)
  | .exn e => .exn e
  | .fatal f => .fatal f

/-- sequences of steps (`do` notation), dataheader.cpp l.254-1144 -/
instance : Monad (Par σ) where
  pure := Par.pure
  bind := Par.bind

/-- `return err` with code `c`, for example dataheader.cpp l.271-278 -/
def fail (c : ErrorCode) : Par σ α := fun _ => .ok (.stop c)

/-- code that does not read, in dataheader.cpp l.254-1144 -/
def lift (x : Res α) : Par σ α := fun s =>
  match x with
  | .ok a => .ok (.val a s)
  | .exn e => .exn e
  | .fatal f => .fatal f

/-- `try { x } catch …` where exception `e` makes the function return the error `h e`; `none` = not caught, for example dataheader.cpp l.436-448 -/
def onExn (x : Par σ α) (h : Exn → Option ErrorCode) : Par σ α := fun s =>
  match x s with
  | .ok r => .ok r
  | .exn e => match h e with
    | some c => .ok (.stop c)
    | none => .exn e
  | .fatal f => .fatal f

end Par

/-- `catch (const std::invalid_argument&)` returning error `c`, dataheader.cpp l.314, l.326, l.360 and alike -/
def catchInvalid (c : ErrorCode) : Exn → Option ErrorCode
  | .invalidArgument => some c
  | _ => none

/-- `catch (const std::exception&)` returning `ERR`, dataheader.cpp l.555, l.568, l.615 and alike -/
def catchAll : Exn → Option ErrorCode
  | .pointer => none
  | _ => some .ERR

/-- `catch (invalid_argument)` returning `c`, then `catch (std::exception)` returning `ERR`; dataheader.cpp l.437-448, l.460-472 and alike -/
def catchInvalidAll (c : ErrorCode) : Exn → Option ErrorCode
  | .invalidArgument => some c
  | .pointer => none
  | _ => some .ERR

/-- an `int` passed as `unsigned int`, dataheader.cpp, arguments of `readData` in l.624-1144 -/
def toU32 (i : Int) : Nat := (i % 2 ^ 32).toNat

namespace HeaderParse

/-! ### parser for streams, dataheader.cpp l.624-1144

`rd cap n` stands for `readData(file, x, n)` with an empty buffer `x` of capacity `cap`, failing with
`ERR_NOT_ENOUGH_DATA` when it returns false. -/

section stream
variable {σ : Type} (rd : (cap n : Nat) → Par σ (List Byte))

/-- reading one byte: `readData(file, &x, 1)`; dataheader.cpp l.624-1144 -/
def rdByte : Par σ Byte := do
  match ← rd 1 1 with
  | x :: _ => pure x
  | [] => Par.lift (.fatal .ub)   -- reading an uninitialised variable

/-- reading an 8-byte number into `tmp` (capacity 8), then `toLong`; dataheader.cpp l.624-1144 -/
def rdLong : Par σ UInt64 := do
  let l ← rd 8 8
  Par.lift (Bytes.toLong ⟨l, 8⟩)

/-- data blocks, dataheader.cpp l.728-757. The constructor of `DataBlock` and `addDataBlock` are called outside any `try`. -/
def rdBlocks : Nat → DataHeader → Par σ DataHeader
  | 0, d => pure d
  | k + 1, d => do
    let type ← rdByte rd
    let len ← rdByte rd
    let data ← rd len.toNat len.toNat
    let d ← Par.lift (do d.addDataBlock (← DataBlock.make type ⟨data, len.toNat⟩))
    rdBlocks k d

/-- loop over the parts of a chain-hash data block, dataheader.cpp l.814-875 and l.955-1016; `dataLen` = bytes read so far.
The variable `copied` tested in the handler is not the one set in the `try` block (l.812 and l.816), so a
`length_error` of `addBytes` is also reported as `ERR_NOT_ENOUGH_DATA`. -/
def rdParts (dblen : Nat) : List NameLen → ChainHashData → (dataLen : Nat) → Par σ (ChainHashData × Nat)
  | [], c, n => pure (c, n)
  | nl :: rest, c, n =>
    let handler : Exn → Option ErrorCode
      | .lengthError => some .ERR_NOT_ENOUGH_DATA
      | .invalidArgument => some .ERR_CHAINHASH_DATAPART_INVALID
      | .logicError => some .ERR_CHAINHASH_DATABLOCK_ALREADY_COMPLETED
      | .runtimeError => some .ERR
      | .pointer => none
    if nl.len ≠ 0 then do
      let l ← rd 255 nl.len
      let c ← Par.onExn (Par.lift (c.addBytes ⟨l, 255⟩)) handler
      rdParts dblen rest c (n + nl.len)
    else do
      let l ← rd 255 (toU32 ((dblen : Int) - n))
      let c ← Par.onExn (Par.lift (c.addBytes ⟨l, 255⟩)) handler
      pure (c, dblen)

/-- one chain hash without setting it, dataheader.cpp l.759-877 and l.898-1018 -/
def rdChainHash : Par σ ChainHash := do
  let mode ← rdByte rd
  match CHMode.ofByte mode with
  | none => Par.fail .ERR_CHAINHASHMODE_FORMAT_INVALID
  | some m => do
    let iters ← rdLong rd
    let dblen ← rdByte rd
    let (c, n) ← rdParts rd dblen.toNat m.nameLens (ChainHashData.new m) 0
    Par.lift (Res.assert (c.getLen == dblen.toNat))
    Par.lift (Res.assert (n == dblen.toNat))
    pure (ChainHash.make m iters (some c))

/-- encrypted data blocks, dataheader.cpp l.1101-1130 -/
def rdEncBlocks : Nat → DataHeader → Par σ DataHeader
  | 0, d => pure d
  | k + 1, d => do
    let type ← rdByte rd
    let len ← rdByte rd
    let data ← rd 255 255
    let d ← Par.lift (do d.addEncDataBlock (← EncDataBlock.createEncBlock type ⟨data, 255⟩ len))
    rdEncBlocks k d

/-- everything between the length fields and the last assertions, dataheader.cpp l.674-1140 -/
def rdContent (hs : Hashes) (r : Rand) (fileSize : UInt64) : Par σ DataHeader := do
  let fmode ← rdByte rd
  let hmode ← rdByte rd
  let d ← Par.onExn (Par.lift (DataHeader.new hmode r)) (catchInvalid .ERR_HASHMODE_INVALID)
  let d ← Par.onExn (Par.lift (d.setFileDataMode fmode)) (catchInvalid .ERR_FILEMODE_INVALID)
  let count ← rdByte rd
  let d ← rdBlocks rd count.toNat d
  let c1 ← rdChainHash rd
  let d ← Par.onExn (Par.lift (d.setChainHash1 c1)) (catchInvalidAll .ERR_CHAINHASH1_INVALID)
  let c2 ← rdChainHash rd
  let d ← Par.onExn (Par.lift (d.setChainHash2 c2)) (catchInvalidAll .ERR_CHAINHASH2_INVALID)
  let v ← rd d.hashSize d.hashSize
  let d ← Par.onExn (Par.lift (d.setValidPasswordHashBytes ⟨v, d.hashSize⟩)) catchAll
  let s ← rd d.hashSize d.hashSize
  let d ← Par.onExn (Par.lift (d.setEncSalt ⟨s, d.hashSize⟩)) catchAll
  let d ← Par.onExn (Par.lift (d.setFileSize fileSize)) (catchInvalid .ERR_FILESIZE_INVALID)
  let ecount ← rdByte rd
  let d ← rdEncBlocks rd ecount.toNat d
  Par.onExn (Par.lift (d.calcHeaderBytes! hs (Bytes.empty 0) fun _ => 0)) catchAll

/-- the whole parser, dataheader.cpp l.624-1144. `remaining s` is the number of bytes from a position to the end of the stream
(`tellg`, `seekg`). -/
def rdHeader (remaining : σ → Nat) (hs : Hashes) (r : Rand) : Par σ DataHeader := fun start =>
  (do
    let fileSize ← rdLong rd
    let headerSize ← rdLong rd
    if remaining start ≠ fileSize.toNat then Par.fail .ERR_FILESIZE_INVALID
    else if headerSize > fileSize then Par.fail .ERR_HEADERSIZE_FILESIZE_MISMATCH
    else do
      let d ← rdContent rd hs r fileSize
      fun s => Par.lift (do
        let l ← d.getHeaderLength
        Res.assert (remaining start - remaining s == l)
        Res.assert (l == headerSize.toNat)
        .ok d) s : Par σ DataHeader) start

end stream

/-- reading from the stream of `Verif/Model/Util.lean`, `readData`, utility.cpp l.81-103, as called in dataheader.cpp l.624-1144 -/
def rdStream (cap n : Nat) : Par IStream (List Byte) := fun s =>
  match readData s (Bytes.empty cap) n with
  | .ok (some b, s) => .ok (.val b.data s)
  | .ok (none, _) => .ok (.stop .ERR_NOT_ENOUGH_DATA)
  | .exn e => .exn e
  | .fatal f => .fatal f

/-- `setHeaderBytes(std::ifstream&)` (noexcept), dataheader.cpp l.624-1144, on a stream at its start position; the
stream is returned for the position reached. -/
def setHeaderStream (hs : Hashes) (r : Rand) (s : IStream) : Res (Step IStream DataHeader) :=
  Res.noexcept (rdHeader rdStream (fun s => s.rest.length) hs r s)

/-! ### parser for bytes in memory, dataheader.cpp l.254-622

The position is `index`, a `u_int16_t`. -/

section memory
variable (file : Bytes)

/-- `copySubBytes(index, index + n); index += n`; dataheader.cpp l.254-622 -/
def cp (n : Nat) : Par Nat (List Byte) := fun i =>
  match file.copySubBytes i (i + n) with
  | .ok b => .ok (.val b.data ((i + n) % 2 ^ 16))
  | .exn e => .exn e
  | .fatal f => .fatal f

/-- `copySubBytes(index, index + 1).getBytes()[0]; index += 1`; dataheader.cpp l.254-622 -/
def cpByte : Par Nat Byte := do
  match ← cp file 1 with
  | x :: _ => pure x
  | [] => Par.lift (.fatal .ub)

/-- `copySubBytes(index, index + 8).toLong(); index += 8`; dataheader.cpp l.254-622 -/
def cpLong : Par Nat UInt64 := do
  let l ← cp file 8
  Par.lift (Bytes.toLong ⟨l, 8⟩)

/-- data blocks, dataheader.cpp l.338-350 -/
def cpBlocks : Nat → DataHeader → Par Nat DataHeader
  | 0, d => pure d
  | k + 1, d => do
    let type ← cpByte file
    let len ← cpByte file
    let data ← cp file len.toNat
    let d ← Par.lift (do d.addDataBlock (← DataBlock.make type ⟨data, len.toNat⟩))
    cpBlocks k d

/-- `copySubBytes(index, index + (dblen - data_len))`: the end is an `int` converted to `size_t`; `index` stays,
dataheader.cpp l.394-398 and l.493-497 -/
def cpStar (dblen dataLen : Nat) : Par Nat (List Byte) := fun i =>
  let stop : Int := (i : Int) + ((dblen : Int) - dataLen)
  match file.copySubBytes i (stop % 2 ^ 64).toNat with
  | .ok b => .ok (.val b.data i)
  | .exn e => .exn e
  | .fatal f => .fatal f

/-- loop over the parts of a chain-hash data block, dataheader.cpp l.383-431 and l.482-530 -/
def cpParts (dblen : Nat) : List NameLen → ChainHashData → (dataLen : Nat) → Par Nat (ChainHashData × Nat)
  | [], c, n => pure (c, n)
  | nl :: rest, c, n =>
    let handler : Exn → Option ErrorCode
      | .lengthError => some .ERR_CHAINHASH_DATABLOCK_OUTOFRANGE
      | .invalidArgument => some .ERR_CHAINHASH_DATAPART_INVALID
      | .logicError => some .ERR_CHAINHASH_DATABLOCK_ALREADY_COMPLETED
      | .runtimeError => some .ERR
      | .pointer => none
    if nl.len ≠ 0 then do
      let l ← Par.onExn (cp file nl.len) handler
      let c ← Par.onExn (Par.lift (c.addBytes ⟨l, nl.len⟩)) handler
      cpParts dblen rest c (n + nl.len)
    else do
      let l ← Par.onExn (cpStar file dblen n) handler
      let c ← Par.onExn (Par.lift (c.addBytes ⟨l, l.length⟩)) handler
      pure (c, dblen)

/-- one chain hash without setting it, dataheader.cpp l.352-433 and l.452-532 -/
def cpChainHash : Par Nat ChainHash := do
  let mode ← Par.onExn (cpByte file) (catchInvalidAll .ERR_CHAINHASHMODE_FORMAT_INVALID)
  match CHMode.ofByte mode with
  | none => Par.fail .ERR_CHAINHASHMODE_FORMAT_INVALID
  | some m => do
    let iters ← cpLong file
    let dblen ← cpByte file
    let (c, n) ← cpParts file dblen.toNat m.nameLens (ChainHashData.new m) 0
    Par.lift (Res.assert (c.getLen == dblen.toNat))
    Par.lift (Res.assert (n == dblen.toNat))
    pure (ChainHash.make m iters (some c))

/-- encrypted data blocks, dataheader.cpp l.578-592 -/
def cpEncBlocks : Nat → DataHeader → Par Nat DataHeader
  | 0, d => pure d
  | k + 1, d => do
    let type ← cpByte file
    let len ← cpByte file
    let data ← cp file 255
    let d ← Par.lift (do d.addEncDataBlock (← EncDataBlock.createEncBlock type ⟨data, 255⟩ len))
    cpEncBlocks k d

/-- everything between the length fields and the last assertions, dataheader.cpp l.303-611 -/
def cpContent (hs : Hashes) (r : Rand) (fileSize : UInt64) : Par Nat DataHeader := do
  let fmode ← cpByte file
  let hmode ← cpByte file
  let d ← Par.onExn (Par.lift (DataHeader.new hmode r)) (catchInvalid .ERR_HASHMODE_INVALID)
  let d ← Par.onExn (Par.lift (d.setFileDataMode fmode)) (catchInvalid .ERR_FILEMODE_INVALID)
  let count ← cpByte file
  let d ← cpBlocks file count.toNat d
  let c1 ← cpChainHash file
  let d ← Par.onExn (Par.lift (d.setChainHash1 c1)) (catchInvalidAll .ERR_CHAINHASH1_INVALID)
  let c2 ← cpChainHash file
  let d ← Par.onExn (Par.lift (d.setChainHash2 c2)) (catchInvalidAll .ERR_CHAINHASH2_INVALID)
  let v ← Par.onExn (cp file d.hashSize) catchAll
  let d ← Par.onExn (Par.lift (d.setValidPasswordHashBytes ⟨v, d.hashSize⟩)) catchAll
  let s ← Par.onExn (cp file d.hashSize) catchAll
  let d ← Par.onExn (Par.lift (d.setEncSalt ⟨s, d.hashSize⟩)) catchAll
  let ecount ← cpByte file
  let d ← cpEncBlocks file ecount.toNat d
  let d ← Par.onExn (Par.lift (d.setFileSize fileSize)) (catchInvalid .ERR_FILESIZE_INVALID)
  Par.onExn (Par.lift (d.calcHeaderBytes! hs (Bytes.empty 0) fun _ => 0)) catchAll

/-- `catch (const std::length_error&)` returning `ERR_NOT_ENOUGH_DATA`, dataheader.cpp l.271-278 and l.284-291 -/
def catchLength : Exn → Option ErrorCode
  | .lengthError => some .ERR_NOT_ENOUGH_DATA
  | _ => none

/-- the body of the outer `try`, dataheader.cpp l.267-614 -/
def cpHeader (hs : Hashes) (r : Rand) : Par Nat DataHeader := do
  let fileSize ← Par.onExn (cpLong file) catchLength
  let headerSize ← Par.onExn (cpLong file) catchLength
  if headerSize.toNat > file.len then Par.fail .ERR_NOT_ENOUGH_DATA
  else do
    let d ← cpContent file hs r fileSize
    fun i => Par.lift (do
      Res.assert (i == headerSize.toNat)
      let l ← d.getHeaderLength
      Res.assert (l == headerSize.toNat)
      .ok d) i

/-- `setHeaderBytes(Bytes&)` (noexcept), dataheader.cpp l.254-622 -/
def setHeaderMem (hs : Hashes) (r : Rand) : Res (Step Nat DataHeader) :=
  Res.noexcept (Par.onExn (cpHeader file hs r) catchAll 0)

end memory
end HeaderParse
end Verif
