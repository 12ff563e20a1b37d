import Verif.Model.ChainHash

/-
Model of `/repo/include/dataheader.h` and `/repo/src/dataheader.cpp` l.1-252 and l.1146-1174 (the parsers are in
`Verif/Model/HeaderParse.lean`, the settings structs in `Verif/Model/Settings.lean`).
Enumerations without fixed underlying type that are converted from a byte (`DatablockType(type)`) are modelled as that
byte, which is what GCC does; formally values outside the range of the enumeration are undefined.
-/
namespace Verif

/-- `struct DataBlock`, dataheader.h l.12-39 -/
structure DataBlock where
  type : Byte
  data : Bytes
deriving DecidableEq, Repr

namespace DataBlock

/-- default constructor, dataheader.h l.14-18: type `DEFAULT`, no data -/
def default : DataBlock := ⟨0, Bytes.empty 0⟩

/-- `setData`, dataheader.h l.26-34 -/
def setData (d : DataBlock) (b : Bytes) : Res DataBlock :=
  if b.len > 0 ∧ b.len ≤ 255 then .ok { d with data := b } else .exn .invalidArgument

/-- constructor, dataheader.h l.20-24 -/
def make (type : Byte) (b : Bytes) : Res DataBlock := setData { default with type := type } b

end DataBlock

/-- `struct EncDataBlock`, dataheader.h l.41-45 -/
structure EncDataBlock where
  block : DataBlock
  encLen : Byte
deriving DecidableEq, Repr

namespace EncDataBlock

/-- `createEncBlock`, dataheader.h l.48-59 -/
def createEncBlock (type : Byte) (data : Bytes) (encLen : Byte) : Res EncDataBlock :=
  if data.len ≠ 255 then .exn .invalidArgument
  else do
    let b ← ({ DataBlock.default with type := type } : DataBlock).setData data
    .ok ⟨b, encLen⟩

/-- `(unsigned char)x.copySubBytes(i, i+1).toLong()` as used in dataheader.h l.64-65, 90, 112 -/
def byteAt (b : Bytes) (i : Nat) : Res Byte := do
  let l ← (← b.copySubBytes i (i + 1)).toLong
  .ok (UInt8.ofNat l.toNat)

/-- encryption loop, dataheader.h l.69-75; `fuel` bounds the rounds, running out means the loop does not end.
`written`/`end` are `u_int16_t`. -/
def encLoop (H : HashFn) (data pwhash : Bytes) : Nat → (salt enc : Bytes) → (written : Nat) → Res Bytes
  | 0, _, _, _ => .fatal .diverge
  | fuel + 1, salt, enc, written =>
    if enc.len ≠ data.len then do
      let salt ← H.hash (← salt.sub pwhash)
      let stop := min (written + salt.len) data.len % 2 ^ 16
      let a ← data.copySubBytes written stop
      let b ← salt.copySubBytes 0 (stop - written)
      let x ← a.add b
      let enc ← x.addcopyToBytes enc
      encLoop H data pwhash fuel salt enc stop
    else .ok enc

/-- constructor from a plain block, dataheader.h l.61-80. The type computed in l.64 is overwritten by l.79. The data
size is at most 255, so 256 rounds are always enough. -/
def make (d : DataBlock) (H : HashFn) (pwhash salt : Bytes) (r : Rand) : Res EncDataBlock := do
  let pwhash ← H.hash pwhash
  let _ ← byteAt pwhash 0
  let k ← byteAt pwhash 1
  let encLen := UInt8.ofNat d.data.len + k
  let enc ← encLoop H d.data pwhash 257 salt (Bytes.empty 255) 0
  let enc := enc.addSize (255 - enc.len)
  let enc ← enc.fillrandom r
  let d ← d.setData enc
  .ok ⟨d, encLen⟩

/-- `getEnc`, dataheader.h l.82-85 -/
def getEnc (e : EncDataBlock) : Bytes := e.block.data

/-- decryption loop, dataheader.h l.94-100 -/
def decLoop (H : HashFn) (data pwhash : Bytes) (len : Nat) : Nat → (salt dec : Bytes) → (written : Nat) → Res Bytes
  | 0, _, _, _ => .fatal .diverge
  | fuel + 1, salt, dec, written =>
    if dec.len < len then do
      let salt ← H.hash (← salt.sub pwhash)
      let stop := min (written + salt.len) len % 2 ^ 16
      let a ← data.copySubBytes written stop
      let b ← salt.copySubBytes 0 (stop - written)
      let x ← a.sub b
      let dec ← x.addcopyToBytes dec
      decLoop H data pwhash len fuel salt dec stop
    else .ok dec

/-- `getDec` (noexcept), dataheader.h l.87-102 -/
def getDec (e : EncDataBlock) (H : HashFn) (pwhash salt : Bytes) : Res Bytes := Res.noexcept do
  let pwhash ← H.hash pwhash
  let k ← byteAt pwhash 1
  let len := (e.encLen - k).toNat
  decLoop H e.block.data pwhash len 257 salt (Bytes.empty len) 0

/-- `getEncType`, dataheader.h l.104-107 -/
def getEncType (e : EncDataBlock) : Byte := e.block.type

/-- `getDecType` (noexcept), dataheader.h l.109-113 -/
def getDecType (e : EncDataBlock) (H : HashFn) (pwhash : Bytes) : Res Byte := Res.noexcept do
  let pwhash ← H.hash pwhash
  let k ← byteAt pwhash 0
  .ok (e.block.type - k)

/-- `getEncLen`, dataheader.h l.115-118 -/
def getEncLen (e : EncDataBlock) : Byte := e.encLen

end EncDataBlock

/-- `MAX_FILEMODE_NUMBER`, /repo/include/settings.h l.16; `FileModes::isModeValid`, /repo/src/file_modes.cpp l.28-31: modes 1..1 -/
def fileModeValid (m : Byte) : Bool := m > 0 && m ≤ 1

/-- `struct DataHeaderParts`, dataheader.h l.121-134. `hash_size` is a function of the hash mode (set together, l.205-215)
and read only when a hash mode is set. -/
structure DataHeaderParts where
  fileMode : Option Byte
  hashMode : Option HMode
  validator : Option Bytes
  encSalt : Option Bytes
  dec : List DataBlock
  enc : List EncDataBlock
  ch1 : ChainHash
  ch2 : ChainHash
deriving DecidableEq, Repr

namespace DataHeaderParts

/-- a new object, dataheader.h l.124-133 -/
def empty : DataHeaderParts := ⟨none, none, none, none, [], [], ChainHash.default, ChainHash.default⟩

/-- the getters dataheader.h l.151-195: `runtime_error` when the value is not set -/
def get {α : Type} : Option α → Res α
  | some a => .ok a
  | none => .exn .runtimeError

/-- `getHashSize`, dataheader.h l.187-195 -/
def getHashSize (p : DataHeaderParts) : Res Nat := do
  let m ← get p.hashMode
  .ok m.size

/-- `setFileDataMode`, dataheader.h l.196-204 -/
def setFileDataMode (p : DataHeaderParts) (m : Byte) : Res DataHeaderParts :=
  if fileModeValid m then .ok { p with fileMode := some m } else .exn .invalidArgument

/-- `setHashMode`, dataheader.h l.205-214 -/
def setHashMode (p : DataHeaderParts) (m : Byte) : Res DataHeaderParts :=
  match HMode.ofByte m with
  | some m => .ok { p with hashMode := some m }
  | none => .exn .invalidArgument

/-- `setValidPasswordHash`, dataheader.h l.215-223 -/
def setValidPasswordHash (p : DataHeaderParts) (b : Bytes) : Res DataHeaderParts := do
  let n ← p.getHashSize
  if n = b.len then .ok { p with validator := some b } else .exn .invalidArgument

/-- `setEncSalt`, dataheader.h l.224-232 -/
def setEncSalt (p : DataHeaderParts) (b : Bytes) : Res DataHeaderParts := do
  let n ← p.getHashSize
  if n = b.len then .ok { p with encSalt := some b } else .exn .invalidArgument

/-- `isComplete` (noexcept), dataheader.h l.234-246; `getHashSize` is evaluated only when a hash mode is set -/
def isComplete (p : DataHeaderParts) (hashSize : Nat) : Bool :=
  p.ch1.val && p.ch2.val && p.validator.isSome && p.fileMode.isSome &&
    (match p.hashMode with
      | some m => m.size == hashSize
      | none => false) && p.encSalt.isSome

end DataHeaderParts

/-- `class DataHeader`, dataheader.h l.607-620 -/
structure DataHeader where
  dh : DataHeaderParts
  hashSize : Nat
  headerBytes : Bytes
  fileSize : Option UInt64
  blocksLen : Nat
deriving DecidableEq, Repr

namespace DataHeader

/-- constructor, dataheader.cpp l.10-20 -/
def new (mode : Byte) (r : Rand) : Res DataHeader := do
  let p ← DataHeaderParts.empty.setHashMode mode
  let n ← p.getHashSize
  let salt ← (Bytes.empty n).fillrandom r
  let p ← p.setEncSalt salt
  .ok ⟨p, n, Bytes.empty 0, none, 0⟩

/-- `isComplete`, dataheader.cpp l.22-26 -/
def isComplete (d : DataHeader) : Bool := d.dh.isComplete d.hashSize

/-- `getHeaderLength` (noexcept, 32-bit unsigned), dataheader.cpp l.28-34 -/
def getHeaderLength (d : DataHeader) : Res Nat := Res.noexcept <|
  if d.dh.ch1.val && d.dh.ch2.val then do
    let a ← d.dh.ch1.getData
    let b ← d.dh.ch2.getData
    .ok ((40 + 2 * d.hashSize + d.blocksLen + a.getLen + b.getLen) % 2 ^ 32)
  else if d.headerBytes.len > 0 then .ok (d.headerBytes.len % 2 ^ 32)
  else .ok 0

/-- `this->header_bytes.setLen(0)`, dataheader.cpp l.50, l.62 and alike -/
def clear (d : DataHeader) : DataHeader := { d with headerBytes := ⟨[], d.headerBytes.cap⟩ }

/-- `setChainHash1`, dataheader.cpp l.41-51 -/
def setChainHash1 (d : DataHeader) (c : ChainHash) : Res DataHeader :=
  if !c.val then .exn .invalidArgument
  else do
    let c ← c.assign
    .ok (clear { d with dh := { d.dh with ch1 := c } })

/-- `setChainHash2`, dataheader.cpp l.53-63 -/
def setChainHash2 (d : DataHeader) (c : ChainHash) : Res DataHeader :=
  if !c.val then .exn .invalidArgument
  else do
    let c ← c.assign
    .ok (clear { d with dh := { d.dh with ch2 := c } })

/-- `setFileDataMode`, dataheader.cpp l.65-70 -/
def setFileDataMode (d : DataHeader) (m : Byte) : Res DataHeader := do
  let p ← d.dh.setFileDataMode m
  .ok (clear { d with dh := p })

/-- `setValidPasswordHashBytes`, dataheader.cpp l.72-77 -/
def setValidPasswordHashBytes (d : DataHeader) (b : Bytes) : Res DataHeader := do
  let p ← d.dh.setValidPasswordHash b
  .ok (clear { d with dh := p })

/-- `clearDataBlocks`, dataheader.cpp l.79-85 -/
def clearDataBlocks (d : DataHeader) : DataHeader :=
  clear { d with blocksLen := 0, dh := { d.dh with dec := [], enc := [] } }

/-- `addDataBlock`, dataheader.cpp l.87-97 (`datablocks_len` is 32 bits wide) -/
def addDataBlock (d : DataHeader) (b : DataBlock) : Res DataHeader :=
  if d.dh.dec.length ≥ 255 then .exn .lengthError
  else .ok (clear { d with blocksLen := (d.blocksLen + (2 + b.data.len)) % 2 ^ 32,
                           dh := { d.dh with dec := d.dh.dec ++ [b] } })

/-- `addEncDataBlock`, dataheader.cpp l.99-110 -/
def addEncDataBlock (d : DataHeader) (b : EncDataBlock) : Res DataHeader :=
  if d.dh.enc.length ≥ 255 then .exn .lengthError
  else .ok (clear { d with blocksLen := (d.blocksLen + (2 + b.getEnc.len)) % 2 ^ 32,
                           dh := { d.dh with enc := d.dh.enc ++ [b] } })

/-- `setFileSize`, dataheader.cpp l.112-127 -/
def setFileSize (d : DataHeader) (n : UInt64) : Res DataHeader :=
  if !d.isComplete then .exn .logicError
  else do
    let l ← d.getHeaderLength
    if n.toNat < l then .exn .invalidArgument
    else .ok { d.clear with fileSize := some n }

/-- `setDataSize(const u_int32_t)`, dataheader.cpp l.129-139: the sum of two 32-bit numbers is taken in 32 bits -/
def setDataSize (d : DataHeader) (n : UInt32) : Res DataHeader :=
  if !d.isComplete then .exn .logicError
  else do
    let l ← d.clear.getHeaderLength
    .ok { d.clear with fileSize := some (UInt64.ofNat ((n.toNat + l) % 2 ^ 32)) }

/-- private `setEncSalt`, dataheader.cpp l.143-148 -/
def setEncSalt (d : DataHeader) (b : Bytes) : Res DataHeader := do
  let p ← d.dh.setEncSalt b
  .ok (clear { d with dh := p })

/-- `getHeaderBytes`, dataheader.cpp l.150-164 -/
def getHeaderBytes (d : DataHeader) : Res Bytes := do
  let l ← d.getHeaderLength
  if l = 0 then .exn .logicError
  else if l ≠ d.headerBytes.len then .exn .logicError
  else .ok d.headerBytes

/-- `ErrorStruct::returnValue` on a freshly returned result, error.h l.99-119 -/
def returnValue {α : Type} : Out α → Res α
  | .success a => .ok a
  | _ => .exn .logicError

/-- first checks of `calcHeaderBytes`, dataheader.cpp l.169-184 -/
def calcChecks (d : DataHeader) : Res Unit :=
  if !d.isComplete then .exn .logicError
  else match d.fileSize with
    | none => .exn .logicError
    | some n => do
      let l ← d.getHeaderLength
      if n.toNat < l then .exn .invalidArgument else .ok ()

/-- password hash check of `calcHeaderBytes`, dataheader.cpp l.185-196 -/
def calcVerify (hs : Hashes) (d : DataHeader) (pwhash : Bytes) (clk : Nat → Nat) : Res Unit :=
  if pwhash.isEmpty then .ok ()
  else do
    let m ← DataHeaderParts.get d.dh.hashMode
    let v ← DataHeaderParts.get d.dh.validator
    let o ← ChainHashModes.performBytes d.dh.ch2 (hs.get m) pwhash 0 clk
    let x ← returnValue o
    if v.beq x then .ok () else .exn .invalidArgument

/-- writing the data blocks, dataheader.cpp l.209-214 -/
def writeBlocks : List DataBlock → Bytes → Res Bytes
  | [], b => .ok b
  | x :: xs, b => do
    let b ← b.addByte x.type
    let b ← b.addByte (UInt8.ofNat x.data.len)
    let b ← x.data.addcopyToBytes b
    writeBlocks xs b

/-- writing a chain hash, dataheader.cpp l.215-218 and l.219-222 -/
def writeChainHash (c : ChainHash) (b : Bytes) : Res Bytes := do
  let b ← b.addByte (← c.getMode).toByte
  let b ← (← Bytes.fromLong (← c.getIters) true).addcopyToBytes b
  let b ← b.addByte (UInt8.ofNat (← c.getData).getLen)
  (← (← c.getData).getDataBlock).addcopyToBytes b

/-- writing the encrypted data blocks, dataheader.cpp l.226-231 -/
def writeEncBlocks : List EncDataBlock → Bytes → Res Bytes
  | [], b => .ok b
  | x :: xs, b => do
    let b ← b.addByte x.getEncType
    let b ← b.addByte x.getEncLen
    let b ← x.getEnc.addcopyToBytes b
    writeEncBlocks xs b

/-- the `try` block of `calcHeaderBytes`, dataheader.cpp l.201-231 -/
def writeAll (d : DataHeader) (fileSize : UInt64) (len : Nat) : Res Bytes := do
  let b := Bytes.empty len
  let b ← (← Bytes.fromLong fileSize true).addcopyToBytes b
  let b ← (← Bytes.fromLong (UInt64.ofNat len) true).addcopyToBytes b
  let b ← b.addByte (← DataHeaderParts.get d.dh.fileMode)
  let b ← b.addByte (← DataHeaderParts.get d.dh.hashMode).toByte
  let b ← b.addByte (UInt8.ofNat d.dh.dec.length)
  let b ← writeBlocks d.dh.dec b
  let b ← writeChainHash d.dh.ch1 b
  let b ← writeChainHash d.dh.ch2 b
  let b ← (← DataHeaderParts.get d.dh.validator).addcopyToBytes b
  let b ← (← DataHeaderParts.get d.dh.encSalt).addcopyToBytes b
  let b ← b.addByte (UInt8.ofNat d.dh.enc.length)
  writeEncBlocks d.dh.enc b

/-- computing the new header bytes, dataheader.cpp l.197-240; `d` has its header bytes cleared. -/
def calcBytes (d : DataHeader) : Res Bytes := do
  let len ← d.getHeaderLength
  match d.fileSize with
  | none => .exn .logicError
  | some n =>
    let b ← match d.writeAll n len with
      | .exn .lengthError => .exn .logicError
      | x => x
    if b.len ≠ len then .exn .logicError else .ok b

/-- `calcHeaderBytes`, dataheader.cpp l.166-242: outcome and the object afterwards (an exception after l.198 leaves the
header bytes cleared). The chain hash runs without timeout; `clk` is the clock it reads. -/
def calcHeaderBytes (hs : Hashes) (d : DataHeader) (pwhash : Bytes) (clk : Nat → Nat) : Res Unit × DataHeader :=
  match (do d.calcChecks; d.calcVerify hs pwhash clk : Res Unit) with
  | .ok () =>
    match d.clear.calcBytes with
    | .ok b => (.ok (), { d with headerBytes := b })
    | .exn e => (.exn e, d.clear)
    | .fatal f => (.fatal f, d.clear)
  | .exn e => (.exn e, d)
  | .fatal f => (.fatal f, d)

/-- `calcHeaderBytes` as a step that must succeed, dataheader.cpp l.166-242 -/
def calcHeaderBytes! (hs : Hashes) (d : DataHeader) (pwhash : Bytes) (clk : Nat → Nat) : Res DataHeader := do
  (d.calcHeaderBytes hs pwhash clk).1
  .ok (d.calcHeaderBytes hs pwhash clk).2

/-- `getDataHeaderParts`, dataheader.cpp l.244-252 -/
def getDataHeaderParts (d : DataHeader) : Res DataHeaderParts := if !d.isComplete then .exn .logicError else .ok d.dh

/-- adding blocks one after the other, `addDataBlock`, dataheader.cpp l.87-97 -/
def addBlocks : List DataBlock → DataHeader → Res DataHeader
  | [], d => .ok d
  | b :: bs, d => do addBlocks bs (← d.addDataBlock b)

/-- adding encrypted blocks one after the other, `addEncDataBlock`, dataheader.cpp l.99-110 -/
def addEncBlocks : List EncDataBlock → DataHeader → Res DataHeader
  | [], d => .ok d
  | b :: bs, d => do addEncBlocks bs (← d.addEncDataBlock b)

/-- `setHeaderParts` (noexcept), dataheader.cpp l.1146-1174. `r` is the random source of the constructor. -/
def setHeaderParts (p : DataHeaderParts) (r : Rand) : Res (Out DataHeader) := Res.noexcept <|
  Res.catchStd (do
    let d ← DataHeader.new (← DataHeaderParts.get p.hashMode).toByte r
    let d ← d.setFileDataMode (← DataHeaderParts.get p.fileMode)
    let d ← d.setChainHash1 p.ch1
    let d ← d.setChainHash2 p.ch2
    let d ← d.setValidPasswordHashBytes (← DataHeaderParts.get p.validator)
    let d ← d.setEncSalt (← DataHeaderParts.get p.encSalt)
    let d ← addBlocks p.dec d
    let d ← addEncBlocks p.enc d
    .ok (.success d))
    fun _ => .ok (.fail .ERR)

end DataHeader
end Verif
