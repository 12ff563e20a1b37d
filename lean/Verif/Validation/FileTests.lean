import Verif.Validation.UnitTests
import Verif.Model.Handler
import Verif.Props.FileSys

set_option linter.unusedVariables false

/-
The tests of /repo/tests/filehandler_unittest.cpp and the test `datablocks` of /repo/tests/dataheader_unittest.cpp, carried
over to the model like those in UnitTests. Each loop of ten random cases is one case here. The random lengths of data blocks are
at most 16 instead of 255, so that the kernel can run them.
-/
namespace Verif.Validation

open Verif.Props (openEnv)

/-- `len` random bytes, `Bytes::fillrandom`, /repo/src/bytes.cpp l.122-126 -/
def bytes (k len : Nat) : List Byte := (List.range len).map (rnd k).byte

/-- the decrypted data blocks of a generated header, /repo/tests/dataheader_generator.h l.45-53 -/
def genBlocks (num : Nat) : List Byte :=
  (List.range num).flatMap fun i =>
    let len := (i * 7 + 3) % 16 + 1
    [UInt8.ofNat (i * 37), UInt8.ofNat len] ++ bytes i len

/-- the encrypted data blocks of a generated header, /repo/tests/dataheader_generator.h l.80-87 -/
def genEncBlocks (num : Nat) : List Byte :=
  (List.range num).flatMap fun i => [UInt8.ofNat (i * 41), UInt8.ofNat (i * 19)] ++ bytes i 255

/-- a generated chain hash, /repo/tests/dataheader_generator.h l.55-64, l.66-76: mode, iterations (five zeros and three random
bytes), length and bytes of the data block -/
def genChain (mode : Byte) (k len : Nat) : List Byte :=
  [mode, 0, 0, 0, 0, 0] ++ bytes k 3 ++ [UInt8.ofNat len] ++ bytes (k + 1) len

/-- `DataHeaderGen::generateDH`, /repo/tests/dataheader_generator.h l.36-92, with the mode numbers given -/
def generateDH (hashMode : Byte) (hashSize blocks encBlocks : Nat) (m1 : Byte) (len1 : Nat) (m2 : Byte) (len2 : Nat) :
    Res (List Byte) := do
  let body := [1, hashMode, UInt8.ofNat blocks] ++ genBlocks blocks ++ genChain m1 3 len1 ++ genChain m2 5 len2
    ++ bytes 9 (2 * hashSize) ++ [UInt8.ofNat encBlocks] ++ genEncBlocks encBlocks
  let len ← Bytes.fromLong (UInt64.ofNat (body.length + 16)) true
  .ok (len.data ++ len.data ++ body)

/-- the path of the tests, /repo/tests/filehandler_unittest.cpp l.13 -/
def testPath : Path := ascii "kSv2hXw9Qa.enc"

/-- a disk without files, as the tests find it; /repo/tests/filehandler_unittest.cpp l.13 -/
def noFiles : FS := fun _ => .missing

/-- a call that must succeed, `CallResult::returnValue`, /repo/include/error.h l.99-119 -/
def must {α : Type} : Res (Out α) → Res α
  | .ok (.success a) => .ok a
  | .ok _ => .fatal .abort
  | .exn e => .exn e
  | .fatal f => .fatal f

/-- writing through a stream that truncated the file, /repo/tests/filehandler_unittest.cpp l.38-40 -/
def put (fs : FS) (p : Path) (c : List Byte) : FS := fs.set p (.file c)

/-- /repo/tests/filehandler_unittest.cpp l.10-18 -/
def fileHandlerClass_statics : Res Unit := do
  expect (FileHandler.ext == utf8 ".enc")
  must (FileHandler.isValidPath openEnv noFiles testPath false)
  let (o, fs) ← FileHandler.createFile openEnv noFiles testPath
  must (.ok o)
  must (FileHandler.isValidPath openEnv fs testPath true)

example : fileHandlerClass_statics = .ok () := by decide +kernel

/-- /repo/tests/filehandler_unittest.cpp l.20-69 -/
def fileHandlerClass_basicEmpty : Res Unit := do
  let tmp := bytes 4 10
  let (o, fs) ← FileHandler.createFile openEnv noFiles testPath
  must (.ok o)
  let f ← FileHandler.new openEnv fs testPath 0
  expect (f.path == testPath)
  expect f.isEmpty
  expect (fs.opens openEnv f.path)
  expect (f.headerSize == 0)
  expect (f.fileSize == 0)
  throws .lengthError (do let _ ← f.getFirstBytes openEnv fs 1 1)
  let (o, f, fs) ← f.getWriteStreamIfEmpty openEnv fs
  must (.ok o)
  let fs := put fs testPath tmp
  expect f.isEmpty
  expect (f.headerSize == 0)
  expect (f.fileSize == 0)
  let b ← f.getFirstBytes openEnv fs 1 2
  expect (b.data == tmp.take 1)
  expect ((fs.openIn openEnv testPath 3).rest == tmp)
  expect ((f.getDataStream openEnv fs 4).rest == tmp)
  let b ← f.getAllBytes openEnv fs 5
  expect (b.len == 10)
  let (r, f) := f.refresh openEnv fs 6
  throws .logicError r
  expect (f.headerSize == 0)
  expect (f.fileSize == 10)
  expect !f.isEmpty
  let (o, f, fs) ← f.getWriteStreamIfEmpty openEnv fs
  expect (o != .success ())
  let b ← f.getAllBytes openEnv fs 7
  expect (b.len == 10)
  let (o, f, fs) ← f.getWriteStream openEnv fs
  must (.ok o)
  let (r, f) := f.refresh openEnv fs 8
  r
  expect (f.headerSize == 0)
  expect (f.fileSize == 0)
  throws .lengthError (do let _ ← f.getFirstBytes openEnv fs 1 9)
  expect f.isEmpty

example : fileHandlerClass_basicEmpty = .ok () := by decide +kernel

/-- what the tests `basic_filled` and `complex_filled` have in common, /repo/tests/filehandler_unittest.cpp l.71-105, l.150-185 -/
def filled (tmp : List Byte) : Res Unit := do
  let (o, fs) ← FileHandler.createFile openEnv noFiles testPath
  must (.ok o)
  let fs := put fs testPath tmp
  let f ← FileHandler.new openEnv fs testPath 0
  expect (f.path == testPath)
  expect (!f.isEmpty)
  expect (fs.opens openEnv f.path)
  expect (f.headerSize == tmp.length)
  expect (f.fileSize == tmp.length)
  let b ← f.getFirstBytes openEnv fs 1 1
  expect (b.data == tmp.take 1)
  expect ((fs.openIn openEnv testPath 2).rest == tmp)
  expect ((f.getDataStream openEnv fs 3).rest == [])
  let b ← f.getAllBytes openEnv fs 4
  expect (b.len == tmp.length)
  let d ← must (f.getDataHeader sha2 openEnv fs 5 (rnd 1))
  let h ← d.getHeaderBytes
  expect (h.data == tmp)
  let l ← d.getHeaderLength
  expect (l == tmp.length)
  expect (d.fileSize == some (UInt64.ofNat tmp.length))

/-- /repo/tests/filehandler_unittest.cpp l.71-105 -/
def fileHandlerClass_basicFilled : Res Unit := do
  let tmp ← generateDH 1 32 0 0 1 0 2 0
  expect (tmp.length == minDataHeaderLen)
  filled tmp

example : fileHandlerClass_basicFilled = .ok () := by decide +kernel

/-- /repo/tests/filehandler_unittest.cpp l.150-185, with fewer blocks (9 and 2 instead of 189 and 54) -/
def fileHandlerClass_complexFilled : Res Unit := do
  let tmp ← generateDH 3 64 9 2 2 154 2 1
  filled tmp

example : fileHandlerClass_complexFilled = .ok () := by decide +kernel

/-- /repo/tests/filehandler_unittest.cpp l.107-148 -/
def fileHandlerClass_dataheaderSimple : Res Unit := do
  let tmp ← (Bytes.empty 64).fillrandom (rnd 2)
  let (o, fs) ← FileHandler.createFile openEnv noFiles testPath
  must (.ok o)
  let c1 ← (ChainHashData.new .constCount).generateRandomData (rnd 3)
  let c2 ← (ChainHashData.new .quad).generateRandomData (rnd 4)
  let p : DataHeaderParts := ⟨some 1, some .sha512, some tmp, some tmp, [], [],
    ChainHash.make .constCount 1000 (some c1), ChainHash.make .quad 1000 (some c2)⟩
  let d ← must (DataHeader.setHeaderParts p (rnd 5))
  let l ← d.getHeaderLength
  let d ← d.setFileSize (UInt64.ofNat l)
  let d ← d.calcHeaderBytes! sha2 (Bytes.empty 0) (fun _ => 0)
  let h ← d.getHeaderBytes
  let f ← FileHandler.new openEnv fs testPath 0
  let (o, f, fs) ← f.getWriteStreamIfEmpty openEnv fs
  must (.ok o)
  let fs := put fs testPath h.data
  let f ← FileHandler.update openEnv fs testPath 1
  expect (f.headerSize == l)
  expect (f.fileSize == l)
  let b ← f.getFirstBytes openEnv fs 1 2
  expect (b.data == h.data.take 1)
  expect ((fs.openIn openEnv testPath 3).rest == h.data)
  expect ((f.getDataStream openEnv fs 4).rest == [])
  let b ← f.getAllBytes openEnv fs 5
  expect (b.len == l)
  must (f.isDataHeader sha2 openEnv fs 1 6 (rnd 6))
  let d ← must (f.getDataHeader sha2 openEnv fs 7 (rnd 7))
  let b ← d.getHeaderBytes
  expect (b.data == h.data)

example : fileHandlerClass_dataheaderSimple = .ok () := by decide +kernel

/-- /repo/tests/dataheader_unittest.cpp l.348-384, with three and two blocks -/
def dataHeaderClass_datablocks : Res Unit := do
  let dhb ← generateDH 2 48 0 0 1 0 2 0
  let x ← HeaderParse.setHeaderMem ⟨dhb, dhb.length⟩ sha2 (rnd 1)
  match x with
  | .stop _ => .fatal .abort
  | .val d _ => do
    let d ← DataHeader.addBlocks [⟨1, ⟨bytes 3 200, 200⟩⟩, ⟨0, ⟨bytes 4 255, 255⟩⟩, ⟨77, ⟨bytes 5 1, 1⟩⟩] d
    let b1 ← EncDataBlock.createEncBlock 200 ⟨bytes 6 255, 255⟩ 0
    let b2 ← EncDataBlock.createEncBlock 0 ⟨bytes 7 255, 255⟩ 255
    let d ← DataHeader.addEncBlocks [b1, b2] d
    let d ← d.setFileSize 100000
    let d ← d.calcHeaderBytes! sha2 (Bytes.empty 0) (fun _ => 0)
    let h ← d.getHeaderBytes
    let y ← HeaderParse.setHeaderMem h sha2 (rnd 2)
    match y with
    | .stop _ => .fatal .abort
    | .val d2 _ => do
      let d2 ← d2.calcHeaderBytes! sha2 (Bytes.empty 0) (fun _ => 0)
      let h2 ← d2.getHeaderBytes
      expect (h.data == h2.data)

example : dataHeaderClass_datablocks = .ok () := by decide +kernel

end Verif.Validation
