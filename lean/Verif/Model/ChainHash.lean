import Verif.Model.PwFunc

/-
Model of `/repo/src/format.cpp`, `/repo/src/chainhash_data.cpp`, `/repo/include/chainhash_modes.h` and
`/repo/src/chainhash_modes.cpp`.
-/
namespace Verif

/-- `enum CHModes`, /repo/include/base.h l.12-18; invalid numbers are represented by `CHMode.ofByte` = none -/
inductive CHMode | normal | constSalt | count | constCount | quad
deriving DecidableEq, Repr

/-- numeric value of a mode, /repo/include/base.h l.10-16 -/
def CHMode.toByte : CHMode → Byte
  | .normal => 1 | .constSalt => 2 | .count => 3 | .constCount => 4 | .quad => 5

/-- `ChainHashModes::isModeValid` with the conversion to the enum, chainhash_modes.cpp l.56-59 -/
def CHMode.ofByte (b : Byte) : Option CHMode :=
  if b = 1 then some .normal else if b = 2 then some .constSalt else if b = 3 then some .count
  else if b = 4 then some .constCount else if b = 5 then some .quad else none

@[simp] theorem CHMode.ofByte_toByte (m : CHMode) : CHMode.ofByte m.toByte = some m := by cases m <;> rfl

theorem CHMode.toByte_of_ofByte {b : Byte} {m : CHMode} (h : CHMode.ofByte b = some m) : m.toByte = b := by
  unfold CHMode.ofByte at h
  repeat' split at h
  all_goals first
    | (cases h; subst_vars; rfl)
    | cases h

/-- `struct NameLen`, /repo/include/base.h l.39-43: `len` is an `unsigned char`, 0 = free length -/
structure NameLen where
  name : String
  len : Nat
deriving DecidableEq, Repr

/-- `Format::calcNameLenList`, format.cpp l.29-46. A `Format` is its mode (two formats are equal iff their format
strings are equal, l.64-67, and the strings of the five modes, l.10-27, differ). -/
def CHMode.nameLens : CHMode → List NameLen
  | .normal => []
  | .constSalt => [⟨"S", 0⟩]
  | .count => [⟨"SN", 8⟩]
  | .constCount => [⟨"SN", 8⟩, ⟨"S", 0⟩]
  | .quad => [⟨"SN", 8⟩, ⟨"A", 8⟩, ⟨"B", 8⟩, ⟨"C", 8⟩]

/-- `class ChainHashData`, chainhash_data.h l.12-17 (`format` = mode; `datablock_size` and `is_star` are functions of
the mode) -/
structure ChainHashData where
  mode : CHMode
  block : Bytes
  ind : Nat
deriving DecidableEq, Repr

namespace ChainHashData

/-- `calculateDatablockSize`, chainhash_data.cpp l.11-19 (`unsigned char` sum) -/
def datablockSize (m : CHMode) : Nat := (m.nameLens.map NameLen.len).sum % 256

/-- `is_star`, chainhash_data.cpp l.22 -/
def isStar (m : CHMode) : Bool := match m.nameLens.getLast? with
  | none => false
  | some nl => nl.len == 0

/-- constructor, chainhash_data.cpp l.21-26 with `datablock{255}` (chainhash_data.h l.14) -/
def new (m : CHMode) : ChainHashData := ⟨m, Bytes.empty 255, 0⟩

/-- `isComplete`, chainhash_data.cpp l.28-33 -/
def isComplete (c : ChainHashData) : Bool := c.ind == c.mode.nameLens.length

/-- `isCompletedFormat`, chainhash_data.cpp l.35-38 -/
def isCompletedFormat (c : ChainHashData) (m : CHMode) : Bool := m == c.mode && c.isComplete

/-- `getDataBlock`, chainhash_data.cpp l.45-53 -/
def getDataBlock (c : ChainHashData) : Res Bytes :=
  if !c.isComplete then .exn .logicError else .ok c.block

/-- `getPartsNumber`, chainhash_data.cpp l.40-43 -/
def getPartsNumber (c : ChainHashData) : Nat := c.ind

/-- `operator==`, chainhash_data.cpp l.117-123 -/
def eq (c d : ChainHashData) : Res Bool :=
  if c.isComplete && d.isComplete then do .ok ((← c.getDataBlock).beq (← d.getDataBlock))
  else .ok false

/-- loop of `getPart`, chainhash_data.cpp l.58-65: `i` index, `start` = `start_ind` (an `unsigned char`) -/
def getPartLoop (c : ChainHashData) (name : String) : List NameLen → Nat → Nat → Res Bytes
  | [], _, _ => .exn .invalidArgument
  | nl :: rest, i, start =>
    if nl.name = name ∧ c.ind > i then
      c.block.copySubBytes start (if c.ind > i + 1 then start + nl.len else c.block.len)
    else getPartLoop c name rest (i + 1) ((start + nl.len) % 256)

/-- `getPart`, chainhash_data.cpp l.55-68 -/
def getPart (c : ChainHashData) (name : String) : Res Bytes := getPartLoop c name c.mode.nameLens 0 0

/-- `getLen`, chainhash_data.cpp l.70-73 (`unsigned char`) -/
def getLen (c : ChainHashData) : Nat := c.block.len % 256

/-- `addBytes`, chainhash_data.cpp l.75-100 -/
def addBytes (c : ChainHashData) (b : Bytes) : Res ChainHashData :=
  if c.isComplete then .exn .logicError
  else match c.mode.nameLens[c.ind]? with
    | none => .fatal .ub   -- `vector::operator[]` out of range, l.83
    | some nl =>
      if nl.len ≠ b.len ∧ nl.len ≠ 0 then .exn .invalidArgument
      else match b.addcopyToBytes c.block with
        | .exn .lengthError => do
          Res.assert (c.getLen + b.len > 255)
          .exn .lengthError
        | .exn e => .exn e
        | .fatal f => .fatal f
        | .ok blk => do
          Res.assert (blk.len % 256 ≤ 255)
          .ok ⟨c.mode, blk, (c.ind + 1) % 256⟩

/-- `generateRandomData`, chainhash_data.cpp l.102-115 -/
def generateRandomData (c : ChainHashData) (r : Rand) : Res ChainHashData :=
  if !c.block.isEmpty then .exn .pointer
  else do
    let blk ← if isStar c.mode then c.block.fillrandom r else c.block.addrandom (datablockSize c.mode) r
    .ok ⟨c.mode, blk, c.mode.nameLens.length⟩

end ChainHashData

/-- `MAX_ITERATIONS`, /repo/include/settings.h l.38 -/
abbrev maxIterations : Nat := 1000000000
/-- `MAX_RUNTIME`, /repo/include/settings.h l.40 -/
abbrev maxRuntime : Nat := 86400000

/-- result of `ChainHash::isValid`, chainhash_modes.h l.47-80. (The length check l.70 can never fire: `getLen` is an
`unsigned char`.) -/
def chainHashValid (mode : Option CHMode) (data : Option ChainHashData) (iters : UInt64) : Bool :=
  match mode, data with
  | some m, some d => decide (0 < iters.toNat) && decide (iters.toNat ≤ maxIterations) && d.isCompletedFormat m
  | _, _ => false

/-- `struct ChainHash`, chainhash_modes.h l.39-44, with a private copy of the data object. The pointer is shared in the
code; sharing matters only where the data object is changed after it was handed over, see `Verif/Model/Shared.lean`. -/
structure ChainHash where
  mode : Option CHMode
  data : Option ChainHashData
  iters : UInt64
  val : Bool
deriving DecidableEq, Repr

namespace ChainHash

/-- default constructor, chainhash_modes.h l.108 -/
def default : ChainHash := ⟨none, none, 0, false⟩

/-- constructor for a valid mode number, chainhash_modes.h l.109-116 (an invalid mode number throws, l.87-94) -/
def make (m : CHMode) (iters : UInt64) (d : Option ChainHashData) : ChainHash :=
  ⟨some m, d, iters, chainHashValid (some m) d iters⟩

/-- `getMode`, chainhash_modes.h l.136-143; `mode.value()` on an empty optional would throw (bad_optional_access) -/
def getMode (c : ChainHash) : Res CHMode :=
  if !c.val then .exn .runtimeError else match c.mode with
    | some m => .ok m
    | none => .exn .logicError

/-- `getChainHashData`, chainhash_modes.h l.144-151; the callers dereference the pointer -/
def getData (c : ChainHash) : Res ChainHashData :=
  if !c.val then .exn .runtimeError else match c.data with
    | some d => .ok d
    | none => .fatal .ub

/-- `getIters`, chainhash_modes.h l.152-159 -/
def getIters (c : ChainHash) : Res UInt64 := if !c.val then .exn .runtimeError else .ok c.iters

/-- `operator=`, chainhash_modes.h l.101-107: the result of assigning `c` -/
def assign (c : ChainHash) : Res ChainHash := do
  let m ← c.getMode
  let i ← c.getIters
  .ok (make m i c.data)

end ChainHash

namespace ChainHashModes
open PwFunc

/-- `performChainHash(const ChainHash&, …, const Bytes&, timeout)`, chainhash_modes.cpp l.61-93 -/
def performBytes (ch : ChainHash) (H : HashFn) (data : Bytes) (timeout : Nat) (clk : Nat → Nat) : Res (Out Bytes) := do
  let m ← ch.getMode
  let n ← ch.getIters
  let d ← ch.getData
  match m with
  | .normal => chainhashBytes H data n.toNat timeout clk
  | .constSalt => do
    let s ← d.getPart "S"
    chainhashConstBytes H data n.toNat (bytesToString s) timeout clk
  | .count => do
    let sn ← (← d.getPart "SN").toLong
    chainhashCountBytes H data n.toNat sn timeout clk
  | .constCount => do
    let sn ← (← d.getPart "SN").toLong
    let s ← d.getPart "S"
    chainhashConstCountBytes H data n.toNat sn (bytesToString s) timeout clk
  | .quad => do
    let sn ← (← d.getPart "SN").toLong
    let a ← (← d.getPart "A").toLong
    let b ← (← d.getPart "B").toLong
    let c ← (← d.getPart "C").toLong
    chainhashQuadBytes H data n.toNat sn a b c timeout clk

/-- `performChainHash(const ChainHash&, …, const std::string&, timeout)`, chainhash_modes.cpp l.95-127 -/
def performStr (ch : ChainHash) (H : HashFn) (data : List Byte) (timeout : Nat) (clk : Nat → Nat) : Res (Out Bytes) := do
  let m ← ch.getMode
  let n ← ch.getIters
  let d ← ch.getData
  match m with
  | .normal => chainhashStr H data n.toNat timeout clk
  | .constSalt => do
    let s ← d.getPart "S"
    chainhashConstStr H data n.toNat (bytesToString s) timeout clk
  | .count => do
    let sn ← (← d.getPart "SN").toLong
    chainhashCountStr H data n.toNat sn timeout clk
  | .constCount => do
    let sn ← (← d.getPart "SN").toLong
    let s ← d.getPart "S"
    chainhashConstCountStr H data n.toNat sn (bytesToString s) timeout clk
  | .quad => do
    let sn ← (← d.getPart "SN").toLong
    let a ← (← d.getPart "A").toLong
    let b ← (← d.getPart "B").toLong
    let c ← (← d.getPart "C").toLong
    chainhashQuadStr H data n.toNat sn a b c timeout clk

end ChainHashModes

/-- `struct ChainHashTimed`, chainhash_modes.h l.178-183, as set up by its constructor l.248-255 (`run_time` is left
uninitialised by the default constructor, which is not modelled) -/
structure ChainHashTimed where
  mode : CHMode
  data : Option ChainHashData
  runTime : UInt64
  val : Bool
deriving DecidableEq, Repr

namespace ChainHashTimed

/-- constructor with `isValid`, chainhash_modes.h l.186-219 and l.248-255 -/
def make (m : CHMode) (runTime : UInt64) (d : Option ChainHashData) : ChainHashTimed :=
  ⟨m, d, runTime, match d with
    | none => false
    | some d => decide (0 < runTime.toNat) && decide (runTime.toNat ≤ maxRuntime) && d.isCompletedFormat m⟩

/-- `getMode`, chainhash_modes.h l.275-282 -/
def getMode (c : ChainHashTimed) : Res CHMode := if !c.val then .exn .runtimeError else .ok c.mode
/-- `getChainHashData`, chainhash_modes.h l.283-290 -/
def getData (c : ChainHashTimed) : Res ChainHashData :=
  if !c.val then .exn .runtimeError else match c.data with
    | some d => .ok d
    | none => .fatal .ub
/-- `getRunTime`, chainhash_modes.h l.291-298 -/
def getRunTime (c : ChainHashTimed) : Res UInt64 := if !c.val then .exn .runtimeError else .ok c.runTime

end ChainHashTimed

/-- `struct ChainHashResult`, chainhash_modes.h l.316-319 -/
structure ChainHashResult where
  chainhash : ChainHash
  result : Bytes
deriving DecidableEq, Repr

namespace ChainHashModes
open PwFunc

/-- The five timed routines as used by the switch: mode, clock and fuel of the run. See /repo/src/pwfunc.cpp l.237-435. -/
structure TimedFns where
  normal : (timeout : Nat) → Nat → Res (Nat × Bytes)
  const : (timeout : Nat) → List Byte → Nat → Res (Nat × Bytes)
  count : (timeout : Nat) → UInt64 → Nat → Res (Nat × Bytes)
  constCount : (timeout : Nat) → UInt64 → List Byte → Nat → Res (Nat × Bytes)
  quad : (timeout : Nat) → UInt64 → UInt64 → UInt64 → UInt64 → Nat → Res (Nat × Bytes)

/-- The switch of both timed `performChainHash` overloads, chainhash_modes.cpp l.139-161 and l.176-198. There is no
`break`, so control falls through from the case of the mode into all following cases and the `default`. The number
passed to a routine is the index of the run (each run reads its own clock). The switch never reaches the code after
it, hence the result type of that code is irrelevant; it is kept to show the code's `return`. -/
def timedSwitch (f : TimedFns) (ch : ChainHashTimed) : Res (Nat × Bytes) := do
  let m ← ch.getMode
  let t ← ch.getRunTime
  let d ← ch.getData
  let t := t.toNat
  -- default: l.158-160
  let caseDefault : Res (Nat × Bytes) := .exn .invalidArgument
  -- case CHAINHASH_QUADRATIC: l.152-157
  let caseQuad : Res (Nat × Bytes) := do
    let sn ← (← d.getPart "SN").toLong
    let a ← (← d.getPart "A").toLong
    let b ← (← d.getPart "B").toLong
    let c ← (← d.getPart "C").toLong
    let _ ← f.quad t sn a b c 4
    caseDefault
  -- case CHAINHASH_CONSTANT_COUNT_SALT: l.148-151
  let caseConstCount : Res (Nat × Bytes) := do
    let sn ← (← d.getPart "SN").toLong
    let s ← d.getPart "S"
    let _ ← f.constCount t sn (bytesToString s) 3
    caseQuad
  -- case CHAINHASH_COUNT_SALT: l.145-147
  let caseCount : Res (Nat × Bytes) := do
    let sn ← (← d.getPart "SN").toLong
    let _ ← f.count t sn 2
    caseConstCount
  -- case CHAINHASH_CONSTANT_SALT: l.142-144
  let caseConst : Res (Nat × Bytes) := do
    let s ← d.getPart "S"
    let _ ← f.const t (bytesToString s) 1
    caseCount
  match m with
  | .normal => do
    let _ ← f.normal t 0      -- l.140-141
    caseConst
  | .constSalt => caseConst
  | .count => caseCount
  | .constCount => caseConstCount
  | .quad => caseQuad

/-- the timed routines for byte input, chainhash_modes.cpp l.141-157; `clk i` is the clock of run `i` -/
def timedFnsBytes (H : HashFn) (data : Bytes) (clk : Nat → Nat → Nat) (fuel : Nat) : TimedFns :=
  { normal := fun t i => chainhashTimedBytes H data t (clk i) fuel
    const := fun t s i => chainhashConstTimedBytes H data t s (clk i) fuel
    count := fun t sn i => chainhashCountTimedBytes H data t sn (clk i) fuel
    constCount := fun t sn s i => chainhashConstCountTimedBytes H data t sn s (clk i) fuel
    quad := fun t sn a b c i => chainhashQuadTimedBytes H data t sn a b c (clk i) fuel }

/-- `performChainHash(const ChainHashTimed&, …, const Bytes&)`, chainhash_modes.cpp l.129-164 -/
def performTimedBytes (ch : ChainHashTimed) (H : HashFn) (data : Bytes) (clk : Nat → Nat → Nat) (fuel : Nat) :
    Res (Out ChainHashResult) := do
  let tr ← timedSwitch (timedFnsBytes H data clk fuel) ch
  .ok (.success ⟨ChainHash.make ch.mode (UInt64.ofNat tr.1) ch.data, tr.2⟩)

/-- the timed routines for string input, chainhash_modes.cpp l.178-194; `clk i` is the clock of run `i` -/
def timedFnsStr (H : HashFn) (data : List Byte) (clk : Nat → Nat → Nat) (fuel : Nat) : TimedFns :=
  { normal := fun t i => chainhashTimedStr H data t (clk i) fuel
    const := fun t s i => chainhashConstTimedStr H data t s (clk i) fuel
    count := fun t sn i => chainhashCountTimedStr H data t sn (clk i) fuel
    constCount := fun t sn s i => chainhashConstCountTimedStr H data t sn s (clk i) fuel
    quad := fun t sn a b c i => chainhashQuadTimedStr H data t sn a b c (clk i) fuel }

/-- `performChainHash(const ChainHashTimed&, …, const std::string&)`, chainhash_modes.cpp l.166-201 -/
def performTimedStr (ch : ChainHashTimed) (H : HashFn) (data : List Byte) (clk : Nat → Nat → Nat) (fuel : Nat) :
    Res (Out ChainHashResult) := do
  let tr ← timedSwitch (timedFnsStr H data clk fuel) ch
  .ok (.success ⟨ChainHash.make ch.mode (UInt64.ofNat tr.1) ch.data, tr.2⟩)

end ChainHashModes
end Verif
