import Verif.Model.ChainHash

/-
Chain-hash descriptions sharing their data objects (`std::shared_ptr<ChainHashData>`, /repo/include/chainhash_modes.h
l.42): a program holding several data objects and several `ChainHash` descriptions, and everything it can do to them
through the public interface.
-/
namespace Verif.Shared

/-- `struct ChainHash`, chainhash_modes.h l.39-44; `ref` is the shared pointer (index into the store) -/
structure Desc where
  mode : Option CHMode
  ref : Option Nat
  iters : UInt64
  val : Bool
deriving DecidableEq, Repr

/-- a program's data objects and its `ChainHash` descriptions, chainhash_modes.h l.39-133 -/
structure Sys where
  store : List ChainHashData
  descs : List Desc
deriving DecidableEq, Repr

/-- the description with its pointer followed, chainhash_modes.h l.42 -/
def Sys.resolve (s : Sys) (d : Desc) : ChainHash := ⟨d.mode, d.ref.bind fun i => s.store[i]?, d.iters, d.val⟩

/-- `isValid()` recomputes `val`, chainhash_modes.h l.47-80 -/
def Sys.check (s : Sys) (d : Desc) : Desc :=
  { d with val := chainHashValid d.mode (d.ref.bind fun i => s.store[i]?) d.iters }

/-- what a program can do to data objects (chainhash_data.h l.6-50) and descriptions (chainhash_modes.h l.39-133) -/
inductive Op
  | newData (m : CHMode)                       -- `std::make_shared<ChainHashData>(Format{m})`
  | addPart (i : Nat) (b : Bytes)              -- `addBytes` on a data object
  | genRandom (i : Nat) (r : Rand)             -- `generateRandomData` on a data object
  | newDesc                                    -- `ChainHash()`
  | newDescWith (m : Byte) (iters : UInt64) (ref : Option Nat)   -- `ChainHash(mode, iters, data)`
  | setIters (k : Nat) (iters : UInt64)
  | setMode (k : Nat) (m : Byte)
  | setData (k : Nat) (ref : Option Nat)
  | assign (k j : Nat)                         -- `descs[k] = descs[j]`

/-- a pointer a program can hold: null or to an existing object, chainhash_modes.h l.42 -/
def Sys.ptr (s : Sys) (ref : Option Nat) : Bool := match ref with
  | none => true
  | some i => i < s.store.length

/-- One operation. An operation that throws (or whose operands do not exist) leaves the objects as they are:
`addBytes` chainhash_data.cpp l.75-100, `generateRandomData` l.102-115, constructor / setters / `operator=`
chainhash_modes.h l.101-133. -/
def Sys.step (s : Sys) : Op → Sys
  | .newData m => { s with store := s.store ++ [ChainHashData.new m] }
  | .addPart i b => match s.store[i]? with
    | none => s
    | some c => match c.addBytes b with
      | .ok c' => { s with store := s.store.set i c' }
      | _ => s
  | .genRandom i r => match s.store[i]? with
    | none => s
    | some c => match c.generateRandomData r with
      | .ok c' => { s with store := s.store.set i c' }
      | _ => s
  | .newDesc => { s with descs := s.descs ++ [⟨none, none, 0, false⟩] }
  | .newDescWith m iters ref => match CHMode.ofByte m with
    | none => s
    | some m => if s.ptr ref then { s with descs := s.descs ++ [s.check ⟨some m, ref, iters, false⟩] } else s
  | .setIters k iters => match s.descs[k]? with
    | none => s
    | some d => { s with descs := s.descs.set k (s.check { d with iters := iters }) }
  | .setMode k m => match s.descs[k]?, CHMode.ofByte m with
    | some d, some m => { s with descs := s.descs.set k (s.check { d with mode := some m }) }
    | _, _ => s
  | .setData k ref => match s.descs[k]? with
    | none => s
    | some d => if s.ptr ref then { s with descs := s.descs.set k (s.check { d with ref := ref }) } else s
  | .assign k j => match s.descs[k]?, s.descs[j]? with
    | some _, some src => match (s.resolve src).getMode, (s.resolve src).getIters with
      | .ok m, .ok it => { s with descs := s.descs.set k (s.check ⟨some m, src.ref, it, false⟩) }
      | _, _ => s
    | _, _ => s

/-- a program starting without objects, chainhash_modes.h l.39-133 -/
def run (ops : List Op) : Sys := ops.foldl Sys.step ⟨[], []⟩

end Verif.Shared
