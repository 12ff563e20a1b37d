import Verif.Model.ChainHash

/-
Run-time limited chain-hash descriptions (`struct ChainHashTimed`, /repo/include/chainhash_modes.h l.177-313) sharing
their data objects: a program holding several data objects and several descriptions, and everything it can do to them
through the public interface. Unlike `ChainHash`, the member `run_time` (l.182) has no initialiser, so a description made by
the default constructor holds no number until one is set; reading it before is undefined behaviour. The log lines
(`PLOG_DEBUG << *this`) are not modelled; they read `run_time` too if debug logging is on.
-/
namespace Verif.Timed

/-- `struct ChainHashTimed`, chainhash_modes.h l.178-183; `ref` is the shared pointer (index into the store), `time` is
`none` while `run_time` is uninitialised -/
structure Desc where
  mode : Option CHMode
  ref : Option Nat
  time : Option UInt64
  val : Bool
deriving DecidableEq, Repr

/-- a program's data objects and its `ChainHashTimed` descriptions, chainhash_modes.h l.177-313 -/
structure Sys where
  store : List ChainHashData
  descs : List Desc
deriving DecidableEq, Repr

/-- the data object behind the pointer of a description, chainhash_modes.h l.181 -/
def Sys.data (s : Sys) (d : Desc) : Option ChainHashData := d.ref.bind fun i => s.store[i]?

/-- `isValid()` recomputes `val`, chainhash_modes.h l.186-219. (The length check l.209 can never fire: `getLen` is an
`unsigned char`.) -/
def Sys.check (s : Sys) (d : Desc) : Res Desc :=
  match d.mode, s.data d with
  | some m, some o => match d.time with
    | none => .fatal .ub
    | some t => .ok { d with
        val := decide (0 < t.toNat) && decide (t.toNat ≤ maxRuntime) && o.isCompletedFormat m }
  | _, _ => .ok { d with val := false }

/-- `getMode`, chainhash_modes.h l.275-282; `mode.value()` throws if unset (cannot happen, see `C69_getters`) -/
def Desc.getMode (d : Desc) : Res CHMode :=
  if !d.val then .exn .runtimeError else match d.mode with
    | some m => .ok m
    | none => .exn .logicError

/-- `getChainHashData`, chainhash_modes.h l.283-290 -/
def Desc.getChainHashData (d : Desc) : Res (Option Nat) := if !d.val then .exn .runtimeError else .ok d.ref

/-- `getRunTime`, chainhash_modes.h l.291-298 -/
def Desc.getRunTime (d : Desc) : Res UInt64 :=
  if !d.val then .exn .runtimeError else match d.time with
    | some t => .ok t
    | none => .fatal .ub

/-- what a program can do to data objects (chainhash_data.h l.6-50) and descriptions (chainhash_modes.h l.177-313) -/
inductive Op
  | newData (m : CHMode)                       -- `std::make_shared<ChainHashData>(Format{m})`
  | addPart (i : Nat) (b : Bytes)              -- `addBytes` on a data object
  | genRandom (i : Nat) (r : Rand)             -- `generateRandomData` on a data object
  | newDesc                                    -- `ChainHashTimed ch;`, as in api.cpp l.154
  | newDescZero                                -- `ChainHashTimed ch{};` (sets the memory to zero first)
  | newDescWith (m : Byte) (t : UInt64) (ref : Option Nat)   -- `ChainHashTimed(mode, run_time, data)`
  | copy (j : Nat)                             -- a copy of `descs[j]` (implicit copy constructor)
  | setTime (k : Nat) (t : UInt64)
  | setMode (k : Nat) (m : Byte)
  | setData (k : Nat) (ref : Option Nat)
  | assign (k j : Nat)                         -- `descs[k] = descs[j]`

/-- a pointer a program can hold: null or to an existing object, chainhash_modes.h l.181 -/
def Sys.ptr (s : Sys) (ref : Option Nat) : Bool := match ref with
  | none => true
  | some i => i < s.store.length

/-- write a data object back; an operation that throws leaves it as it is, chainhash_data.h l.6-50 -/
def Sys.putData (s : Sys) (i : Nat) : Res ChainHashData → Res Sys
  | .ok c => .ok { s with store := s.store.set i c }
  | .exn _ => .ok s
  | .fatal f => .fatal f

/-- change description `k` and call `isValid()`, chainhash_modes.h l.177-313 -/
def Sys.put (s : Sys) (k : Nat) (d : Desc) : Res Sys := do
  let d ← s.check d
  .ok { s with descs := s.descs.set k d }

/-- One operation. An operation that throws (or whose operands do not exist) leaves the objects as they are:
`addBytes` chainhash_data.cpp l.75-100, `generateRandomData` l.102-115, constructors chainhash_modes.h l.247-255, setters
l.258-272, `operator=` l.240-246. -/
def Sys.step (s : Sys) : Op → Res Sys
  | .newData m => .ok { s with store := s.store ++ [ChainHashData.new m] }
  | .addPart i b => match s.store[i]? with
    | none => .ok s
    | some c => s.putData i (c.addBytes b)
  | .genRandom i r => match s.store[i]? with
    | none => .ok s
    | some c => s.putData i (c.generateRandomData r)
  | .newDesc => .ok { s with descs := s.descs ++ [⟨none, none, none, false⟩] }
  | .newDescZero => .ok { s with descs := s.descs ++ [⟨none, none, some 0, false⟩] }
  | .newDescWith m t ref => match CHMode.ofByte m with
    | none => .ok s
    | some m => if s.ptr ref then do
        let d ← s.check ⟨some m, ref, some t, false⟩
        .ok { s with descs := s.descs ++ [d] }
      else .ok s
  | .copy j => match s.descs[j]? with
    | none => .ok s
    | some d => match d.time with
      | none => .fatal .ub
      | some _ => .ok { s with descs := s.descs ++ [d] }
  | .setTime k t => match s.descs[k]? with
    | none => .ok s
    | some d => s.put k { d with time := some t }
  | .setMode k m => match s.descs[k]?, CHMode.ofByte m with
    | some d, some m => s.put k { d with mode := some m }
    | _, _ => .ok s
  | .setData k ref => match s.descs[k]? with
    | none => .ok s
    | some d => if s.ptr ref then s.put k { d with ref := ref } else .ok s
  | .assign k j => match s.descs[k]?, s.descs[j]? with
    | some _, some src => match src.getMode, src.getRunTime with
      | .ok m, .ok t => s.put k ⟨some m, src.ref, some t, false⟩
      | _, .fatal f => .fatal f
      | _, _ => .ok s
    | _, _ => .ok s

/-- a program, from a given state; chainhash_modes.h l.177-313 -/
def runFrom (s : Sys) : List Op → Res Sys
  | [] => .ok s
  | op :: ops => do runFrom (← s.step op) ops

/-- a program starting without objects, chainhash_modes.h l.177-313 -/
def run (ops : List Op) : Res Sys := runFrom ⟨[], []⟩ ops

end Verif.Timed
