import Verif.Model.Basic

/-
The thread of the benchmarks that measures the memory in use, and the benchmark around it
(/repo/benchmarks/chainhash_bench.cpp l.17-53 and l.75-88; the same in bench.cpp l.24-61 and blockchain_bench.cpp).
The two run at the same time. The shared variables are atomic, so what happens is a sequence of single steps of the two; who makes
step number `i` is given by a schedule, and what `getPhysicalMem` would answer then by `mem i`.
-/
namespace Verif.Bench

/-- `memory_max`, `memory_min`, `memory_avg`, `memory_sum`, `memory_count`, chainhash_bench.cpp l.31-36 -/
structure Tally where
  max : UInt64
  min : UInt64
  avg : UInt64
  sum : UInt64
  count : UInt64
deriving DecidableEq, Repr

/-- one round of the loop, chainhash_bench.cpp l.38-47 (division by zero after 2^64 rounds is not modelled) -/
def Tally.add (t : Tally) (memory : UInt64) : Tally :=
  let sum := t.sum + memory
  let count := t.count + 1
  let max := if t.max < memory ∨ t.max = 0 then memory else t.max
  let min := if t.min > memory ∨ t.min = 0 then memory else t.min
  ⟨max, min, sum / count, sum, count⟩

/-- where the measuring thread is: before l.27, before l.30, before the test in l.37, before l.38, behind l.52
of chainhash_bench.cpp -/
inductive TPc
  | start
  | ready
  | check
  | sample
  | ended
deriving DecidableEq, Repr

/-- where the benchmark is: `k` steps before l.85, waiting in l.86, behind l.87 of chainhash_bench.cpp -/
inductive MPc
  | work (k : Nat)
  | joining
  | filed
deriving DecidableEq, Repr

/-- the shared variables (chainhash_bench.cpp l.19-23) and the two programs -/
structure St where
  flag : Bool
  maxOut : UInt64
  minOut : UInt64
  avgOut : UInt64
  base : UInt64
  tally : Tally
  tpc : TPc
  mpc : MPc
deriving DecidableEq, Repr

/-- a step of `MemoryThread`, chainhash_bench.cpp l.25-53; the steps between two looks at the flag are one -/
def thread (memory : UInt64) (s : St) : St :=
  match s.tpc with
  | .start => { s with maxOut := 0, minOut := 0, base := memory, tpc := .ready }
  | .ready => { s with flag := false, tpc := .check }
  | .check =>
    if s.flag then { s with maxOut := s.tally.max, minOut := s.tally.min, avgOut := s.tally.avg, tpc := .ended }
    else { s with tpc := .sample }
  | .sample => { s with tally := s.tally.add memory, tpc := .check }
  | .ended => s

/-- a step of the benchmark, chainhash_bench.cpp l.79-88 -/
def main (s : St) : St :=
  match s.mpc with
  | .work (k + 1) => { s with mpc := .work k }
  | .work 0 => { s with flag := true, mpc := .joining }
  | .joining => if s.tpc = .ended then { s with mpc := .filed } else s
  | .filed => s

/-- after `std::thread memoryThread(MemoryThread)`, chainhash_bench.cpp l.78; the shared variables have any values (the flag is still
set from the benchmark before) -/
def begin (flag : Bool) (maxOut minOut avgOut base : UInt64) (k : Nat) : St :=
  ⟨flag, maxOut, minOut, avgOut, base, ⟨0, 0, 0, 0, 0⟩, .start, .work k⟩

/-- the state before step `n`; `sched i` says whether the thread makes step `i`, chainhash_bench.cpp l.78-88 -/
def run (sched : Nat → Bool) (mem : Nat → UInt64) (s : St) : Nat → St
  | 0 => s
  | n + 1 => if sched n then thread (mem n) (run sched mem s n) else main (run sched mem s n)

end Verif.Bench
