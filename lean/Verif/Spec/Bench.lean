import Verif.Model.Bench

/- What is said about the measuring thread of the benchmarks: C108. -/
namespace Verif.Spec
open Bench

/-- both the thread and the benchmark get on again and again -/
def FairSched (sched : Nat → Bool) : Prop := ∀ (b : Bool) (n : Nat), ∃ m, n ≤ m ∧ sched m = b

/-- what was measured before step `n`, in order -/
def seen (sched : Nat → Bool) (mem : Nat → UInt64) (s : St) (n : Nat) : List UInt64 :=
  ((List.range n).filter fun i => sched i && (run sched mem s i).tpc == .sample).map mem

/-- the largest, the smallest and the average of the numbers -/
def IsMax (l : List UInt64) (x : UInt64) : Prop := x ∈ l ∧ ∀ y ∈ l, y ≤ x
def IsMin (l : List UInt64) (x : UInt64) : Prop := x ∈ l ∧ ∀ y ∈ l, x ≤ y
def IsAverage (l : List UInt64) (x : UInt64) : Prop := x.toNat = (l.map UInt64.toNat).sum / l.length

end Verif.Spec
