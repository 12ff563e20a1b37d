import Verif.Model.Basic

/-
Model of `/repo/src/timer.cpp`, `/repo/include/timer.h`. Readings of `std::chrono::steady_clock` are nanoseconds.
Every method is modelled as result plus the object afterwards, so that a refused call that had already changed
something would be visible.
-/
namespace Verif

/-- `class Timer`, timer.h l.9-37. `last` is meaningless before the first `start`. -/
structure Timer where
  last : Nat
  laps : List UInt64
  started : Bool
  stopped : Bool
deriving DecidableEq, Repr

namespace Timer

/-- a new object, timer.h l.15-19 -/
def new : Timer := ⟨0, [], false, false⟩

/-- `require_started`, timer.cpp l.88-93 -/
def requireStarted (t : Timer) : Res Unit := if !t.started then .exn .logicError else .ok ()
/-- `require_stopped`, timer.cpp l.95-100 -/
def requireStopped (t : Timer) : Res Unit := if !t.stopped then .exn .logicError else .ok ()
/-- `require_not_started`, timer.cpp l.102-107 -/
def requireNotStarted (t : Timer) : Res Unit := if t.started then .exn .logicError else .ok ()
/-- `require_not_stopped`, timer.cpp l.109-114 -/
def requireNotStopped (t : Timer) : Res Unit := if t.stopped then .exn .logicError else .ok ()

/-- `duration_cast<milliseconds>(now - last_time).count()` stored as `u_int64_t`, timer.cpp l.30-32, 41-43: signed
division that truncates, then conversion to unsigned -/
def elapsed (t : Timer) (now : Nat) : UInt64 := UInt64.ofInt (Int.tdiv ((now : Int) - (t.last : Int)) 1000000)

/-- `Timer::start`, timer.cpp l.8-15 -/
def start (t : Timer) (now : Nat) : Res Unit × Timer :=
  match t.requireNotStarted with
  | .ok _ => (.ok (), { t with started := true, stopped := false, laps := [], last := now })
  | r => (r, t)

/-- `Timer::recordTime`, timer.cpp l.26-35 -/
def recordTime (t : Timer) (now : Nat) : Res UInt64 × Timer :=
  match (do t.requireStarted; t.requireNotStopped : Res Unit) with
  | .ok _ => (.ok (t.elapsed now), { t with laps := t.laps ++ [t.elapsed now], last := now })
  | .exn e => (.exn e, t)
  | .fatal f => (.fatal f, t)

/-- `Timer::stop`, timer.cpp l.17-24 -/
def stop (t : Timer) (now : Nat) : Res Unit × Timer :=
  match (do t.requireNotStopped; t.requireStarted : Res Unit) with
  | .ok _ =>
    match t.recordTime now with
    | (.ok _, t) => (.ok (), { t with stopped := true, started := false })
    | (.exn e, t) => (.exn e, t)
    | (.fatal f, t) => (.fatal f, t)
  | r => (r, t)

/-- `Timer::peekTime`, timer.cpp l.37-44 -/
def peekTime (t : Timer) (now : Nat) : Res UInt64 := do
  t.requireStarted
  t.requireNotStopped
  pure (t.elapsed now)

/-- `Timer::getAverageTime`, timer.cpp l.46-58 (64-bit sum) -/
def getAverageTime (t : Timer) : Res UInt64 := do
  t.requireStopped
  if t.laps.isEmpty then pure 0
  else pure (t.laps.foldl (· + ·) 0 / UInt64.ofNat t.laps.length)

/-- `Timer::getSlowest`, timer.cpp l.60-74 -/
def getSlowest (t : Timer) : Res UInt64 := do
  t.requireStopped
  if t.laps.isEmpty then pure 0
  else pure (t.laps.foldl (fun m lap => if lap > m then lap else m) 0)

/-- `Timer::getTime`, timer.cpp l.76-80 -/
def getTime (t : Timer) : Res UInt64 := do
  t.requireStopped
  let avg ← t.getAverageTime
  pure (avg * UInt64.ofNat t.laps.length)

/-- `Timer::getLaps`, timer.cpp l.82-86 -/
def getLaps (t : Timer) : Res Nat := do
  t.requireStopped
  pure t.laps.length

end Timer

/-- the public calls of a timer, with the clock reading made by the call; timer.h l.30-37 -/
inductive TimerCall
  | start (now : Nat) | stop (now : Nat) | record (now : Nat) | peek (now : Nat)
  | average | slowest | time | laps
deriving DecidableEq, Repr

/-- one call; calls without a result return `none`, a refused call returns the exception; timer.h l.30-37 -/
def TimerCall.run (c : TimerCall) (t : Timer) : Res (Option Nat) × Timer :=
  match c with
  | .start now => let (r, t) := t.start now; ((fun _ => none) <$> r, t)
  | .stop now => let (r, t) := t.stop now; ((fun _ => none) <$> r, t)
  | .record now => let (r, t) := t.recordTime now; ((fun v => some v.toNat) <$> r, t)
  | .peek now => ((fun v => some v.toNat) <$> t.peekTime now, t)
  | .average => ((fun v => some v.toNat) <$> t.getAverageTime, t)
  | .slowest => ((fun v => some v.toNat) <$> t.getSlowest, t)
  | .time => ((fun v => some v.toNat) <$> t.getTime, t)
  | .laps => ((fun v => some v) <$> t.getLaps, t)

/-- a history of calls on one object: the answers, and the object at the end; timer.h l.30-37 -/
def TimerCall.runAll : List TimerCall → Timer → List (Res (Option Nat)) × Timer
  | [], t => ([], t)
  | c :: cs, t =>
    let (r, t) := c.run t
    let (rs, t) := TimerCall.runAll cs t
    (r :: rs, t)

end Verif
