import Verif.Model.Timer
import Verif.Model.Error

/-
Independent descriptions used by the theorems about timer, random values and result objects.
-/
namespace Verif.Spec

/-- A stop watch as a user sees it: not used yet, running since `t0` with the given lap marks, or stopped (the last
mark is the stop). Times in nanoseconds. -/
inductive Watch
  | idle
  | running (t0 : Nat) (marks : List Nat)
  | stopped (t0 : Nat) (marks : List Nat)
deriving DecidableEq, Repr

/-- whole milliseconds of each lap -/
def lapTimes : Nat → List Nat → List Nat
  | _, [] => []
  | t, u :: us => (u - t) / 1000000 :: lapTimes u us

/-- the last mark, or the start -/
def lastMark : Nat → List Nat → Nat
  | t, [] => t
  | _, u :: us => lastMark u us

/-- what a stop watch should answer to a call: `none` = the call is not allowed now, `some none` = done,
`some (some n)` = the number `n` -/
def Watch.answer : Watch → TimerCall → Option (Option Nat)
  | .idle, .start _ => some none
  | .stopped _ _, .start _ => some none
  | .running _ _, .stop _ => some none
  | .running t0 marks, .record now => some (some ((now - lastMark t0 marks) / 1000000))
  | .running t0 marks, .peek now => some (some ((now - lastMark t0 marks) / 1000000))
  | .stopped t0 marks, .average => some (some ((lapTimes t0 marks).sum / marks.length))
  | .stopped t0 marks, .slowest => some (some ((lapTimes t0 marks).foldl max 0))
  | .stopped t0 marks, .time => some (some ((lastMark t0 marks - t0) / 1000000))
  | .stopped _ marks, .laps => some (some marks.length)
  | _, _ => none

/-- the stop watch after a call -/
def Watch.next : Watch → TimerCall → Watch
  | .idle, .start now => .running now []
  | .stopped _ _, .start now => .running now []
  | .running t0 marks, .stop now => .stopped t0 (marks ++ [now])
  | .running t0 marks, .record now => .running t0 (marks ++ [now])
  | w, _ => w

/-- the stop watch after a history of calls -/
def Watch.after (cs : List TimerCall) : Watch := cs.foldl Watch.next .idle

/-- the clock reading made by a call -/
def reading : TimerCall → Option Nat
  | .start t => some t | .stop t => some t | .record t => some t | .peek t => some t
  | _ => none

/-- the clock never goes back and fits a signed 64-bit number of nanoseconds (292 years) -/
def ClockFrom : Nat → List TimerCall → Prop
  | _, [] => True
  | m, c :: cs => match reading c with
    | some t => m ≤ t ∧ t < 2 ^ 63 ∧ ClockFrom t cs
    | none => ClockFrom m cs

/-- what a user of a result object knows: the success mark, and the value in it: the one set last unless it was moved
out since -/
structure Ledger (α : Type) where
  succ : SuccessType
  slot : Option α

/-- the ledger after an access -/
def Ledger.next {α : Type} (l : Ledger α) : Access α → Ledger α
  | .set a => ⟨l.succ, some a⟩
  | .mark s => ⟨s, l.slot⟩
  | .move => if l.succ = .SUCCESS then ⟨l.succ, none⟩ else l
  | .value => l
  | .ref => l

/-- the ledger after a history -/
def Ledger.after {α : Type} (l : Ledger α) (cs : List (Access α)) : Ledger α := cs.foldl Ledger.next l

/-- ways to create a result object, and what it contains then -/
inductive Creation (α : Type)
  | default
  | moveIn (a : α)
  | plain (s : SuccessType) (v : Option α)

/-- the object created -/
def Creation.object {α : Type} : Creation α → ErrorStruct α
  | .default => .default
  | .moveIn a => .createMove a
  | .plain s v => .make s v

/-- the contents at creation -/
def Creation.ledger {α : Type} : Creation α → Ledger α
  | .default => ⟨.FAIL, none⟩
  | .moveIn a => ⟨.SUCCESS, some a⟩
  | .plain s v => ⟨s, v⟩

/-- an ASCII letter -/
def isLetter (b : Byte) : Bool :=
  (ascii "abcdefghijklmnopqrstuvwxyzABCDEFGHIJKLMNOPQRSTUVWXYZ").contains b

end Verif.Spec
