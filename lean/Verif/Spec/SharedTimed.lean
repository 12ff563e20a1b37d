import Verif.Model.SharedTimed

/- What C69 says about run-time limited chain-hash descriptions. -/
namespace Verif.Spec
open Verif.Timed

/-- what a valid description is: a mode, a run time of 1 ms to one day, and complete data of that mode -/
def TimedValid (s : Sys) (d : Desc) : Prop :=
  ∃ m i o t, d.mode = some m ∧ d.ref = some i ∧ s.store[i]? = some o ∧ o.mode = m ∧ o.ind = o.mode.nameLens.length ∧
    d.time = some t ∧ 1 ≤ t.toNat ∧ t.toNat ≤ 24 * 60 * 60 * 1000

/-- the step does not change a data object a description refers to -/
def TimedQuietOp (s : Sys) : Op → Prop
  | .addPart i _ => ∀ d ∈ s.descs, d.ref ≠ some i
  | .genRandom i _ => ∀ d ∈ s.descs, d.ref ≠ some i
  | _ => True

/-- the step reads a run time that was never set: it copies such a description, or completes it with a mode or with data
while the other of the two is there -/
def ReadsUnset (s : Sys) : Op → Prop
  | .copy k => ∃ d, s.descs[k]? = some d ∧ d.time = none
  | .setMode k m => ∃ d, s.descs[k]? = some d ∧ d.time = none ∧ d.ref ≠ none ∧ 1 ≤ m.toNat ∧ m.toNat ≤ 5
  | .setData k ref => ∃ d i, s.descs[k]? = some d ∧ d.time = none ∧ d.mode ≠ none ∧ ref = some i ∧ i < s.store.length
  | _ => False

/-- every step of a program, in the state it is taken in, satisfies `P` -/
def Along (P : Sys → Op → Prop) (ops : List Op) : Prop :=
  ∀ pre op post s, ops = pre ++ op :: post → run pre = .ok s → P s op

end Verif.Spec
