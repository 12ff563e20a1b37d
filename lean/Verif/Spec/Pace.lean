import Verif.Model.Api

/- How fast things go, used in statements. -/
namespace Verif.Spec

/-- the calls with a time limit -/
def Limited : Call → Prop
  | .verifyPassword .. | .createDataHeader .. => True
  | _ => False

/-- the same events at another pace: streams deliver in other portions, clocks show other times -/
inductive SameButPace : List Event → List Event → Prop
  | nil : SameButPace [] []
  | call (c : Call) (e : Env) (q r : Nat → Nat → Nat) (k : Nat) (evs evs' : List Event) (h : SameButPace evs evs') :
      SameButPace (.call c e :: evs) (.call c { e with sched := q, clk := r, peek := k } :: evs')
  | outside (p : Path) (n : Node) (evs evs' : List Event) (h : SameButPace evs evs') :
      SameButPace (.outside p n :: evs) (.outside p n :: evs')

/-- some call of the history gives up -/
def TimesOut (hs : Hashes) (rest : Api.Helper → Res Api.Helper) (w : World) (evs : List Event) : Prop :=
  ∃ pre post rs w1, evs = pre ++ post ∧ Api.run hs rest w pre = .ok (rs, w1) ∧ some (.flag .timeout) ∈ rs

/-- the clock of the password check stays below 2^64 milliseconds -/
def SaneClock (e : Env) : Prop := ∀ i, e.peek + e.clk 1 i < 2 ^ 64

end Verif.Spec
