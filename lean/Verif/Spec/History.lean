import Verif.Model.Api
import Verif.Spec.Header
import Verif.Lemmas.HeaderOps

/- Notions about histories of a session, used in statements. -/
namespace Verif.Spec

/-- After `pre`, and after every further step of `post`, the file `p` is the selected one. -/
def StaysSelected (hs : Hashes) (rest : Api.Helper → Res Api.Helper) (w0 : World) (pre post : List Event) (p : Path) : Prop :=
  ∀ a b, post = a ++ b → ∃ rs w f, Api.run hs rest w0 (pre ++ a) = .ok (rs, w) ∧ w.api.selected = some f ∧ f.path = p

/-- The password reproduces the validator of the header: the second chain hash of its first chain hash is the stored
value. -/
def Opens (hs : Hashes) (h : Header) (pw : List Byte) : Prop :=
  ∃ m : HMode, m.toByte = h.hashMode ∧ h.ch2.digest (hs.get m).h (h.ch1.digest (hs.get m).h pw) = h.validator

/-- settings a program can build: any calls of the setters, any data blocks (made by the operations for them) in the public
vectors -/
def BuiltSettings (ds : SettingsIters) : Prop :=
  (∃ calls dec enc, ds = { SettingsIters.run calls with dec := dec, enc := enc }) ∧ (∀ b ∈ ds.dec, b.Obtainable) ∧
    ∀ b ∈ ds.enc, b.Obtainable

/-- all settings passed to header creation in a history are built by the public operations -/
def BuiltArgs (evs : List Event) : Prop :=
  ∀ pw ds t e, Event.call (.createDataHeader pw ds t) e ∈ evs → BuiltSettings ds

/-- The clock stayed below the limit `t` wherever a header creation or password check with iteration numbers `n1`, `n2` has
to look at it: in the first chain hash (every 1000th iteration but the first one), between the two, and in the second one,
which has only the remaining time. -/
def InTime (e : Env) (t n1 n2 : Nat) : Prop :=
  (∀ j, 1 ≤ j → j < n1 → j % 1000 = 0 → e.clk 0 j < t) ∧ e.peek < t ∧
    ∀ j, j < n2 → j % 1000 = 0 → e.clk 1 j < t - e.peek

/-- the password a call was given, if the call reported success: a password check or the creation of a header -/
def given : Event → Option Ret → Option (List Byte)
  | .call (.verifyPassword pw _) _, some (.flag (.success true)) => some pw
  | .call (.createDataHeader pw _ _) _, some (.flag (.success true)) => some pw
  | _, _ => none

/-- the password last accepted or set in a history, from its calls and what they returned -/
def lastGiven (evs : List Event) (rs : List (Option Ret)) : Option (List Byte) :=
  ((List.zipWith given evs rs).filterMap id).getLast?

/-- no settings in the history contain a data block without content -/
def FullBlocks (evs : List Event) : Prop :=
  ∀ pw ds t e, Event.call (.createDataHeader pw ds t) e ∈ evs → ∀ b ∈ ds.dec, b.data.data ≠ []

end Verif.Spec
