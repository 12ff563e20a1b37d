import Verif.Spec.History
import Verif.Spec.FileSys

/- What it takes for a save to work, used in statements. -/
namespace Verif.Spec

/-- The outside cooperates in a call on the file `p`: the file may be read, written and created, the random source works,
and a password check without time limit takes less than 2^64 ms. Random values, clocks, stream deliveries and everything
about other files are arbitrary. -/
structure Healthy (e : Env) (p : Path) : Prop where
  read : e.canRead p = true
  write : e.canWrite p = true
  create : e.canCreate p = true
  rand : ∀ i, (e.rand i).good = true
  clock : e.peek = 0 ∨ ∀ j, e.peek + e.clk 1 j < 2 ^ 64

/-- settings from which a header can be made and read again: built by the public operations, nothing missing, at most 255
data blocks of each kind, no data block without content -/
structure Usable (ds : SettingsIters) : Prop where
  built : BuiltSettings ds
  complete : ds.isComplete = true
  dec : ds.dec.length ≤ 255
  enc : ds.enc.length ≤ 255
  full : ∀ b ∈ ds.dec, b.data.data ≠ []

/-- the header was made from these settings -/
structure MadeFrom (ds : SettingsIters) (h : Header) : Prop where
  hashMode : ds.hashMode = some h.hashMode.toNat
  mode1 : ds.ch1Mode = some h.ch1.mode.toNat
  iters1 : ds.ch1Iters = some h.ch1.iters
  mode2 : ds.ch2Mode = some h.ch2.mode.toNat
  iters2 : ds.ch2Iters = some h.ch2.iters
  blocks : h.blocks = ds.dec.map fun b => (b.type, b.data.data)
  encBlocks : h.encBlocks = ds.enc.map fun b => (b.block.type, b.encLen, b.block.data.data)

/-- two headers differ at most in salt and file size -/
def SaltOnly (h h' : Header) : Prop := h' = { h with salt := h'.salt, fileSize := h'.fileSize }

/-- the data a call was given to encrypt, if the call reported success -/
def givenData : Event → Option Ret → Option (List Byte)
  | .call (.encryptData (some ⟨_, some data⟩)) _, some (.flag (.success true)) => some data.data
  | _, _ => none

/-- the data last encrypted in a history, from its calls and what they returned -/
def lastData (evs : List Event) (rs : List (Option Ret)) : Option (List Byte) :=
  ((List.zipWith givenData evs rs).filterMap id).getLast?

end Verif.Spec
