import Verif.Spec.Collision
import Verif.Spec.Cipher
import Verif.Spec.History

/- What it costs to try a password: programs that find something out about a file by asking the hash function. -/
namespace Verif.Spec

/-- a program that may ask the hash function for the hashes of inputs, each depending on the hashes before, and then answers. It may
do any other computation for free and knows everything else, like the bytes of a file. -/
inductive Asker (α : Type) where
  | answer (a : α)
  | ask (x : List Byte) (next : List Byte → Asker α)

namespace Asker
variable {α : Type}

/-- its answer with a given hash function -/
def run (h : List Byte → List Byte) : Asker α → α
  | .answer a => a
  | .ask x next => (next (h x)).run h

/-- the inputs it asks for -/
def asked (h : List Byte → List Byte) : Asker α → List (List Byte)
  | .answer _ => []
  | .ask x next => x :: (next (h x)).asked h

end Asker

/-- `a` finds out whether a password opens a file, whatever the hash function -/
def Decides (a : Asker Bool) (hd : Header) (m : HMode) (pw : List Byte) : Prop :=
  ∀ hs : Hashes, a.run (hs.get m).h = true ↔ Opens hs hd pw

/-- what is hashed to get from the password to the bytes added to the first block of the content -/
def firstInputs (h : List Byte → List Byte) (hd : Header) (pw : List Byte) : List (List Byte) :=
  let n := digestSize hd.hashMode
  let k := hd.ch1.digest h pw
  let zero := List.replicate n 0
  let k' := h (addB (addB k hd.salt) zero)
  let s' := h (addB (addB k' hd.salt) zero)
  chainInputs h (ruleOf hd.ch1.mode.toNat hd.ch1.block) hd.ch1.iters pw ++
    [addB (addB k hd.salt) zero, addB (addB k' hd.salt) zero, addB k' s']

end Verif.Spec
