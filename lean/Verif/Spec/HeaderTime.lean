import Verif.Model.HeaderTime
import Verif.Spec.ChainTable
import Verif.Spec.Save

/- Creating a header by run time. -/
namespace Verif.Spec
open Api

/-- the same settings with numbers of iterations instead of run times -/
def withIters (ds : SettingsTime) (n1 n2 : Nat) : SettingsIters :=
  { fileMode := ds.fileMode, hashMode := ds.hashMode, ch1Mode := ds.ch1Mode, ch2Mode := ds.ch2Mode,
    ch1Iters := some n1, ch2Iters := some n2, dec := ds.dec, enc := ds.enc }

/-- settings with run times `t1`, `t2` that the setters let through and that hold at most 255 data blocks of each kind, made by the
operations for them -/
structure TimeSettings (ds : SettingsTime) (t1 t2 : Nat) : Prop where
  usable : Usable (withIters ds 1 1)
  time1 : ds.ch1Time = some t1
  time2 : ds.ch2Time = some t2
  range1 : 1 ≤ t1 ∧ t1 ≤ 86400000
  range2 : 1 ≤ t2 ∧ t2 ≤ 86400000

/-- the arguments of the chain-hash routine that a mode and its data block stand for, docs/chainhash_modes.md -/
def routine : CHMode → List Byte → ModeArgs
  | .normal, _ => .normal
  | .constSalt, b => .const b
  | .count, b => .count (UInt64.ofNat (beValue b))
  | .constCount, b => .constCount (UInt64.ofNat (beValue (b.take 8))) (b.drop 8)
  | .quad, b => .quad (UInt64.ofNat (beValue (b.take 8))) (UInt64.ofNat (beValue ((b.drop 8).take 8)))
      (UInt64.ofNat (beValue ((b.drop 16).take 8))) (UInt64.ofNat (beValue ((b.drop 24).take 8)))

/-- what the timed `performChainHash` was meant to do: run the routine of the mode and describe what was done -/
def meantResult (c : ChainHashTimed) (d : ChainHashData) (r : Res (Nat × Bytes)) : Res (Out ChainHashResult) :=
  match r with
  | .ok (n, b) => .ok (.success ⟨ChainHash.make c.mode (UInt64.ofNat n) (some d), b⟩)
  | .exn x => .exn x
  | .fatal f => .fatal f

/-- timed chain hashing as meant, with the clocks of the two chain hashes -/
structure AsMeant (T : TimedHash) (clk : Nat → Nat → Nat) (fuel : Nat) : Prop where
  str : ∀ (c : ChainHashTimed) (d : ChainHashData) (H : HashFn) (pw : List Byte), c.val = true → c.data = some d →
    T.str c H pw = meantResult c d ((routine c.mode d.block.data).runTimedStr H pw c.runTime.toNat (clk 0) fuel)
  bytes : ∀ (c : ChainHashTimed) (d : ChainHashData) (H : HashFn) (x : Bytes), c.val = true → c.data = some d →
    T.bytes c H x = meantResult c d ((routine c.mode d.block.data).runTimedBytes H x c.runTime.toNat (clk 1) fuel)

end Verif.Spec
