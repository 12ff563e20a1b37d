import Verif.Model.Api

/-
Model of the part of `/repo/src/api.cpp` l.131-222 that creates a header by run time, as far as `Api.createDataHeaderTime`
(Model/Api.lean) leaves it open: the code after the construction of the result, which never runs because that construction throws.
-/
namespace Verif

/-- `operator=`, chainhash_modes.h l.240-246: the result of assigning `c` -/
def ChainHashTimed.assign (c : ChainHashTimed) : Res ChainHashTimed := do
  let m ← c.getMode
  let t ← c.getRunTime
  .ok (make m t c.data)

namespace Api

/-- the two overloads of the timed `performChainHash`, chainhash_modes.h l.33-34; the clock is part of them -/
structure TimedHash where
  str : ChainHashTimed → HashFn → List Byte → Res (Out ChainHashResult)
  bytes : ChainHashTimed → HashFn → Bytes → Res (Out ChainHashResult)

/-- the overloads of the program, chainhash_modes.cpp l.129-201; `clk j i` is the clock of routine `i` in chain hash `j` -/
def timedHash (clk : Nat → Nat → Nat → Nat) (fuel : Nat) : TimedHash where
  str c H pw := ChainHashModes.performTimedStr c H pw (clk 0) fuel
  bytes c H x := ChainHashModes.performTimedBytes c H x (clk 1) fuel

/-- the `try` block, api.cpp l.156-169; the descriptions of l.154-155 are overwritten -/
def makeChainsTime (ds : SettingsTime) (e : Env) : Res (ChainHashTimed × ChainHashTimed) := do
  let m1 ← chMode (← ds.getChainHash1Mode)
  let m2 ← chMode (← ds.getChainHash2Mode)
  let d1 ← (ChainHashData.new m1).generateRandomData (e.rand 0)
  let d2 ← (ChainHashData.new m2).generateRandomData (e.rand 1)
  let c1 ← (ChainHashTimed.make m1 (UInt64.ofNat (← ds.getChainHash1Time)) (some d1)).assign
  let c2 ← (ChainHashTimed.make m2 (UInt64.ofNat (← ds.getChainHash2Time)) (some d2)).assign
  if (← c1.getData).getLen ≠ d1.getLen ∨ (← c2.getData).getLen ≠ d2.getLen then .exn .logicError else .ok (c1, c2)

/-- the two chain hashes and the header, api.cpp l.177-221 -/
def makeHeaderTime (hs : Hashes) (T : TimedHash) (pw : List Byte) (ds : SettingsTime) (e : Env)
    (c1 c2 : ChainHashTimed) : Res Helper := do
  let p : DataHeaderParts := { DataHeaderParts.empty with dec := ds.dec, enc := ds.enc }
  let p ← p.setFileDataMode (UInt8.ofNat (← ds.getFileDataMode))
  let p ← p.setHashMode (UInt8.ofNat (← ds.getHashMode))
  let m ← DataHeaderParts.get p.hashMode
  match ← T.str c1 (hs.get m) pw with
  | .fail c => .ok (.createMove (.fail c))
  | .timeout => .ok (.createMove .timeout)
  | .success r1 => do
    let p := { p with ch1 := ← r1.chainhash.assign }
    match ← T.bytes c2 (hs.get m) r1.result with
    | .fail c => .ok (.createMove (.fail c))
    | .timeout => .ok (.createMove .timeout)
    | .success r2 => do
      let p := { p with ch2 := ← r2.chainhash.assign }
      let p ← p.setValidPasswordHash r2.result
      let salt ← (Bytes.empty (hs.get m).size).fillrandom (e.rand 2)
      let p ← p.setEncSalt salt
      let o ← DataHeader.setHeaderParts p (e.rand 3)
      .ok ⟨o, r1.result⟩

/-- the code after the construction of the result, api.cpp l.142-222, if that construction had made what l.140 asks for: no header and
the error `ERR` -/
def timeRest (hs : Hashes) (T : TimedHash) (mode : Byte) (pw : List Byte) (ds : SettingsTime) (e : Env) : Res Helper := do
  if (← ds.getFileDataMode) ≠ mode.toNat then .ok (.createMove (.fail .ERR_FILEMODE_INVALID))
  else do
    match ← Res.attempt (makeChainsTime ds e) with
    | none => .ok (.createMove (.fail .ERR))
    | some (c1, c2) => makeHeaderTime hs T pw ds e c1 c2

end Api
end Verif
