import Verif.Model.DataHeader
import Verif.Model.PwFunc

/-
The brute-force attacker of /repo/tests/Attacker (switched off in tests/CMakeLists.txt l.69-80, read as text: `hash_mode` and
`valid_passwordhash` of the header parts are read through the getters of today). Printed texts are not modelled.
-/
namespace Verif.Attacker

/-- `struct AttackerReturn`, /repo/tests/Attacker/base_attacker.h l.11-16 -/
structure Return where
  success : SuccessType
  tries : UInt64
  progress : UInt64
  hash : Bytes
deriving DecidableEq, Repr

/-- Where an attack stands: it has returned, or it is still running after so many tries. The loop over the lengths has no end,
/repo/tests/Attacker/brute_pw_attacker.cpp l.24. -/
inductive Progress
  | done (r : Return)
  | running (tries : UInt64)
deriving DecidableEq, Repr

/-- number of combinations of length `l`, a `u_int64_t`, brute_pw_attacker.cpp l.26-30 -/
def numCombinations : Nat → UInt64
  | 0 => 1
  | l + 1 => numCombinations l * UInt64.ofNat validPassCharset.length

/-- combination number `index`, brute_pw_attacker.cpp l.33-40 -/
def combination : Nat → UInt64 → List Byte
  | 0, _ => []
  | l + 1, index =>
    validPassCharset.getD (index % UInt64.ofNat validPassCharset.length).toNat 0 ::
      combination l (index / UInt64.ofNat validPassCharset.length)

/-- one try: the hash compared with the validator, and whether it is the same; brute_pw_attacker.cpp l.12-15, l.43-46 -/
def attempt (hs : Hashes) (p : DataHeaderParts) (clk : Nat → Nat) (pw : List Byte) : Res (Bytes × Bool) := do
  let m ← DataHeaderParts.get p.hashMode
  let ch1 ← DataHeader.returnValue (← ChainHashModes.performStr p.ch1 (hs.get m) pw 0 clk)
  let ch2 ← DataHeader.returnValue (← ChainHashModes.performBytes p.ch2 (hs.get m) ch1 0 clk)
  let v ← DataHeaderParts.get p.validator
  .ok (ch2, ch2.beq v)

/-- the combinations of length `l` from number `i` on, brute_pw_attacker.cpp l.31-62 (the branch for a timeout is switched off,
l.55) -/
def combinations (hs : Hashes) (p : DataHeaderParts) (clk : Nat → Nat) (l : Nat) : Nat → UInt64 → UInt64 → Res Progress
  | 0, _, tries => .ok (.running tries)
  | k + 1, i, tries => do
    let tries := tries + 1
    let (ch2, good) ← attempt hs p clk (combination l i)
    if good then .ok (.done ⟨.SUCCESS, tries, UInt64.ofNat l, ch2⟩)
    else combinations hs p clk l k (i + 1) tries

/-- the lengths from `l` on, `n` of them, brute_pw_attacker.cpp l.24-67. After each length the code asks whether
`ret.success_type` is `TIMEOUT` (l.63), which nothing has set: `ret` is what the memory held before (l.8). The length is a number
without bound here (`int` in the code). -/
def lengths (hs : Hashes) (p : DataHeaderParts) (clk : Nat → Nat) (ret : Return) : Nat → Nat → UInt64 → Res Progress
  | 0, _, tries => .ok (.running tries)
  | n + 1, l, tries => do
    match ← combinations hs p clk l (numCombinations l).toNat 0 tries with
    | .done r => .ok (.done r)
    | .running tries =>
      if ret.success = .TIMEOUT then .ok (.done ret) else lengths hs p clk ret n (l + 1) tries

/-- `BrutePwAttacker::attack` (noexcept), brute_pw_attacker.cpp l.7-69, as far as it gets with the lengths 0 to `n` -/
def attack (hs : Hashes) (p : DataHeaderParts) (clk : Nat → Nat) (ret : Return) (n : Nat) : Res Progress := Res.noexcept do
  let (ch2, good) ← attempt hs p clk []
  if good then .ok (.done ⟨.SUCCESS, 1, 0, ch2⟩) else lengths hs p clk ret n 1 1

/-- `BaseAttacker::run`, /repo/tests/Attacker/base_attacker.cpp l.6-44; `none` = the attack is still running -/
def run (hs : Hashes) (d : DataHeader) (clk : Nat → Nat) (ret : Return) (n : Nat) (passwordhash : Bytes) : Res (Option Bool) := do
  let p ← d.getDataHeaderParts
  match ← attack hs p clk ret n with
  | .running _ => .ok none
  | .done r =>
    match r.success with
    | .SUCCESS => .ok (some (r.hash.beq passwordhash))
    | .FAIL => .ok (some false)
    | .TIMEOUT => .ok (some false)

end Verif.Attacker
