import Verif.Model.PwFunc
import Verif.Spec.ChainHash

/-
Table of the five chain-hash modes: the arguments of a mode, the salt rule it stands for, and the four modelled
routines of `/repo/src/pwfunc.cpp` that implement it. Used to state properties once for all modes.
-/
namespace Verif.Spec

inductive ModeArgs
  | normal
  | const (salt : List Byte)
  | count (start : UInt64)
  | constCount (start : UInt64) (salt : List Byte)
  | quad (start a b c : UInt64)
deriving DecidableEq, Repr

namespace ModeArgs

/-- documented meaning of the mode -/
def rule : ModeArgs → SaltRule
  | normal => .none
  | const s => .const s
  | count start => .count start.toNat
  | constCount start s => .constCount s start.toNat
  | quad start a b c => .quad start.toNat a.toNat b.toNat c.toNat

/-- the constant salt is shorter than 4 GiB (minus a few bytes); in the program salts have at most 255 bytes -/
def SaltFits : ModeArgs → Prop
  | const s => s.length + 84 < 2 ^ 32
  | constCount _ s => s.length + 84 < 2 ^ 32
  | _ => True

open PwFunc

/-- string routines with iteration count, pwfunc.cpp l.42-139 -/
def runStr (H : HashFn) : ModeArgs → (pw : List Byte) → (iterations timeout : Nat) → (Nat → Nat) → Res (Out Bytes)
  | normal => fun pw n t clk => chainhashStr H pw n t clk
  | const s => fun pw n t clk => chainhashConstStr H pw n s t clk
  | count start => fun pw n t clk => chainhashCountStr H pw n start t clk
  | constCount start s => fun pw n t clk => chainhashConstCountStr H pw n start s t clk
  | quad start a b c => fun pw n t clk => chainhashQuadStr H pw n start a b c t clk

/-- byte routines with iteration count, pwfunc.cpp l.141-235 -/
def runBytes (H : HashFn) : ModeArgs → (data : Bytes) → (iterations timeout : Nat) → (Nat → Nat) → Res (Out Bytes)
  | normal => fun d n t clk => chainhashBytes H d n t clk
  | const s => fun d n t clk => chainhashConstBytes H d n s t clk
  | count start => fun d n t clk => chainhashCountBytes H d n start t clk
  | constCount start s => fun d n t clk => chainhashConstCountBytes H d n start s t clk
  | quad start a b c => fun d n t clk => chainhashQuadBytes H d n start a b c t clk

/-- timed string routines, pwfunc.cpp l.237-334 -/
def runTimedStr (H : HashFn) : ModeArgs → (pw : List Byte) → (timeout : Nat) → (Nat → Nat) → (fuel : Nat) →
    Res (Nat × Bytes)
  | normal => fun pw t clk fuel => chainhashTimedStr H pw t clk fuel
  | const s => fun pw t clk fuel => chainhashConstTimedStr H pw t s clk fuel
  | count start => fun pw t clk fuel => chainhashCountTimedStr H pw t start clk fuel
  | constCount start s => fun pw t clk fuel => chainhashConstCountTimedStr H pw t start s clk fuel
  | quad start a b c => fun pw t clk fuel => chainhashQuadTimedStr H pw t start a b c clk fuel

/-- timed byte routines, pwfunc.cpp l.336-432 -/
def runTimedBytes (H : HashFn) : ModeArgs → (data : Bytes) → (timeout : Nat) → (Nat → Nat) → (fuel : Nat) →
    Res (Nat × Bytes)
  | normal => fun d t clk fuel => chainhashTimedBytes H d t clk fuel
  | const s => fun d t clk fuel => chainhashConstTimedBytes H d t s clk fuel
  | count start => fun d t clk fuel => chainhashCountTimedBytes H d t start clk fuel
  | constCount start s => fun d t clk fuel => chainhashConstCountTimedBytes H d t start s clk fuel
  | quad start a b c => fun d t clk fuel => chainhashQuadTimedBytes H d t start a b c clk fuel

end ModeArgs
end Verif.Spec
