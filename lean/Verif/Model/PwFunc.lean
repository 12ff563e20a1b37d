import Verif.Model.Util
import Verif.Model.Hash
import Verif.Model.Error

/-
Model of `/repo/src/pwfunc.cpp`.
The clock is an oracle: `clk i` is the answer of `timer.peekTime()` (milliseconds since `timer.start()`) at the check
made in round `i`. Each routine starts its own timer, and at most one check is made per round, so every behaviour of a
real clock is covered.
-/
namespace Verif

/-- `TIMEOUT_ITERATIONS`, /repo/include/settings.h l.45 -/
abbrev timeoutIterations : Nat := 1000

/-- bytes of `VALID_PASS_CHARSET`, /repo/include/settings.h l.12; the source file is UTF-8, `§` is the two bytes
C2 A7 -/
def validPassCharset : List Byte :=
  ascii "a1eo0r2ins9lt357864mdycuhkbwgzpfvxjqAWYEZSRXMTNLVBDCOIPHUGKFJQ_.-!*@$#?%&;=~+[(/]{}):" ++ [0xC2, 0xA7] ++
    ascii "<>,"

/-- Result of the password check with its error info: the offending character or nothing. See /repo/src/pwfunc.cpp l.8-38. -/
inductive PwCheck
  | valid
  | charInvalid (c : Byte)   -- ERR_PASSWD_CHAR_INVALID, errorInfo = the character
  | tooShort                 -- ERR_PASSWD_TOO_SHORT
deriving DecidableEq, Repr

/-- inner loop of `isPasswordValid`, pwfunc.cpp l.13-19 -/
def charFound (c : Byte) : List Byte → Bool
  | [] => false
  | d :: ds => if c == d then true else charFound c ds

/-- outer loop of `isPasswordValid`, pwfunc.cpp l.11-27 -/
def checkChars : List Byte → Option Byte
  | [] => none
  | c :: cs => if !charFound c validPassCharset then some c else checkChars cs

/-- `PwFunc::isPasswordValid`, pwfunc.cpp l.8-38; `MIN_PASS_LEN` = 8, settings.h l.10 -/
def isPasswordValid (pw : List Byte) : PwCheck :=
  match checkChars pw with
  | some c => .charInvalid c
  | none => if pw.length < 8 then .tooShort else .valid

/-- `std::to_string(u_int64_t)`, /repo/src/pwfunc.cpp l.82-86 -/
def toDec (n : UInt64) : List Byte := (Nat.toDigits 10 n.toNat).map fun c => UInt8.ofNat c.toNat

/-- salt value of the quadratic mode, pwfunc.cpp l.125, l.129, l.224 (64-bit wrap-around) -/
def quadValue (s a b c : UInt64) : UInt64 := a * s * s + b * s + c

/-- The common loop of all `chainhash*` routines (e.g. pwfunc.cpp l.46-55): `n` more rounds, the next round has index
`i`; `body` is the work of a round. Result `none` = left with `TIMEOUT`. -/
def chLoop {σ : Type} (timeout : Nat) (clk : Nat → Nat) (body : σ → Res σ) : Nat → Nat → σ → Res (Option σ)
  | 0, _, s => .ok (some s)
  | n + 1, i, s => do
    let s ← body s
    if timeout ≠ 0 ∧ i % timeoutIterations = 0 then
      if timeout ≤ clk i then .ok none
      else chLoop timeout clk body n (i + 1) s
    else chLoop timeout clk body n (i + 1) s

/-- The common loop of all `chainhash*Timed` routines (e.g. pwfunc.cpp l.242-252). `fuel` bounds the number of rounds;
the real loop has no bound, running out of fuel is reported as `diverge`. The 64-bit iteration counter is a natural
number here (it would wrap after 2^64 hash computations). -/
def timedLoop {σ : Type} (timeout : Nat) (clk : Nat → Nat) (body : σ → Res σ) : Nat → Nat → σ → Res (Nat × σ)
  | 0, _, _ => .fatal .diverge
  | fuel + 1, iterations, s => do
    let iterations := iterations + 1
    let s ← body s
    if iterations % timeoutIterations = 0 then
      if timeout ≤ clk iterations then .ok (iterations, s)
      else timedLoop timeout clk body fuel iterations s
    else timedLoop timeout clk body fuel iterations s

/-- conversion of the loop result to the returned `ErrorStruct<Bytes>` (e.g. pwfunc.cpp l.52, l.56) -/
def chOut {σ : Type} (f : σ → Bytes) : Option σ → Out Bytes
  | none => .timeout
  | some s => .success (f s)

namespace PwFunc
variable (H : HashFn)

/-- round of `chainhash`, pwfunc.cpp l.48 and l.147 -/
def bodyNormal (ret : Bytes) : Res Bytes := H.hash ret

/-- round of `chainhashWithConstantSalt`, pwfunc.cpp l.66-67 and l.165-166 -/
def bodyConst (salt : List Byte) (ret : Bytes) : Res Bytes := do
  let ret ← addStringToBytes salt ret
  H.hash ret salt.length

/-- round of `chainhashWithCountSalt` on strings, pwfunc.cpp l.85-87: increment first -/
def bodyCountStr (p : Bytes × UInt64) : Res (Bytes × UInt64) := do
  let s := p.2 + 1
  let ret ← addStringToBytes (toDec s) p.1
  let ret ← H.hash ret 20
  pure (ret, s)

/-- round of `chainhashWithCountSalt` on bytes, pwfunc.cpp l.184-186: increment last -/
def bodyCountBytes (p : Bytes × UInt64) : Res (Bytes × UInt64) := do
  let ret ← addStringToBytes (toDec p.2) p.1
  let ret ← H.hash ret 20
  pure (ret, p.2 + 1)

/-- round of `chainhashWithCountAndConstantSalt` on strings, pwfunc.cpp l.107-109 -/
def bodyConstCountStr (salt : List Byte) (p : Bytes × UInt64) : Res (Bytes × UInt64) := do
  let s := p.2 + 1
  let ret ← addStringToBytes (salt ++ toDec s) p.1
  let ret ← H.hash ret (salt.length + 20)
  pure (ret, s)

/-- round of `chainhashWithCountAndConstantSalt` on bytes, pwfunc.cpp l.204-206 -/
def bodyConstCountBytes (salt : List Byte) (p : Bytes × UInt64) : Res (Bytes × UInt64) := do
  let ret ← addStringToBytes (salt ++ toDec p.2) p.1
  let ret ← H.hash ret (salt.length + 20)
  pure (ret, p.2 + 1)

/-- round of `chainhashWithQuadraticCountSalt` on strings, pwfunc.cpp l.128-130 -/
def bodyQuadStr (a b c : UInt64) (p : Bytes × UInt64) : Res (Bytes × UInt64) := do
  let s := p.2 + 1
  let ret ← addStringToBytes (toDec (quadValue s a b c)) p.1
  let ret ← H.hash ret 20
  pure (ret, s)

/-- round of `chainhashWithQuadraticCountSalt` on bytes, pwfunc.cpp l.224-226 -/
def bodyQuadBytes (a b c : UInt64) (p : Bytes × UInt64) : Res (Bytes × UInt64) := do
  let ret ← addStringToBytes (toDec (quadValue p.2 a b c)) p.1
  let ret ← H.hash ret 20
  pure (ret, p.2 + 1)

/-! String versions with iteration count (all noexcept) -/

/-- `chainhash(const std::string&, …)`, pwfunc.cpp l.42-57 -/
def chainhashStr (pw : List Byte) (iterations timeout : Nat) (clk : Nat → Nat) : Res (Out Bytes) :=
  Res.noexcept do
    let ret ← H.hashStr pw
    let r ← chLoop timeout clk (bodyNormal H) (iterations - 1) 1 ret
    pure (chOut id r)

/-- `chainhashWithConstantSalt(const std::string&, …)`, pwfunc.cpp l.59-76 -/
def chainhashConstStr (pw : List Byte) (iterations : Nat) (salt : List Byte) (timeout : Nat) (clk : Nat → Nat) :
    Res (Out Bytes) :=
  Res.noexcept do
    let ret ← H.hashStr (pw ++ salt) salt.length
    let r ← chLoop timeout clk (bodyConst H salt) (iterations - 1) 1 ret
    pure (chOut id r)

/-- `chainhashWithCountSalt(const std::string&, …)`, pwfunc.cpp l.78-96 -/
def chainhashCountStr (pw : List Byte) (iterations : Nat) (start : UInt64) (timeout : Nat) (clk : Nat → Nat) :
    Res (Out Bytes) :=
  Res.noexcept do
    let ret ← H.hashStr (pw ++ toDec start) 20
    let r ← chLoop timeout clk (bodyCountStr H) (iterations - 1) 1 (ret, start)
    pure (chOut Prod.fst r)

/-- `chainhashWithCountAndConstantSalt(const std::string&, …)`, pwfunc.cpp l.98-118 -/
def chainhashConstCountStr (pw : List Byte) (iterations : Nat) (start : UInt64) (salt : List Byte) (timeout : Nat)
    (clk : Nat → Nat) : Res (Out Bytes) :=
  Res.noexcept do
    let ret ← H.hashStr (pw ++ salt ++ toDec start) (salt.length + 20)
    let r ← chLoop timeout clk (bodyConstCountStr H salt) (iterations - 1) 1 (ret, start)
    pure (chOut Prod.fst r)

/-- `chainhashWithQuadraticCountSalt(const std::string&, …)`, pwfunc.cpp l.120-139 -/
def chainhashQuadStr (pw : List Byte) (iterations : Nat) (start a b c : UInt64) (timeout : Nat)
    (clk : Nat → Nat) : Res (Out Bytes) :=
  Res.noexcept do
    let ret ← H.hashStr (pw ++ toDec (quadValue start a b c)) 20
    let r ← chLoop timeout clk (bodyQuadStr H a b c) (iterations - 1) 1 (ret, start)
    pure (chOut Prod.fst r)

/-! Byte versions with iteration count (all noexcept) -/

/-- `chainhash(const Bytes&, …)`, pwfunc.cpp l.141-156 -/
def chainhashBytes (data : Bytes) (iterations timeout : Nat) (clk : Nat → Nat) : Res (Out Bytes) :=
  Res.noexcept do
    let r ← chLoop timeout clk (bodyNormal H) iterations 0 data
    pure (chOut id r)

/-- `chainhashWithConstantSalt(const Bytes&, …)`, pwfunc.cpp l.158-175 -/
def chainhashConstBytes (data : Bytes) (iterations : Nat) (salt : List Byte) (timeout : Nat) (clk : Nat → Nat) :
    Res (Out Bytes) :=
  Res.noexcept do
    let r ← chLoop timeout clk (bodyConst H salt) iterations 0 (data.copyExtra salt.length)
    pure (chOut id r)

/-- `chainhashWithCountSalt(const Bytes&, …)`, pwfunc.cpp l.177-195 -/
def chainhashCountBytes (data : Bytes) (iterations : Nat) (start : UInt64) (timeout : Nat) (clk : Nat → Nat) :
    Res (Out Bytes) :=
  Res.noexcept do
    let r ← chLoop timeout clk (bodyCountBytes H) iterations 0 (data.copyExtra 20, start)
    pure (chOut Prod.fst r)

/-- `chainhashWithCountAndConstantSalt(const Bytes&, …)`, pwfunc.cpp l.197-215 -/
def chainhashConstCountBytes (data : Bytes) (iterations : Nat) (start : UInt64) (salt : List Byte) (timeout : Nat)
    (clk : Nat → Nat) : Res (Out Bytes) :=
  Res.noexcept do
    let r ← chLoop timeout clk (bodyConstCountBytes H salt) iterations 0 (data.copyExtra (salt.length + 20), start)
    pure (chOut Prod.fst r)

/-- `chainhashWithQuadraticCountSalt(const Bytes&, …)`, pwfunc.cpp l.217-235 -/
def chainhashQuadBytes (data : Bytes) (iterations : Nat) (start a b c : UInt64) (timeout : Nat)
    (clk : Nat → Nat) : Res (Out Bytes) :=
  Res.noexcept do
    let r ← chLoop timeout clk (bodyQuadBytes H a b c) iterations 0 (data.copyExtra 20, start)
    pure (chOut Prod.fst r)

/-! Timed versions (all noexcept): result (iterations, bytes) -/

/-- `chainhashTimed(const std::string&, …)`, pwfunc.cpp l.237-253 -/
def chainhashTimedStr (pw : List Byte) (timeout : Nat) (clk : Nat → Nat) (fuel : Nat) : Res (Nat × Bytes) :=
  Res.noexcept do
    let ret ← H.hashStr pw
    let r ← timedLoop timeout clk (bodyNormal H) fuel 1 ret
    pure r

/-- `chainhashWithConstantSaltTimed(const std::string&, …)`, pwfunc.cpp l.255-272 -/
def chainhashConstTimedStr (pw : List Byte) (timeout : Nat) (salt : List Byte) (clk : Nat → Nat) (fuel : Nat) :
    Res (Nat × Bytes) :=
  Res.noexcept do
    let ret ← H.hashStr (pw ++ salt) salt.length
    let r ← timedLoop timeout clk (bodyConst H salt) fuel 1 ret
    pure r

/-- `chainhashWithCountSaltTimed(const std::string&, …)`, pwfunc.cpp l.274-292 -/
def chainhashCountTimedStr (pw : List Byte) (timeout : Nat) (start : UInt64) (clk : Nat → Nat) (fuel : Nat) :
    Res (Nat × Bytes) :=
  Res.noexcept do
    let ret ← H.hashStr (pw ++ toDec start) 20
    let r ← timedLoop timeout clk (bodyCountStr H) fuel 1 (ret, start)
    pure (r.1, r.2.1)

/-- `chainhashWithCountAndConstantSaltTimed(const std::string&, …)`, pwfunc.cpp l.294-313 -/
def chainhashConstCountTimedStr (pw : List Byte) (timeout : Nat) (start : UInt64) (salt : List Byte)
    (clk : Nat → Nat) (fuel : Nat) : Res (Nat × Bytes) :=
  Res.noexcept do
    let ret ← H.hashStr (pw ++ salt ++ toDec start) (salt.length + 20)
    let r ← timedLoop timeout clk (bodyConstCountStr H salt) fuel 1 (ret, start)
    pure (r.1, r.2.1)

/-- `chainhashWithQuadraticCountSaltTimed(const std::string&, …)`, pwfunc.cpp l.315-334 -/
def chainhashQuadTimedStr (pw : List Byte) (timeout : Nat) (start a b c : UInt64)
    (clk : Nat → Nat) (fuel : Nat) : Res (Nat × Bytes) :=
  Res.noexcept do
    let ret ← H.hashStr (pw ++ toDec (quadValue start a b c)) 20
    let r ← timedLoop timeout clk (bodyQuadStr H a b c) fuel 1 (ret, start)
    pure (r.1, r.2.1)

/-- `chainhashTimed(const Bytes&, …)`, pwfunc.cpp l.336-352 -/
def chainhashTimedBytes (data : Bytes) (timeout : Nat) (clk : Nat → Nat) (fuel : Nat) : Res (Nat × Bytes) :=
  Res.noexcept (timedLoop timeout clk (bodyNormal H) fuel 0 data)

/-- `chainhashWithConstantSaltTimed(const Bytes&, …)`, pwfunc.cpp l.354-371 -/
def chainhashConstTimedBytes (data : Bytes) (timeout : Nat) (salt : List Byte) (clk : Nat → Nat) (fuel : Nat) :
    Res (Nat × Bytes) :=
  Res.noexcept (timedLoop timeout clk (bodyConst H salt) fuel 0 (data.copyExtra salt.length))

/-- `chainhashWithCountSaltTimed(const Bytes&, …)`, pwfunc.cpp l.373-391 -/
def chainhashCountTimedBytes (data : Bytes) (timeout : Nat) (start : UInt64) (clk : Nat → Nat) (fuel : Nat) :
    Res (Nat × Bytes) :=
  Res.noexcept do
    let r ← timedLoop timeout clk (bodyCountBytes H) fuel 0 (data.copyExtra 20, start)
    pure (r.1, r.2.1)

/-- `chainhashWithCountAndConstantSaltTimed(const Bytes&, …)`, pwfunc.cpp l.393-412 -/
def chainhashConstCountTimedBytes (data : Bytes) (timeout : Nat) (start : UInt64) (salt : List Byte)
    (clk : Nat → Nat) (fuel : Nat) : Res (Nat × Bytes) :=
  Res.noexcept do
    let r ← timedLoop timeout clk (bodyConstCountBytes H salt) fuel 0 (data.copyExtra (salt.length + 20), start)
    pure (r.1, r.2.1)

/-- `chainhashWithQuadraticCountSaltTimed(const Bytes&, …)`, pwfunc.cpp l.414-432 -/
def chainhashQuadTimedBytes (data : Bytes) (timeout : Nat) (start a b c : UInt64)
    (clk : Nat → Nat) (fuel : Nat) : Res (Nat × Bytes) :=
  Res.noexcept do
    let r ← timedLoop timeout clk (bodyQuadBytes H a b c) fuel 0 (data.copyExtra 20, start)
    pure (r.1, r.2.1)

end PwFunc
end Verif
