import Verif.Model.Util

/-
How the benchmarks read the memory in use from /proc/self/status (/repo/benchmarks/bench_utils.h l.26-63).
A line is given by its bytes without the terminating zero.
-/
namespace Verif.BenchUtils

/-- `fgets(line, n + 1, file)`, bench_utils.h l.56: at most `n` bytes, up to the end of a line; the rest stays in the file -/
def fgets : Nat → List Byte → List Byte × List Byte
  | 0, s => ([], s)
  | _ + 1, [] => ([], [])
  | n + 1, c :: s => if c = 10 then ([c], s) else (c :: (fgets n s).1, (fgets n s).2)

/-- `atoi` of a string that begins with digits, bench_utils.h l.32; numbers too large for `int` are undefined -/
def atoi (s : List Byte) : Res Int :=
  let v : Nat := (s.takeWhile isDigitByte).foldl (fun acc x => acc * 10 + (x.toNat - 48)) 0
  if v < 2147483648 then .ok v else .fatal .ub

/-- `parseLine`, bench_utils.h l.26-34; the search for a digit (l.30) does not stop at the end of the line, which is taken as undefined,
though it may still meet bytes of an earlier, longer line in the buffer; so is writing before the beginning of the line (l.31) -/
def parseLine (line : List Byte) : Res Int :=
  let p := (line.takeWhile fun c => !isDigitByte c).length
  if p = line.length then .fatal .ub
  else if line.length < 3 then .fatal .ub
  else atoi ((line.take (line.length - 3) ++ 0 :: line.drop (line.length - 2)).drop p)

/-- the loop over the lines, bench_utils.h l.56-61; every round takes at least one byte, so the length of the file is enough rounds -/
def physLoop : Nat → List Byte → Res Int
  | 0, _ => .ok (-1)
  | fuel + 1, s =>
    let l := (fgets 127 s).1
    if l = [] then .ok (-1)
    else
      let line := l.takeWhile (· ≠ 0)
      if line.take 6 = ascii "VmRSS:" then parseLine line else physLoop fuel (fgets 127 s).2

/-- `getPhysicalMem`, bench_utils.h l.51-63; whether the file can be opened is not tested -/
def getPhysicalMem : Option (List Byte) → Res Int
  | none => .fatal .ub
  | some s => physLoop s.length s

end Verif.BenchUtils
