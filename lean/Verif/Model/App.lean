import Verif.Model.Modes
import Verif.Model.FileSys

/-
The console dialogue of `/repo/src/app.cpp`. The file is not in the build and does not compile against the present classes
(`getEncryptionFilePath`, `setEncryptionFilePath` and `ChainHashModes::askForData` are gone, `isValidNumber` is no member of
`App`); it is read as text. Modelled are the questions and the choice of the file, that is everything up to the calls that
no longer exist; `isValidNumber` is taken to be the function of `/repo/src/utility.cpp`. Output is not modelled.
-/
namespace Verif.App

/-- `std::cin`: the bytes not yet read, and whether the stream is still good; read in app.cpp l.114-222 -/
structure Console where
  rest : List Byte
  good : Bool
deriving DecidableEq, Repr

/-- `getline(std::cin, s)`: on a good stream `s` becomes the text up to the next line feed (which is taken from the stream)
or up to the end of the input, which leaves the stream no longer good; otherwise `s` keeps its value; app.cpp l.114, l.117, l.145, l.165, l.184, l.203, l.222 -/
def Console.getline (c : Console) (old : List Byte) : List Byte × Console :=
  if !c.good then (old, c)
  else if c.rest.contains 10 then
    (c.rest.takeWhile (· ≠ 10), ⟨(c.rest.dropWhile (· ≠ 10)).drop 1, true⟩)
  else (c.rest, ⟨[], false⟩)

/-- `isspace` in the "C" locale, inside `std::stoi`, app.cpp l.21 -/
def isSpaceByte (c : Byte) : Bool := c = 32 || (9 ≤ c && c ≤ 13)

/-- `std::stoi`: white space, a sign, digits; the rest is ignored. `invalid_argument` without digits, `out_of_range` (a
`logic_error`) if the number does not fit 32 bits. See app.cpp l.21, l.40, l.56, l.72, l.172, l.191, l.210. -/
def stoi (s : List Byte) : Res Int :=
  let s := s.dropWhile isSpaceByte
  let neg := s.head? == some 45
  let s := if s.head? = some 45 ∨ s.head? = some 43 then s.drop 1 else s
  let ds := s.takeWhile isDigitByte
  if ds = [] then .exn .invalidArgument
  else
    let n : Nat := ds.foldl (fun acc c => acc * 10 + (c.toNat - 48)) 0
    let v : Int := if neg then -n else n
    if -2147483648 ≤ v ∧ v ≤ 2147483647 then .ok v else .exn .logicError

/-- `App::isValidChar` (noexcept), app.cpp l.16-28 -/
def isValidChar (mode : List Byte) : Bool :=
  match stoi mode with
  | .ok v => decide (0 ≤ v) && decide (v < 256)
  | _ => false

/-- The common text of the three mode checks (noexcept); `valid` is the check of the number. See app.cpp l.30-76. -/
def isValidMode (valid : Modes.Num → Bool) (mode : List Byte) (acceptBlank : Bool) : Res Bool := Res.noexcept <|
  if mode = [] then .ok acceptBlank
  else if !isValidChar mode then .ok false
  else do
    let v ← stoi mode
    .ok (valid (UInt32.ofNat v.toNat))

/-- `App::isValidFileMode`, app.cpp l.30-44 -/
def isValidFileMode : List Byte → Bool → Res Bool := isValidMode Modes.fileValid
/-- `App::isValidHashMode`, app.cpp l.46-60 -/
def isValidHashMode : List Byte → Bool → Res Bool := isValidMode Modes.hashValid
/-- `App::isValidChainHashMode`, app.cpp l.62-76 -/
def isValidChainHashMode : List Byte → Bool → Res Bool := isValidMode Modes.chainValid

/-- The common text of the three mode questions (noexcept): the answer is cleared before each reading. The number goes
through an `unsigned char`. `fuel` bounds the number of readings; running out of it means that the loop did not finish. See app.cpp l.158-213. -/
def askForMode (check : List Byte → Bool → Res Bool) (standard : Byte) : Nat → Console → Res (Modes.Num × Console)
  | 0, _ => .fatal .diverge
  | fuel + 1, c => Res.noexcept do
    let (inp, c) := c.getline []
    if !(← check inp true) then askForMode check standard fuel c
    else if inp = [] then .ok (standard.toUInt32, c)
    else do
      let v ← stoi inp
      .ok ((UInt8.ofNat v.toNat).toUInt32, c)

/-- `App::askForFileMode`, app.cpp l.158-175; `STANDARD_FILEMODE`, settings.h l.18 -/
def askForFileMode : Nat → Console → Res (Modes.Num × Console) := askForMode isValidFileMode 1
/-- `App::askForHashMode`, app.cpp l.177-194; `STANDARD_HASHMODE`, settings.h l.24 -/
def askForHashMode : Nat → Console → Res (Modes.Num × Console) := askForMode isValidHashMode 3
/-- `App::askForChainHashMode`, app.cpp l.196-213; `STANDARD_CHAINHASHMODE`, settings.h l.30 -/
def askForChainHashMode : Nat → Console → Res (Modes.Num × Console) := askForMode isValidChainHashMode 4

/-- `MIN_ITERATIONS`, `MAX_ITERATIONS`, `STANDARD_ITERATIONS`, settings.h l.34-38 -/
abbrev minIters : UInt64 := 1
/-- `MAX_ITERATIONS`, /repo/include/settings.h l.38 -/
abbrev maxIters : UInt64 := 1000000000
/-- `STANDARD_ITERATIONS`, /repo/include/settings.h l.34 -/
abbrev standardIters : UInt64 := 1000

/-- `App::askForIters` (noexcept), app.cpp l.215-232; `std::stoul` throws if the number does not fit -/
def askForIters : Nat → Console → Res (UInt64 × Console)
  | 0, _ => .fatal .diverge
  | fuel + 1, c => Res.noexcept <|
    let (inp, c) := c.getline []
    if !isValidNumber inp true minIters maxIters then askForIters fuel c
    else if inp = [] then .ok (standardIters, c)
    else match stoul inp with
      | some n => .ok (n, c)
      | none => .exn .logicError

/-- the loop of `App::askForPasswd` (noexcept), app.cpp l.143-154; the string keeps its value from one round to the next -/
def askForPasswdLoop : Nat → Console → List Byte → Res (List Byte × Console)
  | 0, _, _ => .fatal .diverge
  | fuel + 1, c, pw =>
    let (pw, c) := c.getline pw
    match isPasswordValid pw with
    | .valid => .ok (pw, c)
    | _ => askForPasswdLoop fuel c pw

/-- `App::askForPasswd`, app.cpp l.140-156 -/
def askForPasswd (fuel : Nat) (c : Console) : Res (List Byte × Console) := askForPasswdLoop fuel c []

/-- what `askForHeader` asks for, app.cpp l.234-281 -/
structure Prefs where
  fileMode : Modes.Num
  hashMode : Modes.Num
  ch1Mode : Modes.Num
  ch1Iters : UInt64
  ch2Mode : Modes.Num
  ch2Iters : UInt64
  pw : List Byte
deriving DecidableEq, Repr

/-- the questions of `App::askForHeader`, app.cpp l.235-293, in their order; the questions about chain-hash data (l.252,
l.268) went to a function that no longer exists -/
def askForHeader (fuel : Nat) (c : Console) : Res (Prefs × Console) := do
  let (f, c) ← askForFileMode fuel c
  let (h, c) ← askForHashMode fuel c
  let (m1, c) ← askForChainHashMode fuel c
  let (n1, c) ← askForIters fuel c
  let (m2, c) ← askForChainHashMode fuel c
  let (n2, c) ← askForIters fuel c
  let (pw, c) ← askForPasswd fuel c
  .ok (⟨f, h, m1, n1, m2, n2, pw⟩, c)

/-- the loop asking for a file name, app.cpp l.115-118 -/
def askForNameLoop : Nat → Console → List Byte → Res (List Byte × Console)
  | 0, _, _ => .fatal .diverge
  | fuel + 1, c, name =>
    if name = [] then
      let (name, c) := c.getline name
      askForNameLoop fuel c name
    else .ok (name, c)

/-- `std::filesystem::current_path() / std::filesystem::path(filename)`: an absolute name replaces the directory, app.cpp l.128 -/
def inDirectory (cwd : Path) (name : List Byte) : Path :=
  if name.head? = some slash then name else Path.join cwd name

/-- `App::printStart`, app.cpp l.104-130: `stored` is the path remembered from an earlier start, empty if there is none.
Result: the path and the file system. The name is resolved against the working directory `cwd` by the system when the
streams are opened (l.120, l.124) and by l.128 in the same way. Storing the path (l.132-135) is not modelled. -/
def printStart (fuel : Nat) (e : Env) (fs : FS) (cwd stored : Path) (c : Console) : Res (Path × FS × Console) :=
  if stored ≠ [] then .ok (stored, fs, c)
  else do
    let (name, c) := c.getline []
    let (name, c) ← askForNameLoop fuel c name
    let name := if !endsWith name FileHandler.ext then name ++ FileHandler.ext else name
    let p := inDirectory cwd name
    let fs := if !fs.opens e p then
        match fs.openOut e p with
        | some fs' => fs'
        | none => fs
      else fs
    .ok (p, fs, c)

end Verif.App
