import Verif.Model.App
import Verif.Model.DataHeader

/-
The end of `App::askForHeader`, `/repo/src/app.cpp` l.276-319, with what it prints. Like the rest of the file it does not
compile against the present classes and is read as text: a chain hash with its data block is taken to be a `ChainHash` of
today, `toHex(x)` to be `x.toHex()`, and the setters with a separate length to be those of today without it. The data blocks
came from a function that no longer exists; they are arguments. Questions, empty lines and line feeds are not modelled.
-/
namespace Verif.App

/-- lines sent to `std::cout` and how the function ends; app.cpp l.276-318 -/
structure Shown (α : Type) where
  text : List (List Char)
  res : Res α

namespace Shown

/-- printing one after the other; an exception ends the function but what was printed stays, app.cpp l.276-318 -/
def bind {α β : Type} (x : Shown α) (f : α → Shown β) : Shown β :=
  match x.res with
  | .ok a => ⟨x.text ++ (f a).text, (f a).res⟩
  | .exn e => ⟨x.text, .exn e⟩
  | .fatal e => ⟨x.text, .fatal e⟩

/-- sequencing of statements, app.cpp l.276-318 -/
instance : Monad Shown where
  pure a := ⟨[], .ok a⟩
  bind := bind

/-- a line of output, app.cpp l.277-317 -/
def line (s : List Char) : Shown Unit := ⟨[s], .ok ()⟩

/-- a call that prints nothing, app.cpp l.300-316 -/
def quiet {α : Type} (r : Res α) : Shown α := ⟨[], r⟩

end Shown

open Shown

/-- the part of the summary about one chain hash, app.cpp l.280-285 and l.287-291; `title` is its first line -/
def summaryChain (title : List Char) (mode : Modes.Num) (iters : UInt64) (c : ChainHash) : Shown Unit := do
  line title
  let info ← quiet (Modes.chainInfo mode)
  line ("\t[MODE] ".toList ++ info.toList)
  line ("\t[ITERATIONS] ".toList ++ (toString iters.toNat).toList)
  let d ← quiet c.getData
  line ("\t[DATABLOCKLEN] ".toList ++ (toString d.getLen).toList ++ " Bytes".toList)
  let b ← quiet d.getDataBlock
  line ("\t[DATABLOCK] ".toList ++ b.toHex)

/-- the summary, app.cpp l.276-291 -/
def summary (p : Prefs) (ch1 ch2 : ChainHash) : Shown Unit := do
  line "Following preferences will be set for this file: ".toList
  let f ← quiet (Modes.fileInfo p.fileMode)
  line ("[FILE DATA MODE] ".toList ++ f.toList)
  let h ← quiet (Modes.hashInfo p.hashMode false)
  line ("[HASH FUNCTION] ".toList ++ h.toList)
  summaryChain "[CHAINHASH1] (to derive the hash from the password):".toList p.ch1Mode p.ch1Iters ch1
  summaryChain "[CHAINHASH2] (to validate the hash from the password):".toList p.ch2Mode p.ch2Iters ch2

/-- the texts before the hashing, app.cpp l.295-300 -/
def advice : List Char :=
  ("Let's generate the password validator\nPlease note that this is the minimum time you need to decrypt you file. " ++
   "If its really slow you can set up the file again but with a faster chainhash or fewer iterations to match your hardware. " ++
   "Keep in mind that you need a stronger password if the decrypt time is shorter (its shorter too for an attacker, who can " ++
   "faster bruteforce your password).\nGenerating password hash...").toList

/-- password hash and validator, and their output, app.cpp l.295-307; `clk` are the clocks of the two chain hashes -/
def derive (hs : Hashes) (p : Prefs) (ch1 ch2 : ChainHash) (clk : Nat → Nat → Nat) : Shown (Bytes × Bytes) := do
  line advice
  let H ← quiet (Modes.getHash hs p.hashMode)
  let pwhash ← quiet do DataHeader.returnValue (← ChainHashModes.performStr ch1 H p.pw 0 (clk 0))
  line "Password hash generated. Generating password validator...".toList
  let pwval ← quiet do DataHeader.returnValue (← ChainHashModes.performBytes ch2 H pwhash 0 (clk 1))
  line "Password validator generated.".toList
  line ("PW HASH: ".toList ++ pwhash.toHex)
  line ("PW VALIDATOR: ".toList ++ pwval.toHex)
  pure (pwhash, pwval)

/-- the header object and its bytes, app.cpp l.310-318 -/
def assemble (hs : Hashes) (p : Prefs) (ch1 ch2 : ChainHash) (pwhash pwval : Bytes) (r : Rand) (clk : Nat → Nat) : Shown Bytes := do
  let header ← quiet do
    let d ← DataHeader.new p.hashMode.toUInt8 r
    let d ← d.setFileDataMode p.fileMode.toUInt8
    let d ← d.setChainHash1 ch1
    let d ← d.setChainHash2 ch2
    let d ← d.setValidPasswordHashBytes pwval
    let d ← d.calcHeaderBytes! hs pwhash clk
    d.getHeaderBytes
  line "FULL HEADER:".toList
  line header.toHex
  pure header

/-- the chain hash made of an answered mode, iterations and a data block, app.cpp l.247-252 and l.263-268; its check, l.253-257
and l.269-273 -/
def chosen (mode : Modes.Num) (iters : UInt64) (d : Option ChainHashData) : Res ChainHash :=
  match CHMode.ofByte mode.toUInt8 with
  | none => .exn .invalidArgument
  | some m =>
    let c := ChainHash.make m iters d
    if c.val then .ok c else .exn .lengthError

/-- `App::askForHeader` after its questions, app.cpp l.247-319. In the code the summary stands before the question for the
password, which is the last one; it does not use it. -/
def setUp (hs : Hashes) (p : Prefs) (d1 d2 : Option ChainHashData) (r : Rand) (clk : Nat → Nat → Nat) : Shown Bytes := do
  let ch1 ← quiet (chosen p.ch1Mode p.ch1Iters d1)
  let ch2 ← quiet (chosen p.ch2Mode p.ch2Iters d2)
  summary p ch1 ch2
  let (pwhash, pwval) ← derive hs p ch1 ch2 clk
  assemble hs p ch1 ch2 pwhash pwval r (clk 2)

end Verif.App
