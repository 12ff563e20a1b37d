import Verif.Model.AppHeader

/-
`App::run` and the constructor of `App`, `/repo/src/app.cpp` l.78-102. The remembered path comes from, and goes to, functions
that no longer exist (`getEncryptionFilePath`, `setEncryptionFilePath`): it is an argument, and so is what the latter answers.
The data of the chain hashes came from a function that no longer exists either; it is any function of the answers.
-/
namespace Verif.App

/-- what a run meets: the path remembered from an earlier run (empty if there is none), the working directory, whether the
path can be remembered, the data of the two chain hashes, random source and clocks; app.cpp l.82, l.128, l.132, l.252, l.268 -/
structure Start where
  cwd : Path
  stored : Path
  kept : Path → Bool
  data1 : Prefs → Option ChainHashData
  data2 : Prefs → Option ChainHashData
  rand : Rand
  clk : Nat → Nat → Nat

/-- setting an empty file up, app.cpp l.94-98: the header stays in a local variable -/
def setUpEmpty (hs : Hashes) (fuel : Nat) (s : Start) (c : Console) : Res Bool := do
  let (a, _) ← askForHeader fuel c
  let _ ← (setUp hs a (s.data1 a) (s.data2 a) s.rand s.clk).res
  .ok true

/-- `App::run` after the start-up text, app.cpp l.90-101: only `length_error` is caught. `p` is the path of the file. -/
def afterPrint (hs : Hashes) (fuel : Nat) (e : Env) (fs : FS) (s : Start) (p : Path) (c : Console) : Res Bool :=
  match FileHandler.getFirstBytes e fs ⟨p, 0, 0, true⟩ 1 0 with
  | .ok _ => .ok true
  | .exn .lengthError => setUpEmpty hs fuel s c
  | .exn x => .exn x
  | .fatal x => .fatal x

/-- `App::App` and `App::run`, app.cpp l.78-102, with the refusal at the end of `printStart`, l.132-135: how the run ends, and
the disk then. Only `printStart` changes the disk; it does so as its last action but one. -/
def run (hs : Hashes) (fuel : Nat) (e : Env) (fs : FS) (s : Start) (c : Console) : Res Bool × FS :=
  match printStart fuel e fs s.cwd s.stored c with
  | .exn x => (.exn x, fs)
  | .fatal x => (.fatal x, fs)
  | .ok (p, fs, c) =>
    if !s.kept p then (.exn .logicError, fs)
    else (afterPrint hs fuel e fs s p c, fs)

end Verif.App
