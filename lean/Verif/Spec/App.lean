import Verif.Model.App
import Verif.Spec.Save

/- What a user types and what it means, used in the statements about the dialogue. -/
namespace Verif.Spec

/-- the lines of a text; a last line without line feed counts if there is something in it -/
def lines : List Byte → List (List Byte)
  | [] => []
  | c :: cs => if c = 10 then [] :: lines cs else match lines cs with
    | [] => [[c]]
    | l :: ls => (c :: l) :: ls

/-- the lines still to be read -/
def linesLeft (c : App.Console) : List (List Byte) := if c.good then lines c.rest else []

/-- a digit -/
def IsDigit (c : Byte) : Prop := 48 ≤ c.toNat ∧ c.toNat ≤ 57

/-- white space -/
def IsBlank (c : Byte) : Prop := c.toNat = 32 ∨ (9 ≤ c.toNat ∧ c.toNat ≤ 13)

/-- the line begins with the number `n`: after white space and perhaps a plus sign; whatever follows does not count -/
def Begins (l : List Byte) (n : Nat) : Prop :=
  ∃ ws sign ds tail : List Byte, l = ws ++ (sign ++ (ds ++ tail)) ∧ (∀ c ∈ ws, IsBlank c) ∧ (sign = [] ∨ sign = [43]) ∧
    ds ≠ [] ∧ (∀ c ∈ ds, IsDigit c) ∧ (∀ c, tail.head? = some c → ¬ IsDigit c) ∧ decValue ds = n

/-- the line is the number `n` and nothing else -/
def IsNumber (l : List Byte) (n : Nat) : Prop := l ≠ [] ∧ (∀ c ∈ l, IsDigit c) ∧ decValue l = n

/-- A question answered from lines of input: the first line that means something decides, an empty line or the end of the
input mean the standard answer; `says l a`: the line `l` means the answer `a`; `after` are the lines not used. -/
def Answered {α : Type} (says : List Byte → α → Prop) (standard : α) (before : List (List Byte)) (a : α)
    (after : List (List Byte)) : Prop :=
  (∃ pre l, before = pre ++ l :: after ∧ (∀ x ∈ pre, x ≠ [] ∧ ∀ b, ¬ says x b) ∧ ((l = [] ∧ a = standard) ∨ (l ≠ [] ∧ says l a))) ∨
  ((∀ x ∈ before, x ≠ [] ∧ ∀ b, ¬ says x b) ∧ a = standard ∧ after = [])

/-- the line means this mode, in a question about modes from 1 to `max` -/
def SaysMode (max : Nat) (l : List Byte) (m : Modes.Num) : Prop := Begins l m.toNat ∧ 1 ≤ m.toNat ∧ m.toNat ≤ max

/-- the line means this number of iterations -/
def SaysIters (l : List Byte) (n : UInt64) : Prop := IsNumber l n.toNat ∧ 1 ≤ n.toNat ∧ n.toNat ≤ 1000000000

/-- a password that is accepted -/
def GoodPassword (pw : List Byte) : Prop := 8 ≤ pw.length ∧ ∀ c ∈ pw, passChar c = true

/-- the six questions before the one for the password, answered from `before` with `after` left -/
def Questions (before : List (List Byte)) (a : App.Prefs) (after : List (List Byte)) : Prop :=
  ∃ l1 l2 l3 l4 l5, Answered (SaysMode 1) 1 before a.fileMode l1 ∧ Answered (SaysMode 3) 3 l1 a.hashMode l2 ∧
    Answered (SaysMode 5) 4 l2 a.ch1Mode l3 ∧ Answered SaysIters 1000 l3 a.ch1Iters l4 ∧
    Answered (SaysMode 5) 4 l4 a.ch2Mode l5 ∧ Answered SaysIters 1000 l5 a.ch2Iters after

/-- the settings made of the answers, by the setters -/
def settingsOf (a : App.Prefs) : SettingsIters :=
  SettingsIters.run [(.fileMode, a.fileMode.toNat), (.hashMode, a.hashMode.toNat), (.ch1Mode, a.ch1Mode.toNat),
    (.num1, a.ch1Iters.toNat), (.ch2Mode, a.ch2Mode.toNat), (.num2, a.ch2Iters.toNat)]

/-- the bytes of ".enc" -/
def encSuffix : List Byte := [46, 101, 110, 99]

/-- the name with the suffix ".enc", which is added if it is missing -/
def Completed (name full : List Byte) : Prop :=
  (full = name ∧ ∃ s, name = s ++ encSuffix) ∨ (full = name ++ encSuffix ∧ ¬ ∃ s, name = s ++ encSuffix)

/-- the path of a name seen from the directory `cwd`: names beginning with a slash are paths already -/
def SeenFrom (cwd : Path) (name : List Byte) (p : Path) : Prop :=
  (∃ s, name = 47 :: s ∧ p = name) ∨
  ((¬ ∃ s, name = 47 :: s) ∧ ((p = cwd ++ 47 :: name ∧ ¬ ∃ d, cwd = d ++ [47]) ∨ (p = cwd ++ name ∧ ∃ d, cwd = d ++ [47])))

/-- what is found under the path after the start, if `n` was found before: a missing file is created if possible -/
def afterStart (e : Env) (p : Path) : Node → Node
  | .missing => if e.canCreate p then .file [] else .missing
  | .file c => if e.canRead p = false ∧ e.canWrite p = true then .file [] else .file c
  | n => n

end Verif.Spec
