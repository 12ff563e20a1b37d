import Verif.Model.Basic

/- Files as the kernel shows them, used in statements: C109. -/
namespace Verif.Spec

/-- a line of ordinary length that is not the one looked for -/
def OtherLine (l : List Byte) : Prop := l.length ≤ 126 ∧ (∀ c ∈ l, c ≠ 10) ∧ l.take 6 ≠ ascii "VmRSS:"

/-- lines with their ends -/
def textOf (ls : List (List Byte)) : List Byte := ls.flatMap fun l => l ++ [10]

end Verif.Spec
