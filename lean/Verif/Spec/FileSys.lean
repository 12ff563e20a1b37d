import Verif.Spec.Header
import Verif.Model.FileSys

/-
What the documentation says about files, stated on the file system only.
-/
namespace Verif.Spec

/-- the path of a file `<stem>.enc` with a non-empty stem, in some directory or in the current one -/
def EncPath (p : Path) : Prop :=
  ∃ dir stem : List Byte, p = dir ++ (stem ++ [46, 101, 110, 99]) ∧ stem ≠ [] ∧ 47 ∉ stem ∧ (dir = [] ∨ ∃ d, dir = d ++ [47])

/-- a file content the program works with: empty, or announcing its own size and a header size between 104 bytes and the
size of the file -/
def Plausible (content : List Byte) (headerSize : Nat) : Prop :=
  (content = [] ∧ headerSize = 0) ∨
  (∃ rest, content = num8 content.length ++ (num8 headerSize ++ rest) ∧ 104 ≤ headerSize ∧ headerSize ≤ content.length)

end Verif.Spec
