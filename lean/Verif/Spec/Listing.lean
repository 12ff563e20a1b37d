import Verif.Spec.FileSys

/-
Which names of a directory are of interest, stated on the file system only.
-/
namespace Verif.Spec

/-- `<stem>.enc` with a non-empty stem -/
def EncName (n : List Byte) : Prop := ∃ stem, n = stem ++ [46, 101, 110, 99] ∧ stem ≠ []

/-- the names of a directory are not empty and have no slash in them -/
def Names (l : List (List Byte)) : Prop := ∀ n ∈ l, n ≠ [] ∧ 47 ∉ n

/-- the path of the entry `n` of the directory `dir`: they are joined by one slash -/
def Entry (dir n p : Path) : Prop := p = dir ++ n ∧ (∃ d, dir = d ++ [47]) ∨ p = dir ++ 47 :: n ∧ ¬ ∃ d, dir = d ++ [47]

/-- the names of the regular `.enc` files of a directory, in the order of the listing -/
structure EncFiles (fs : FS) (dir : Path) (listing names : List (List Byte)) : Prop where
  order : names.Sublist listing
  exact : ∀ n ∈ listing, ∀ p, Entry dir n p → (n ∈ names ↔ EncName n ∧ ∃ c, fs p = .file c)

end Verif.Spec
