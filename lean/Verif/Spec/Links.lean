import Verif.Model.Links
import Verif.Spec.Overlap

/- Links to files: what it means that paths lead to the same file. -/
namespace Verif.Spec

/-- names are names of files that are there, with numbers in use -/
def Sound (d : Disk) : Prop := ∀ p i, d.entry p = .name i → i < d.next ∧ d.file i ≠ .missing

/-- two paths lead to the same file, or to the same name that is free -/
def SameFile (d : Disk) (p q : Path) : Prop := d.place p = d.place q ∧ d.place p ≠ none

/-- following the links from `q` one comes by `p` -/
inductive Leads (d : Disk) : Path → Path → Prop
  | here (p) : Leads d p p
  | step (q r p) (h : d.entry q = .link r) (hr : Leads d r p) : Leads d q p

/-- the calls that do not remove anything -/
def Keeps (s : Session) (c : Call) : Prop := c ≠ .deleteFile ∨ s.state ≠ .FILE_SELECTED ∧ s.state ≠ .EMPTY_FILE_SELECTED

/-- a disk without links: there are no symbolic links and every file has one name -/
structure Plain (d : Disk) : Prop where
  sound : Sound d
  symbolic : ∀ p q, d.entry p ≠ .link q
  hard : ∀ p q i, d.entry p = .name i → d.entry q = .name i → p = q
  there : ∀ p i, d.entry p = .name i → (∃ c, d.file i = .file c) ∨ d.file i = .dir

end Verif.Spec
