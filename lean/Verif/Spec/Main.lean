import Verif.Spec.Vault

/- Used in the statements about the demonstration program. -/
namespace Verif.Spec

/-- the directory of the encrypted files and the file the program works on -/
def demoDir : Path := ascii "data/enc"
def demoFile : Path := ascii "data/enc/qqY" ++ [0xEF, 0xBF, 0xBD] ++ ascii "7.enc"

/-- the password of the program -/
def demoPass : List Byte := ascii "test"

/-- its settings: SHA-256, a chain of a million rounds with counted salt, a quadratic chain of 200000 rounds -/
def demoSettings : SettingsIters := ⟨some 1, some 1, some 4, some 5, some 1000000, some 200000, [], []⟩

/-- the directory can be listed -/
structure Listable (e : Env) (fs : FS) : Prop where
  dir : fs demoDir = .dir
  allowed : e.canList demoDir = true
  entries : ∀ n ∈ e.list demoDir, fs (Path.join demoDir n) ≠ .unreachable

/-- the program reports a successful save -/
def Saved (r : Res Ret) : Prop := r = .ok (.plain (.success ()))

/-- `b'` is what becomes of the box `b` when data are added behind what the password shows: the same passwords open it -/
def Grown (b b' : Box) (pw more : List Byte) : Prop :=
  (∀ x, b'.accepts x ↔ b.accepts x) ∧ b'.shows pw = b.shows pw ++ more

end Verif.Spec
