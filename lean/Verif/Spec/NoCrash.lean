import Verif.Spec.Save

/- Circumstances under which a session is expected to survive, used in statements. -/
namespace Verif.Spec

/-- A file content that cannot do harm: empty, or shorter than 2^63 bytes, and if it passes for a file of the program then
it holds less than 2 GB of data and its header has none of the three flaws that kill the parser. -/
def Harmless (c : List Byte) : Prop :=
  c = [] ∨ c.length < 2 ^ 63 ∧ ∀ n, Plausible c n →
    c.length - n < 2 ^ 31 ∧ ¬ ZeroBlock c ∧ ¬ WrongChainLength c ∧ ¬ WrongHeaderSize c

/-- what may be found under a path -/
def Tame : Node → Prop
  | .file c => Harmless c
  | .unreachable => False
  | .missing => True
  | .dir => True

/-- The random source works, directories can be listed and files can be removed. Reading, writing and creating files may be
forbidden, disks may be full, clocks, random values and stream deliveries are arbitrary. -/
structure Calm (e : Env) : Prop where
  rand : ∀ i, (e.rand i).good = true
  list : ∀ p, e.canList p = true
  remove : ∀ p, e.canRemove p = true

/-- arguments a careful program passes: settings made by the public operations whose data blocks have content, no
settings with a run time, a file data object with less than 2 GB of data -/
def Careful : Call → Prop
  | .createDataHeader _ ds _ => BuiltSettings ds ∧ ∀ b ∈ ds.dec, b.data.data ≠ []
  | .createDataHeaderTime _ ds => ds.isComplete = false
  | .encryptData fd => ∃ m data, fd = some ⟨m, some data⟩ ∧ data.data.length < 2 ^ 31
  | _ => True

/-- steps a session is expected to survive -/
def Bearable : Event → Prop
  | .outside _ n => Tame n
  | .call c e => Calm e ∧ Careful c

/-- The directories that are listed in a history never become regular files: they are not one at the beginning, nobody puts
one there, and their names do not look like those of the program's files. -/
def ListsDirs (fs : FS) (evs : List Event) : Prop :=
  ∀ dir e, Event.call (.getRelevantFileNames dir) e ∈ evs →
    ¬ EncPath dir ∧ (∀ c, fs dir ≠ .file c) ∧ ∀ c, Event.outside dir (.file c) ∉ evs

end Verif.Spec
