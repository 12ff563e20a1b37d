import Verif.Spec.Vault
import Verif.Spec.Select
import Verif.Spec.Isolation

/-
The ideal vault in an imperfect world: files may be forbidden, disks may be full, other programs change files, and under
some paths lies something else. Used in the statement that a session then behaves like the ideal vault with faults.
-/
namespace Verif.Spec

/-- the ideal vault and the paths under which something else lies -/
structure Store where
  vault : Vault
  foreign : Path → Prop

namespace Store

/-- something comes to lie under a path -/
def put (s : Store) (p : Path) (sl : Slot) (ph : Phase) : Store := ⟨s.vault.put p sl ph, fun q => q ≠ p ∧ s.foreign q⟩

/-- something foreign comes to lie under a path -/
def spoil (s : Store) (p : Path) (ph : Phase) : Store := ⟨s.vault.put p .missing ph, fun q => q = p ∨ s.foreign q⟩

end Store

/-- what the program refuses: a directory, or a file with some content that does not begin with a complete header -/
def Stray : Node → Prop
  | .dir => True
  | .file c => c ≠ [] ∧ Harmless c ∧ ¬ Headed 1 c
  | .missing => False
  | .unreachable => False

/-- what lies on the disk is what lies in the store -/
def Lies (hs : Hashes) (s : Store) (p : Path) (n : Node) : Prop :=
  (s.foreign p ∧ Stray n) ∨ (¬ s.foreign p ∧ InSlot hs n (s.vault.slots p))

/-- the files a call is about, besides the one in hand -/
def Touches (ph : Phase) : Call → Path → Prop
  | .createFile p, q | .selectFile p, q | .writeToFileAt p, q => EncPath q ∧ q = p
  | .writeToFile, q => ∃ L pw data, ph = .ready q L pw data
  | _, _ => False

/-- the calls that open files -/
def UsesDisk : Call → Prop
  | .createFile _ | .selectFile _ | .getFileContent | .getDecryptedData | .writeToFile | .writeToFileAt _ => True
  | _ => False

/-- `c` saves to `q`, which is there: the selected file, or an empty one -/
def SavesTo (s : Store) (c : Call) (q : Path) : Prop :=
  (c = .writeToFile ∧ s.vault.phase.path = some q ∧ (s.foreign q ∨ s.vault.slots q ≠ .missing)) ∨
  (c = .writeToFileAt q ∧ EncPath q ∧ ¬ s.foreign q ∧ s.vault.slots q = .empty)

/-- One call to the ideal vault with faults. Without faults it is a call to the ideal vault. A call that opens a file may
fail, if the outside does not cooperate or if the file is foreign or has disappeared; it then has no effect. If the outside does not
cooperate, then a save may leave nothing or a part, without notice. A save to a foreign file replaces it. -/
inductive FStep (locks : SettingsIters → List Byte → (List Byte → Prop) → Prop) (e : Env) : Store → Call → Ret → Store → Prop
  | ideal {s : Store} {c : Call} {r : Ret} {v' : Vault} (h : VStep locks s.vault c r v')
      (hq : s.vault.phase.admits c → ∀ q, Touches s.vault.phase c q →
        ¬ s.foreign q ∧ (c = .writeToFile → s.vault.slots q ≠ .missing)) :
      FStep locks e s c r ⟨v', s.foreign⟩
  | failed {s : Store} {c : Call} {code : ErrorCode} (ha : s.vault.phase.admits c) (hd : UsesDisk c)
      (hx : ¬ Friendly e ∨ ∃ q, Touches s.vault.phase c q ∧ (s.foreign q ∨ c = .writeToFile ∧ s.vault.slots q = .missing)) :
      FStep locks e s c (refusal c code) s
  | savedAll {s : Store} {c : Call} {p q : Path} {L : List Byte → Prop} {pw data : List Byte} {b : Box}
      (h : s.vault.phase = .ready p L pw data) (hq : SavesTo s c q) (ha : b.accepts = L) (hb : b.shows pw = data) :
      FStep locks e s c (.plain (.success ())) (s.put q (.box b) .done)
  | savedNothing {s : Store} {c : Call} {p q : Path} {L : List Byte → Prop} {pw data : List Byte}
      (h : s.vault.phase = .ready p L pw data) (hq : SavesTo s c q) (he : ¬ Friendly e) :
      FStep locks e s c (.plain (.success ())) (s.put q .empty .done)
  | savedPart {s : Store} {c : Call} {p q : Path} {L : List Byte → Prop} {pw data : List Byte}
      (h : s.vault.phase = .ready p L pw data) (hq : SavesTo s c q) (he : ¬ Friendly e) :
      FStep locks e s c (.plain (.success ())) (s.spoil q .done)

/-- the file a session has selected and will still read -/
def Phase.reads : Phase → Option Path
  | .chosen p | .verified p _ => some p
  | _ => none

/-- A history of calls and changes by other programs, as the ideal vault with faults can live through it. A change by another
program puts something under its path; the file that is being read is left alone. -/
inductive FRun (hs : Hashes) (locks : SettingsIters → List Byte → (List Byte → Prop) → Prop) :
    Store → List Event → List (Option Ret) → Store → Prop
  | nil (s : Store) : FRun hs locks s [] [] s
  | call {s s1 s2 : Store} {c : Call} {e : Env} {r : Ret} {evs : List Event} {rs : List (Option Ret)}
      (h : FStep locks e s c r s1) (ht : FRun hs locks s1 evs rs s2) : FRun hs locks s (.call c e :: evs) (some r :: rs) s2
  | outside {s s1 s2 : Store} {p : Path} {n : Node} {evs : List Event} {rs : List (Option Ret)}
      (hr : EncPath p → s.vault.phase.reads ≠ some p) (hp : EncPath p → Lies hs s1 p n) (hph : s1.vault.phase = s.vault.phase)
      (ho : ∀ q, q ≠ p → s1.vault.slots q = s.vault.slots q ∧ (s1.foreign q ↔ s.foreign q))
      (ht : FRun hs locks s1 evs rs s2) : FRun hs locks s (.outside p n :: evs) (none :: rs) s2

/-- The random source works, files can be removed, clocks do not run over and directories are not reported as empty. Reading,
writing and creating files may be forbidden, disks may be full. -/
structure Ordinary (e : Env) : Prop where
  rand : ∀ i, (e.rand i).good = true
  remove : ∀ p, e.canRemove p = true
  clock : e.peek = 0 ∨ ∀ j, e.peek + e.clk 1 j < 2 ^ 64
  folder : ∀ p, e.dirSize p ≠ 0

/-- steps of a session with accidents; listing a directory is left out -/
def Fair : Event → Prop
  | .outside p n => EncPath p → Tame n
  | .call (.getRelevantFileNames _) _ => False
  | .call c e => Ordinary e ∧ Careful c

/-- the session has selected the file and will still read it -/
def Reads (s : Session) (p : Path) : Prop :=
  (s.state = .EMPTY_FILE_SELECTED ∨ s.state = .FILE_SELECTED ∨ s.state = .PASSWORD_VERIFIED) ∧
  ∃ f, s.selected = some f ∧ f.path = p

/-- other programs do not change the file that is being read -/
def Undisturbed (hs : Hashes) (rest : Api.Helper → Res Api.Helper) (w : World) (evs : List Event) : Prop :=
  ∀ pre p n post rs w', evs = pre ++ .outside p n :: post → Api.run hs rest w pre = .ok (rs, w') → EncPath p →
    ¬ Reads w'.api p

end Verif.Spec
