import Verif.Spec.Faults

/-
The ideal vault with faults, used by several sessions. Used in the statement that sessions that share files behave like
sessions on one ideal vault.
-/
namespace Verif.Spec

/-- one ideal vault with faults, and how far each session has come -/
structure Pool where
  slots : Path → Slot
  foreign : Path → Prop
  phase : Nat → Phase

namespace Pool

/-- the vault as the `i`-th session sees it -/
def of (m : Pool) (i : Nat) : Store := ⟨⟨m.slots, m.phase i⟩, m.foreign⟩

/-- the vault after a call of the `i`-th session -/
def after (m : Pool) (i : Nat) (s : Store) : Pool :=
  ⟨s.vault.slots, s.foreign, fun j => if j = i then s.vault.phase else m.phase j⟩

/-- what lies under a path is the same in both -/
def SameAt (m m1 : Pool) (p : Path) : Prop := m1.slots p = m.slots p ∧ (m1.foreign p ↔ m.foreign p)

end Pool

/-- A history of calls of several sessions and of changes by other programs, as the shared ideal vault with faults can live
through it. A file that a session is reading is left alone by all others. -/
inductive PRun (hs : Hashes) (locks : SettingsIters → List Byte → (List Byte → Prop) → Prop) :
    Pool → List ManyEvent → List (Option (Nat × Ret)) → Pool → Prop
  | nil (m : Pool) : PRun hs locks m [] [] m
  | call {m m2 : Pool} {s : Store} {i : Nat} {c : Call} {e : Env} {r : Ret} {evs : List ManyEvent}
      {rs : List (Option (Nat × Ret))} (h : FStep locks e (m.of i) c r s)
      (hr : ∀ j p, j ≠ i → (m.phase j).reads = some p → m.SameAt (m.after i s) p)
      (ht : PRun hs locks (m.after i s) evs rs m2) : PRun hs locks m (.call i c e :: evs) (some (i, r) :: rs) m2
  | outside {m m1 m2 : Pool} {p : Path} {n : Node} {evs : List ManyEvent} {rs : List (Option (Nat × Ret))}
      (hr : EncPath p → ∀ j, (m.phase j).reads ≠ some p) (hp : EncPath p → ∀ j, Lies hs (m1.of j) p n)
      (hph : m1.phase = m.phase) (ho : ∀ q, q ≠ p → m.SameAt m1 q) (ht : PRun hs locks m1 evs rs m2) :
      PRun hs locks m (.outside p n :: evs) (none :: rs) m2

/-- steps of several sessions with accidents -/
def FairMany : ManyEvent → Prop
  | .call _ c e => Fair (.call c e)
  | .outside p n => Fair (.outside p n)

/-- steps that are about to replace or remove what lies under a path: deleting the selected file and saving to it, saving to an
empty file, changes by other programs -/
def Aims (m : Many) : ManyEvent → Path → Prop
  | .call i .deleteFile _, p | .call i .writeToFile _, p => ∃ f, (m.api i).selected = some f ∧ f.path = p
  | .call _ (.writeToFileAt q) _, p => q = p ∧ m.fs q = .file []
  | .call _ _ _, _ => False
  | .outside q _, p => q = p

/-- whose step it is -/
def ManyEvent.who : ManyEvent → Option Nat
  | .call i _ _ => some i
  | .outside _ _ => none

/-- no step is about to replace or remove a file that another session is reading -/
def Polite (hs : Hashes) (rest : Api.Helper → Res Api.Helper) (m : Many) (evs : List ManyEvent) : Prop :=
  ∀ pre ev post rs m1, evs = pre ++ ev :: post → Api.runMany hs rest m pre = .ok (rs, m1) →
    ∀ p, EncPath p → Aims m1 ev p → ∀ j, ManyEvent.who ev ≠ some j → ¬ Reads (m1.api j) p

/-- no step is about to replace or remove what lies under the path -/
def Untouched (hs : Hashes) (rest : Api.Helper → Res Api.Helper) (m : Many) (evs : List ManyEvent) (p : Path) : Prop :=
  ∀ pre ev post rs m1, evs = pre ++ ev :: post → Api.runMany hs rest m pre = .ok (rs, m1) → ¬ Aims m1 ev p

/-- the disk with the changes made by other programs only -/
def outsideOnlyMany (fs : FS) : List ManyEvent → FS
  | [] => fs
  | .call _ _ _ :: evs => outsideOnlyMany fs evs
  | .outside p n :: evs => outsideOnlyMany (fs.set p n) evs

end Verif.Spec
