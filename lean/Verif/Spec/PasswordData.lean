import Verif.Model.PasswordData

/-!
What a password list is supposed to hold and what a search is supposed to find, without maps, loops or case conversion.
-/
namespace Verif.Spec
open Pw

/-- all parts fit the one byte length of the documented format (/repo/docs/password_data.md) -/
def Storable (p : Pw.Entry) : Prop :=
  p.site.length ≤ 255 ∧ p.username.length ≤ 255 ∧ p.email.length ≤ 255 ∧ p.password.length ≤ 255

instance (p : Pw.Entry) : Decidable (Storable p) := by unfold Storable; infer_instance

/-- equal up to the case of ASCII letters -/
def SameLetter (a b : Byte) : Prop :=
  a = b ∨ (65 ≤ a ∧ a ≤ 90 ∧ b = a + 32) ∨ (65 ≤ b ∧ b ≤ 90 ∧ a = b + 32)

/-- the texts agree letter by letter -/
def SameText : Text → Text → Prop
  | [], [] => True
  | a :: s, b :: t => SameLetter a b ∧ SameText s t
  | _, _ => False

/-- the text occurs somewhere in the name of the site, ignoring case -/
def Matches (text : Text) (p : Pw.Entry) : Prop :=
  ∃ pre mid post, p.site = pre ++ mid ++ post ∧ SameText mid text

/-- The entries the list should hold after the calls: those added, since the last attempt to load a password file. Removing
and editing are not implemented (password_data.cpp l.205-211) and count for nothing here. -/
def ledger : List Pw.Entry → List Pw.Call → List Pw.Entry
  | l, [] => l
  | l, .add p :: cs => ledger (if Storable p then l ++ [p] else l) cs
  | l, .rem _ :: cs => ledger l cs
  | l, .edit _ :: cs => ledger l cs
  | l, .load f :: cs => ledger (if f.fileMode = some 1 then [] else l) cs

/-- what is known about `std::sort` with the comparison of l.195: it orders by the name of the site, compared as byte
strings, and loses nothing -/
def SortsBySite (srt : List Pw.Entry → List Pw.Entry) : Prop :=
  ∀ l, (srt l).Perm l ∧ (srt l).Pairwise fun a b => ¬ b.site < a.site

/-- a part of an entry as documented: its length in one byte, then its bytes -/
def framed (x : Text) : Text := UInt8.ofNat x.length :: x

end Verif.Spec
