import Verif.Spec.Collision

/- What two files show about their passwords. -/
namespace Verif.Spec

/-- two chain hashes append the same salt in every round -/
def SameSalts (c c' : ChainDesc) : Prop :=
  c.iters = c'.iters ∧ ∀ i, i < c.iters → (ruleOf c.mode.toNat c.block).at i = (ruleOf c'.mode.toNat c'.block).at i

/-- two headers were made with the same choices: hash function, modes and numbers of iterations -/
def SameChoices (hd hd' : Header) : Prop :=
  hd.hashMode = hd'.hashMode ∧ hd.ch1.mode = hd'.ch1.mode ∧ hd.ch1.iters = hd'.ch1.iters ∧ hd.ch2.mode = hd'.ch2.mode ∧
    hd.ch2.iters = hd'.ch2.iters

instance (hd hd' : Header) : Decidable (SameChoices hd hd') := by unfold SameChoices; infer_instance

/-- the modes whose salts tell different data blocks apart: constant salt, counting salt, both -/
def Salted (mode : Byte) : Prop := mode = 2 ∨ mode = 3 ∨ mode = 4

instance (m : Byte) : Decidable (Salted m) := by unfold Salted; infer_instance

end Verif.Spec
