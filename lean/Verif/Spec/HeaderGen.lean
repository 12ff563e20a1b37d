import Verif.Model.HeaderGen
import Verif.Spec.Header

/-
What the header generator of the tests is asked for, and what is assumed about the random source.
-/
namespace Verif.Spec

/-- a header has the properties that were asked for -/
structure AsAsked (set : HeaderGen.GenSet) (h : Header) : Prop where
  hashMode : ∀ m, set.hashmode = some m → h.hashMode = m
  blocks : ∀ n, set.datablocknum = some n → h.blocks.length = n.toNat
  encBlocks : ∀ n, set.decdatablocknum = some n → h.encBlocks.length = n.toNat
  ch1 : ∀ n, set.chainhashlen1 = some n → h.ch1.block.length = n.toNat
  ch2 : ∀ n, set.chainhashlen2 = some n → h.ch2.block.length = n.toNat

/-- the random source never fails, and among any `k` answers in a row there is one whose fourth byte leaves the remainder
one when divided by four (a fair source does this for every `k` worth mentioning) -/
def Varied (src : Nat → Rand) (k : Nat) : Prop :=
  (∀ i, (src i).good = true) ∧ ∀ i, ∃ j, j < k ∧ ((src (i + j)).byte 3).toNat % 4 = 1

end Verif.Spec
