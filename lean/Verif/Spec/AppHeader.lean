import Verif.Model.AppHeader
import Verif.Spec.HeaderView
import Verif.Lemmas.ChainHash

/- What an onlooker reads off the screen during the set-up dialogue. -/
namespace Verif.Spec

/-- the key an onlooker reads: the hexadecimal text after the label in the last line but one -/
def keyOnScreen (text : List (List Char)) : Option (List Byte) :=
  text.reverse[1]?.bind fun l => hexDecode (l.drop "PW HASH: ".length)

/-- good answers: modes that exist, a chain hash that passes the check, and data a program can build -/
structure GoodAnswers (p : App.Prefs) (m : HMode) (m1 m2 : CHMode) (d1 d2 : ChainHashData) : Prop where
  file : p.fileMode = 1
  hash : p.hashMode = m.toByte.toUInt32
  mode1 : p.ch1Mode = m1.toByte.toUInt32
  mode2 : p.ch2Mode = m2.toByte.toUInt32
  data1 : ChainHashData.Reach d1
  data2 : ChainHashData.Reach d2
  val1 : (ChainHash.make m1 p.ch1Iters (some d1)).val = true
  val2 : (ChainHash.make m2 p.ch2Iters (some d2)).val = true

end Verif.Spec
