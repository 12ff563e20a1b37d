import Verif.Spec.Header

/- The parts of a saved file, read off its bytes (docs/dataheader.md), used in statements. -/
namespace Verif.Spec

/-- the header length, second number of the file -/
def headerLen (c : List Byte) : Nat := beValue ((c.drop 8).take 8)

/-- the block size of the cipher: the digest size of the hash mode, byte 17 of the file -/
def cipherBlock (c : List Byte) : Nat := digestSize (c.getD 17 0)

/-- the data section of a file -/
def dataPart (c : List Byte) : List Byte := c.drop (headerLen c)

end Verif.Spec
