import Verif.Spec.Header

/- What somebody can do who has a file, but not its password. Everything here is computed from the file and the (public) hash
function alone. -/
namespace Verif.Spec

/-- an encrypted data block read with the validator of the header in place of the hashed password hash -/
def readBlock (h : List Byte → List Byte) (hd : Header) (b : Byte × Byte × List Byte) : List Byte :=
  subB (b.2.2.take (b.2.1 - hd.validator.getD 1 0).toNat) (encStream h hd.validator 257 hd.salt)

/-- what a stored block contains if another stored block is known to contain `known` -/
def readBeside (known stored1 stored2 : List Byte) : List Byte := addB known (subB stored2 stored1)

end Verif.Spec
