import Verif.Spec.FileSys
import Verif.Spec.Header
import Verif.Spec.Api

/- What selecting a file is about, used in statements. -/
namespace Verif.Spec

/-- the content begins with a header of the documented form that announces the size of the whole content -/
def Headed (mode : Byte) (content : List Byte) : Prop :=
  ∃ (h : Header) (data : List Byte), h.Valid ∧ content = h.bytes ++ data ∧ h.fileSize = content.length ∧ h.fileMode = mode

/-- a header damaged in one of the three ways that end the process -/
def Deadly (content : List Byte) : Prop :=
  ZeroBlock content ∨ WrongChainLength content ∨ WrongHeaderSize content

end Verif.Spec
