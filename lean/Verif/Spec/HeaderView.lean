import Verif.Model.DataHeader
import Verif.Spec.Header

/-
The contents held by a header object, in the terms of `Verif/Spec/Header.lean`. These definitions only read fields.
-/
namespace Verif
open Spec

/-- description held by a chain hash -/
def ChainHash.desc (c : ChainHash) : ChainDesc :=
  ⟨match c.mode with | some m => m.toByte | none => 0, c.iters.toNat,
   match c.data with | some d => d.block.data | none => []⟩

/-- contents of a header object (missing parts read as zero or empty) -/
def DataHeader.contents (d : DataHeader) : Header where
  fileSize := match d.fileSize with | some n => n.toNat | none => 0
  fileMode := d.dh.fileMode.getD 0
  hashMode := match d.dh.hashMode with | some m => m.toByte | none => 0
  blocks := d.dh.dec.map fun b => (b.type, b.data.data)
  ch1 := d.dh.ch1.desc
  ch2 := d.dh.ch2.desc
  validator := match d.dh.validator with | some b => b.data | none => []
  salt := match d.dh.encSalt with | some b => b.data | none => []
  encBlocks := d.dh.enc.map fun b => (b.block.type, b.encLen, b.block.data.data)

end Verif
