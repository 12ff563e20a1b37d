import Verif.Spec.Told

/- The fields of a header in their order, and what is to be said about the first one that is missing or wrong. -/
namespace Verif.Spec

/-- what a header may look like from some point on -/
inductive Layout
  /-- nothing more -/
  | done
  /-- here something is wrong, and this is to be said -/
  | wrong (code : ErrorCode) (text : List Byte)
  /-- a field of so many bytes; what follows may depend on them -/
  | field (name : String) (len : Nat) (next : List Byte → Layout)

/-- what is to be said about these bytes; nothing, if they have all fields -/
def Layout.report : Layout → List Byte → Option (ErrorCode × List Byte)
  | .done, _ => none
  | .wrong code text, _ => some (code, text)
  | .field name len next, l =>
    if l.length < len then some (.ERR_NOT_ENOUGH_DATA, ascii name) else (next (l.take len)).report (l.drop len)

/-- so many data blocks -/
def blocksLayout : Nat → Layout → Layout
  | 0, next => next
  | k + 1, next => .field "Data block type" 1 fun _ => .field "Data block len" 1 fun len =>
      .field "Data block data" (beValue len) fun _ => blocksLayout k next

/-- so many encrypted data blocks -/
def encLayout : Nat → Layout
  | 0 => .done
  | k + 1 => .field "Enc datablock type" 1 fun _ => .field "Enc datablock len" 1 fun _ =>
      .field "Enc datablock data" 255 fun _ => encLayout k

/-- a chain hash; the data block of mode 4 begins with eight bytes, fewer are not enough -/
def chainLayout (num : String) (code : ErrorCode) (next : Layout) : Layout :=
  .field ("Chainhash" ++ num ++ " mode") 1 fun m =>
    if m ∉ [[1], [2], [3], [4], [5]] then .wrong .ERR_CHAINHASHMODE_FORMAT_INVALID m
    else .field ("Chainhash" ++ num ++ " iters") 8 fun iters => .field ("Chainhash" ++ num ++ " blocklen") 1 fun len =>
      if m = [4] ∧ beValue len < 8 then .wrong .ERR_NOT_ENOUGH_DATA (ascii ("Chainhash data block " ++ num))
      else .field ("Chainhash data block " ++ num) ((fixedLen (m.headD 0)).getD (beValue len)) fun _ =>
        if beValue iters = 0 ∨ 1000000000 < beValue iters then .wrong code (ascii "An error occurred while reading the header") else next

/-- the fields behind the modes, with digests of so many bytes -/
def contentLayout (size : Nat) : Layout :=
  .field "Data block count" 1 fun count => blocksLayout (beValue count) <|
  chainLayout "1" .ERR_CHAINHASH1_INVALID <| chainLayout "2" .ERR_CHAINHASH2_INVALID <|
  .field "Password validator hash" size fun _ => .field "Encrypted salt" size fun _ =>
  .field "Encrypted block count" 1 fun count => encLayout (beValue count)

/-- a header at the beginning of a file of so many bytes -/
def headerLayout (total : Nat) : Layout :=
  .field "File size" 8 fun fileSize => .field "Header size" 8 fun headerSize =>
  if beValue fileSize ≠ total then
    .wrong .ERR_FILESIZE_INVALID (ascii "file size is not equal to the given stream size (file_size: " ++
      toDec (UInt64.ofNat (beValue fileSize)) ++ ascii ", stream size: " ++ toDec (UInt64.ofNat total) ++ ascii ")")
  else if total < beValue headerSize then
    .wrong .ERR_HEADERSIZE_FILESIZE_MISMATCH (ascii "header size is bigger than the file size (header_size: " ++
      toDec (UInt64.ofNat (beValue headerSize)) ++ ascii ", file size: " ++ toDec (UInt64.ofNat total) ++ ascii ")")
  else .field "File mode" 1 fun fileMode => .field "Hash mode" 1 fun hashMode =>
    if hashMode ≠ [1] ∧ hashMode ≠ [2] ∧ hashMode ≠ [3] then .wrong .ERR_HASHMODE_INVALID hashMode
    else if fileMode ≠ [1] then .wrong .ERR_FILEMODE_INVALID fileMode
    else contentLayout (digestSize (hashMode.headD 0))

/-- what is to be said about a file -/
def report (l : List Byte) : Option (ErrorCode × List Byte) := (headerLayout l.length).report l

end Verif.Spec
