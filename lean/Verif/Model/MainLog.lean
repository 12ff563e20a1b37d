import Verif.Model.Main

/- What the demonstration program writes to its log about the decrypted data; its log goes to the console and to the file
`data/log.txt`, with everything down to the least important lines (`/repo/src/main.cpp` l.30-33). -/
namespace Verif.Demo

/-- The line about the decrypted data, main.cpp l.270-273; of the line about a failure only the beginning is modelled. -/
def decryptedLine : Ret → Res (List Char)
  | .data (.success fd) => do
    let b ← deref fd.decData
    .ok ("Got decrypted data successfully: ".toList ++ b.toHex)
  | _ => .ok "Failed to get decrypted data: ".toList

/-- the line that is logged after decrypting by the branch of `main` that is taken, main.cpp l.175-273 -/
def appendLog (hs : Hashes) (rest : Api.Helper → Res Api.Helper) (e : Nat → Env) (fs : FS) : Res (List Char) := do
  let _ ← settings
  let s ← Api.new 1
  let dir ← start (e 0) fs
  let (_, w) ← Api.call hs rest (e 1) ⟨s, fs⟩ (.selectFile (Path.join dir fileName))
  let (_, w) ← Api.call hs rest (e 2) w (.verifyPassword pass 0)
  let (r, _) ← Api.call hs rest (e 3) w .getDecryptedData
  decryptedLine r

end Verif.Demo
