import Verif.Model.Log
import Verif.Spec.History

/-
What a reader of the log may learn. The secrets of a session are the passwords, the hash of the password in memory, the data
handed in and out, and the encrypted data before it is saved; `blur…` replaces them, bytes by zeros and passwords by nothing.
-/
namespace Verif
namespace Spec

/-- the same container with zeros in it -/
def zeros (b : Bytes) : Bytes := ⟨List.replicate b.data.length 0, b.cap⟩

def blurData (f : FileDataStruct) : FileDataStruct := { f with decData := f.decData.map zeros }

/-- a session and the disk, without the secrets of the session; lengths stay -/
def blurWorld (w : World) : World :=
  { w with api := { w.api with
      pwHash := zeros w.api.pwHash, fileData := w.api.fileData.map blurData, encrypted := w.api.encrypted.map zeros } }

/-- a call without the secrets in its arguments; the length of data stays, that of passwords does not -/
def blurCall : Call → Call
  | .verifyPassword _ t => .verifyPassword [] t
  | .createDataHeader _ ds t => .createDataHeader [] ds t
  | .createDataHeaderTime _ ds => .createDataHeaderTime [] ds
  | .encryptData fd => .encryptData (fd.map blurData)
  | c => c

/-- an answer without the data in it -/
def blurRet : Ret → Ret
  | .data (.success f) => .data (.success (blurData f))
  | r => r

/-- a step of a history without its secrets -/
def blurEvent : Event → Event
  | .call c e => .call (blurCall c) e
  | ev => ev

/-- creating a header in memory failed for a reason that the answer does not tell -/
def HeaderRefused (c : Call) (r : Ret) : Prop := (∃ pw ds t, c = .createDataHeader pw ds t) ∧ r = .flag (.fail .ERR)

/-- what others see of a history: after every step the answer without the data in it, the disk, and the header in memory -/
def trace (hs : Hashes) (rest : Api.Helper → Res Api.Helper) (w : World) :
    List Event → Res (List (Option Ret × FS × Option DataHeader))
  | [] => .ok []
  | ev :: evs => do
    let x ← Api.step hs rest w ev
    let t ← trace hs rest x.2 evs
    .ok ((x.1.map blurRet, x.2.fs, x.2.api.dh) :: t)

/-- what a line can tell about the way a password is checked -/
inductive Fact
  | mode (m : Nat)
  | ch1 (c : ChainDesc)
  | ch2 (c : ChainDesc)
  | validator (v : List Byte)
deriving DecidableEq, Repr

/-- reading a line of the log, found by its text -/
def tell (l : Line) : Option Fact :=
  match l.items with
  | [.text t, .num m, .text _] => if t = "new DataHeader created (hash mode: " then some (.mode m) else none
  | [.text t, .hex v] => if t = "setting password validator hash: " then some (.validator v) else none
  | [.text t, .text _, .num m, .text _, .num n, .text _, .hex b, .text _, .num _] =>
    if t = "setting chainhash1: " then some (.ch1 ⟨UInt8.ofNat m, n, b⟩)
    else if t = "setting chainhash2: " then some (.ch2 ⟨UInt8.ofNat m, n, b⟩)
    else none
  | _ => none

/-- testing a password with nothing but the log: hash it as the log describes and compare with the value in the log -/
def guess (hs : Hashes) (log : List Line) (pw : List Byte) : Bool :=
  match log.filterMap tell with
  | [.mode m, .ch1 c1, .ch2 c2, .validator v] =>
    [HMode.sha256, .sha384, .sha512].any fun h =>
      decide (h.toByte.toNat = m) && decide (c2.digest (hs.get h).h (c1.digest (hs.get h).h pw) = v)
  | _ => false

end Spec
end Verif
