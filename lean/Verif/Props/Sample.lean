import Verif.Model.Api
import Verif.Props.FileSys

/- A concrete session used in the examples beside the theorems about sessions. -/
namespace Verif.Props

def noRest : Api.Helper → Res Api.Helper := fun h => .ok h

/-- a newly created session on a disk -/
def freshWorld (fs : FS) : World := ⟨⟨.INIT, 1, none, Bytes.empty 0, none, none, none⟩, fs⟩

example : Api.new 1 = .ok (freshWorld (fun _ => .missing)).api := by decide

def sampleSettings : SettingsIters :=
  { fileMode := some 1, hashMode := some 1, ch1Mode := some 1, ch2Mode := some 4, ch1Iters := some 2, ch2Iters := some 3,
    dec := [⟨5, Bytes.full [1, 2, 3]⟩] }

def samplePw : List Byte := ascii "Passw0rd!"

def samplePath : Path := ascii "a.enc"

/-- create a file, give it a header, save some data in it -/
def sampleSave : List Event :=
  [.call (.createFile samplePath) openEnv, .call (.selectFile samplePath) openEnv,
   .call (.createDataHeader samplePw sampleSettings 0) openEnv,
   .call (.encryptData (some ⟨some 1, some (Bytes.full (ascii "hello"))⟩)) openEnv, .call .writeToFile openEnv]

/-- log out, open the file again -/
def sampleOpen : List Event :=
  [.call .logout openEnv, .call (.selectFile samplePath) openEnv, .call (.verifyPassword samplePw 0) openEnv,
   .call .getDecryptedData openEnv]

/-- does the history run through, with this outcome? -/
def runIs (evs : List Event) (p : List (Option Ret) → World → Bool) : Bool :=
  match Api.run toyHashes noRest (freshWorld fun _ => .missing) evs with
  | .ok (rs, w) => p rs w
  | _ => false

theorem runIs_ok {evs : List Event} {p : List (Option Ret) → World → Bool} (h : runIs evs p = true) :
    ∃ rs w, Api.run toyHashes noRest (freshWorld fun _ => .missing) evs = .ok (rs, w) ∧ p rs w = true := by
  unfold runIs at h
  split at h
  · exact ⟨_, _, by assumption, h⟩
  · cases h

end Verif.Props
