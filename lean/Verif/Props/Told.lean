import Verif.Lemmas.ToldCalls
import Verif.Lemmas.Report
import Verif.Props.Flaw
import Verif.Props.Session

/- What a failed call says: C104. -/
namespace Verif.Props
open Spec

variable {hs : Hashes} {rest : Api.Helper → Res Api.Helper}

/-- C104: the texts are beside the point: without them, the calls of Model/Told are those of Model/Api, for all states and
arguments. Everything shown of `Api.call` holds of the calls that come with texts. -/
theorem C104_same (e : Env) (w : World) (c : Call) :
    (fun r : (Ret × List Byte) × World => (r.1.1, r.2)) <$> Tell.call hs rest e w c = Api.call hs rest e w c :=
  Tell.call_out hs rest e w c

/-- what a call says, if it returns -/
def said (e : Env) (w : World) (c : Call) : Option (Ret × List Byte) :=
  match Tell.call toyHashes noRest e w c with
  | .ok r => some r.1
  | _ => none

/-- a call that fails and one that works -/
example : said openEnv (freshWorld (oneFile samplePath smallVault)) (.createFile samplePath) =
    some (.flag (.fail .ERR_FILE_EXISTS), samplePath) := by decide +kernel
example : said openEnv (freshWorld (oneFile samplePath smallVault)) (.selectFile samplePath) = some (.flag (.success true), []) := by
  decide +kernel

/-- C104: a call that succeeds says nothing. -/
theorem C104_success (e : Env) (w w' : World) (c : Call) (r : Ret) (i : List Byte)
    (hl : ∀ p l, w.fs p = .file l → l.length < 2 ^ 64) (h : Tell.call hs rest e w c = .ok ((r, i), w')) (hr : succeeded r = true) : i = [] :=
  (Tell.call_text hs rest e w c hl _ h).success hr

/-- such a call -/
example : said openEnv (freshWorld (oneFile samplePath smallVault)) .logout = some (.void, []) := by decide

theorem shown_self {p : List Byte} (h : 0 ∉ p) : shown p = p := by
  induction p with
  | nil => rfl
  | cons b l ih =>
    have hb : b ≠ 0 := fun hb => h (hb ▸ List.mem_cons_self)
    rw [shown, if_neg hb, ih fun h' => h (List.mem_cons_of_mem _ h')]

/-- a path is told: the message for an error about a path contains the text that comes with it -/
theorem path_told (code : ErrorCode) (h : code ∈ pathCodes) (i what : List Byte) (v : Bool) :
    i <:+: getErrorMessage .FAIL (some code) i what v := by
  show i <:+: errorText i code ++ exceptionText what v
  have pre : ∀ a x : List Byte, i <:+: (a ++ i) ++ x := fun a x => ⟨a, x, rfl⟩
  have post : ∀ a b x : List Byte, i <:+: (if i = [] then a else i ++ b) ++ x := by
    intro a b x
    by_cases hi : i = []
    · rw [hi]
      exact ⟨[], _, rfl⟩
    · rw [if_neg hi]
      exact ⟨[], b ++ x, by simp⟩
  simp only [pathCodes, List.mem_cons, List.mem_nil_iff, or_false] at h
  rcases h with rfl | rfl | rfl | rfl | rfl | rfl | rfl | rfl | rfl | rfl
  · exact post _ _ _
  · exact pre _ _
  · exact post _ _ _
  · exact post _ _ _
  · exact post _ _ _
  · exact post _ _ _
  · exact post _ _ _
  · exact post _ _ _
  · exact post _ _ _
  · exact pre _ _

/-- C104: a call that fails with an error about a path says which path: the one it was given, or the one of the selected file. The
message for the error contains it, up to a zero byte. -/
theorem C104_path (e : Env) (w w' : World) (c : Call) (r : Ret) (i : List Byte) (hl : ∀ p l, w.fs p = .file l → l.length < 2 ^ 64)
    (h : Tell.call hs rest e w c = .ok ((r, i), w')) (code : ErrorCode) (hr : retCode r = some code) (hc : code ∈ pathCodes) :
    ∃ p, aboutPath w.api c = some p ∧ i = shown p ∧ (0 ∉ p → i = p) ∧
      ∀ what v, shown p <:+: getErrorMessage .FAIL (some code) i what v := by
  obtain ⟨p, hp, hi⟩ := (Tell.call_text hs rest e w c hl _ h).path code hr hc
  exact ⟨p, hp, hi, fun h0 => hi.trans (shown_self h0), fun what v => hi ▸ path_told code hc i what v⟩

/-- such calls: a path with another ending, one that does not exist, a file to delete that is gone -/
example : said openEnv (freshWorld fun _ => .missing) (.selectFile (ascii "/a.txt")) =
    some (.flag (.fail .ERR_EXTENSION_INVALID), ascii "/a.txt") := by decide +kernel
example : said openEnv (freshWorld fun _ => .missing) (.getRelevantFileNames (ascii "/none")) =
    some (.names (.fail .ERR_FILEPATH_INVALID), ascii "/none") := by decide +kernel
example : said openEnv
      ⟨{ (freshWorld fun _ => .missing).api with state := .EMPTY_FILE_SELECTED, selected := some ⟨samplePath, 0, 0, true⟩ },
        fun _ => .missing⟩ .deleteFile = some (.flag (.fail .ERR_FILE_NOT_DELETED), samplePath) := by decide +kernel
example : ascii "/a.txt" <:+: getErrorMessage .FAIL (some .ERR_EXTENSION_INVALID) (ascii "/a.txt") [] false :=
  ⟨[], ascii " file extension is invalid", by decide⟩

/-! ### files that are not named -/

/-- C104 is violated: a file that cannot be taken for its size fields is not named; the text is empty. -/
theorem C104_violated_which (e : Env) (w : World) (p : Path) (c : List Byte) (hst : w.api.state = .INIT) (hf : w.fs p = .file c)
    (hl : c.length < 2 ^ 63) (hp : EncPath p) (hr : e.canRead p = true) (hg : (e.rand 0).good = true) (hn : ¬ ∃ n, Plausible c n) :
    Tell.call hs rest e w (.selectFile p) = .ok ((.flag (.fail .ERR_FILEHANDLER_CREATION), []), w) ∧
    ∀ what, getErrorMessage .FAIL (some .ERR_FILEHANDLER_CREATION) [] what false = ascii "FileHandler could not be created: " := by
  have hc := (C75_answer_partial (hs := hs) (rest := rest) e w p c hst hf hl hp hr hg).2.2.1 hn
  have ho : (w.fs.openIn e p 1).rest.length < 2 ^ 64 := by
    have : w.fs.openIn e p 1 = ⟨c, e.sched 1, false, false⟩ := by simp [FS.openIn, hf, hr]
    rw [this]
    exact Nat.lt_trans hl (by decide)
  have hs' := Tell.call_out hs rest e w (.selectFile p)
  have hall := Tell.selectFile_all hs e w p ho
  refine ⟨?_, fun _ => by simp [getErrorMessage, errorText, exceptionText]⟩
  rw [hc] at hs'
  have hcall : Tell.call hs rest e w (.selectFile p) =
      (Tell.selectFile hs e w p >>= fun r => .ok ((.flag r.1.1, r.1.2), r.2)) := by
    simp only [Tell.call, hst]
  rw [hcall] at hs' ⊢
  cases hx : Tell.selectFile hs e w p with
  | exn x => rw [hx] at hs'; cases hs'
  | fatal x => rw [hx] at hs'; cases hs'
  | ok r =>
    have hg := hall r hx
    rw [hx] at hs'
    obtain ⟨⟨o, i⟩, w1⟩ := r
    have h1 : (Ret.flag o, w1) = (Ret.flag (.fail .ERR_FILEHANDLER_CREATION), w) := Res.ok.inj hs'
    cases h1
    rcases hg with (⟨hm, -⟩ | ⟨-, hi⟩) | hsay
    · exact absurd hm (by decide)
    · show Res.ok _ = _
      rw [show i = [] from hi]
    · rcases hsay with h | h
      · cases h
      · exact absurd h (by decide)

/-- such a file -/
example : (¬ ∃ n, Plausible [1, 2, 3] n) ∧
    said openEnv (freshWorld (oneFile samplePath [1, 2, 3])) (.selectFile samplePath) =
      some (.flag (.fail .ERR_FILEHANDLER_CREATION), []) :=
  ⟨by
    rintro ⟨n, ⟨h, -⟩ | ⟨x, h, -⟩⟩
    · cases h
    · have := congrArg List.length h
      simp at this
      omega, by decide +kernel⟩

/-! ### wrong states -/

/-- the calls whose refusal is worded as it should be -/
def worded : Call → Bool
  | .createFile _ | .unselectFile | .deleteFile | .createDataHeader _ _ _ => false
  | _ => true

/-- C104, as far as it holds: a call that the state does not offer says its own name and the states that offer it. Missing: four
calls, see `C104_violated_state`. -/
theorem C104_state_partial (e : Env) (w : World) (c : Call) (h : w.api.state ∉ statesFor c) (hs' : lacksSettings c = false)
    (hw : worded c = true) :
    ∃ r, Tell.call hs rest e w c = .ok ((r, ascii (availability c)), w) ∧ retCode r = some .ERR_API_STATE_INVALID := by
  obtain ⟨⟨st, mode, fd, ph, ed, dh, sel⟩, fs⟩ := w
  cases c with
  | createFile p => cases hw
  | unselectFile => cases hw
  | deleteFile => cases hw
  | createDataHeader pw ds t => cases hw
  | createDataHeaderTime pw ds =>
    have hs' : (!ds.isComplete) = false := hs'
    cases st <;> first
      | (exfalso; simp [statesFor] at h; done)
      | exact ⟨_, by simp only [Tell.call, hs']; rfl, rfl⟩
  | _ => cases st <;> first
      | (exfalso; simp [statesFor] at h; done)
      | exact ⟨_, rfl, rfl⟩

/-- such a call -/
example : said openEnv (freshWorld fun _ => .missing) (.verifyPassword (ascii "password") 0) =
    some (.flag (.fail .ERR_API_STATE_INVALID), ascii "verifyPassword is only available in the FILE_SELECTED state") := by decide +kernel
example : availability .isFileEmpty = "isFileEmpty is only available in the FILE_SELECTED or EMPTY_FILE_SELECTED state" := by decide

/-- C104 is violated: `createFile` and `deleteFile` are called by names that do not exist, `unselectFile` is called `selectFile`, so
that the text says of `selectFile` what is not true, and `createDataHeader` is said to work in a state that does not exist. -/
theorem C104_violated_state (e : Env) (w : World) (hst : w.api.state = .FINISHED) :
    (∀ p, ∃ r, Tell.call hs rest e w (.createFile p) = .ok ((r, ascii "createEncFile is only available in the INIT state"), w)) ∧
    (∃ r, Tell.call hs rest e w .deleteFile =
      .ok ((r, ascii "deleteEncFile is only available in the FILE_SELECTED or EMPTY_FILE_SELECTED state"), w)) ∧
    (∃ r, Tell.call hs rest e w .unselectFile =
      .ok ((r, ascii "selectFile is only available in the FILE_SELECTED or EMPTY_FILE_SELECTED state"), w)) ∧
    (∀ pw ds t, ds.isComplete = true → ∃ r, Tell.call hs rest e w (.createDataHeader pw ds t) =
      .ok ((r, ascii "createDataHeader is only available in the EMPTY_FILE_SELECTED or DECRYPT state"), w)) ∧
    (∀ c, methodName c ≠ "createEncFile" ∧ methodName c ≠ "deleteEncFile") ∧ (∀ p, statesFor (.selectFile p) = [.INIT]) ∧
    (∀ s, stateName s ≠ "DECRYPT") := by
  obtain ⟨⟨st, mode, fd, ph, ed, dh, sel⟩, fs⟩ := w
  cases hst
  refine ⟨fun p => ⟨_, rfl⟩, ⟨_, rfl⟩, ⟨_, rfl⟩, fun pw ds t hd => ⟨_, by simp only [Tell.call, hd]; rfl⟩, fun c => ?_, fun _ => rfl, fun s => ?_⟩
  · cases c <;> (simp only [methodName]; decide)
  · cases s <;> decide

/-- such a world -/
example : said openEnv ⟨{ (freshWorld fun _ => .missing).api with state := .FINISHED }, fun _ => .missing⟩ .unselectFile =
    some (.flag (.fail .ERR_API_STATE_INVALID),
      ascii "selectFile is only available in the FILE_SELECTED or EMPTY_FILE_SELECTED state") := by decide +kernel

/-! ### damaged headers -/

/-- C104: a damaged header, any delivery. The error belongs to the first flaw (C94), and the text that comes with it is exactly the one
`report` finds to be said about these bytes: missing data come with the name of the field that is missing, sizes that do not match with
both sizes. There is one exception, a file that ends behind the salt (see `C104_violated_end`). -/
theorem C104_header (e : Env) (w w' : World) (p : Path) (c : List Byte) (hst : w.api.state = .INIT) (hf : w.fs p = .file c)
    (hl : c.length < 2 ^ 63) (hp : EncPath p) (hr : e.canRead p = true) (hg : (e.rand 0).good = true) (hne : c ≠ [])
    (hpl : ∃ n, Plausible c n) (code : ErrorCode) (i : List Byte)
    (h : Tell.call hs rest e w (.selectFile p) = .ok ((.flag (.fail code), i), w')) :
    Flaw c code ∧ HeaderText code i ∧ w' = w ∧ (report c = some (code, i) ∨
      (report c = some (.ERR_NOT_ENOUGH_DATA, ascii "Encrypted block count") ∧ code = .ERR_FILESIZE_INVALID ∧
        i = [UInt8.ofNat c.length])) := by
  have hs' := Tell.call_out hs rest e w (.selectFile p)
  rw [h] at hs'
  obtain ⟨hfl, hw⟩ := (C94_select (hs := hs) (rest := rest) e w p c hst hf hl hp hr hg hne hpl code).2 w' hs'.symm
  have chain : ∀ {l c}, ChainFlaw l c → c = .ERR_NOT_ENOUGH_DATA ∨ c = .ERR_CHAINHASHMODE_FORMAT_INVALID := by
    intro l c h
    cases h <;> simp
  have hcodes : code ∈ Tell.headerCodes := by
    cases hfl with
    | chain1 _ _ _ _ _ hc => rcases chain hc with rfl | rfl <;> decide
    | chain2 _ _ _ _ _ _ _ hc => rcases chain hc with rfl | rfl <;> decide
    | _ => decide
  have hopen : w.fs.openIn e p 1 = ⟨c, e.sched 1, false, false⟩ := by simp [FS.openIn, hf, hr]
  have ho : (w.fs.openIn e p 1).rest.length < 2 ^ 64 := by
    rw [hopen]
    exact Nat.lt_trans hl (by decide)
  have hcall : Tell.call hs rest e w (.selectFile p) =
      (Tell.selectFile hs e w p >>= fun r => .ok ((.flag r.1.1, r.1.2), r.2)) := by
    simp only [Tell.call, hst]
  rw [hcall] at h
  cases hx : Tell.selectFile hs e w p with
  | exn x => rw [hx] at h; cases h
  | fatal x => rw [hx] at h; cases h
  | ok r =>
    have hgood := Tell.selectFile_source hs e w p r hx
    rw [hx] at h
    obtain ⟨⟨o, j⟩, w1⟩ := r
    have h1 : ((Ret.flag o, j), w1) = ((Ret.flag (.fail code), i), w') := Res.ok.inj h
    cases h1
    rcases hgood with (⟨hm, -⟩ | ⟨rfl, -⟩) | hread
    · simp only [Tell.headerCodes, List.mem_cons, List.mem_nil_iff, or_false] at hcodes
      rcases hcodes with rfl | rfl | rfl | rfl | rfl | rfl | rfl | rfl <;> exact absurd hm (by decide)
    · exact absurd hcodes (by decide)
    · refine ⟨hfl, ?_, hw, ?_⟩
      · rcases Tell.stops_rdHeader Tell.stops_rdStream _ hs (e.rand 0) _ ho code i hread with hsay | hsay
        · exact hsay
        · simp only [List.mem_cons, List.mem_nil_iff, or_false] at hsay
          rcases hsay with rfl | rfl | rfl <;> exact absurd hcodes (by decide)
      · have hrep := Tell.rdHeader_report hs (e.rand 0) _ (by rw [hopen]) code i hread hcodes
        simp only [hopen] at hrep
        rcases hrep with hrep | ⟨rfl, rfl⟩
        · exact .inl hrep
        · cases hfl with
          | fileSize _ hn =>
            have := Tell.size_text (by rw [hopen]) (by simp only [hopen]; exact hn) hread
            exact absurd this (by simp)
          | chain1 _ _ _ _ _ hc => rcases chain hc with h | h <;> cases h
          | chain2 _ _ _ _ _ _ _ hc => rcases chain hc with h | h <;> cases h
          | encCount hmode bs c1 c2 tail h hv hv' hr =>
            exact .inr ⟨Tell.report_ended h hv hv' hr (Nat.lt_trans hl (by decide)), rfl, rfl⟩

/-- a file that ends in the first chain hash -/
def cutVault : List Byte := flawFile 1 1 0 (2 :: (num8 1 ++ 200 :: List.replicate 90 0))
example : said openEnv (freshWorld (oneFile samplePath cutVault)) (.selectFile samplePath) =
    some (.flag (.fail .ERR_NOT_ENOUGH_DATA), ascii "Chainhash data block 1") ∧ cutVault.length < 2 ^ 63 ∧
    report cutVault = some (.ERR_NOT_ENOUGH_DATA, ascii "Chainhash data block 1") ∧ ∃ n, Plausible cutVault n :=
  ⟨by decide +kernel, by decide +kernel, by decide +kernel,
    ⟨119, .inr ⟨1 :: 1 :: 0 :: (2 :: (num8 1 ++ 200 :: List.replicate 90 0)), by decide +kernel, by decide, by decide +kernel⟩⟩⟩

/-- C104 is violated: a file that ends behind the salt, where the number of the encrypted blocks is missing. All its sizes are right, but
the error says the file size is wrong, and the text is a single byte, the last one of the size of the file. -/
theorem C104_violated_end (e : Env) (w : World) (p : Path) (c : List Byte) (hst : w.api.state = .INIT) (hf : w.fs p = .file c)
    (hl : c.length < 2 ^ 63) (hp : EncPath p) (hr : e.canRead p = true) (hg : (e.rand 0).good = true)
    (hpl : ∃ n, Plausible c n) (hmode : Byte) (bs : List (Byte × List Byte)) (c1 c2 : ChainDesc) (tail : List Byte)
    (h : UpToBlocks c hmode bs (c1.bytes ++ (c2.bytes ++ tail))) (hv : c1.Valid) (hv' : c2.Valid) (ht : tail.length = 2 * digestSize hmode) :
    Tell.call hs rest e w (.selectFile p) = .ok ((.flag (.fail .ERR_FILESIZE_INVALID), [UInt8.ofNat c.length]), w) ∧
    report c = some (.ERR_NOT_ENOUGH_DATA, ascii "Encrypted block count") := by
  have hrep := Tell.report_ended h hv hv' ht (Nat.lt_trans hl (by decide))
  have hne : c ≠ [] := by
    rintro rfl
    have := hrep.symm.trans (show report [] = some (.ERR_NOT_ENOUGH_DATA, ascii "File size") from by decide +kernel)
    exact absurd this (by decide +kernel)
  refine ⟨?_, hrep⟩
  have hcall := (C94_select (hs := hs) (rest := rest) e w p c hst hf hl hp hr hg hne hpl _).1 (.encCount hmode bs c1 c2 tail h hv hv' ht)
  have hout := Tell.call_out hs rest e w (.selectFile p)
  rw [hcall] at hout
  cases hx : Tell.call hs rest e w (.selectFile p) with
  | exn x => rw [hx] at hout; cases hout
  | fatal x => rw [hx] at hout; cases hout
  | ok r =>
    rw [hx] at hout
    obtain ⟨⟨o, i⟩, w1⟩ := r
    have h1 : (o, w1) = (Ret.flag (.fail .ERR_FILESIZE_INVALID), w) := Res.ok.inj hout
    cases h1
    rcases (C104_header e w w p c hst hf hl hp hr hg hne hpl _ i hx).2.2.2 with h2 | ⟨-, -, rfl⟩
    · rw [hrep] at h2
      cases h2
    · rfl

/-- such a file -/
def endedVault : List Byte :=
  flawFile 1 1 1 ([9, 1, 5] ++ ((ChainDesc.mk 1 1 []).bytes ++ ((ChainDesc.mk 1 1 []).bytes ++ List.replicate 64 7)))
example : UpToBlocks endedVault 1 [(9, [5])] ((ChainDesc.mk 1 1 []).bytes ++ ((ChainDesc.mk 1 1 []).bytes ++ List.replicate 64 7)) ∧
    (ChainDesc.mk 1 1 []).Valid ∧ (List.replicate 64 (7 : Byte)).length = 2 * digestSize 1 ∧ (∃ n, Plausible endedVault n) ∧
    said openEnv (freshWorld (oneFile samplePath endedVault)) (.selectFile samplePath) =
      some (.flag (.fail .ERR_FILESIZE_INVALID), [106]) :=
  ⟨⟨106, 1, ⟨by decide +kernel, by decide +kernel, .inl rfl, by decide, by decide⟩, rfl⟩, by decide, rfl,
    ⟨106, .inr ⟨endedVault.drop 16, by decide +kernel, by decide, by decide +kernel⟩⟩, by decide +kernel⟩

/-- a vault with hash mode `m`, the rest in order up to there -/
def hashVault (m : Byte) : List Byte := num8 120 ++ (num8 104 ++ (1 :: m :: List.replicate 102 0))

/-- C104 is violated: a hash mode that does not exist comes as the character with that number, not as the number. Mode 7 rings a
bell, mode 50 reads as 2, which is a hash mode that exists. -/
theorem C104_violated_mode :
    said openEnv (freshWorld (oneFile samplePath (hashVault 7))) (.selectFile samplePath) =
      some (.flag (.fail .ERR_HASHMODE_INVALID), [7]) ∧
    said openEnv (freshWorld (oneFile samplePath (hashVault 50))) (.selectFile samplePath) =
      some (.flag (.fail .ERR_HASHMODE_INVALID), [50]) ∧
    getErrorMessage .FAIL (some .ERR_HASHMODE_INVALID) [50] [] false = ascii "Hashmode is invalid: 2" :=
  ⟨by decide +kernel, by decide +kernel, by decide⟩

/-- C104 is violated: a number of iterations out of range comes with a text that says nothing about it. -/
theorem C104_violated_iters :
    said openEnv (freshWorld (oneFile samplePath noItersVault)) (.selectFile samplePath) =
      some (.flag (.fail .ERR_CHAINHASH1_INVALID), ascii "An error occurred while reading the header") ∧
    ∀ i what, getErrorMessage .FAIL (some .ERR_CHAINHASH1_INVALID) i what false = ascii "Chainhash1 is invalid" :=
  ⟨by decide +kernel, fun _ _ => by simp [getErrorMessage, errorText, exceptionText]⟩

/-! ### secrets -/

/-- C104: a call that handles a password, contents or a salt says one of the fixed texts that `secretTexts` lists for the call and the
error it ends with, whatever the secrets are; with any other error it does not end. -/
theorem C104_secret (e : Env) (w w' : World) (c : Call) (r : Ret) (i : List Byte) (hl : ∀ p l, w.fs p = .file l → l.length < 2 ^ 64)
    (h : Tell.call hs rest e w c = .ok ((r, i), w')) (hc : handlesSecrets c = true) : i ∈ (secretTexts c (retCode r)).map ascii :=
  (Tell.call_text hs rest e w c hl _ h).secret hc

/-- such a call, which fails -/
example : said openEnv (freshWorld fun _ => .missing) (.encryptData none) =
    some (.flag (.fail .ERR_API_STATE_INVALID), ascii "encryptData is only available in the DECRYPTED state") ∧
    secretTexts (.encryptData none) (some .ERR_API_STATE_INVALID) = ["encryptData is only available in the DECRYPTED state"] :=
  ⟨by decide +kernel, rfl⟩

end Verif.Props
