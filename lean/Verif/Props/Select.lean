import Verif.Spec.Select
import Verif.Lemmas.SaveOpen
import Verif.Lemmas.Crash
import Verif.Props.DataHeader
import Verif.Props.NoCrash

/- What selecting a file answers: C75, and which files count as relevant: C50. -/
namespace Verif.Props
open Spec

variable {hs : Hashes} {rest : Api.Helper → Res Api.Helper}

theorem stream_headed {e : Env} {fs : FS} {p : Path} {c : List Byte} (hf : fs p = .file c) (hr : e.canRead p = true)
    {r : Rand} (hg : r.good = true) {h : Header} {data : List Byte} (hv : h.Valid) (hc : c = h.bytes ++ data)
    (hsz : h.fileSize = c.length) (j : Nat) :
    ∃ s', HeaderParse.setHeaderStream hs r (fs.openIn e p j) = .ok (.val (HeaderParse.mkHeader h) s') := by
  have ho : fs.openIn e p j = ⟨c, e.sched j, false, false⟩ := by simp [FS.openIn, hf, hr]
  have hst := HeaderParse.setHeaderStream_eq hs r (fs.openIn e p j) (by rw [ho])
  rw [ho] at hst ⊢
  simp only at hst
  rw [hc, HeaderParse.rdHeader_append hg hv data (by
    rw [hsz, hc, List.length_append, length_bytes h hv.validator hv.salt hv.encLen])] at hst
  obtain ⟨s', hst, -⟩ := hst
  rw [hc]
  exact ⟨s', hst⟩

/-- what the parser says about the content of a readable file -/
theorem parse_answers {e : Env} {fs : FS} {p : Path} {c : List Byte} (hf : fs p = .file c) (hr : e.canRead p = true)
    (hl : c.length < 2 ^ 64) {r : Rand} (hg : r.good = true) (f : FileHandler) (hp : f.path = p) (j : Nat) :
    (∃ (h : Header) (data : List Byte), h.Valid ∧ c = h.bytes ++ data ∧ h.fileSize = c.length ∧
      f.getDataHeader hs e fs j r = .ok (.success (HeaderParse.mkHeader h))) ∨
    (¬ Headed 1 c ∧ ¬ Deadly c ∧ ∃ code, f.getDataHeader hs e fs j r = .ok (.fail code)) ∨
    (Deadly c ∧ ∃ x, f.getDataHeader hs e fs j r = .fatal x) := by
  have ho : fs.openIn e p j = ⟨c, e.sched j, false, false⟩ := by simp [FS.openIn, hf, hr]
  have hkill := C34_killed_iff_partial hs r hg c hl (fs.openIn e p j) (by rw [ho]; exact ⟨rfl, rfl⟩)
  subst hp
  rcases setHeaderStream_cases (hs := hs) hg (fs.openIn e f.path j) (by rw [ho]) with
    ⟨code, h⟩ | ⟨hd, s', hv, hs1, hs2, -, h⟩ | ⟨hz, h⟩ | ⟨hz, h⟩
  · refine .inr (.inl ⟨?_, ?_, code, by simp [FileHandler.getDataHeader, h]⟩)
    · rintro ⟨h', data, hv, hc, hsz, -⟩
      obtain ⟨s', h2⟩ := stream_headed (hs := hs) hf hr hg hv hc hsz j
      rw [h2] at h; cases h
    · rintro (hd | hd | hd)
      · rw [hkill.1.mpr hd] at h; cases h
      · rw [hkill.2.1.mpr (.inl hd)] at h; cases h
      · rw [hkill.2.1.mpr (.inr hd)] at h; cases h
  · rw [ho] at hs1 hs2
    exact .inl ⟨hd, s'.rest, hv, hs2, hs1, by simp [FileHandler.getDataHeader, h]⟩
  · rw [ho] at hz
    exact .inr (.inr ⟨.inl hz, .terminate, by simp [FileHandler.getDataHeader, h]⟩)
  · rw [ho] at hz
    exact .inr (.inr ⟨.inr hz, .abort, by simp [FileHandler.getDataHeader, h]⟩)

theorem headed_not_deadly {c : List Byte} (hl : c.length < 2 ^ 64) (h : Headed 1 c) : ¬ Deadly c := by
  intro hd
  obtain ⟨h', data, hv, hc, hsz, -⟩ := h
  let e : Env := openEnv
  let fs : FS := fun _ => .file c
  have hr : e.canRead [] = true := rfl
  have hg : (⟨true, fun _ => 0⟩ : Rand).good = true := rfl
  obtain ⟨s', h2⟩ := stream_headed (hs := toyHashes) (e := e) (fs := fs) (p := []) rfl hr hg hv hc hsz 0
  have ho : fs.openIn e [] 0 = ⟨c, e.sched 0, false, false⟩ := by simp [FS.openIn, fs, hr]
  have hkill := C34_killed_iff_partial toyHashes _ hg c hl (fs.openIn e [] 0) (by rw [ho]; exact ⟨rfl, rfl⟩)
  rcases hd with hd | hd | hd
  · rw [hkill.1.mpr hd] at h2; cases h2
  · rw [hkill.2.1.mpr (.inl hd)] at h2; cases h2
  · rw [hkill.2.1.mpr (.inr hd)] at h2; cases h2

theorem headed_plausible {c : List Byte} (h : Headed 1 c) : ∃ n, Plausible c n := by
  obtain ⟨h', data, hv, hc, hsz, -⟩ := h
  refine ⟨h'.length, ?_⟩
  rw [hc]
  refine Api.plausible_header hv data ?_
  rw [hsz, hc, List.length_append, length_bytes h' hv.validator hv.salt hv.encLen]

/-- C75: selecting a readable `.enc` file in the initial state. An empty file and a file that begins with a complete
header in order are selected, whatever the delivery of the stream, and the header is taken over as it stands in the
file. Implausible size fields are answered by `ERR_FILEHANDLER_CREATION`, any other damage by some error or by the end of
the process, the latter exactly for the three kinds of damage named by `Deadly`. An error changes nothing. -/
theorem C75_answer_partial (e : Env) (w : World) (p : Path) (c : List Byte) (hst : w.api.state = .INIT) (hf : w.fs p = .file c)
    (hl : c.length < 2 ^ 63) (hp : EncPath p) (hr : e.canRead p = true) (hg : (e.rand 0).good = true) :
    (c = [] → ∃ w', Api.call hs rest e w (.selectFile p) = .ok (.flag (.success true), w') ∧
      w'.api.state = .EMPTY_FILE_SELECTED ∧ w'.fs = w.fs) ∧
    (Headed 1 c → ∃ w' d n, Api.call hs rest e w (.selectFile p) = .ok (.flag (.success true), w') ∧
      w'.api.state = .FILE_SELECTED ∧ w'.fs = w.fs ∧ w'.api.dh = some d ∧ d.contents.bytes = c.take n ∧
      beValue ((c.drop 8).take 8) = n) ∧
    ((¬ ∃ n, Plausible c n) → Api.call hs rest e w (.selectFile p) = .ok (.flag (.fail .ERR_FILEHANDLER_CREATION), w)) ∧
    (c ≠ [] → (∃ n, Plausible c n) → ¬ Headed 1 c → ¬ Deadly c →
      ∃ code, Api.call hs rest e w (.selectFile p) = .ok (.flag (.fail code), w)) ∧
    ((∃ x, Api.call hs rest e w (.selectFile p) = .fatal x) ↔ c ≠ [] ∧ (∃ n, Plausible c n) ∧ Deadly c) := by
  have h64 : c.length < 2 ^ 64 := by omega
  have empty : c = [] → ∃ w', Api.call hs rest e w (.selectFile p) = .ok (.flag (.success true), w') ∧
      w'.api.state = .EMPTY_FILE_SELECTED ∧ w'.fs = w.fs := by
    intro hc
    rw [hc] at hf
    refine ⟨⟨Api.selectEmptyFile w.api ⟨p, 0, 0, true⟩, w.fs⟩, ?_, rfl, rfl⟩
    simp only [Api.call, hst, Api.select_empty_ok (hs := hs) hp hf hr, Res.bind_ok]
  have torn : (¬ ∃ n, Plausible c n) →
      Api.call hs rest e w (.selectFile p) = .ok (.flag (.fail .ERR_FILEHANDLER_CREATION), w) := by
    intro hc
    simp only [Api.call, hst, Api.select_torn (hs := hs) hp hf hr h64 hc, Res.bind_ok]
  have other : c ≠ [] → (∃ n, Plausible c n) → ∃ f : FileHandler, f.path = p ∧ ∀ o, f.getDataHeader hs e w.fs 1 (e.rand 0) = o →
      (∀ code, o = .ok (.fail code) → Api.call hs rest e w (.selectFile p) = .ok (.flag (.fail code), w)) ∧
      (∀ x, o = .fatal x → Api.call hs rest e w (.selectFile p) = .fatal x) := by
    intro hne ⟨n, hn⟩
    rcases update_file (e := e) hf hr h64 0 with ⟨k, hk, hu⟩ | ⟨h1, -⟩
    · have hce : c.isEmpty = false := by cases c with
        | nil => exact absurd rfl hne
        | cons a b => rfl
      rw [hce] at hu
      refine ⟨⟨p, k, c.length, false⟩, rfl, fun o ho => ⟨?_, ?_⟩⟩
      · rintro code rfl
        simp only [Api.call, hst, Api.selectFile, Api.getFileHandler_ok hp hf hr hu, Res.bind_ok, FileHandler.isEmpty,
          Bool.false_eq_true, if_false, Api.selectNonEmptyFile, ho, Res.noexcept_ok]
      · rintro x rfl
        simp only [Api.call, hst, Api.selectFile, Api.getFileHandler_ok hp hf hr hu, Res.bind_ok, FileHandler.isEmpty,
          Bool.false_eq_true, if_false, Api.selectNonEmptyFile, ho, Res.noexcept_fatal, Res.bind_fatal]
    · exact absurd ⟨n, hn⟩ h1
  have headed : Headed 1 c → ∃ w' d n, Api.call hs rest e w (.selectFile p) = .ok (.flag (.success true), w') ∧
      w'.api.state = .FILE_SELECTED ∧ w'.fs = w.fs ∧ w'.api.dh = some d ∧ d.contents.bytes = c.take n ∧
      beValue ((c.drop 8).take 8) = n := by
    rintro ⟨h, data, hv, hc, hsz, -⟩
    have hlen := length_bytes h hv.validator hv.salt hv.encLen
    have h1 : h.fileSize = h.length + data.length := by rw [hsz, hc, List.length_append, hlen]
    refine ⟨_, _, h.length, Api.select_run (hs := hs) (rest := rest) hp hv h1 hst (hc ▸ hf) hr hg, rfl, rfl, rfl, ?_, ?_⟩
    · rw [HeaderParse.contents_mkHeader hv, hc, ← hlen, List.take_left]
    · have h16 : 16 ≤ h.bytes.length := by rw [hlen]; unfold Header.length; omega
      rw [hc, List.drop_append_of_le_length (by omega), List.take_append_of_le_length (by simp; omega)]
      exact size_field _ (by have := hv.size; omega)
  refine ⟨empty, headed, torn, ?_, ?_, ?_⟩
  · intro hne hpl hh hdl
    obtain ⟨f, hfp, key⟩ := other hne hpl
    rcases parse_answers (hs := hs) hf hr h64 hg f hfp 1 with ⟨h, data, hv, hc, hsz, -⟩ | ⟨-, -, code, hx⟩ | ⟨hd, -⟩
    · exact absurd ⟨h, data, hv, hc, hsz, hv.fileMode⟩ hh
    · exact ⟨code, (key _ rfl).1 code hx⟩
    · exact absurd hd hdl
  · rintro ⟨x, hx⟩
    have hne : c ≠ [] := fun hc => by obtain ⟨w', h1, -⟩ := empty hc; rw [h1] at hx; cases hx
    have hpl : ∃ n, Plausible c n := Classical.byContradiction fun hn => by rw [torn hn] at hx; cases hx
    refine ⟨hne, hpl, ?_⟩
    obtain ⟨f, hfp, key⟩ := other hne hpl
    rcases parse_answers (hs := hs) hf hr h64 hg f hfp 1 with ⟨h, data, hv, hc, hsz, -⟩ | ⟨-, -, code, hy⟩ | ⟨hd, -⟩
    · obtain ⟨w', d, n, h1, -⟩ := headed ⟨h, data, hv, hc, hsz, hv.fileMode⟩
      rw [h1] at hx; cases hx
    · rw [(key _ rfl).1 code hy] at hx; cases hx
    · exact hd
  · rintro ⟨hne, hpl, hdl⟩
    obtain ⟨f, hfp, key⟩ := other hne hpl
    rcases parse_answers (hs := hs) hf hr h64 hg f hfp 1 with ⟨h, data, hv, hc, hsz, -⟩ | ⟨-, hd, -⟩ | ⟨-, x, hx⟩
    · exact absurd hdl (headed_not_deadly h64 ⟨h, data, hv, hc, hsz, hv.fileMode⟩)
    · exact absurd hdl hd
    · exact ⟨x, (key _ rfl).2 x hx⟩

/-- the answer of selecting a file holding this content in a new session -/
def selectAnswer (e : Env) (fs : FS) (p : Path) : Res Ret :=
  match Api.call toyHashes noRest e (freshWorld fs) (.selectFile p) with
  | .ok x => .ok x.1
  | .exn x => .exn x
  | .fatal x => .fatal x

/-- a file that is selected, one refused for its size fields, one refused otherwise -/
def smallVault : List Byte := smallHeader.bytes ++ [9, 9, 9]
theorem smallVault_headed : Headed 1 smallVault :=
  ⟨smallHeader, [9, 9, 9], smallHeader_valid, rfl, by decide +kernel, rfl⟩
def modeVault : List Byte := num8 120 ++ (num8 104 ++ (9 :: List.replicate 103 0))
example : (freshWorld (oneFile samplePath smallVault)).fs samplePath = .file smallVault ∧ EncPath samplePath ∧
    openEnv.canRead samplePath = true ∧ (openEnv.rand 0).good = true ∧ smallVault.length < 2 ^ 63 :=
  ⟨by decide, sample_enc, rfl, rfl, by decide +kernel⟩
example : selectAnswer openEnv (oneFile samplePath smallVault) samplePath =
    .ok (.flag (.success true)) := by decide +kernel
example : selectAnswer openEnv (oneFile samplePath [1, 2, 3]) samplePath =
    .ok (.flag (.fail .ERR_FILEHANDLER_CREATION)) := by decide +kernel
example : selectAnswer openEnv (oneFile samplePath modeVault) samplePath =
    .ok (.flag (.fail .ERR_HASHMODE_INVALID)) := by decide +kernel
example : selectAnswer openEnv (oneFile samplePath zeroVault) samplePath =
    .fatal .terminate := by decide +kernel

/-- C75: paths that do not lead to a readable `.enc` file are answered by the error that names the reason, and nothing
is changed. -/
theorem C75_refused (e : Env) (w : World) (p : Path) (hst : w.api.state = .INIT) :
    (p = [] → Api.call hs rest e w (.selectFile p) = .ok (.flag (.fail .ERR_EMPTY_FILEPATH), w)) ∧
    (p ≠ [] → ¬ EncPath p → Api.call hs rest e w (.selectFile p) = .ok (.flag (.fail .ERR_EXTENSION_INVALID), w)) ∧
    (EncPath p → w.fs p = .missing → Api.call hs rest e w (.selectFile p) = .ok (.flag (.fail .ERR_FILE_NOT_FOUND), w)) ∧
    (EncPath p → (∃ c, w.fs p = .file c) → e.canRead p = false →
      Api.call hs rest e w (.selectFile p) = .ok (.flag (.fail .ERR_FILE_NOT_OPEN), w)) := by
  have key : ∀ code, FileHandler.isValidPath e w.fs p true = .ok (.fail code) →
      Api.call hs rest e w (.selectFile p) = .ok (.flag (.fail code), w) := by
    intro code h
    simp only [Api.call, hst, Api.selectFile, Api.getFileHandler, h, Res.bind_ok, Res.noexcept_ok]
  have hne : EncPath p → p ≠ [] := by
    rintro h rfl
    rw [← extension_iff] at h
    revert h; decide
  refine ⟨fun h => key _ ?_, fun h h' => key _ ?_, fun h h' => key _ ?_, fun h ⟨c, hc⟩ hr => key _ ?_⟩
  · rw [isValidPath_true, if_pos h]
  · rw [← extension_iff] at h'
    rw [isValidPath_true, if_neg h, if_pos h']
  · have := (extension_iff p).mpr h
    simp [isValidPath_true, hne h, this, h']
  · have := (extension_iff p).mpr h
    simp [isValidPath_true, hne h, this, hc, hr]

/-- the four refusals -/
example : selectAnswer openEnv (fun _ => .missing) [] =
    .ok (.flag (.fail .ERR_EMPTY_FILEPATH)) := by decide +kernel
example : selectAnswer openEnv (fun _ => .missing) (ascii "a.txt") =
    .ok (.flag (.fail .ERR_EXTENSION_INVALID)) := by decide +kernel
example : selectAnswer openEnv (fun _ => .missing) samplePath =
    .ok (.flag (.fail .ERR_FILE_NOT_FOUND)) := by decide +kernel
example : selectAnswer { openEnv with canRead := fun _ => false } (oneFile samplePath smallVault) samplePath = .ok (.flag (.fail .ERR_FILE_NOT_OPEN)) := by decide +kernel

/-- C50, per file: a readable file that is not empty counts as relevant for a file mode exactly if it begins with a complete
header of that mode; a header of another mode is reported as such. -/
theorem C50_relevance_partial (e : Env) (fs : FS) (p : Path) (c : List Byte) (hf : fs p = .file c) (hr : e.canRead p = true)
    (hl : c.length < 2 ^ 64) (r : Rand) (hg : r.good = true) (f : FileHandler) (hp : f.path = p) (mode : Byte) (j : Nat) :
    (f.isDataHeader hs e fs mode j r = .ok (.success ()) ↔ Headed mode c) ∧
    (Headed 1 c → mode ≠ 1 → f.isDataHeader hs e fs mode j r = .ok (.fail .ERR_FILEMODE_INVALID)) := by
  have one : ∀ m, Headed m c → m = 1 := fun m ⟨h, _, hv, _, _, hm⟩ => hm ▸ hv.fileMode
  have good : ∀ h : Header, h.Valid → f.getDataHeader hs e fs j r = .ok (.success (HeaderParse.mkHeader h)) →
      f.isDataHeader hs e fs mode j r = if mode = 1 then .ok (.success ()) else .ok (.fail .ERR_FILEMODE_INVALID) := by
    intro h hv hx
    have ok := mkHeader_ok hv
    obtain ⟨-, -, g3, -⟩ := complete_parts ok.inv ok.complete
    unfold FileHandler.isDataHeader
    rw [hx, Res.bind_ok]
    simp only [DataHeader.getDataHeaderParts, ok.complete, Bool.not_true, Bool.false_eq_true, if_false, Res.bind_ok, g3,
      DataHeaderParts.get, eq_comm (a := (1 : Byte))]
    split <;> rfl
  rcases parse_answers (hs := hs) hf hr hl hg f hp j with ⟨h, data, hv, hc, hsz, hx⟩ | ⟨hn, -, code, hx⟩ | ⟨hd, x, hx⟩
  · rw [good h hv hx]
    constructor
    · by_cases hm : mode = 1
      · subst hm
        simp only [if_true, true_iff]
        exact ⟨h, data, hv, hc, hsz, hv.fileMode⟩
      · rw [if_neg hm]
        constructor
        · intro h'; cases h'
        · intro h'; exact absurd (one mode h') hm
    · intro _ hm
      rw [if_neg hm]
  · refine ⟨?_, fun h _ => absurd h hn⟩
    unfold FileHandler.isDataHeader
    rw [hx]
    constructor
    · intro h'; cases h'
    · intro h'; exact absurd (one mode h' ▸ h') hn
  · have hn : ¬ Headed 1 c := fun h => headed_not_deadly hl h hd
    refine ⟨?_, fun h _ => absurd h hn⟩
    unfold FileHandler.isDataHeader
    rw [hx]
    constructor
    · intro h'; cases h'
    · intro h'; exact absurd (one mode h' ▸ h') hn

/-- a relevant file, which is not relevant for mode 2 -/
example : FileHandler.isDataHeader toyHashes openEnv (oneFile samplePath smallVault) ⟨samplePath, 104, 107, false⟩ 1 0 sampleRand = .ok (.success ()) ∧
    FileHandler.isDataHeader toyHashes openEnv (oneFile samplePath smallVault) ⟨samplePath, 104, 107, false⟩ 2 0 sampleRand = .ok (.fail .ERR_FILEMODE_INVALID) := by decide +kernel

end Verif.Props
