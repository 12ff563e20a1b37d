import Verif.Spec.Flaw
import Verif.Lemmas.HeaderFlaw
import Verif.Props.Select

/- Which error a damaged header is answered by: C94. -/
namespace Verif.Props
open Spec HeaderParse

/-- C94, as far as it holds: reading a header from a stream stops with an error exactly if the header has a flaw, and the
error is the one that belongs to the first flaw. Missing: the flaws that end the process instead (`Deadly`), and the two
places where the error misleads, see `C94_violated_short` and `C94_violated_size`. -/
theorem C94_flaw_partial (hs : Hashes) (r : Rand) (hr : r.good = true) (l : List Byte) (hl : l.length < 2 ^ 64)
    (s : IStream) (hf : Fresh s l) (code : ErrorCode) : setHeaderStream hs r s = .ok (.stop code) ↔ Flaw l code := by
  have hsim := setHeaderStream_eq hs r s hf.2
  rw [hf.1] at hsim
  rw [← rdHeader_stop_iff (hs := hs) hr hl]
  cases hq : rdHeader rdList List.length hs r l with
  | ok x =>
    rw [hq] at hsim
    cases x with
    | val a l' =>
      obtain ⟨s', h1, -⟩ := hsim
      rw [h1]
      constructor <;> intro h <;> cases h
    | stop c =>
      rw [show setHeaderStream hs r s = .ok (.stop c) from hsim]
      constructor <;> intro h <;> cases h <;> rfl
  | exn e =>
    rw [hq] at hsim
    rw [show setHeaderStream hs r s = .fatal .terminate from hsim]
    constructor <;> intro h <;> cases h
  | fatal f =>
    rw [hq] at hsim
    rw [show setHeaderStream hs r s = .fatal f from hsim]
    constructor <;> intro h <;> cases h

/-- the header of a good vault, its parts and what may be wrong with them -/
def flawChain : List Byte := [1, 0, 0, 0, 0, 0, 0, 0, 1, 0]
/-- sizes, modes and the number of data blocks of a file with this rest -/
def flawFile (fmode hmode count : Byte) (rest : List Byte) : List Byte :=
  num8 (19 + rest.length) ++ (num8 (19 + rest.length) ++ fmode :: hmode :: count :: rest)

theorem flawFile_start {hmode count : Byte} (hm : hmode = 1 ∨ hmode = 2 ∨ hmode = 3) (bs : List (Byte × List Byte))
    (hb : ∀ b ∈ bs, 1 ≤ b.2.length ∧ b.2.length ≤ 255) (hn : bs.length ≤ count.toNat) (rest : List Byte) :
    HeaderStart (flawFile 1 hmode count (blockBytes bs ++ rest)) (19 + (blockBytes bs ++ rest).length) hmode count bs rest := by
  have hlen : (flawFile 1 hmode count (blockBytes bs ++ rest)).length = 19 + (blockBytes bs ++ rest).length := by
    simp [flawFile]; omega
  exact ⟨by rw [hlen]; rfl, by rw [hlen]; exact Nat.le_refl _, hm, hn, hb⟩

/-- each error with a file: cut off in the size fields, wrong file size, … -/
example : Flaw [0, 0, 0] .ERR_NOT_ENOUGH_DATA := .sizes (by decide)
example : Flaw (num8 21 ++ (num8 20 ++ [1, 1, 0, 0])) .ERR_FILESIZE_INVALID := .fileSize (by decide) (by decide)
example : Flaw (num8 20 ++ (num8 21 ++ [1, 1, 0, 0])) .ERR_HEADERSIZE_FILESIZE_MISMATCH :=
  .headerSize 21 [1, 1, 0, 0] (by decide) (by decide) (by decide)
example : Flaw (flawFile 1 9 0 []) .ERR_HASHMODE_INVALID := .hashMode 19 1 9 [0] (by decide) (by decide) (by decide)
example : Flaw (flawFile 7 1 0 []) .ERR_FILEMODE_INVALID := .fileMode 19 7 1 [0] (by decide) (by decide) (by decide) (by decide)
example : Flaw (flawFile 1 1 1 [5, 3, 1, 1]) .ERR_NOT_ENOUGH_DATA :=
  .blocks _ 1 1 [] [5, 3, 1, 1] (flawFile_start (.inl rfl) [] (by simp) (by decide) _) (by decide)
    (.inr ⟨5, 3, [1, 1], rfl, by decide⟩)
example : Flaw (flawFile 1 1 1 [5, 1, 1, 77]) .ERR_CHAINHASHMODE_FORMAT_INVALID :=
  .chain1 1 [(5, [1])] [77] _ ⟨_, 1, flawFile_start (.inl rfl) [(5, [1])] (by decide) (by decide) [77], rfl⟩
    (.mode 77 [] (by unfold knownChain; decide))
example : Flaw (flawFile 1 2 0 (flawChain ++ [1, 0, 0, 0, 0, 0, 0, 0, 0, 0])) .ERR_CHAINHASH2_INVALID :=
  .iters2 2 [] ⟨1, 1, []⟩ ⟨1, 0, []⟩ [] ⟨_, 0, flawFile_start (.inr (.inl rfl)) [] (by simp) (by decide) _, rfl⟩
    ⟨by decide, by decide, by decide⟩ ⟨by decide, by decide, .inl rfl⟩
example : outcome (setHeaderStream toyHashes sampleRand
    ⟨flawFile 1 2 0 (flawChain ++ [1, 0, 0, 0, 0, 0, 0, 0, 0, 0]), fun _ => 3, false, false⟩) =
    .ok (none, some .ERR_CHAINHASH2_INVALID) := by decide +kernel

/-- C94: every byte string is of exactly one of three kinds. It begins with a header in order, or it has a first flaw, whose
error is unique, or it is damaged in one of the ways that end the process. -/
theorem C94_classified (l : List Byte) (hl : l.length < 2 ^ 64) :
    (Headed 1 l ∨ (∃ code, Flaw l code) ∨ Deadly l) ∧ (∀ code, Flaw l code → ¬ Headed 1 l ∧ ¬ Deadly l) ∧
    (Headed 1 l → ¬ Deadly l) ∧ (∀ code code', Flaw l code → Flaw l code' → code = code') := by
  have hf : Fresh ⟨l, fun _ => 1, false, false⟩ l := ⟨rfl, rfl⟩
  have hg : (⟨true, fun _ => 0⟩ : Rand).good = true := rfl
  have key := fun code => C94_flaw_partial toyHashes _ hg l hl _ hf code
  refine ⟨?_, ?_, headed_not_deadly hl, ?_⟩
  · rcases flaw_or hl with h | ⟨h, data, hv, hc, hsz⟩ | h | h | h
    · exact .inr (.inl h)
    · exact .inl ⟨h, data, hv, hc, hsz, hv.fileMode⟩
    · exact .inr (.inr (.inl h))
    · exact .inr (.inr (.inr (.inl h)))
    · exact .inr (.inr (.inr (.inr h)))
  · intro code h
    have h1 := (key code).mpr h
    constructor
    · rintro ⟨h', data, hv, hc, hsz, -⟩
      obtain ⟨s', h2⟩ := stream_headed (hs := toyHashes) (e := { openEnv with sched := fun _ _ => 1 })
        (fs := fun _ => .file l) (p := []) rfl rfl hg hv hc hsz 0
      rw [show FS.openIn _ _ _ _ = (⟨l, fun _ => 1, false, false⟩ : IStream) from rfl, h1] at h2
      cases h2
    · have hkill := C34_killed_iff_partial toyHashes _ hg l hl _ hf
      rintro (hd | hd | hd)
      · rw [hkill.1.mpr hd] at h1; cases h1
      · rw [hkill.2.1.mpr (.inl hd)] at h1; cases h1
      · rw [hkill.2.1.mpr (.inr hd)] at h1; cases h1
  · intro code code' h h'
    have h1 := (key code).mpr h
    rw [(key code').mpr h'] at h1
    cases h1; rfl

/-- one of each kind -/
example : Headed 1 smallVault ∧ Deadly zeroFile ∧ Flaw (flawFile 7 1 0 []) .ERR_FILEMODE_INVALID :=
  ⟨smallVault_headed, .inl zeroFile_bad, .fileMode 19 7 1 [0] (by decide) (by decide) (by decide) (by decide)⟩

/-- C94: only eight of the errors tell about a header. -/
theorem C94_codes (hs : Hashes) (r : Rand) (hr : r.good = true) (l : List Byte) (hl : l.length < 2 ^ 64)
    (s : IStream) (hf : Fresh s l) (code : ErrorCode) (h : setHeaderStream hs r s = .ok (.stop code)) :
    code ∈ [ErrorCode.ERR_NOT_ENOUGH_DATA, .ERR_FILESIZE_INVALID, .ERR_HEADERSIZE_FILESIZE_MISMATCH, .ERR_HASHMODE_INVALID,
      .ERR_FILEMODE_INVALID, .ERR_CHAINHASHMODE_FORMAT_INVALID, .ERR_CHAINHASH1_INVALID, .ERR_CHAINHASH2_INVALID] := by
  have chain : ∀ {l c}, ChainFlaw l c → c = .ERR_NOT_ENOUGH_DATA ∨ c = .ERR_CHAINHASHMODE_FORMAT_INVALID := by
    intro l c h
    cases h <;> simp
  cases (C94_flaw_partial hs r hr l hl s hf code).mp h with
  | chain1 _ _ _ _ _ hc => rcases chain hc with rfl | rfl <;> decide
  | chain2 _ _ _ _ _ _ _ hc => rcases chain hc with rfl | rfl <;> decide
  | _ => decide

/-- such a stop -/
example : outcome (setHeaderStream toyHashes sampleRand ⟨flawFile 1 1 1 [5, 1, 1, 77], fun _ => 2, false, false⟩) =
    .ok (none, some .ERR_CHAINHASHMODE_FORMAT_INVALID) := by decide +kernel

/-- C94 for the user: selecting a readable `.enc` file with plausible size fields is refused exactly if its header has a
flaw, with the error of the first flaw, and nothing is changed. -/
theorem C94_select {hs : Hashes} {rest : Api.Helper → Res Api.Helper} (e : Env) (w : World) (p : Path) (c : List Byte)
    (hst : w.api.state = .INIT) (hf : w.fs p = .file c) (hl : c.length < 2 ^ 63) (hp : EncPath p) (hr : e.canRead p = true)
    (hg : (e.rand 0).good = true) (hne : c ≠ []) (hpl : ∃ n, Plausible c n) (code : ErrorCode) :
    (Flaw c code → Api.call hs rest e w (.selectFile p) = .ok (.flag (.fail code), w)) ∧
    (∀ w', Api.call hs rest e w (.selectFile p) = .ok (.flag (.fail code), w') → Flaw c code ∧ w' = w) := by
  have h64 : c.length < 2 ^ 64 := by omega
  obtain ⟨-, headed, -, -, dead⟩ := C75_answer_partial (hs := hs) (rest := rest) e w p c hst hf hl hp hr hg
  have ho : w.fs.openIn e p 1 = ⟨c, e.sched 1, false, false⟩ := by simp [FS.openIn, hf, hr]
  have fwd : ∀ code, Flaw c code → Api.call hs rest e w (.selectFile p) = .ok (.flag (.fail code), w) := by
    intro code hfl
    have hpar := (C94_flaw_partial hs (e.rand 0) hg c h64 (w.fs.openIn e p 1) (by rw [ho]; exact ⟨rfl, rfl⟩) code).mpr hfl
    obtain ⟨n, hn⟩ := hpl
    rcases update_file (e := e) hf hr h64 0 with ⟨k, hk, hu⟩ | ⟨h1, -⟩
    · have hce : c.isEmpty = false := by cases c with
        | nil => exact absurd rfl hne
        | cons a b => rfl
      rw [hce] at hu
      have ho : FileHandler.getDataHeader hs e w.fs ⟨p, k, c.length, false⟩ 1 (e.rand 0) = .ok (.fail code) := by
        simp [FileHandler.getDataHeader, hpar]
      simp only [Api.call, hst, Api.selectFile, Api.getFileHandler_ok hp hf hr hu, Res.bind_ok, FileHandler.isEmpty,
          Bool.false_eq_true, if_false, Api.selectNonEmptyFile, ho, Res.noexcept_ok]
    · exact absurd ⟨n, hn⟩ h1
  refine ⟨fwd code, fun w' h => ?_⟩
  rcases (C94_classified c h64).1 with hh | ⟨code', hfl⟩ | hd
  · obtain ⟨w1, d, n, h1, -⟩ := headed hh
    rw [h1] at h; cases h
  · rw [fwd code' hfl] at h
    cases h
    exact ⟨hfl, rfl⟩
  · obtain ⟨x, hx⟩ := dead.mpr ⟨hne, hpl, hd⟩
    rw [hx] at h; cases h

/-- a vault whose first chain hash is to be iterated zero times -/
def noItersVault : List Byte := flawFile 1 1 0 (1 :: List.replicate 99 0)
example : (∃ n, Plausible noItersVault n) ∧ Flaw noItersVault .ERR_CHAINHASH1_INVALID ∧
    selectAnswer openEnv (oneFile samplePath noItersVault) samplePath = .ok (.flag (.fail .ERR_CHAINHASH1_INVALID)) :=
  ⟨⟨119, .inr ⟨1 :: 1 :: 0 :: 1 :: List.replicate 99 0, by decide +kernel, by decide, by decide +kernel⟩⟩,
    .iters1 1 [] ⟨1, 0, []⟩ (List.replicate 90 0) ⟨_, 0, flawFile_start (.inl rfl) [] (by simp) (by decide) _, rfl⟩
      ⟨by decide, by decide, .inl rfl⟩, by decide +kernel⟩

/-- C94 is violated: a chain hash of mode 4 that announces fewer than the eight bytes of its start number is reported as
missing data, however many bytes follow. -/
theorem C94_violated_short (hs : Hashes) (r : Rand) (hr : r.good = true) (data : List Byte) (hl : data.length < 2 ^ 63)
    (s : IStream) (hf : Fresh s (flawFile 1 1 0 (4 :: (num8 1 ++ 7 :: data)))) :
    setHeaderStream hs r s = .ok (.stop .ERR_NOT_ENOUGH_DATA) :=
  (C94_flaw_partial hs r hr _ (by simp [flawFile]; omega) s hf _).mpr
    (.chain1 1 [] _ _ ⟨_, 0, flawFile_start (.inl rfl) [] (by simp) (by decide) _, rfl⟩
      (.start 1 7 data (by decide) (by decide)))

/-- C94 is violated: a file that ends behind the salt is reported to announce a wrong file size, though the announced file
size is the size of the file. -/
theorem C94_violated_size (hs : Hashes) (r : Rand) (hr : r.good = true) (v s : List Byte) (hv : v.length = 32)
    (hsa : s.length = 32) (st : IStream) (hf : Fresh st (flawFile 1 1 0 (flawChain ++ (flawChain ++ (v ++ s))))) :
    setHeaderStream hs r st = .ok (.stop .ERR_FILESIZE_INVALID) ∧
    beValue (st.rest.take 8) = st.rest.length := by
  have hlen : (flawFile 1 1 0 (flawChain ++ (flawChain ++ (v ++ s)))).length = 103 := by
    simp [flawFile, flawChain, hv, hsa]
  refine ⟨(C94_flaw_partial hs r hr _ (by rw [hlen]; decide) st hf _).mpr ?_, ?_⟩
  · refine .encCount 1 [] ⟨1, 1, []⟩ ⟨1, 1, []⟩ (v ++ s) ⟨_, 0, flawFile_start (.inl rfl) [] (by simp) (by decide) _, rfl⟩
      (by decide) (by decide) ?_
    rw [List.length_append, hv, hsa]; decide
  · rw [hf.1, hlen]
    simp only [flawFile, List.length_append, hv, hsa]
    rw [List.take_left' (length_num8 _)]
    decide

/-- both happen -/
example : outcome (setHeaderStream toyHashes sampleRand ⟨flawFile 1 1 0 (4 :: (num8 1 ++ 7 :: List.replicate 200 0)), fun _ => 3, false, false⟩) =
    .ok (none, some .ERR_NOT_ENOUGH_DATA) := by decide +kernel
example : outcome (setHeaderStream toyHashes sampleRand
    ⟨flawFile 1 1 0 (flawChain ++ (flawChain ++ (List.replicate 32 1 ++ List.replicate 32 2))), fun _ => 3, false, false⟩) =
    .ok (none, some .ERR_FILESIZE_INVALID) := by decide +kernel

end Verif.Props
