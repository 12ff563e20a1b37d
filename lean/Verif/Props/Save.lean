import Verif.Lemmas.Crash
import Verif.Props.Sample

/- Properties of saving and opening again: C44, C48, C49, C55, C56. -/
namespace Verif.Props
open Spec

variable {hs : Hashes} {rest : Api.Helper → Res Api.Helper}

theorem new_mode {mode : Byte} {s0 : Session} (h : Api.new mode = .ok s0) :
    mode = 1 ∧ s0 = ⟨.INIT, 1, none, Bytes.empty 0, none, none, none⟩ := by
  unfold Api.new at h
  split at h
  · rename_i hm
    cases h
    have := (fileModeValid_iff mode).mp hm
    subst this
    exact ⟨rfl, rfl⟩
  · cases h

/-! ## C44 -/

/-- C44: create a file, select it, make a header for a password, encrypt data, write, log out, select the file, give the
password, decrypt: every call succeeds and the data comes back, whatever the random values, clocks, stream deliveries and
settings are. No other file changes. -/
theorem C44_end_to_end (mode : Byte) (s0 : Session) (h0 : Api.new mode = .ok s0) (fs : FS) (p : Path) (hp : EncPath p)
    (hmiss : fs p = .missing) (pw : List Byte) (ds : SettingsIters) (hds : Usable ds) (data : Bytes)
    (hdata : data.data.length < 2 ^ 31) (e : Nat → Env) (he : ∀ i, Healthy (e i) p)
    (hroom : data.data.length + 200000 ≤ (e 4).stored) :
    ∃ w r, Api.run hs rest ⟨s0, fs⟩ [.call (.createFile p) (e 0), .call (.selectFile p) (e 1),
        .call (.createDataHeader pw ds 0) (e 2), .call (.encryptData (some ⟨some mode, some data⟩)) (e 3),
        .call .writeToFile (e 4), .call .logout (e 5), .call (.selectFile p) (e 6), .call (.verifyPassword pw 0) (e 7),
        .call .getDecryptedData (e 8)] =
      .ok ([some (.flag (.success true)), some (.flag (.success true)), some (.flag (.success true)),
        some (.flag (.success true)), some (.plain (.success ())), some .void, some (.flag (.success true)),
        some (.flag (.success true)), some (.data (.success ⟨some mode, some r⟩))], w) ∧
      r.data = data.data ∧ ∀ q, q ≠ p → w.fs q = fs q := by
  obtain ⟨rfl, rfl⟩ := new_mode h0
  generalize hs0 : (⟨.INIT, 1, none, Bytes.empty 0, none, none, none⟩ : Session) = s0 at *
  have hst0 : s0.state = .INIT := by rw [← hs0]
  have c1 : Api.call hs rest (e 0) ⟨s0, fs⟩ (.createFile p) = .ok (.flag (.success true), ⟨s0, fs.set p (.file [])⟩) := by
    simp only [Api.call, hst0, Api.createFile_ok hp hmiss (he 0).create, Res.bind_ok]
  have hfile : (fs.set p (.file [])) p = .file [] := by simp [FS.set]
  have c2 : Api.call hs rest (e 1) ⟨s0, fs.set p (.file [])⟩ (.selectFile p) =
      .ok (.flag (.success true), ⟨Api.selectEmptyFile s0 ⟨p, 0, 0, true⟩, fs.set p (.file [])⟩) := by
    simp only [Api.call, hst0, Api.select_empty_ok (w := ⟨s0, fs.set p (.file [])⟩) hp hfile (he 1).read, Res.bind_ok]
  obtain ⟨w3, d, m, c3, f3, h3, -⟩ := Api.createHeader_ok (hs := hs) (rest := rest) (e := e 2)
    (w := ⟨Api.selectEmptyFile s0 ⟨p, 0, 0, true⟩, fs.set p (.file [])⟩) hds (he 2).rand (by rw [← hs0]; rfl) (.inl rfl)
    (f := ⟨p, 0, 0, true⟩) rfl hp pw
  obtain ⟨w4, enc, r, c4, k1, k2, -⟩ := Api.save_reopen (rest := rest) h3 hdata (by rw [f3]; exact hfile) (e 3) (e 5) (he 4)
    (he 6) (he 7) (he 8) hroom
  refine ⟨w4, r, Api.call_step c1 (Api.call_step c2 (Api.call_step c3 c4)), k1, ?_⟩
  intro q hq
  rw [k2, f3]
  simp [FS.set, hq]

/-- C44: the same from any session holding decrypted data, however it got there (any calls, any failures, any changes by
other programs): what is encrypted and written comes back after logging in with the password last accepted or set. -/
theorem C44_any_history (mode : Byte) (s0 : Session) (h0 : Api.new mode = .ok s0) (fs : FS) (evs : List Event)
    (hb : BuiltArgs evs) (hf : FullBlocks evs) (rs : List (Option Ret)) (w : World)
    (h : Api.run hs rest ⟨s0, fs⟩ evs = .ok (rs, w)) (hst : w.api.state = .DECRYPTED) :
    ∃ f pw, w.api.selected = some f ∧ lastGiven evs rs = some pw ∧
      ∀ (c : List Byte) (data : Bytes) (e : Nat → Env), w.fs f.path = .file c → data.data.length < 2 ^ 31 →
        (∀ i, Healthy (e i) f.path) → data.data.length + 200000 ≤ (e 1).stored →
        ∃ w' r, Api.run hs rest w [.call (.encryptData (some ⟨some mode, some data⟩)) (e 0), .call .writeToFile (e 1),
            .call .logout (e 2), .call (.selectFile f.path) (e 3), .call (.verifyPassword pw 0) (e 4),
            .call .getDecryptedData (e 5)] =
          .ok ([some (.flag (.success true)), some (.plain (.success ())), some .void, some (.flag (.success true)),
            some (.flag (.success true)), some (.data (.success ⟨some mode, some r⟩))], w') ∧
          r.data = data.data ∧ ∀ q, q ≠ f.path → w'.fs q = w.fs q := by
  obtain ⟨rfl, -⟩ := new_mode h0
  obtain ⟨hi, hk, hbl⟩ := Api.history_key h0 hb h
  obtain ⟨x, d, m, v, k0, -⟩ := hk (by rw [hst]; rfl)
  rw [k0] at hk
  obtain ⟨d, m, f, hh⟩ := Api.Holds.of_inv hi hk (hbl hf) hst
  refine ⟨f, x, hh.sel, k0, ?_⟩
  intro c data e hc hdata he hroom
  obtain ⟨w', enc, r, c4, k1, k2, -⟩ := Api.save_reopen (rest := rest) hh hdata hc (e 0) (e 2) (he 1)
    (he 3) (he 4) (he 5) hroom
  refine ⟨w', r, c4, k1, ?_⟩
  intro q hq
  rw [k2]
  simp [FS.set, hq]

theorem healthy_open (p : Path) : Healthy openEnv p := ⟨rfl, rfl, rfl, fun _ => rfl, .inl rfl⟩

theorem usable_sample : Usable sampleSettings := by
  refine ⟨⟨⟨[(.fileMode, 1), (.hashMode, 1), (.ch1Mode, 1), (.ch2Mode, 4), (.num1, 2), (.num2, 3)],
    sampleSettings.dec, sampleSettings.enc, rfl⟩, ?_, ?_⟩, rfl, by decide, by decide, by decide⟩
  · intro b hb
    simp only [sampleSettings, List.mem_singleton] at hb
    subst hb
    exact .inr (.inr ⟨⟨5, Bytes.empty 0⟩, Bytes.full [1, 2, 3], rfl⟩)
  · intro b hb
    simp [sampleSettings] at hb

example : EncPath samplePath := (extension_iff _).mp (by decide)

/-- a session that made it through two saves and was then reopened -/
example : ∃ rs w, Api.run toyHashes noRest (freshWorld fun _ => .missing) (sampleSave ++ sampleOpen) = .ok (rs, w) ∧
    w.api.state = .DECRYPTED ∧ lastGiven (sampleSave ++ sampleOpen) rs = some samplePw := by
  obtain ⟨rs, w, h1, h2⟩ := runIs_ok (evs := sampleSave ++ sampleOpen)
    (p := fun rs w => w.api.state == .DECRYPTED && lastGiven (sampleSave ++ sampleOpen) rs == some samplePw) (by decide +kernel)
  simp only [Bool.and_eq_true, beq_iff_eq] at h2
  exact ⟨rs, w, h1, h2.1, h2.2⟩

/-! ## C49 -/

/-- C49, the part that holds: after `writeToFile()` reported success, the selected file contains as much of the header bytes
followed by the encrypted data as the disk took (the code does not check how much that is). The header is the one of the
session and announces the full size; the encrypted data is the encryption of the data last given to `encryptData`, under the
password last accepted or set. -/
theorem C49_selected_partial (mode : Byte) (s0 : Session) (h0 : Api.new mode = .ok s0) (fs : FS) (evs : List Event)
    (hb : BuiltArgs evs) (rs : List (Option Ret)) (w w' : World) (h : Api.run hs rest ⟨s0, fs⟩ evs = .ok (rs, w)) (e : Env)
    (hw : Api.call hs rest e w .writeToFile = .ok (.plain (.success ()), w')) :
    ∃ f d m pw data enc, w.api.selected = some f ∧ w.api.dh = some d ∧ m.toByte = d.contents.hashMode ∧
      lastGiven evs rs = some pw ∧ lastData evs rs = some data ∧
      w'.fs = w.fs.set f.path (.file ((d.contents.bytes ++ enc).take e.stored)) ∧
      (data.length < 2 ^ 31 → d.contents.fileSize = d.contents.bytes.length + enc.length ∧
        IsEncryption (hs.get m).h m.size (d.contents.ch1.digest (hs.get m).h pw) d.contents.salt data enc) := by
  have hst : w.api.state = .ENCRYPTED := by
    simp only [Api.call] at hw
    split at hw
    · assumption
    · cases hw
  obtain ⟨hi, hk, -⟩ := Api.history_key h0 hb h
  obtain ⟨pw, d, m, v, k0, k1, k2, k3, k4, -⟩ := hk (by rw [hst]; rfl)
  obtain ⟨x, d', m', enc, l0, l1, l2, l3, l4⟩ := Api.history_data h0 hb h hst
  rw [k1] at l1; cases l1
  rw [k2] at l2; cases l2
  simp only [Api.call, hst] at hw
  obtain ⟨⟨o, w1⟩, hc, hw⟩ := Res.bind_eq_ok.mp hw
  cases hw
  obtain ⟨f, hf, hx⟩ := Api.writeToSelected_cases hc
  rcases hx with ⟨hne, -⟩ | ⟨-, -, -, -, -, b, hfd, -, hfs⟩
  · exact absurd rfl hne
  obtain ⟨d2, enc2, q1, q2, q3, q4⟩ := Api.fullData_inv hi hst
  rw [k1] at q1; cases q1
  rw [l3] at q2; cases q2
  rw [q4 _ k1 l3] at hfd
  cases hfd
  refine ⟨f, d, m, pw, x, enc.data, hf, k1, by simp only [DataHeader.contents, k2], k0, l0, hfs, ?_⟩
  intro hl
  obtain ⟨l4, l5⟩ := l4 hl
  have henc : enc.data.length = x.length := by rw [l4, cryptOut_length]
  refine ⟨?_, ?_⟩
  · rw [l5, henc, contents_lengths q3.inv q3.complete]
  · have := cryptOut_enc (hs.get m) w.api.pwHash.data d.contents.salt x
    rw [← l4, Hashes.get_size, k4] at this
    exact this

/-- C49, the part that holds, for `writeToFile(path)` -/
theorem C49_path_partial (mode : Byte) (s0 : Session) (h0 : Api.new mode = .ok s0) (fs : FS) (evs : List Event)
    (hb : BuiltArgs evs) (rs : List (Option Ret)) (w w' : World) (h : Api.run hs rest ⟨s0, fs⟩ evs = .ok (rs, w)) (e : Env)
    (p : Path) (hw : Api.call hs rest e w (.writeToFileAt p) = .ok (.plain (.success ()), w')) :
    ∃ d m pw data enc, w.api.dh = some d ∧ m.toByte = d.contents.hashMode ∧
      lastGiven evs rs = some pw ∧ lastData evs rs = some data ∧
      w'.fs = w.fs.set p (.file ((d.contents.bytes ++ enc).take e.stored)) ∧
      (data.length < 2 ^ 31 → d.contents.fileSize = d.contents.bytes.length + enc.length ∧
        IsEncryption (hs.get m).h m.size (d.contents.ch1.digest (hs.get m).h pw) d.contents.salt data enc) := by
  have hst : w.api.state = .ENCRYPTED := by
    simp only [Api.call] at hw
    split at hw
    · assumption
    · cases hw
  obtain ⟨hi, hk, -⟩ := Api.history_key h0 hb h
  obtain ⟨pw, d, m, v, k0, k1, k2, k3, k4, -⟩ := hk (by rw [hst]; rfl)
  obtain ⟨x, d', m', enc, l0, l1, l2, l3, l4⟩ := Api.history_data h0 hb h hst
  rw [k1] at l1; cases l1
  rw [k2] at l2; cases l2
  simp only [Api.call, hst] at hw
  obtain ⟨⟨o, w1⟩, hc, hw⟩ := Res.bind_eq_ok.mp hw
  cases hw
  rcases Api.writeToPath_cases hc with ⟨hne, -⟩ | ⟨-, -, -, -, -, b, hfd, -, hfs⟩
  · exact absurd rfl hne
  obtain ⟨d2, enc2, q1, q2, q3, q4⟩ := Api.fullData_inv hi hst
  rw [k1] at q1; cases q1
  rw [l3] at q2; cases q2
  rw [q4 _ k1 l3] at hfd
  cases hfd
  refine ⟨d, m, pw, x, enc.data, k1, by simp only [DataHeader.contents, k2], k0, l0, hfs, ?_⟩
  intro hl
  obtain ⟨l4, l5⟩ := l4 hl
  have henc : enc.data.length = x.length := by rw [l4, cryptOut_length]
  refine ⟨?_, ?_⟩
  · rw [l5, henc, contents_lengths q3.inv q3.complete]
  · have := cryptOut_enc (hs.get m) w.api.pwHash.data d.contents.salt x
    rw [← l4, Hashes.get_size, k4] at this
    exact this

/-- a disk that takes 100 bytes -/
def fullDisk : Env := { openEnv with stored := 100 }

/-- a save on a full disk -/
def shortSave : List Event := sampleSave.take 4 ++ [.call .writeToFile fullDisk]

theorem built_save : BuiltArgs (sampleSave ++ sampleOpen) := by
  intro pw ds t e hm
  simp [sampleSave, sampleOpen] at hm
  obtain ⟨⟨-, rfl, -⟩, -⟩ := hm
  exact usable_sample.built

theorem full_save : FullBlocks (sampleSave ++ sampleOpen) := by
  intro pw ds t e hm
  simp [sampleSave, sampleOpen] at hm
  obtain ⟨⟨-, rfl, -⟩, -⟩ := hm
  exact usable_sample.full

/-- a save that reports success, on a disk with room -/
example : runIs sampleSave (fun rs w => rs.getLast? == some (some (.plain (.success ()))) &&
    lastData sampleSave rs == some (ascii "hello") &&
    (match w.fs samplePath with | .file c => c.length == 369 | _ => false)) = true := by decide +kernel

/-- C49 violated: on a full disk the save reports success though the file is cut off after 100 bytes. -/
theorem C49_violated : ∃ rs w c, Api.run toyHashes noRest (freshWorld fun _ => .missing) shortSave = .ok (rs, w) ∧
    rs.getLast? = some (some (.plain (.success ()))) ∧ w.fs samplePath = .file c ∧ c.length = 100 ∧
    ∃ d, w.api.dh = some d ∧ d.contents.bytes.length = 364 := by
  obtain ⟨rs, w, h1, h2⟩ := runIs_ok (evs := shortSave) (p := fun rs w =>
    rs.getLast? == some (some (.plain (.success ()))) &&
    (match w.fs samplePath with | .file c => c.length == 100 | _ => false) &&
    (match w.api.dh with | some d => d.contents.bytes.length == 364 | none => false)) (by decide +kernel)
  simp only [Bool.and_eq_true, beq_iff_eq] at h2
  obtain ⟨⟨h2, h3⟩, h4⟩ := h2
  split at h3
  · rename_i c hc
    split at h4
    · rename_i d hd
      exact ⟨rs, w, c, h1, h2, hc, by simpa using h3, d, hd, by simpa using h4⟩
    · cases h4
  · cases h3

/-- C49 violated: what was saved on a full disk cannot be opened again. -/
theorem C49_violated_lost : ∃ rs w, Api.run toyHashes noRest (freshWorld fun _ => .missing) (shortSave ++ sampleOpen) =
      .ok (rs, w) ∧ rs[4]? = some (some (.plain (.success ()))) ∧
    rs[6]? = some (some (.flag (.fail .ERR_FILEHANDLER_CREATION))) := by
  obtain ⟨rs, w, h1, h2⟩ := runIs_ok (evs := shortSave ++ sampleOpen) (p := fun rs w =>
    rs[4]? == some (some (.plain (.success ()))) && rs[6]? == some (some (.flag (.fail .ERR_FILEHANDLER_CREATION))))
    (by decide +kernel)
  simp only [Bool.and_eq_true, beq_iff_eq] at h2
  exact ⟨rs, w, h1, h2.1, h2.2⟩

/-! ## C48 -/

/-- C48, the part that holds: if a save stops anywhere, the selected file has its old content or a first part of the new
content (header of the session, then the encrypted data), and no other file has changed. -/
theorem C48_states_partial (mode : Byte) (s0 : Session) (h0 : Api.new mode = .ok s0) (fs : FS) (evs : List Event)
    (hb : BuiltArgs evs) (rs : List (Option Ret)) (w : World) (h : Api.run hs rest ⟨s0, fs⟩ evs = .ok (rs, w))
    (hst : w.api.state = .ENCRYPTED) (e : Env) (fs' : FS) (hstop : Api.SaveStops e w fs') :
    ∃ f d enc, w.api.selected = some f ∧ w.api.dh = some d ∧ w.api.encrypted = some enc ∧
      (∀ q, q ≠ f.path → fs' q = w.fs q) ∧
      (fs' f.path = w.fs f.path ∨ ∃ n, fs' f.path = .file ((d.contents.bytes ++ enc.data).take n)) := by
  have hi := (Api.history_key h0 hb h).1
  obtain ⟨d, enc, q1, q2, -, -⟩ := Api.fullData_inv hi hst
  have hsel : ∃ f, w.api.selected = some f := by
    generalize w.api = s at *
    cases hi <;> simp at hst
    exact ⟨_, rfl⟩
  obtain ⟨f, hsel⟩ := hsel
  refine ⟨f, d, enc, hsel, q1, q2, ?_⟩
  rcases hstop with rfl | ⟨n, hn⟩
  · exact ⟨fun _ _ => rfl, .inl rfl⟩
  rcases Api.stopSave_cases hi hst hn with rfl | ⟨f', d', enc', c, r1, r2, r3, r4, r5, r6, r7, rfl⟩
  · exact ⟨fun _ _ => rfl, .inl rfl⟩
  · rw [hsel] at r1; cases r1
    rw [q1] at r2; cases r2
    rw [q2] at r3; cases r3
    refine ⟨fun q hq => by simp [FS.set, hq], .inr ⟨n, by simp [FS.set]⟩⟩

/-- C48, the part that holds: a save that ran to its end and one that stopped after everything was stored leave the same
disk. -/
theorem C48_complete_partial (e : Env) (w w' : World) (hw : Api.call hs rest e w .writeToFile = .ok (.plain (.success ()), w')) :
    Api.SaveStops e w w'.fs := by
  have hst : w.api.state = .ENCRYPTED := by
    simp only [Api.call] at hw
    split at hw
    · assumption
    · cases hw
  simp only [Api.call, hst] at hw
  obtain ⟨⟨o, w1⟩, hc, hw⟩ := Res.bind_eq_ok.mp hw
  cases hw
  refine .inr ⟨e.stored, ?_⟩
  rw [Api.writeToSelected, Res.noexcept_eq_ok, Res.bind_eq_ok] at hc
  obtain ⟨f, hf, hc⟩ := hc
  obtain ⟨⟨o, f', fs'⟩, hg, hc⟩ := Res.bind_eq_ok.mp hc
  rw [Api.stopSave, hf, Res.bind_ok, hg, Res.bind_ok]
  obtain ⟨rfl, hcs⟩ := Api.getWriteStream_cases hg
  rcases hcs with ⟨rfl, hne⟩ | ⟨rfl, -, -, -, -, rfl⟩
  · cases o with
    | success u => exact absurd rfl hne
    | fail c => cases hc
    | timeout => cases hc
  · simp only at hc ⊢
    obtain ⟨b, hb, -, -, hfs⟩ := Api.finishWrite_cases hc
    split
    · rename_i hz
      rw [hfs, hz, List.take_zero, Api.set_set]
      rfl
    · rw [hb, Res.bind_ok, hfs]
      rfl

/-- C48, the part that holds: if the file can still be opened as a file with a header after an interrupted save, it has
exactly its old or exactly its new content. A torn file (at least one byte, not all) is refused, whatever the outside does;
a file of zero bytes is taken for an empty one. Data below 2^31 bytes. -/
theorem C48_old_or_new_partial (mode : Byte) (s0 : Session) (h0 : Api.new mode = .ok s0) (fs : FS) (evs : List Event)
    (hb : BuiltArgs evs) (rs : List (Option Ret)) (w : World) (h : Api.run hs rest ⟨s0, fs⟩ evs = .ok (rs, w))
    (hst : w.api.state = .ENCRYPTED) (data : List Byte) (hdata : lastData evs rs = some data) (hlen : data.length < 2 ^ 31)
    (e : Env) (fs' : FS) (hstop : Api.SaveStops e w fs') (s : Session) (hs0 : s.state = .INIT) (f : FileHandler)
    (hsel : w.api.selected = some f) (e' : Env) (w' : World)
    (hopen : Api.call hs rest e' ⟨s, fs'⟩ (.selectFile f.path) = .ok (.flag (.success true), w')) :
    (w'.api.state = .EMPTY_FILE_SELECTED ∧ w.fs f.path ≠ fs' f.path → fs' f.path = .file []) ∧
    (w'.api.state = .FILE_SELECTED → fs' f.path = w.fs f.path ∨
      ∃ d enc, w.api.dh = some d ∧ w.api.encrypted = some enc ∧ fs' f.path = .file (d.contents.bytes ++ enc.data)) := by
  have hi := (Api.history_key h0 hb h).1
  obtain ⟨x, d, m, enc, l0, l1, l2, l3, l4⟩ := Api.history_data h0 hb h hst
  rw [hdata] at l0; cases l0
  obtain ⟨l4, l5⟩ := l4 hlen
  have henc : enc.data.length = data.length := by rw [l4, cryptOut_length]
  rcases hstop with rfl | ⟨n, hn⟩
  · exact ⟨fun h => absurd rfl h.2, fun _ => .inl rfl⟩
  rcases Api.stopSave_cases hi hst hn with rfl | ⟨f', d', enc', c, r1, r2, r3, r4, r5, r6, r7, rfl⟩
  · exact ⟨fun h => absurd rfl h.2, fun _ => .inl rfl⟩
  rw [hsel] at r1; cases r1
  rw [l1] at r2; cases r2
  rw [l3] at r3; cases r3
  have hcl := contents_lengths r4.inv r4.complete
  have hle := Api.HeaderOk.length_le r4
  have htot : (d.contents.bytes ++ enc.data).length = d.contents.fileSize := by
    rw [List.length_append, hcl, henc, l5]
  have hpath : (w.fs.set f.path (.file ((d.contents.bytes ++ enc.data).take n))) f.path =
      .file ((d.contents.bytes ++ enc.data).take n) := by simp [FS.set]
  simp only [Api.call, hs0] at hopen
  obtain ⟨⟨o, w1⟩, hc, hopen⟩ := Res.bind_eq_ok.mp hopen
  cases hopen
  rcases Api.selectFile_cases hc with ⟨hne, -⟩ | ⟨-, g, hg, hsel2⟩
  · exact absurd rfl hne
  obtain ⟨-, hp, hr, hu, -⟩ := Api.getFileHandler_success hg
  by_cases hfull : (d.contents.bytes ++ enc.data).length ≤ n
  · refine ⟨fun h => ?_, fun _ => .inr ⟨d, enc, l1, l3, by rw [hpath, List.take_of_length_le hfull]⟩⟩
    exfalso
    rcases hsel2 with ⟨he, -⟩ | ⟨-, d2, -, rfl⟩
    · rcases update_file (e := e') hpath hr (by rw [List.length_take]; omega) 0 with ⟨k, -, hk⟩ | ⟨-, y, -, hk⟩
      · rw [hk] at hu
        cases hu
        simp only [List.isEmpty_iff] at he
        have := congrArg List.length he
        rw [List.length_take, List.length_nil] at this
        have h0 : 40 ≤ d.contents.length := by unfold Header.length; omega
        omega
      · rw [hk] at hu; cases hu
    · exact absurd h.1 (by simp)
  · by_cases hz : n = 0
    · subst hz
      refine ⟨fun _ => by rw [hpath, List.take_zero], fun h => ?_⟩
      exfalso
      rcases hsel2 with ⟨-, rfl⟩ | ⟨hf, d2, -, rfl⟩
      · exact absurd h (by simp [Api.selectEmptyFile])
      · rw [List.take_zero] at hpath
        rcases update_file (e := e') hpath hr (by simp) 0 with ⟨k, -, hk⟩ | ⟨-, y, -, hk⟩
        · rw [List.take_zero] at hu
          rw [hk] at hu
          cases hu
          simp at hf
        · rw [List.take_zero] at hu
          rw [hk] at hu; cases hu
    · exfalso
      have htorn := Api.torn_not_plausible (c := d.contents.bytes ++ enc.data) (size := d.contents.fileSize)
        (rest := num8 d.contents.length ++ d.contents.content ++ enc.data) (by simp [Header.bytes]) htot.symm (by omega)
        (n := n) (by omega) (by omega)
      rcases update_file (e := e') hpath hr (by rw [List.length_take]; omega) 0 with ⟨k, hk, -⟩ | ⟨-, y, -, hk⟩
      · exact htorn ⟨k, hk⟩
      · rw [hk] at hu; cases hu

/-- C48 for `writeToFile(path)`: nothing can get lost. The file it writes to was empty before; if the save stops anywhere,
that file has a first part of the new content and no other file has changed. -/
theorem C48_other_file_partial (mode : Byte) (s0 : Session) (h0 : Api.new mode = .ok s0) (fs : FS) (evs : List Event)
    (hb : BuiltArgs evs) (rs : List (Option Ret)) (w : World) (h : Api.run hs rest ⟨s0, fs⟩ evs = .ok (rs, w))
    (hst : w.api.state = .ENCRYPTED) (e : Env) (p : Path) (fs' : FS) (hstop : Api.SaveAtStops e w p fs') :
    fs' = w.fs ∨ w.fs p = .file [] ∧ ∃ d enc n, w.api.dh = some d ∧ w.api.encrypted = some enc ∧
      fs' = w.fs.set p (.file ((d.contents.bytes ++ enc.data).take n)) := by
  have hi := (Api.history_key h0 hb h).1
  rcases hstop with rfl | ⟨n, hn⟩
  · exact .inl rfl
  rcases Api.stopSaveAt_cases hi hst hn with rfl | ⟨d, enc, r2, r3, r4, r5, r6, rfl⟩
  · exact .inl rfl
  · exact .inr ⟨r6, d, enc, n, r2, r3, rfl⟩

/-- C48: the interruption points are all there: if a save to the selected file would succeed, it can stop with any first part of
the new content on the disk. -/
theorem C48_any_part (mode : Byte) (s0 : Session) (h0 : Api.new mode = .ok s0) (fs : FS) (evs : List Event)
    (hb : BuiltArgs evs) (rs : List (Option Ret)) (w : World) (h : Api.run hs rest ⟨s0, fs⟩ evs = .ok (rs, w))
    (e : Env) (w' : World) (hw : Api.call hs rest e w .writeToFile = .ok (.plain (.success ()), w')) :
    ∃ f d enc, w.api.selected = some f ∧ w.api.dh = some d ∧ w.api.encrypted = some enc ∧
      ∀ n, Api.SaveStops e w (w.fs.set f.path (.file ((d.contents.bytes ++ enc.data).take n))) := by
  have hst : w.api.state = .ENCRYPTED := by
    simp only [Api.call] at hw
    split at hw
    · assumption
    · cases hw
  obtain ⟨d, enc, q1, q2, -, q3⟩ := Api.fullData_inv (Api.history_key h0 hb h).1 hst
  simp only [Api.call, hst] at hw
  obtain ⟨⟨o, w1⟩, hc, hw⟩ := Res.bind_eq_ok.mp hw
  cases hw
  rw [Api.writeToSelected, Res.noexcept_eq_ok, Res.bind_eq_ok] at hc
  obtain ⟨f, hf, hc⟩ := hc
  obtain ⟨⟨o, f', fs'⟩, hg, hc⟩ := Res.bind_eq_ok.mp hc
  have hf' := deref_ok.mp hf
  refine ⟨f, d, enc, hf', q1, q2, fun n => .inr ⟨n, ?_⟩⟩
  rw [Api.stopSave, hf, Res.bind_ok, hg, Res.bind_ok]
  obtain ⟨rfl, hcs⟩ := Api.getWriteStream_cases hg
  rcases hcs with ⟨rfl, hne⟩ | ⟨rfl, -, -, -, -, rfl⟩
  · cases o with
    | success u => exact absurd rfl hne
    | fail c => cases hc
    | timeout => cases hc
  · simp only
    split
    · rename_i hz
      rw [hz, List.take_zero]
      rfl
    · rw [q3 { w.api with selected := some { f with headerSize := 0, fileSize := 0 } } q1 q2, Res.bind_ok, Api.set_set]
      rfl

/-- C48: the same for a save to another file. -/
theorem C48_other_any_part (mode : Byte) (s0 : Session) (h0 : Api.new mode = .ok s0) (fs : FS) (evs : List Event)
    (hb : BuiltArgs evs) (rs : List (Option Ret)) (w : World) (h : Api.run hs rest ⟨s0, fs⟩ evs = .ok (rs, w))
    (e : Env) (p : Path) (w' : World) (hw : Api.call hs rest e w (.writeToFileAt p) = .ok (.plain (.success ()), w')) :
    ∃ d enc, w.api.dh = some d ∧ w.api.encrypted = some enc ∧
      ∀ n, Api.SaveAtStops e w p (w.fs.set p (.file ((d.contents.bytes ++ enc.data).take n))) := by
  have hst : w.api.state = .ENCRYPTED := by
    simp only [Api.call] at hw
    split at hw
    · assumption
    · cases hw
  obtain ⟨d, enc, q1, q2, -, q3⟩ := Api.fullData_inv (Api.history_key h0 hb h).1 hst
  refine ⟨d, enc, q1, q2, fun n => .inr ⟨n, ?_⟩⟩
  simp only [Api.call, hst] at hw
  obtain ⟨⟨o, w1⟩, hc, hw⟩ := Res.bind_eq_ok.mp hw
  cases hw
  rw [Api.writeToPath, Res.noexcept_eq_ok, Res.bind_eq_ok] at hc
  obtain ⟨o, hf, hc⟩ := hc
  rw [Api.stopSaveAt, hf, Res.bind_ok]
  cases o with
  | fail c => cases hc
  | timeout => cases hc
  | success f =>
    obtain ⟨rfl, -⟩ := Api.getFileHandler_success hf
    simp only at hc ⊢
    obtain ⟨⟨o, f', fs'⟩, hg, hc⟩ := Res.bind_eq_ok.mp hc
    rw [hg, Res.bind_ok]
    obtain ⟨hpp, hcs⟩ := Api.getWriteStreamIfEmpty_cases hg
    rcases hcs with ⟨rfl, hne⟩ | ⟨rfl, -, -, -, -, -, rfl⟩
    · cases o with
      | success u => exact absurd rfl hne
      | fail c => cases hc
      | timeout => cases hc
    · simp only
      split
      · rename_i hz
        rw [hz, List.take_zero]
        rfl
      · rw [q3 _ q1 q2, Res.bind_ok, hpp, Api.set_set]
        rfl

/-- saved, opened again, about to save something else -/
def sampleAgain : List Event :=
  sampleSave ++ sampleOpen ++ [.call (.encryptData (some ⟨some 1, some (Bytes.full (ascii "other"))⟩)) openEnv]

/-- a session that is about to save: the situation of the theorems on interrupted saves; saving to the selected file and to
another, empty one would succeed; stopped after 200 bytes the latter leaves the first file alone -/
example : runIs (.call (.createFile (ascii "b.enc")) openEnv :: sampleAgain) (fun _ w =>
    (match Api.call toyHashes noRest openEnv w .writeToFile with
      | .ok (r, _) => r == .plain (.success ())
      | _ => false) &&
    (match Api.call toyHashes noRest openEnv w (.writeToFileAt (ascii "b.enc")) with
      | .ok (r, _) => r == .plain (.success ())
      | _ => false) &&
    (match Api.stopSaveAt openEnv w (ascii "b.enc") 200 with
      | .ok fs => (match fs (ascii "b.enc") with | .file c => c.length == 200 | _ => false) &&
        decide (fs samplePath = w.fs samplePath)
      | _ => false)) = true := by decide +kernel

/-- the same; stopped after 200 bytes, the selected file has 200 bytes -/
example : runIs (sampleSave ++ sampleOpen ++ [.call (.createFile (ascii "b.enc")) openEnv,
      .call (.encryptData (some ⟨some 1, some (Bytes.full (ascii "other"))⟩)) openEnv]) (fun rs w =>
    w.api.state == .ENCRYPTED && lastData (sampleSave ++ sampleOpen ++ [.call (.createFile (ascii "b.enc")) openEnv,
      .call (.encryptData (some ⟨some 1, some (Bytes.full (ascii "other"))⟩)) openEnv]) rs == some (ascii "other") &&
    (match Api.stopSave openEnv w 200 with
      | .ok fs => (match fs samplePath with | .file c => c.length == 200 | _ => false)
      | _ => false)) = true := by decide +kernel

/-- the first result of selecting the sample file in a new session -/
def trySelect (fs : FS) : Option (Ret × WState) :=
  match Api.call toyHashes noRest openEnv (freshWorld fs) (.selectFile samplePath) with
  | .ok (r, w) => some (r, w.api.state)
  | _ => none

/-- C48 violated: a file that held data is saved again and the process stops right after the stream was opened: the file is
empty, both the old and the new content are gone, and the program takes it for a new empty file. -/
theorem C48_violated_empty : ∃ rs w fs', Api.run toyHashes noRest (freshWorld fun _ => .missing) sampleAgain = .ok (rs, w) ∧
    w.api.state = .ENCRYPTED ∧ (∃ c, w.fs samplePath = .file c ∧ c.length = 369) ∧ Api.SaveStops openEnv w fs' ∧
    fs' samplePath = .file [] ∧ trySelect fs' = some (.flag (.success true), .EMPTY_FILE_SELECTED) := by
  obtain ⟨rs, w, h1, h2⟩ := runIs_ok (evs := sampleAgain) (p := fun rs w => w.api.state == .ENCRYPTED &&
    (match w.fs samplePath with | .file c => c.length == 369 | _ => false) &&
    (match Api.stopSave openEnv w 0 with
      | .ok fs => fs samplePath == .file [] && trySelect fs == some (.flag (.success true), .EMPTY_FILE_SELECTED)
      | _ => false)) (by decide +kernel)
  simp only [Bool.and_eq_true, beq_iff_eq] at h2
  obtain ⟨⟨h2, h3⟩, h4⟩ := h2
  split at h3
  · rename_i c hc
    split at h4
    · rename_i fs hfs
      simp only [Bool.and_eq_true, beq_iff_eq] at h4
      exact ⟨rs, w, fs, h1, h2, ⟨c, hc, by simpa using h3⟩, .inr ⟨0, hfs⟩, h4.1, h4.2⟩
    · cases h4
  · cases h3

/-- C48 violated: the same with 200 bytes on the disk: the file is refused. -/
theorem C48_violated_torn : ∃ rs w fs', Api.run toyHashes noRest (freshWorld fun _ => .missing) sampleAgain = .ok (rs, w) ∧
    w.api.state = .ENCRYPTED ∧ Api.SaveStops openEnv w fs' ∧
    trySelect w.fs = some (.flag (.success true), .FILE_SELECTED) ∧
    trySelect fs' = some (.flag (.fail .ERR_FILEHANDLER_CREATION), .INIT) := by
  obtain ⟨rs, w, h1, h2⟩ := runIs_ok (evs := sampleAgain) (p := fun rs w => w.api.state == .ENCRYPTED &&
    trySelect w.fs == some (.flag (.success true), .FILE_SELECTED) &&
    (match Api.stopSave openEnv w 200 with
      | .ok fs => trySelect fs == some (.flag (.fail .ERR_FILEHANDLER_CREATION), .INIT)
      | _ => false)) (by decide +kernel)
  simp only [Bool.and_eq_true, beq_iff_eq] at h2
  obtain ⟨⟨h2, h3⟩, h4⟩ := h2
  split at h4
  · rename_i fs hfs
    simp only [beq_iff_eq] at h4
    exact ⟨rs, w, fs, h1, h2, .inr ⟨200, hfs⟩, h3, h4⟩
  · cases h4

/-! ## C55 -/

/-- C55: in a session holding decrypted data, however it got there, a new header for a new password is made, new data is
encrypted and written: the file opens with the new password and gives the new data. Its header is made from the new
settings, and any password (in particular the old one) is accepted by the file exactly if it reproduces the new validator. -/
theorem C55_change_password (mode : Byte) (s0 : Session) (h0 : Api.new mode = .ok s0) (fs : FS) (evs : List Event)
    (hb : BuiltArgs evs) (rs : List (Option Ret)) (w : World)
    (h : Api.run hs rest ⟨s0, fs⟩ evs = .ok (rs, w)) (hst : w.api.state = .DECRYPTED) :
    ∃ f, w.api.selected = some f ∧
      ∀ (c new : List Byte) (ds : SettingsIters) (data : Bytes) (e : Nat → Env), w.fs f.path = .file c → Usable ds →
        data.data.length < 2 ^ 31 → (∀ i, Healthy (e i) f.path) → data.data.length + 200000 ≤ (e 2).stored →
        ∃ w' r hd enc, Api.run hs rest w [.call (.createDataHeader new ds 0) (e 0),
            .call (.encryptData (some ⟨some mode, some data⟩)) (e 1), .call .writeToFile (e 2),
            .call .logout (e 3), .call (.selectFile f.path) (e 4), .call (.verifyPassword new 0) (e 5),
            .call .getDecryptedData (e 6)] =
          .ok ([some (.flag (.success true)), some (.flag (.success true)), some (.plain (.success ())), some .void,
            some (.flag (.success true)), some (.flag (.success true)),
            some (.data (.success ⟨some mode, some r⟩))], w') ∧
          r.data = data.data ∧ (∀ q, q ≠ f.path → w'.fs q = w.fs q) ∧
          w'.fs f.path = .file (hd.bytes ++ enc) ∧ hd.Valid ∧ MadeFrom ds hd ∧ Opens hs hd new ∧
          ∀ (old : List Byte) (e1 e2 e3 : Env), Healthy e2 f.path → Healthy e3 f.path →
            ∃ w2 b, Api.run hs rest w' [.call .logout e1, .call (.selectFile f.path) e2, .call (.verifyPassword old 0) e3] =
              .ok ([some .void, some (.flag (.success true)), some (.flag b)], w2) ∧
              (b = .success true ∨ b = .fail .ERR_PASSWORD_INVALID) ∧ (b = .success true ↔ Opens hs hd old) := by
  obtain ⟨rfl, -⟩ := new_mode h0
  have hi := (Api.history_key h0 hb h).1
  have hsel : ∃ f, w.api.selected = some f ∧ EncPath f.path ∧ w.api.fileMode = 1 := by
    generalize w.api = s at *
    cases hi <;> simp at hst
    exact ⟨_, rfl, by assumption, rfl⟩
  obtain ⟨f, hsel, hp, hmode⟩ := hsel
  refine ⟨f, hsel, ?_⟩
  intro c new ds data e hc hds hdata he hroom
  obtain ⟨w1, d, m, c1, f1, h1, h2, -⟩ := Api.createHeader_ok (hs := hs) (rest := rest) (e := e 0) hds (he 0).rand hmode (.inr hst)
    hsel hp new
  obtain ⟨w2, enc, r, c2, k1, k2, k3, k4, k5⟩ := Api.save_reopen (rest := rest) h1 hdata (by rw [f1]; exact hc) (e 1) (e 3) (he 2)
    (he 4) (he 5) (he 6) hroom
  have hfile : w2.fs f.path = .file ((Api.saved d enc.length).bytes ++ enc) := by rw [k2]; simp [FS.set]
  refine ⟨w2, r, Api.saved d enc.length, enc, Api.call_step c1 c2, k1, ?_, hfile, k3, ?_, ?_, ?_⟩
  · intro q hq
    rw [k2, f1]
    simp [FS.set, hq]
  · exact ⟨h2.hashMode, h2.mode1, h2.iters1, h2.mode2, h2.iters2, h2.blocks, h2.encBlocks⟩
  · obtain ⟨m', o1, o2⟩ := h1.opens
    exact ⟨m', o1, o2⟩
  · intro old e1 e2 e3 he2 he3
    have a1 : Api.call hs rest e1 w2 .logout = .ok (.void, ⟨Api.logout w2.api, w2.fs⟩) := rfl
    have a2 := Api.select_run (rest := rest) (hs := hs) (e := e2) (w := ⟨Api.logout w2.api, w2.fs⟩) hp k3 rfl rfl hfile he2.read
      (he2.rand 0)
    obtain ⟨b, s3, a3, hb1, hb2⟩ := Api.check_iff (rest := rest) (hs := hs) (e := e3) (w := ⟨{ Api.logout w2.api with
        dh := some (HeaderParse.mkHeader (Api.saved d enc.length))
        selected := some ⟨f.path, (Api.saved d enc.length).length, (Api.saved d enc.length).fileSize, false⟩
        state := .FILE_SELECTED }, w2.fs⟩) k3 rfl rfl old he3.clock
    exact ⟨s3, b, Api.call_step a1 (Api.call_step a2 (Api.call_step a3 rfl)), hb1, hb2⟩

/-- a session in which the password can be changed, for every old password and settings a user may choose -/
example : runIs (sampleSave ++ sampleOpen) (fun _ w => w.api.state == .DECRYPTED &&
    (match w.fs samplePath with | .file _ => true | _ => false)) = true ∧ BuiltArgs (sampleSave ++ sampleOpen) ∧
    Usable sampleSettings ∧ Healthy openEnv samplePath :=
  ⟨by decide +kernel, built_save, usable_sample, healthy_open _⟩

/-! ## C56 -/

/-- C56, the part that holds: changing the salt, in any session holding decrypted data, either fails and changes nothing, or
replaces the salt of the header by random bytes and forgets its file size; everything else in the header and in the session
(in particular the key) stays, and the disk is untouched. -/
theorem C56_keeps_partial (mode : Byte) (s0 : Session) (h0 : Api.new mode = .ok s0) (fs : FS) (evs : List Event)
    (hb : BuiltArgs evs) (rs : List (Option Ret)) (w w' : World) (h : Api.run hs rest ⟨s0, fs⟩ evs = .ok (rs, w))
    (hst : w.api.state = .DECRYPTED) (e : Env) (r : Ret) (hc : Api.call hs rest e w .changeSalt = .ok (r, w')) :
    (r ≠ .plain (.success ()) ∧ w' = w) ∨
    (r = .plain (.success ()) ∧ ∃ d d', w.api.dh = some d ∧ w' = ⟨{ w.api with dh := some d' }, w.fs⟩ ∧
      d'.contents = { d.contents with salt := (e.rand 0).take d.contents.salt.length, fileSize := 0 }) := by
  have hi := (Api.history_key h0 hb h).1
  simp only [Api.call, hst] at hc
  obtain ⟨⟨o, s⟩, hcs, hc⟩ := Res.bind_eq_ok.mp hc
  cases hc
  rcases Api.changeSalt_dh hi hst hcs with ⟨h1, rfl⟩ | ⟨rfl, d, m, d', h1, h2, h3, rfl, h4, h5, h6, h7, h8⟩
  · exact .inl ⟨by simpa using h1, rfl⟩
  · refine .inr ⟨rfl, d, d', h1, rfl, ?_⟩
    have hok : HeaderOk d := by
      generalize w.api = s at *
      cases hi <;> simp at hst h1
      subst h1; assumption
    obtain ⟨salt, hs1, hs2⟩ := hok.inv.salt
    obtain ⟨m', hm', hsz⟩ := hok.inv.hm
    rw [h2] at hm'; cases hm'
    have hl : salt.data.length = m.size := by rw [hs2, hsz]
    simp only [DataHeader.contents, h5, h7, hs1, hl]

/-- C56, the part that holds: with a working random source the salt of a session holding decrypted data can be changed, and
what is saved afterwards opens with the same password; the header in the file differs from the one before in salt and file
size only. -/
theorem C56_reopen_partial (mode : Byte) (s0 : Session) (h0 : Api.new mode = .ok s0) (fs : FS) (evs : List Event)
    (hb : BuiltArgs evs) (hf : FullBlocks evs) (rs : List (Option Ret)) (w : World)
    (h : Api.run hs rest ⟨s0, fs⟩ evs = .ok (rs, w)) (hst : w.api.state = .DECRYPTED) :
    ∃ f pw d, w.api.selected = some f ∧ lastGiven evs rs = some pw ∧ w.api.dh = some d ∧
      ∀ (c : List Byte) (data : Bytes) (e : Nat → Env), w.fs f.path = .file c → data.data.length < 2 ^ 31 →
        (∀ i, Healthy (e i) f.path) → data.data.length + 200000 ≤ (e 2).stored →
        ∃ w' r hd enc, Api.run hs rest w [.call .changeSalt (e 0), .call (.encryptData (some ⟨some mode, some data⟩)) (e 1),
            .call .writeToFile (e 2), .call .logout (e 3), .call (.selectFile f.path) (e 4), .call (.verifyPassword pw 0) (e 5),
            .call .getDecryptedData (e 6)] =
          .ok ([some (.plain (.success ())), some (.flag (.success true)), some (.plain (.success ())), some .void,
            some (.flag (.success true)), some (.flag (.success true)), some (.data (.success ⟨some mode, some r⟩))], w') ∧
          r.data = data.data ∧ (∀ q, q ≠ f.path → w'.fs q = w.fs q) ∧ w'.fs f.path = .file (hd.bytes ++ enc) ∧ hd.Valid ∧
          SaltOnly d.contents hd ∧ hd.salt = ((e 0).rand 0).take d.contents.salt.length := by
  obtain ⟨rfl, -⟩ := new_mode h0
  obtain ⟨hi, hk, hbl⟩ := Api.history_key h0 hb h
  obtain ⟨x, d, m, v, k0, -⟩ := hk (by rw [hst]; rfl)
  rw [k0] at hk
  obtain ⟨d, m, f, hh⟩ := Api.Holds.of_inv hi hk (hbl hf) hst
  refine ⟨f, x, d, hh.sel, k0, hh.dh, ?_⟩
  intro c data e hc hdata he hroom
  obtain ⟨w1, d1, c1, f1, h1, hcont⟩ := Api.changeSalt_ok (rest := rest) (e := e 0) hh ((he 0).rand 0) ((he 0).rand 1)
  obtain ⟨w2, enc, r, c2, k1, k2, k3, -⟩ := Api.save_reopen (rest := rest) h1 hdata (by rw [f1]; exact hc) (e 1) (e 3) (he 2)
    (he 4) (he 5) (he 6) hroom
  obtain ⟨salt, hs1, hs2⟩ := hh.ok.inv.salt
  obtain ⟨m', hm', hsz⟩ := hh.ok.inv.hm
  rw [hh.hm] at hm'; cases hm'
  have hl : d.contents.salt.length = m.size := by simp only [DataHeader.contents, hs1]; rw [hs2, hsz]
  refine ⟨w2, r, Api.saved d1 enc.length, enc, Api.call_step c1 c2, k1, ?_, by rw [k2]; simp [FS.set], k3, ?_, ?_⟩
  · intro q hq
    rw [k2, f1]
    simp [FS.set, hq]
  · simp only [SaltOnly, Api.saved, hcont]
  · rw [hl]; simp only [Api.saved, hcont]

/-- the situation of both theorems, and a change of the salt that succeeds -/
example : BuiltArgs (sampleSave ++ sampleOpen) ∧ FullBlocks (sampleSave ++ sampleOpen) ∧
    runIs (sampleSave ++ sampleOpen) (fun _ w => w.api.state == .DECRYPTED &&
      (match Api.call toyHashes noRest { openEnv with rand := fun _ => ⟨true, fun _ => 9⟩ } w .changeSalt with
        | .ok (r, w') => r == .plain (.success ()) && w'.api.dh != w.api.dh
        | _ => false)) = true :=
  ⟨built_save, full_save, by decide +kernel⟩

/-- contents of an encrypted data block -/
def blockData : List Byte := (List.range 255).map UInt8.ofNat

/-- the salt the sample environment will give the header -/
def blockSalt0 : Bytes := ⟨(openEnv.rand 2).take 32, 32⟩

/-- the key the sample password gives in the sample session (the first chain hash of the password) -/
def blockKey : Bytes :=
  match Api.run toyHashes noRest (freshWorld fun _ => .missing) [.call (.createFile samplePath) openEnv,
      .call (.selectFile samplePath) openEnv, .call (.createDataHeader samplePw sampleSettings 0) openEnv] with
  | .ok (_, w) => w.api.pwHash
  | _ => Bytes.empty 0

/-- settings with an encrypted data block that belongs to password and salt -/
def blockSettings : SettingsIters :=
  match EncDataBlock.make ⟨7, Bytes.full blockData⟩ (toyHashes.get .sha256) blockKey blockSalt0 (openEnv.rand 0) with
  | .ok b => { sampleSettings with enc := [b] }
  | _ => sampleSettings

/-- a file with that block is made; then the salt is changed in an environment with other random values -/
def blockSession : List Event :=
  [.call (.createFile samplePath) openEnv, .call (.selectFile samplePath) openEnv,
   .call (.createDataHeader samplePw blockSettings 0) openEnv]

/-- the encrypted blocks of the session's header, decrypted with key and salt of the session -/
def decBlocks (s : Session) : List (Res Bytes) :=
  match s.dh with
  | some d => match d.dh.encSalt with
    | some salt => d.dh.enc.map fun b => b.getDec (toyHashes.get .sha256) s.pwHash salt
    | none => []
  | none => []

/-- C56 violated: an encrypted data block decrypts before the salt is changed and does not afterwards. -/
theorem C56_violated_blocks : ∃ rs w w', Api.run toyHashes noRest (freshWorld fun _ => .missing) blockSession = .ok (rs, w) ∧
    Api.call toyHashes noRest { openEnv with rand := fun _ => ⟨true, fun _ => 9⟩ } w .changeSalt = .ok (.plain (.success ()), w') ∧
    (decBlocks w.api).map (fun r => Bytes.data <$> r) = [Res.ok blockData] ∧
    (decBlocks w'.api).map (fun r => Bytes.data <$> r) ≠ [Res.ok blockData] := by
  obtain ⟨rs, w, h1, h2⟩ := runIs_ok (evs := blockSession) (p := fun rs w =>
    decide ((decBlocks w.api).map (fun r => Bytes.data <$> r) = [Res.ok blockData]) &&
    (match Api.call toyHashes noRest { openEnv with rand := fun _ => ⟨true, fun _ => 9⟩ } w .changeSalt with
      | .ok (r, w') => r == .plain (.success ()) && decide ((decBlocks w'.api).map (fun r => Bytes.data <$> r) ≠ [Res.ok blockData])
      | _ => false)) (by decide +kernel)
  simp only [Bool.and_eq_true, decide_eq_true_eq] at h2
  obtain ⟨h2, h3⟩ := h2
  split at h3
  · rename_i r w' hr
    simp only [Bool.and_eq_true, beq_iff_eq, decide_eq_true_eq] at h3
    obtain ⟨rfl, h4⟩ := h3
    exact ⟨rs, w, w', h1, hr, h2, h4⟩
  · cases h3

end Verif.Props
