import Verif.Lemmas.Api
import Verif.Props.Sample

/- Properties of the workflow: calls in the wrong state, logging out, effects on the disk (C41, C45, C46, C47). -/
namespace Verif.Props
open Spec

variable {hs : Hashes} {rest : Api.Helper → Res Api.Helper}

/-! ## C41 -/

/-- C41: a call that is not allowed in the current state fails and changes neither the session nor any file. -/
theorem C41_unchanged (e : Env) (w : World) (c : Call) (h : w.api.state ∉ statesFor c) :
    ∃ r code, Api.call hs rest e w c = .ok (r, w) ∧ retCode r = some code := by
  obtain ⟨r, h1, h2⟩ := Api.call_wrong hs rest e w c h
  exact ⟨r, _, h1, h2⟩

/-- C41 (partial): … and reports the invalid-state error, unless the call brings incomplete settings. -/
theorem C41_wrong_state_partial (e : Env) (w : World) (c : Call) (h : w.api.state ∉ statesFor c)
    (hc : lacksSettings c = false) :
    ∃ r, Api.call hs rest e w c = .ok (r, w) ∧ retCode r = some .ERR_API_STATE_INVALID := by
  obtain ⟨r, h1, h2⟩ := Api.call_wrong hs rest e w c h
  exact ⟨r, h1, by rw [h2, hc]; rfl⟩

/-- C41, disagreement: with incomplete settings the wrong state is not what gets reported. -/
theorem C41_settings_checked_first :
    ¬ ∀ (hs : Hashes) (rest : Api.Helper → Res Api.Helper) (e : Env) (w : World) (c : Call), w.api.state ∉ statesFor c →
      ∃ r, Api.call hs rest e w c = .ok (r, w) ∧ retCode r = some .ERR_API_STATE_INVALID := by
  intro h
  obtain ⟨r, h1, h2⟩ := h toyHashes noRest openEnv (freshWorld fun _ => .missing) (.createDataHeader [] {} 0) (by decide)
  cases h1
  cases h2

-- fetching decrypted data before giving the password
example : ∃ rs w, Api.run toyHashes noRest (freshWorld fun _ => .missing)
    [.outside samplePath (.file []), .call (.selectFile samplePath) openEnv, .call .getDecryptedData openEnv] = .ok (rs, w) ∧
    (decide (rs = [none, some (.flag (.success true)), some (.data (.fail .ERR_API_STATE_INVALID))])) = true :=
  runIs_ok (p := fun rs w => _) (by decide +kernel)

/-! ## C45 -/

/-- C45: logging out at any point of any history leaves exactly a newly created session: no password hash, header, data or
selected file. -/
theorem C45_logout_forgets (mode : Byte) (s0 : Session) (h0 : Api.new mode = .ok s0) (fs : FS) (evs : List Event)
    (rs : List (Option Ret)) (w : World) (h : Api.run hs rest ⟨s0, fs⟩ evs = .ok (rs, w)) (e : Env) :
    Api.call hs rest e w .logout = .ok (.void, ⟨s0, w.fs⟩) := by
  have hm := Api.run_fileMode h
  have hs0 : s0 = ⟨.INIT, mode, none, Bytes.empty 0, none, none, none⟩ := by
    unfold Api.new at h0
    split at h0 <;> cases h0
    rfl
  subst hs0
  simp only at hm
  simp only [Api.call, Api.logout, hm]

/-- C45: … so every later history behaves as it would on a new session (same results, same disk, same way of dying). -/
theorem C45_later_history (mode : Byte) (s0 : Session) (h0 : Api.new mode = .ok s0) (fs : FS) (evs : List Event)
    (rs : List (Option Ret)) (w : World) (h : Api.run hs rest ⟨s0, fs⟩ evs = .ok (rs, w)) (e : Env) (later : List Event) :
    Api.run hs rest w (.call .logout e :: later) =
      (fun x => (some Ret.void :: x.1, x.2)) <$> Api.run hs rest ⟨s0, w.fs⟩ later := by
  rw [Api.run, Api.step, C45_logout_forgets mode s0 h0 fs evs rs w h e]
  simp only [Res.bind_ok]
  cases Api.run hs rest ⟨s0, w.fs⟩ later <;> rfl

/-- C45: a session has never anything to show right after it was created. -/
theorem C45_new_is_blank (mode : Byte) (s0 : Session) (h0 : Api.new mode = .ok s0) :
    s0.state = .INIT ∧ s0.pwHash.data = [] ∧ s0.dh = none ∧ s0.fileData = none ∧ s0.encrypted = none ∧ s0.selected = none := by
  unfold Api.new at h0
  split at h0 <;> cases h0
  exact ⟨rfl, rfl, rfl, rfl, rfl, rfl⟩

/-- C45, observation: the overload that takes a file mode does not change the file mode. -/
theorem C45_mode_ignored (e : Env) (w : World) (m : Byte) :
    Api.call hs rest e w (.logoutMode m) = Api.call hs rest e w .logout := rfl

-- a session that holds a password hash, a header and encrypted data
example : ∃ rs w, Api.run toyHashes noRest (freshWorld fun _ => .missing) (sampleSave.take 4) = .ok (rs, w) ∧
    (w.api.state == .ENCRYPTED && w.api.encrypted.isSome && w.api.dh.isSome && !w.api.pwHash.data.isEmpty) = true :=
  runIs_ok (p := fun _ w => _) (by decide +kernel)

/-! ## C46 -/

/-- C46: whatever happens, a step changes only the file it may change: `create` and `write to a path` their argument,
`delete` and `write` the selected file, other calls none. -/
theorem C46_step (w w' : World) (ev : Event) (r : Option Ret) (h : Api.step hs rest w ev = .ok (r, w')) (q : Path)
    (hq : ¬ mayTouch w.api q ev) : w'.fs q = w.fs q := by
  cases ev with
  | call c e =>
    obtain ⟨x, -, hc⟩ := Api.step_call h
    exact (Api.call_frame hc).1 q hq
  | outside p n =>
    cases h
    simp only [mayTouch] at hq
    simp [FS.set, hq]

/-- C46: a history without create, delete and write leaves the disk as it was. -/
theorem C46_quiet (evs : List Event) (hq : ∀ ev ∈ evs, changesDisk ev = false) (w w' : World) (rs : List (Option Ret))
    (h : Api.run hs rest w evs = .ok (rs, w')) : w'.fs = w.fs := by
  induction evs generalizing w rs with
  | nil => cases h; rfl
  | cons ev evs ih =>
    obtain ⟨r, w1, rs', h1, h2, -⟩ := Api.run_cons h
    rw [ih (fun x hx => hq x (List.mem_cons_of_mem _ hx)) w1 rs' h2]
    funext q
    refine C46_step w w1 ev r h1 q ?_
    have := hq ev (List.mem_cons_self ..)
    cases ev with
    | outside p n => simp [changesDisk] at this
    | call c e => cases c <;> simp_all [changesDisk, mayTouch]

/-- C46: a file that no step of a history names, and that was not selected before, is never changed. -/
theorem C46_unnamed (q : Path) (evs : List Event) (hq : ∀ ev ∈ evs, ¬ names q ev) (w w' : World)
    (hw : ∀ f, w.api.selected = some f → f.path ≠ q) (rs : List (Option Ret))
    (h : Api.run hs rest w evs = .ok (rs, w')) : w'.fs q = w.fs q := by
  induction evs generalizing w rs with
  | nil => cases h; rfl
  | cons ev evs ih =>
    obtain ⟨r, w1, rs', h1, h2, -⟩ := Api.run_cons h
    have hn := hq ev (List.mem_cons_self ..)
    have hsel : ∀ f, w1.api.selected = some f → f.path ≠ q := by
      intro f hf
      cases ev with
      | outside p n => cases h1; exact hw f hf
      | call c e =>
        obtain ⟨x, -, hc⟩ := Api.step_call h1
        rcases (Api.call_frame hc).2.2 f hf with ⟨g, hg, he⟩ | rfl
        · rw [← he]; exact hw g hg
        · simp only [names] at hn; exact fun h => hn h.symm
    rw [ih (fun x hx => hq x (List.mem_cons_of_mem _ hx)) w1 hsel rs' h2]
    refine C46_step w w1 ev r h1 q ?_
    cases ev with
    | outside p n => exact hn
    | call c e =>
      cases c <;> simp only [mayTouch, names, not_exists, not_and] at hn ⊢ <;>
        first | exact hn | exact fun h => h | exact fun f hf he => hw f hf he.symm | skip

/-- C46: creating a file only adds an empty file where nothing was. -/
theorem C46_create (e : Env) (w w' : World) (p : Path) (r : Ret) (h : Api.call hs rest e w (.createFile p) = .ok (r, w')) :
    w'.api = w.api ∧ (w'.fs = w.fs ∨ (r = .flag (.success true) ∧ w.fs p = .missing ∧ w'.fs = w.fs.set p (.file []))) := by
  simp only [Api.call] at h
  split at h
  · obtain ⟨⟨o, fs⟩, hc, h⟩ := Res.bind_eq_ok.mp h
    simp only [Res.ok.injEq, Prod.mk.injEq] at h
    obtain ⟨h1, rfl⟩ := h
    refine ⟨rfl, ?_⟩
    rcases Api.createFile_cases hc with ⟨rfl, -⟩ | ⟨rfl, -, h2, -, rfl⟩
    · exact .inl rfl
    · exact .inr ⟨h1.symm, h2, rfl⟩
  · cases h; exact ⟨rfl, .inl rfl⟩

/-- C46: deleting removes the selected file or nothing. -/
theorem C46_delete (e : Env) (w w' : World) (r : Ret) (h : Api.call hs rest e w .deleteFile = .ok (r, w')) :
    w' = w ∨ ∃ f, w.api.selected = some f ∧ r = .flag (.success true) ∧ w'.fs = w.fs.set f.path .missing := by
  have key : ∀ o, Api.deleteSelected e w = .ok (o, w') → r = .flag o →
      w' = w ∨ ∃ f, w.api.selected = some f ∧ r = .flag (.success true) ∧ w'.fs = w.fs.set f.path .missing := by
    intro o ho hr
    rcases Api.deleteSelected_cases ho with ⟨rfl, -⟩ | ⟨rfl, f, hf, hfs, -⟩
    · exact .inl rfl
    · exact .inr ⟨f, hf, hr, hfs⟩
  simp only [Api.call] at h
  split at h
  · obtain ⟨⟨o, w1⟩, hc, h⟩ := Res.bind_eq_ok.mp h
    cases h; exact key o hc rfl
  · obtain ⟨⟨o, w1⟩, hc, h⟩ := Res.bind_eq_ok.mp h
    cases h; exact key o hc rfl
  · cases h; exact .inl rfl

/-- C46: saving replaces the content of the selected file, which existed, or changes nothing on the disk. -/
theorem C46_write (e : Env) (w w' : World) (r : Ret) (h : Api.call hs rest e w .writeToFile = .ok (r, w')) :
    w'.fs = w.fs ∨ ∃ f old new, w.api.selected = some f ∧ r = .plain (.success ()) ∧ w.fs f.path = .file old ∧
      w'.fs = w.fs.set f.path (.file new) := by
  simp only [Api.call] at h
  split at h
  · obtain ⟨⟨o, w1⟩, hc, h⟩ := Res.bind_eq_ok.mp h
    cases h
    obtain ⟨f, hf, hx⟩ := Api.writeToSelected_cases hc
    rcases hx with ⟨-, hfs, -⟩ | ⟨rfl, -, ⟨old, hold⟩, -, -, b, -, -, hfs⟩
    · exact .inl hfs
    · exact .inr ⟨f, old, _, hf, rfl, hold, hfs⟩
  · cases h; exact .inl rfl

/-- C46: a refused password changes neither the disk nor the session. -/
theorem C46_wrong_password (e : Env) (w w' : World) (pw : List Byte) (t : Nat) (r : Ret)
    (h : Api.call hs rest e w (.verifyPassword pw t) = .ok (r, w')) :
    w'.fs = w.fs ∧ (r ≠ .flag (.success true) → w' = w) := by
  simp only [Api.call] at h
  split at h
  · obtain ⟨⟨o, s⟩, hc, h⟩ := Res.bind_eq_ok.mp h
    cases h
    refine ⟨rfl, fun hr => ?_⟩
    rcases Api.verifyPassword_cases hc with ⟨-, rfl⟩ | ⟨rfl, -⟩
    · rfl
    · exact absurd rfl hr
  · cases h; exact ⟨rfl, fun _ => rfl⟩

-- a save: the selected file changes, another one stays
example : ∃ rs w, Api.run toyHashes noRest (freshWorld fun _ => .missing) (sampleSave ++ [.outside (ascii "b") (.file [1])])
    = .ok (rs, w) ∧ (decide (w.fs samplePath ≠ .missing ∧ w.fs (ascii "b") = .file [1] ∧ w.fs (ascii "c.enc") = .missing)) = true :=
  runIs_ok (p := fun _ w => _) (by decide +kernel)
-- deleting
example : ∃ rs w, Api.run toyHashes noRest (freshWorld fun _ => .missing)
    (sampleSave ++ [.call .logout openEnv, .call (.selectFile samplePath) openEnv, .call .deleteFile openEnv])
    = .ok (rs, w) ∧ (decide (w.fs samplePath = .missing ∧ rs.getLast? = some (some (.flag (.success true))))) = true :=
  runIs_ok (p := fun rs w => _) (by decide +kernel)

/-! ## C47 -/

/-- C47: writing to a given path changes nothing but this file, and only if it existed and was empty. -/
theorem C47_write_path (e : Env) (w w' : World) (p : Path) (r : Ret)
    (h : Api.call hs rest e w (.writeToFileAt p) = .ok (r, w')) :
    w'.fs = w.fs ∨ (r = .plain (.success ()) ∧ w.fs p = .file [] ∧ ∃ c, w'.fs = w.fs.set p (.file c)) := by
  simp only [Api.call] at h
  split at h
  · obtain ⟨⟨o, w1⟩, hc, h⟩ := Res.bind_eq_ok.mp h
    cases h
    rcases Api.writeToPath_cases hc with ⟨-, rfl⟩ | ⟨rfl, -, h1, -, -, b, -, -, hfs⟩
    · exact .inl rfl
    · exact .inr ⟨rfl, h1, _, hfs⟩
  · cases h; exact .inl rfl

-- refused for a file with content, accepted for an empty one
example : ∃ rs w, Api.run toyHashes noRest (freshWorld fun _ => .missing)
    (sampleSave.take 4 ++ [.outside (ascii "b.enc") (.file plausibleFile), .call (.writeToFileAt (ascii "b.enc")) openEnv,
      .outside (ascii "c.enc") (.file []), .call (.writeToFileAt (ascii "c.enc")) openEnv]) = .ok (rs, w) ∧
    (decide (w.fs (ascii "b.enc") = .file plausibleFile ∧ w.fs (ascii "c.enc") ≠ .file [] ∧
      rs.drop 5 = [some (.plain (.fail .ERR_FILE_NOT_EMPTY)), none, some (.plain (.success ()))])) = true :=
  runIs_ok (p := fun rs w => _) (by decide +kernel)

end Verif.Props
