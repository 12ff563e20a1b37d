import Verif.Lemmas.Api
import Verif.Spec.StateChart
import Verif.Props.Sample

/- Properties of the states of a session: C74. -/
namespace Verif.Props
open Spec

variable {hs : Hashes} {rest : Api.Helper → Res Api.Helper}

theorem not_success {α : Type} {o : Out α} (h : ∀ v, o ≠ .success v) : isSuccess o = false := by
  cases o with
  | success v => exact absurd rfl (h v)
  | fail c => rfl
  | timeout => rfl

theorem not_true {o : Out Bool} (h1 : o ≠ .success true) (h2 : o ≠ .success false) : isSuccess o = false :=
  not_success fun v => by cases v <;> assumption

theorem select_false (e : Env) (w w' : World) (p : Path) : Api.selectFile hs e w p ≠ .ok (.success false, w') := by
  intro h
  rw [Api.selectFile, Res.noexcept_eq_ok, Res.bind_eq_ok] at h
  obtain ⟨v, -, h⟩ := h
  cases v with
  | fail c => cases h
  | timeout => cases h
  | success f =>
    simp only at h
    split at h
    · cases h
    · obtain ⟨⟨o, s⟩, hs, h⟩ := Res.bind_eq_ok.mp h
      cases h
      rw [Api.selectNonEmptyFile, Res.noexcept_eq_ok, Res.bind_eq_ok] at hs
      obtain ⟨v, -, h⟩ := hs
      cases v <;> cases h

theorem delete_false (e : Env) (w w' : World) : Api.deleteSelected e w ≠ .ok (.success false, w') := by
  intro h
  rw [Api.deleteSelected, Res.noexcept_eq_ok, Res.bind_eq_ok] at h
  obtain ⟨f, -, h⟩ := h
  obtain ⟨⟨b, fs⟩, -, h⟩ := Res.bind_eq_ok.mp h
  cases b <;> cases h

theorem verify_false (e : Env) (s s' : Session) (pw : List Byte) (t : Nat) :
    Api.verifyPassword hs e s pw t ≠ .ok (.success false, s') := by
  intro h
  rw [Api.verifyPassword, Res.noexcept_eq_ok, Res.bind_eq_ok] at h
  obtain ⟨v, hv, h⟩ := h
  cases v with
  | none => cases h
  | some r =>
    cases h
    rw [attempt_some] at hv
    unfold Api.verifyTry at hv
    obtain ⟨d, -, h⟩ := Res.bind_eq_ok.mp hv
    obtain ⟨p, -, h⟩ := Res.bind_eq_ok.mp h
    obtain ⟨m, -, h⟩ := Res.bind_eq_ok.mp h
    obtain ⟨o, -, h⟩ := Res.bind_eq_ok.mp h
    cases o with
    | fail c => cases h
    | timeout => cases h
    | success h1 =>
      simp only at h
      split at h
      · cases h
      · obtain ⟨o, -, h⟩ := Res.bind_eq_ok.mp h
        cases o with
        | fail c => cases h
        | timeout => cases h
        | success v =>
          obtain ⟨v', -, h⟩ := Res.bind_eq_ok.mp h
          split at h <;> cases h

theorem headerEmpty_false (s s' : Session) (x : Api.Helper) : Api.headerForEmpty s x ≠ .ok (.success false, s') := by
  intro h
  rw [Api.headerForEmpty, Res.noexcept_eq_ok] at h
  cases hx : x.err with
  | fail c => rw [hx] at h; cases h
  | timeout => rw [hx] at h; cases h
  | success d =>
    rw [hx] at h
    obtain ⟨fd, -, h⟩ := Res.bind_eq_ok.mp h
    cases h

theorem headerOpen_false (s s' : Session) (x : Api.Helper) : Api.headerForOpen s x ≠ .ok (.success false, s') := by
  intro h
  unfold Api.headerForOpen at h
  cases hx : x.err with
  | fail c => rw [hx] at h; cases h
  | timeout => rw [hx] at h; cases h
  | success d => rw [hx] at h; cases h

theorem encrypt_false (e : Env) (s s' : Session) (fd : Option FileDataStruct) :
    Api.encryptData hs e s fd ≠ .ok (.success false, s') := by
  intro h
  rw [Api.encryptData, Res.noexcept_eq_ok, Res.bind_eq_ok] at h
  obtain ⟨x, -, h⟩ := h
  split at h
  · cases h
  · obtain ⟨m, -, h⟩ := Res.bind_eq_ok.mp h
    split at h
    · cases h
    · obtain ⟨d, -, h⟩ := Res.bind_eq_ok.mp h
      obtain ⟨data, -, h⟩ := Res.bind_eq_ok.mp h
      obtain ⟨a, -, h⟩ := Res.bind_eq_ok.mp h
      cases a <;> cases h

/-- C74, one call: a call that reports success follows its arrow in the documented state chart, any other call leaves the
state as it is. In particular no call succeeds where the chart has no arrow. -/
theorem C74_call (e : Env) (w w' : World) (c : Call) (r : Ret) (h : Api.call hs rest e w c = .ok (r, w')) :
    if reported r then chart (chartState w.api.state) c = some (chartState w'.api.state) else w'.api.state = w.api.state := by
  have stay : ∀ {r : Ret} {w' : World}, reported r = false → w'.api.state = w.api.state →
      if reported r then chart (chartState w.api.state) c = some (chartState w'.api.state) else w'.api.state = w.api.state := by
    intro r w' h1 h2
    rw [h1]; exact h2
  have move : ∀ {r : Ret} {w' : World}, reported r = true → chart (chartState w.api.state) c = some (chartState w'.api.state) →
      if reported r then chart (chartState w.api.state) c = some (chartState w'.api.state) else w'.api.state = w.api.state := by
    intro r w' h1 h2
    rw [h1]; exact h2
  cases c with
  | getRelevantFileNames dir =>
    simp only [Api.call] at h
    split at h
    · rename_i hst
      obtain ⟨o, -, h⟩ := Res.bind_eq_ok.mp h
      cases h
      cases o
      · exact move rfl (by rw [hst]; rfl)
      · exact stay rfl rfl
      · exact stay rfl rfl
    · cases h; exact stay rfl rfl
  | createFile p =>
    simp only [Api.call] at h
    split at h
    · rename_i hst
      obtain ⟨⟨o, fs⟩, -, h⟩ := Res.bind_eq_ok.mp h
      cases h
      cases o
      · exact move rfl (by simp only [hst]; rfl)
      · exact stay rfl rfl
      · exact stay rfl rfl
    · cases h; exact stay rfl rfl
  | selectFile p =>
    simp only [Api.call] at h
    split at h
    · rename_i hst
      obtain ⟨⟨o, w1⟩, hc, h⟩ := Res.bind_eq_ok.mp h
      cases h
      rcases Api.selectFile_cases hc with ⟨h1, rfl⟩ | ⟨rfl, f, -, ⟨-, rfl⟩ | ⟨-, d, -, rfl⟩⟩
      · exact stay (not_true h1 fun (h : o = _) => select_false e _ _ p (h ▸ hc)) rfl
      · exact move rfl (by rw [hst]; rfl)
      · exact move rfl (by rw [hst]; rfl)
    · cases h; exact stay rfl rfl
  | isFileEmpty =>
    simp only [Api.call] at h
    split at h
    · rename_i hst; cases h; exact move rfl (by rw [hst]; rfl)
    · rename_i hst; cases h; exact move rfl (by rw [hst]; rfl)
    · cases h; exact stay rfl rfl
  | unselectFile =>
    simp only [Api.call] at h
    split at h
    · rename_i hst; cases h; exact move rfl (by rw [hst]; rfl)
    · rename_i hst; cases h; exact move rfl (by rw [hst]; rfl)
    · cases h; exact stay rfl rfl
  | deleteFile =>
    have key : ∀ o, chartState w.api.state = .selected → Api.deleteSelected e w = .ok (o, w') → r = .flag o →
        if reported r then chart (chartState w.api.state) .deleteFile = some (chartState w'.api.state)
          else w'.api.state = w.api.state := by
      rintro o hst hc rfl
      rcases Api.deleteSelected_cases hc with ⟨rfl, h1⟩ | ⟨rfl, f, -, -, h2, -⟩
      · exact stay (not_true h1 fun (h : o = _) => delete_false e w' w' (h ▸ hc)) rfl
      · exact move rfl (by rw [hst, h2]; rfl)
    simp only [Api.call] at h
    split at h
    · rename_i hst
      obtain ⟨⟨o, w1⟩, hc, h⟩ := Res.bind_eq_ok.mp h
      cases h
      exact key o (by rw [hst]; rfl) hc rfl
    · rename_i hst
      obtain ⟨⟨o, w1⟩, hc, h⟩ := Res.bind_eq_ok.mp h
      cases h
      exact key o (by rw [hst]; rfl) hc rfl
    · cases h; exact stay rfl rfl
  | getFileContent =>
    simp only [Api.call] at h
    split at h
    · rename_i hst
      obtain ⟨o, -, h⟩ := Res.bind_eq_ok.mp h
      cases h
      cases o
      · exact move rfl (by rw [hst]; rfl)
      · exact stay rfl rfl
      · exact stay rfl rfl
    · rename_i hst; cases h; exact move rfl (by rw [hst]; rfl)
    · cases h; exact stay rfl rfl
  | verifyPassword pw t =>
    simp only [Api.call] at h
    split at h
    · rename_i hst
      obtain ⟨⟨o, s⟩, hc, h⟩ := Res.bind_eq_ok.mp h
      cases h
      rcases Api.verifyPassword_cases hc with ⟨h1, rfl⟩ | ⟨rfl, d, m, h1, v, v', -, -, -, -, -, -, -, rfl⟩
      · exact stay (not_true h1 fun (h : o = _) => verify_false e _ _ pw t (h ▸ hc)) rfl
      · exact move rfl (by rw [hst]; rfl)
    · cases h; exact stay rfl rfl
  | createDataHeader pw ds t =>
    simp only [Api.call] at h
    split at h
    · cases h; exact stay rfl rfl
    · split at h
      · rename_i hst
        obtain ⟨x, -, h⟩ := Res.bind_eq_ok.mp h
        obtain ⟨⟨o, s⟩, hc, h⟩ := Res.bind_eq_ok.mp h
        cases h
        rcases Api.headerForEmpty_cases hc with ⟨h1, rfl⟩ | ⟨rfl, -, d, -, rfl⟩
        · exact stay (not_true h1 fun (h : o = _) => headerEmpty_false _ _ x (h ▸ hc)) rfl
        · exact move rfl (by rw [hst]; rfl)
      · rename_i hst
        obtain ⟨x, -, h⟩ := Res.bind_eq_ok.mp h
        obtain ⟨⟨o, s⟩, hc, h⟩ := Res.bind_eq_ok.mp h
        cases h
        rcases Api.headerForOpen_cases hc with ⟨h1, rfl⟩ | ⟨rfl, d, -, rfl⟩
        · exact stay (not_true h1 fun (h : o = _) => headerOpen_false _ _ x (h ▸ hc)) rfl
        · exact move rfl (by simp only [hst]; rfl)
      · cases h; exact stay rfl rfl
  | createDataHeaderTime pw ds =>
    simp only [Api.call] at h
    split at h
    · cases h; exact stay rfl rfl
    · split at h
      · rename_i hst
        obtain ⟨x, -, h⟩ := Res.bind_eq_ok.mp h
        obtain ⟨⟨o, s⟩, hc, h⟩ := Res.bind_eq_ok.mp h
        cases h
        rcases Api.headerForEmpty_cases hc with ⟨h1, rfl⟩ | ⟨rfl, -, d, -, rfl⟩
        · exact stay (not_true h1 fun (h : o = _) => headerEmpty_false _ _ x (h ▸ hc)) rfl
        · exact move rfl (by rw [hst]; rfl)
      · rename_i hst
        obtain ⟨x, -, h⟩ := Res.bind_eq_ok.mp h
        obtain ⟨⟨o, s⟩, hc, h⟩ := Res.bind_eq_ok.mp h
        cases h
        rcases Api.headerForOpen_cases hc with ⟨h1, rfl⟩ | ⟨rfl, d, -, rfl⟩
        · exact stay (not_true h1 fun (h : o = _) => headerOpen_false _ _ x (h ▸ hc)) rfl
        · exact move rfl (by simp only [hst]; rfl)
      · cases h; exact stay rfl rfl
  | changeSalt =>
    simp only [Api.call] at h
    split at h
    · rename_i hst
      obtain ⟨⟨o, s⟩, hc, h⟩ := Res.bind_eq_ok.mp h
      cases h
      rcases Api.changeSalt_cases hc with ⟨h1, rfl⟩ | ⟨rfl, d, old, b, p, d', -, -, -, -, -, -, rfl⟩
      · exact stay (not_success fun v => h1) rfl
      · exact move rfl (by simp only [hst]; rfl)
    · cases h; exact stay rfl rfl
  | getDecryptedData =>
    simp only [Api.call] at h
    split at h
    · rename_i hst
      obtain ⟨⟨o, w1⟩, hc, h⟩ := Res.bind_eq_ok.mp h
      cases h
      rcases Api.getDecryptedData_cases hc with ⟨rfl, rfl⟩ | ⟨r, d, f, m, salt, rfl, -, -, -, -, -, -, -, rfl⟩
      · exact stay rfl rfl
      · exact move rfl (by rw [hst]; rfl)
    · cases h; exact stay rfl rfl
  | getFileData =>
    simp only [Api.call] at h
    split at h
    · rename_i hst
      cases h
      unfold Api.getFileData
      split
      · exact stay rfl rfl
      · exact move rfl (by simp only [hst]; rfl)
    · cases h; exact stay rfl rfl
  | encryptData fd =>
    simp only [Api.call] at h
    split at h
    · rename_i hst
      obtain ⟨⟨o, s⟩, hc, h⟩ := Res.bind_eq_ok.mp h
      cases h
      obtain ⟨x, -, ⟨h1, rfl | ⟨d, data, -, -, rfl⟩⟩ | ⟨rfl, -, d, data, r, -, -, -, rfl⟩⟩ := Api.encryptData_cases hc
      · exact stay (not_true h1 fun (h : o = _) => encrypt_false e _ _ fd (h ▸ hc)) rfl
      · exact stay (not_true h1 fun (h : o = _) => encrypt_false e _ _ fd (h ▸ hc)) rfl
      · exact move rfl (by rw [hst]; rfl)
    · cases h; exact stay rfl rfl
  | writeToFile =>
    simp only [Api.call] at h
    split at h
    · rename_i hst
      obtain ⟨⟨o, w1⟩, hc, h⟩ := Res.bind_eq_ok.mp h
      cases h
      obtain ⟨f, -, ⟨h1, -, h2⟩ | ⟨rfl, -, -, -, -, b, -, h2, -⟩⟩ := Api.writeToSelected_cases hc
      · exact stay (not_success fun v => h1) (by rw [h2])
      · exact move rfl (by rw [hst, h2]; rfl)
    · cases h; exact stay rfl rfl
  | writeToFileAt p =>
    simp only [Api.call] at h
    split at h
    · rename_i hst
      obtain ⟨⟨o, w1⟩, hc, h⟩ := Res.bind_eq_ok.mp h
      cases h
      rcases Api.writeToPath_cases hc with ⟨h1, rfl⟩ | ⟨rfl, -, -, -, -, b, -, h2, -⟩
      · exact stay (not_success fun v => h1) rfl
      · exact move rfl (by rw [hst, h2]; rfl)
    · cases h; exact stay rfl rfl
  | logout =>
    simp only [Api.call] at h
    cases h
    exact move rfl (by cases w.api.state <;> rfl)
  | logoutMode m =>
    simp only [Api.call] at h
    cases h
    exact move rfl (by cases w.api.state <;> rfl)

theorem follow_run (evs : List Event) : ∀ (w w' : World) (rs : List (Option Ret)), Api.run hs rest w evs = .ok (rs, w') →
    follow (chartState w.api.state) (evs.zip rs) = some (chartState w'.api.state) := by
  induction evs with
  | nil => intro w w' rs h; cases h; rfl
  | cons ev evs ih =>
    intro w w' rs h
    simp only [Api.run] at h
    obtain ⟨⟨r, w1⟩, h1, h⟩ := Res.bind_eq_ok.mp h
    obtain ⟨⟨rs1, w2⟩, h2, h⟩ := Res.bind_eq_ok.mp h
    cases h
    have ih := ih _ _ _ h2
    cases ev with
    | outside p n => cases h1; exact ih
    | call c e =>
      simp only [Api.step] at h1
      obtain ⟨⟨r, w3⟩, hc, h⟩ := Res.bind_eq_ok.mp h1
      cases h
      have key := C74_call e w _ c _ hc
      simp only [List.zip_cons_cons, follow]
      split
      · rename_i hr
        rw [if_pos hr] at key
        rw [key]
        exact ih
      · rename_i hr
        rw [if_neg hr] at key
        rw [← key]
        exact ih

/-- C74: after any history, including changes by other programs, the state of a session is the one the documented chart
gives for the calls that reported success. -/
theorem C74_history (mode : Byte) (s0 : Session) (h0 : Api.new mode = .ok s0) (fs : FS) (evs : List Event)
    (rs : List (Option Ret)) (w : World) (h : Api.run hs rest ⟨s0, fs⟩ evs = .ok (rs, w)) :
    follow .init (evs.zip rs) = some (chartState w.api.state) := by
  have : s0.state = .INIT := by
    unfold Api.new at h0
    split at h0
    · cases h0; rfl
    · cases h0
  have key := follow_run evs _ _ _ h
  simp only [this] at key
  exact key

/-- a history through all states, with a failing call in each of the last ones -/
example : runIs (sampleSave ++ [.call .getFileData openEnv] ++ sampleOpen ++ [.call (.selectFile samplePath) openEnv])
    (fun rs w => w.api.state == .DECRYPTED && (rs.map fun r => (r.map reported).getD true) ==
      [true, true, true, true, true, false, true, true, true, true, false]) = true := by decide +kernel

end Verif.Props
