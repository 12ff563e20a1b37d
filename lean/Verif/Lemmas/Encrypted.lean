import Verif.Lemmas.Reopen

/- What a session has encrypted is what it was last given. -/
namespace Verif.Api
open Spec PwFunc
variable {hs : Hashes} {rest : Helper → Res Helper} {e : Env} {w w' : World}

/-- the encrypted data of the session belongs to this data -/
def EncInv (hs : Hashes) (data : Option (List Byte)) (s : Session) : Prop :=
  s.state = .ENCRYPTED → ∃ x d m enc, data = some x ∧ s.dh = some d ∧ d.dh.hashMode = some m ∧ s.encrypted = some enc ∧
    (x.length < 2 ^ 31 → enc.data = cryptOut .enc (hs.get m) s.pwHash.data d.contents.salt x ∧
      d.contents.fileSize = d.contents.length + x.length)

/-- the data known after an event -/
def nextData (old : Option (List Byte)) (ev : Event) (r : Option Ret) : Option (List Byte) :=
  match givenData ev r with
  | some x => some x
  | none => old

/-- where a session with encrypted data comes from -/
theorem call_enc {c : Call} {r : Ret} (h : call hs rest e w c = .ok (r, w')) (hst : w'.api.state = .ENCRYPTED) :
    (w.api.state = .ENCRYPTED ∧ givenData (.call c e) (some r) = none ∧ w'.api.dh = w.api.dh ∧ w'.api.pwHash = w.api.pwHash ∧
      w'.api.encrypted = w.api.encrypted) ∨
    (w.api.state = .DECRYPTED ∧ ∃ fd s, c = .encryptData fd ∧ r = .flag (.success true) ∧
      encryptData hs e w.api fd = .ok (.success true, s) ∧ w'.api = s) := by
  by_cases hw : w.api.state ∈ statesFor c
  case neg =>
    obtain ⟨r', hr, hcode⟩ := call_wrong hs rest e w c hw
    rw [hr] at h; cases h
    refine .inl ⟨hst, ?_, rfl, rfl, rfl⟩
    unfold givenData
    split
    · rename_i heq; cases heq; simp [retCode, failCode] at hcode
    · rfl
  cases c with
  | encryptData fd =>
    have hst0 : w.api.state = .DECRYPTED := by simpa [statesFor] using hw
    simp only [call, hst0] at h
    obtain ⟨⟨o, s⟩, hc, h⟩ := Res.bind_eq_ok.mp h
    cases h
    obtain ⟨x, -, hx⟩ := encryptData_cases hc
    rcases hx with ⟨-, rfl | ⟨d, data, -, -, rfl⟩⟩ | ⟨rfl, -⟩
    · simp only at hst; rw [hst0] at hst; cases hst
    · simp only at hst; rw [hst0] at hst; cases hst
    · exact .inr ⟨hst0, fd, s, rfl, rfl, hc, rfl⟩
  | writeToFile =>
    have hst0 : w.api.state = .ENCRYPTED := by simpa [statesFor] using hw
    simp only [call, hst0] at h
    obtain ⟨⟨o, w1⟩, hc, h⟩ := Res.bind_eq_ok.mp h
    cases h
    obtain ⟨f, hf, hx⟩ := writeToSelected_cases hc
    rcases hx with ⟨-, hfs, ha⟩ | ⟨-, -, -, -, -, b, -, ha, hfs⟩
    · rw [ha]; exact .inl ⟨hst0, rfl, rfl, rfl, rfl⟩
    · rw [ha] at hst; cases hst
  | writeToFileAt p =>
    have hst0 : w.api.state = .ENCRYPTED := by simpa [statesFor] using hw
    simp only [call, hst0] at h
    obtain ⟨⟨o, w1⟩, hc, h⟩ := Res.bind_eq_ok.mp h
    cases h
    rcases writeToPath_cases hc with ⟨-, rfl⟩ | ⟨-, -, -, -, -, b, -, ha, hfs⟩
    · exact .inl ⟨hst0, rfl, rfl, rfl, rfl⟩
    · rw [ha] at hst; cases hst
  | createDataHeader pw ds t =>
    exfalso
    rcases createHeader_call h with ⟨-, rfl⟩ | ⟨-, -, x, d, -, -, ⟨h1, h2⟩ | ⟨h1, h2⟩⟩
    · rw [hst] at hw; simp [statesFor] at hw
    · rw [h2] at hst; cases hst
    · rw [h2, h1] at hst; cases hst
  | createDataHeaderTime pw ds =>
    exfalso
    have hne : w.api.state ≠ .ENCRYPTED := by intro h; rw [h] at hw; simp [statesFor] at hw
    simp only [call] at h
    split at h
    · cases h; exact hne hst
    split at h
    · obtain ⟨x, -, h⟩ := Res.bind_eq_ok.mp h
      obtain ⟨⟨o, s⟩, hc, h⟩ := Res.bind_eq_ok.mp h
      cases h
      rcases headerForEmpty_cases hc with ⟨-, rfl⟩ | ⟨-, -, d, -, rfl⟩
      · exact hne hst
      · cases hst
    · obtain ⟨x, -, h⟩ := Res.bind_eq_ok.mp h
      obtain ⟨⟨o, s⟩, hc, h⟩ := Res.bind_eq_ok.mp h
      cases h
      rcases headerForOpen_cases hc with ⟨-, rfl⟩ | ⟨-, d, -, rfl⟩
      · exact hne hst
      · exact hne hst
    · cases h; exact hne hst
  | changeSalt =>
    exfalso
    have hst0 : w.api.state = .DECRYPTED := by simpa [statesFor] using hw
    simp only [call, hst0] at h
    obtain ⟨⟨o, s⟩, hc, h⟩ := Res.bind_eq_ok.mp h
    cases h
    rcases changeSalt_cases hc with ⟨-, rfl⟩ | ⟨-, d, old, b, p, d', -, -, -, -, -, -, rfl⟩
    · simp only at hst; rw [hst0] at hst; cases hst
    · simp only at hst; rw [hst0] at hst; cases hst
  | getFileData =>
    exfalso
    have hst0 : w.api.state = .DECRYPTED := by simpa [statesFor] using hw
    simp only [call, hst0] at h
    cases h
    have : (getFileData w.api).2.state = w.api.state := by unfold getFileData; split <;> rfl
    simp only [this, hst0] at hst
    cases hst
  | getDecryptedData =>
    exfalso
    have hst0 : w.api.state = .PASSWORD_VERIFIED := by simpa [statesFor] using hw
    simp only [call, hst0] at h
    obtain ⟨⟨o, s'⟩, hc, h⟩ := Res.bind_eq_ok.mp h
    cases h
    rcases getDecryptedData_cases hc with ⟨-, rfl⟩ | ⟨r, d, f, m, salt, -, -, -, -, -, -, -, -, rfl⟩
    · rw [hst0] at hst; cases hst
    · cases hst
  | verifyPassword pw t =>
    exfalso
    have hst0 : w.api.state = .FILE_SELECTED := by simpa [statesFor] using hw
    simp only [call, hst0] at h
    obtain ⟨⟨o, s'⟩, hc, h⟩ := Res.bind_eq_ok.mp h
    cases h
    rcases verifyPassword_cases hc with ⟨-, rfl⟩ | ⟨-, d, m, h1, v, v', -, -, -, -, -, -, -, rfl⟩
    · simp only at hst; rw [hst0] at hst; cases hst
    · cases hst
  | selectFile p =>
    exfalso
    have hst0 : w.api.state = .INIT := by simpa [statesFor] using hw
    simp only [call, hst0] at h
    obtain ⟨⟨o, w1⟩, hc, h⟩ := Res.bind_eq_ok.mp h
    cases h
    rcases selectFile_cases hc with ⟨-, rfl⟩ | ⟨-, f, -, ⟨-, rfl⟩ | ⟨-, d, -, rfl⟩⟩
    · rw [hst0] at hst; cases hst
    · cases hst
    · cases hst
  | createFile p =>
    exfalso
    have hst0 : w.api.state = .INIT := by simpa [statesFor] using hw
    simp only [call, hst0] at h
    obtain ⟨⟨o, fs⟩, hc, h⟩ := Res.bind_eq_ok.mp h
    cases h
    simp only at hst; rw [hst0] at hst; cases hst
  | getRelevantFileNames dir =>
    exfalso
    have hst0 : w.api.state = .INIT := by simpa [statesFor] using hw
    simp only [call, hst0] at h
    obtain ⟨o, hc, h⟩ := Res.bind_eq_ok.mp h
    cases h
    rw [hst0] at hst; cases hst
  | deleteFile =>
    exfalso
    have hne : w.api.state ≠ .ENCRYPTED := by intro h; rw [h] at hw; simp [statesFor] at hw
    simp only [call] at h
    have key : ∀ o w1, deleteSelected e w = .ok (o, w1) → w1.api.state ≠ .ENCRYPTED := by
      intro o w1 hc
      rcases deleteSelected_cases hc with ⟨rfl, -⟩ | ⟨-, f, -, -, ha, -⟩
      · exact hne
      · rw [ha]; intro h; cases h
    split at h
    · obtain ⟨⟨o, w1⟩, hc, h⟩ := Res.bind_eq_ok.mp h
      cases h; exact key _ _ hc hst
    · obtain ⟨⟨o, w1⟩, hc, h⟩ := Res.bind_eq_ok.mp h
      cases h; exact key _ _ hc hst
    · cases h; exact hne hst
  | getFileContent =>
    exfalso
    have hne : w.api.state ≠ .ENCRYPTED := by intro h; rw [h] at hw; simp [statesFor] at hw
    simp only [call] at h
    split at h
    · obtain ⟨o, hc, h⟩ := Res.bind_eq_ok.mp h
      cases h; exact hne hst
    · cases h; exact hne hst
    · cases h; exact hne hst
  | isFileEmpty =>
    exfalso
    have hne : w.api.state ≠ .ENCRYPTED := by intro h; rw [h] at hw; simp [statesFor] at hw
    simp only [call] at h
    split at h <;> cases h <;> exact hne hst
  | unselectFile =>
    exfalso
    have hne : w.api.state ≠ .ENCRYPTED := by intro h; rw [h] at hw; simp [statesFor] at hw
    simp only [call] at h
    split at h <;> cases h
    · cases hst
    · cases hst
    · exact hne hst
  | logout => cases h; cases hst
  | logoutMode m => cases h; cases hst

theorem call_data (hi : SInv hs w.api) {old : Option (List Byte)} (hk : EncInv hs old w.api) {c : Call} {r : Ret}
    (h : call hs rest e w c = .ok (r, w')) : EncInv hs (nextData old (.call c e) (some r)) w'.api := by
  intro hst
  rcases call_enc h hst with ⟨h1, h2, h3, h4, h5⟩ | ⟨h1, fd, s, rfl, rfl, hc, rfl⟩
  · obtain ⟨x, d, m, enc, k1, k2, k3, k4, k5⟩ := hk h1
    refine ⟨x, d, m, enc, ?_, by rw [h3, k2], k3, by rw [h5, k4], by rw [h4]; exact k5⟩
    unfold nextData
    rw [h2]
    exact k1
  · obtain ⟨fd, rfl, hx⟩ := encryptData_cases hc
    rcases hx with ⟨hne, -⟩ | ⟨-, -, d, data, r, hd, hdata, htry, hs'⟩
    · exact absurd rfl hne
    have hok : HeaderOk d := by
      generalize w.api = s at *
      cases hi <;> simp at h1 hd
      subst hd; assumption
    obtain ⟨m, hm, hsz⟩ := hok.inv.hm
    obtain ⟨salt, hs1, hs2⟩ := hok.inv.salt
    obtain ⟨q1, q2, q3⟩ := encryptTry_header (hs := hs) (e := e) (s := w.api) hok data
    refine ⟨data.data, (encryptTry hs e w.api d data).2, m, r, ?_, by rw [hs'], by rw [q2]; exact hm, by rw [hs'], ?_⟩
    · obtain ⟨fm, dd⟩ := fd
      simp only at hdata
      subst hdata
      rfl
    · intro hl
      have hkl : w.api.pwHash.data.length = m.size := by
        generalize w.api = s at *
        cases hi <;> simp at h1 hd
        subst hd
        rw [(by assumption : Keyed hs _ _).len, hsz]
      obtain ⟨r', d', t1, t2, t3, t4, t5, t6, t7⟩ := encryptTry_ok (hs := hs) (e := e) (s := w.api) hok hm hs1 hkl hl
      rw [t1] at htry
      cases htry
      rw [t1, hs']
      have hsalt : d'.contents.salt = salt.data := by rw [t5]; simp only [DataHeader.contents, hs1]
      refine ⟨by rw [t7, hsalt], by rw [t5]; rfl⟩

/-- the data known after events, starting from something known -/
def lastDataFrom (old : Option (List Byte)) (evs : List Event) (rs : List (Option Ret)) : Option (List Byte) :=
  match lastData evs rs with
  | some x => some x
  | none => old

theorem lastDataFrom_cons (old : Option (List Byte)) (ev : Event) (evs : List Event) (r : Option Ret) (rs : List (Option Ret)) :
    lastDataFrom old (ev :: evs) (r :: rs) = lastDataFrom (nextData old ev r) evs rs := by
  unfold lastDataFrom nextData lastData
  simp only [List.zipWith_cons_cons]
  cases givenData ev r with
  | none => simp
  | some x =>
    simp only [List.filterMap_cons, id]
    cases hq : (List.filterMap id (List.zipWith givenData evs rs)) with
    | nil => simp
    | cons a l => simp [List.getLast?_cons_cons, List.getLast?_eq_some_getLast (l := a :: l) (by simp)]

theorem run_data {evs : List Event} : ∀ {w w' : World} {rs : List (Option Ret)} {old : Option (List Byte)}, SInv hs w.api →
    EncInv hs old w.api → (∀ c e, Event.call c e ∈ evs → CallOk c) → Api.run hs rest w evs = .ok (rs, w') →
    EncInv hs (lastDataFrom old evs rs) w'.api := by
  induction evs with
  | nil =>
    intro w w' rs old hi hk _ h
    cases h
    exact hk
  | cons ev evs ih =>
    intro w w' rs old hi hk hok h
    obtain ⟨r, w1, rs', h1, h2, rfl⟩ := run_cons h
    rw [lastDataFrom_cons]
    cases ev with
    | outside p n => cases h1; exact ih (w := ⟨w.api, w.fs.set p n⟩) hi hk (fun c e hm => hok c e (by simp [hm])) h2
    | call c e =>
      obtain ⟨x, rfl, hc⟩ := step_call h1
      have hcok := hok c e (by simp)
      exact ih (call_sinv hi hcok hc) (call_data hi hk hc) (fun c e hm => hok c e (by simp [hm])) h2

/-- **the encrypted data of a session, from its history** -/
theorem history_data {mode : Byte} {s0 : Session} (hn : Api.new mode = .ok s0) {fs0 : FS} {evs : List Event}
    (hb : BuiltArgs evs) {rs : List (Option Ret)} (h : Api.run hs rest ⟨s0, fs0⟩ evs = .ok (rs, w)) :
    EncInv hs (lastData evs rs) w.api := by
  have hs0 : s0.state ≠ .ENCRYPTED := by
    unfold Api.new at hn
    split at hn
    · cases hn; simp
    · cases hn
  have hok : ∀ c e, Event.call c e ∈ evs → CallOk c := by
    intro c e hm
    cases c <;> try exact trivial
    exact built_ok (hb _ _ _ _ hm)
  have := run_data (w := ⟨s0, fs0⟩) (old := none) (new_sinv hn) (fun h => absurd h hs0) hok h
  have hl : lastDataFrom none evs rs = lastData evs rs := by
    unfold lastDataFrom
    split
    · rename_i hx; exact hx.symm
    · rename_i hx; exact hx.symm
  rwa [hl] at this

end Verif.Api
