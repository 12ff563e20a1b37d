import Verif.Lemmas.Encrypted
import Verif.Model.Crash

/- Interrupted saves. -/
namespace Verif.Api
open Spec PwFunc
variable {hs : Hashes} {rest : Helper → Res Helper} {e : Env} {w w' : World}

/-- assembling the data to write never fails in a session with encrypted data -/
theorem fullData_inv (hi : SInv hs w.api) (hst : w.api.state = .ENCRYPTED) :
    ∃ d enc, w.api.dh = some d ∧ w.api.encrypted = some enc ∧ HeaderOk d ∧
      (∀ s : Session, s.dh = some d → s.encrypted = some enc →
        fullData s = .ok ⟨d.contents.bytes ++ enc.data, d.contents.bytes.length + enc.len⟩) := by
  generalize w.api = s at *
  cases hi <;> simp at hst
  rename_i fd k enc d f hd hk hp hfd hb hs'
  exact ⟨d, enc, rfl, rfl, hd, fun s h1 h2 => fullData_eq hd h1 h2 hb⟩

theorem stopSave_cases {fs : FS} {n : Nat} (hi : SInv hs w.api) (hst : w.api.state = .ENCRYPTED)
    (h : stopSave e w n = .ok fs) :
    fs = w.fs ∨ ∃ f d enc c, w.api.selected = some f ∧ w.api.dh = some d ∧ w.api.encrypted = some enc ∧ HeaderOk d ∧
      w.fs f.path = .file c ∧ e.canRead f.path = true ∧ e.canWrite f.path = true ∧
      fs = w.fs.set f.path (.file ((d.contents.bytes ++ enc.data).take n)) := by
  obtain ⟨d, enc, h1, h2, h3, h4⟩ := fullData_inv hi hst
  rw [stopSave, Res.noexcept_eq_ok, Res.bind_eq_ok] at h
  obtain ⟨f, hf, h⟩ := h
  rw [deref_ok] at hf
  obtain ⟨⟨o, f', fs'⟩, hg, h⟩ := Res.bind_eq_ok.mp h
  obtain ⟨rfl, hc⟩ := getWriteStream_cases hg
  rcases hc with ⟨rfl, hne⟩ | ⟨rfl, -, ⟨c, hc⟩, hr, hw, rfl⟩
  · left
    cases o with
    | success u => exact absurd rfl hne
    | fail c => cases h; rfl
    | timeout => cases h; rfl
  · refine .inr ⟨f, d, enc, c, hf, h1, h2, h3, hc, hr, hw, ?_⟩
    simp only at h
    split at h
    · rename_i hn
      cases h
      rw [hn, List.take_zero]
    · rw [h4 { w.api with selected := some { f with headerSize := 0, fileSize := 0 } } h1 h2, Res.bind_ok] at h
      cases h
      exact set_set _ _ _ _

theorem stopSaveAt_cases {fs : FS} {p : Path} {n : Nat} (hi : SInv hs w.api) (hst : w.api.state = .ENCRYPTED)
    (h : stopSaveAt e w p n = .ok fs) :
    fs = w.fs ∨ ∃ d enc, w.api.dh = some d ∧ w.api.encrypted = some enc ∧ HeaderOk d ∧ EncPath p ∧
      w.fs p = .file [] ∧ fs = w.fs.set p (.file ((d.contents.bytes ++ enc.data).take n)) := by
  obtain ⟨d, enc, h1, h2, h3, h4⟩ := fullData_inv hi hst
  rw [stopSaveAt, Res.noexcept_eq_ok, Res.bind_eq_ok] at h
  obtain ⟨o, hf, h⟩ := h
  cases o with
  | fail c => cases h; exact .inl rfl
  | timeout => cases h; exact .inl rfl
  | success f =>
    obtain ⟨rfl, hp, hcr, hu, -⟩ := getFileHandler_success hf
    obtain ⟨⟨o, f', fs'⟩, hg, h⟩ := Res.bind_eq_ok.mp h
    obtain ⟨hpp, hc⟩ := getWriteStreamIfEmpty_cases hg
    rcases hc with ⟨rfl, hne⟩ | ⟨rfl, he, -, ⟨c, hc⟩, hr, hw, rfl⟩
    · left
      cases o with
      | success u => exact absurd rfl hne
      | fail c => cases h; rfl
      | timeout => cases h; rfl
    · refine .inr ⟨d, enc, h1, h2, h3, hp, ?_, ?_⟩
      · rw [hc]
        have hm : FileHandler.measure e w.fs f.path = c.length := by simp [FileHandler.measure, hc, hcr]
        unfold FileHandler.update at hu
        rw [hm] at hu
        obtain ⟨x, -, hu⟩ := Res.bind_eq_ok.mp hu
        split at hu
        · cases hu
        split at hu
        · cases hu
        · injection hu with hu
          rw [← hu] at he
          simp only [beq_iff_eq] at he
          rw [List.length_eq_zero_iff.mp he]
      · simp only at h
        split at h
        · rename_i hn
          cases h
          rw [hn, List.take_zero]
        · rw [h4 _ h1 h2, Res.bind_ok] at h
          cases h
          rw [hpp]
          exact set_set _ _ _ _

/-- a piece of a file that announces its size does not announce its own -/
theorem torn_not_plausible {c : List Byte} {size : Nat} {rest : List Byte} (hc : c = num8 size ++ rest) (hsz : size = c.length)
    (h64 : c.length < 2 ^ 64) {n : Nat} (h0 : 0 < n) (hn : n < c.length) : ¬ ∃ k, Plausible (c.take n) k := by
  rintro ⟨k, ⟨h, -⟩ | ⟨r, h, -⟩⟩
  · have := congrArg List.length h
    simp only [List.length_take, List.length_nil] at this
    omega
  · have h8 : ∀ k, (num8 k).length = 8 := fun _ => rfl
    have hl : (c.take n).length = n := by simp; omega
    rw [hl] at h
    have hlen := congrArg List.length h
    rw [hl] at hlen
    simp only [List.length_append, h8] at hlen
    have e1 : (c.take n).take 8 = num8 n := by rw [h, List.take_left' (h8 n)]
    rw [List.take_take, Nat.min_eq_left (by omega)] at e1
    have e2 : c.take 8 = num8 size := by rw [hc, List.take_left' (h8 size)]
    rw [e2] at e1
    have e3 := congrArg beValue e1
    rw [beValue_num8 (by omega), beValue_num8 (by omega)] at e3
    omega

/-- a file that is not plausible is refused -/
theorem select_torn {p : Path} {c : List Byte} (hp : EncPath p) (hf : w.fs p = .file c) (hr : e.canRead p = true)
    (h64 : c.length < 2 ^ 64) (hc : ¬ ∃ k, Plausible c k) :
    selectFile hs e w p = .ok (.fail .ERR_FILEHANDLER_CREATION, w) := by
  have hv := validPath_ok hp hf hr
  rcases update_file (e := e) hf hr h64 0 with ⟨n, hn, -⟩ | ⟨-, x, hx, hu⟩
  · exact absurd ⟨n, hn⟩ hc
  · have hn : FileHandler.new e w.fs p 0 = .exn x := by
      simp only [FileHandler.new, hv, Res.bind_ok, hu]
    have hg : getFileHandler e w.fs p 0 = .ok (.fail .ERR_FILEHANDLER_CREATION) := by
      rcases hx with rfl | rfl <;> simp only [getFileHandler, hv, Res.bind_ok, hn, Res.attempt, Res.noexcept_ok]
    simp only [selectFile, hg, Res.bind_ok, Res.noexcept_ok]

end Verif.Api
