import Verif.Lemmas.FileSys
import Verif.Lemmas.HeaderObj
import Verif.Spec.Api

/- What the calls of a session do, as far as disk and state are concerned. -/
namespace Verif
open Spec

theorem Res.noexcept_eq_ok {α : Type} {x : Res α} {a : α} : Res.noexcept x = .ok a ↔ x = .ok a := by
  cases x <;> simp

theorem attempt_some {α : Type} {x : Res α} {a : α} : Res.attempt x = .ok (some a) ↔ x = .ok a := by
  cases x with
  | ok a => simp [Res.attempt]
  | exn e => cases e <;> simp [Res.attempt]
  | fatal f => simp [Res.attempt]

@[simp] theorem attempt_ok {α : Type} (a : α) : Res.attempt (.ok a) = .ok (some a) := rfl

theorem deref_ok {α : Type} {o : Option α} {a : α} : deref o = .ok a ↔ o = some a := by
  cases o <;> simp [deref]

theorem get_eq_ok {α : Type} {o : Option α} {a : α} : DataHeaderParts.get o = .ok a ↔ o = some a := by
  cases o <;> simp [DataHeaderParts.get]

namespace Api
variable {hs : Hashes} {rest : Helper → Res Helper} {e : Env} {w w' : World}

/-! ### disk effects of the parts -/

theorem createFile_cases {fs fs' : FS} {p : Path} {o : Out Unit} (h : FileHandler.createFile e fs p = .ok (o, fs')) :
    (fs' = fs ∧ o ≠ .success ()) ∨
    (o = .success () ∧ EncPath p ∧ fs p = .missing ∧ e.canCreate p = true ∧ fs' = fs.set p (.file [])) := by
  rw [FileHandler.createFile, Res.noexcept_eq_ok, Res.bind_eq_ok] at h
  obtain ⟨v, hv, h⟩ := h
  cases v with
  | fail c => cases h; exact .inl ⟨rfl, by simp⟩
  | timeout => cases h; exact .inl ⟨rfl, by simp⟩
  | success u =>
    cases u
    rw [isValidPath_false] at hv
    split at hv
    · cases hv
    split at hv
    · cases hv
    rename_i hp hx
    have hx : EncPath p := (extension_iff p).mp (by simpa using hx)
    cases hn : fs p with
    | missing =>
      simp only [FS.openOut, hn] at h
      by_cases hc : e.canCreate p = true
      · simp only [hc, if_true, Res.ok.injEq, Prod.mk.injEq] at h
        exact .inr ⟨h.1.symm, hx, rfl, hc, h.2.symm⟩
      · simp only [hc, Bool.false_eq_true, if_false, Res.ok.injEq, Prod.mk.injEq] at h
        exact .inl ⟨h.2.symm, by rw [← h.1]; simp⟩
    | file c => rw [hn] at hv; cases hv
    | dir => rw [hn] at hv; cases hv
    | unreachable => rw [hn] at hv; cases hv

theorem getWriteStream_cases {fs fs' : FS} {f f' : FileHandler} {o : Out Unit}
    (h : f.getWriteStream e fs = .ok (o, f', fs')) :
    f' = { f with headerSize := 0, fileSize := 0 } ∧
    ((fs' = fs ∧ o ≠ .success ()) ∨
      (o = .success () ∧ EncPath f.path ∧ (∃ c, fs f.path = .file c) ∧ e.canRead f.path = true ∧
        e.canWrite f.path = true ∧ fs' = fs.set f.path (.file []))) := by
  rw [FileHandler.getWriteStream, Res.noexcept_eq_ok, Res.bind_eq_ok] at h
  obtain ⟨v, hv, h⟩ := h
  cases v with
  | fail c => cases h; exact ⟨rfl, .inl ⟨rfl, by simp⟩⟩
  | timeout => cases h; exact ⟨rfl, .inl ⟨rfl, by simp⟩⟩
  | success u =>
    cases u
    simp only at hv
    rw [isValidPath_true] at hv
    split at hv
    · cases hv
    split at hv
    · cases hv
    rename_i hp hx
    have hx : EncPath f.path := (extension_iff f.path).mp (by simpa using hx)
    cases hn : fs f.path with
    | missing => rw [hn] at hv; cases hv
    | unreachable => rw [hn] at hv; cases hv
    | dir =>
      simp only [FS.openOut, hn, Res.ok.injEq, Prod.mk.injEq] at h
      exact ⟨h.2.1.symm, .inl ⟨h.2.2.symm, by rw [← h.1]; simp⟩⟩
    | file c =>
      rw [hn] at hv
      simp only at hv
      split at hv
      · rename_i hr
        simp only [FS.openOut, hn] at h
        by_cases hc : e.canWrite f.path = true
        · simp only [hc, if_true, Res.ok.injEq, Prod.mk.injEq] at h
          exact ⟨h.2.1.symm, .inr ⟨h.1.symm, hx, ⟨c, rfl⟩, hr, hc, h.2.2.symm⟩⟩
        · simp only [hc, Bool.false_eq_true, if_false, Res.ok.injEq, Prod.mk.injEq] at h
          exact ⟨h.2.1.symm, .inl ⟨h.2.2.symm, by rw [← h.1]; simp⟩⟩
      · cases hv

theorem getWriteStreamIfEmpty_cases {fs fs' : FS} {f f' : FileHandler} {o : Out Unit}
    (h : f.getWriteStreamIfEmpty e fs = .ok (o, f', fs')) :
    f'.path = f.path ∧ ((fs' = fs ∧ o ≠ .success ()) ∨
      (o = .success () ∧ f.empty = true ∧ EncPath f.path ∧ (∃ c, fs f.path = .file c) ∧ e.canRead f.path = true ∧
        e.canWrite f.path = true ∧ fs' = fs.set f.path (.file []))) := by
  rw [FileHandler.getWriteStreamIfEmpty, Res.noexcept_eq_ok] at h
  split at h
  · rename_i he
    obtain ⟨h1, h2⟩ := getWriteStream_cases h
    refine ⟨by rw [h1], ?_⟩
    rcases h2 with h2 | ⟨h2, h3⟩
    · exact .inl h2
    · exact .inr ⟨h2, he, h3⟩
  · cases h; exact ⟨rfl, .inl ⟨rfl, by simp⟩⟩

/-- a handler made for a path is for that path and says "empty" only for empty things -/
theorem getFileHandler_success {fs : FS} {p : Path} {i : Nat} {f : FileHandler}
    (h : getFileHandler e fs p i = .ok (.success f)) :
    f.path = p ∧ EncPath p ∧ e.canRead p = true ∧ FileHandler.update e fs p i = .ok f ∧
      ((∃ c, fs p = .file c) ∨ fs p = .dir) := by
  rw [getFileHandler, Res.noexcept_eq_ok, Res.bind_eq_ok] at h
  obtain ⟨v, hv, h⟩ := h
  cases v with
  | fail c => cases h
  | timeout => cases h
  | success u =>
    cases u
    obtain ⟨a, ha, h⟩ := Res.bind_eq_ok.mp h
    cases a with
    | none => cases h
    | some g =>
      cases h
      rw [attempt_some, FileHandler.new, hv, Res.bind_ok] at ha
      have hu := ha
      simp only at hu
      rw [isValidPath_true] at hv
      split at hv
      · cases hv
      split at hv
      · cases hv
      rename_i hp hx
      have hx : EncPath p := (extension_iff p).mp (by simpa using hx)
      have hpath : f.path = p := by
        unfold FileHandler.update at hu
        obtain ⟨n, -, hu⟩ := Res.bind_eq_ok.mp hu
        split at hu
        · cases hu
        split at hu
        · cases hu
        cases hu; rfl
      cases hn : fs p with
      | missing => rw [hn] at hv; cases hv
      | unreachable => rw [hn] at hv; cases hv
      | dir =>
        rw [hn] at hv; simp only at hv
        split at hv
        · rename_i hr; exact ⟨hpath, hx, hr, hu, .inr rfl⟩
        · cases hv
      | file c =>
        rw [hn] at hv; simp only at hv
        split at hv
        · rename_i hr; exact ⟨hpath, hx, hr, hu, .inl ⟨c, rfl⟩⟩
        · cases hv

theorem update_empty {fs : FS} {p : Path} {c : List Byte} {i : Nat} {f : FileHandler} (hp : fs p = .file c)
    (hr : e.canRead p = true) (h : FileHandler.update e fs p i = .ok f) :
    (f.empty = true ↔ c = []) ∧ f.fileSize = c.length := by
  unfold FileHandler.update at h
  obtain ⟨n, -, h⟩ := Res.bind_eq_ok.mp h
  have hm : FileHandler.measure e fs p = c.length := by simp [FileHandler.measure, hp, hr]
  rw [hm] at h
  split at h
  · cases h
  split at h
  · cases h
  cases h
  simp

theorem deleteSelected_cases {o : Out Bool} (h : deleteSelected e w = .ok (o, w')) :
    (w' = w ∧ o ≠ .success true) ∨ (o = .success true ∧ ∃ f, w.api.selected = some f ∧
      w'.fs = w.fs.set f.path .missing ∧ w'.api = unselect w.api ∧ w.fs f.path ≠ .missing ∧ e.canRemove f.path = true) := by
  rw [deleteSelected, Res.noexcept_eq_ok, Res.bind_eq_ok] at h
  obtain ⟨f, hf, h⟩ := h
  rw [deref_ok] at hf
  obtain ⟨⟨b, fs⟩, hr, h⟩ := Res.bind_eq_ok.mp h
  cases b with
  | false => cases h; exact .inl ⟨rfl, by simp⟩
  | true =>
    cases h
    refine .inr ⟨rfl, f, hf, ?_, rfl, ?_⟩
    all_goals unfold FS.remove at hr
    all_goals cases hn : w.fs f.path <;> simp only [hn] at hr
    all_goals first
      | (exfalso; revert hr; simp; done)
      | (split at hr
         · rename_i hc
           simp only [Res.ok.injEq, Prod.mk.injEq, true_and] at hr
           first
             | exact hr.symm
             | exact ⟨by simp, hc⟩
         · cases hr)

theorem finishWrite_cases {s : Session} {fs : FS} {p : Path} {o : Out Unit} (h : finishWrite e s fs p = .ok (o, w')) :
    ∃ b, fullData s = .ok b ∧ o = .success () ∧ w'.api = { s with encrypted := none, state := .FINISHED } ∧
      w'.fs = fs.set p (.file (b.data.take e.stored)) := by
  unfold finishWrite at h
  obtain ⟨b, hb, h⟩ := Res.bind_eq_ok.mp h
  cases h
  exact ⟨b, hb, rfl, rfl, rfl⟩

theorem set_set (fs : FS) (p : Path) (a b : Node) : (fs.set p a).set p b = fs.set p b := by
  funext q; simp only [FS.set]; split <;> rfl

/-- writing to the selected file: refused without touching the disk, or the whole data (as far as stored) is there -/
theorem writeToSelected_cases {o : Out Unit} (h : writeToSelected e w = .ok (o, w')) :
    ∃ f, w.api.selected = some f ∧
    ((o ≠ .success () ∧ w'.fs = w.fs ∧
        w'.api = { w.api with selected := some { f with headerSize := 0, fileSize := 0 } }) ∨
      (o = .success () ∧ EncPath f.path ∧ (∃ c, w.fs f.path = .file c) ∧ e.canRead f.path = true ∧
        e.canWrite f.path = true ∧ ∃ b, fullData w.api = .ok b ∧
        w'.api = { w.api with encrypted := none, state := .FINISHED,
                              selected := some { f with headerSize := 0, fileSize := 0 } } ∧
        w'.fs = w.fs.set f.path (.file (b.data.take e.stored)))) := by
  rw [writeToSelected, Res.noexcept_eq_ok, Res.bind_eq_ok] at h
  obtain ⟨f, hf, h⟩ := h
  rw [deref_ok] at hf
  obtain ⟨⟨o1, f1, fs1⟩, hr, h⟩ := Res.bind_eq_ok.mp h
  obtain ⟨rfl, h2⟩ := getWriteStream_cases hr
  refine ⟨f, hf, ?_⟩
  cases o1 with
  | fail c =>
    cases h
    rcases h2 with ⟨h2, -⟩ | ⟨h2, -⟩
    · exact .inl ⟨by simp, h2, rfl⟩
    · cases h2
  | timeout =>
    cases h
    rcases h2 with ⟨h2, -⟩ | ⟨h2, -⟩
    · exact .inl ⟨by simp, h2, rfl⟩
    · cases h2
  | success u =>
    cases u
    rcases h2 with ⟨-, h2⟩ | ⟨-, h3, h4, h5, h6, rfl⟩
    · exact absurd rfl h2
    obtain ⟨b, hb, ho, ha, hfs⟩ := finishWrite_cases h
    refine .inr ⟨ho, h3, h4, h5, h6, b, hb, ha, ?_⟩
    rw [hfs, set_set]

/-- writing to a path: refused without touching the disk, or the file was empty -/
theorem writeToPath_cases {o : Out Unit} {p : Path} (h : writeToPath e w p = .ok (o, w')) :
    (o ≠ .success () ∧ w' = w) ∨
      (o = .success () ∧ EncPath p ∧ w.fs p = .file [] ∧ e.canRead p = true ∧
        e.canWrite p = true ∧ ∃ b, fullData w.api = .ok b ∧
        w'.api = { w.api with encrypted := none, state := .FINISHED } ∧
        w'.fs = w.fs.set p (.file (b.data.take e.stored))) := by
  rw [writeToPath, Res.noexcept_eq_ok, Res.bind_eq_ok] at h
  obtain ⟨v, hv, h⟩ := h
  cases v with
  | fail c => cases h; exact .inl ⟨by simp, rfl⟩
  | timeout => cases h; exact .inl ⟨by simp, rfl⟩
  | success f =>
    obtain ⟨rfl, -, -, hu, -⟩ := getFileHandler_success hv
    obtain ⟨⟨o1, f1, fs1⟩, hr, h⟩ := Res.bind_eq_ok.mp h
    obtain ⟨hp, h2⟩ := getWriteStreamIfEmpty_cases hr
    cases o1 with
    | fail c =>
      cases h
      rcases h2 with ⟨rfl, -⟩ | ⟨h2, -⟩
      · exact .inl ⟨by simp, rfl⟩
      · cases h2
    | timeout =>
      cases h
      rcases h2 with ⟨rfl, -⟩ | ⟨h2, -⟩
      · exact .inl ⟨by simp, rfl⟩
      · cases h2
    | success u =>
      cases u
      rcases h2 with ⟨-, h2⟩ | ⟨-, he, h3, ⟨c, h4⟩, h5, h6, rfl⟩
      · exact absurd rfl h2
      obtain ⟨b, hb, ho, ha, hfs⟩ := finishWrite_cases h
      have := ((update_empty h4 h5 hu).1).mp he
      subst this
      refine .inr ⟨ho, h3, h4, h5, h6, b, hb, ha, ?_⟩
      rw [hfs, hp, set_set]

/-! ### what the calls do to the session -/

theorem selectFile_cases {p : Path} {o : Out Bool} (h : selectFile hs e w p = .ok (o, w')) :
    (o ≠ .success true ∧ w' = w) ∨
    (o = .success true ∧ ∃ f, getFileHandler e w.fs p 0 = .ok (.success f) ∧
      ((f.empty = true ∧ w' = { w with api := selectEmptyFile w.api f }) ∨
       (f.empty = false ∧ ∃ d, f.getDataHeader hs e w.fs 1 (e.rand 0) = .ok (.success d) ∧
          w' = { w with api := { w.api with dh := some d, selected := some f, state := .FILE_SELECTED } }))) := by
  rw [selectFile, Res.noexcept_eq_ok, Res.bind_eq_ok] at h
  obtain ⟨v, hv, h⟩ := h
  cases v with
  | fail c => cases h; exact .inl ⟨by simp, rfl⟩
  | timeout => cases h; exact .inl ⟨by simp, rfl⟩
  | success f =>
    simp only at h
    split at h
    · rename_i he
      cases h
      exact .inr ⟨rfl, f, hv, .inl ⟨he, rfl⟩⟩
    · rename_i he
      obtain ⟨⟨a, b⟩, hab, h⟩ := Res.bind_eq_ok.mp h
      cases h
      rw [selectNonEmptyFile, Res.noexcept_eq_ok, Res.bind_eq_ok] at hab
      obtain ⟨v, hd, h⟩ := hab
      cases v with
      | fail c => cases h; exact .inl ⟨by simp, rfl⟩
      | timeout => cases h; exact .inl ⟨by simp, rfl⟩
      | success d =>
        cases h
        exact .inr ⟨rfl, f, hv, .inr ⟨by simpa [FileHandler.isEmpty] using he, d, hd, rfl⟩⟩

theorem verifyTry_cases {s s' : Session} {pw : List Byte} {t : Nat} {o : Out Bool}
    (h : verifyTry hs e s pw t = .ok (o, s')) :
    ∃ d m, s.dh = some d ∧ d.isComplete = true ∧ d.dh.hashMode = some m ∧
    ((o ≠ .success true ∧ s' = s) ∨
     (o = .success true ∧ ∃ h1 v v', ChainHashModes.performStr d.dh.ch1 (hs.get m) pw t (e.clk 0) = .ok (.success h1) ∧
        ChainHashModes.performBytes d.dh.ch2 (hs.get m) h1 ((t + (2 ^ 64 - e.peek % 2 ^ 64)) % 2 ^ 64) (e.clk 1) =
          .ok (.success v) ∧ d.dh.validator = some v' ∧ v.beq v' = true ∧
        s' = { s with pwHash := h1, state := .PASSWORD_VERIFIED })) := by
  unfold verifyTry at h
  obtain ⟨d, hd, h⟩ := Res.bind_eq_ok.mp h
  rw [deref_ok] at hd
  obtain ⟨p, hp, h⟩ := Res.bind_eq_ok.mp h
  have hp' : d.isComplete = true ∧ p = d.dh := by
    unfold DataHeader.getDataHeaderParts at hp
    split at hp
    · cases hp
    · rename_i hc; cases hp; exact ⟨by simpa using hc, rfl⟩
  obtain ⟨hc, rfl⟩ := hp'
  obtain ⟨m, hm, h⟩ := Res.bind_eq_ok.mp h
  rw [get_eq_ok] at hm
  refine ⟨d, m, hd, hc, hm, ?_⟩
  obtain ⟨o1, h1, h⟩ := Res.bind_eq_ok.mp h
  cases o1 with
  | fail c => cases h; exact .inl ⟨by simp, rfl⟩
  | timeout => cases h; exact .inl ⟨by simp, rfl⟩
  | success x1 =>
    simp only at h
    split at h
    · cases h; exact .inl ⟨by simp, rfl⟩
    · obtain ⟨o2, h2, h⟩ := Res.bind_eq_ok.mp h
      cases o2 with
      | fail c => cases h; exact .inl ⟨by simp, rfl⟩
      | timeout => cases h; exact .inl ⟨by simp, rfl⟩
      | success x2 =>
        simp only at h
        obtain ⟨v', hv', h⟩ := Res.bind_eq_ok.mp h
        rw [get_eq_ok] at hv'
        split at h
        · rename_i hb
          cases h
          exact .inr ⟨rfl, x1, x2, v', h1, h2, hv', hb, rfl⟩
        · cases h; exact .inl ⟨by simp, rfl⟩

theorem verifyPassword_cases {s s' : Session} {pw : List Byte} {t : Nat} {o : Out Bool}
    (h : verifyPassword hs e s pw t = .ok (o, s')) :
    (o ≠ .success true ∧ s' = s) ∨
     (o = .success true ∧ ∃ d m h1 v v', s.dh = some d ∧ d.isComplete = true ∧ d.dh.hashMode = some m ∧
        ChainHashModes.performStr d.dh.ch1 (hs.get m) pw t (e.clk 0) = .ok (.success h1) ∧
        ChainHashModes.performBytes d.dh.ch2 (hs.get m) h1 ((t + (2 ^ 64 - e.peek % 2 ^ 64)) % 2 ^ 64) (e.clk 1) =
          .ok (.success v) ∧ d.dh.validator = some v' ∧ v.beq v' = true ∧
        s' = { s with pwHash := h1, state := .PASSWORD_VERIFIED }) := by
  rw [verifyPassword, Res.noexcept_eq_ok, Res.bind_eq_ok] at h
  obtain ⟨a, ha, h⟩ := h
  cases a with
  | none => cases h; exact .inl ⟨by simp, rfl⟩
  | some r =>
    cases h
    rw [attempt_some] at ha
    obtain ⟨d, m, h1, h2, h3, h4⟩ := verifyTry_cases ha
    rcases h4 with h4 | ⟨h4, h5, v, v', h6⟩
    · exact .inl h4
    · exact .inr ⟨h4, d, m, h5, v, v', h1, h2, h3, h6⟩

theorem headerForEmpty_cases {s s' : Session} {x : Helper} {o : Out Bool} (h : headerForEmpty s x = .ok (o, s')) :
    (o ≠ .success true ∧ s' = s) ∨
    (o = .success true ∧ fileModeValid s.fileMode = true ∧ ∃ d, x.err = .success d ∧
      s' = { s with pwHash := x.pwHash, dh := some d, fileData := some ⟨some s.fileMode, some (Bytes.empty 0)⟩,
                    state := .DECRYPTED }) := by
  rw [headerForEmpty, Res.noexcept_eq_ok] at h
  cases hx : x.err with
  | fail c => rw [hx] at h; cases h; exact .inl ⟨by simp [failed], rfl⟩
  | timeout => rw [hx] at h; cases h; exact .inl ⟨by simp [failed], rfl⟩
  | success d =>
    rw [hx] at h
    obtain ⟨fd, hf, h⟩ := Res.bind_eq_ok.mp h
    unfold FileDataStruct.make at hf
    split at hf
    · rename_i hv
      cases hf; cases h
      exact .inr ⟨rfl, hv, d, rfl, rfl⟩
    · cases hf

theorem headerForOpen_cases {s s' : Session} {x : Helper} {o : Out Bool} (h : headerForOpen s x = .ok (o, s')) :
    (o ≠ .success true ∧ s' = s) ∨
    (o = .success true ∧ ∃ d, x.err = .success d ∧ s' = { s with pwHash := x.pwHash, dh := some d }) := by
  unfold headerForOpen at h
  cases hx : x.err with
  | fail c => rw [hx] at h; cases h; exact .inl ⟨by simp [failed], rfl⟩
  | timeout => rw [hx] at h; cases h; exact .inl ⟨by simp [failed], rfl⟩
  | success d => rw [hx] at h; cases h; exact .inr ⟨rfl, d, rfl, rfl⟩

theorem getDecryptedData_cases {o : Out FileDataStruct} (h : getDecryptedData hs e w = .ok (o, w')) :
    (o = .fail .ERR ∧ w' = w) ∨
    ∃ r d f m salt, o = .success ⟨some w.api.fileMode, some r⟩ ∧ fileModeValid w.api.fileMode = true ∧ w.api.dh = some d ∧
      d.isComplete = true ∧ d.dh.hashMode = some m ∧ d.dh.encSalt = some salt ∧ w.api.selected = some f ∧
      cryptStream .dec (hs.get m) w.api.pwHash salt (f.getDataStream e w.fs 0) f.getDataSize = .ok r.data ∧
      w' = { w with api := { w.api with fileData := none, state := .DECRYPTED } } := by
  rw [getDecryptedData, Res.noexcept_eq_ok, Res.bind_eq_ok] at h
  obtain ⟨a, ha, h⟩ := h
  cases a with
  | none => cases h; exact .inl ⟨rfl, rfl⟩
  | some x =>
    obtain ⟨fd, s⟩ := x
    rw [attempt_some] at ha
    simp only [Res.ok.injEq, Prod.mk.injEq] at h
    obtain ⟨h, h'⟩ := h
    subst h; subst h'
    unfold decryptTry at ha
    obtain ⟨d, hd, ha⟩ := Res.bind_eq_ok.mp ha
    rw [deref_ok] at hd
    obtain ⟨p, hp, ha⟩ := Res.bind_eq_ok.mp ha
    have hp' : d.isComplete = true ∧ p = d.dh := by
      unfold DataHeader.getDataHeaderParts at hp
      split at hp
      · cases hp
      · rename_i hc; cases hp; exact ⟨by simpa using hc, rfl⟩
    obtain ⟨hc, rfl⟩ := hp'
    obtain ⟨m, hm, ha⟩ := Res.bind_eq_ok.mp ha
    rw [get_eq_ok] at hm
    obtain ⟨salt, hsalt, ha⟩ := Res.bind_eq_ok.mp ha
    rw [get_eq_ok] at hsalt
    obtain ⟨c, hcn, ha⟩ := Res.bind_eq_ok.mp ha
    obtain ⟨f, hf, ha⟩ := Res.bind_eq_ok.mp ha
    rw [deref_ok] at hf
    obtain ⟨⟨c1, s1⟩, hc1, ha⟩ := Res.bind_eq_ok.mp ha
    obtain ⟨⟨r, c2⟩, hr, ha⟩ := Res.bind_eq_ok.mp ha
    obtain ⟨fd', hfd, ha⟩ := Res.bind_eq_ok.mp ha
    unfold FileDataStruct.make at hfd
    split at hfd
    · rename_i hv
      cases hfd; cases ha
      refine .inr ⟨r, d, f, m, salt, rfl, hv, hd, hc, hm, hsalt, hf, ?_, rfl⟩
      simp only [cryptStream, hcn, Res.bind_ok, hc1, hr]
    · cases hfd

theorem encryptTry_cases {s : Session} {d d' : DataHeader} {data r : Bytes} (h : encryptTry hs e s d data = (.ok r, d')) :
    ∃ d1, d.setDataSize (UInt32.ofNat data.len) = .ok d1 ∧
      d1.calcHeaderBytes hs (Bytes.empty 0) (e.clk 0) = (.ok (), d') ∧ encryptWith hs s d' data = .ok r := by
  unfold encryptTry at h
  split at h
  · cases h
  · cases h
  · rename_i d1 h1
    split at h
    · rename_i d2 h2
      simp only [Prod.mk.injEq] at h
      obtain ⟨ha, rfl⟩ := h
      exact ⟨d1, h1, h2, ha⟩
    · cases h
    · cases h

theorem encryptData_cases {s s' : Session} {fd : Option FileDataStruct} {o : Out Bool}
    (h : encryptData hs e s fd = .ok (o, s')) :
    ∃ x, fd = some x ∧
    ((o ≠ .success true ∧ (s' = s ∨ ∃ d data, s.dh = some d ∧ x.decData = some data ∧
        s' = { s with dh := some (encryptTry hs e s d data).2 })) ∨
     (o = .success true ∧ x.fileMode = some s.fileMode ∧ ∃ d data r, s.dh = some d ∧ x.decData = some data ∧
        (encryptTry hs e s d data).1 = .ok r ∧
        s' = { s with dh := some (encryptTry hs e s d data).2, encrypted := some r,
                      fileData := some { x with decData := none }, state := .ENCRYPTED })) := by
  rw [encryptData, Res.noexcept_eq_ok, Res.bind_eq_ok] at h
  obtain ⟨x, hx, h⟩ := h
  rw [deref_ok] at hx
  refine ⟨x, hx, ?_⟩
  split at h
  · cases h; exact .inl ⟨by simp, .inl rfl⟩
  · obtain ⟨m, hm, h⟩ := Res.bind_eq_ok.mp h
    rw [FileDataStruct.getFileMode, get_eq_ok] at hm
    split at h
    · cases h; exact .inl ⟨by simp, .inl rfl⟩
    · rename_i hmode
      obtain ⟨d, hd, h⟩ := Res.bind_eq_ok.mp h
      rw [deref_ok] at hd
      obtain ⟨data, hdata, h⟩ := Res.bind_eq_ok.mp h
      rw [deref_ok] at hdata
      obtain ⟨a, ha, h⟩ := Res.bind_eq_ok.mp h
      cases a with
      | none => cases h; exact .inl ⟨by simp, .inr ⟨d, data, hd, hdata, rfl⟩⟩
      | some r =>
        cases h
        rw [attempt_some] at ha
        refine .inr ⟨rfl, ?_, d, data, r, hd, hdata, ha, rfl⟩
        rw [hm]; simpa using hmode

theorem changeSalt_cases {s s' : Session} {o : Out Unit} (h : changeSalt e s = .ok (o, s')) :
    (o ≠ .success () ∧ s' = s) ∨
    (o = .success () ∧ ∃ d old b p d', s.dh = some d ∧ d.isComplete = true ∧ d.dh.encSalt = some old ∧
      (Bytes.empty old.len).fillrandom (e.rand 0) = .ok b ∧ d.dh.setEncSalt b = .ok p ∧
      DataHeader.setHeaderParts p (e.rand 1) = .ok (.success d') ∧ s' = { s with dh := some d' }) := by
  rw [changeSalt, Res.noexcept_eq_ok, Res.bind_eq_ok] at h
  obtain ⟨d, hd, h⟩ := h
  rw [deref_ok] at hd
  obtain ⟨p, hp, h⟩ := Res.bind_eq_ok.mp h
  have hp' : d.isComplete = true ∧ p = d.dh := by
    unfold DataHeader.getDataHeaderParts at hp
    split at hp
    · cases hp
    · rename_i hc; cases hp; exact ⟨by simpa using hc, rfl⟩
  obtain ⟨hc, rfl⟩ := hp'
  obtain ⟨old, hold, h⟩ := Res.bind_eq_ok.mp h
  rw [get_eq_ok] at hold
  obtain ⟨b, hb, h⟩ := Res.bind_eq_ok.mp h
  obtain ⟨p', hp', h⟩ := Res.bind_eq_ok.mp h
  obtain ⟨o1, ho1, h⟩ := Res.bind_eq_ok.mp h
  cases o1 with
  | fail c => cases h; exact .inl ⟨by simp, rfl⟩
  | timeout => cases h; exact .inl ⟨by simp, rfl⟩
  | success d' => cases h; exact .inr ⟨rfl, d, old, b, p', d', hd, hc, hold, hb, hp', ho1, rfl⟩

/-! ### every call at once -/

/-- a call in a state it is not meant for -/
theorem call_wrong (hs : Hashes) (rest : Helper → Res Helper) (e : Env) (w : World) (c : Call)
    (h : w.api.state ∉ statesFor c) :
    ∃ r, call hs rest e w c = .ok (r, w) ∧
      retCode r = some (if lacksSettings c then .ERR_DATAHEADERSETTINGS_INCOMPLETE else .ERR_API_STATE_INVALID) := by
  cases c
  case createDataHeader pw ds t =>
    cases hc : ds.isComplete <;> cases hst : w.api.state <;>
      simp [statesFor, hst, call, lacksSettings, retCode, failCode, wrongState, hc] at h ⊢
  case createDataHeaderTime pw ds =>
    cases hc : ds.isComplete <;> cases hst : w.api.state <;>
      simp [statesFor, hst, call, lacksSettings, retCode, failCode, wrongState, hc] at h ⊢
  all_goals
    cases hst : w.api.state <;>
      simp [statesFor, hst, call, lacksSettings, retCode, failCode, wrongState] at h ⊢

/-- the disk and the permanent parts of the session after a call -/
theorem call_frame {c : Call} {r : Ret} (h : call hs rest e w c = .ok (r, w')) :
    (∀ q, ¬ mayTouch w.api q (.call c e) → w'.fs q = w.fs q) ∧ w'.api.fileMode = w.api.fileMode ∧
    (∀ f, w'.api.selected = some f → (∃ g, w.api.selected = some g ∧ g.path = f.path) ∨ c = .selectFile f.path) := by
  have same : ∀ w1 : World, w1 = w → (∀ q, w1.fs q = w.fs q) ∧ w1.api.fileMode = w.api.fileMode ∧
      (∀ f, w1.api.selected = some f → (∃ g, w.api.selected = some g ∧ g.path = f.path) ∨ c = .selectFile f.path) := by
    rintro w1 rfl
    exact ⟨fun _ => rfl, rfl, fun f hf => .inl ⟨f, hf, rfl⟩⟩
  by_cases hw : w.api.state ∈ statesFor c
  case neg =>
    obtain ⟨r', hr, -⟩ := call_wrong hs rest e w c hw
    rw [hr] at h; cases h
    exact ⟨fun q _ => (same _ rfl).1 q, (same _ rfl).2⟩
  cases c with
  | getRelevantFileNames dir =>
    simp only [call] at h
    split at h
    · obtain ⟨o, -, h⟩ := Res.bind_eq_ok.mp h
      cases h
      exact ⟨fun q _ => (same _ rfl).1 q, (same _ rfl).2⟩
    · cases h; exact ⟨fun q _ => (same _ rfl).1 q, (same _ rfl).2⟩
  | createFile p =>
    simp only [call] at h
    split at h
    · obtain ⟨⟨o, fs⟩, hc, h⟩ := Res.bind_eq_ok.mp h
      simp only [Res.ok.injEq, Prod.mk.injEq] at h
      obtain ⟨-, rfl⟩ := h
      refine ⟨fun q hq => ?_, rfl, fun f hf => .inl ⟨f, hf, rfl⟩⟩
      rcases createFile_cases hc with ⟨rfl, -⟩ | ⟨-, -, -, -, rfl⟩
      · rfl
      · simp only [mayTouch] at hq; simp [FS.set, hq]
    · cases h; exact ⟨fun q _ => (same _ rfl).1 q, (same _ rfl).2⟩
  | selectFile p =>
    simp only [call] at h
    split at h
    · obtain ⟨⟨o, w1⟩, hc, h⟩ := Res.bind_eq_ok.mp h
      cases h
      rcases selectFile_cases hc with ⟨-, rfl⟩ | ⟨-, f, hf, ⟨-, rfl⟩ | ⟨-, d, -, rfl⟩⟩
      · exact ⟨fun q _ => rfl, rfl, fun f hf => .inl ⟨f, hf, rfl⟩⟩
      · refine ⟨fun q _ => rfl, rfl, fun g hg => .inr ?_⟩
        simp only [selectEmptyFile, Option.some.injEq] at hg
        subst hg
        rw [(getFileHandler_success hf).1]
      · refine ⟨fun q _ => rfl, rfl, fun g hg => .inr ?_⟩
        simp only [Option.some.injEq] at hg
        subst hg
        rw [(getFileHandler_success hf).1]
    · cases h; exact ⟨fun q _ => (same _ rfl).1 q, (same _ rfl).2⟩
  | isFileEmpty =>
    simp only [call] at h
    split at h <;> cases h <;> exact ⟨fun q _ => (same _ rfl).1 q, (same _ rfl).2⟩
  | unselectFile =>
    simp only [call] at h
    split at h <;> cases h <;> exact ⟨fun q _ => rfl, rfl, fun f hf => by first | cases hf | exact .inl ⟨f, hf, rfl⟩⟩
  | deleteFile =>
    have key : ∀ o, deleteSelected e w = .ok (o, w') → (∀ q, ¬ mayTouch w.api q (.call .deleteFile e) → w'.fs q = w.fs q) ∧
        w'.api.fileMode = w.api.fileMode ∧
        (∀ f, w'.api.selected = some f → (∃ g, w.api.selected = some g ∧ g.path = f.path) ∨
          Call.deleteFile = .selectFile f.path) := by
      intro o hd
      rcases deleteSelected_cases hd with ⟨rfl, -⟩ | ⟨-, f, hf, hfs, ha, -⟩
      · exact ⟨fun q _ => rfl, rfl, fun f hf => .inl ⟨f, hf, rfl⟩⟩
      · refine ⟨fun q hq => ?_, by rw [ha]; rfl, fun g hg => by rw [ha] at hg; cases hg⟩
        rw [hfs]
        simp only [mayTouch, not_exists, not_and] at hq
        simp [FS.set, hq f hf]
    simp only [call] at h
    split at h
    · obtain ⟨⟨o, w1⟩, hc, h⟩ := Res.bind_eq_ok.mp h
      cases h; exact key o hc
    · obtain ⟨⟨o, w1⟩, hc, h⟩ := Res.bind_eq_ok.mp h
      cases h; exact key o hc
    · cases h; exact ⟨fun q _ => (same _ rfl).1 q, (same _ rfl).2⟩
  | getFileContent =>
    simp only [call] at h
    split at h
    · obtain ⟨o, -, h⟩ := Res.bind_eq_ok.mp h
      cases h
      exact ⟨fun q _ => (same _ rfl).1 q, (same _ rfl).2⟩
    all_goals cases h; exact ⟨fun q _ => (same _ rfl).1 q, (same _ rfl).2⟩
  | verifyPassword pw t =>
    simp only [call] at h
    split at h
    · obtain ⟨⟨o, s⟩, hc, h⟩ := Res.bind_eq_ok.mp h
      cases h
      rcases verifyPassword_cases hc with ⟨-, rfl⟩ | ⟨-, d, m, h1, v, v', -, -, -, -, -, -, -, rfl⟩
      · exact ⟨fun q _ => rfl, rfl, fun f hf => .inl ⟨f, hf, rfl⟩⟩
      · exact ⟨fun q _ => rfl, rfl, fun f hf => .inl ⟨f, hf, rfl⟩⟩
    · cases h; exact ⟨fun q _ => (same _ rfl).1 q, (same _ rfl).2⟩
  | createDataHeader pw ds t =>
    simp only [call] at h
    split at h
    · cases h; exact ⟨fun q _ => (same _ rfl).1 q, (same _ rfl).2⟩
    split at h
    · obtain ⟨x, -, h⟩ := Res.bind_eq_ok.mp h
      obtain ⟨⟨o, s⟩, hc, h⟩ := Res.bind_eq_ok.mp h
      cases h
      rcases headerForEmpty_cases hc with ⟨-, rfl⟩ | ⟨-, -, d, -, rfl⟩ <;>
        exact ⟨fun q _ => rfl, rfl, fun f hf => .inl ⟨f, hf, rfl⟩⟩
    · obtain ⟨x, -, h⟩ := Res.bind_eq_ok.mp h
      obtain ⟨⟨o, s⟩, hc, h⟩ := Res.bind_eq_ok.mp h
      cases h
      rcases headerForOpen_cases hc with ⟨-, rfl⟩ | ⟨-, d, -, rfl⟩ <;>
        exact ⟨fun q _ => rfl, rfl, fun f hf => .inl ⟨f, hf, rfl⟩⟩
    · cases h; exact ⟨fun q _ => (same _ rfl).1 q, (same _ rfl).2⟩
  | createDataHeaderTime pw ds =>
    simp only [call] at h
    split at h
    · cases h; exact ⟨fun q _ => (same _ rfl).1 q, (same _ rfl).2⟩
    split at h
    · obtain ⟨x, -, h⟩ := Res.bind_eq_ok.mp h
      obtain ⟨⟨o, s⟩, hc, h⟩ := Res.bind_eq_ok.mp h
      cases h
      rcases headerForEmpty_cases hc with ⟨-, rfl⟩ | ⟨-, -, d, -, rfl⟩ <;>
        exact ⟨fun q _ => rfl, rfl, fun f hf => .inl ⟨f, hf, rfl⟩⟩
    · obtain ⟨x, -, h⟩ := Res.bind_eq_ok.mp h
      obtain ⟨⟨o, s⟩, hc, h⟩ := Res.bind_eq_ok.mp h
      cases h
      rcases headerForOpen_cases hc with ⟨-, rfl⟩ | ⟨-, d, -, rfl⟩ <;>
        exact ⟨fun q _ => rfl, rfl, fun f hf => .inl ⟨f, hf, rfl⟩⟩
    · cases h; exact ⟨fun q _ => (same _ rfl).1 q, (same _ rfl).2⟩
  | changeSalt =>
    simp only [call] at h
    split at h
    · obtain ⟨⟨o, s⟩, hc, h⟩ := Res.bind_eq_ok.mp h
      cases h
      rcases changeSalt_cases hc with ⟨-, rfl⟩ | ⟨-, d, old, b, p, d', -, -, -, -, -, -, rfl⟩ <;>
        exact ⟨fun q _ => rfl, rfl, fun f hf => .inl ⟨f, hf, rfl⟩⟩
    · cases h; exact ⟨fun q _ => (same _ rfl).1 q, (same _ rfl).2⟩
  | getDecryptedData =>
    simp only [call] at h
    split at h
    · obtain ⟨⟨o, s⟩, hc, h⟩ := Res.bind_eq_ok.mp h
      cases h
      rcases getDecryptedData_cases hc with ⟨-, rfl⟩ | ⟨r, d, f, m, salt, -, -, -, -, -, -, -, -, rfl⟩ <;>
        exact ⟨fun q _ => rfl, rfl, fun f hf => .inl ⟨f, hf, rfl⟩⟩
    · cases h; exact ⟨fun q _ => (same _ rfl).1 q, (same _ rfl).2⟩
  | getFileData =>
    simp only [call] at h
    split at h
    · cases h
      refine ⟨fun q _ => rfl, ?_, fun f hf => .inl ⟨f, ?_, rfl⟩⟩
      · simp only [getFileData]; split <;> rfl
      · simp only [getFileData] at hf; split at hf <;> exact hf
    · cases h; exact ⟨fun q _ => (same _ rfl).1 q, (same _ rfl).2⟩
  | encryptData fd =>
    simp only [call] at h
    split at h
    · obtain ⟨⟨o, s⟩, hc, h⟩ := Res.bind_eq_ok.mp h
      cases h
      obtain ⟨x, -, hx⟩ := encryptData_cases hc
      rcases hx with ⟨-, rfl | ⟨d, data, -, -, rfl⟩⟩ | ⟨-, -, d, data, r, -, -, -, rfl⟩ <;>
        exact ⟨fun q _ => rfl, rfl, fun f hf => .inl ⟨f, hf, rfl⟩⟩
    · cases h; exact ⟨fun q _ => (same _ rfl).1 q, (same _ rfl).2⟩
  | writeToFile =>
    simp only [call] at h
    split at h
    · obtain ⟨⟨o, w1⟩, hc, h⟩ := Res.bind_eq_ok.mp h
      cases h
      obtain ⟨f, hf, hx⟩ := writeToSelected_cases hc
      rcases hx with ⟨-, hfs, ha⟩ | ⟨-, -, -, -, -, b, -, ha, hfs⟩
      · refine ⟨fun q _ => by rw [hfs], by rw [ha], fun g hg => .inl ⟨f, hf, ?_⟩⟩
        rw [ha] at hg; cases hg; rfl
      · refine ⟨fun q hq => ?_, by rw [ha], fun g hg => .inl ⟨f, hf, ?_⟩⟩
        · simp only [mayTouch, not_exists, not_and] at hq
          rw [hfs]; simp [FS.set, hq f hf]
        · rw [ha] at hg; cases hg; rfl
    · cases h; exact ⟨fun q _ => (same _ rfl).1 q, (same _ rfl).2⟩
  | writeToFileAt p =>
    simp only [call] at h
    split at h
    · obtain ⟨⟨o, w1⟩, hc, h⟩ := Res.bind_eq_ok.mp h
      cases h
      rcases writeToPath_cases hc with ⟨-, rfl⟩ | ⟨-, -, -, -, -, b, -, ha, hfs⟩
      · exact ⟨fun q _ => rfl, rfl, fun f hf => .inl ⟨f, hf, rfl⟩⟩
      · refine ⟨fun q hq => ?_, by rw [ha], fun g hg => .inl ⟨g, ?_, rfl⟩⟩
        · simp only [mayTouch] at hq
          rw [hfs]; simp [FS.set, hq]
        · rw [ha] at hg; exact hg
    · cases h; exact ⟨fun q _ => (same _ rfl).1 q, (same _ rfl).2⟩
  | logout => cases h; exact ⟨fun q _ => rfl, rfl, fun f hf => by cases hf⟩
  | logoutMode m => cases h; exact ⟨fun q _ => rfl, rfl, fun f hf => by cases hf⟩

theorem run_cons {ev : Event} {evs : List Event} {rs : List (Option Ret)} (h : run hs rest w (ev :: evs) = .ok (rs, w')) :
    ∃ r w1 rs', step hs rest w ev = .ok (r, w1) ∧ run hs rest w1 evs = .ok (rs', w') ∧ rs = r :: rs' := by
  rw [run] at h
  obtain ⟨⟨r, w1⟩, h1, h⟩ := Res.bind_eq_ok.mp h
  obtain ⟨⟨rs', w2⟩, h2, h⟩ := Res.bind_eq_ok.mp h
  cases h
  exact ⟨r, w1, rs', h1, h2, rfl⟩

theorem step_call {c : Call} {r : Option Ret} (h : step hs rest w (.call c e) = .ok (r, w')) :
    ∃ x, r = some x ∧ call hs rest e w c = .ok (x, w') := by
  rw [step] at h
  obtain ⟨⟨x, w1⟩, h1, h⟩ := Res.bind_eq_ok.mp h
  cases h
  exact ⟨x, rfl, h1⟩

theorem run_append {evs evs' : List Event} {rs : List (Option Ret)} :
    ∀ {w : World}, run hs rest w (evs ++ evs') = .ok (rs, w') ↔
      ∃ r1 w1 r2, run hs rest w evs = .ok (r1, w1) ∧ run hs rest w1 evs' = .ok (r2, w') ∧ rs = r1 ++ r2 := by
  induction evs generalizing rs with
  | nil =>
    intro w
    constructor
    · intro h; exact ⟨[], w, rs, rfl, h, rfl⟩
    · rintro ⟨r1, w1, r2, h1, h2, rfl⟩; cases h1; exact h2
  | cons ev evs ih =>
    intro w
    constructor
    · intro h
      obtain ⟨r, w1, rs', h1, h2, rfl⟩ := run_cons h
      obtain ⟨r1, w2, r2, h3, h4, rfl⟩ := ih.mp h2
      refine ⟨r :: r1, w2, r2, ?_, h4, rfl⟩
      rw [run, h1, Res.bind_ok]; simp only [h3, Res.bind_ok]
    · rintro ⟨r1, w1, r2, h1, h2, rfl⟩
      obtain ⟨r, w2, rs', h3, h4, rfl⟩ := run_cons h1
      rw [List.cons_append, run, h3, Res.bind_ok]
      simp only [ih.mpr ⟨rs', w1, r2, h4, h2, rfl⟩, Res.bind_ok]
      rfl

theorem run_fileMode {evs : List Event} {rs : List (Option Ret)} :
    ∀ {w : World}, run hs rest w evs = .ok (rs, w') → w'.api.fileMode = w.api.fileMode := by
  induction evs generalizing rs with
  | nil => intro w h; cases h; rfl
  | cons ev evs ih =>
    intro w h
    obtain ⟨r, w1, rs', h1, h2, -⟩ := run_cons h
    rw [ih h2]
    cases ev with
    | call c e =>
      obtain ⟨x, -, hc⟩ := step_call h1
      exact (call_frame hc).2.1
    | outside p n => cases h1; rfl

end Api
end Verif
