import Verif.Model.Handler
import Verif.Lemmas.Isolation

/- Lemmas on objects of `FileHandler` over their life, and on the sizes in the handler of a session. -/
namespace Verif
open Spec

section
variable {hs : Hashes} {rest : Api.Helper → Res Api.Helper} {e : Env}

theorem update_sizes {fs : FS} {p : Path} {i : Nat} {f : FileHandler} (h : FileHandler.update e fs p i = .ok f) :
    f.headerSize ≤ f.fileSize := by
  unfold FileHandler.update at h
  obtain ⟨n, -, h⟩ := Res.bind_eq_ok.mp h
  split at h
  · cases h
  split at h
  · cases h
  · cases h; exact Nat.not_lt.mp (by assumption)

theorem refresh_path {fs : FS} {p : Path} {i : Nat} {f : FileHandler} (h : FileHandler.update e fs p i = .ok f) : f.path = p := by
  unfold FileHandler.update at h
  obtain ⟨n, -, h⟩ := Res.bind_eq_ok.mp h
  split at h
  · cases h
  split at h
  · cases h
  · cases h; rfl

namespace Api

/-- the handler of the selected file stays the same, or its sizes go together -/
theorem call_sizes {w w' : World} {c : Call} {r : Ret} (h : call hs rest e w c = .ok (r, w')) :
    ∀ f', w'.api.selected = some f' → w.api.selected = some f' ∨ f'.headerSize ≤ f'.fileSize := by
  have same : w'.api.selected = w.api.selected → ∀ f', w'.api.selected = some f' →
      w.api.selected = some f' ∨ f'.headerSize ≤ f'.fileSize :=
    fun hs' f' hf => .inl (by rw [← hs']; exact hf)
  have none : w'.api.selected = none → ∀ f', w'.api.selected = some f' →
      w.api.selected = some f' ∨ f'.headerSize ≤ f'.fileSize := by
    intro hs' f' hf; rw [hs'] at hf; cases hf
  cases c with
  | getRelevantFileNames dir =>
    simp only [call] at h
    split at h
    · obtain ⟨x, -, h⟩ := Res.bind_eq_ok.mp h; cases h; exact same rfl
    · cases h; exact same rfl
  | createFile p =>
    simp only [call] at h
    split at h
    · obtain ⟨x, -, h⟩ := Res.bind_eq_ok.mp h; cases h; exact same rfl
    · cases h; exact same rfl
  | selectFile p =>
    simp only [call] at h
    split at h
    · obtain ⟨⟨o, w1⟩, h1, h⟩ := Res.bind_eq_ok.mp h
      cases h
      simp only [selectFile, Res.noexcept_eq_ok] at h1
      obtain ⟨x, hx, h1⟩ := Res.bind_eq_ok.mp h1
      cases x with
      | success f =>
        have hsize := update_sizes (getFileHandler_success hx).2.2.2.1
        simp only [] at h1
        split at h1
        · cases h1
          intro f' hf
          cases hf
          exact .inr hsize
        · obtain ⟨⟨o', s'⟩, h2, h1⟩ := Res.bind_eq_ok.mp h1
          cases h1
          simp only [selectNonEmptyFile, Res.noexcept_eq_ok] at h2
          obtain ⟨y, -, h2⟩ := Res.bind_eq_ok.mp h2
          cases y with
          | success d =>
            cases h2
            intro f' hf
            cases hf
            exact .inr hsize
          | _ => cases h2; exact same rfl
      | _ => cases h1; exact same rfl
    · cases h; exact same rfl
  | writeToFileAt p =>
    simp only [call] at h
    split at h
    · obtain ⟨⟨o, w1⟩, h1, h⟩ := Res.bind_eq_ok.mp h
      cases h
      simp only [writeToPath, Res.noexcept_eq_ok] at h1
      obtain ⟨x, hx, h1⟩ := Res.bind_eq_ok.mp h1
      cases x with
      | success f =>
        obtain ⟨⟨o', f', fs'⟩, -, h1⟩ := Res.bind_eq_ok.mp h1
        cases o' with
        | success u =>
          simp only [finishWrite] at h1
          obtain ⟨y, -, h1⟩ := Res.bind_eq_ok.mp h1
          cases h1; exact same rfl
        | _ => cases h1; exact same rfl
      | _ => cases h1; exact same rfl
    · cases h; exact same rfl
  | deleteFile =>
    have key : ∀ {o w1}, deleteSelected e w = .ok (o, w1) → w1.api.selected = w.api.selected ∨ w1.api.selected = .none := by
      intro o w1 h1
      simp only [deleteSelected, Res.noexcept_eq_ok] at h1
      obtain ⟨f, -, h1⟩ := Res.bind_eq_ok.mp h1
      obtain ⟨⟨ok, fs⟩, -, h1⟩ := Res.bind_eq_ok.mp h1
      cases ok <;> cases h1
      · exact .inl rfl
      · exact .inr rfl
    simp only [call] at h
    split at h
    · obtain ⟨⟨o, w1⟩, h1, h⟩ := Res.bind_eq_ok.mp h
      cases h
      exact (key h1).elim same none
    · obtain ⟨⟨o, w1⟩, h1, h⟩ := Res.bind_eq_ok.mp h
      cases h
      exact (key h1).elim same none
    · cases h; exact same rfl
  | getFileContent =>
    simp only [call] at h
    split at h
    · obtain ⟨x, -, h⟩ := Res.bind_eq_ok.mp h; cases h; exact same rfl
    · cases h; exact same rfl
    · cases h; exact same rfl
  | getDecryptedData =>
    simp only [call] at h
    split at h
    · obtain ⟨⟨o, w1⟩, h1, h⟩ := Res.bind_eq_ok.mp h
      cases h
      simp only [getDecryptedData, Res.noexcept_eq_ok] at h1
      obtain ⟨x, hx, h1⟩ := Res.bind_eq_ok.mp h1
      cases x with
      | none => cases h1; exact same rfl
      | some y =>
        cases h1
        cases ht : decryptTry hs e w with
        | ok z =>
          rw [ht] at hx
          cases hx
          simp only [decryptTry] at ht
          obtain ⟨_, -, ht⟩ := Res.bind_eq_ok.mp ht
          obtain ⟨_, -, ht⟩ := Res.bind_eq_ok.mp ht
          obtain ⟨_, -, ht⟩ := Res.bind_eq_ok.mp ht
          obtain ⟨_, -, ht⟩ := Res.bind_eq_ok.mp ht
          obtain ⟨_, -, ht⟩ := Res.bind_eq_ok.mp ht
          obtain ⟨_, -, ht⟩ := Res.bind_eq_ok.mp ht
          obtain ⟨_, -, ht⟩ := Res.bind_eq_ok.mp ht
          obtain ⟨_, -, ht⟩ := Res.bind_eq_ok.mp ht
          obtain ⟨_, -, ht⟩ := Res.bind_eq_ok.mp ht
          cases ht
          exact same rfl
        | exn x => rw [ht] at hx; cases x <;> cases hx
        | fatal x => rw [ht] at hx; cases hx
    · cases h; exact same rfl
  | writeToFile =>
    simp only [call] at h
    split at h
    · obtain ⟨⟨o, w1⟩, h1, h⟩ := Res.bind_eq_ok.mp h
      cases h
      simp only [writeToSelected, Res.noexcept_eq_ok] at h1
      obtain ⟨f, hf, h1⟩ := Res.bind_eq_ok.mp h1
      have hsel : w.api.selected = some f := by
        cases hx : w.api.selected with
        | none => rw [hx] at hf; cases hf
        | some g => rw [hx] at hf; cases hf; rfl
      obtain ⟨⟨o', f', fs'⟩, hw, h1⟩ := Res.bind_eq_ok.mp h1
      obtain ⟨rfl, -⟩ := getWriteStream_cases hw
      cases o' with
      | success u =>
        simp only [finishWrite] at h1
        obtain ⟨y, -, h1⟩ := Res.bind_eq_ok.mp h1
        cases h1
        intro g hg
        cases hg
        exact .inr (Nat.le_refl 0)
      | fail x =>
        cases h1
        intro g hg
        cases hg
        exact .inr (Nat.le_refl 0)
      | timeout =>
        cases h1
        intro g hg
        cases hg
        exact .inr (Nat.le_refl 0)
    · cases h; exact same rfl
  | isFileEmpty => simp only [call] at h; split at h <;> cases h <;> exact same rfl
  | unselectFile =>
    simp only [call] at h
    split at h <;> cases h
    · exact none rfl
    · exact none rfl
    · exact same rfl
  | verifyPassword pw t =>
    simp only [call] at h
    split at h
    · obtain ⟨⟨o, s1⟩, h1, h⟩ := Res.bind_eq_ok.mp h
      cases h
      simp only [verifyPassword, Res.noexcept_eq_ok] at h1
      obtain ⟨x, hx, h1⟩ := Res.bind_eq_ok.mp h1
      cases x with
      | none => cases h1; exact same rfl
      | some y =>
        cases h1
        cases ht : verifyTry hs e w.api pw t with
        | ok z =>
          rw [ht] at hx
          cases hx
          simp only [verifyTry] at ht
          obtain ⟨_, -, ht⟩ := Res.bind_eq_ok.mp ht
          obtain ⟨_, -, ht⟩ := Res.bind_eq_ok.mp ht
          obtain ⟨_, -, ht⟩ := Res.bind_eq_ok.mp ht
          obtain ⟨x1, -, ht⟩ := Res.bind_eq_ok.mp ht
          cases x1 with
          | success h1 =>
            simp only [] at ht
            split at ht
            · cases ht; exact same rfl
            · obtain ⟨x2, -, ht⟩ := Res.bind_eq_ok.mp ht
              cases x2 with
              | success v =>
                obtain ⟨_, -, ht⟩ := Res.bind_eq_ok.mp ht
                split at ht <;> cases ht <;> exact same rfl
              | _ => cases ht; exact same rfl
          | _ => cases ht; exact same rfl
        | exn x => rw [ht] at hx; cases x <;> cases hx
        | fatal x => rw [ht] at hx; cases hx
    · cases h; exact same rfl
  | createDataHeader pw ds t =>
    simp only [call] at h
    split at h
    · cases h; exact same rfl
    · split at h
      · obtain ⟨x, -, h⟩ := Res.bind_eq_ok.mp h
        obtain ⟨⟨o, s1⟩, h1, h⟩ := Res.bind_eq_ok.mp h
        cases h
        exact same (headerForEmpty_selected h1)
      · obtain ⟨x, -, h⟩ := Res.bind_eq_ok.mp h
        obtain ⟨⟨o, s1⟩, h1, h⟩ := Res.bind_eq_ok.mp h
        cases h
        exact same (headerForOpen_selected h1)
      · cases h; exact same rfl
  | createDataHeaderTime pw ds =>
    simp only [call] at h
    split at h
    · cases h; exact same rfl
    · split at h
      · obtain ⟨x, -, h⟩ := Res.bind_eq_ok.mp h
        obtain ⟨⟨o, s1⟩, h1, h⟩ := Res.bind_eq_ok.mp h
        cases h
        exact same (headerForEmpty_selected h1)
      · obtain ⟨x, -, h⟩ := Res.bind_eq_ok.mp h
        obtain ⟨⟨o, s1⟩, h1, h⟩ := Res.bind_eq_ok.mp h
        cases h
        exact same (headerForOpen_selected h1)
      · cases h; exact same rfl
  | changeSalt =>
    simp only [call] at h
    split at h
    · obtain ⟨⟨o, s1⟩, h1, h⟩ := Res.bind_eq_ok.mp h
      cases h
      simp only [changeSalt, Res.noexcept_eq_ok] at h1
      obtain ⟨_, -, h1⟩ := Res.bind_eq_ok.mp h1
      obtain ⟨_, -, h1⟩ := Res.bind_eq_ok.mp h1
      obtain ⟨_, -, h1⟩ := Res.bind_eq_ok.mp h1
      obtain ⟨_, -, h1⟩ := Res.bind_eq_ok.mp h1
      obtain ⟨_, -, h1⟩ := Res.bind_eq_ok.mp h1
      obtain ⟨x, -, h1⟩ := Res.bind_eq_ok.mp h1
      cases x <;> cases h1 <;> exact same rfl
    · cases h; exact same rfl
  | getFileData =>
    simp only [call] at h
    split at h
    · cases h
      refine same ?_
      simp only [getFileData]
      split <;> rfl
    · cases h; exact same rfl
  | encryptData fd =>
    simp only [call] at h
    split at h
    · obtain ⟨⟨o, s1⟩, h1, h⟩ := Res.bind_eq_ok.mp h
      cases h
      simp only [encryptData, Res.noexcept_eq_ok] at h1
      obtain ⟨_, -, h1⟩ := Res.bind_eq_ok.mp h1
      split at h1
      · cases h1; exact same rfl
      · obtain ⟨_, -, h1⟩ := Res.bind_eq_ok.mp h1
        split at h1
        · cases h1; exact same rfl
        · obtain ⟨_, -, h1⟩ := Res.bind_eq_ok.mp h1
          obtain ⟨_, -, h1⟩ := Res.bind_eq_ok.mp h1
          obtain ⟨x, -, h1⟩ := Res.bind_eq_ok.mp h1
          cases x <;> cases h1 <;> exact same rfl
    · cases h; exact same rfl
  | logout => cases h; exact none rfl
  | logoutMode m => cases h; exact none rfl


end Api
end

end Verif
