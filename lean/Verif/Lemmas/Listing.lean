import Verif.Lemmas.Api
import Verif.Spec.Listing

/- Listing a directory. -/
namespace Verif
open Spec

theorem getLast?_slash (dir : Path) : dir.getLast? = some slash ↔ ∃ d, dir = d ++ [47] := by
  constructor
  · intro h
    obtain ⟨d, hd⟩ := List.getLast?_eq_some_iff.mp h
    exact ⟨d, hd⟩
  · rintro ⟨d, rfl⟩
    simp

theorem entry_iff {dir n p : Path} (hd : dir ≠ []) : Entry dir n p ↔ p = Path.join dir n := by
  unfold Entry Path.join
  by_cases h : ∃ d, dir = d ++ [47]
  · have h2 := (getLast?_slash dir).mpr h
    simp [h, h2]
  · have h2 : dir.getLast? ≠ some slash := fun e => h ((getLast?_slash dir).mp e)
    simp [h, h2, hd]

theorem join_split {dir n : Path} (hd : dir ≠ []) : ∃ q, Path.join dir n = q ++ slash :: n := by
  unfold Path.join
  split
  · rename_i h
    rcases h with h | h
    · exact absurd h hd
    · obtain ⟨d, rfl⟩ := (getLast?_slash dir).mp h
      exact ⟨d, by simp⟩
  · exact ⟨dir, rfl⟩

theorem filename_join {dir n : Path} (hd : dir ≠ []) (hn : slash ∉ n) : Path.filename (Path.join dir n) = n := by
  obtain ⟨q, hq⟩ := join_split (n := n) hd
  rw [hq]
  exact afterLast_sep hn

theorem extension_join {dir n : Path} (hd : dir ≠ []) (hn : slash ∉ n) :
    Path.extension (Path.join dir n) = FileHandler.ext ↔ EncName n := by
  obtain ⟨q, hq⟩ := join_split (n := n) hd
  rw [hq, extension_eq]
  refine Iff.trans (ext_name _) ?_
  rw [afterLast_sep hn]
  rfl

namespace Api

/-- the loop over the entries, with all of them reachable -/
theorem pick_ok {fs : FS} {dir : Path} (hd : dir ≠ []) {l : List (List Byte)} (hl : Names l)
    (hu : ∀ n ∈ l, fs (Path.join dir n) ≠ .unreachable) :
    ∃ names, getAllEncFileNames.pick fs dir l = .ok names ∧ names.Sublist l ∧
      (∀ n ∈ names, EncName n ∧ ∃ c, fs (Path.join dir n) = .file c) ∧
      (∀ n ∈ l, EncName n → (∃ c, fs (Path.join dir n) = .file c) → n ∈ names) := by
  induction l with
  | nil => exact ⟨[], rfl, .slnil, by simp, by simp⟩
  | cons a l ih =>
    obtain ⟨names, h1, h2, h3, h4⟩ := ih (fun n hn => hl n (by simp [hn])) (fun n hn => hu n (by simp [hn]))
    have ha := hl a (by simp)
    have hua := hu a (by simp)
    rw [getAllEncFileNames.pick]
    cases hf : fs (Path.join dir a) with
    | missing =>
      refine ⟨names, h1, .cons _ h2, h3, ?_⟩
      intro n hn hE hc
      rcases List.mem_cons.mp hn with rfl | hn
      · obtain ⟨c, hc⟩ := hc
        rw [hf] at hc; cases hc
      · exact h4 n hn hE hc
    | unreachable => exact absurd hf hua
    | dir =>
      refine ⟨names, h1, .cons _ h2, h3, ?_⟩
      intro n hn hE hc
      rcases List.mem_cons.mp hn with rfl | hn
      · obtain ⟨c, hc⟩ := hc
        rw [hf] at hc; cases hc
      · exact h4 n hn hE hc
    | file c =>
      simp only [h1, Res.bind_ok, filename_join hd ha.2]
      by_cases hE : Path.extension (Path.join dir a) = FileHandler.ext
      · rw [if_pos hE]
        refine ⟨_, rfl, h2.cons_cons a, ?_, ?_⟩
        · intro n hn
          rcases List.mem_cons.mp hn with rfl | hn
          · exact ⟨(extension_join hd ha.2).mp hE, c, hf⟩
          · exact h3 n hn
        · intro n hn hE' hc
          rcases List.mem_cons.mp hn with rfl | hn
          · simp
          · simp [h4 n hn hE' hc]
      · rw [if_neg hE]
        refine ⟨names, rfl, .cons _ h2, h3, ?_⟩
        intro n hn hE' hc
        rcases List.mem_cons.mp hn with rfl | hn
        · exact absurd ((extension_join hd ha.2).mpr hE') hE
        · exact h4 n hn hE' hc

theorem pick_exn {fs : FS} {dir : Path} {l : List (List Byte)} (hu : ∃ n ∈ l, fs (Path.join dir n) = .unreachable) :
    getAllEncFileNames.pick fs dir l = .exn .runtimeError := by
  induction l with
  | nil => simp at hu
  | cons a l ih =>
    rw [getAllEncFileNames.pick]
    cases hf : fs (Path.join dir a) with
    | unreachable => rfl
    | missing =>
      obtain ⟨n, hn, h⟩ := hu
      rcases List.mem_cons.mp hn with rfl | hn
      · rw [hf] at h; cases h
      · exact ih ⟨n, hn, h⟩
    | dir =>
      obtain ⟨n, hn, h⟩ := hu
      rcases List.mem_cons.mp hn with rfl | hn
      · rw [hf] at h; cases h
      · exact ih ⟨n, hn, h⟩
    | file c =>
      obtain ⟨n, hn, h⟩ := hu
      rcases List.mem_cons.mp hn with rfl | hn
      · rw [hf] at h; cases h
      · simp only [ih ⟨n, hn, h⟩, Res.bind_exn]

/-- the scan never changes the list it was given -/
theorem scan_same {hs : Hashes} {e : Env} {fs : FS} {mode : Byte} {dir : Path} {l : List (List Byte)} :
    ∀ {i : Nat} {ret r : List (List Byte)}, getRelevantFileNames.scan hs e fs mode dir l i ret = .ok r → r = ret := by
  induction l with
  | nil => intro i ret r h; rw [getRelevantFileNames.scan] at h; cases h; rfl
  | cons a l ih =>
    intro i ret r h
    rw [getRelevantFileNames.scan] at h
    obtain ⟨o, -, h⟩ := Res.bind_eq_ok.mp h
    split at h
    · simp only [Res.bind_ok] at h
      split at h
      · exact ih h
      · obtain ⟨b, -, h⟩ := Res.bind_eq_ok.mp h
        split at h <;> exact ih h
    · exact ih h

end Api
end Verif
