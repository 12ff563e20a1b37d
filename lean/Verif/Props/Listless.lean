import Verif.Spec.Listless
import Verif.Props.Sharing
import Verif.Props.NoCrash

/- C50, C76, C80, C81: listing directories in between changes nothing. -/
namespace Verif.Props
open Spec Api
variable {hs : Hashes} {rest : Helper → Res Helper}

theorem list_same {e : Env} {w w' : World} {d : Path} {r : Ret}
    (h : call hs rest e w (.getRelevantFileNames d) = .ok (r, w')) : w' = w := by
  simp only [call] at h
  split at h
  · obtain ⟨o, -, h⟩ := Res.bind_eq_ok.mp h
    cases h
    rfl
  · cases h
    rfl

/-- C50: listing has no effect. If a history survives, then the history without its listings leads to the same session and the
same disk, and all other calls give the same answers. -/
theorem C50_no_effect : ∀ (evs : List Event) (w w' : World) (rs : List (Option Ret)), Api.run hs rest w evs = .ok (rs, w') →
    Api.run hs rest w (evs.filter (!Lists ·)) = .ok (otherAnswers (evs.map Lists) rs, w')
  | [], w, w', rs, h => by cases h; rfl
  | ev :: evs, w, w', rs, h => by
    simp only [Api.run] at h
    obtain ⟨⟨r, w1⟩, h1, h⟩ := Res.bind_eq_ok.mp h
    obtain ⟨⟨rs, w2⟩, h2, h⟩ := Res.bind_eq_ok.mp h
    cases h
    have ih := C50_no_effect evs w1 w2 rs h2
    cases hl : Lists ev with
    | true =>
      have hw : w1 = w := by
        cases ev with
        | outside p n => cases hl
        | call c e =>
          cases c <;> first | cases hl | skip
          simp only [step] at h1
          obtain ⟨⟨r, w'⟩, hk, hx⟩ := Res.bind_eq_ok.mp h1
          cases hx
          exact list_same hk
      subst hw
      simp only [List.filter_cons, hl, Bool.not_true, Bool.false_eq_true, if_false, List.map_cons, otherAnswers]
      exact ih
    | false =>
      simp only [List.filter_cons, hl, Bool.not_false, if_true, List.map_cons, otherAnswers, Api.run, h1, Res.bind_ok, ih]

/-- the same for several sessions -/
theorem C50_no_effect_many : ∀ (evs : List ManyEvent) (m m' : Many) (rs : List (Option (Nat × Ret))),
    Api.runMany hs rest m evs = .ok (rs, m') →
    Api.runMany hs rest m (evs.filter (!ListsMany ·)) = .ok (otherAnswers (evs.map ListsMany) rs, m')
  | [], m, m', rs, h => by cases h; rfl
  | ev :: evs, m, m', rs, h => by
    simp only [Api.runMany] at h
    obtain ⟨⟨r, m1⟩, h1, h⟩ := Res.bind_eq_ok.mp h
    obtain ⟨⟨rs, m2⟩, h2, h⟩ := Res.bind_eq_ok.mp h
    cases h
    have ih := C50_no_effect_many evs m1 m2 rs h2
    cases hl : ListsMany ev with
    | true =>
      have hw : m1 = m := by
        cases ev with
        | outside p n => cases hl
        | call i c e =>
          cases c <;> first | cases hl | skip
          simp only [stepMany] at h1
          obtain ⟨⟨r, w'⟩, hk, hx⟩ := Res.bind_eq_ok.mp h1
          cases hx
          rw [list_same hk]
          have : (fun j => if j = i then m.api i else m.api j) = m.api := by
            funext j
            split
            · rename_i h; rw [h]
            · rfl
          simp only [Many.after, Many.of, this]
      subst hw
      simp only [List.filter_cons, hl, Bool.not_true, Bool.false_eq_true, if_false, List.map_cons, otherAnswers]
      exact ih
    | false =>
      simp only [List.filter_cons, hl, Bool.not_false, if_true, List.map_cons, otherAnswers, Api.runMany, h1, Res.bind_ok, ih]

/-- C76 with listings in between: the other calls get the answers of the ideal vault. -/
theorem C76_listings (mode : Byte) (s0 : Session) (h0 : Api.new mode = .ok s0) (fs : FS) (slots : Path → Slot)
    (hfs : ∀ p, EncPath p → InSlot hs (fs p) (slots p)) (evs : List Event) (hevs : ∀ ev ∈ evs, Lists ev = false → Smooth ev)
    (rs : List (Option Ret)) (w : World) (hrun : Api.run hs rest ⟨s0, fs⟩ evs = .ok (rs, w)) :
    ∃ v, VRun (madeLocks hs) ⟨slots, .idle⟩ (evs.filter (!Lists ·)) (otherAnswers (evs.map Lists) rs) v ∧
      (∀ p, EncPath p → InSlot hs (w.fs p) (v.slots p)) ∧ ∀ p, ¬ EncPath p → w.fs p = fs p := by
  have h := C50_no_effect evs _ _ _ hrun
  obtain ⟨rs', w', v, h1, h2⟩ := C76_ideal (rest := rest) mode s0 h0 fs slots hfs (evs.filter (!Lists ·)) (by
    intro ev hev
    rw [List.mem_filter] at hev
    exact hevs ev hev.1 (by simpa using hev.2))
  rw [h] at h1
  cases h1
  exact ⟨v, h2⟩

/-- C80 with listings in between: the other calls get the answers of the ideal vault with faults. -/
theorem C80_listings (mode : Byte) (s0 : Session) (h0 : Api.new mode = .ok s0) (fs : FS) (s : Store) (hp : s.vault.phase = .idle)
    (hfs : ∀ p, EncPath p → Lies hs s p (fs p)) (evs : List Event) (hevs : ∀ ev ∈ evs, Lists ev = false → Fair ev)
    (hu : Undisturbed hs rest ⟨s0, fs⟩ (evs.filter (!Lists ·)))
    (rs : List (Option Ret)) (w : World) (hrun : Api.run hs rest ⟨s0, fs⟩ evs = .ok (rs, w)) :
    ∃ s', FRun hs (madeLocks hs) s (evs.filter (!Lists ·)) (otherAnswers (evs.map Lists) rs) s' ∧
      (∀ p, EncPath p → Lies hs s' p (w.fs p)) ∧ ∀ p, ¬ EncPath p → w.fs p = outsideOnly fs (evs.filter (!Lists ·)) p := by
  have h := C50_no_effect evs _ _ _ hrun
  obtain ⟨rs', w', s', h1, h2⟩ := C80_ideal (rest := rest) mode s0 h0 fs s hp hfs (evs.filter (!Lists ·)) (by
    intro ev hev
    rw [List.mem_filter] at hev
    exact hevs ev hev.1 (by simpa using hev.2)) hu
  rw [h] at h1
  cases h1
  exact ⟨s', h2⟩

/-- C81 with listings in between: the other calls get the answers of one shared ideal vault with faults. -/
theorem C81_listings (w : Many) (hnew : ∀ i, ∃ mode, Api.new mode = .ok (w.api i)) (m : Pool) (hp : ∀ i, m.phase i = .idle)
    (hfs : ∀ i p, EncPath p → Lies hs (m.of i) p (w.fs p)) (evs : List ManyEvent)
    (hevs : ∀ ev ∈ evs, ListsMany ev = false → FairMany ev) (hu : Polite hs rest w (evs.filter (!ListsMany ·)))
    (rs : List (Option (Nat × Ret))) (w' : Many) (hrun : Api.runMany hs rest w evs = .ok (rs, w')) :
    ∃ m', PRun hs (madeLocks hs) m (evs.filter (!ListsMany ·)) (otherAnswers (evs.map ListsMany) rs) m' ∧
      (∀ i p, EncPath p → Lies hs (m'.of i) p (w'.fs p)) ∧
      ∀ p, ¬ EncPath p → w'.fs p = outsideOnlyMany w.fs (evs.filter (!ListsMany ·)) p := by
  have h := C50_no_effect_many evs _ _ _ hrun
  obtain ⟨rs', w2, m', h1, h2⟩ := C81_ideal (rest := rest) w hnew m hp hfs (evs.filter (!ListsMany ·)) (by
    intro ev hev
    rw [List.mem_filter] at hev
    exact hevs ev hev.1 (by simpa using hev.2)) hu
  rw [h] at h1
  cases h1
  exact ⟨m', h2⟩

/-! ### concrete histories -/

/-- listings at the beginning, after a save, at the wrong time, and of a directory with the name of a file -/
def listingHistory : List Event :=
  [.call (.getRelevantFileNames (ascii "data")) openEnv] ++ vaultHistory.take 5 ++
  [.call (.getRelevantFileNames (ascii "data")) openEnv] ++ vaultHistory.drop 5 ++
  [.call (.getRelevantFileNames []) openEnv]

example : (∀ ev ∈ listingHistory, Lists ev = false → Smooth ev) ∧ listingHistory.filter (!Lists ·) = vaultHistory ∧
    runIs listingHistory (fun rs w => otherAnswers (listingHistory.map Lists) rs == vaultAnswers && rs.length == vaultAnswers.length + 3 &&
      rs.head? == some (some (.names (.fail .ERR_FILEPATH_INVALID))) && w.fs samplePath == .missing) = true := by
  refine ⟨fun ev hev hl => vaultHistory_smooth ev ?_, rfl, by decide +kernel⟩
  have : ev ∈ listingHistory.filter (!Lists ·) := List.mem_filter.mpr ⟨hev, by simp [hl]⟩
  exact this

/-- the directory made by another program is listed -/
def listingFaults : List Event :=
  faultyHistory.take 8 ++ [.call (.getRelevantFileNames (ascii "b.enc")) openEnv] ++ faultyHistory.drop 8

example : (∀ ev ∈ listingFaults, Lists ev = false → Fair ev) ∧
    Undisturbed toyHashes noRest (freshWorld fun _ => .missing) (listingFaults.filter (!Lists ·)) ∧
    runIs listingFaults (fun rs _ => rs[8]? == some (some (.names (.success [])))) = true := by
  refine ⟨fun ev hev hl => faultyHistory_fair ev ?_, faultyHistory_undisturbed, by decide +kernel⟩
  have : ev ∈ listingFaults.filter (!Lists ·) := List.mem_filter.mpr ⟨hev, by simp [hl]⟩
  exact this

/-- a fourth session lists the directory made by another program -/
def listingShared : List ManyEvent :=
  sharedHistory.take 9 ++ [.call 3 (.getRelevantFileNames (ascii "b.enc")) openEnv] ++ sharedHistory.drop 9

example : (∀ ev ∈ listingShared, ListsMany ev = false → FairMany ev) ∧
    Polite toyHashes noRest (freshMany fun _ => .missing) (listingShared.filter (!ListsMany ·)) ∧
    manyIs (freshMany fun _ => .missing) listingShared (fun rs _ => rs[9]? == some (some (3, .names (.success [])))) = true := by
  refine ⟨fun ev hev hl => sharedHistory_fair ev ?_, sharedHistory_polite, by decide +kernel⟩
  have : ev ∈ listingShared.filter (!ListsMany ·) := List.mem_filter.mpr ⟨hev, by simp [hl]⟩
  exact this

end Verif.Props
