import Verif.Spec.Pace
import Verif.Lemmas.Pace
import Verif.Props.Random

/- The pace does not matter: C101. -/
namespace Verif.Props
open Spec

variable {hs : Hashes} {rest : Api.Helper → Res Api.Helper}

/-- C101: a call without time limit has the same result and leaves the same session and disk behind, in whatever portions the
files are delivered and whatever the clocks show. -/
theorem C101_call (c : Call) (hc : ¬ Limited c) (e : Env) (q r : Nat → Nat → Nat) (k : Nat) (w : World) :
    Api.call hs rest { e with sched := q, clk := r, peek := k } w c = Api.call hs rest e w c := by
  show Api.call hs rest (e.paced q r k) w c = _
  cases c with
  | verifyPassword pw t => exact absurd trivial hc
  | createDataHeader pw ds t => exact absurd trivial hc
  | getRelevantFileNames dir =>
    have : ∀ mode, Api.getRelevantFileNames hs (e.paced q r k) w.fs mode dir = Api.getRelevantFileNames hs e w.fs mode dir := by
      intro mode
      unfold Api.getRelevantFileNames
      simp only [Api.scan_paced]
      rfl
    simp only [Api.call, this]
  | selectFile p => simp only [Api.call, Api.selectFile_same]
  | getFileContent =>
    have : Api.getFileContent (e.paced q r k) w = Api.getFileContent e w := by
      unfold Api.getFileContent
      simp only [FileHandler.getAllBytes_same]
    simp only [Api.call, this]
  | getDecryptedData =>
    have : Api.getDecryptedData hs (e.paced q r k) w = Api.getDecryptedData hs e w := by
      unfold Api.getDecryptedData
      rw [Api.decryptTry_same]
    simp only [Api.call, this]
  | writeToFileAt p =>
    have : Api.writeToPath (e.paced q r k) w p = Api.writeToPath e w p := by
      unfold Api.writeToPath
      simp only [FileHandler.getFileHandler_same]
      rfl
    simp only [Api.call, this]
  | _ => rfl

/-- C101: a call with time limit answers "timeout" at one of the two paces, leaving everything as it was, or does the same at both. -/
theorem C101_limited (c : Call) (e : Env) (q r : Nat → Nat → Nat) (k : Nat) (w : World) :
    Api.call hs rest { e with sched := q, clk := r, peek := k } w c = Api.call hs rest e w c ∨
    Api.call hs rest { e with sched := q, clk := r, peek := k } w c = .ok (.flag .timeout, w) ∨
    Api.call hs rest e w c = .ok (.flag .timeout, w) := by
  cases c with
  | verifyPassword pw t =>
    show Api.call hs rest (e.paced q r k) w _ = _ ∨ Api.call hs rest (e.paced q r k) w _ = _ ∨ _
    simp only [Api.call]
    cases w.api.state with
    | FILE_SELECTED =>
      rcases Api.verifyPassword_same e q r k w.api pw t (hs := hs) with h | h | h
      · simp only [h]; exact .inl trivial
      · simp only [h]; exact .inr (.inl rfl)
      · simp only [h]; exact .inr (.inr rfl)
    | _ => exact .inl rfl
  | createDataHeader pw ds t =>
    show Api.call hs rest (e.paced q r k) w _ = _ ∨ Api.call hs rest (e.paced q r k) w _ = _ ∨ _
    simp only [Api.call]
    by_cases hc : (!ds.isComplete) = true
    · simp only [if_pos hc]; exact .inl trivial
    · simp only [if_neg hc]
      cases w.api.state with
      | EMPTY_FILE_SELECTED =>
        rcases Api.createDataHeaderIters_same e q r k w.api.fileMode pw ds t (hs := hs) with h | h | h
        · simp only [h]; exact .inl trivial
        · simp only [h]; exact .inr (.inl rfl)
        · simp only [h]; exact .inr (.inr rfl)
      | DECRYPTED =>
        rcases Api.createDataHeaderIters_same e q r k w.api.fileMode pw ds t (hs := hs) with h | h | h
        · simp only [h]; exact .inl trivial
        · simp only [h]; exact .inr (.inl rfl)
        · simp only [h]; exact .inr (.inr rfl)
      | _ => exact .inl rfl
  | _ => exact .inl (C101_call _ id e q r k w)

/-- C101: with the limit 0 the pace does not matter to these calls either, as long as the clock does not reach 2^64 milliseconds. -/
theorem C101_unlimited (e : Env) (q r : Nat → Nat → Nat) (k : Nat) (w : World) (pw : List Byte) (ds : SettingsIters) :
    Api.call hs rest { e with sched := q, clk := r, peek := k } w (.createDataHeader pw ds 0) =
      Api.call hs rest e w (.createDataHeader pw ds 0) ∧
    (SaneClock e → SaneClock { e with sched := q, clk := r, peek := k } →
      Api.call hs rest { e with sched := q, clk := r, peek := k } w (.verifyPassword pw 0) =
        Api.call hs rest e w (.verifyPassword pw 0)) := by
  constructor
  · show Api.call hs rest (e.paced q r k) w _ = _
    simp only [Api.call, Api.createDataHeaderIters_untimed]
  · intro h1 h2
    show Api.call hs rest (e.paced q r k) w _ = _
    have : Api.verifyPassword hs (e.paced q r k) w.api pw 0 = Api.verifyPassword hs e w.api pw 0 := by
      unfold Api.verifyPassword
      rw [Api.verifyTry_intime e q r k w.api pw h1 h2]
    simp only [Api.call, this]

theorem TimesOut.cons {w w1 : World} {ev : Event} {r : Option Ret} {evs : List Event} (h : Api.step hs rest w ev = .ok (r, w1))
    (ht : TimesOut hs rest w1 evs) : TimesOut hs rest w (ev :: evs) := by
  obtain ⟨pre, post, rs, w2, rfl, h2, h3⟩ := ht
  refine ⟨ev :: pre, post, r :: rs, w2, rfl, ?_, List.mem_cons_of_mem _ h3⟩
  simp only [Api.run, h, h2, Res.bind_ok]

/-- C101: two histories that differ in pace only have the same answers and leave the same session and disk behind, unless a
call of one of them gives up. -/
theorem C101_run (evs evs' : List Event) (h : SameButPace evs evs') (w : World) :
    Api.run hs rest w evs' = Api.run hs rest w evs ∨ TimesOut hs rest w evs ∨ TimesOut hs rest w evs' := by
  induction h generalizing w with
  | nil => exact .inl rfl
  | call c e q r k evs evs' _ ih =>
    rcases C101_limited (hs := hs) (rest := rest) c e q r k w with h | h | h
    · cases hx : Api.call hs rest e w c with
      | ok v =>
        rw [hx] at h
        rcases ih v.2 with h' | h' | h'
        · left
          simp only [Api.run, Api.step, h, hx, Res.bind_ok, h']
        · exact .inr (.inl (TimesOut.cons (by simp only [Api.step, hx]; rfl) h'))
        · exact .inr (.inr (TimesOut.cons (by simp only [Api.step, h]; rfl) h'))
      | exn x =>
        rw [hx] at h
        left
        simp only [Api.run, Api.step, h, hx]
        rfl
      | fatal x =>
        rw [hx] at h
        left
        simp only [Api.run, Api.step, h, hx]
        rfl
    · refine .inr (.inr ⟨[_], evs', [some (.flag .timeout)], w, rfl, ?_, List.mem_singleton.mpr rfl⟩)
      simp only [Api.run, Api.step, h]
      rfl
    · refine .inr (.inl ⟨[_], evs, [some (.flag .timeout)], w, rfl, ?_, List.mem_singleton.mpr rfl⟩)
      simp only [Api.run, Api.step, h]
      rfl
  | outside p n evs evs' _ ih =>
    rcases ih { w with fs := w.fs.set p n } with h | h | h
    · left
      simp only [Api.run, Api.step, Res.bind_ok, h]
    · exact .inr (.inl (TimesOut.cons rfl h))
    · exact .inr (.inr (TimesOut.cons rfl h))

/-- a slow machine: one byte at a time, most of a second between looks at the clock -/
def slowEnv : Env := { openEnv with sched := fun _ _ => 1, clk := fun _ i => 900 * (i + 1), peek := 900 }

/-- a vault is opened and read on a slow machine as on a fast one -/
example : SameButPace (.outside samplePath (.file smallVault) :: sampleOpen)
    (.outside samplePath (.file smallVault) :: [.call .logout slowEnv, .call (.selectFile samplePath) slowEnv,
      .call (.verifyPassword samplePw 0) slowEnv, .call .getDecryptedData slowEnv]) :=
  .outside _ _ _ _ (.call _ _ _ _ _ _ _ (.call _ _ _ _ _ _ _ (.call _ _ _ _ _ _ _ (.call _ _ _ _ _ _ _ .nil))))
example : ¬ Limited .getDecryptedData ∧ Limited (.verifyPassword samplePw 5) := ⟨id, trivial⟩
example : SaneClock openEnv := fun i => by simp [openEnv]
/-- with a limit, the slow machine gives up -/
example : runIs (sampleSave ++ sampleOpen.take 2 ++ [.call (.verifyPassword samplePw 1000) openEnv]) (fun rs _ =>
      rs.getLast? == some (some (.flag (.success true)))) = true ∧
    runIs (sampleSave ++ sampleOpen.take 2 ++ [.call (.verifyPassword samplePw 1000) slowEnv]) (fun rs w =>
      rs.getLast? == some (some (.flag .timeout)) && w.api.state == .FILE_SELECTED) = true ∧
    runIs (sampleSave ++ sampleOpen.take 2 ++ [.call (.verifyPassword samplePw 0) slowEnv]) (fun rs _ =>
      rs.getLast? == some (some (.flag (.success true)))) = true := by decide +kernel

end Verif.Props
