import Verif.Lemmas.SharedTimed

/- Run-time limited chain-hash descriptions sharing their data: C69. -/
namespace Verif.Props
open Spec Timed

/-- C69, one direction: over all programs, a description that says it is valid is valid. -/
theorem C69_valid_sound_partial (ops : List Op) (s : Sys) (h : Timed.run ops = .ok s) (d : Desc) (hd : d ∈ s.descs)
    (hv : d.val = true) : TimedValid s d :=
  (inv_run ops s h).sound d hd hv

/-- C69, both directions, for programs that do not change a data object any more once a description refers to it. -/
theorem C69_valid_exact_partial (ops : List Op) (hq : Along TimedQuietOp ops) (s : Sys) (h : Timed.run ops = .ok s)
    (d : Desc) (hd : d ∈ s.descs) : d.val = true ↔ TimedValid s d :=
  Timed.exact ops hq s h d hd

/-- C69 fails in general: completing the data after handing it over leaves the description invalid. -/
theorem C69_violated_late : ∃ ops s d, Timed.run ops = .ok s ∧ d ∈ s.descs ∧ TimedValid s d ∧ d.val = false :=
  ⟨[.newData .count, .newDescWith 3 50 (some 0), .addPart 0 (Bytes.full [0, 0, 0, 0, 0, 0, 0, 1])],
    ⟨[⟨.count, ⟨[0, 0, 0, 0, 0, 0, 0, 1], 255⟩, 1⟩], [⟨some .count, some 0, some 50, false⟩]⟩,
    ⟨some .count, some 0, some 50, false⟩, by decide, by decide,
    ⟨.count, 0, _, 50, rfl, rfl, rfl, rfl, rfl, rfl, by decide, by decide⟩, rfl⟩

/-- C69: the getters answer exactly when the description says it is valid, with what was set, and otherwise throw
`runtime_error`; they never read an unset run time. -/
theorem C69_getters (ops : List Op) (s : Sys) (h : Timed.run ops = .ok s) (d : Desc) (hd : d ∈ s.descs) :
    (d.val = true → (∃ m, d.getMode = .ok m ∧ d.mode = some m) ∧ (∃ i, d.getChainHashData = .ok (some i) ∧ d.ref = some i ∧
      i < s.store.length) ∧ (∃ t, d.getRunTime = .ok t ∧ d.time = some t)) ∧
    (d.val = false → d.getMode = .exn .runtimeError ∧ d.getChainHashData = .exn .runtimeError ∧
      d.getRunTime = .exn .runtimeError) := by
  refine ⟨fun hv => ?_, fun hv => ?_⟩
  · obtain ⟨m, i, o, t, h1, h2, h3, -, -, h4, -⟩ := C69_valid_sound_partial ops s h d hd hv
    have := (List.getElem?_eq_some_iff.mp h3).1
    simp [Desc.getMode, Desc.getChainHashData, Desc.getRunTime, hv, h1, h2, h4, this]
  · simp [Desc.getMode, Desc.getChainHashData, Desc.getRunTime, hv]

/-- C69: assigning a valid description makes the target its equal (valid and with the same data object), assigning an invalid
one changes nothing; other descriptions and the data objects are left alone. -/
theorem C69_assign (ops : List Op) (s : Sys) (h : Timed.run ops = .ok s) (k j : Nat) (d src : Desc)
    (hk : s.descs[k]? = some d) (hj : s.descs[j]? = some src) :
    Timed.run (ops ++ [.assign k j]) = .ok (if src.val then ⟨s.store, s.descs.set k src⟩ else s) := by
  rw [run_snoc, h, Res.bind_ok]
  have hmem := List.mem_of_getElem? hj
  obtain ⟨g1, g2⟩ := C69_getters ops s h src hmem
  cases hv : src.val with
  | false => simp [Sys.step, hk, hj, (g2 hv).1, (g2 hv).2.2]
  | true =>
    obtain ⟨⟨m, h1, h2⟩, ⟨i, -, h4, -⟩, t, h5, h6⟩ := g1 hv
    have hval := C69_valid_sound_partial ops s h src hmem hv
    have hr : RefOk s ⟨some m, src.ref, some t, false⟩ := fun i hi => (inv_run ops s h).refs src hmem i hi
    simp only [Sys.step, hk, hj, h1, h5, Sys.put, if_true]
    rcases check_spec s ⟨some m, src.ref, some t, false⟩ hr with ⟨d', c1, c2, c3, c4, c5⟩ | ⟨-, -, -, c⟩
    · have hd : d'.val = true := c5.mpr (by
        obtain ⟨m', i', o, t', v1, v2, v3, v4, v5, v6, v7⟩ := hval
        refine ⟨m', i', o, t', ?_, ?_, v3, v4, v5, ?_, v7⟩
        · rw [c2, ← v1, h2]
        · rw [c3, ← v2]
        · rw [c4, ← v6, h6])
      have : d' = src := by
        cases d'; cases src
        simp only at c2 c3 c4 hd h2 h6 hv
        subst c2 c3 c4 hd h2 h6 hv
        rfl
      rw [c1, Res.bind_ok, this]
    · cases c

/-- C69 is violated: a description made by the default constructor that is given its mode and its data (in either order)
before its run time makes the validity check read an uninitialised number, and so does copying it. -/
theorem C69_violated_uninitialised :
    Timed.run [.newData .normal, .newDesc, .setMode 0 1, .setData 0 (some 0)] = .fatal .ub ∧
    Timed.run [.newData .normal, .newDesc, .setData 0 (some 0), .setMode 0 1] = .fatal .ub ∧
    Timed.run [.newDesc, .copy 0] = .fatal .ub := by decide

/-- C69, exact: a program has undefined behaviour exactly when one of its steps reads a run time that was never set. -/
theorem C69_undefined_iff_partial (ops : List Op) : Timed.run ops = .fatal .ub ↔
    ∃ pre op post s, ops = pre ++ op :: post ∧ Timed.run pre = .ok s ∧ ReadsUnset s op :=
  run_ub_iff ops

/-- C69: a program that never uses the default constructor (without braces) runs to its end, unless random data is
requested from a random source that fails. -/
theorem C69_defined_partial (ops : List Op) (hn : Op.newDesc ∉ ops) (hr : ∀ i r, Op.genRandom i r ∈ ops → r.good = true) :
    ∃ s, Timed.run ops = .ok s := by
  cases h : Timed.run ops with
  | ok s => exact ⟨s, rfl⟩
  | exn e => exact absurd h (run_exn ops e)
  | fatal f =>
    rcases run_fatal ops f h with rfl | ⟨-, i, r, h1, h2⟩
    · obtain ⟨pre, op, post, s, h1, h2, h3⟩ := (run_ub_iff ops).mp h
      have h4 : ∀ d ∈ s.descs, d.time ≠ none := times_set pre (fun hm => hn (by rw [h1]; simp [hm])) s h2
      cases op with
      | copy k => obtain ⟨d, h5, h6⟩ := h3; exact absurd h6 (h4 d (List.mem_of_getElem? h5))
      | setMode k m => obtain ⟨d, h5, h6, -⟩ := h3; exact absurd h6 (h4 d (List.mem_of_getElem? h5))
      | setData k r => obtain ⟨d, i, h5, h6, -⟩ := h3; exact absurd h6 (h4 d (List.mem_of_getElem? h5))
      | _ => exact h3.elim
    · rw [hr i r h1] at h2; cases h2

/-- a description built as in api.cpp l.154-165 (default constructor, then assignment of a complete one), afterwards copied
and given an invalid run time -/
def timedProgram : List Op :=
  [.newDesc, .newData .count, .addPart 0 (Bytes.full [0, 0, 0, 0, 0, 0, 0, 1]), .newDescWith 3 50 (some 0), .assign 0 1,
    .copy 0, .setTime 0 86400001]

def timedResult : Sys :=
  ⟨[⟨.count, ⟨[0, 0, 0, 0, 0, 0, 0, 1], 255⟩, 1⟩], [⟨some .count, some 0, some 86400001, false⟩,
    ⟨some .count, some 0, some 50, true⟩, ⟨some .count, some 0, some 50, true⟩]⟩

example : Timed.run timedProgram = .ok timedResult := by decide

/-- assigning in both directions -/
example : timedResult.descs[0]? = some ⟨some .count, some 0, some 86400001, false⟩ ∧
    timedResult.descs[1]? = some ⟨some .count, some 0, some 50, true⟩ ∧
    Timed.run (timedProgram ++ [.assign 0 1]) ≠ Timed.run timedProgram ∧
    Timed.run (timedProgram ++ [.assign 1 0]) = Timed.run timedProgram := by decide

/-- the program is quiet: its one change of a data object comes before any description refers to it -/
example : Along TimedQuietOp timedProgram := by
  intro pre op post s h1 h2
  unfold timedProgram at h1
  cases op with
  | genRandom i r => 
    have : Op.genRandom i r ∈ pre ++ Op.genRandom i r :: post := by simp
    rw [← h1] at this
    simp at this
  | addPart i b =>
    rcases pre with _ | ⟨a, _ | ⟨b', _ | ⟨c', pre⟩⟩⟩
    · cases h1
    · cases h1
    · cases h1
      cases h2
      intro d hd
      revert d
      decide
    · have : Op.addPart i b ∈ pre ++ Op.addPart i b :: post := by simp
      have h3 : pre ++ Op.addPart i b :: post = [.newDescWith 3 50 (some 0), .assign 0 1, .copy 0, .setTime 0 86400001] := by
        simp only [List.cons_append, List.cons.injEq] at h1
        exact h1.2.2.2.symm
      rw [h3] at this
      simp at this
  | _ => trivial

/-- and a program for the last statement -/
example : Op.newDesc ∉ timedProgram.tail ∧ ∀ i r, Op.genRandom i r ∈ timedProgram.tail → r.good = true := by
  constructor
  · simp [timedProgram]
  · intro i r h; simp [timedProgram] at h

end Verif.Props
