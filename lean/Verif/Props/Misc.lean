import Verif.Lemmas.Misc

/-!
Properties C58–C61: result objects, timer, random values.
-/
namespace Verif.Props
open Spec

/-! ### C58 -/

variable {α : Type}

/-- connection between a result object and its ledger -/
theorem ledger_inv (cr : Creation α) (cs : List (Access α)) :
    let e := Access.runAll cs cr.object
    let l := cr.ledger.after cs
    e.success = l.succ ∧ e.value.join = l.slot ∧ (e.moved = false → e.value ≠ some none) := by
  have h0 : cr.object.success = cr.ledger.succ ∧ cr.object.value.join = cr.ledger.slot ∧
      (cr.object.moved = false → cr.object.value ≠ some none) := by
    rcases cr with _ | a | ⟨s, _ | v⟩ <;>
      simp [Creation.object, Creation.ledger, ErrorStruct.default, ErrorStruct.createMove, ErrorStruct.make]
  have step : ∀ (e : ErrorStruct α) (l : Ledger α) (c : Access α),
      (e.success = l.succ ∧ e.value.join = l.slot ∧ (e.moved = false → e.value ≠ some none)) →
      ((c.run e).2.success = (l.next c).succ ∧ (c.run e).2.value.join = (l.next c).slot ∧
        ((c.run e).2.moved = false → (c.run e).2.value ≠ some none)) := by
    rintro ⟨mv, im, su, va⟩ ⟨ls, slot⟩ c ⟨h1, h2, h3⟩
    simp only at h1 h2 h3
    subst h1 h2
    cases c with
    | value => exact ⟨rfl, rfl, h3⟩
    | ref => exact ⟨rfl, rfl, h3⟩
    | set a => exact ⟨rfl, rfl, by simp [Access.run, ErrorStruct.setReturnValue]⟩
    | mark s => exact ⟨rfl, rfl, h3⟩
    | move =>
      by_cases hs : su = .SUCCESS
      · cases va with
        | none => simp [Access.run, ErrorStruct.returnMove, Ledger.next, hs]
        | some v => simp [Access.run, ErrorStruct.returnMove, Ledger.next, hs]
      · simpa [Access.run, ErrorStruct.returnMove, Ledger.next, hs] using h3
  show _ ∧ _ ∧ _
  generalize cr.object = e at *
  generalize cr.ledger = l at *
  clear cr
  induction cs generalizing e l with
  | nil => exact h0
  | cons c cs ih => exact ih _ _ (step e l c h0)

/-- C58 (what holds): over any history, reading a result (by value or by reference) hands out only the value that was
set last, and only if the operation succeeded and the value was not moved out. Moving out also requires success and
hands out what is there; but it hands out a moved-out object instead of refusing if the value is already gone
(`v = none`, see `C58_violated`). -/
theorem C58_access_partial (cr : Creation α) (cs : List (Access α)) (v : Option α) :
    let e := Access.runAll cs cr.object
    let l := cr.ledger.after cs
    (e.returnValue = .ok v → l.succ = .SUCCESS ∧ v = l.slot ∧ v.isSome) ∧
    (e.returnRef = .ok v → l.succ = .SUCCESS ∧ v = l.slot ∧ v.isSome) ∧
    (∀ e', e.returnMove = .ok (v, e') → l.succ = .SUCCESS ∧ v = l.slot) := by
  obtain ⟨h1, h2, h3⟩ := ledger_inv cr cs
  generalize hE : Access.runAll cs cr.object = e at *
  generalize hL : cr.ledger.after cs = l at *
  obtain ⟨mv, im, su, va⟩ := e
  obtain ⟨ls, slot⟩ := l
  simp only at h1 h2 h3 ⊢
  subst h1 h2
  refine ⟨?_, ?_, ?_⟩
  · intro h
    simp only [ErrorStruct.returnValue] at h
    split at h
    · cases h
    · split at h
      · cases h
      · split at h
        · cases h
        · rename_i hm _ hs
          rcases va with _ | v'
          · cases h
          · injection h with h; subst h
            refine ⟨by simpa using hs, rfl, ?_⟩
            rcases v' with _ | a
            · exact absurd rfl (h3 (by simpa using hm))
            · rfl
  · intro h
    simp only [ErrorStruct.returnRef] at h
    split at h
    · cases h
    · split at h
      · cases h
      · rename_i hm hs
        rcases va with _ | v'
        · cases h
        · injection h with h; subst h
          refine ⟨by simpa using hs, rfl, ?_⟩
          rcases v' with _ | a
          · exact absurd rfl (h3 (by simpa using hm))
          · rfl
  · intro e' h
    simp only [ErrorStruct.returnMove] at h
    split at h
    · cases h
    · rename_i hs
      rcases va with _ | v'
      · cases h
      · injection h with h
        injection h with h _
        subst h
        exact ⟨by simpa using hs, rfl⟩

/-- C58: a value that is there can be moved out, after which no reading access hands out anything until the object is
thrown away (not even if a new value is stored). -/
theorem C58_move_once (cr : Creation α) (cs rest : List (Access α)) (a : α)
    (hs : (cr.ledger.after cs).succ = .SUCCESS) (ha : (cr.ledger.after cs).slot = some a) :
    ∃ e', (Access.runAll cs cr.object).returnMove = .ok (some a, e') ∧
      (Access.runAll rest e').returnValue = .exn .logicError ∧ (Access.runAll rest e').returnRef = .exn .logicError := by
  obtain ⟨h1, h2, h3⟩ := ledger_inv cr cs
  rw [ha] at h2; rw [hs] at h1
  generalize Access.runAll cs cr.object = e at *
  obtain ⟨mv, im, su, va⟩ := e
  simp only at h1 h2 h3
  subst h1
  have hva : va = some (some a) := by cases va with | none => cases h2 | some v => exact congrArg some h2
  subst hva
  have keep : ∀ (rest : List (Access α)) (e : ErrorStruct α), e.moved = true → (Access.runAll rest e).moved = true := by
    intro rest
    induction rest with
    | nil => exact fun e h => h
    | cons c rest ih =>
      intro e h
      refine ih _ ?_
      cases c with
      | move =>
        simp only [Access.run]
        rcases hm : e.returnMove with ⟨v, e'⟩ | x | x
        · simp only [ErrorStruct.returnMove] at hm
          split at hm
          · cases hm
          · split at hm
            · cases hm
            · injection hm with hm; injection hm with _ hm; subst hm; rfl
        · exact h
        · exact h
      | _ => exact h
  refine ⟨_, rfl, ?_, ?_⟩
  · simp only [ErrorStruct.returnValue]
    rw [if_pos (keep rest _ rfl)]
  · simp only [ErrorStruct.returnRef]
    rw [if_pos (keep rest _ rfl)]

/-- C58: a value that was moved into a result is never copied out of it, whatever happens to the object afterwards. -/
theorem C58_never_copied (a : α) (cs : List (Access α)) :
    (Access.runAll cs (Creation.moveIn a).object).returnValue = .exn .logicError := by
  have keep : ∀ (cs : List (Access α)) (e : ErrorStruct α), e.inputMoved = true →
      (Access.runAll cs e).inputMoved = true := by
    intro cs
    induction cs with
    | nil => exact fun e h => h
    | cons c cs ih =>
      intro e h
      refine ih _ ?_
      cases c with
      | move =>
        simp only [Access.run]
        rcases hm : e.returnMove with ⟨v, e'⟩ | x | x
        · simp only [ErrorStruct.returnMove] at hm
          split at hm
          · cases hm
          · split at hm
            · cases hm
            · injection hm with hm; injection hm with _ hm; subst hm; exact h
        · exact h
        · exact h
      | _ => exact h
  have h := keep cs (Creation.moveIn a).object rfl
  simp only [ErrorStruct.returnValue]
  rw [if_pos h]
  exact ite_self _

/-- C58: a value that is there can be read as long as nothing was moved out: by reference always, by value unless the
result was created by moving a value in. -/
theorem C58_readable (cr : Creation α) (cs : List (Access α)) (a : α) (hm : Access.move ∉ cs)
    (hs : (cr.ledger.after cs).succ = .SUCCESS) (ha : (cr.ledger.after cs).slot = some a) :
    (Access.runAll cs cr.object).returnRef = .ok (some a) ∧
    ((∀ b, cr ≠ .moveIn b) → (Access.runAll cs cr.object).returnValue = .ok (some a)) := by
  obtain ⟨h1, h2, -⟩ := ledger_inv cr cs
  rw [ha] at h2; rw [hs] at h1
  have keep : ∀ (cs : List (Access α)) (e : ErrorStruct α), Access.move ∉ cs →
      (Access.runAll cs e).moved = e.moved ∧ (Access.runAll cs e).inputMoved = e.inputMoved := by
    intro cs
    induction cs with
    | nil => exact fun e _ => ⟨rfl, rfl⟩
    | cons c cs ih =>
      intro e h
      rw [List.mem_cons, not_or] at h
      obtain ⟨k1, k2⟩ := ih (c.run e).2 h.2
      have h0 : (c.run e).2.moved = e.moved ∧ (c.run e).2.inputMoved = e.inputMoved := by
        cases c with
        | move => exact absurd rfl h.1
        | _ => exact ⟨rfl, rfl⟩
      exact ⟨k1.trans h0.1, k2.trans h0.2⟩
  obtain ⟨k1, k2⟩ := keep cs cr.object hm
  have hmv : cr.object.moved = false := by cases cr <;> rfl
  have him : (∀ b, cr ≠ .moveIn b) → cr.object.inputMoved = false := by
    intro h
    cases cr with
    | moveIn b => exact absurd rfl (h b)
    | _ => rfl
  rw [hmv] at k1
  generalize Access.runAll cs cr.object = e at *
  obtain ⟨mv, im, su, va⟩ := e
  simp only at h1 h2 k1 k2
  subst h1 k1
  have hva : va = some (some a) := by cases va with | none => cases h2 | some v => exact congrArg some h2
  subst hva
  refine ⟨rfl, fun h => ?_⟩
  rw [him h] at k2
  subst k2
  rfl

/-- a value moved in, a new one stored: read by reference, not by value -/
example : Access.move ∉ ([.mark .FAIL, .set 7, .ref, .mark .SUCCESS] : List (Access Nat)) ∧
    ((Creation.moveIn 5).ledger.after [.mark .FAIL, .set 7, .ref, .mark .SUCCESS]).succ = .SUCCESS ∧
    ((Creation.moveIn 5).ledger.after [.mark .FAIL, .set 7, .ref, .mark .SUCCESS]).slot = some 7 ∧
    (Access.runAll [.mark .FAIL, .set 7, .ref, .mark .SUCCESS] (Creation.moveIn 5).object).returnRef = .ok (some 7) ∧
    (Access.runAll [.mark .FAIL, .set 7, .ref, .mark .SUCCESS] (Creation.moveIn 5).object).returnValue
      = .exn .logicError := by
  refine ⟨by simp, ?_⟩
  decide

/-- C58 is violated: a second `returnMove` hands out the moved-out object. -/
theorem C58_violated (a : α) : ∃ e' e'', (Creation.moveIn a).object.returnMove = .ok (some a, e') ∧
    e'.returnMove = .ok (none, e'') := ⟨_, _, rfl, rfl⟩

/-- a history meeting the hypotheses: create, mark failed, mark successful, store another value -/
example : ((Creation.plain .SUCCESS (some 5)).ledger.after [.mark .FAIL, .value, .mark .SUCCESS, .set 7]).succ = .SUCCESS ∧
    ((Creation.plain .SUCCESS (some 5)).ledger.after [.mark .FAIL, .value, .mark .SUCCESS, .set 7]).slot = some 7 ∧
    (Access.runAll [.mark .FAIL, .value, .mark .SUCCESS, .set 7] (Creation.plain .SUCCESS (some 5)).object).returnValue
      = .ok (some 7) := by decide

/-! ### C59 -/

/-- what a call returns, according to the ideal stop watch; a call that is not allowed throws -/
def expected (a : Option (Option Nat)) : Res (Option Nat) :=
  match a with
  | some x => .ok x
  | none => .exn .logicError

/-- facts about a stopped timer -/
theorem stopped_facts {t : Timer} {m t0 : Nat} {ms : List Nat} (h : Shows t m (.stopped t0 ms)) (hm : m < 2 ^ 63)
    (hlen : ms.length < 2 ^ 64) :
    t.laps.length = ms.length ∧ t.laps.isEmpty = false ∧ (t.laps.foldl (· + ·) 0).toNat = (lapTimes t0 ms).sum ∧
      (UInt64.ofNat t.laps.length).toNat = ms.length := by
  obtain ⟨h1, h2, h3, h4, h5, h6⟩ := h
  have hl : t.laps.length = ms.length := by
    have := congrArg List.length h4
    rwa [List.length_map, length_lapTimes] at this
  have hsum := lapTimes_sum_le h5
  refine ⟨hl, ?_, ?_, ?_⟩
  · cases hx : t.laps with
    | nil => rw [hx] at hl; exact absurd (List.length_eq_zero_iff.mp hl.symm) h3
    | cons _ _ => rfl
  · rw [foldl_add _ _ (by rw [h4]; simp; omega), h4]; simp
  · rw [UInt64.toNat_ofNat', hl]; exact Nat.mod_eq_of_lt hlen

/-- C59: after any history of calls with a clock that does not go back, every call except the total time answers
exactly as an ideal stop watch: not allowed calls throw, the others return lap time, number of laps, slowest lap,
average. -/
theorem C59_protocol (cs : List TimerCall) (c : TimerCall) (hc : c ≠ .time) (hclk : ClockFrom 0 (cs ++ [c]))
    (hlen : cs.length < 2 ^ 64) :
    (c.run (TimerCall.runAll cs Timer.new).2).1 = expected ((Watch.after cs).answer c) := by
  have h0 : Shows Timer.new 0 .idle := ⟨rfl, rfl⟩
  obtain ⟨m, h, hm, hmb⟩ := h0.run cs [c] hclk (by decide)
  have hmk := marks_le .idle cs 0 trivial
  have e : Watch.after cs = cs.foldl Watch.next .idle := rfl
  rw [← e] at h hmk
  generalize Watch.after cs = w at *
  generalize (TimerCall.runAll cs Timer.new).2 = t at *
  cases w with
  | idle =>
    obtain ⟨h1, h2⟩ := h
    cases c <;> first | exact absurd rfl hc | simp [TimerCall.run, Timer.start, Timer.stop, Timer.recordTime, Timer.peekTime,
      Timer.getAverageTime, Timer.getSlowest, Timer.getLaps, Timer.requireStarted, Timer.requireStopped,
      Timer.requireNotStarted, Timer.requireNotStopped, h1, h2, Watch.answer, expected, Functor.map, Res.bind]
  | running t0 ms =>
    obtain ⟨h1, h2, h3, h4, h5, h6⟩ := h
    cases c with
    | time => exact absurd rfl hc
    | record now =>
      simp only [ClockFrom, reading] at hm
      have he := elapsed_eq t now (by omega) hm.2.1
      simp [TimerCall.run, Timer.recordTime, Timer.requireStarted, Timer.requireNotStopped, h1, h2, Watch.answer, expected,
        he, h3]
    | peek now =>
      simp only [ClockFrom, reading] at hm
      have he := elapsed_eq t now (by omega) hm.2.1
      simp [TimerCall.run, Timer.peekTime, Timer.requireStarted, Timer.requireNotStopped, h1, h2, Watch.answer, expected,
        he, h3]
    | _ => simp [TimerCall.run, Timer.start, Timer.stop, Timer.recordTime,
      Timer.getAverageTime, Timer.getSlowest, Timer.getLaps, Timer.requireStarted, Timer.requireStopped,
      Timer.requireNotStarted, Timer.requireNotStopped, h1, h2, Watch.answer, expected, Functor.map, Res.bind]
  | stopped t0 ms =>
    obtain ⟨hl, hne, hs, hn⟩ := stopped_facts h hmb (by simp at hmk; omega)
    obtain ⟨h1, h2, h3, h4, h5, h6⟩ := h
    cases c with
    | time => exact absurd rfl hc
    | average =>
      simp only [TimerCall.run, Timer.getAverageTime, Timer.requireStopped, h2, hne, Watch.answer, expected]
      simp [UInt64.toNat_div, hs, hn]
    | slowest =>
      simp only [TimerCall.run, Timer.getSlowest, Timer.requireStopped, h2, hne, Watch.answer, expected]
      simp [foldl_max, h4]
    | laps =>
      simp [TimerCall.run, Timer.getLaps, Timer.requireStopped, h2, Watch.answer, expected, hl]
    | _ => simp [TimerCall.run, Timer.start, Timer.stop, Timer.recordTime, Timer.peekTime, Timer.requireStarted,
      Timer.requireNotStarted, Timer.requireNotStopped, h1, h2, Watch.answer, expected, Functor.map, Res.bind]

theorem runAll_get (i : Nat) : ∀ (cs : List TimerCall) (t : Timer), (TimerCall.runAll cs t).1[i]? =
    cs[i]?.map fun c => (c.run (TimerCall.runAll (cs.take i) t).2).1 := by
  induction i with
  | zero => intro cs t; cases cs <;> rfl
  | succ i ih =>
    intro cs t
    cases cs with
    | nil => rfl
    | cons c cs => exact ih cs (c.run t).2

theorem clockFrom_take (i : Nat) : ∀ (cs : List TimerCall) (m : Nat), ClockFrom m cs → ClockFrom m (cs.take i) := by
  induction i with
  | zero => exact fun _ _ _ => trivial
  | succ i ih =>
    intro cs m h
    cases cs with
    | nil => trivial
    | cons c cs =>
      rw [List.take_succ_cons]
      unfold ClockFrom at h ⊢
      split
      · rename_i t ht
        rw [ht] at h
        exact ⟨h.1, h.2.1, ih _ _ h.2.2⟩
      · rename_i ht
        rw [ht] at h
        exact ih _ _ h

/-- C59: so are the answers of a whole history, in the order of the calls. -/
theorem C59_answers (cs : List TimerCall) (hclk : ClockFrom 0 cs) (hlen : cs.length < 2 ^ 64) (i : Nat) (c : TimerCall)
    (hi : cs[i]? = some c) (hc : c ≠ .time) :
    (TimerCall.runAll cs Timer.new).1[i]? = some (expected ((Watch.after (cs.take i)).answer c)) := by
  obtain ⟨hlt, hg⟩ := List.getElem?_eq_some_iff.mp hi
  have h1 : cs.take (i + 1) = cs.take i ++ [c] := by rw [List.take_add_one, hi]; rfl
  rw [runAll_get, hi, Option.map_some,
    C59_protocol (cs.take i) c hc (h1 ▸ clockFrom_take (i + 1) cs 0 hclk) (by rw [List.length_take]; omega)]

example : let cs := [TimerCall.start 5000000, .record 12000000, .laps, .stop 20000000, .laps]
    ClockFrom 0 cs ∧ cs[4]? = some .laps ∧
    (TimerCall.runAll cs Timer.new).1 = [.ok none, .ok (some 7), .exn .logicError, .ok none, .ok (some 2)] := by
  refine ⟨by simp [ClockFrom, reading], rfl, by decide⟩

/-- C59: a refused call leaves the timer unchanged. -/
theorem C59_refused (t : Timer) (c : TimerCall) (e : Exn) (h : (c.run t).1 = .exn e) : (c.run t).2 = t := by
  cases hs : t.started <;> cases hp : t.stopped <;> cases c <;>
    simp_all [TimerCall.run, Timer.start, Timer.stop, Timer.recordTime, Timer.requireStarted,
      Timer.requireNotStarted, Timer.requireNotStopped]

/-- C59 (what holds for the total time): it is reported only after stopping; it is never more than the whole
milliseconds between start and stop and less than two milliseconds per lap below it; with a single lap it is exact. -/
theorem C59_total_partial (cs : List TimerCall) (hclk : ClockFrom 0 cs) (hlen : cs.length < 2 ^ 64) :
    match (TimerCall.time.run (TimerCall.runAll cs Timer.new).2).1, Watch.after cs with
    | .ok (some v), .stopped t0 marks =>
      let total := (lastMark t0 marks - t0) / 1000000
      v ≤ total ∧ total < v + 2 * marks.length ∧ (marks.length = 1 → v = total)
    | .exn .logicError, .stopped _ _ => False
    | .exn .logicError, _ => True
    | _, _ => False := by
  have h0 : Shows Timer.new 0 .idle := ⟨rfl, rfl⟩
  obtain ⟨m, h, hm, hmb⟩ := h0.run cs [] (by simpa using hclk) (by decide)
  have hmk := marks_le .idle cs 0 trivial
  have e : Watch.after cs = cs.foldl Watch.next .idle := rfl
  rw [← e] at h hmk
  generalize Watch.after cs = w at *
  generalize (TimerCall.runAll cs Timer.new).2 = t at *
  cases w with
  | idle => simp [TimerCall.run, Timer.getTime, Timer.requireStopped, h.2, Functor.map, Res.bind]
  | running t0 ms => simp [TimerCall.run, Timer.getTime, Timer.requireStopped, h.2.1, Functor.map, Res.bind]
  | stopped t0 ms =>
    obtain ⟨hl, hne, hs, hn⟩ := stopped_facts h hmb (by simp at hmk; omega)
    obtain ⟨h1, h2, h3, h4, h5, h6⟩ := h
    have hle := lapTimes_sum_le h5
    have hgt := lapTimes_sum_gt h5 h3
    have hpos : 0 < ms.length := List.length_pos_iff.mpr h3
    have hv : (t.laps.foldl (· + ·) 0 / UInt64.ofNat t.laps.length * UInt64.ofNat t.laps.length).toNat =
        (lapTimes t0 ms).sum / ms.length * ms.length := by
      rw [UInt64.toNat_mul, UInt64.toNat_div, hs, hn]
      have := Nat.div_mul_le_self (lapTimes t0 ms).sum ms.length
      exact Nat.mod_eq_of_lt (by omega)
    simp only [TimerCall.run, Timer.getTime, Timer.getAverageTime, Timer.requireStopped, h2, hne]
    simp only [Bool.not_true, Bool.false_eq_true, if_false, Res.bind_ok, Res.pure_eq, Res.map_ok, hv]
    have d1 := Nat.div_mul_le_self (lapTimes t0 ms).sum ms.length
    have d2 := Nat.mod_lt (lapTimes t0 ms).sum hpos
    have d3 := Nat.div_add_mod (lapTimes t0 ms).sum ms.length
    rw [Nat.mul_comm] at d3
    generalize (lapTimes t0 ms).sum / ms.length * ms.length = v at *
    have f1 : (lapTimes t0 ms).sum ≤ (lastMark t0 ms - t0) / 1000000 :=
      (Nat.le_div_iff_mul_le (by decide)).mpr hle
    have f2 : (lastMark t0 ms - t0) / 1000000 < (lapTimes t0 ms).sum + ms.length :=
      Nat.div_lt_of_lt_mul (by rw [Nat.mul_comm]; exact hgt)
    exact ⟨by omega, by omega, fun h1 => by omega⟩

/-- C59 is violated for the total time: laps of 1 ms and 2 ms are reported as 2 ms in total. -/
theorem C59_violated : ∃ cs : List TimerCall, ClockFrom 0 cs ∧ Watch.after cs = .stopped 5000000 [6000000, 8000000] ∧
    (Watch.after cs).answer .time = some (some 3) ∧
    (TimerCall.time.run (TimerCall.runAll cs Timer.new).2).1 = .ok (some 2) :=
  ⟨[.start 5000000, .record 6000000, .stop 8000000], by simp [ClockFrom, reading], rfl, rfl, by decide⟩

/-- a history with refused calls and a restart -/
example :
    let cs : List TimerCall := [.laps, .start 1000000, .start 1500000, .record 4000000, .peek 4100000, .stop 9500000, .stop 9600000,
      .start 10000000, .stop 12900000]
    ClockFrom 0 (cs ++ [.slowest]) ∧ Watch.after cs = .stopped 10000000 [12900000] ∧
    (TimerCall.runAll (cs ++ [.slowest, .time]) Timer.new).1 =
      [.exn .logicError, .ok none, .exn .logicError, .ok (some 3), .ok (some 0), .ok none, .exn .logicError,
        .ok none, .ok none, .ok (some 2), .ok (some 2)] := by
  refine ⟨by simp [ClockFrom, reading], rfl, by decide⟩

/-! ### C60 -/

/-- C60 (what holds): for every pair of bounds and every usable buffer size a working generator yields a byte between
the bounds; every byte from the lower bound up to, but without, the upper bound can occur (also the bound itself if
they are equal). Missing: the upper bound, see `C60_violated`. -/
theorem C60_range_partial (lower upper : Byte) (h : lower ≤ upper) (n : Nat) (h1 : 1 ≤ n) (h8 : n ≤ 8) :
    (∀ r : Rand, r.good = true → ∃ v, Rng.getRandomByte lower upper n r = .ok v ∧ lower ≤ v ∧ v ≤ upper) ∧
    (∀ v, lower ≤ v → (v < upper ∨ v = upper ∧ lower = upper) →
      ∃ r : Rand, r.good = true ∧ Rng.getRandomByte lower upper n r = .ok v) := by
  have hn : ¬ (n < 1 ∨ n > 8) := by omega
  by_cases he : upper = lower
  · subst he
    refine ⟨fun r hr => ⟨upper, ?_, h, h⟩, fun v hv hv' => ⟨⟨true, fun _ => 0⟩, rfl, ?_⟩⟩
    · simp [Rng.getRandomByte]; omega
    · have : v = upper := by
        rcases hv' with hlt | ⟨hv', -⟩
        · exact absurd hlt (by simpa [UInt8.not_lt] using hv)
        · exact hv'
      simp [Rng.getRandomByte, this]; omega
  · have hlt : lower.toNat < upper.toNat := by
      have : lower.toNat ≤ upper.toNat := h
      have : lower.toNat ≠ upper.toNat := fun hh => he (UInt8.toNat_inj.mp hh.symm)
      omega
    have hnle : ¬ upper ≤ lower := by
      intro hh; have : upper.toNat ≤ lower.toNat := hh; omega
    have hu := upper.toNat_lt
    have hd : (UInt64.ofNat (upper.toNat - lower.toNat)).toNat = upper.toNat - lower.toNat := by
      rw [UInt64.toNat_ofNat']; exact Nat.mod_eq_of_lt (by omega)
    have hl : (UInt64.ofNat lower.toNat).toNat = lower.toNat := by
      rw [UInt64.toNat_ofNat']; exact Nat.mod_eq_of_lt (by omega)
    have key : ∀ r : Rand, r.good = true → ∃ v, Rng.getRandomByte lower upper n r = .ok v ∧
        v.toNat = beValue (r.take n) % (upper.toNat - lower.toNat) + lower.toNat := by
      intro r hr
      refine ⟨(UInt64.ofNat (beValue (r.take n)) % (UInt64.ofNat (upper.toNat - lower.toNat)) + UInt64.ofNat lower.toNat).toUInt8, ?_, ?_⟩
      · simp only [Rng.getRandomByte]
        rw [if_neg hn, if_neg hnle, if_pos hr, toLong_eq _ (by simpa using h8)]
        rfl
      · have hb : beValue (r.take n) < 2 ^ 64 := by
          refine Nat.lt_of_lt_of_le (beValue_lt _) ?_
          rw [Rand.length_take]
          exact Nat.le_trans (Nat.pow_le_pow_right (by omega) h8) (by decide)
        have hm := Nat.mod_lt (beValue (r.take n)) (show 0 < upper.toNat - lower.toNat by omega)
        rw [UInt64.toNat_toUInt8, UInt64.toNat_add, UInt64.toNat_mod, hd, hl, UInt64.toNat_ofNat', Nat.mod_eq_of_lt hb]
        rw [Nat.mod_eq_of_lt (a := _ + _) (by omega)]
        exact Nat.mod_eq_of_lt (by omega)
    refine ⟨fun r hr => ?_, fun v hv hv' => ?_⟩
    · obtain ⟨v, e, ev⟩ := key r hr
      have hm := Nat.mod_lt (beValue (r.take n)) (show 0 < upper.toNat - lower.toNat by omega)
      exact ⟨v, e, show lower.toNat ≤ v.toNat by omega, show v.toNat ≤ upper.toNat by omega⟩
    · have hv1 : lower.toNat ≤ v.toNat := hv
      have hv2 : v.toNat < upper.toNat := by
        rcases hv' with hh | ⟨-, hh⟩
        · exact hh
        · exact absurd hh.symm he
      let r : Rand := ⟨true, fun i => if i = n - 1 then UInt8.ofNat (v.toNat - lower.toNat) else 0⟩
      obtain ⟨w, e, ew⟩ := key r rfl
      refine ⟨r, rfl, ?_⟩
      rw [e]
      congr 1
      apply UInt8.toNat_inj.mp
      have hval : beValue (r.take n) = v.toNat - lower.toNat := by
        have hx : (UInt8.ofNat (v.toNat - lower.toNat)).toNat = v.toNat - lower.toNat := by
          rw [UInt8.toNat_ofNat']; exact Nat.mod_eq_of_lt (by omega)
        have : n = 1 ∨ n = 2 ∨ n = 3 ∨ n = 4 ∨ n = 5 ∨ n = 6 ∨ n = 7 ∨ n = 8 := by omega
        rcases this with rfl | rfl | rfl | rfl | rfl | rfl | rfl | rfl <;>
          simp [r, Rand.take, List.range_succ, beValue, hx]
      rw [ew, hval, Nat.mod_eq_of_lt (by omega)]
      omega

/-- C60 is violated: unless the bounds are equal the upper bound never occurs, whatever the generator delivers. -/
theorem C60_violated (lower upper : Byte) (h : lower < upper) (n : Nat) (r : Rand) :
    Rng.getRandomByte lower upper n r ≠ .ok upper := by
  have hlt : lower.toNat < upper.toNat := h
  have hu := upper.toNat_lt
  have hnle : ¬ upper ≤ lower := by intro hh; have : upper.toNat ≤ lower.toNat := hh; omega
  simp only [Rng.getRandomByte]
  split
  · simp
  · rename_i hn
    split
    · rw [toLong_eq _ (by simp; omega)]
      simp only [Res.bind_ok, Res.pure_eq, ne_eq, Res.ok.injEq]
      intro hh
      have hd : (UInt64.ofNat (upper.toNat - lower.toNat)).toNat = upper.toNat - lower.toNat := by
        rw [UInt64.toNat_ofNat']; exact Nat.mod_eq_of_lt (by omega)
      have hl : (UInt64.ofNat lower.toNat).toNat = lower.toNat := by
        rw [UInt64.toNat_ofNat']; exact Nat.mod_eq_of_lt (by omega)
      have hh := congrArg UInt8.toNat hh
      rw [UInt64.toNat_toUInt8, UInt64.toNat_add, UInt64.toNat_mod, hd, hl] at hh
      generalize (UInt64.ofNat (beValue (r.take n))).toNat = x at hh
      have hm := Nat.mod_lt x (show 0 < upper.toNat - lower.toNat by omega)
      rw [Nat.mod_eq_of_lt (a := _ + _) (by omega), Nat.mod_eq_of_lt (by omega)] at hh
      omega
    · simp

/-- C60: everything else is refused: wrong buffer sizes, swapped bounds, a failing generator (unless nothing random is
needed). -/
theorem C60_refused (lower upper : Byte) (n : Nat) (r : Rand)
    (h : n = 0 ∨ 8 < n ∨ upper < lower ∨ (r.good = false ∧ upper ≠ lower)) :
    ∃ e, Rng.getRandomByte lower upper n r = .exn e := by
  simp only [Rng.getRandomByte]
  split
  · exact ⟨_, rfl⟩
  · split
    · rename_i hn hle
      split
      · rename_i heq
        rcases h with h | h | h | h
        · omega
        · omega
        · subst heq; exact absurd h (by simp)
        · exact absurd heq h.2
      · exact ⟨_, rfl⟩
    · rename_i hn hle
      split
      · rename_i hg
        rcases h with h | h | h | h
        · omega
        · omega
        · exact absurd (UInt8.le_of_lt h) hle
        · rw [h.1] at hg; cases hg
      · exact ⟨_, rfl⟩

example : Rng.getRandomByte 10 20 2 ⟨true, fun i => if i = 0 then 1 else 7⟩ = .ok 13 := by decide +kernel

/-! ### C61 -/

/-- C61: a random string is exactly the first `n` letters among the delivered bytes; it is returned as soon as that
many letters have been delivered, and only if the generator never failed before. -/
theorem C61_exact (n : Nat) (h1 : 1 ≤ n) (hn : n < 2 ^ 31) (src : Nat → Rand) (fuel : Nat) (s : List Byte) :
    Rng.getRandomString n src fuel = .ok s ↔
      ∃ k, k ≤ fuel ∧ (∀ j, j < k → (src j).good = true) ∧
        let delivered := (List.range k).flatMap fun j => ((src j).take n).filter isLetter
        n ≤ delivered.length ∧ s = delivered.take n := by
  rw [Rng.getRandomString, if_neg (by omega), stringLoop_ok n src hn fuel 0 [] s (by simp; omega)]
  simp only [letters, Nat.zero_add, List.nil_append]

/-- C61: a returned string has the requested length and consists of ASCII letters, for every request size (also sizes
OpenSSL refuses). -/
theorem C61_length_letters (n : Nat) (src : Nat → Rand) (fuel : Nat) (s : List Byte)
    (h : Rng.getRandomString n src fuel = .ok s) : 1 ≤ n ∧ s.length = n ∧ ∀ b ∈ s, isLetter b = true := by
  have h1 : 1 ≤ n := by
    rw [Rng.getRandomString] at h
    split at h
    · cases h
    · omega
  have hn : n < 2 ^ 31 := by
    rw [Rng.getRandomString, if_neg (by omega)] at h
    cases fuel with
    | zero => cases h
    | succ fuel =>
      simp only [Rng.stringLoop] at h
      split at h
      · cases h
      · rename_i hh; omega
  obtain ⟨k, -, -, h3, rfl⟩ := (C61_exact n h1 hn src fuel s).mp h
  refine ⟨h1, by rw [List.length_take]; exact Nat.min_eq_left h3, fun b hb => ?_⟩
  have := List.mem_of_mem_take hb
  simp only [List.mem_flatMap, List.mem_filter] at this
  obtain ⟨_, _, _, h⟩ := this
  exact h

/-- C61: a request for no characters is refused. -/
theorem C61_zero (src : Nat → Rand) (fuel : Nat) : Rng.getRandomString 0 src fuel = .exn .logicError := rfl

/-- two requests are needed here: the first delivers one letter only -/
example : Rng.getRandomString 2 (fun i => ⟨true, fun j => if i = 0 then 64 + UInt8.ofNat j else 120⟩) 5 = .ok (ascii "Ax") := by
  decide +kernel

/-! ### C64, filling a container -/

/-- C64: filling a container with random bytes works exactly when the request fits the container, the generator delivers and
the count is one OpenSSL accepts; then the container holds exactly the delivered bytes and nothing of what it held before. -/
theorem C64_fill_container (b b' : Bytes) (n : Nat) (r : Rand) :
    Rng.fillBytes b n r = .ok b' ↔
      n ≤ b.cap ∧ r.good = true ∧ n < 2 ^ 31 ∧ b'.cap = b.cap ∧ b'.data = (List.range n).map r.byte := by
  obtain ⟨d, c⟩ := b'
  have ht : r.take n = (List.range n).map r.byte := rfl
  unfold Rng.fillBytes
  split
  · constructor
    · intro h; cases h
    · rintro ⟨h, -⟩; omega
  · split
    · rename_i h2
      constructor
      · intro h; cases h
      · rintro ⟨-, hg, hn, -⟩
        rcases h2 with h2 | h2
        · rw [hg] at h2; cases h2
        · omega
    · rename_i h1 h2
      simp only [not_or, Bool.not_eq_false] at h2
      constructor
      · intro h; cases h
        exact ⟨by omega, h2.1, by omega, rfl, ht⟩
      · rintro ⟨-, -, -, hc, hd⟩
        simp only at hc hd
        rw [hc, hd, ht]

/-- an old content of four bytes is replaced by the three requested ones -/
example : Rng.fillBytes ⟨[9, 9, 9, 9], 5⟩ 3 ⟨true, fun i => UInt8.ofNat (i + 1)⟩ = .ok ⟨[1, 2, 3], 5⟩ ∧
    Rng.fillBytes ⟨[], 2⟩ 3 ⟨true, fun _ => 0⟩ = .exn .logicError := by decide

end Verif.Props
