import Verif.Model.Settings

/-!
Property C39: the settings objects for creating a header.
-/
namespace Verif.Props

/-- largest allowed value of a setting; `top` is the largest iteration count or run time -/
def settingMax (top : Nat) : Setting → Nat
  | .fileMode => 1
  | .hashMode => 3
  | .ch1Mode => 5
  | .ch2Mode => 5
  | .num1 => top
  | .num2 => top

/-- the last value in range given for a setting -/
def lastGood (top : Nat) (k : Setting) (hist : List (Setting × Nat)) : Option Nat :=
  (hist.filter fun c => c.1 = k ∧ 1 ≤ c.2 ∧ c.2 ≤ settingMax top k).getLast?.map (·.2)

theorem lastGood_snoc (top : Nat) (k : Setting) (hist : List (Setting × Nat)) (c : Setting × Nat) :
    lastGood top k (hist ++ [c]) =
      if c.1 = k ∧ 1 ≤ c.2 ∧ c.2 ≤ settingMax top k then some c.2 else lastGood top k hist := by
  unfold lastGood
  rw [List.filter_append]
  by_cases h : c.1 = k ∧ 1 ≤ c.2 ∧ c.2 ≤ settingMax top k
  · simp [h]
  · rw [if_neg h]
    have : [c].filter (fun c => decide (c.1 = k ∧ 1 ≤ c.2 ∧ c.2 ≤ settingMax top k)) = [] := by
      rw [List.filter_eq_nil_iff]; simpa using h
    rw [this, List.append_nil]

theorem lastGood_isSome (top : Nat) (k : Setting) (hist : List (Setting × Nat)) :
    (lastGood top k hist).isSome = true ↔ ∃ n, (k, n) ∈ hist ∧ 1 ≤ n ∧ n ≤ settingMax top k := by
  unfold lastGood
  rw [Option.isSome_map, Option.isSome_iff_ne_none, ne_eq, List.getLast?_eq_none_iff, List.filter_eq_nil_iff]
  constructor
  · intro h
    apply Classical.byContradiction
    intro hn
    refine h fun c hc hd => hn ?_
    simp only [decide_eq_true_eq] at hd
    obtain ⟨f, v⟩ := c
    obtain ⟨rfl, hr⟩ := hd
    exact ⟨v, hc, hr⟩
  · rintro ⟨n, hn, hr⟩ h
    exact h _ hn (by simpa using hr)

/-! ### with iteration counts -/

theorem iters_set (s : SettingsIters) (f : Setting) (v : Nat) :
    (1 ≤ v ∧ v ≤ settingMax 1000000000 f → ∃ s', s.set f v = .ok s' ∧ s'.get f = .ok v ∧ ∀ k, k ≠ f → s'.get k = s.get k) ∧
    (¬ (1 ≤ v ∧ v ≤ settingMax 1000000000 f) → s.set f v = .exn .invalidArgument) := by
  constructor
  · intro h
    cases f
    · exact ⟨_, if_pos h, rfl, by intro k hk; cases k <;> first | rfl | exact absurd rfl hk⟩
    · exact ⟨_, if_pos h, rfl, by intro k hk; cases k <;> first | rfl | exact absurd rfl hk⟩
    · exact ⟨_, if_pos h, rfl, by intro k hk; cases k <;> first | rfl | exact absurd rfl hk⟩
    · exact ⟨_, if_pos h, rfl, by intro k hk; cases k <;> first | rfl | exact absurd rfl hk⟩
    · exact ⟨_, if_pos h, rfl, by intro k hk; cases k <;> first | rfl | exact absurd rfl hk⟩
    · exact ⟨_, if_pos h, rfl, by intro k hk; cases k <;> first | rfl | exact absurd rfl hk⟩
  · intro h
    cases f
    · exact if_neg h
    · exact if_neg h
    · exact if_neg h
    · exact if_neg h
    · exact if_neg h
    · exact if_neg h

/-- C39: over any history of setter calls, a setting reads back as the last value in range given for it; before any such
call reading it throws. (`lastGood` has the ranges: file mode 1, hash modes 1 to 3, chain-hash modes 1 to 5, iterations 1 to 10^9.) -/
theorem C39_iters_values (hist : List (Setting × Nat)) (k : Setting) :
    (SettingsIters.run hist).get k = match lastGood 1000000000 k hist with
      | some n => .ok n
      | none => .exn .runtimeError := by
  suffices h : ∀ n (hist : List (Setting × Nat)), hist.length = n → (SettingsIters.run hist).get k =
      match lastGood 1000000000 k hist with
      | some n => .ok n
      | none => .exn .runtimeError from h _ hist rfl
  intro n
  induction n with
  | zero =>
    intro hist hn
    rw [List.length_eq_zero_iff.mp hn]
    cases k <;> rfl
  | succ n ih =>
    intro hist hn
    obtain ⟨h0, c, rfl⟩ : ∃ h0 c, hist = h0 ++ [c] := ⟨hist.dropLast, hist.getLast (by intro h; simp [h] at hn),
      (List.dropLast_concat_getLast _).symm⟩
    have hh := ih h0 (by simpa using hn)
    rw [lastGood_snoc]
    unfold SettingsIters.run at hh ⊢
    rw [List.foldl_append]
    generalize List.foldl _ _ h0 = s at hh
    obtain ⟨f, v⟩ := c
    simp only [List.foldl_cons, List.foldl_nil]
    by_cases hr : 1 ≤ v ∧ v ≤ settingMax 1000000000 f
    · obtain ⟨s', h1, h2, h3⟩ := (iters_set s f v).1 hr
      rw [h1]
      by_cases hk : k = f
      · subst hk; rw [if_pos ⟨rfl, hr⟩]; exact h2
      · rw [if_neg (fun h => hk h.1.symm), ← hh]; exact h3 k hk
    · rw [(iters_set s f v).2 hr, if_neg (fun h => hr (by rw [h.1]; exact h.2))]
      exact hh

/-- C39: in every situation a call is accepted exactly for a value in range and throws otherwise. -/
theorem C39_iters_accepts (hist : List (Setting × Nat)) (k : Setting) (v : Nat) :
    ((∃ s', (SettingsIters.run hist).set k v = .ok s') ↔ 1 ≤ v ∧ v ≤ settingMax 1000000000 k) ∧
    (¬ (1 ≤ v ∧ v ≤ settingMax 1000000000 k) → (SettingsIters.run hist).set k v = .exn .invalidArgument) := by
  refine ⟨⟨?_, fun h => ?_⟩, (iters_set _ k v).2⟩
  · rintro ⟨s', h⟩
    apply Classical.byContradiction
    intro hn
    rw [(iters_set _ k v).2 hn] at h
    cases h
  · obtain ⟨s', h, -⟩ := (iters_set (SettingsIters.run hist) k v).1 h
    exact ⟨s', h⟩

theorem iters_isComplete (s : SettingsIters) : s.isComplete = true ↔ ∀ k, ∃ n, s.get k = .ok n := by
  have e : ∀ o : Option Nat, o.isSome = true ↔ ∃ n, DataHeaderParts.get o = .ok n := by
    intro o
    cases o with
    | none => simp [DataHeaderParts.get]
    | some n => simp [DataHeaderParts.get]
  unfold SettingsIters.isComplete
  simp only [Bool.and_eq_true, e]
  constructor
  · rintro ⟨⟨⟨⟨⟨h1, h2⟩, h3⟩, h4⟩, h5⟩, h6⟩ k
    cases k <;> assumption
  · intro h
    exact ⟨⟨⟨⟨⟨h .fileMode, h .hashMode⟩, h .ch1Mode⟩, h .num1⟩, h .ch2Mode⟩, h .num2⟩

/-- C39: after any history the object counts as complete exactly if every setting was given a value in range at least
once. -/
theorem C39_iters_complete (hist : List (Setting × Nat)) :
    (SettingsIters.run hist).isComplete = true ↔ ∀ k, ∃ n, (k, n) ∈ hist ∧ 1 ≤ n ∧ n ≤ settingMax 1000000000 k := by
  rw [iters_isComplete]
  refine forall_congr' fun k => ?_
  rw [C39_iters_values, ← lastGood_isSome]
  cases lastGood 1000000000 k hist <;> simp

example : (SettingsIters.run [(.fileMode, 1), (.fileMode, 2), (.hashMode, 3), (.hashMode, 4), (.ch1Mode, 5), (.ch2Mode, 2),
    (.num1, 7), (.num1, 1000000000), (.num1, 1000000000 + 1), (.num2, 0), (.num2, 9)]).get .num1 = .ok 1000000000 := by decide
example : (SettingsIters.run [(.fileMode, 1), (.fileMode, 2), (.hashMode, 3), (.hashMode, 4), (.ch1Mode, 5), (.ch2Mode, 2),
    (.num1, 7), (.num2, 0)]).isComplete = false := by decide
example : (SettingsIters.run [(.fileMode, 1), (.hashMode, 3), (.hashMode, 4), (.ch1Mode, 5), (.ch2Mode, 2),
    (.num1, 7), (.num2, 0), (.num2, 1)]).isComplete = true := by decide

/-! ### with run times -/

theorem time_set (s : SettingsTime) (f : Setting) (v : Nat) :
    (1 ≤ v ∧ v ≤ settingMax 86400000 f → ∃ s', s.set f v = .ok s' ∧ s'.get f = .ok v ∧ ∀ k, k ≠ f → s'.get k = s.get k) ∧
    (¬ (1 ≤ v ∧ v ≤ settingMax 86400000 f) → s.set f v = .exn .invalidArgument) := by
  constructor
  · intro h
    cases f
    · exact ⟨_, if_pos h, rfl, by intro k hk; cases k <;> first | rfl | exact absurd rfl hk⟩
    · exact ⟨_, if_pos h, rfl, by intro k hk; cases k <;> first | rfl | exact absurd rfl hk⟩
    · exact ⟨_, if_pos h, rfl, by intro k hk; cases k <;> first | rfl | exact absurd rfl hk⟩
    · exact ⟨_, if_pos h, rfl, by intro k hk; cases k <;> first | rfl | exact absurd rfl hk⟩
    · exact ⟨_, if_pos h, rfl, by intro k hk; cases k <;> first | rfl | exact absurd rfl hk⟩
    · exact ⟨_, if_pos h, rfl, by intro k hk; cases k <;> first | rfl | exact absurd rfl hk⟩
  · intro h
    cases f
    · exact if_neg h
    · exact if_neg h
    · exact if_neg h
    · exact if_neg h
    · exact if_neg h
    · exact if_neg h

/-- C39: over any history of setter calls, a setting reads back as the last value in range given for it; before any such
call reading it throws. (`lastGood` has the ranges: file mode 1, hash modes 1 to 3, chain-hash modes 1 to 5, run times 1 ms to one day.) -/
theorem C39_time_values (hist : List (Setting × Nat)) (k : Setting) :
    (SettingsTime.run hist).get k = match lastGood 86400000 k hist with
      | some n => .ok n
      | none => .exn .runtimeError := by
  suffices h : ∀ n (hist : List (Setting × Nat)), hist.length = n → (SettingsTime.run hist).get k =
      match lastGood 86400000 k hist with
      | some n => .ok n
      | none => .exn .runtimeError from h _ hist rfl
  intro n
  induction n with
  | zero =>
    intro hist hn
    rw [List.length_eq_zero_iff.mp hn]
    cases k <;> rfl
  | succ n ih =>
    intro hist hn
    obtain ⟨h0, c, rfl⟩ : ∃ h0 c, hist = h0 ++ [c] := ⟨hist.dropLast, hist.getLast (by intro h; simp [h] at hn),
      (List.dropLast_concat_getLast _).symm⟩
    have hh := ih h0 (by simpa using hn)
    rw [lastGood_snoc]
    unfold SettingsTime.run at hh ⊢
    rw [List.foldl_append]
    generalize List.foldl _ _ h0 = s at hh
    obtain ⟨f, v⟩ := c
    simp only [List.foldl_cons, List.foldl_nil]
    by_cases hr : 1 ≤ v ∧ v ≤ settingMax 86400000 f
    · obtain ⟨s', h1, h2, h3⟩ := (time_set s f v).1 hr
      rw [h1]
      by_cases hk : k = f
      · subst hk; rw [if_pos ⟨rfl, hr⟩]; exact h2
      · rw [if_neg (fun h => hk h.1.symm), ← hh]; exact h3 k hk
    · rw [(time_set s f v).2 hr, if_neg (fun h => hr (by rw [h.1]; exact h.2))]
      exact hh

/-- C39: in every situation a call is accepted exactly for a value in range and throws otherwise. -/
theorem C39_time_accepts (hist : List (Setting × Nat)) (k : Setting) (v : Nat) :
    ((∃ s', (SettingsTime.run hist).set k v = .ok s') ↔ 1 ≤ v ∧ v ≤ settingMax 86400000 k) ∧
    (¬ (1 ≤ v ∧ v ≤ settingMax 86400000 k) → (SettingsTime.run hist).set k v = .exn .invalidArgument) := by
  refine ⟨⟨?_, fun h => ?_⟩, (time_set _ k v).2⟩
  · rintro ⟨s', h⟩
    apply Classical.byContradiction
    intro hn
    rw [(time_set _ k v).2 hn] at h
    cases h
  · obtain ⟨s', h, -⟩ := (time_set (SettingsTime.run hist) k v).1 h
    exact ⟨s', h⟩

theorem time_isComplete (s : SettingsTime) : s.isComplete = true ↔ ∀ k, ∃ n, s.get k = .ok n := by
  have e : ∀ o : Option Nat, o.isSome = true ↔ ∃ n, DataHeaderParts.get o = .ok n := by
    intro o
    cases o with
    | none => simp [DataHeaderParts.get]
    | some n => simp [DataHeaderParts.get]
  unfold SettingsTime.isComplete
  simp only [Bool.and_eq_true, e]
  constructor
  · rintro ⟨⟨⟨⟨⟨h1, h2⟩, h3⟩, h4⟩, h5⟩, h6⟩ k
    cases k <;> assumption
  · intro h
    exact ⟨⟨⟨⟨⟨h .fileMode, h .hashMode⟩, h .ch1Mode⟩, h .num1⟩, h .ch2Mode⟩, h .num2⟩

/-- C39: after any history the object counts as complete exactly if every setting was given a value in range at least
once. -/
theorem C39_time_complete (hist : List (Setting × Nat)) :
    (SettingsTime.run hist).isComplete = true ↔ ∀ k, ∃ n, (k, n) ∈ hist ∧ 1 ≤ n ∧ n ≤ settingMax 86400000 k := by
  rw [time_isComplete]
  refine forall_congr' fun k => ?_
  rw [C39_time_values, ← lastGood_isSome]
  cases lastGood 86400000 k hist <;> simp

example : (SettingsTime.run [(.fileMode, 1), (.fileMode, 2), (.hashMode, 3), (.hashMode, 4), (.ch1Mode, 5), (.ch2Mode, 2),
    (.num1, 7), (.num1, 86400000), (.num1, 86400000 + 1), (.num2, 0), (.num2, 9)]).get .num1 = .ok 86400000 := by decide
example : (SettingsTime.run [(.fileMode, 1), (.fileMode, 2), (.hashMode, 3), (.hashMode, 4), (.ch1Mode, 5), (.ch2Mode, 2),
    (.num1, 7), (.num2, 0)]).isComplete = false := by decide
example : (SettingsTime.run [(.fileMode, 1), (.hashMode, 3), (.hashMode, 4), (.ch1Mode, 5), (.ch2Mode, 2),
    (.num1, 7), (.num2, 0), (.num2, 1)]).isComplete = true := by decide

end Verif.Props
