import Verif.Model.Shared
import Verif.Lemmas.ChainHash

namespace Verif.Shared

/-- what a valid description is -/
def Should (s : Sys) (d : Desc) : Prop :=
  ∃ m i o, d.mode = some m ∧ d.ref = some i ∧ s.store[i]? = some o ∧ o.mode = m ∧ o.isComplete = true ∧
    1 ≤ d.iters.toNat ∧ d.iters.toNat ≤ 1000000000

/-- data objects are not changed while a description refers to them -/
def QuietOp (s : Sys) : Op → Prop
  | .addPart i _ => ∀ d ∈ s.descs, d.ref ≠ some i
  | .genRandom i _ => ∀ d ∈ s.descs, d.ref ≠ some i
  | _ => True

instance (s : Sys) (op : Op) : Decidable (QuietOp s op) := by
  cases op <;> simp only [QuietOp] <;> infer_instance

def QuietFrom (s : Sys) : List Op → Prop
  | [] => True
  | op :: ops => QuietOp s op ∧ QuietFrom (s.step op) ops

instance decQuietFrom (s : Sys) : (ops : List Op) → Decidable (QuietFrom s ops)
  | [] => isTrue trivial
  | op :: ops =>
    have := decQuietFrom (s.step op) ops
    inferInstanceAs (Decidable (QuietOp s op ∧ QuietFrom (s.step op) ops))

def Quiet (ops : List Op) : Prop := QuietFrom ⟨[], []⟩ ops

instance (ops : List Op) : Decidable (Quiet ops) := decQuietFrom _ _

theorem check_val_iff (s : Sys) (d : Desc) : (s.check d).val = true ↔ Should s (s.check d) := by
  simp only [Sys.check, Should]
  cases hm : d.mode with
  | none => simp [chainHashValid]
  | some m =>
    cases hr : d.ref with
    | none => simp [chainHashValid]
    | some i =>
      cases ho : s.store[i]? with
      | none => simp [chainHashValid, ho]
      | some o =>
        simp only [chainHashValid, Option.bind_some, ho, Bool.and_eq_true, decide_eq_true_eq,
          ChainHashData.isCompletedFormat, beq_iff_eq, Option.some.injEq]
        constructor
        · rintro ⟨⟨h1, h2⟩, h3, h4⟩
          exact ⟨m, i, o, rfl, rfl, ho, h3.symm, h4, by omega, h2⟩
        · rintro ⟨m', i', o', rfl, rfl, h3, h4, h5, h6, h7⟩
          rw [ho] at h3
          cases h3
          exact ⟨⟨by omega, h7⟩, h4.symm, h5⟩

theorem addBytes_complete {c c' : ChainHashData} {b : Bytes} (h : c.addBytes b = .ok c') : c.isComplete = false := by
  cases hc : c.isComplete with
  | false => rfl
  | true => simp [ChainHashData.addBytes, hc] at h

theorem generate_complete {c c' : ChainHashData} {r : Rand} (h : c.generateRandomData r = .ok c') :
    c'.mode = c.mode ∧ c'.isComplete = true := by
  unfold ChainHashData.generateRandomData at h
  split at h
  · cases h
  · dsimp only at h
    split at h
    all_goals
      obtain ⟨x, -, h2⟩ := Res.bind_eq_ok.mp h
      cases h2
      exact ⟨rfl, by simp [ChainHashData.isComplete]⟩

/-- store `s'` keeps the complete objects of `s` complete and of the same mode -/
def Grows (s s' : Sys) : Prop :=
  ∀ (i : Nat) (o : ChainHashData), s.store[i]? = some o → o.isComplete = true → 
    ∃ o' : ChainHashData, s'.store[i]? = some o' ∧ o'.mode = o.mode ∧ o'.isComplete = true

theorem Grows.should {s s' : Sys} (h : Grows s s') {d : Desc} (hd : Should s d) : Should s' d := by
  obtain ⟨m, i, o, h1, h2, h3, h4, h5, h6⟩ := hd
  obtain ⟨o', h7, h8, h9⟩ := h i o h3 h5
  exact ⟨m, i, o', h1, h2, h7, by rw [h8, h4], h9, h6⟩

theorem step_grows (s : Sys) (op : Op) : Grows s (s.step op) := by
  have hrefl : Grows s s := fun i o h1 h2 => ⟨o, h1, rfl, h2⟩
  have hst : ∀ ds, Grows s { s with descs := ds } := fun ds i o h1 h2 => ⟨o, h1, rfl, h2⟩
  cases op with
  | newData m =>
    intro i o h1 h2
    have hi := (List.getElem?_eq_some_iff.mp h1).1
    exact ⟨o, by simp only [Sys.step]; rw [List.getElem?_append_left hi]; exact h1, rfl, h2⟩
  | addPart j b =>
    simp only [Sys.step]
    split
    · exact hrefl
    · rename_i c hc
      split
      · rename_i c' hc'
        intro i o h1 h2
        have : j ≠ i := by
          rintro rfl
          rw [hc] at h1; cases h1
          rw [addBytes_complete hc'] at h2; cases h2
        exact ⟨o, by simp [this, h1], rfl, h2⟩
      · exact hrefl
  | genRandom j r =>
    simp only [Sys.step]
    split
    · exact hrefl
    · rename_i c hc
      split
      · rename_i c' hc'
        intro i o h1 h2
        by_cases hij : j = i
        · subst hij
          rw [hc] at h1; cases h1
          have hj := (List.getElem?_eq_some_iff.mp hc).1
          exact ⟨c', by simp [hj], generate_complete hc'⟩
        · exact ⟨o, by simp [hij, h1], rfl, h2⟩
      · exact hrefl
  | newDesc => exact hst _
  | newDescWith m it ref =>
    simp only [Sys.step]; split
    · exact hrefl
    · split
      · exact hst _
      · exact hrefl
  | setIters k it => simp only [Sys.step]; split <;> first | exact hrefl | exact hst _
  | setMode k m => simp only [Sys.step]; split <;> first | exact hrefl | exact hst _
  | setData k ref =>
    simp only [Sys.step]; split
    · exact hrefl
    · split
      · exact hst _
      · exact hrefl
  | assign k j =>
    simp only [Sys.step]; split
    · split
      · exact hst _
      · exact hrefl
    · exact hrefl

/-- descriptions after a step: old ones, the default one, or freshly checked ones (against the old store) -/
theorem step_descs (s : Sys) (op : Op) (d : Desc) (hd : d ∈ (s.step op).descs) :
    d ∈ s.descs ∨ d = ⟨none, none, 0, false⟩ ∨ (∃ d', d = s.check d' ∧ (s.step op).store = s.store) := by
  have hset : ∀ k d', d ∈ s.descs.set k (s.check d') → d ∈ s.descs ∨ d = s.check d' := by
    intro k d' h
    rcases List.mem_or_eq_of_mem_set h with h | h
    · exact .inl h
    · exact .inr h
  cases op with
  | newData m => exact .inl hd
  | addPart j b =>
    simp only [Sys.step] at hd
    split at hd
    · exact .inl hd
    · split at hd <;> exact .inl hd
  | genRandom j b =>
    simp only [Sys.step] at hd
    split at hd
    · exact .inl hd
    · split at hd <;> exact .inl hd
  | newDesc =>
    simp only [Sys.step, List.mem_append, List.mem_singleton] at hd
    rcases hd with h | h
    · exact .inl h
    · exact .inr (.inl h)
  | newDescWith m it ref =>
    simp only [Sys.step] at hd ⊢
    split at hd
    · exact .inl hd
    · split at hd
      · rename_i hp
        simp only [List.mem_append, List.mem_singleton] at hd
        rcases hd with h | h
        · exact .inl h
        · exact .inr (.inr ⟨_, h, by simp [hp]⟩)
      · exact .inl hd
  | setIters k it =>
    simp only [Sys.step] at hd ⊢
    split at hd
    · exact .inl hd
    · rcases hset _ _ hd with h | h
      · exact .inl h
      · exact .inr (.inr ⟨_, h, rfl⟩)
  | setMode k m =>
    simp only [Sys.step] at hd ⊢
    split at hd
    · rcases hset _ _ hd with h | h
      · exact .inl h
      · exact .inr (.inr ⟨_, h, rfl⟩)
    · exact .inl hd
  | setData k ref =>
    simp only [Sys.step] at hd ⊢
    split at hd
    · exact .inl hd
    · split at hd
      · rename_i hp
        rcases hset _ _ hd with h | h
        · exact .inl h
        · exact .inr (.inr ⟨_, h, by simp [hp]⟩)
      · exact .inl hd
  | assign k j =>
    simp only [Sys.step] at hd ⊢
    split at hd
    · split at hd
      · rcases hset _ _ hd with h | h
        · exact .inl h
        · exact .inr (.inr ⟨_, h, rfl⟩)
      · exact .inl hd
    · exact .inl hd

theorem should_congr {s s' : Sys} (h : s'.store = s.store) (d : Desc) : Should s' d ↔ Should s d := by
  unfold Should; rw [h]

theorem sound_from (ops : List Op) : ∀ s : Sys, (∀ d ∈ s.descs, d.val = true → Should s d) →
    ∀ d ∈ (ops.foldl Sys.step s).descs, d.val = true → Should (ops.foldl Sys.step s) d := by
  induction ops with
  | nil => intro s h; exact h
  | cons op ops ih =>
    intro s h
    refine ih _ ?_
    intro d hd hv
    rcases step_descs s op d hd with h1 | h1 | ⟨d', h1, h2⟩
    · exact (step_grows s op).should (h d h1 hv)
    · subst h1; cases hv
    · rw [should_congr h2]
      subst h1
      exact (check_val_iff s d').mp hv

theorem sound (ops : List Op) (d : Desc) (hd : d ∈ (run ops).descs) (hv : d.val = true) : Should (run ops) d :=
  sound_from ops ⟨[], []⟩ (by simp) d hd hv

/-- descriptions only refer to existing objects -/
def RefsOk (s : Sys) : Prop := ∀ d ∈ s.descs, ∀ i, d.ref = some i → i < s.store.length

theorem store_length_step (s : Sys) (op : Op) : s.store.length ≤ (s.step op).store.length := by
  cases op <;> simp only [Sys.step] <;> repeat' split
  all_goals simp

theorem refsOk_step (s : Sys) (op : Op) (h : RefsOk s) : RefsOk (s.step op) := by
  intro d hd i hi
  refine Nat.lt_of_lt_of_le ?_ (store_length_step s op)
  have hptr : ∀ ref, s.ptr ref = true → ref = some i → i < s.store.length := by
    intro ref h1 h2; subst h2; simpa [Sys.ptr] using h1
  have hset : ∀ (k : Nat) (x : Desc), d ∈ s.descs.set k x → (x.ref = some i → i < s.store.length) →
      i < s.store.length := by
    intro k x h1 h2
    rcases List.mem_or_eq_of_mem_set h1 with h3 | h3
    · exact h d h3 i hi
    · subst h3; exact h2 hi
  cases op with
  | newData m => exact h d hd i hi
  | addPart j b =>
    simp only [Sys.step] at hd
    split at hd
    · exact h d hd i hi
    · split at hd <;> exact h d hd i hi
  | genRandom j b =>
    simp only [Sys.step] at hd
    split at hd
    · exact h d hd i hi
    · split at hd <;> exact h d hd i hi
  | newDesc =>
    simp only [Sys.step, List.mem_append, List.mem_singleton] at hd
    rcases hd with h1 | h1
    · exact h d h1 i hi
    · subst h1; cases hi
  | newDescWith m it ref =>
    simp only [Sys.step] at hd
    split at hd
    · exact h d hd i hi
    · split at hd
      · rename_i hp
        simp only [List.mem_append, List.mem_singleton] at hd
        rcases hd with h1 | h1
        · exact h d h1 i hi
        · subst h1; exact hptr ref hp hi
      · exact h d hd i hi
  | setIters k it =>
    simp only [Sys.step] at hd
    split at hd
    · exact h d hd i hi
    · rename_i d0 hk
      exact hset _ _ hd (fun hh => h d0 (List.mem_of_getElem? hk) i hh)
  | setMode k m =>
    simp only [Sys.step] at hd
    split at hd
    · rename_i d0 m' hk hm
      exact hset _ _ hd (fun hh => h d0 (List.mem_of_getElem? hk) i hh)
    · exact h d hd i hi
  | setData k ref =>
    simp only [Sys.step] at hd
    split at hd
    · exact h d hd i hi
    · split at hd
      · rename_i hp
        exact hset _ _ hd (fun hh => hptr ref hp hh)
      · exact h d hd i hi
  | assign k j =>
    simp only [Sys.step] at hd
    split at hd
    · rename_i d0 src hk hj
      split at hd
      · exact hset _ _ hd (fun hh => h src (List.mem_of_getElem? hj) i hh)
      · exact h d hd i hi
    · exact h d hd i hi

/-- a quiet step does not change objects a description refers to -/
theorem quiet_store (s : Sys) (op : Op) (hq : QuietOp s op) (hr : RefsOk s) (d : Desc) (hd : d ∈ s.descs) (i : Nat)
    (hi : d.ref = some i) : (s.step op).store[i]? = s.store[i]? := by
  have hlt := hr d hd i hi
  cases op with
  | newData m => simp only [Sys.step]; rw [List.getElem?_append_left hlt]
  | addPart j b =>
    have : j ≠ i := by rintro rfl; exact hq d hd hi
    simp only [Sys.step]
    split
    · rfl
    · split
      · simp [this]
      · rfl
  | genRandom j r =>
    have : j ≠ i := by rintro rfl; exact hq d hd hi
    simp only [Sys.step]
    split
    · rfl
    · split
      · simp [this]
      · rfl
  | newDesc => rfl
  | newDescWith m it ref => simp only [Sys.step]; repeat' split
                            all_goals rfl
  | setIters k it => simp only [Sys.step]; split <;> rfl
  | setMode k m => simp only [Sys.step]; split <;> rfl
  | setData k ref => simp only [Sys.step]; repeat' split
                     all_goals rfl
  | assign k j => simp only [Sys.step]; repeat' split
                  all_goals rfl

theorem exact_from (ops : List Op) : ∀ s : Sys, QuietFrom s ops → RefsOk s →
    (∀ d ∈ s.descs, d.val = true ↔ Should s d) →
    ∀ d ∈ (ops.foldl Sys.step s).descs, d.val = true ↔ Should (ops.foldl Sys.step s) d := by
  induction ops with
  | nil => intro s _ _ h; exact h
  | cons op ops ih =>
    intro s hq hr h
    refine ih _ hq.2 (refsOk_step s op hr) ?_
    intro d hd
    rcases step_descs s op d hd with h1 | h1 | ⟨d', h1, h2⟩
    · rw [h d h1]
      constructor
      · exact (step_grows s op).should
      · rintro ⟨m, i, o, h3, h4, h5, h6⟩
        rw [quiet_store s op hq.1 hr d h1 i h4] at h5
        exact ⟨m, i, o, h3, h4, h5, h6⟩
    · subst h1
      simp [Should]
    · rw [should_congr h2]
      subst h1
      exact check_val_iff s d'

theorem exact (ops : List Op) (hq : Quiet ops) (d : Desc) (hd : d ∈ (run ops).descs) :
    d.val = true ↔ Should (run ops) d :=
  exact_from ops ⟨[], []⟩ hq (by intro d hd; simp at hd) (by simp) d hd

end Verif.Shared
