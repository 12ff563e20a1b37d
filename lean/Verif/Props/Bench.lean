import Verif.Spec.Bench

/- The measuring thread of the benchmarks: C108. -/
namespace Verif.Props
open Spec Bench

variable {sched : Nat → Bool} {mem : Nat → UInt64}

/-- something that holds stays until something else happens, which one of the two brings about -/
theorem eventually (hf : FairSched sched) (s : St) {P Q : St → Prop} (b : Bool)
    (hP : ∀ (x : UInt64) t, P t → (P (thread x t) ∨ Q (thread x t)) ∧ (P (main t) ∨ Q (main t)))
    (hQ : ∀ (x : UInt64) t, P t → Q (if b then thread x t else main t)) (n : Nat) (h : P (run sched mem s n)) :
    ∃ m, n ≤ m ∧ Q (run sched mem s m) := by
  obtain ⟨m, hm, hb⟩ := hf b n
  obtain ⟨d, rfl⟩ := Nat.exists_eq_add_of_le hm
  clear hm
  induction d generalizing n with
  | zero =>
    refine ⟨n + 1, by omega, ?_⟩
    simp only [Nat.add_zero] at hb
    have := hQ (mem n) _ h
    rw [← hb] at this
    exact this
  | succ d ih =>
    have key : P (run sched mem s (n + 1)) ∨ Q (run sched mem s (n + 1)) := by
      have := hP (mem n) _ h
      simp only [run]
      split
      · exact this.1
      · exact this.2
    rcases key with k | k
    · obtain ⟨m, h1, h2⟩ := ih (n + 1) k (by rw [show n + 1 + d = n + (d + 1) by omega]; exact hb)
      exact ⟨m, by omega, h2⟩
    · exact ⟨n + 1, by omega, k⟩

/-- the request to end was lost: the thread has not begun to look at the flag, or does not see it set -/
def Lost (s : St) : Prop :=
  s.mpc = .joining ∧ ((s.tpc = .start ∨ s.tpc = .ready) ∨ (s.flag = false ∧ (s.tpc = .check ∨ s.tpc = .sample)))

theorem lost_stays {s : St} (h : Lost s) (x : UInt64) : Lost (thread x s) ∧ Lost (main s) := by
  obtain ⟨flag, a, b, c, d, t, tpc, mpc⟩ := s
  obtain ⟨h1, h2⟩ := h
  simp only at h1 h2
  subst h1
  rcases h2 with (rfl | rfl) | ⟨rfl, rfl | rfl⟩ <;> simp [Lost, thread, main]

theorem lost_for_ever {s : St} {n : Nat} (h : Lost (run sched mem s n)) : ∀ m, n ≤ m → Lost (run sched mem s m) := by
  intro m hm
  obtain ⟨d, rfl⟩ := Nat.exists_eq_add_of_le hm
  clear hm
  induction d with
  | zero => exact h
  | succ d ih =>
    have := lost_stays ih (mem (n + d))
    show Lost (run sched mem s (n + d + 1))
    simp only [run]
    split
    · exact this.1
    · exact this.2

/-- who is done stays done -/
theorem filed_stays {s : St} {n : Nat} (h : (run sched mem s n).mpc = .filed) : ∀ m, n ≤ m → (run sched mem s m).mpc = .filed := by
  intro m hm
  obtain ⟨d, rfl⟩ := Nat.exists_eq_add_of_le hm
  clear hm
  induction d with
  | zero => exact h
  | succ d ih =>
    show (run sched mem s (n + d + 1)).mpc = .filed
    simp only [run]
    generalize run sched mem s (n + d) = u at ih
    obtain ⟨flag, a, b, c, e, t, tpc, mpc⟩ := u
    simp only at ih
    subst ih
    split
    · cases tpc <;> cases flag <;> rfl
    · rfl

/-- C108 is violated: if the benchmark asks the thread to end before the thread has cleared the flag, which it does after reading
/proc/self/status, the request is lost. However the two go on, the benchmark waits for ever and files nothing. -/
theorem C108_violated (flag : Bool) (p q r b : UInt64) (k n : Nat) (hj : (run sched mem (begin flag p q r b k) n).mpc = .joining)
    (ht : (run sched mem (begin flag p q r b k) n).tpc = .start ∨ (run sched mem (begin flag p q r b k) n).tpc = .ready) (m : Nat) :
    (run sched mem (begin flag p q r b k) m).mpc ≠ .filed := by
  intro hm
  have hl : Lost (run sched mem (begin flag p q r b k) n) := ⟨hj, .inl ht⟩
  have h1 := lost_for_ever hl (max n m) (by omega)
  have h2 := filed_stays hm (max n m) (by omega)
  rw [h1.1] at h2
  cases h2

/-- the benchmark makes its first three steps before the thread starts; later they alternate -/
def lateThread (n : Nat) : Bool := if n < 3 then false else n % 2 == 0
example : FairSched lateThread ∧ (run lateThread (fun _ => 5000) (begin true 0 0 0 0 2) 3).mpc = .joining ∧
    (run lateThread (fun _ => 5000) (begin true 0 0 0 0 2) 3).tpc = .start ∧
    (run lateThread (fun _ => 5000) (begin true 0 0 0 0 2) 60).mpc = .joining := by
  refine ⟨fun b n => ?_, by decide, by decide, by decide⟩
  cases b
  · exact ⟨2 * n + 3, by omega, by simp [lateThread]⟩
  · exact ⟨2 * n + 4, by omega, by simp [lateThread]⟩

/-- measuring while the benchmark runs -/
def Busy (k : Nat) (s : St) : Prop := s.mpc = .work k ∧ s.flag = false ∧ (s.tpc = .check ∨ s.tpc = .sample)
/-- the request has come through -/
def Asked (s : St) : Prop := s.mpc = .joining ∧ s.flag = true ∧ (s.tpc = .check ∨ s.tpc = .sample)

theorem filed_of_busy (hf : FairSched sched) (s : St) (k n : Nat) (h : Busy k (run sched mem s n)) :
    ∃ m, (run sched mem s m).mpc = .filed := by
  -- the benchmark gets done
  have asked : ∃ m, Asked (run sched mem s m) := by
    induction k generalizing n with
    | zero =>
      obtain ⟨m, -, hm⟩ := eventually hf s (P := Busy 0) (Q := Asked) false
        (by rintro x ⟨flag, a, b, c, d, t, tpc, mpc⟩ ⟨h1, h2, h3⟩
            simp only at h1 h2 h3; subst h1; subst h2
            rcases h3 with rfl | rfl <;> simp [Busy, Asked, thread, main])
        (by rintro x ⟨flag, a, b, c, d, t, tpc, mpc⟩ ⟨h1, h2, h3⟩
            simp only at h1 h2 h3; subst h1; subst h2
            rcases h3 with rfl | rfl <;> simp [Asked, main]) n h
      exact ⟨m, hm⟩
    | succ k ih =>
      obtain ⟨m, -, hm⟩ := eventually hf s (P := Busy (k + 1)) (Q := Busy k) false
        (by rintro x ⟨flag, a, b, c, d, t, tpc, mpc⟩ ⟨h1, h2, h3⟩
            simp only at h1 h2 h3; subst h1; subst h2
            rcases h3 with rfl | rfl <;> simp [Busy, thread, main])
        (by rintro x ⟨flag, a, b, c, d, t, tpc, mpc⟩ ⟨h1, h2, h3⟩
            simp only at h1 h2 h3; subst h1; subst h2
            rcases h3 with rfl | rfl <;> simp [Busy, main]) n h
      exact ih m hm
  -- the thread comes to the test
  have test : ∃ m, Asked (run sched mem s m) ∧ (run sched mem s m).tpc = .check := by
    obtain ⟨m, h1, h2, h3 | h3⟩ := asked
    · exact ⟨m, ⟨h1, h2, .inl h3⟩, h3⟩
    · obtain ⟨m', -, hm⟩ := eventually hf s (P := fun t => Asked t ∧ t.tpc = .sample) (Q := fun t => Asked t ∧ t.tpc = .check) true
        (by rintro x ⟨flag, a, b, c, d, t, tpc, mpc⟩ ⟨⟨h1, h2, -⟩, h3⟩
            simp only at h1 h2 h3; subst h1; subst h2; subst h3
            simp [Asked, thread, main])
        (by rintro x ⟨flag, a, b, c, d, t, tpc, mpc⟩ ⟨⟨h1, h2, -⟩, h3⟩
            simp only at h1 h2 h3; subst h1; subst h2; subst h3
            simp [Asked, thread]) m ⟨⟨h1, h2, .inr h3⟩, h3⟩
      exact ⟨m', hm⟩
  -- ends
  obtain ⟨m, hm⟩ := test
  obtain ⟨m', -, hm'⟩ := eventually hf s (P := fun t => Asked t ∧ t.tpc = .check) (Q := fun t => t.mpc = .joining ∧ t.tpc = .ended) true
    (by rintro x ⟨flag, a, b, c, d, t, tpc, mpc⟩ ⟨⟨h1, h2, -⟩, h3⟩
        simp only at h1 h2 h3; subst h1; subst h2; subst h3
        simp [Asked, thread, main])
    (by rintro x ⟨flag, a, b, c, d, t, tpc, mpc⟩ ⟨⟨h1, h2, -⟩, h3⟩
        simp only at h1 h2 h3; subst h1; subst h2; subst h3
        simp [thread]) m hm
  -- and the benchmark sees it
  obtain ⟨m'', -, hm''⟩ := eventually hf s (P := fun t => t.mpc = .joining ∧ t.tpc = .ended) (Q := fun t => t.mpc = .filed) false
    (by rintro x ⟨flag, a, b, c, d, t, tpc, mpc⟩ ⟨h1, h3⟩
        simp only at h1 h3; subst h1; subst h3
        simp [thread, main])
    (by rintro x ⟨flag, a, b, c, d, t, tpc, mpc⟩ ⟨h1, h3⟩
        simp only at h1 h3; subst h1; subst h3
        simp [main]) m' hm'
  exact ⟨m'', hm''⟩

/-- C108 (what holds), exact: in a fair run the benchmark gets its numbers exactly if the thread cleared the flag while the benchmark
was still running. Missing: nothing makes sure of that, see `C108_violated`. -/
theorem C108_ends_partial (hf : FairSched sched) (flag : Bool) (p q r b : UInt64) (k : Nat) :
    (∃ m, (run sched mem (begin flag p q r b k) m).mpc = .filed) ↔
      ∃ n j, (run sched mem (begin flag p q r b k) n).tpc = .check ∧ (run sched mem (begin flag p q r b k) n).mpc = .work j := by
  have inv : ∀ n, (∃ i j, i ≤ n ∧ (run sched mem (begin flag p q r b k) i).tpc = .check ∧
        (run sched mem (begin flag p q r b k) i).mpc = .work j ∧ (run sched mem (begin flag p q r b k) i).flag = false) ∨
      (((run sched mem (begin flag p q r b k) n).tpc = .start ∨ (run sched mem (begin flag p q r b k) n).tpc = .ready) ∧
        ∃ j, (run sched mem (begin flag p q r b k) n).mpc = .work j) ∨ Lost (run sched mem (begin flag p q r b k) n) := by
    intro n
    induction n with
    | zero => exact .inr (.inl ⟨.inl rfl, k, rfl⟩)
    | succ n ih =>
      rcases ih with ⟨i, j, h1, h2⟩ | ih | ih
      · exact .inl ⟨i, j, by omega, h2⟩
      · have e : run sched mem (begin flag p q r b k) (n + 1) =
            if sched n then thread (mem n) (run sched mem (begin flag p q r b k) n) else main (run sched mem (begin flag p q r b k) n) := rfl
        generalize run sched mem (begin flag p q r b k) n = u at ih e
        obtain ⟨fl, a1, a2, a3, a4, t, tpc, mpc⟩ := u
        obtain ⟨h1, j, h2⟩ := ih
        simp only at h1 h2; subst h2
        rcases h1 with rfl | rfl
        · right
          rw [e]
          cases j <;> cases sched n <;> simp [thread, main, Lost]
        · cases hs : sched n
          · right
            rw [e, hs]
            cases j <;> simp [main, Lost]
          · left
            exact ⟨n + 1, j, by omega, by rw [e, hs]; rfl, by rw [e, hs]; rfl, by rw [e, hs]; rfl⟩
      · right; right
        have := lost_stays ih (mem n)
        simp only [run]
        split
        · exact this.1
        · exact this.2
  constructor
  · rintro ⟨m, hm⟩
    rcases inv m with ⟨i, j, -, h1, h2, -⟩ | ⟨-, j, h⟩ | h
    · exact ⟨i, j, h1, h2⟩
    · rw [hm] at h; cases h
    · rw [h.1] at hm; cases hm
  · rintro ⟨n, j, h1, h2⟩
    rcases inv n with ⟨i, j', -, g1, g2, g3⟩ | ⟨h, -⟩ | h
    · exact filed_of_busy hf _ j' i ⟨g2, g3, .inl g1⟩
    · rw [h1] at h; rcases h with h | h <;> cases h
    · rw [h.1] at h2; cases h2

/-- a run in turns ends -/
def inTurns (n : Nat) : Bool := n % 2 == 0
example : FairSched inTurns ∧ (run inTurns (fun n => 5000 + UInt64.ofNat n) (begin true 0 0 0 0 6) 3).tpc = .check ∧
    (run inTurns (fun n => 5000 + UInt64.ofNat n) (begin true 0 0 0 0 6) 3).mpc = .work 5 ∧
    (run inTurns (fun n => 5000 + UInt64.ofNat n) (begin true 0 0 0 0 6) 40).mpc = .filed ∧
    (run inTurns (fun n => 5000 + UInt64.ofNat n) (begin true 0 0 0 0 6) 40).maxOut = 5014 ∧
    (run inTurns (fun n => 5000 + UInt64.ofNat n) (begin true 0 0 0 0 6) 40).minOut = 5006 := by
  refine ⟨fun b n => ?_, by decide, by decide, by decide, by decide, by decide⟩
  cases b
  · exact ⟨2 * n + 1, by omega, by simp [inTurns]⟩
  · exact ⟨2 * n, by omega, by simp [inTurns]⟩

/-- the loop over a list of measurements -/
theorem tally_count (l : List UInt64) : ∀ t : Tally, (l.foldl Tally.add t).count.toNat = (t.count.toNat + l.length) % 2 ^ 64 ∧
    (l.foldl Tally.add t).sum.toNat = (t.sum.toNat + (l.map UInt64.toNat).sum) % 2 ^ 64 := by
  induction l with
  | nil => intro t; simp [Nat.mod_eq_of_lt t.count.toNat_lt, Nat.mod_eq_of_lt t.sum.toNat_lt]
  | cons x l ih =>
    intro t
    obtain ⟨h1, h2⟩ := ih (t.add x)
    rw [List.foldl_cons, h1, h2]
    simp only [Tally.add, UInt64.toNat_add, List.length_cons, List.map_cons, List.sum_cons]
    constructor
    · have : (1 : UInt64).toNat = 1 := rfl
      rw [this]; omega
    · omega

theorem tally_max (l : List UInt64) : ∀ t : Tally, t.max ≤ (l.foldl Tally.add t).max ∧ (∀ y ∈ l, y ≤ (l.foldl Tally.add t).max) ∧
    ((l.foldl Tally.add t).max = t.max ∨ (l.foldl Tally.add t).max ∈ l) := by
  induction l with
  | nil => intro t; simp
  | cons x l ih =>
    intro t
    obtain ⟨h1, h2, h3⟩ := ih (t.add x)
    rw [List.foldl_cons]
    generalize (l.foldl Tally.add (t.add x)).max = z at h1 h2 h3
    have hx : x ≤ (t.add x).max ∧ t.max ≤ (t.add x).max ∧ ((t.add x).max = t.max ∨ (t.add x).max = x) := by
      simp only [Tally.add]
      split
      · rename_i h
        refine ⟨UInt64.le_refl _, ?_, .inr rfl⟩
        rcases h with h | h
        · exact UInt64.le_of_lt h
        · rw [h]; exact UInt64.zero_le
      · rename_i h
        exact ⟨UInt64.not_lt.mp fun hc => h (.inl hc), UInt64.le_refl _, .inl rfl⟩
    refine ⟨UInt64.le_trans hx.2.1 h1, ?_, ?_⟩
    · intro y hy
      rcases List.mem_cons.mp hy with rfl | hy
      · exact UInt64.le_trans hx.1 h1
      · exact h2 y hy
    · rcases h3 with h3 | h3
      · rcases hx.2.2 with h | h
        · exact .inl (h3.trans h)
        · exact .inr (by rw [h3, h]; exact List.mem_cons_self ..)
      · exact .inr (List.mem_cons_of_mem _ h3)

theorem tally_min (l : List UInt64) (hl : ∀ y ∈ l, y ≠ 0) : ∀ t : Tally, (t.min ≠ 0 → (l.foldl Tally.add t).min ≤ t.min) ∧
    (∀ y ∈ l, (l.foldl Tally.add t).min ≤ y) ∧ ((l.foldl Tally.add t).min = t.min ∨ (l.foldl Tally.add t).min ∈ l) ∧
    (l ≠ [] → (l.foldl Tally.add t).min ≠ 0) := by
  induction l with
  | nil => intro t; simp
  | cons x l ih =>
    intro t
    have hx0 : x ≠ 0 := hl x (List.mem_cons_self ..)
    obtain ⟨h1, h2, h3, h4⟩ := ih (fun y hy => hl y (List.mem_cons_of_mem _ hy)) (t.add x)
    rw [List.foldl_cons]
    generalize (l.foldl Tally.add (t.add x)).min = z at h1 h2 h3 h4
    have hx : (t.add x).min ≤ x ∧ (t.min ≠ 0 → (t.add x).min ≤ t.min) ∧ ((t.add x).min = t.min ∨ (t.add x).min = x) ∧ (t.add x).min ≠ 0 := by
      simp only [Tally.add]
      split
      · rename_i h
        refine ⟨UInt64.le_refl _, fun h0 => ?_, .inr rfl, hx0⟩
        rcases h with h | h
        · exact UInt64.le_of_lt h
        · exact absurd h h0
      · rename_i h
        exact ⟨UInt64.not_lt.mp fun hc => h (.inl hc), fun _ => UInt64.le_refl _, .inl rfl, fun hc => h (.inr hc)⟩
    obtain ⟨x1, x2, x3, x4⟩ := hx
    have hz := h1 x4
    refine ⟨fun h0 => UInt64.le_trans hz (x2 h0), ?_, ?_, ?_⟩
    · intro y hy
      rcases List.mem_cons.mp hy with rfl | hy
      · exact UInt64.le_trans hz x1
      · exact h2 y hy
    · rcases h3 with h3 | h3
      · rcases x3 with h | h
        · exact .inl (h3.trans h)
        · exact .inr (by rw [h3, h]; exact List.mem_cons_self ..)
      · exact .inr (List.mem_cons_of_mem _ h3)
    · intro _
      rcases h3 with h3 | h3
      · rw [h3]; exact x4
      · exact hl z (List.mem_cons_of_mem _ h3)

theorem tally_avg (l : List UInt64) (t : Tally) (hl : l ≠ []) :
    (l.foldl Tally.add t).avg = (l.foldl Tally.add t).sum / (l.foldl Tally.add t).count := by
  obtain ⟨l', x, rfl⟩ : ∃ l' x, l = l' ++ [x] := ⟨l.dropLast, l.getLast hl, (List.dropLast_concat_getLast hl).symm⟩
  rw [List.foldl_append]
  rfl

/-- the thread adds up what it measures, and hands out what it has at the end -/
theorem tally_run (flag : Bool) (p q r b : UInt64) (k n : Nat) :
    (run sched mem (begin flag p q r b k) n).tally = (seen sched mem (begin flag p q r b k) n).foldl Tally.add ⟨0, 0, 0, 0, 0⟩ ∧
    ((run sched mem (begin flag p q r b k) n).tpc = .ended →
      (run sched mem (begin flag p q r b k) n).maxOut = (run sched mem (begin flag p q r b k) n).tally.max ∧
      (run sched mem (begin flag p q r b k) n).minOut = (run sched mem (begin flag p q r b k) n).tally.min ∧
      (run sched mem (begin flag p q r b k) n).avgOut = (run sched mem (begin flag p q r b k) n).tally.avg) ∧
    ((run sched mem (begin flag p q r b k) n).mpc = .filed → (run sched mem (begin flag p q r b k) n).tpc = .ended) := by
  induction n with
  | zero => exact ⟨rfl, fun h => (by cases h), fun h => (by cases h)⟩
  | succ n ih =>
    have e : run sched mem (begin flag p q r b k) (n + 1) =
        if sched n then thread (mem n) (run sched mem (begin flag p q r b k) n) else main (run sched mem (begin flag p q r b k) n) := rfl
    have e2 : seen sched mem (begin flag p q r b k) (n + 1) = seen sched mem (begin flag p q r b k) n ++
        if sched n && (run sched mem (begin flag p q r b k) n).tpc == .sample then [mem n] else [] := by
      simp only [seen, List.range_succ, List.filter_append, List.map_append]
      congr 1
      simp only [List.filter_cons, List.filter_nil]
      split <;> rfl
    rw [e2, e, List.foldl_append, ← ih.1]
    generalize run sched mem (begin flag p q r b k) n = u at ih
    obtain ⟨fl, a1, a2, a3, a4, t, tpc, mpc⟩ := u
    obtain ⟨-, h2, h3⟩ := ih
    simp only at h2 h3
    cases sched n
    · rcases mpc with (_ | j) | _ | _ <;> cases tpc <;> simp_all [main]
    · cases tpc <;> cases fl <;> simp_all [thread]

/-- C108 (what holds): what a benchmark files are the largest, the smallest and the average of the measurements made, if there are
any, none is zero, and their sum and number are below 2^64. Missing: see `C108_violated` and `C108_violated_zero`. -/
theorem C108_numbers_partial (flag : Bool) (p q r b : UInt64) (k n : Nat) (h : (run sched mem (begin flag p q r b k) n).mpc = .filed)
    (hne : seen sched mem (begin flag p q r b k) n ≠ []) :
    IsMax (seen sched mem (begin flag p q r b k) n) (run sched mem (begin flag p q r b k) n).maxOut ∧
    ((∀ y ∈ seen sched mem (begin flag p q r b k) n, y ≠ 0) →
      IsMin (seen sched mem (begin flag p q r b k) n) (run sched mem (begin flag p q r b k) n).minOut) ∧
    (((seen sched mem (begin flag p q r b k) n).map UInt64.toNat).sum < 2 ^ 64 → (seen sched mem (begin flag p q r b k) n).length < 2 ^ 64 →
      IsAverage (seen sched mem (begin flag p q r b k) n) (run sched mem (begin flag p q r b k) n).avgOut) := by
  obtain ⟨h1, h2, h3⟩ := tally_run (sched := sched) (mem := mem) flag p q r b k n
  obtain ⟨o1, o2, o3⟩ := h2 (h3 h)
  rw [o1, o2, o3, h1]
  generalize seen sched mem (begin flag p q r b k) n = l at hne
  obtain ⟨x, l', rfl⟩ := List.exists_cons_of_ne_nil hne
  refine ⟨?_, ?_, ?_⟩
  · obtain ⟨-, g2, g3⟩ := tally_max (x :: l') ⟨0, 0, 0, 0, 0⟩
    refine ⟨?_, g2⟩
    rcases g3 with g3 | g3
    · have hx := g2 x (List.mem_cons_self ..)
      rw [g3] at hx ⊢
      have : x = 0 := UInt64.le_antisymm hx UInt64.zero_le
      simp [this]
    · exact g3
  · intro h0
    obtain ⟨-, g2, g3, g4⟩ := tally_min (x :: l') h0 ⟨0, 0, 0, 0, 0⟩
    exact ⟨g3.resolve_left fun hc => g4 (by simp) hc, g2⟩
  · intro hs hn
    obtain ⟨c1, c2⟩ := tally_count (x :: l') ⟨0, 0, 0, 0, 0⟩
    rw [IsAverage, tally_avg _ _ (by simp), UInt64.toNat_div, c1, c2]
    simp only [UInt64.toNat_zero, Nat.zero_add]
    rw [Nat.mod_eq_of_lt hs, Nat.mod_eq_of_lt hn]

/-- the run in turns: three measurements -/
example : seen inTurns (fun n => 5000 + UInt64.ofNat n) (begin true 0 0 0 0 6) 40 = [5006, 5010, 5014] ∧
    (run inTurns (fun n => 5000 + UInt64.ofNat n) (begin true 0 0 0 0 6) 40).avgOut = 5010 := by decide

/-- until the thread has made a step it is at its beginning; after that the base is what it would have measured in that step -/
theorem base_run (s : St) (hs : s.tpc = .start) (hm : s.mpc ≠ .filed) (n : Nat) :
    ((∀ j, j < n → sched j = false) ∧ (run sched mem s n).tpc = .start ∧ (run sched mem s n).mpc ≠ .filed) ∨
    ((run sched mem s n).tpc ≠ .start ∧ ∃ i, i < n ∧ sched i = true ∧ (∀ j, j < i → sched j = false) ∧ (run sched mem s n).base = mem i) := by
  induction n with
  | zero => exact .inl ⟨fun j hj => absurd hj (Nat.not_lt_zero j), hs, hm⟩
  | succ n ih =>
    have e : run sched mem s (n + 1) = if sched n then thread (mem n) (run sched mem s n) else main (run sched mem s n) := rfl
    rw [e]
    generalize run sched mem s n = u at ih
    obtain ⟨fl, a1, a2, a3, a4, t, tpc, mpc⟩ := u
    cases hn : sched n
    · rcases ih with ⟨h1, h2, h3⟩ | ⟨h1, i, h2, h3, h4, h5⟩
      · refine .inl ⟨fun j hj => ?_, ?_⟩
        · rcases Nat.lt_succ_iff_lt_or_eq.mp hj with hj | rfl
          · exact h1 j hj
          · exact hn
        · simp only at h2 h3
          subst h2
          rcases mpc with (_ | j) | _ | _ <;> simp_all [main]
      · refine .inr ⟨?_, i, Nat.lt_succ_of_lt h2, h3, h4, ?_⟩
        · rcases mpc with (_ | j) | _ | _ <;> cases tpc <;> simp_all [main]
        · rcases mpc with (_ | j) | _ | _ <;> cases tpc <;> simp_all [main]
    · rcases ih with ⟨h1, h2, h3⟩ | ⟨h1, i, h2, h3, h4, h5⟩
      · simp only at h2
        subst h2
        exact .inr ⟨by simp [thread], n, Nat.lt_succ_self n, hn, h1, by simp [thread]⟩
      · refine .inr ⟨?_, i, Nat.lt_succ_of_lt h2, h3, h4, ?_⟩
        · cases tpc <;> cases fl <;> simp_all [thread]
        · cases tpc <;> cases fl <;> simp_all [thread]

/-- C108: the memory a benchmark files as in use at the beginning is what there was when the thread made its first step (which may be
long after the benchmark began) -/
theorem C108_base (flag : Bool) (p q r b : UInt64) (k n : Nat) (h : (run sched mem (begin flag p q r b k) n).mpc = .filed) :
    ∃ i, i < n ∧ sched i = true ∧ (∀ j, j < i → sched j = false) ∧ (run sched mem (begin flag p q r b k) n).base = mem i := by
  rcases base_run (sched := sched) (mem := mem) (begin flag p q r b k) rfl (fun hc => by cases hc) n with h1 | h1
  · exact absurd h h1.2.2
  · exact h1.2

/-- the run in turns, in which the old value 77 is gone -/
example : (run inTurns (fun n => 5000 + UInt64.ofNat n) (begin true 0 0 0 77 6) 40).mpc = .filed ∧
    (run inTurns (fun n => 5000 + UInt64.ofNat n) (begin true 0 0 0 77 6) 40).base = 5000 := by decide

/-- C108: a benchmark that is over before the first measurement files zeros, whatever the variables held before -/
theorem C108_none (flag : Bool) (p q r b : UInt64) (k n : Nat) (h : (run sched mem (begin flag p q r b k) n).mpc = .filed)
    (hne : seen sched mem (begin flag p q r b k) n = []) :
    (run sched mem (begin flag p q r b k) n).maxOut = 0 ∧ (run sched mem (begin flag p q r b k) n).minOut = 0 ∧
    (run sched mem (begin flag p q r b k) n).avgOut = 0 := by
  obtain ⟨h1, h2, h3⟩ := tally_run (sched := sched) (mem := mem) flag p q r b k n
  obtain ⟨o1, o2, o3⟩ := h2 (h3 h)
  rw [o1, o2, o3, h1, hne]
  exact ⟨rfl, rfl, rfl⟩

/-- the thread clears the flag, then the benchmark is over before the thread goes on -/
example : seen (fun n => n < 2 || n == 4) (fun _ => 5000) (begin true 1 2 3 4 1) 6 = [] ∧
    (run (fun n => n < 2 || n == 4) (fun _ => 5000) (begin true 1 2 3 4 1) 6).mpc = .filed := by decide

/-- C108 is violated for the numbers, too: a measurement of zero is not taken for the smallest, as zero stands for "nothing yet". -/
theorem C108_violated_zero : ∃ (sched : Nat → Bool) (mem : Nat → UInt64) (n : Nat), FairSched sched ∧
    (run sched mem (begin false 0 0 0 0 4) n).mpc = .filed ∧ 0 ∈ seen sched mem (begin false 0 0 0 0 4) n ∧
    ¬ IsMin (seen sched mem (begin false 0 0 0 0 4) n) (run sched mem (begin false 0 0 0 0 4) n).minOut := by
  refine ⟨inTurns, fun n => if n = 6 then 0 else 5, 40, ?_, by decide, by decide, fun h => absurd (h.2 0 (by decide)) (by decide)⟩
  intro b n
  cases b
  · exact ⟨2 * n + 1, by omega, by simp [inTurns]⟩
  · exact ⟨2 * n, by omega, by simp [inTurns]⟩

end Verif.Props
