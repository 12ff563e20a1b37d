import Verif.Model.Rng
import Verif.Spec.Misc
import Verif.Lemmas.Bytes

namespace Verif
open Spec

/-! ### timer -/

theorem lapTimes_append (t : Nat) (ms : List Nat) (u : Nat) :
    lapTimes t (ms ++ [u]) = lapTimes t ms ++ [(u - lastMark t ms) / 1000000] := by
  induction ms generalizing t with
  | nil => simp [lapTimes, lastMark]
  | cons a ms ih =>
    simp only [List.cons_append, lapTimes, ih, List.cons.injEq, true_and]
    simp [lastMark]

theorem lastMark_append (t : Nat) (ms : List Nat) (u : Nat) : lastMark t (ms ++ [u]) = u := by
  induction ms generalizing t with
  | nil => rfl
  | cons a ms ih => simpa [lastMark] using ih a

/-- marks do not go back -/
def Mono : Nat → List Nat → Prop
  | _, [] => True
  | t, u :: us => t ≤ u ∧ Mono u us

theorem Mono.append {t : Nat} {ms : List Nat} {u : Nat} (h : Mono t ms) (hu : lastMark t ms ≤ u) :
    Mono t (ms ++ [u]) := by
  induction ms generalizing t with
  | nil => simpa [Mono, lastMark] using hu
  | cons a ms ih =>
    refine ⟨h.1, ih h.2 ?_⟩
    simpa [lastMark] using hu

theorem Mono.le_last {t : Nat} {ms : List Nat} (h : Mono t ms) : t ≤ lastMark t ms := by
  induction ms generalizing t with
  | nil => simp [lastMark]
  | cons a ms ih =>
    have := ih h.2
    exact Nat.le_trans h.1 this

theorem lastMark_cons (t a : Nat) (ms : List Nat) : lastMark t (a :: ms) = lastMark a ms := by
  rfl

theorem lapTimes_sum_le {t : Nat} {ms : List Nat} (h : Mono t ms) :
    (lapTimes t ms).sum * 1000000 ≤ lastMark t ms - t := by
  induction ms generalizing t with
  | nil => simp [lapTimes]
  | cons a ms ih =>
    have h1 := ih h.2
    have h2 := h.2.le_last
    have h3 := h.1
    rw [lastMark_cons]
    simp only [lapTimes, List.sum_cons]
    have : (a - t) / 1000000 * 1000000 ≤ a - t := Nat.div_mul_le_self _ _
    rw [Nat.add_mul]
    exact Nat.le_trans (Nat.add_le_add this h1) (by omega)

theorem lapTimes_sum_gt {t : Nat} {ms : List Nat} (h : Mono t ms) (hne : ms ≠ []) :
    lastMark t ms - t < ((lapTimes t ms).sum + ms.length) * 1000000 := by
  induction ms generalizing t with
  | nil => exact absurd rfl hne
  | cons a ms ih =>
    have h2 := h.2.le_last
    have h3 := h.1
    rw [lastMark_cons]
    simp only [lapTimes, List.sum_cons, List.length_cons]
    have h4 : a - t < ((a - t) / 1000000 + 1) * 1000000 := by omega
    by_cases hm : ms = []
    · subst hm; simp [lapTimes, lastMark]; omega
    · have h1 := ih h.2 hm
      omega

theorem length_lapTimes (t : Nat) (ms : List Nat) : (lapTimes t ms).length = ms.length := by
  induction ms generalizing t <;> simp_all [lapTimes]

theorem elapsed_eq (t : Timer) (now : Nat) (h1 : t.last ≤ now) (h2 : now < 2 ^ 63) :
    (t.elapsed now).toNat = (now - t.last) / 1000000 := by
  have e : (now : Int) - (t.last : Int) = ((now - t.last : Nat) : Int) := by omega
  have e2 : (((now - t.last : Nat) : Int).tdiv 1000000) = (((now - t.last) / 1000000 : Nat) : Int) := rfl
  have hlt : (now - t.last) / 1000000 < 2 ^ 64 := by omega
  simp only [Timer.elapsed, UInt64.ofInt, e, e2]
  have e3 : ((((now - t.last) / 1000000 : Nat) : Int) % 2 ^ 64).toNat = (now - t.last) / 1000000 := by omega
  rw [e3, UInt64.toNat_ofNat']
  exact Nat.mod_eq_of_lt hlt

theorem foldl_add (l : List UInt64) (a : UInt64) (h : a.toNat + (l.map UInt64.toNat).sum < 2 ^ 64) :
    (l.foldl (· + ·) a).toNat = a.toNat + (l.map UInt64.toNat).sum := by
  induction l generalizing a with
  | nil => simp
  | cons x l ih =>
    simp only [List.map_cons, List.sum_cons] at h
    have e : (a + x).toNat = a.toNat + x.toNat := by
      rw [UInt64.toNat_add]; exact Nat.mod_eq_of_lt (by omega)
    simp only [List.foldl_cons, List.map_cons, List.sum_cons]
    rw [ih _ (by rw [e]; omega), e]; omega

theorem foldl_max (l : List UInt64) (a : UInt64) :
    (l.foldl (fun m lap => if lap > m then lap else m) a).toNat = (l.map UInt64.toNat).foldl max a.toNat := by
  induction l generalizing a with
  | nil => rfl
  | cons x l ih =>
    simp only [List.foldl_cons, List.map_cons]
    rw [ih]
    congr 1
    by_cases hx : x > a
    · rw [if_pos hx]; have : a.toNat < x.toNat := hx; omega
    · rw [if_neg hx]; have : ¬ a.toNat < x.toNat := hx; omega

/-- the timer object shows the stop watch; no mark is later than `m` -/
def Shows (t : Timer) (m : Nat) : Watch → Prop
  | .idle => t.started = false ∧ t.stopped = false
  | .running t0 ms => t.started = true ∧ t.stopped = false ∧ t.last = lastMark t0 ms ∧
      t.laps.map UInt64.toNat = lapTimes t0 ms ∧ Mono t0 ms ∧ lastMark t0 ms ≤ m
  | .stopped t0 ms => t.started = false ∧ t.stopped = true ∧ ms ≠ [] ∧
      t.laps.map UInt64.toNat = lapTimes t0 ms ∧ Mono t0 ms ∧ lastMark t0 ms ≤ m

/-- the clock after a call that started at clock `m` -/
def clockAfter (m : Nat) (c : TimerCall) : Nat := (reading c).getD m

theorem Shows.step {t : Timer} {m : Nat} {w : Watch} (h : Shows t m w) (c : TimerCall)
    (hc : ClockFrom m [c]) : Shows (c.run t).2 (clockAfter m c) (w.next c) := by
  cases c with
  | start now =>
    simp only [ClockFrom, reading] at hc
    cases w with
    | idle => simp_all [Shows, TimerCall.run, Timer.start, Timer.requireNotStarted, Watch.next, lastMark, lapTimes, Mono,
        clockAfter, reading]
    | running t0 ms =>
      simp_all [Shows, TimerCall.run, Timer.start, Timer.requireNotStarted, Watch.next, clockAfter, reading]; omega
    | stopped t0 ms => simp_all [Shows, TimerCall.run, Timer.start, Timer.requireNotStarted, Watch.next, lastMark, lapTimes, Mono,
        clockAfter, reading]
  | stop now =>
    simp only [ClockFrom, reading] at hc
    cases w with
    | idle => simp_all [Shows, TimerCall.run, Timer.stop, Timer.requireNotStopped, Timer.requireStarted, Watch.next]
    | running t0 ms =>
      obtain ⟨h1, h2, h3, h4, h5, h6⟩ := h
      have he := elapsed_eq t now (by omega) hc.2.1
      simp only [TimerCall.run, Timer.stop, Timer.requireNotStopped, Timer.requireStarted, Timer.recordTime, h1, h2,
        Watch.next, Shows, clockAfter, reading]
      refine ⟨rfl, rfl, by simp, ?_, h5.append (by omega), ?_⟩
      · simp [h4, lapTimes_append, he, h3]
      · simp [lastMark_append]
    | stopped t0 ms =>
      obtain ⟨h1, h2, h3, h4, h5, h6⟩ := h
      simp only [TimerCall.run, Timer.stop, Timer.requireNotStopped, h2, Watch.next, clockAfter, reading]
      exact ⟨h1, h2, h3, h4, h5, by simp; omega⟩
  | record now =>
    simp only [ClockFrom, reading] at hc
    cases w with
    | idle => simp_all [Shows, TimerCall.run, Timer.recordTime, Timer.requireNotStopped, Timer.requireStarted, Watch.next]
    | running t0 ms =>
      obtain ⟨h1, h2, h3, h4, h5, h6⟩ := h
      have he := elapsed_eq t now (by omega) hc.2.1
      simp only [TimerCall.run, Timer.requireNotStopped, Timer.requireStarted, Timer.recordTime, h1, h2,
        Watch.next, Shows, clockAfter, reading]
      refine ⟨rfl, rfl, ?_, ?_, h5.append (by omega), ?_⟩
      · simp [lastMark_append]
      · simp [h4, lapTimes_append, he, h3]
      · simp [lastMark_append]
    | stopped t0 ms =>
      obtain ⟨h1, h2, h3, h4, h5, h6⟩ := h
      simp only [TimerCall.run, Timer.recordTime, Timer.requireStarted, h1, Watch.next, clockAfter, reading]
      exact ⟨h1, h2, h3, h4, h5, by simp; omega⟩
  | peek now =>
    simp only [ClockFrom, reading] at hc
    cases w with
    | idle => exact h
    | running t0 ms => 
      obtain ⟨h1, h2, h3, h4, h5, h6⟩ := h
      exact ⟨h1, h2, h3, h4, h5, by simp [clockAfter, reading]; omega⟩
    | stopped t0 ms =>
      obtain ⟨h1, h2, h3, h4, h5, h6⟩ := h
      exact ⟨h1, h2, h3, h4, h5, by simp [clockAfter, reading]; omega⟩
  | average => cases w <;> exact h
  | slowest => cases w <;> exact h
  | time => cases w <;> exact h
  | laps => cases w <;> exact h

theorem ClockFrom.cons {m : Nat} {c : TimerCall} {cs : List TimerCall} (h : ClockFrom m (c :: cs)) (hm : m < 2 ^ 63) :
    ClockFrom m [c] ∧ ClockFrom (clockAfter m c) cs ∧ clockAfter m c < 2 ^ 63 := by
  cases c <;> simp_all [ClockFrom, clockAfter, reading]

theorem Shows.run {t : Timer} {m : Nat} {w : Watch} (h : Shows t m w) (cs rest : List TimerCall)
    (hc : ClockFrom m (cs ++ rest)) (hm : m < 2 ^ 63) :
    ∃ m', Shows (TimerCall.runAll cs t).2 m' (cs.foldl Watch.next w) ∧ ClockFrom m' rest ∧ m' < 2 ^ 63 := by
  induction cs generalizing t m w with
  | nil => exact ⟨m, h, hc, hm⟩
  | cons c cs ih =>
    obtain ⟨h1, h2, h3⟩ := ClockFrom.cons hc hm
    exact ih (h.step c h1) h2 h3

theorem marks_le (w : Watch) (cs : List TimerCall) (n : Nat)
    (h : match w with | .idle => True | .running _ ms => ms.length ≤ n | .stopped _ ms => ms.length ≤ n) :
    match cs.foldl Watch.next w with
    | .idle => True | .running _ ms => ms.length ≤ n + cs.length | .stopped _ ms => ms.length ≤ n + cs.length := by
  induction cs generalizing w n with
  | nil => simpa using h
  | cons c cs ih =>
    have := ih (w.next c) (n + 1) (by
      cases w <;> cases c <;> simp_all [Watch.next] <;> omega)
    simp only [List.foldl_cons, List.length_cons]
    rw [show n + (cs.length + 1) = n + 1 + cs.length by omega]
    exact this

/-! ### random values -/

theorem isLetterByte_eq (b : Byte) : Rng.isLetterByte b = isLetter b := by
  have h : ∀ i : Fin 256, Rng.isLetterByte (UInt8.ofNat i.val) = isLetter (UInt8.ofNat i.val) := by decide +kernel
  simpa using h ⟨b.toNat, b.toNat_lt⟩

theorem scan_eq (num : Nat) (bs res : List Byte) (h : res.length < num) :
    Rng.scan num bs res =
      if num ≤ (res ++ bs.filter isLetter).length then .inl ((res ++ bs.filter isLetter).take num)
      else .inr (res ++ bs.filter isLetter) := by
  induction bs generalizing res with
  | nil => simp [Rng.scan]; omega
  | cons b bs ih =>
    simp only [Rng.scan, isLetterByte_eq]
    by_cases hb : isLetter b = true
    · simp only [hb, if_true, List.filter_cons_of_pos]
      by_cases hn : (res ++ [b]).length = num
      · rw [if_pos hn, if_pos (by simp at hn ⊢; omega)]
        congr 1
        rw [show res ++ b :: bs.filter isLetter = (res ++ [b]) ++ bs.filter isLetter by simp,
          List.take_append_of_le_length (by omega), List.take_of_length_le (by omega)]
      · rw [if_neg hn, ih _ (by simp at hn ⊢; omega)]
        simp
    · simp only [hb]
      rw [List.filter_cons_of_neg (by simpa using hb)]
      simp only [Bool.false_eq_true, if_false]
      rw [if_neg (by omega), ih _ h]

/-- the letters among the bytes delivered by requests `i, …, i+k-1` of `n` bytes each -/
def letters (src : Nat → Rand) (n i k : Nat) : List Byte :=
  (List.range k).flatMap fun j => ((src (i + j)).take n).filter isLetter

theorem letters_succ (src : Nat → Rand) (n i k : Nat) :
    letters src n i (k + 1) = ((src i).take n).filter isLetter ++ letters src n (i + 1) k := by
  simp only [letters, List.range_succ_eq_map, List.flatMap_cons, List.flatMap_map]
  congr 2
  funext j
  rw [show i + (j + 1) = i + 1 + j by omega]

theorem stringLoop_ok (num : Nat) (src : Nat → Rand) (hn : num < 2 ^ 31) (fuel i : Nat) (res s : List Byte)
    (h : res.length < num) :
    Rng.stringLoop num src fuel i res = .ok s ↔
      ∃ k, k ≤ fuel ∧ (∀ j, j < k → (src (i + j)).good = true) ∧ num ≤ (res ++ letters src num i k).length ∧
        s = (res ++ letters src num i k).take num := by
  induction fuel generalizing i res with
  | zero =>
    simp only [Rng.stringLoop, reduceCtorEq, false_iff]
    rintro ⟨k, hk, -, h3, -⟩
    have : k = 0 := by omega
    subst this
    simp [letters] at h3; omega
  | succ fuel ih =>
    simp only [Rng.stringLoop]
    by_cases hg : (src i).good = true
    · rw [if_neg (by simp [hg]; omega), scan_eq _ _ _ h]
      by_cases hl : num ≤ (res ++ ((src i).take num).filter isLetter).length
      · rw [if_pos hl]
        simp only [Res.ok.injEq]
        constructor
        · rintro rfl
          refine ⟨1, by omega, ?_, ?_, ?_⟩
          · intro j hj; rw [show i + j = i by omega]; exact hg
          · rw [letters_succ]; simp [letters] at hl ⊢; omega
          · rw [letters_succ]; simp [letters]
        · rintro ⟨k, hk, hgood, h3, rfl⟩
          cases k with
          | zero => simp [letters] at h3; omega
          | succ k =>
            rw [letters_succ, ← List.append_assoc, List.take_append_of_le_length hl]
      · rw [if_neg hl]
        show Rng.stringLoop num src fuel (i + 1) _ = .ok s ↔ _
        rw [ih _ _ (by omega)]
        constructor
        · rintro ⟨k, hk, hgood, h3, h4⟩
          refine ⟨k + 1, by omega, ?_, ?_, ?_⟩
          · intro j hj
            cases j with
            | zero => exact hg
            | succ j => rw [show i + (j + 1) = i + 1 + j by omega]; exact hgood j (by omega)
          · rw [letters_succ, ← List.append_assoc]; exact h3
          · rw [letters_succ, ← List.append_assoc]; exact h4
        · rintro ⟨k, hk, hgood, h3, h4⟩
          cases k with
          | zero => simp [letters] at h3; omega
          | succ k =>
            rw [letters_succ, ← List.append_assoc] at h3 h4
            refine ⟨k, by omega, ?_, h3, h4⟩
            intro j hj
            have := hgood (j + 1) (by omega)
            rwa [show i + (j + 1) = i + 1 + j by omega] at this
    · rw [if_pos (by simp [hg])]
      simp only [reduceCtorEq, false_iff]
      rintro ⟨k, hk, hgood, h3, h4⟩
      cases k with
      | zero => simp [letters] at h3; omega
      | succ k => exact hg (hgood 0 (by omega))

end Verif
