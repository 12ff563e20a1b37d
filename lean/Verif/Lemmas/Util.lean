import Verif.Lemmas.Bytes

namespace Verif
open Spec

namespace IStream

theorem readsome_fst (s : IStream) (n : Nat) (h : s.eof = false) :
    (s.readsome n).1 = s.rest.take (min n s.avail) := by simp [readsome, h]

end IStream

/-- The reading loop for any stream that has not hit its end: it needs at most (bytes missing) + 1 rounds, one less
when the stream is primed; it succeeds iff enough bytes remain. -/
theorem readLoop_spec (fuel : Nat) (s : IStream) (acc : List Byte) (size : Nat)
    (he : s.eof = false) (ha : acc.length ≤ size)
    (hf : (size - acc.length) + (if s.primed then 1 else 2) ≤ fuel) :
    ∃ s', (if size - acc.length ≤ s.rest.length
        then readLoop fuel s acc size = .ok (some (acc ++ s.rest.take (size - acc.length)), s') ∧
             s'.rest = s.rest.drop (size - acc.length) ∧ s'.eof = false
        else readLoop fuel s acc size = .ok (none, s') ∧ s'.eof = true ∧ s'.rest = []) := by
  induction fuel generalizing s acc with
  | zero => exfalso; split at hf <;> omega
  | succ fuel ih =>
    obtain ⟨rest, sched, primed, eof⟩ := s
    simp only at he; subst he
    simp only [readLoop, IStream.readsome]
    generalize hk : min (size - acc.length) (IStream.avail ⟨rest, sched, primed, false⟩) = k
    have hk1 : k ≤ rest.length := by
      rw [← hk]; simp only [IStream.avail]; omega
    have hk2 : k ≤ size - acc.length := by rw [← hk]; omega
    have hk3 : primed = true → k = 0 → acc.length < size → rest = [] := by
      intro hp hk0 hlt
      subst hp
      rw [hk0] at hk
      simp only [IStream.avail] at hk
      have : rest.length = 0 := by
        simp only [if_true] at hk
        omega
      simpa using this
    simp only [Bool.false_eq_true, if_false, List.length_append, List.length_take, Nat.min_eq_left hk1]
    by_cases hfull : acc.length + k = size
    · have e : size - acc.length = k := by omega
      simp only [hfull, ne_eq, not_true_eq_false, if_false, e, hk1, if_true]
      exact ⟨_, rfl, rfl, rfl⟩
    · simp only [ne_eq, hfull, not_false_eq_true, if_true, IStream.peekEof, Bool.false_eq_true, if_false]
      by_cases hr : rest.drop k = []
      · have hlen : rest.length ≤ k := by simpa using hr
        have : ¬ (size - acc.length ≤ rest.length) := by omega
        simp only [hr, List.isEmpty_nil, if_true, this, if_false]
        exact ⟨_, rfl, rfl, rfl⟩
      · have hlen : k < rest.length := by
          rcases Nat.lt_or_ge k rest.length with h | h
          · exact h
          · exact absurd (by simpa using h) hr
        have hr' : (rest.drop k).isEmpty = false := by simpa using hlen
        simp only [hr', Bool.false_eq_true, if_false]
        have hk0 : primed = true → k ≠ 0 := by
          intro hp h0
          have := hk3 hp h0 (by omega)
          simp [this] at hlen
        obtain ⟨s', hs'⟩ := ih ⟨rest.drop k, fun i => sched (i + 1), true, false⟩ (acc ++ rest.take k) rfl
          (by simp [Nat.min_eq_left hk1]; omega)
          (by
            simp only [List.length_append, List.length_take, Nat.min_eq_left hk1, if_true]
            by_cases hp : primed = true
            · have := hk0 hp; simp only [hp, if_true] at hf; omega
            · simp only [hp] at hf; simp at hf; omega)
        refine ⟨s', ?_⟩
        simp only [List.length_append, List.length_take, Nat.min_eq_left hk1, List.length_drop, List.drop_drop,
          List.append_assoc] at hs'
        by_cases hc : size - acc.length ≤ rest.length
        · have hc' : size - (acc.length + k) ≤ rest.length - k := by omega
          simp only [hc', if_true] at hs'
          simp only [hc, if_true]
          obtain ⟨h1, h2, h3⟩ := hs'
          have e : k + (size - (acc.length + k)) = size - acc.length := by omega
          refine ⟨?_, by rw [h2, e], h3⟩
          rw [h1, ← e, List.take_add]
        · have hc' : ¬ (size - (acc.length + k) ≤ rest.length - k) := by omega
          simp only [hc', if_false] at hs'
          simp only [hc, if_false]
          exact hs'

/-- `readData` on a stream that has not hit its end -/
theorem readData_spec (s : IStream) (b : Bytes) (size : Nat) (he : s.eof = false) (hs : size < 2 ^ 32) :
    ∃ s', (if b.cap - b.data.length < size then readData s b size = .ok (none, s') ∧ s' = s
        else if size ≤ s.rest.length
        then readData s b size = .ok (some ⟨b.data ++ s.rest.take size, b.cap⟩, s') ∧
             s'.rest = s.rest.drop size ∧ s'.eof = false
        else readData s b size = .ok (none, s') ∧ s'.eof = true ∧ s'.rest = []) := by
  simp only [readData, Nat.mod_eq_of_lt hs]
  by_cases h1 : b.cap - b.data.length < size
  · simp [h1]
  · simp only [h1, if_false]
    obtain ⟨s', h⟩ := readLoop_spec (size + 2) s [] size he (by simp) (by simp; split <;> omega)
    refine ⟨s', ?_⟩
    simp only [List.length_nil, Nat.sub_zero, List.nil_append] at h
    by_cases h2 : size ≤ s.rest.length
    · simp only [h2, if_true] at h ⊢
      simp [h.1, h.2.1, h.2.2]
    · simp only [h2, if_false] at h ⊢
      simp [h.1, h.2.1, h.2.2]

theorem stoul_eq (l : List Byte) : stoul l = if decValue l < 2 ^ 64 then some (UInt64.ofNat (decValue l)) else none := rfl

end Verif
