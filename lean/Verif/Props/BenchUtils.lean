import Verif.Model.BenchUtils
import Verif.Spec.App
import Verif.Spec.BenchUtils

/- Reading the memory in use: C109. -/
namespace Verif.Props
open Spec BenchUtils

theorem fgets_line {l : List Byte} (hl : ∀ c ∈ l, c ≠ 10) (rest : List Byte) : ∀ n, l.length < n →
    fgets n (l ++ 10 :: rest) = (l ++ [10], rest) := by
  induction l with
  | nil => intro n hn; obtain ⟨n, rfl⟩ := Nat.exists_eq_add_of_le' hn; simp [fgets]
  | cons c l ih =>
    intro n hn
    obtain ⟨n, rfl⟩ := Nat.exists_eq_add_of_le' (show 1 ≤ n by simp at hn; omega)
    have hc : c ≠ 10 := hl c (List.mem_cons_self ..)
    have := ih (fun x hx => hl x (List.mem_cons_of_mem _ hx)) n (by simp at hn; omega)
    simp [fgets, hc, this]

theorem other_cut {l : List Byte} (h : OtherLine l) : ((l ++ [10]).takeWhile (· ≠ 0)).take 6 ≠ ascii "VmRSS:" := by
  intro hc
  have hp : ((l ++ [10]).takeWhile (· ≠ 0)).take 6 <+: l ++ [10] := (List.take_prefix _ _).trans (List.takeWhile_prefix _)
  rw [hc] at hp
  have e : (l ++ [10]).take 6 = ascii "VmRSS:" := (List.prefix_iff_eq_take.mp hp).symm
  by_cases hl : 6 ≤ l.length
  · rw [List.take_append_of_le_length hl] at e
    exact h.2.2 e
  · have : (l ++ [10]).length = 6 ∨ (l ++ [10]).length < 6 := by simp; omega
    rcases this with h6 | h6
    · rw [List.take_of_length_le (by omega)] at e
      have := congrArg List.getLast? e
      rw [List.getLast?_concat] at this
      exact absurd this (by decide)
    · have := congrArg List.length e
      rw [List.length_take] at this
      have h7 : (ascii "VmRSS:").length = 6 := by decide
      omega

/-- other lines are passed over -/
theorem physLoop_pass (rest : List Byte) : ∀ (ls : List (List Byte)), (∀ l ∈ ls, OtherLine l) → ∀ fuel, (textOf ls ++ rest).length ≤ fuel →
    ∃ fuel', rest.length ≤ fuel' ∧ physLoop fuel (textOf ls ++ rest) = physLoop fuel' rest
  | [], _, fuel, hf => ⟨fuel, by simpa [textOf] using hf, by simp [textOf]⟩
  | l :: ls, h, fuel, hf => by
    have ho := h l (List.mem_cons_self ..)
    have e : textOf (l :: ls) ++ rest = l ++ 10 :: (textOf ls ++ rest) := by simp [textOf]
    rw [e] at hf ⊢
    obtain ⟨fuel, rfl⟩ := Nat.exists_eq_add_of_le' (show 1 ≤ fuel by simp at hf; omega)
    obtain ⟨f', h1, h2⟩ := physLoop_pass rest ls (fun x hx => h x (List.mem_cons_of_mem _ hx)) fuel (by simp at hf ⊢; omega)
    refine ⟨f', h1, ?_⟩
    rw [← h2]
    have hg := fgets_line ho.2.1 (textOf ls ++ rest) 127 (by have := ho.1; omega)
    rw [physLoop, hg]
    simp only
    rw [if_neg (by simp), if_neg (other_cut ho)]

/-- C109 (what holds): of a file in the form of the kernel (lines of fewer than 127 bytes, in one line after "VmRSS:" and blanks a
number below 2^31 and " kB") the number is returned. Missing: everything else, see `C109_violated`. -/
theorem C109_reads_partial (pre : List (List Byte)) (hpre : ∀ l ∈ pre, OtherLine l) (blank ds post : List Byte)
    (hb : ∀ c ∈ blank, ¬ IsDigit c ∧ c ≠ 10 ∧ c ≠ 0) (hd : ds ≠ [] ∧ ∀ c ∈ ds, IsDigit c) (hv : decValue ds < 2 ^ 31)
    (hl : blank.length + ds.length ≤ 117) :
    getPhysicalMem (some (textOf pre ++ (ascii "VmRSS:" ++ blank ++ ds ++ ascii " kB" ++ 10 :: post))) = .ok (decValue ds) := by
  obtain ⟨fuel, h1, h2⟩ := physLoop_pass (ascii "VmRSS:" ++ blank ++ ds ++ ascii " kB" ++ 10 :: post) pre hpre _ (Nat.le_refl _)
  rw [getPhysicalMem, h2]
  obtain ⟨fuel, rfl⟩ := Nat.exists_eq_add_of_le' (show 1 ≤ fuel by simp at h1; omega)
  have dig : ∀ c, isDigitByte c = true ↔ IsDigit c := by
    intro c
    simp only [isDigitByte, IsDigit, Bool.and_eq_true, decide_eq_true_eq, UInt8.le_iff_toNat_le]
    exact Iff.rfl
  have hd0 : ∀ c ∈ ds, c ≠ 10 ∧ c ≠ 0 := by
    intro c hc
    have := hd.2 c hc
    constructor <;> rintro rfl <;> exact absurd this (by unfold IsDigit; decide)
  have a1 : ∀ c ∈ ascii "VmRSS:", isDigitByte c = false ∧ c ≠ 10 ∧ c ≠ 0 := by decide
  have a2 : ∀ c ∈ ascii " kB", isDigitByte c = false ∧ c ≠ 10 ∧ c ≠ 0 := by decide
  have len1 : (ascii "VmRSS:").length = 6 := by decide
  have len2 : (ascii " kB").length = 3 := by decide
  have all : ∀ c ∈ ascii "VmRSS:" ++ blank ++ ds ++ ascii " kB", c ≠ 10 ∧ c ≠ 0 := by
    intro c hc
    simp only [List.mem_append] at hc
    rcases hc with ((hc | hc) | hc) | hc
    · exact (a1 c hc).2
    · exact (hb c hc).2
    · exact hd0 c hc
    · exact (a2 c hc).2
  have hg := fgets_line (fun c hc => (all c hc).1) post 127 (by simp only [List.length_append]; omega)
  rw [physLoop, hg]
  simp only
  rw [if_neg (by simp)]
  have hz : (ascii "VmRSS:" ++ blank ++ ds ++ ascii " kB" ++ [10]).takeWhile (· ≠ 0) = ascii "VmRSS:" ++ blank ++ ds ++ ascii " kB" ++ [10] := by
    suffices h : ∀ c ∈ ascii "VmRSS:" ++ blank ++ ds ++ ascii " kB" ++ [10], (decide (c ≠ 0)) = true by
      have := List.takeWhile_append_of_pos (l₂ := []) h
      rwa [List.takeWhile_nil, List.append_nil] at this
    intro c hc
    rw [List.mem_append] at hc
    rcases hc with hc | hc
    · simpa using (all c hc).2
    · simp at hc; subst hc; decide
  rw [hz, if_pos (by simp only [List.append_assoc]; rw [List.take_append_of_le_length (by omega), List.take_of_length_le (by omega)])]
  -- the line
  obtain ⟨d, ds', rfl⟩ := List.exists_cons_of_ne_nil hd.1
  have hdd : isDigitByte d = true := (dig d).mpr (hd.2 d (List.mem_cons_self ..))
  have hp : (ascii "VmRSS:" ++ blank ++ (d :: ds') ++ ascii " kB" ++ [10]).takeWhile (fun c => !isDigitByte c) = ascii "VmRSS:" ++ blank := by
    rw [show ascii "VmRSS:" ++ blank ++ (d :: ds') ++ ascii " kB" ++ [10] = (ascii "VmRSS:" ++ blank) ++ (d :: (ds' ++ (ascii " kB" ++ [10]))) by simp]
    rw [List.takeWhile_append_of_pos]
    · simp [hdd]
    · intro c hc
      rw [List.mem_append] at hc
      rcases hc with hc | hc
      · simp [(a1 c hc).1]
      · have := (hb c hc).1
        rw [← dig] at this
        simpa using this
  have hlen : (ascii "VmRSS:" ++ blank ++ (d :: ds') ++ ascii " kB" ++ [10]).length = (ascii "VmRSS:" ++ blank ++ (d :: ds') ++ [32]).length + 3 := by
    simp only [List.length_append, len2, List.length_singleton]
  rw [parseLine, hp]
  rw [if_neg (by simp only [List.length_append, List.length_cons]; omega), if_neg (by omega), hlen, Nat.add_sub_cancel,
    show ascii "VmRSS:" ++ blank ++ (d :: ds') ++ ascii " kB" ++ [10] = (ascii "VmRSS:" ++ blank ++ (d :: ds') ++ [32]) ++ [107, 66, 10] by
      simp [show ascii " kB" = [32, 107, 66] by decide], List.take_left]
  generalize List.drop ((ascii "VmRSS:" ++ blank ++ (d :: ds') ++ [32]).length + 3 - 2) _ = tl
  have e : (ascii "VmRSS:" ++ blank ++ (d :: ds') ++ [32]) ++ 0 :: tl = (ascii "VmRSS:" ++ blank) ++ ((d :: ds') ++ (32 :: 0 :: tl)) := by
    simp only [List.append_assoc, List.cons_append, List.nil_append]
  have t : ((d :: ds') ++ (32 :: 0 :: tl)).takeWhile isDigitByte = d :: ds' := by
    rw [List.takeWhile_append_of_pos fun c hc => (dig c).mpr (hd.2 c hc), List.takeWhile_cons, if_neg (by decide), List.append_nil]
  rw [e, List.drop_left, atoi, t]
  show (if decValue (d :: ds') < 2147483648 then _ else _) = _
  rw [if_pos (by simpa using hv)]
  rfl

/-- the beginning of such a file -/
def statusText : List Byte := ascii "Name:\tbench\nUmask:\t0022\nVmRSS:\t    4908 kB\nRssAnon:\t     0 kB\n"
example : (∀ l ∈ [ascii "Name:\tbench", ascii "Umask:\t0022"], OtherLine l) ∧
    statusText = textOf [ascii "Name:\tbench", ascii "Umask:\t0022"] ++
      (ascii "VmRSS:" ++ ascii "\t    " ++ ascii "4908" ++ ascii " kB" ++ 10 :: ascii "RssAnon:\t     0 kB\n") ∧
    (∀ c ∈ ascii "4908", IsDigit c) ∧ getPhysicalMem (some statusText) = .ok 4908 := by
  simp only [OtherLine, IsDigit]; decide

/-- C109 (what holds): without such a line the answer is -1. -/
theorem C109_absent_partial (ls : List (List Byte)) (h : ∀ l ∈ ls, OtherLine l) : getPhysicalMem (some (textOf ls)) = .ok (-1) := by
  obtain ⟨fuel, -, h2⟩ := physLoop_pass [] ls h _ (Nat.le_refl _)
  rw [List.append_nil] at h2
  rw [getPhysicalMem, h2]
  cases fuel <;> simp [physLoop, fgets]

example : getPhysicalMem (some (ascii "Name:\tbench\nUmask:\t0022\n")) = .ok (-1) := by decide

/-- C109 is violated: if the file cannot be opened, if the line has no number or if the number is 2^31 (a process of two tebibytes)
the function is undefined; without the unit it cuts off the last two digits; and the end of a long line may be taken for the line. -/
theorem C109_violated : getPhysicalMem none = .fatal .ub ∧ getPhysicalMem (some (ascii "VmRSS:\n")) = .fatal .ub ∧
    getPhysicalMem (some (ascii "VmRSS:\t2147483648 kB\n")) = .fatal .ub ∧
    getPhysicalMem (some (ascii "VmRSS:\t12345\n")) = .ok 123 ∧
    getPhysicalMem (some (ascii "Name:\t" ++ List.replicate 121 97 ++ ascii "VmRSS: 5 kB\nVmRSS:\t4908 kB\n")) = .ok 5 := by
  decide +kernel

end Verif.Props
