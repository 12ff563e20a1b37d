import Verif.Spec.App
import Verif.Lemmas.Util
import Verif.Lemmas.Listing

/- Lemmas about the dialogue. -/
namespace Verif.App
open Spec

theorem lines_cons (l : List Byte) (hl : 10 ∉ l) (rest : List Byte) : lines (l ++ 10 :: rest) = l :: lines rest := by
  induction l with
  | nil => simp [lines]
  | cons c l ih =>
    simp only [List.mem_cons, not_or] at hl
    simp [lines, ih hl.2, Ne.symm hl.1]

theorem lines_last (l : List Byte) (hl : 10 ∉ l) (hne : l ≠ []) : lines l = [l] := by
  induction l with
  | nil => exact absurd rfl hne
  | cons c l ih =>
    simp only [List.mem_cons, not_or] at hl
    by_cases h : l = []
    · simp [lines, h, Ne.symm hl.1]
    · simp [lines, ih hl.2 h, Ne.symm hl.1]

theorem split_newline (l : List Byte) (h : 10 ∈ l) :
    l = l.takeWhile (· ≠ 10) ++ 10 :: (l.dropWhile (· ≠ 10)).drop 1 ∧ 10 ∉ l.takeWhile (· ≠ 10) := by
  induction l with
  | nil => simp at h
  | cons c l ih =>
    by_cases hc : c = 10
    · subst hc; simp
    · have hm : (10 : Byte) ∈ l := by simpa [Ne.symm hc] using h
      obtain ⟨h1, h2⟩ := ih hm
      refine ⟨?_, ?_⟩
      · simp only [ne_eq, hc, not_false_eq_true, decide_true, List.takeWhile_cons_of_pos, List.dropWhile_cons_of_pos,
          List.cons_append]
        exact congrArg _ h1
      · simp only [ne_eq, hc, not_false_eq_true, decide_true, List.takeWhile_cons_of_pos, List.mem_cons, not_or]
        exact ⟨Ne.symm hc, h2⟩

/-- how much there is to do before the input is exhausted -/
def Console.size (c : Console) : Nat := if c.good then c.rest.length + 1 else 0

/-- reading from a console with nothing left -/
theorem getline_nil {c : Console} (h : linesLeft c = []) (old : List Byte) :
    (c.getline old).1 = (if c.good then [] else old) ∧ linesLeft (c.getline old).2 = [] ∧ (c.getline old).2.good = false := by
  unfold linesLeft at *
  unfold Console.getline
  cases hg : c.good
  · simp [hg]
  · simp only [hg, if_true] at h
    have hr : c.rest = [] := by
      refine Classical.byContradiction fun hne => ?_
      by_cases hm : 10 ∈ c.rest
      · obtain ⟨h1, h2⟩ := split_newline _ hm
        rw [h1, lines_cons _ h2] at h; cases h
      · rw [lines_last _ hm hne] at h; cases h
    simp [hr]

/-- reading a line -/
theorem getline_cons {c : Console} {l : List Byte} {ls : List (List Byte)} (h : linesLeft c = l :: ls) (old : List Byte) :
    (c.getline old).1 = l ∧ linesLeft (c.getline old).2 = ls ∧ (c.getline old).2.size < c.size := by
  unfold linesLeft at h
  cases hg : c.good
  · simp [hg] at h
  · simp only [hg, if_true] at h
    unfold Console.getline
    by_cases hm : 10 ∈ c.rest
    · obtain ⟨h1, h2⟩ := split_newline _ hm
      have hlen := congrArg List.length h1
      rw [h1, lines_cons _ h2] at h
      injection h with h3 h4
      simp only [hg, Bool.not_true, Bool.false_eq_true, if_false, List.contains_eq_mem, hm, decide_true, if_true, linesLeft]
      refine ⟨h3, h4, ?_⟩
      simp only [Console.size, hg, if_true]
      simp only [List.length_append, List.length_cons] at hlen
      omega
    · have hne : c.rest ≠ [] := by intro hr; rw [hr] at h; cases h
      rw [lines_last _ hm hne] at h
      injection h with h3 h4
      simp only [hg, Bool.not_true, Bool.false_eq_true, if_false, List.contains_eq_mem, hm, decide_false, linesLeft]
      exact ⟨h3, h4, by simp [Console.size, hg]⟩

theorem linesLeft_length (c : Console) : (linesLeft c).length ≤ c.size := by
  generalize hl : linesLeft c = ls
  induction ls generalizing c with
  | nil => simp
  | cons l ls ih =>
    obtain ⟨-, h2, h3⟩ := getline_cons hl []
    have := ih _ h2
    simp only [List.length_cons]; omega

theorem isSpaceByte_iff (c : Byte) : isSpaceByte c = true ↔ IsBlank c := by
  simp only [isSpaceByte, IsBlank, Bool.or_eq_true, Bool.and_eq_true, decide_eq_true_eq, UInt8.le_iff_toNat_le]
  exact or_congr (UInt8.toNat_inj (b := 32)).symm Iff.rfl

theorem isDigitByte_iff (c : Byte) : isDigitByte c = true ↔ IsDigit c := by
  simp only [isDigitByte, IsDigit, Bool.and_eq_true, decide_eq_true_eq, UInt8.le_iff_toNat_le]
  exact Iff.rfl

theorem dropWhile_of_all {p : Byte → Bool} (a b : List Byte) (ha : ∀ c ∈ a, p c = true)
    (hb : ∀ c, b.head? = some c → p c = false) : (a ++ b).dropWhile p = b ∧ (a ++ b).takeWhile p = a := by
  induction a with
  | nil =>
    cases b with
    | nil => simp
    | cons x b => simp [hb x rfl]
  | cons x a ih =>
    have := ih fun c hc => ha c (List.mem_cons_of_mem _ hc)
    simp [ha x (by simp), this]

theorem takeWhile_all {p : Byte → Bool} (l : List Byte) : ∀ c ∈ l.takeWhile p, p c = true := by
  induction l with
  | nil => simp
  | cons x l ih =>
    by_cases h : p x = true
    · simp [h]; exact ih
    · simp [h]

theorem dropWhile_head {p : Byte → Bool} (l : List Byte) (c : Byte) (h : (l.dropWhile p).head? = some c) : p c = false := by
  induction l with
  | nil => simp at h
  | cons x l ih =>
    by_cases hx : p x = true
    · simp [hx] at h; exact ih h
    · simp [hx] at h; subst h; simpa using hx

/-- what `std::stoi` makes of a text, for positive results -/
theorem stoi_iff (l : List Byte) (n : Nat) (h1 : 1 ≤ n) (h2 : n ≤ 255) : stoi l = .ok (n : Int) ↔ Begins l n := by
  constructor
  · intro h
    simp only [stoi] at h
    generalize hs : l.dropWhile isSpaceByte = s at h
    have hl : l = l.takeWhile isSpaceByte ++ s := by rw [← hs, List.takeWhile_append_dropWhile]
    generalize hu : (if s.head? = some 45 ∨ s.head? = some 43 then s.drop 1 else s) = u at h
    by_cases hds : u.takeWhile isDigitByte = []
    · rw [if_pos hds] at h; cases h
    · rw [if_neg hds] at h
      by_cases hneg : s.head? = some 45
      · have hb : (s.head? == some 45) = true := by simpa using hneg
        simp only [hb, if_true] at h
        split at h
        · injection h with h; omega
        · cases h
      · have hb : (s.head? == some 45) = false := by simpa using hneg
        simp only [hb, Bool.false_eq_true, if_false] at h
        split at h
        · injection h with h
          have h' : decValue (u.takeWhile isDigitByte) = n := Int.ofNat.inj h
          simp only [hneg, false_or] at hu
          have hdd : ∀ c, (u.dropWhile isDigitByte).head? = some c → ¬ IsDigit c := by
            intro c hc hd
            have := dropWhile_head u c hc
            rw [(isDigitByte_iff c).mpr hd] at this; cases this
          by_cases hpos : s.head? = some 43
          · obtain ⟨t, rfl⟩ : ∃ t, s = 43 :: t := by
              cases s with
              | nil => simp at hpos
              | cons x t => simp at hpos; exact ⟨t, by rw [hpos]⟩
            simp only [List.head?_cons, if_true, List.drop_succ_cons, List.drop_zero] at hu
            subst hu
            refine ⟨l.takeWhile isSpaceByte, [43], t.takeWhile isDigitByte, t.dropWhile isDigitByte, ?_, ?_, .inr rfl, hds,
              ?_, hdd, h'⟩
            · rw [List.takeWhile_append_dropWhile]; exact hl
            · exact fun c hc => (isSpaceByte_iff c).mp (takeWhile_all l c hc)
            · exact fun c hc => (isDigitByte_iff c).mp (takeWhile_all t c hc)
          · simp only [hpos, if_false] at hu
            subst hu
            refine ⟨l.takeWhile isSpaceByte, [], s.takeWhile isDigitByte, s.dropWhile isDigitByte, ?_, ?_, .inl rfl, hds,
              ?_, hdd, h'⟩
            · rw [List.takeWhile_append_dropWhile, List.nil_append]; exact hl
            · exact fun c hc => (isSpaceByte_iff c).mp (takeWhile_all l c hc)
            · exact fun c hc => (isDigitByte_iff c).mp (takeWhile_all s c hc)
        · cases h
  · rintro ⟨ws, sign, ds, tail, rfl, hws, hsign, hds, hdig, htail, hn⟩
    have hd0 : ∃ d ds', ds = d :: ds' := by
      cases ds with
      | nil => exact absurd rfl hds
      | cons d ds' => exact ⟨d, ds', rfl⟩
    have htw : (ds ++ tail).takeWhile isDigitByte = ds :=
      (dropWhile_of_all ds tail (fun c hc => (isDigitByte_iff c).mpr (hdig c hc)) fun c hc => by
        rw [← Bool.not_eq_true, isDigitByte_iff]; exact htail c hc).2
    have hhead : ∀ c, (sign ++ (ds ++ tail)).head? = some c → c = 43 ∨ IsDigit c := by
      intro c hc
      obtain ⟨d, ds', rfl⟩ := hd0
      rcases hsign with rfl | rfl
      · simp at hc; subst hc; exact .inr (hdig _ (by simp))
      · simp at hc; exact .inl hc.symm
    have hdw : (ws ++ (sign ++ (ds ++ tail))).dropWhile isSpaceByte = sign ++ (ds ++ tail) :=
      (dropWhile_of_all ws _ (fun c hc => (isSpaceByte_iff c).mpr (hws c hc)) fun c hc => by
        rw [← Bool.not_eq_true, isSpaceByte_iff]
        intro hb
        rcases hhead c hc with rfl | hd
        · revert hb; simp [IsBlank]
        · simp only [IsBlank, IsDigit] at hb hd; omega).1
    have h45 : (sign ++ (ds ++ tail)).head? ≠ some 45 := by
      intro hc
      rcases hhead _ hc with h | h
      · revert h; decide
      · revert h; simp [IsDigit]
    simp only [stoi, hdw]
    have hstrip : (if (sign ++ (ds ++ tail)).head? = some 45 ∨ (sign ++ (ds ++ tail)).head? = some 43
        then (sign ++ (ds ++ tail)).drop 1 else sign ++ (ds ++ tail)) = ds ++ tail := by
      rcases hsign with rfl | rfl
      · have h43 : (ds ++ tail).head? ≠ some 43 := by
          obtain ⟨d, ds', rfl⟩ := hd0
          intro hc
          simp at hc; subst hc
          have := hdig 43 (by simp)
          revert this; simp [IsDigit]
        rw [List.nil_append] at h45 ⊢
        rw [if_neg fun h => h.elim h45 h43]
      · simp
    have hb : ((sign ++ (ds ++ tail)).head? == some 45) = false := by simpa using h45
    rw [hstrip, htw, if_neg hds, hb]
    have : ds.foldl (fun acc c => acc * 10 + (c.toNat - 48)) 0 = n := hn
    simp only [this, Bool.false_eq_true, if_false]
    rw [if_pos (by omega)]

/-- a question repeated until there is an answer -/
theorem ask_answered {α : Type} {ask : Nat → Console → Res (α × Console)} {one : List Byte → Option α} {standard : α}
    (hsome : ∀ fuel c a, one (c.getline []).1 = some a → ask (fuel + 1) c = .ok (a, (c.getline []).2))
    (hnone : ∀ fuel c, one (c.getline []).1 = none → ask (fuel + 1) c = Res.noexcept (ask fuel (c.getline []).2))
    (hstd : one [] = some standard) (c : Console) :
    ∃ a c', (∀ fuel, (linesLeft c).length < fuel → ask fuel c = .ok (a, c')) ∧
      Answered (fun l a => one l = some a) standard (linesLeft c) a (linesLeft c') := by
  generalize hl : linesLeft c = ls
  induction ls generalizing c with
  | nil =>
    obtain ⟨h1, h2, -⟩ := getline_nil hl []
    have h1 : (c.getline []).1 = [] := by rw [h1]; split <;> rfl
    refine ⟨standard, (c.getline []).2, fun fuel hf => ?_, .inr ⟨by simp, rfl, h2⟩⟩
    obtain ⟨fuel, rfl⟩ : ∃ n, fuel = n + 1 := ⟨fuel - 1, by simp at hf; omega⟩
    exact hsome _ _ _ (by rw [h1, hstd])
  | cons l ls ih =>
    obtain ⟨h1, h2, -⟩ := getline_cons hl []
    cases ho : one l with
    | some a =>
      refine ⟨a, (c.getline []).2, fun fuel hf => ?_, .inl ⟨[], l, ?_, by simp, ?_⟩⟩
      · obtain ⟨fuel, rfl⟩ : ∃ n, fuel = n + 1 := ⟨fuel - 1, by simp at hf; omega⟩
        exact hsome _ _ _ (by rw [h1, ho])
      · rw [h2]; rfl
      · by_cases hn : l = []
        · subst hn; rw [hstd] at ho; exact .inl ⟨rfl, (Option.some.inj ho).symm⟩
        · exact .inr ⟨hn, ho⟩
    | none =>
      have hn : l ≠ [] := by rintro rfl; rw [hstd] at ho; cases ho
      have hx : l ≠ [] ∧ ∀ b, ¬ one l = some b := ⟨hn, fun b hb => by rw [ho] at hb; cases hb⟩
      obtain ⟨a, c', ha, hans⟩ := ih (c.getline []).2 h2
      refine ⟨a, c', fun fuel hf => ?_, ?_⟩
      · obtain ⟨fuel, rfl⟩ : ∃ n, fuel = n + 1 := ⟨fuel - 1, by simp at hf; omega⟩
        rw [hnone _ _ (by rw [h1, ho]), ha fuel (by simp at hf; omega), Res.noexcept_ok]
      · rcases hans with ⟨pre, x, h3, h4, h5⟩ | ⟨h3, h4⟩
        · exact .inl ⟨l :: pre, x, by rw [h3]; rfl, by simpa using ⟨hx, h4⟩, h5⟩
        · exact .inr ⟨by simpa using ⟨hx, h3⟩, h4⟩

theorem Answered.length_le {α : Type} {s : List Byte → α → Prop} {std a : α} {l l' : List (List Byte)}
    (h : Answered s std l a l') : l'.length ≤ l.length := by
  rcases h with ⟨pre, x, h1, -⟩ | ⟨-, -, h1⟩
  · rw [h1]; simp; omega
  · rw [h1]; simp

theorem Answered.imp {α : Type} {s t : List Byte → α → Prop} {std a : α} {l l' : List (List Byte)}
    (h : Answered s std l a l') (hst : ∀ x b, x ≠ [] → (s x b ↔ t x b)) : Answered t std l a l' := by
  rcases h with ⟨pre, x, h1, h2, h3⟩ | ⟨h1, h2⟩
  · refine .inl ⟨pre, x, h1, fun y hy => ⟨(h2 y hy).1, fun b hb => (h2 y hy).2 b ((hst y b (h2 y hy).1).mpr hb)⟩, ?_⟩
    rcases h3 with h3 | ⟨h3, h4⟩
    · exact .inl h3
    · exact .inr ⟨h3, (hst x a h3).mp h4⟩
  · exact .inr ⟨fun y hy => ⟨(h1 y hy).1, fun b hb => (h1 y hy).2 b ((hst y b (h1 y hy).1).mpr hb)⟩, h2⟩

/-- the meaning of one line in a mode question -/
def modeLine (valid : Modes.Num → Bool) (standard : Byte) (l : List Byte) : Option Modes.Num :=
  if l = [] then some standard.toUInt32
  else match stoi l with
    | .ok v => if (decide (0 ≤ v) && decide (v < 256)) && valid (UInt32.ofNat v.toNat) then some (UInt32.ofNat v.toNat) else none
    | _ => none

theorem askForMode_step (valid : Modes.Num → Bool) (standard : Byte) (fuel : Nat) (c : Console) :
    askForMode (isValidMode valid) standard (fuel + 1) c = Res.noexcept (match modeLine valid standard (c.getline []).1 with
      | some a => .ok (a, (c.getline []).2)
      | none => askForMode (isValidMode valid) standard fuel (c.getline []).2) := by
  rw [askForMode]
  generalize c.getline [] = g
  obtain ⟨l, c'⟩ := g
  simp only []
  by_cases hl : l = []
  · subst hl
    simp [isValidMode, modeLine]
  · simp only [modeLine, hl, if_false]
    cases hv : stoi l with
    | ok v =>
      have hc : isValidChar l = (decide (0 ≤ v) && decide (v < 256)) := by simp [isValidChar, hv]
      cases hd : (decide (0 ≤ v) && decide (v < 256))
      · rw [hd] at hc
        have hr : ¬ (0 ≤ v ∧ v < 256) := by simpa using hd
        simp [isValidMode, hl, hc, hr]
      · have hr : 0 ≤ v ∧ v < 256 := by simpa using hd
        rw [hd] at hc
        have : (UInt8.ofNat v.toNat).toUInt32 = UInt32.ofNat v.toNat := by
          apply UInt32.toNat_inj.mp
          simp only [UInt8.toNat_toUInt32, UInt8.toNat_ofNat', UInt32.toNat_ofNat']
          omega
        cases hx : valid (UInt32.ofNat v.toNat) <;> simp [isValidMode, hl, hc, hv, hx, this, hr.1, hr.2]
    | exn x =>
      have hc : isValidChar l = false := by simp [isValidChar, hv]
      simp [isValidMode, hl, hc]
    | fatal f =>
      have hc : isValidChar l = false := by simp [isValidChar, hv]
      simp [isValidMode, hl, hc]

/-- the meaning of a line that is not empty -/
theorem modeLine_iff {valid : Modes.Num → Bool} {standard : Byte} {max : Nat} (hmax : max ≤ 255)
    (hv : ∀ n, valid n = true ↔ 1 ≤ n.toNat ∧ n.toNat ≤ max) (l : List Byte) (hl : l ≠ []) (a : Modes.Num) :
    modeLine valid standard l = some a ↔ Begins l a.toNat ∧ 1 ≤ a.toNat ∧ a.toNat ≤ max := by
  simp only [modeLine, hl, if_false]
  constructor
  · intro h
    split at h
    · rename_i v hs
      split at h
      · rename_i hc
        simp only [Bool.and_eq_true, decide_eq_true_eq, hv] at hc
        cases h
        obtain ⟨⟨h0, h1⟩, h2, h3⟩ := hc
        refine ⟨(stoi_iff l _ h2 (by omega)).mp ?_, h2, h3⟩
        rw [hs, UInt32.toNat_ofNat']
        congr 1; omega
      · cases h
    · cases h
  · rintro ⟨hb, h1, h2⟩
    have hs := (stoi_iff l _ h1 (by omega)).mpr hb
    rw [hs]
    have he : UInt32.ofNat ((a.toNat : Int)).toNat = a := by simp
    have hva : valid a = true := (hv a).mpr ⟨h1, h2⟩
    simp only [he, hva]
    rw [if_pos]
    simp; omega

/-- the meaning of one line in the question for iterations -/
def itersLine (l : List Byte) : Option UInt64 :=
  if l = [] then some standardIters else if isValidNumber l true minIters maxIters then stoul l else none

theorem askForIters_step (fuel : Nat) (c : Console) :
    askForIters (fuel + 1) c = Res.noexcept (match itersLine (c.getline []).1 with
      | some a => .ok (a, (c.getline []).2)
      | none => askForIters fuel (c.getline []).2) := by
  rw [askForIters]
  generalize c.getline [] = g
  obtain ⟨l, c'⟩ := g
  simp only []
  by_cases hl : l = []
  · subst hl
    simp [isValidNumber, itersLine]
  · simp only [itersLine, hl, if_false]
    cases hn : isValidNumber l true minIters maxIters
    · simp
    · simp only [Bool.not_true, Bool.false_eq_true, if_false, if_true]
      cases hs : stoul l with
      | some n => simp
      | none =>
        exfalso
        simp [isValidNumber, hl, hs] at hn

theorem askForPasswdLoop_succ (fuel : Nat) (c : Console) (pw : List Byte) :
    askForPasswdLoop (fuel + 1) c pw = match isPasswordValid (c.getline pw).1 with
      | .valid => .ok ((c.getline pw).1, (c.getline pw).2)
      | _ => askForPasswdLoop fuel (c.getline pw).2 (c.getline pw).1 := rfl

theorem askForNameLoop_succ (fuel : Nat) (c : Console) (name : List Byte) :
    askForNameLoop (fuel + 1) c name =
      if name = [] then askForNameLoop fuel (c.getline name).2 (c.getline name).1 else .ok (name, c) := rfl

/-- the loop asking for a password, with the string from the round before -/
theorem askForPasswd_found (c : Console) (old pw : List Byte) (pre post : List (List Byte)) (hl : linesLeft c = pre ++ pw :: post)
    (hpre : ∀ x ∈ pre, isPasswordValid x ≠ .valid) (hpw : isPasswordValid pw = .valid) (fuel : Nat) (hf : pre.length < fuel) :
    ∃ c', askForPasswdLoop fuel c old = .ok (pw, c') ∧ linesLeft c' = post := by
  induction pre generalizing c old fuel with
  | nil =>
    obtain ⟨fuel, rfl⟩ : ∃ n, fuel = n + 1 := ⟨fuel - 1, by simp at hf; omega⟩
    obtain ⟨h1, h2, -⟩ := getline_cons hl old
    refine ⟨(c.getline old).2, ?_, h2⟩
    rw [askForPasswdLoop_succ, h1, hpw]
  | cons x pre ih =>
    obtain ⟨fuel, rfl⟩ : ∃ n, fuel = n + 1 := ⟨fuel - 1, by simp at hf; omega⟩
    obtain ⟨h1, h2, -⟩ := getline_cons hl old
    obtain ⟨c', h3, h4⟩ := ih (c.getline old).2 x h2 (fun y hy => hpre y (List.mem_cons_of_mem _ hy)) fuel (by simp at hf; omega)
    refine ⟨c', ?_, h4⟩
    rw [askForPasswdLoop_succ, h1]
    have := hpre x (by simp)
    cases hx : isPasswordValid x with
    | valid => exact absurd hx this
    | charInvalid _ => exact h3
    | tooShort => exact h3

theorem askForPasswd_endless (c : Console) (old : List Byte) (hold : isPasswordValid old ≠ .valid)
    (h : ∀ x ∈ linesLeft c, isPasswordValid x ≠ .valid) (fuel : Nat) : askForPasswdLoop fuel c old = .fatal .diverge := by
  induction fuel generalizing c old with
  | zero => rfl
  | succ fuel ih =>
    rw [askForPasswdLoop_succ]
    have key : isPasswordValid (c.getline old).1 ≠ .valid ∧ ∀ x ∈ linesLeft (c.getline old).2, isPasswordValid x ≠ .valid := by
      cases hl : linesLeft c with
      | nil =>
        obtain ⟨h1, h2, -⟩ := getline_nil hl old
        rw [h1, h2]
        refine ⟨?_, by simp⟩
        split
        · decide
        · exact hold
      | cons l ls =>
        obtain ⟨h1, h2, -⟩ := getline_cons hl old
        rw [h1, h2]
        rw [hl] at h
        exact ⟨h l (by simp), fun x hx => h x (List.mem_cons_of_mem _ hx)⟩
    have := ih (c.getline old).2 (c.getline old).1 key.1 key.2
    generalize c.getline old = g at this key
    obtain ⟨l, c'⟩ := g
    simp only [] at *
    cases hx : isPasswordValid l with
    | valid => exact absurd hx key.1
    | charInvalid _ => exact this
    | tooShort => exact this

/-- the loop asking for a name -/
theorem askForName_found (c : Console) (name : List Byte) (pre post : List (List Byte)) (hl : linesLeft c = pre ++ name :: post)
    (hpre : ∀ x ∈ pre, x = []) (hn : name ≠ []) (fuel : Nat) (hf : pre.length + 1 < fuel) :
    ∃ c', askForNameLoop fuel c [] = .ok (name, c') ∧ linesLeft c' = post := by
  induction pre generalizing c fuel with
  | nil =>
    obtain ⟨fuel, rfl⟩ : ∃ n, fuel = n + 2 := ⟨fuel - 2, by simp at hf; omega⟩
    obtain ⟨h1, h2, -⟩ := getline_cons hl []
    refine ⟨(c.getline []).2, ?_, h2⟩
    rw [askForNameLoop_succ, if_pos rfl, h1, askForNameLoop_succ, if_neg hn]
  | cons x pre ih =>
    obtain ⟨fuel, rfl⟩ : ∃ n, fuel = n + 1 := ⟨fuel - 1, by simp at hf; omega⟩
    obtain ⟨h1, h2, -⟩ := getline_cons hl []
    obtain ⟨c', h3, h4⟩ := ih (c.getline []).2 h2 (fun y hy => hpre y (List.mem_cons_of_mem _ hy)) fuel (by simp at hf; omega)
    refine ⟨c', ?_, h4⟩
    rw [askForNameLoop_succ, if_pos rfl, h1, hpre x (by simp)]
    exact h3

theorem askForName_endless (c : Console) (h : ∀ x ∈ linesLeft c, x = []) (fuel : Nat) :
    askForNameLoop fuel c [] = .fatal .diverge := by
  induction fuel generalizing c with
  | zero => rfl
  | succ fuel ih =>
    rw [askForNameLoop_succ, if_pos rfl]
    cases hl : linesLeft c with
    | nil =>
      obtain ⟨h1, h2, -⟩ := getline_nil hl []
      have h1 : (c.getline []).1 = [] := by rw [h1]; split <;> rfl
      rw [h1]
      exact ih _ (by rw [h2]; simp)
    | cons l ls =>
      obtain ⟨h1, h2, -⟩ := getline_cons hl []
      rw [hl] at h
      rw [h1, h l (by simp)]
      exact ih _ (by rw [h2]; exact fun x hx => h x (List.mem_cons_of_mem _ hx))

end Verif.App
