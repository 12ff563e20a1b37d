import Verif.Lemmas.App
import Verif.Props.Modes
import Verif.Props.Bytes
import Verif.Props.PwFunc
import Verif.Props.FileSys

/- The console dialogue: C77, C78. -/
namespace Verif.Props
open Spec App

/-! ## C77 -/

theorem ask_mode {valid : Modes.Num → Bool} {max : Nat} (standard : Byte) (hmax : max ≤ 255)
    (hv : ∀ n, valid n = true ↔ 1 ≤ n.toNat ∧ n.toNat ≤ max) (hstd : 1 ≤ standard.toNat ∧ standard.toNat ≤ max) (c : Console) :
    ∃ m c', (∀ fuel, (linesLeft c).length < fuel → askForMode (isValidMode valid) standard fuel c = .ok (m, c')) ∧
      (1 ≤ m.toNat ∧ m.toNat ≤ max) ∧
      Answered (SaysMode max) standard.toUInt32 (linesLeft c) m (linesLeft c') := by
  obtain ⟨m, c', h1, h2⟩ := ask_answered (ask := askForMode (isValidMode valid) standard) (one := modeLine valid standard) (standard := standard.toUInt32)
    (fun fuel c a h => by rw [askForMode_step, h, Res.noexcept_ok]) (fun fuel c h => by rw [askForMode_step, h]) (by simp [modeLine]) c
  have h3 := Answered.imp (t := SaysMode max) h2 fun x b hx => modeLine_iff hmax hv x hx b
  refine ⟨m, c', h1, ?_, h3⟩
  have hs : 1 ≤ standard.toUInt32.toNat ∧ standard.toUInt32.toNat ≤ max := by simpa using hstd
  rcases h3 with ⟨pre, l, -, -, ⟨-, rfl⟩ | ⟨-, -, h⟩⟩ | ⟨-, rfl, -⟩
  · exact hs
  · exact h
  · exact hs

/-- C77: asking for a file mode ends for every input and gives the mode 1: that of the first line that begins with a valid
number, or the standard at an empty line or at the end of the input, whatever comes first. -/
theorem C77_file_mode (c : Console) :
    ∃ m c', (∀ fuel, (linesLeft c).length < fuel → askForFileMode fuel c = .ok (m, c')) ∧ (1 ≤ m.toNat ∧ m.toNat ≤ 1) ∧
      Answered (SaysMode 1) 1 (linesLeft c) m (linesLeft c') :=
  ask_mode 1 (by decide) (fun n => (C71_file_modes n).1.trans (by omega)) (by decide) c

/-- C77: the same for hash modes, 1 to 3, with the standard 3. -/
theorem C77_hash_mode (c : Console) :
    ∃ m c', (∀ fuel, (linesLeft c).length < fuel → askForHashMode fuel c = .ok (m, c')) ∧ (1 ≤ m.toNat ∧ m.toNat ≤ 3) ∧
      Answered (SaysMode 3) 3 (linesLeft c) m (linesLeft c') :=
  ask_mode 3 (by decide) (fun n => (C71_hash_modes toyHashes n true).1) (by decide) c

/-- C77: the same for chain-hash modes, 1 to 5, with the standard 4. -/
theorem C77_chain_mode (c : Console) :
    ∃ m c', (∀ fuel, (linesLeft c).length < fuel → askForChainHashMode fuel c = .ok (m, c')) ∧
      (1 ≤ m.toNat ∧ m.toNat ≤ 5) ∧
      Answered (SaysMode 5) 4 (linesLeft c) m (linesLeft c') :=
  ask_mode 4 (by decide) (fun n => (C71_chain_modes n).1) (by decide) c

/-- C77: asking for iterations ends for every input; only whole lines of digits count, from 1 to 10^9. -/
theorem C77_iterations (c : Console) :
    ∃ n c', (∀ fuel, (linesLeft c).length < fuel → askForIters fuel c = .ok (n, c')) ∧
      (1 ≤ n.toNat ∧ n.toNat ≤ 1000000000) ∧
      Answered SaysIters 1000 (linesLeft c) n (linesLeft c') := by
  obtain ⟨n, c', h1, h2⟩ := ask_answered (ask := askForIters) (one := itersLine) (standard := standardIters)
    (fun fuel c a h => by rw [askForIters_step, h, Res.noexcept_ok]) (fun fuel c h => by rw [askForIters_step, h]) (by simp [itersLine]) c
  have key : ∀ (x : List Byte) (b : UInt64), x ≠ [] → (itersLine x = some b ↔
      IsNumber x b.toNat ∧ 1 ≤ b.toNat ∧ b.toNat ≤ 1000000000) := by
    intro x b hx
    simp only [itersLine, hx, if_false]
    have hvn := C07_valid_number x true minIters maxIters
    simp only [hx, false_and, false_or, ne_eq, not_false_eq_true, true_and] at hvn
    have e1 : (minIters : UInt64).toNat = 1 := rfl
    have e2 : (maxIters : UInt64).toNat = 1000000000 := rfl
    rw [e1, e2] at hvn
    constructor
    · intro h
      split at h
      · rename_i hv
        obtain ⟨h1, h2, h3, h4⟩ := hvn.mp hv
        rw [stoul_eq, if_pos h2] at h
        cases h
        rw [UInt64.toNat_ofNat', Nat.mod_eq_of_lt h2]
        exact ⟨⟨hx, h1, rfl⟩, h3, h4⟩
      · cases h
    · rintro ⟨⟨-, h1, h2⟩, h3, h4⟩
      have hlt : decValue x < 2 ^ 64 := by omega
      rw [if_pos (hvn.mpr ⟨h1, hlt, by omega, by omega⟩), stoul_eq, if_pos hlt, h2]
      simp
  have h3 := Answered.imp (t := SaysIters) h2 key
  refine ⟨n, c', h1, ?_, h3⟩
  rcases h3 with ⟨pre, l, -, -, ⟨-, rfl⟩ | ⟨-, -, h⟩⟩ | ⟨-, rfl, -⟩
  · decide
  · exact h
  · decide

/-- C77, as far as it holds: asking for a password gives the first line that is an acceptable password. Missing: it never
ends if there is none. -/
theorem C77_password_partial (c : Console) (pre post : List (List Byte)) (pw : List Byte)
    (hl : linesLeft c = pre ++ pw :: post) (hpre : ∀ x ∈ pre, ¬ GoodPassword x) (hpw : GoodPassword pw) :
    ∃ c', (∀ fuel, pre.length < fuel → askForPasswd fuel c = .ok (pw, c')) ∧ linesLeft c' = post := by
  obtain ⟨c', h1, h2⟩ := askForPasswd_found c [] pw pre post hl (fun x hx h => hpre x hx ((C15_accepted x).mp h))
    ((C15_accepted pw).mpr hpw) (pre.length + 1) (by omega)
  refine ⟨c', fun fuel hf => ?_, h2⟩
  obtain ⟨c'', h3, -⟩ := askForPasswd_found c [] pw pre post hl (fun x hx h => hpre x hx ((C15_accepted x).mp h))
    ((C15_accepted pw).mpr hpw) fuel hf
  have hm : ∀ n k c old r, askForPasswdLoop n c old = .ok r → askForPasswdLoop (n + k) c old = .ok r := by
    intro n
    induction n with
    | zero => intro k c old r h; cases h
    | succ n ih =>
      intro k c old r h
      rw [show n + 1 + k = (n + k) + 1 by omega, askForPasswdLoop_succ]
      rw [askForPasswdLoop_succ] at h
      cases hx : isPasswordValid (c.getline old).1 <;> rw [hx] at h
      · exact h
      · exact ih k _ _ _ h
      · exact ih k _ _ _ h
  have := hm _ (fuel - (pre.length + 1)) _ _ _ h1
  rw [show pre.length + 1 + (fuel - (pre.length + 1)) = fuel by omega] at this
  exact this

/-- C77 violated: without an acceptable password in the input the question is repeated for ever. -/
theorem C77_violated_endless (c : Console) (h : ∀ x ∈ linesLeft c, ¬ GoodPassword x) (fuel : Nat) :
    askForPasswd fuel c = .fatal .diverge :=
  askForPasswd_endless c [] (by decide) (fun x hx hv => h x hx ((C15_accepted x).mp hv)) fuel

/-- the input of the user who gives a short password and closes the terminal -/
def shortInput : Console := ⟨ascii "short", true⟩

example : linesLeft shortInput = [ascii "short"] := by decide

theorem C77_violated_endless_witness (fuel : Nat) : askForPasswd fuel shortInput = .fatal .diverge :=
  C77_violated_endless _ (by
    have : linesLeft shortInput = [ascii "short"] := by decide
    rw [this]
    rintro x hx ⟨h, -⟩
    simp only [List.mem_singleton] at hx
    subst hx
    revert h; decide) fuel

/-- C77 violated: a line that is no number is taken for one. -/
theorem C77_violated_text : ∃ (l : List Byte) (m : Modes.Num) (c' : Console), (∀ n, ¬ IsNumber l n) ∧
    ∀ fuel, askForHashMode (fuel + 1) ⟨l, true⟩ = .ok (m, c') ∧ m = 2 := by
  refine ⟨ascii " +2 or rather 3", 2, ⟨[], false⟩, ?_, fun fuel => ⟨?_, rfl⟩⟩
  · rintro n ⟨-, h, -⟩
    have := h 32 (by decide)
    revert this; simp [IsDigit]
  · rw [askForHashMode, isValidHashMode, askForMode_step]
    have h1 : Console.getline ⟨ascii " +2 or rather 3", true⟩ [] = (ascii " +2 or rather 3", ⟨[], false⟩) := by decide
    have h2 : modeLine Modes.hashValid 3 (ascii " +2 or rather 3") = some 2 := by decide
    rw [h1, h2]; rfl

/-- C77, as far as it holds: the six questions are answered one after the other; then the first acceptable password is
taken, and the answers make settings that are complete and usable for a header. Nothing else can happen but that the question
for the password is repeated for ever (which is what is missing): no exception, no undefined behaviour. -/
theorem C77_dialogue_partial (c : Console) :
    ∃ a ls, Questions (linesLeft c) a ls ∧
      ((∃ c' pre, ls = pre ++ a.pw :: linesLeft c' ∧ (∀ x ∈ pre, ¬ GoodPassword x) ∧ GoodPassword a.pw ∧
          ∀ fuel, (linesLeft c).length < fuel → askForHeader fuel c = .ok (a, c')) ∨
        ((∀ x ∈ ls, ¬ GoodPassword x) ∧ ∀ fuel, (linesLeft c).length < fuel → askForHeader fuel c = .fatal .diverge)) := by
  obtain ⟨f, c1, h1, -, a1⟩ := C77_file_mode c
  obtain ⟨h, c2, h2, -, a2⟩ := C77_hash_mode c1
  obtain ⟨m1, c3, h3, -, a3⟩ := C77_chain_mode c2
  obtain ⟨n1, c4, h4, -, a4⟩ := C77_iterations c3
  obtain ⟨m2, c5, h5, -, a5⟩ := C77_chain_mode c4
  obtain ⟨n2, c6, h6, -, a6⟩ := C77_iterations c5
  have k1 := Answered.length_le a1
  have k2 := Answered.length_le a2
  have k3 := Answered.length_le a3
  have k4 := Answered.length_le a4
  have k5 := Answered.length_le a5
  have k6 := Answered.length_le a6
  by_cases hg : ∃ x ∈ linesLeft c6, GoodPassword x
  · obtain ⟨pre, pw, post, hl, hpre, hpw⟩ : ∃ pre pw post, linesLeft c6 = pre ++ pw :: post ∧ (∀ x ∈ pre, ¬ GoodPassword x) ∧
        GoodPassword pw := by
      generalize linesLeft c6 = ls at hg
      induction ls with
      | nil => obtain ⟨x, hx, -⟩ := hg; simp at hx
      | cons l ls ih =>
        by_cases hl : GoodPassword l
        · exact ⟨[], l, ls, rfl, by simp, hl⟩
        · obtain ⟨pre, pw, post, e1, e2, e3⟩ := ih (by
            obtain ⟨x, hx, hx'⟩ := hg
            rcases List.mem_cons.mp hx with rfl | hx
            · exact absurd hx' hl
            · exact ⟨x, hx, hx'⟩)
          exact ⟨l :: pre, pw, post, by rw [e1]; rfl, by simpa using ⟨hl, e2⟩, e3⟩
    obtain ⟨c7, h7, hc7⟩ := C77_password_partial c6 pre post pw hl hpre hpw
    refine ⟨⟨f, h, m1, n1, m2, n2, pw⟩, linesLeft c6, ⟨_, _, _, _, _, a1, a2, a3, a4, a5, a6⟩, .inl ⟨c7, pre, by rw [hc7, hl], hpre,
      hpw, fun fuel hf => ?_⟩⟩
    have hlen : pre.length ≤ (linesLeft c6).length := by rw [hl]; simp
    simp only [askForHeader, h1 fuel hf, h2 fuel (by omega), h3 fuel (by omega), h4 fuel (by omega), h5 fuel (by omega),
      h6 fuel (by omega), h7 fuel (by omega), Res.bind_ok]
  · have hg' : ∀ x ∈ linesLeft c6, ¬ GoodPassword x := fun x hx hx' => hg ⟨x, hx, hx'⟩
    refine ⟨⟨f, h, m1, n1, m2, n2, []⟩, linesLeft c6, ⟨_, _, _, _, _, a1, a2, a3, a4, a5, a6⟩, .inr ⟨hg', fun fuel hf => ?_⟩⟩
    simp only [askForHeader, h1 fuel hf, h2 fuel (by omega), h3 fuel (by omega), h4 fuel (by omega), h5 fuel (by omega),
      h6 fuel (by omega), C77_violated_endless c6 hg' fuel, Res.bind_ok, Res.bind_fatal]

theorem answered_mode {max : Nat} {std m : Modes.Num} {l l' : List (List Byte)} (hs : 1 ≤ std.toNat ∧ std.toNat ≤ max)
    (h : Answered (SaysMode max) std l m l') : 1 ≤ m.toNat ∧ m.toNat ≤ max := by
  rcases h with ⟨pre, x, -, -, ⟨-, rfl⟩ | ⟨-, -, h⟩⟩ | ⟨-, rfl, -⟩
  · exact hs
  · exact h
  · exact hs

theorem answered_iters {n : UInt64} {l l' : List (List Byte)} (h : Answered SaysIters 1000 l n l') :
    1 ≤ n.toNat ∧ n.toNat ≤ 1000000000 := by
  rcases h with ⟨pre, x, -, -, ⟨-, rfl⟩ | ⟨-, -, h⟩⟩ | ⟨-, rfl, -⟩
  · decide
  · exact h
  · decide

/-- C77: whatever is answered, all setters take the answers, and the settings are complete and usable for a header. -/
theorem C77_answers_usable (before after : List (List Byte)) (a : Prefs) (h : Questions before a after) :
    settingsOf a = { fileMode := some a.fileMode.toNat, hashMode := some a.hashMode.toNat, ch1Mode := some a.ch1Mode.toNat, ch2Mode := some a.ch2Mode.toNat, ch1Iters := some a.ch1Iters.toNat, ch2Iters := some a.ch2Iters.toNat } ∧
    Usable (settingsOf a) := by
  obtain ⟨l1, l2, l3, l4, l5, a1, a2, a3, a4, a5, a6⟩ := h
  have b1 := answered_mode (by decide) a1
  have b2 := answered_mode (by decide) a2
  have b3 := answered_mode (by decide) a3
  have b4 := answered_iters a4
  have b5 := answered_mode (by decide) a5
  have b6 := answered_iters a6
  have e : settingsOf a = { fileMode := some a.fileMode.toNat, hashMode := some a.hashMode.toNat, ch1Mode := some a.ch1Mode.toNat, ch2Mode := some a.ch2Mode.toNat, ch1Iters := some a.ch1Iters.toNat, ch2Iters := some a.ch2Iters.toNat } := by
    have b4' : 0 < a.ch1Iters.toNat ∧ a.ch1Iters.toNat ≤ maxIterations := ⟨b4.1, b4.2⟩
    have b6' : 0 < a.ch2Iters.toNat ∧ a.ch2Iters.toNat ≤ maxIterations := ⟨b6.1, b6.2⟩
    simp [settingsOf, SettingsIters.run, SettingsIters.set, SettingsIters.setFileDataMode, SettingsIters.setHashMode,
      SettingsIters.setChainHash1Mode, SettingsIters.setChainHash2Mode, SettingsIters.setChainHash1Iters,
      SettingsIters.setChainHash2Iters, b1, b2, b3, b4', b5, b6']
  refine ⟨e, ⟨⟨⟨[(.fileMode, a.fileMode.toNat), (.hashMode, a.hashMode.toNat), (.ch1Mode, a.ch1Mode.toNat),
      (.num1, a.ch1Iters.toNat), (.ch2Mode, a.ch2Mode.toNat), (.num2, a.ch2Iters.toNat)], [], [], ?_⟩, ?_, ?_⟩, ?_, ?_, ?_, ?_⟩⟩
  · show settingsOf a = { settingsOf a with dec := [], enc := [] }
    rw [e]
  all_goals rw [e]
  all_goals simp [SettingsIters.isComplete]

/-- a user who wants nothing special, mistypes, and gives a password -/
def sampleInput : Console := ⟨ascii "\n7\n2\n\nmany\n250000\n5x\n\nshort\ncorrect-Horse\nmore", true⟩

example : askForHeader 12 sampleInput = .ok (⟨1, 2, 4, 250000, 5, 1000, ascii "correct-Horse"⟩, ⟨ascii "more", true⟩) := by
  decide +kernel

example : linesLeft sampleInput = [[], ascii "7", ascii "2", [], ascii "many", ascii "250000", ascii "5x", [], ascii "short",
    ascii "correct-Horse", ascii "more"] := by decide +kernel

example : Questions [[], ascii "7", ascii "2"] ⟨1, 2, 4, 1000, 4, 1000, []⟩ [] :=
  ⟨[ascii "7", ascii "2"], [], [], [], [], .inl ⟨[], [], rfl, by simp, .inl ⟨rfl, rfl⟩⟩,
    .inl ⟨[ascii "7"], ascii "2", rfl, by
      intro x hx
      simp only [List.mem_singleton] at hx
      subst hx
      refine ⟨by decide, fun b hb => ?_⟩
      have h1 := (stoi_iff _ _ hb.2.1 (by have := hb.2.2; omega)).mpr hb.1
      have h2 : stoi (ascii "7") = .ok 7 := by decide
      rw [h2] at h1
      injection h1 with h1
      have := hb.2.2
      omega,
      .inr ⟨by decide, ⟨[], [], [50], [], rfl, by simp, .inl rfl, by simp, by simp [IsDigit], by simp, by decide⟩, by decide⟩⟩,
    .inr ⟨by simp, rfl, rfl⟩, .inr ⟨by simp, rfl, rfl⟩, .inr ⟨by simp, rfl, rfl⟩, .inr ⟨by simp, rfl, rfl⟩⟩

/-! ## C78 -/

/-- C78: a path remembered from an earlier start is used, without a question and without a change on the disk. -/
theorem C78_remembered (fuel : Nat) (e : Env) (fs : FS) (cwd stored : Path) (c : Console) (h : stored ≠ []) :
    printStart fuel e fs cwd stored c = .ok (stored, fs, c) := by
  simp [printStart, h]

theorem start_name (fuel : Nat) (e : Env) (fs : FS) (cwd : Path) (c : Console) :
    printStart fuel e fs cwd [] c = (do
      let (name, c) ← askForNameLoop fuel (c.getline []).2 (c.getline []).1
      let p := inDirectory cwd (if !endsWith name FileHandler.ext then name ++ FileHandler.ext else name)
      .ok (p, (if !fs.opens e p then match fs.openOut e p with
        | some fs' => fs'
        | none => fs
        else fs), c)) := by
  rw [printStart, if_neg (by simp)]
  rfl

/-- C78, as far as it holds: the first line with something in it is the name; it is completed by ".enc" and seen from the
current directory. Of all files only this one may change, from missing to empty. Missing: an existing file that may be written
but not read is emptied, and the name ".enc" is taken although no such file can be used. -/
theorem C78_start_partial (e : Env) (fs : FS) (cwd : Path) (hcwd : cwd ≠ []) (c : Console) (pre post : List (List Byte))
    (name : List Byte) (hl : linesLeft c = pre ++ name :: post) (hpre : ∀ x ∈ pre, x = []) (hn : name ≠ []) :
    ∃ p full fs' c', Completed name full ∧ SeenFrom cwd full p ∧ fs' = fs.set p (afterStart e p (fs p)) ∧ linesLeft c' = post ∧
      ∀ fuel, pre.length + 1 < fuel → printStart fuel e fs cwd [] c = .ok (p, fs', c') := by
  have hname : ∃ c', linesLeft c' = post ∧
      ∀ fuel, pre.length + 1 < fuel → askForNameLoop fuel (c.getline []).2 (c.getline []).1 = .ok (name, c') := by
    cases pre with
    | nil =>
      obtain ⟨h1, h2, -⟩ := getline_cons hl []
      refine ⟨(c.getline []).2, h2, fun fuel hf => ?_⟩
      obtain ⟨fuel, rfl⟩ : ∃ n, fuel = n + 1 := ⟨fuel - 1, by simp at hf; omega⟩
      rw [h1, askForNameLoop_succ, if_neg hn]
    | cons x pre =>
      obtain ⟨h1, h2, -⟩ := getline_cons hl []
      have hx := hpre x (by simp)
      subst hx
      have hpre' : ∀ y ∈ pre, y = [] := fun y hy => hpre y (List.mem_cons_of_mem _ hy)
      obtain ⟨c', h3, h4⟩ := askForName_found _ name pre post h2 hpre' hn (pre.length + 2) (by omega)
      refine ⟨c', h4, fun fuel hf => ?_⟩
      have hm : ∀ n k c old r, askForNameLoop n c old = .ok r → askForNameLoop (n + k) c old = .ok r := by
        intro n
        induction n with
        | zero => intro k c old r h; cases h
        | succ n ih =>
          intro k c old r h
          rw [show n + 1 + k = (n + k) + 1 by omega, askForNameLoop_succ]
          rw [askForNameLoop_succ] at h
          split at h
          · rename_i ho; rw [if_pos ho]; exact ih k _ _ _ h
          · rename_i ho; rw [if_neg ho]; exact h
      have := hm _ (fuel - (pre.length + 2)) _ _ _ h3
      rw [show pre.length + 2 + (fuel - (pre.length + 2)) = fuel by simp at hf; omega] at this
      rw [h1]; exact this
  obtain ⟨c', hc', hask⟩ := hname
  have hext : FileHandler.ext = encSuffix := by decide
  generalize hfull : (if !endsWith name FileHandler.ext then name ++ FileHandler.ext else name) = full
  refine ⟨inDirectory cwd full, full, _, c', ?_, ?_, rfl, hc', fun fuel hf => ?_⟩
  · have he := C08_endsWith name FileHandler.ext
    rw [hext] at he hfull
    cases hb : endsWith name encSuffix
    · rw [hb] at he hfull
      exact .inr ⟨hfull.symm, fun h => by simpa using he.mpr h⟩
    · rw [hb] at he hfull
      exact .inl ⟨hfull.symm, he.mp rfl⟩
  · cases full with
    | nil =>
      exfalso
      have := congrArg List.length hfull
      cases hb : endsWith name FileHandler.ext <;> simp [hb] at this
      · exact hn this.1
      · exact hn this
    | cons x s =>
      by_cases hx : x = slash
      · subst hx
        exact .inl ⟨s, rfl, by simp [inDirectory]⟩
      · refine .inr ⟨by rintro ⟨t, ht⟩; injection ht with h _; exact hx h, ?_⟩
        have hlast : cwd.getLast? = some slash ↔ ∃ d, cwd = d ++ [47] := by
          rw [List.getLast?_eq_some_iff]
        simp only [inDirectory, List.head?_cons, Option.some.injEq, hx, if_false, Path.join, hcwd, false_or]
        by_cases hd : cwd.getLast? = some slash
        · rw [if_pos hd]; exact .inr ⟨rfl, hlast.mp hd⟩
        · rw [if_neg hd]; exact .inl ⟨rfl, fun h => hd (hlast.mpr h)⟩
  · rw [start_name, hask fuel hf, Res.bind_ok]
    simp only [hfull]
    congr 3
    generalize inDirectory cwd full = p
    have hsame : ∀ n, fs p = n → fs.set p n = fs := by
      intro n hn; funext q; simp only [FS.set]; split
      · rename_i h; rw [h, hn]
      · rfl
    cases hp : fs p with
    | missing =>
      cases hw : e.canCreate p <;> simp [FS.opens, FS.openOut, hp, hw, afterStart, hsame _ hp]
    | file content =>
      cases hr : e.canRead p <;> cases hw : e.canWrite p <;> simp [FS.opens, FS.openOut, hp, hr, hw, afterStart, hsame _ hp]
    | dir => cases hr : e.canRead p <;> simp [FS.opens, FS.openOut, hp, hr, afterStart, hsame _ hp]
    | unreachable => simp [FS.opens, FS.openOut, hp, afterStart, hsame _ hp]

/-- C78: a file that may be read, or may not be written, is not changed. -/
theorem C78_unchanged_partial (e : Env) (p : Path) (content : List Byte) (h : e.canRead p = true ∨ e.canWrite p = false) :
    afterStart e p (.file content) = .file content := by
  rcases h with h | h <;> simp [afterStart, h]

/-- C78 violated: an existing file is emptied if it may be written but not read. -/
theorem C78_violated_emptied : ∃ (e : Env) (fs : FS) (c : Console) (p : Path) (fs' : FS) (c' : Console) (content : List Byte),
    (∀ fuel, printStart (fuel + 2) e fs (ascii "/home") [] c = .ok (p, fs', c')) ∧ fs p = .file content ∧ content ≠ [] ∧
      fs' p = .file [] := by
  let e : Env := { openEnv with canRead := fun _ => false }
  let fs : FS := fun _ => .file [1, 2, 3]
  obtain ⟨p, full, fs', c', -, -, h3, -, h5⟩ := C78_start_partial e fs (ascii "/home") (by decide) ⟨ascii "vault.enc\n", true⟩ [] []
    (ascii "vault.enc") (by decide) (by simp) (by decide)
  refine ⟨e, fs, ⟨ascii "vault.enc\n", true⟩, p, fs', c', [1, 2, 3], fun fuel => h5 (fuel + 2) (by simp), rfl, by simp, ?_⟩
  rw [h3]
  simp [FS.set, afterStart, fs, e, openEnv]

/-- C78: exactly the names whose last part is more than ".enc" make paths the program works with. -/
theorem C78_enc_iff (p x : Path) (h : p = x ++ encSuffix) : EncPath p ↔ x ≠ [] ∧ ¬ ∃ d, x = d ++ [47] := by
  subst h
  constructor
  · rintro ⟨dir, stem, h1, h2, h3, h4⟩
    have hx : x = dir ++ stem := by
      rw [← List.append_assoc] at h1
      exact List.append_cancel_right h1
    subst hx
    refine ⟨by simp [h2], ?_⟩
    rintro ⟨d, hd⟩
    have : (dir ++ stem).getLast? = some 47 := by rw [hd]; simp
    rw [List.getLast?_append] at this
    cases hs : stem.getLast? with
    | none => exact h2 (List.getLast?_eq_none_iff.mp hs)
    | some a =>
      rw [hs] at this
      have ha : a = 47 := by simpa using this
      subst ha
      exact h3 (List.mem_of_getLast? hs)
  · rintro ⟨h1, h2⟩
    rcases split_last slash x with hs | ⟨q, r, rfl, hr⟩
    · exact ⟨[], x, by simp [encSuffix], h1, hs, .inl rfl⟩
    · refine ⟨q ++ [47], r, by simp [encSuffix, slash], fun h => h2 ⟨q, by simp [h, slash]⟩, hr, .inr ⟨q, rfl⟩⟩

/-- C78 violated: the name ".enc" is taken, but no check of a path accepts what becomes of it. -/
theorem C78_violated_name : ∃ (c : Console) (p : Path), ∀ (e : Env) (fs : FS), (∃ fs' c', ∀ fuel,
    printStart (fuel + 2) e fs (ascii "/home") [] c = .ok (p, fs', c')) ∧
    ∀ fs' b, FileHandler.isValidPath e fs' p b = .ok (.fail .ERR_EXTENSION_INVALID) := by
  refine ⟨⟨ascii ".enc\n", true⟩, ascii "/home/.enc", fun e fs => ⟨?_, fun fs' b => ?_⟩⟩
  · obtain ⟨p, full, fs', c', h1, h2, -, -, h5⟩ := C78_start_partial e fs (ascii "/home") (by decide) ⟨ascii ".enc\n", true⟩ [] []
      (ascii ".enc") (by decide) (by simp) (by decide)
    have hf : full = ascii ".enc" := by
      rcases h1 with ⟨h, -⟩ | ⟨-, h⟩
      · exact h
      · exact absurd ⟨[], by decide⟩ h
    subst hf
    have hp : p = ascii "/home/.enc" := by
      rcases h2 with ⟨s, h, -⟩ | ⟨-, ⟨h, -⟩ | ⟨-, d, h⟩⟩
      · have := congrArg List.head? h
        rw [List.head?_cons] at this
        exact absurd this (by decide)
      · rw [h]; decide
      · have := congrArg List.getLast? h
        rw [List.getLast?_concat] at this
        exact absurd this (by decide)
    subst hp
    exact ⟨fs', c', fun fuel => h5 (fuel + 2) (by simp)⟩
  · have h1 : ascii "/home/.enc" ≠ [] := by decide
    have h2 : Path.extension (ascii "/home/.enc") ≠ FileHandler.ext := by decide
    simp [FileHandler.isValidPath, h1, h2]

/-- C78, as far as it holds: after the start the file can be used, if its name is proper and the file may be read, written
and created. -/
theorem C78_usable_partial (e : Env) (fs : FS) (p : Path) (hp : EncPath p) (he : Healthy e p) (hf : fs p = .missing ∨ ∃ x, fs p = .file x) :
    FileHandler.isValidPath e (fs.set p (afterStart e p (fs p))) p true = .ok (.success ()) := by
  have hne : p ≠ [] := by
    obtain ⟨d, s, h, hs, -⟩ := hp
    rw [h]; simp [hs]
  have hx := (extension_iff p).mpr hp
  rcases hf with hf | ⟨x, hf⟩
  · simp [FileHandler.isValidPath, hne, hx, hf, afterStart, he.create, FS.existsAt, FS.set, FS.opens, he.read]
  · simp [FileHandler.isValidPath, hne, hx, hf, afterStart, FS.existsAt, FS.set, FS.opens, he.read]

/-- C78 violated: if there is no line with something in it, the question for the name is repeated for ever. -/
theorem C78_violated_endless (e : Env) (fs : FS) (cwd : Path) (c : Console) (h : ∀ x ∈ linesLeft c, x = []) (fuel : Nat) :
    printStart fuel e fs cwd [] c = .fatal .diverge := by
  have key : (c.getline []).1 = [] ∧ ∀ x ∈ linesLeft (c.getline []).2, x = [] := by
    cases hl : linesLeft c with
    | nil =>
      obtain ⟨h1, h2, -⟩ := getline_nil hl []
      exact ⟨by rw [h1]; split <;> rfl, by rw [h2]; simp⟩
    | cons l ls =>
      obtain ⟨h1, h2, -⟩ := getline_cons hl []
      rw [hl] at h
      exact ⟨by rw [h1]; exact h l (by simp), by rw [h2]; exact fun x hx => h x (List.mem_cons_of_mem _ hx)⟩
  rw [start_name, key.1, askForName_endless _ key.2, Res.bind_fatal]

/-- two empty lines and the end of the input -/
example : ∀ x ∈ linesLeft ⟨[10, 10], true⟩, x = [] := by decide

/-- a name after an empty line; the suffix is added -/
example : printStart 3 openEnv (fun _ => .missing) (ascii "/home") [] ⟨ascii "\nvault\n", true⟩ =
    .ok (ascii "/home/vault.enc", FS.set (fun _ => .missing) (ascii "/home/vault.enc") (.file []), ⟨[], true⟩) := by
  rfl

/-- the lines of that input meet the conditions of `C78_start_partial` -/
example : linesLeft ⟨ascii "\nvault\n", true⟩ = [[]] ++ ascii "vault" :: [] := by decide

/-- a remembered path -/
example : ascii "/home/vault.enc" ≠ [] := by decide

/-- a proper name below a directory, and one that is not proper -/
example : EncPath (ascii "/home/vault.enc") ∧ ¬ EncPath (ascii "/home/.enc") :=
  ⟨(C78_enc_iff _ (ascii "/home/vault") (by decide)).mpr ⟨by decide, fun ⟨d, h⟩ => by
    have := congrArg List.getLast? h
    rw [List.getLast?_concat] at this
    exact absurd this (by decide)⟩,
   fun h => ((C78_enc_iff _ (ascii "/home/") (by decide)).mp h).2 ⟨ascii "/home", by decide⟩⟩

/-- the new file is usable -/
example : FileHandler.isValidPath openEnv (FS.set (fun _ => .missing) (ascii "/home/vault.enc") (.file []))
    (ascii "/home/vault.enc") true = .ok (.success ()) := by rfl

/-- a file that may be read -/
example : openEnv.canRead (ascii "/home/vault.enc") = true ∨ openEnv.canWrite (ascii "/home/vault.enc") = false := .inl rfl

end Verif.Props
