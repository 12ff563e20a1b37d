import Verif.Lemmas.ChainTable

/-!
Properties C09, C10, C11, C12, C14, C15: chain hashing and the password rule.
`H` is an arbitrary hash function (any digest function with its digest size), `clk` an arbitrary clock,
`m : ModeArgs` one of the five modes with arbitrary salts / coefficients.
-/
namespace Verif.Props
open Spec

/-- concrete hash function for the examples -/
def exH : HashFn := toyHashes.get .sha256

/-! ### C09 -/

/-- C09 (strings): without timeout, `n ≥ 1` iterations compute `n` rounds of the documented recurrence. -/
theorem C09_string_recurrence (H : HashFn) (m : ModeArgs) (hm : m.SaltFits) (pw : List Byte) (n : Nat) (hn : 1 ≤ n)
    (clk : Nat → Nat) :
    ∃ b, m.runStr H pw n 0 clk = .ok (.success b) ∧ b.data = chain H.h m.rule n pw := by
  rcases runStr_result H m hm pw n 0 clk hn with ⟨h, -⟩ | ⟨-, b, h1, h2, -⟩
  · exact absurd rfl h.1
  · exact ⟨b, h1, h2⟩

/-- C09 (bytes): the same for byte input, for every iteration count. -/
theorem C09_bytes_recurrence (H : HashFn) (m : ModeArgs) (hm : m.SaltFits) (d : Bytes) (hd : d.WF) (n : Nat)
    (clk : Nat → Nat) :
    ∃ b, m.runBytes H d n 0 clk = .ok (.success b) ∧ b.data = chain H.h m.rule n d.data := by
  rcases runBytes_result H m hm d hd n 0 clk with ⟨h, -⟩ | ⟨-, b, h1, h2, -⟩
  · exact absurd rfl h.1
  · exact ⟨b, h1, h2⟩

theorem digitChar_byte (d : Nat) (h : d < 10) : (UInt8.ofNat (Nat.digitChar d).toNat).toNat = 48 + d := by
  have : ∀ d : Fin 10, (UInt8.ofNat (Nat.digitChar d.val).toNat).toNat = 48 + d.val := by decide
  exact this ⟨d, h⟩

/-- The decimal text used in the specification is the usual one: digits only, and its value is the number. -/
theorem C09_decText_correct (n : Nat) :
    decValue (decText n) = n ∧ ∀ c ∈ decText n, 48 ≤ c.toNat ∧ c.toNat ≤ 57 := by
  induction n using Nat.strongRecOn with
  | _ n ih =>
    rw [decText, Nat.toDigits_eq_if (by decide)]
    by_cases h : n < 10
    · rw [if_pos h]
      simp only [List.map_cons, List.map_nil, decValue, List.foldl_cons, List.foldl_nil, List.mem_singleton]
      have := digitChar_byte n h
      constructor
      · omega
      · rintro c rfl; omega
    · rw [if_neg h]
      obtain ⟨h1, h2⟩ := ih (n / 10) (by omega)
      simp only [decText, decValue] at h1 h2
      have hd := digitChar_byte (n % 10) (by omega)
      constructor
      · simp only [decValue, List.map_append, List.foldl_append, h1, List.map_cons, List.map_nil, List.foldl_cons,
          List.foldl_nil]
        omega
      · intro c hc
        simp only [List.map_append, List.map_cons, List.map_nil, List.mem_append, List.mem_singleton] at hc
        rcases hc with hc | rfl
        · exact h2 c hc
        · omega

/-- a non-trivial instance: mode 4, salt "xy", counter wrapping around 2^64 -/
example : (ModeArgs.constCount (0 - 1) (ascii "xy")).SaltFits := by simp [ModeArgs.SaltFits, ascii]
example : (ModeArgs.constCount (0 - 1) (ascii "xy")).rule.at 1 = ascii "xy0" := by decide

/-! ### C10 -/

/-- C10: string and byte input give the same digest in every mode for every iteration count ≥ 1. -/
theorem C10_string_bytes_agree (H : HashFn) (m : ModeArgs) (hm : m.SaltFits) (pw : List Byte) (d : Bytes) (hd : d.WF)
    (heq : d.data = pw) (n : Nat) (hn : 1 ≤ n) (clk clk' : Nat → Nat) :
    ∃ b b', m.runStr H pw n 0 clk = .ok (.success b) ∧ m.runBytes H d n 0 clk' = .ok (.success b') ∧
      b.data = b'.data := by
  obtain ⟨b, h1, h2⟩ := C09_string_recurrence H m hm pw n hn clk
  obtain ⟨b', h3, h4⟩ := C09_bytes_recurrence H m hm d hd n clk'
  exact ⟨b, b', h1, h3, by rw [h2, h4, heq]⟩

example : (⟨ascii "pass", 10⟩ : Bytes).WF ∧ (⟨ascii "pass", 10⟩ : Bytes).data = ascii "pass" := by decide

/-! ### C11 -/

/-- C11 (strings): a timeout is reported exactly if a limit is set and at some check (made after each round `j` with
`1 ≤ j < n`, `j` a multiple of 1000) the clock shows at least the limit; otherwise the digest is the one computed
without a limit. -/
theorem C11_string_timeout (H : HashFn) (m : ModeArgs) (hm : m.SaltFits) (pw : List Byte) (n : Nat) (hn : 1 ≤ n)
    (timeout : Nat) (clk : Nat → Nat) :
    (m.runStr H pw n timeout clk = .ok .timeout ↔
      timeout ≠ 0 ∧ ∃ j, 1 ≤ j ∧ j < n ∧ j % 1000 = 0 ∧ timeout ≤ clk j) ∧
    (m.runStr H pw n timeout clk = .ok .timeout ∨
      ∃ b, m.runStr H pw n timeout clk = .ok (.success b) ∧ b.data = chain H.h m.rule n pw) := by
  rcases runStr_result H m hm pw n timeout clk hn with ⟨h, h1⟩ | ⟨h, b, h1, h2, -⟩
  · exact ⟨⟨fun _ => h, fun _ => h1⟩, .inl h1⟩
  · refine ⟨⟨fun h' => ?_, fun h' => absurd h' h⟩, .inr ⟨b, h1, h2⟩⟩
    rw [h1] at h'; simp at h'

/-- C11 (bytes): the same; the byte routines also check after round 0. -/
theorem C11_bytes_timeout (H : HashFn) (m : ModeArgs) (hm : m.SaltFits) (d : Bytes) (hd : d.WF) (n : Nat)
    (timeout : Nat) (clk : Nat → Nat) :
    (m.runBytes H d n timeout clk = .ok .timeout ↔
      timeout ≠ 0 ∧ ∃ j, j < n ∧ j % 1000 = 0 ∧ timeout ≤ clk j) ∧
    (m.runBytes H d n timeout clk = .ok .timeout ∨
      ∃ b, m.runBytes H d n timeout clk = .ok (.success b) ∧ b.data = chain H.h m.rule n d.data) := by
  have hh : Hit timeout clk 0 n ↔ timeout ≠ 0 ∧ ∃ j, j < n ∧ j % 1000 = 0 ∧ timeout ≤ clk j := by simp [Hit]
  rcases runBytes_result H m hm d hd n timeout clk with ⟨h, h1⟩ | ⟨h, b, h1, h2, -⟩
  · exact ⟨⟨fun _ => hh.mp h, fun _ => h1⟩, .inl h1⟩
  · refine ⟨⟨fun h' => ?_, fun h' => absurd (hh.mpr h') h⟩, .inr ⟨b, h1, h2⟩⟩
    rw [h1] at h'; simp at h'

/-- C11: with timeout 0 no clock behaviour leads to a timeout. -/
theorem C11_zero_never_times_out (H : HashFn) (m : ModeArgs) (hm : m.SaltFits) (pw : List Byte) (d : Bytes) (hd : d.WF)
    (n : Nat) (hn : 1 ≤ n) (clk : Nat → Nat) :
    m.runStr H pw n 0 clk ≠ .ok .timeout ∧ m.runBytes H d n 0 clk ≠ .ok .timeout := by
  refine ⟨fun h => ?_, fun h => ?_⟩
  · exact ((C11_string_timeout H m hm pw n hn 0 clk).1.mp h).1 rfl
  · exact ((C11_bytes_timeout H m hm d hd n 0 clk).1.mp h).1 rfl

/-- C11: the limit is noticed within 1000 rounds: if from round `r` on the clock shows at least the limit and at least
1000 more rounds are to be done, the call reports a timeout. -/
theorem C11_limit_noticed (H : HashFn) (m : ModeArgs) (hm : m.SaltFits) (pw : List Byte) (d : Bytes) (hd : d.WF)
    (n r timeout : Nat) (ht : timeout ≠ 0) (hr : 1 ≤ r) (hn : r + 1000 ≤ n) (clk : Nat → Nat)
    (hclk : ∀ j, r ≤ j → timeout ≤ clk j) :
    m.runStr H pw n timeout clk = .ok .timeout ∧ m.runBytes H d n timeout clk = .ok .timeout := by
  have hj : ∃ j, r ≤ j ∧ j < r + 1000 ∧ j % 1000 = 0 := ⟨(r + 999) / 1000 * 1000, by omega, by omega, by omega⟩
  obtain ⟨j, h1, h2, h3⟩ := hj
  constructor
  · exact (C11_string_timeout H m hm pw n (by omega) timeout clk).1.mpr ⟨ht, j, by omega, by omega, h3, hclk j h1⟩
  · exact (C11_bytes_timeout H m hm d hd n timeout clk).1.mpr ⟨ht, j, by omega, h3, hclk j h1⟩

/-- a clock that reaches the limit of 5 ms at round 2000 of 5000 -/
example : (5 : Nat) ≠ 0 ∧ ∃ j, 1 ≤ j ∧ j < 5000 ∧ j % 1000 = 0 ∧ 5 ≤ (fun j => j / 400) j := ⟨by decide, 2000, by decide⟩
example : ¬ ∃ j, 1 ≤ j ∧ j < 1500 ∧ j % 1000 = 0 ∧ 5 ≤ (fun j => j / 400) j := by
  rintro ⟨j, h1, h2, h3, h4⟩
  have : j = 1000 := by omega
  subst this
  exact absurd h4 (by decide)

/-! ### C12 -/

/-- C12 (strings): whatever the clock does, if the timed routine returns (within any number `fuel` of rounds), the
reported count is a positive multiple of 1000 and the counted routine with that count returns the same digest. -/
theorem C12_timed_string (H : HashFn) (m : ModeArgs) (hm : m.SaltFits) (pw : List Byte) (timeout : Nat)
    (clk clk' : Nat → Nat) (fuel n : Nat) (b : Bytes) (h : m.runTimedStr H pw timeout clk fuel = .ok (n, b)) :
    n % 1000 = 0 ∧ 1000 ≤ n ∧ timeout ≤ clk n ∧
      ∃ b', m.runStr H pw n 0 clk' = .ok (.success b') ∧ b'.data = b.data := by
  rcases runTimedStr_result H m hm pw timeout clk fuel with ⟨h1, -⟩ | ⟨n', b1, h1, h2, h3, h4, h5, -⟩
  · rw [h] at h1; cases h1
  · rw [h] at h1
    simp only [Res.ok.injEq, Prod.mk.injEq] at h1
    obtain ⟨rfl, rfl⟩ := h1
    obtain ⟨b', h6, h7⟩ := C09_string_recurrence H m hm pw n (by omega) clk'
    exact ⟨h3, by omega, h4, b', h6, by rw [h7, h5]⟩

/-- C12 (bytes) -/
theorem C12_timed_bytes (H : HashFn) (m : ModeArgs) (hm : m.SaltFits) (d : Bytes) (hd : d.WF) (timeout : Nat)
    (clk clk' : Nat → Nat) (fuel n : Nat) (b : Bytes) (h : m.runTimedBytes H d timeout clk fuel = .ok (n, b)) :
    n % 1000 = 0 ∧ 1000 ≤ n ∧ timeout ≤ clk n ∧
      ∃ b', m.runBytes H d n 0 clk' = .ok (.success b') ∧ b'.data = b.data := by
  rcases runTimedBytes_result H m hm d hd timeout clk fuel with ⟨h1, -⟩ | ⟨n', b1, h1, h2, h3, h4, h5, -⟩
  · rw [h] at h1; cases h1
  · rw [h] at h1
    simp only [Res.ok.injEq, Prod.mk.injEq] at h1
    obtain ⟨rfl, rfl⟩ := h1
    obtain ⟨b', h6, h7⟩ := C09_bytes_recurrence H m hm d hd n clk'
    exact ⟨h3, by omega, h4, b', h6, by rw [h7, h5]⟩

/-- C12: the timed routines do return once the clock reaches the limit at a check (a check is made whenever the count
is a multiple of 1000). -/
theorem C12_timed_returns (H : HashFn) (m : ModeArgs) (hm : m.SaltFits) (pw : List Byte) (d : Bytes) (hd : d.WF)
    (timeout : Nat) (clk : Nat → Nat) (k : Nat) (hk : 1 ≤ k) (hc : timeout ≤ clk (1000 * k)) (fuel : Nat)
    (hf : 1000 * k ≤ fuel) :
    (∃ r, m.runTimedStr H pw timeout clk fuel = .ok r) ∧ (∃ r, m.runTimedBytes H d timeout clk fuel = .ok r) := by
  constructor
  · rcases runTimedStr_result H m hm pw timeout clk fuel with ⟨-, h⟩ | ⟨n', b1, h1, -⟩
    · exact absurd hc (h (1000 * k) (by omega) (by omega) (by omega))
    · exact ⟨_, h1⟩
  · rcases runTimedBytes_result H m hm d hd timeout clk fuel with ⟨-, h⟩ | ⟨n', b1, h1, -⟩
    · exact absurd hc (h (1000 * k) (by omega) (by omega) (by omega))
    · exact ⟨_, h1⟩

/-- a clock meeting the hypotheses: 7 ms per 1000 rounds, limit 20 ms, reached at round 3000 -/
example : 20 ≤ (fun j => 7 * (j / 1000)) (1000 * 3) := by decide

/-! ### C14 -/

theorem runStr_zero (H : HashFn) (m : ModeArgs) (pw : List Byte) (timeout : Nat) (clk : Nat → Nat) :
    m.runStr H pw 0 timeout clk = m.runStr H pw 1 timeout clk := by cases m <;> rfl

/-- C14: for salts below 4 GiB no routine terminates the process: the counted ones return (a digest or a timeout), the
timed ones return or keep running. -/
theorem C14_no_overflow_partial (H : HashFn) (m : ModeArgs) (hm : m.SaltFits) (pw : List Byte) (d : Bytes) (hd : d.WF)
    (n timeout : Nat) (clk : Nat → Nat) (fuel : Nat) :
    (∃ o, m.runStr H pw n timeout clk = .ok o) ∧
    (∃ o, m.runBytes H d n timeout clk = .ok o) ∧
    ((∃ r, m.runTimedStr H pw timeout clk fuel = .ok r) ∨ m.runTimedStr H pw timeout clk fuel = .fatal .diverge) ∧
    ((∃ r, m.runTimedBytes H d timeout clk fuel = .ok r) ∨
      m.runTimedBytes H d timeout clk fuel = .fatal .diverge) := by
  refine ⟨?_, ?_, ?_, ?_⟩
  · have key : ∀ n, 1 ≤ n → ∃ o, m.runStr H pw n timeout clk = .ok o := by
      intro n hn
      rcases runStr_result H m hm pw n timeout clk hn with ⟨-, h⟩ | ⟨-, b, h, -⟩ <;> exact ⟨_, h⟩
    rcases Nat.eq_zero_or_pos n with h | h
    · subst h; rw [runStr_zero]; exact key 1 (by decide)
    · exact key n h
  · rcases runBytes_result H m hm d hd n timeout clk with ⟨-, h⟩ | ⟨-, b, h, -⟩ <;> exact ⟨_, h⟩
  · rcases runTimedStr_result H m hm pw timeout clk fuel with ⟨h, -⟩ | ⟨n, b, h, -⟩
    · exact .inr h
    · exact .inl ⟨_, h⟩
  · rcases runTimedBytes_result H m hm d hd timeout clk fuel with ⟨h, -⟩ | ⟨n, b, h, -⟩
    · exact .inr h
    · exact .inl ⟨_, h⟩

/-- C14 fails for a constant salt of exactly 2^32 bytes: the reserved room is computed modulo 2^32, so the second round
terminates the process. (Such salts cannot come from a file header, whose salts have at most 255 bytes, see
`C18_random_data_usable`; they can be passed to the public routine directly.) -/
theorem C14_giant_salt_terminates (H : HashFn) (salt pw : List Byte) (hs : salt.length = 2 ^ 32) (n : Nat)
    (hn : 2 ≤ n) (timeout : Nat) (clk : Nat → Nat) :
    (ModeArgs.const salt).runStr H pw n timeout clk = .fatal .terminate := by
  have e : (H.size + salt.length % 2 ^ 32) % 2 ^ 32 = H.size := by rw [hs]; have := H.small; omega
  simp only [ModeArgs.runStr, PwFunc.chainhashConstStr, HashFn.hashStr, e, Nat.lt_irrefl, if_false, Res.bind_ok]
  obtain ⟨k, rfl⟩ : ∃ k, n = k + 2 := ⟨n - 2, by omega⟩
  simp only [show k + 2 - 1 = k + 1 by omega, chLoop, PwFunc.bodyConst, addStringToBytes,
    HashFn.len, Nat.sub_self, gt_iff_lt, hs]
  simp

example : (List.replicate (2 ^ 32) (65 : Byte)).length = 2 ^ 32 := List.length_replicate

/-! ### C15 -/

theorem charFound_iff (c : Byte) (l : List Byte) : charFound c l = true ↔ c ∈ l := by
  induction l with
  | nil => simp [charFound]
  | cons d ds ih =>
    simp only [charFound, List.mem_cons, beq_iff_eq]
    split
    · simp_all
    · simp_all

theorem checkChars_none (l : List Byte) : checkChars l = none ↔ ∀ c ∈ l, c ∈ validPassCharset := by
  induction l with
  | nil => simp [checkChars]
  | cons c cs ih =>
    simp only [checkChars, List.mem_cons, forall_eq_or_imp]
    by_cases h : charFound c validPassCharset = true
    · simp [h, ih, (charFound_iff _ _).mp h]
    · have : c ∉ validPassCharset := fun hc => h ((charFound_iff _ _).mpr hc)
      simp [h, this]

theorem checkChars_some (l : List Byte) (x : Byte) :
    checkChars l = some x ↔ ∃ p s, l = p ++ x :: s ∧ (∀ c ∈ p, c ∈ validPassCharset) ∧ x ∉ validPassCharset := by
  induction l with
  | nil => simp [checkChars]
  | cons c cs ih =>
    simp only [checkChars]
    by_cases h : charFound c validPassCharset = true
    · have hc := (charFound_iff _ _).mp h
      simp only [h, Bool.not_true, Bool.false_eq_true, if_false, ih]
      constructor
      · rintro ⟨p, s, rfl, h1, h2⟩
        exact ⟨c :: p, s, rfl, by simpa [hc] using h1, h2⟩
      · rintro ⟨p, s, he, h1, h2⟩
        cases p with
        | nil =>
          simp only [List.nil_append, List.cons.injEq] at he
          rw [he.1] at hc; exact absurd hc h2
        | cons a p =>
          simp only [List.cons_append, List.cons.injEq] at he
          exact ⟨p, s, he.2, fun y hy => h1 y (List.mem_cons_of_mem _ hy), h2⟩
    · have hc : c ∉ validPassCharset := fun hc => h ((charFound_iff _ _).mpr hc)
      simp only [h, Bool.not_false, if_true, Option.some.injEq]
      constructor
      · rintro rfl; exact ⟨[], cs, rfl, by simp, hc⟩
      · rintro ⟨p, s, he, h1, h2⟩
        cases p with
        | nil => simp at he; exact he.1
        | cons a p =>
          simp only [List.cons_append, List.cons.injEq] at he
          exact absurd (he.1 ▸ h1 a (by simp)) hc

theorem mem_charset (c : Byte) : c ∈ validPassCharset ↔ passChar c = true := by
  have h : ∀ i : Fin 256, decide (UInt8.ofNat i.val ∈ validPassCharset) = passChar (UInt8.ofNat i.val) := by
    decide +kernel
  have := h ⟨c.toNat, c.toNat_lt⟩
  simp only [UInt8.ofNat_toNat] at this
  rw [← this, decide_eq_true_eq]

/-- C15: a password is accepted exactly if it has at least 8 bytes, all allowed. -/
theorem C15_accepted (pw : List Byte) :
    isPasswordValid pw = .valid ↔ 8 ≤ pw.length ∧ ∀ c ∈ pw, passChar c = true := by
  simp only [isPasswordValid, ← mem_charset]
  cases h : checkChars pw with
  | some x =>
    have : ¬ ∀ c ∈ pw, c ∈ validPassCharset := fun hc => by
      rw [(checkChars_none pw).mpr hc] at h; simp at h
    simp [this]
  | none =>
    have := (checkChars_none pw).mp h
    by_cases hl : pw.length < 8
    · simp only [if_pos hl, reduceCtorEq, false_iff, not_and]; omega
    · simp only [if_neg hl, true_iff]; exact ⟨by omega, this⟩

/-- C15: the error names the first offending character. -/
theorem C15_first_bad_char (pw : List Byte) (x : Byte) :
    isPasswordValid pw = .charInvalid x ↔
      ∃ p s, pw = p ++ x :: s ∧ (∀ c ∈ p, passChar c = true) ∧ passChar x = false := by
  simp only [← mem_charset, ← Bool.not_eq_true]
  rw [← checkChars_some]
  simp only [isPasswordValid]
  cases h : checkChars pw with
  | some y => simp
  | none => simp only [reduceCtorEq, iff_false]; split <;> simp

/-- C15: too short is reported only if all characters are fine. -/
theorem C15_too_short (pw : List Byte) :
    isPasswordValid pw = .tooShort ↔ pw.length < 8 ∧ ∀ c ∈ pw, passChar c = true := by
  simp only [← mem_charset]
  rw [← checkChars_none]
  simp only [isPasswordValid]
  cases h : checkChars pw with
  | some y => simp
  | none => simp only [and_true]; split <;> simp_all

example : isPasswordValid (ascii "correct-Horse") = .valid := by decide
example : isPasswordValid (ascii "correct horse") = .charInvalid 32 := by decide

end Verif.Props
