import Verif.Lemmas.Attacker
import Verif.Props.Select
import Verif.Props.Sample

/- C91: the brute-force attacker of the tests. `HObj` are the header objects a program can hold. -/
namespace Verif.Props
open Spec Attacker

/-- C91, general: the attacker goes through the passwords in order of their length, in each length in the order of their numbers,
but counts those of a length in 64 bits. With enough time for the lengths up to `n` it stops exactly at the first of them that
opens the file, with the number of guesses it took; if none opens it, it is still running. `ret` is what lay in the memory of
the result before; missing is the case that it looks like a timeout (C91_violated_memory). -/
theorem C91_search_partial (hs : Hashes) {d : DataHeader} (hd : HObj d) (hc : d.isComplete = true) (clk : Nat → Nat) (ret : Return)
    (hr : ret.success ≠ .TIMEOUT) (n : Nat) :
    (∃ pw, Guessed n pw ∧ Opens hs d.contents pw ∧ (∀ x, Guessed n x → GuessedBefore x pw → ¬ Opens hs d.contents x) ∧
      ∃ r, attack hs d.dh clk ret n = .ok (.done r) ∧ r.success = .SUCCESS ∧ r.tries = UInt64.ofNat (guessesTo pw) ∧
        r.progress = UInt64.ofNat pw.length) ∨
    ((∀ x, Guessed n x → ¬ Opens hs d.contents x) ∧ ∃ t, attack hs d.dh clk ret n = .ok (.running t)) := by
  rcases attack_spec (attempt_spec hs ⟨hd.inv, hc⟩ clk) ret hr n with ⟨w, h1, h2, h3, b, h4, -⟩ | h
  · exact .inl ⟨w, h1, h2, h3, _, h4, rfl, rfl, rfl⟩
  · exact .inr h

/-- passwords of up to nine characters are all guessed -/
theorem guessed_short {n : Nat} {x : List Byte} (h : ∀ c ∈ x, c ∈ guessChars) (hn : x.length ≤ n) (h9 : x.length ≤ 9) : Guessed n x := by
  refine ⟨h, hn, ?_⟩
  have : ∀ k : Fin 10, 90 ^ k.1 % 2 ^ 64 = 90 ^ k.1 := by decide +kernel
  rw [this ⟨x.length, by omega⟩]
  exact number_lt h

theorem sum_short (l : Nat) (hl : l ≤ 9) :
    89 * ((List.range l).map fun k => 90 ^ k % 2 ^ 64).sum + 1 = 90 ^ l := by
  have : ∀ k : Fin 10, 89 * ((List.range k.1).map fun k => 90 ^ k % 2 ^ 64).sum + 1 = 90 ^ k.1 := by decide +kernel
  exact this ⟨l, by omega⟩

/-- C91: a password of at most nine allowed characters (the program asks for at least eight) is found: the attacker stops at it or
at one before it that opens the file as well, and needs fewer than 2 · 90^length guesses. -/
theorem C91_short_partial (hs : Hashes) {d : DataHeader} (hd : HObj d) (hc : d.isComplete = true) (clk : Nat → Nat) (ret : Return)
    (hr : ret.success ≠ .TIMEOUT) (pw : List Byte) (hpw : ∀ c ∈ pw, passChar c = true) (h9 : pw.length ≤ 9)
    (ho : Opens hs d.contents pw) (n : Nat) (hn : pw.length ≤ n) :
    ∃ x r, Opens hs d.contents x ∧ (x = pw ∨ GuessedBefore x pw) ∧ attack hs d.dh clk ret n = .ok (.done r) ∧
      r.success = .SUCCESS ∧ r.progress.toNat = x.length ∧ r.tries.toNat = guessesTo x ∧ r.tries.toNat < 2 * 90 ^ pw.length := by
  have hall : ∀ c ∈ pw, c ∈ guessChars := by
    intro c hc
    rw [← chars_eq]
    exact (mem_charset c).mpr (hpw c hc)
  have hg := guessed_short hall hn h9
  rcases C91_search_partial hs hd hc clk ret hr n with ⟨x, h1, h2, h3, r, h4, h5, h6, h7⟩ | ⟨h1, -⟩
  · have hord : x = pw ∨ GuessedBefore x pw := by
      by_cases e : x = pw
      · exact .inl e
      right
      have nb : ¬ GuessedBefore pw x := fun hb => h3 pw hg hb ho
      rcases Nat.lt_trichotomy x.length pw.length with h | h | h
      · exact .inl h
      · rcases Nat.lt_trichotomy (guessNumber x) (guessNumber pw) with g | g | g
        · exact .inr ⟨h, g⟩
        · refine absurd ?_ e
          have b1 : guessNumber x < 2 ^ 64 := by
            have := Nat.mod_lt (90 ^ x.length) (show 0 < 2 ^ 64 by decide)
            have := h1.2.2
            omega
          have e1 := combination_of h1.1 (UInt64.ofNat (guessNumber x)) (by rw [UInt64.toNat_ofNat', Nat.mod_eq_of_lt b1])
          have e2 := combination_of hall (UInt64.ofNat (guessNumber x)) (by rw [UInt64.toNat_ofNat', Nat.mod_eq_of_lt b1, g])
          rw [← e1, ← e2, h]
        · exact absurd (.inr ⟨h.symm, g⟩) nb
      · exact absurd (.inl h) nb
    have hlen : x.length ≤ pw.length := by
      rcases hord with rfl | h | ⟨h, -⟩ <;> omega
    have hx : guessesTo x < 2 * 90 ^ pw.length := by
      have k1 := sum_short x.length (by omega)
      have k2 := number_lt h1.1
      have k3 : 90 ^ x.length ≤ 90 ^ pw.length := Nat.pow_le_pow_right (by decide) hlen
      have k4 : 1 ≤ 90 ^ x.length := Nat.one_le_pow _ _ (by decide)
      rw [guessesTo]
      by_cases hz : x.length = 0
      · have : x = [] := List.eq_nil_of_length_eq_zero hz
        subst this
        simp [guessNumber]
        have : 1 ≤ 90 ^ pw.length := Nat.one_le_pow _ _ (by decide)
        omega
      · have k5 : 90 ^ 1 ≤ 90 ^ x.length := Nat.pow_le_pow_right (by decide) (by omega)
        omega
    have hb : 2 * 90 ^ pw.length < 2 ^ 64 := by
      have : 90 ^ pw.length ≤ 90 ^ 9 := Nat.pow_le_pow_right (by decide) h9
      omega
    refine ⟨x, r, h2, hord, h4, h5, ?_, ?_, ?_⟩
    · rw [h7, UInt64.toNat_ofNat', Nat.mod_eq_of_lt (by omega)]
    · rw [h6, UInt64.toNat_ofNat', Nat.mod_eq_of_lt (by omega)]
    · rw [h6, UInt64.toNat_ofNat', Nat.mod_eq_of_lt (by omega)]; exact hx
  · exact absurd ho (h1 pw hg)

/-- the last character of a guessed password of eleven characters or more is an `a` -/
theorem guessed_long {n : Nat} {x : List Byte} (h : Guessed n x) (hl : 11 ≤ x.length) : x.getLast? = some 97 := by
  obtain ⟨h1, -, h3⟩ := h
  have hlt : guessNumber x < 90 ^ 10 := by
    have := Nat.mod_lt (90 ^ x.length) (show 0 < 2 ^ 64 by decide)
    omega
  clear h3
  have key : ∀ (k : Nat) (x : List Byte), (∀ c ∈ x, c ∈ guessChars) → guessNumber x < 90 ^ k → k < x.length → x.getLast? = some 97 := by
    intro k
    induction k with
    | zero =>
      intro x hx h0
      have h0 : guessNumber x = 0 := by simpa using h0
      induction x with
      | nil => simp
      | cons c cs ih =>
        intro _
        simp only [guessNumber] at h0
        cases cs with
        | nil =>
          have hc := getD_idxOf (hx c List.mem_cons_self)
          rw [show guessChars.idxOf c = 0 by omega] at hc
          rw [← hc]; decide +kernel
        | cons c' cs =>
          rw [List.getLast?_cons_cons]
          exact ih (fun y hy => hx y (List.mem_cons_of_mem _ hy)) (by omega) (by omega) (by simp)
    | succ k ih =>
      intro x hx h0 hl
      cases x with
      | nil => simp at hl
      | cons c cs =>
        simp only [guessNumber, Nat.pow_succ] at h0
        cases cs with
        | nil => simp at hl
        | cons c' cs =>
          rw [List.getLast?_cons_cons]
          exact ih _ (fun y hy => hx y (List.mem_cons_of_mem _ hy)) (by omega) (by simpa using hl)
  exact key 10 x h1 hlt (by omega)

/-- no password of 64 characters or more is guessed at all -/
theorem guessed_huge {n : Nat} {x : List Byte} (h : Guessed n x) : x.length < 64 := by
  have h3 := h.2.2
  by_cases hl : x.length < 64
  · exact hl
  have : 90 ^ x.length % 2 ^ 64 = 0 := by
    apply Nat.mod_eq_zero_of_dvd
    have e : (90 : Nat) ^ x.length = 2 ^ x.length * 45 ^ x.length := by rw [← Nat.mul_pow]
    rw [e]
    exact Nat.dvd_trans (Nat.pow_dvd_pow 2 (by omega)) (Nat.dvd_mul_right _ _)
  omega

/-- C91 is violated (1): if all passwords that open the file have eleven characters or more and do not end in `a`, or have 64 or
more, the attacker never finds one, however long it runs. -/
theorem C91_violated_long (hs : Hashes) {d : DataHeader} (hd : HObj d) (hc : d.isComplete = true) (clk : Nat → Nat) (ret : Return)
    (hr : ret.success ≠ .TIMEOUT)
    (ho : ∀ x, Opens hs d.contents x → (11 ≤ x.length ∧ x.getLast? ≠ some 97) ∨ 64 ≤ x.length) (n : Nat) :
    ∃ t, attack hs d.dh clk ret n = .ok (.running t) := by
  rcases C91_search_partial hs hd hc clk ret hr n with ⟨x, h1, h2, -⟩ | ⟨-, h⟩
  · rcases ho x h2 with ⟨h3, h4⟩ | h3
    · exact absurd (guessed_long h1 h3) h4
    · have := guessed_huge h1; omega
  · exact h

/-- C91 is violated (2): what the attacker hands out is the validator, which stands in the header for everybody to read, and not
the hash of the password. So the harness, which compares it with the hash of the password, reports a success exactly if the two
happen to be the same. -/
theorem C91_violated_result (hs : Hashes) {d : DataHeader} (hd : HObj d) (hc : d.isComplete = true) (clk : Nat → Nat) (ret : Return)
    (hr : ret.success ≠ .TIMEOUT) (pwhash : Bytes) (n : Nat) :
    (∀ r, attack hs d.dh clk ret n = .ok (.done r) → r.hash.data = d.contents.validator) ∧
    ((∃ pw, Guessed n pw ∧ Opens hs d.contents pw) →
      run hs d clk ret n pwhash = .ok (some (decide (d.contents.validator = pwhash.data)))) := by
  have hp : d.getDataHeaderParts = .ok d.dh := by simp [DataHeader.getDataHeaderParts, hc]
  rcases attack_spec (attempt_spec hs ⟨hd.inv, hc⟩ clk) ret hr n with ⟨w, h1, h2, h3, b, h4, h5⟩ | ⟨h1, t, h2⟩
  · refine ⟨?_, fun _ => ?_⟩
    · intro r h
      rw [h4] at h
      cases h
      exact h5
    · simp only [run, hp, h4, Res.bind_ok, Bytes.beq, h5]
      by_cases e : d.contents.validator = pwhash.data <;> simp [e]
  · refine ⟨?_, ?_⟩
    · intro r h
      rw [h2] at h
      cases h
    · rintro ⟨pw, k1, k2⟩
      exact absurd k2 (h1 pw k1)

/-- C91 is violated (3): the result is not initialised. If the memory happens to hold the value of a timeout, the attacker gives
up after the passwords of one character and returns what the memory held; the harness counts that as a failure. -/
theorem C91_violated_memory (hs : Hashes) {d : DataHeader} (hd : HObj d) (hc : d.isComplete = true) (clk : Nat → Nat) (ret : Return)
    (hr : ret.success = .TIMEOUT) (ho : ∀ x, Opens hs d.contents x → 2 ≤ x.length) (n : Nat) :
    attack hs d.dh clk ret (n + 1) = .ok (.done ret) ∧ ∀ pwhash, run hs d clk ret (n + 1) pwhash = .ok (some false) := by
  have hp : d.getDataHeaderParts = .ok d.dh := by simp [DataHeader.getDataHeaderParts, hc]
  suffices h : attack hs d.dh clk ret (n + 1) = .ok (.done ret) by
    refine ⟨h, fun pwhash => ?_⟩
    simp only [run, hp, h, Res.bind_ok, hr]
  have ht := attempt_spec hs (d := d) ⟨hd.inv, hc⟩ clk
  have h0 : ∃ b, attempt hs d.dh clk [] = .ok (b, false) := by
    rcases ht [] with ⟨h, -⟩ | ⟨-, h⟩
    · have := ho _ h; simp at this
    · exact h
  obtain ⟨b, hb⟩ := h0
  rcases combinations_spec ht 1 (numCombinations 1).toNat 0 1 (by decide) with ⟨j, -, h2, -⟩ | ⟨-, h2⟩
  · have := ho _ h2
    rw [(combination_spec 1 _).1] at this
    omega
  · simp only [attack, hb, Res.bind_ok]
    rw [if_neg (by decide)]
    simp only [lengths, h2, Res.bind_ok, if_pos hr, Res.noexcept_ok]

/-- C91, as far as it holds: the harness never confirms a result unless a password was found that opens the file, whatever the
memory held before. -/
theorem C91_confirmed_partial (hs : Hashes) {d : DataHeader} (hd : HObj d) (hc : d.isComplete = true) (clk : Nat → Nat) (ret : Return)
    (pwhash : Bytes) (n : Nat) (h : run hs d clk ret n pwhash = .ok (some true)) : ∃ pw, Guessed n pw ∧ Opens hs d.contents pw := by
  have hp : d.getDataHeaderParts = .ok d.dh := by simp [DataHeader.getDataHeaderParts, hc]
  have ht := attempt_spec hs (d := d) ⟨hd.inv, hc⟩ clk
  by_cases hr : ret.success = .TIMEOUT
  · rcases Classical.em (∃ x, Opens hs d.contents x ∧ Guessed n x) with ⟨x, h1, h2⟩ | hno
    · exact ⟨x, h2, h1⟩
    exfalso
    cases n with
    | zero =>
      rcases ht [] with ⟨hg, -⟩ | ⟨-, b, hb⟩
      · exact hno ⟨[], hg, by simp, by simp, by decide⟩
      · simp [run, hp, attack, hb, lengths] at h
    | succ n =>
      have hat : attack hs d.dh clk ret (n + 1) = .ok (.done ret) := by
        rcases ht [] with ⟨hg, -⟩ | ⟨-, b, hb⟩
        · exact absurd ⟨[], hg, by simp, by simp, by decide⟩ hno
        rcases combinations_spec ht 1 (numCombinations 1).toNat 0 1 (by decide) with ⟨j, h1, h2, -⟩ | ⟨-, h2⟩
        · obtain ⟨k1, k2, k3⟩ := combination_spec 1 (UInt64.ofNat ((0 : UInt64).toNat + j))
          refine absurd ⟨_, h2, k2, by omega, ?_⟩ hno
          rw [k1, k3]
          exact Nat.lt_of_lt_of_le (Nat.mod_lt _ (by decide)) (by decide)
        · simp only [attack, hb, Res.bind_ok]
          rw [if_neg (by decide)]
          simp only [lengths, h2, Res.bind_ok, if_pos hr, Res.noexcept_ok]
      simp [run, hp, hat, hr] at h
  · rcases attack_spec ht ret hr n with ⟨w, h1, h2, -⟩ | ⟨-, t, h2⟩
    · exact ⟨w, h1, h2⟩
    · simp [run, hp, h2] at h

/-! ### cases -/

/-- a hash function under which a single password opens the header below -/
def lockHash (n : Nat) (pw x : List Byte) : List Byte :=
  if x = pw then List.replicate n 1 else if x = List.replicate n 1 then List.replicate n 2 else List.replicate n 0

theorem lockHash_length (n : Nat) (pw x : List Byte) : (lockHash n pw x).length = n := by
  unfold lockHash
  split
  · exact List.length_replicate
  · split <;> exact List.length_replicate

def lockHashes (pw : List Byte) : Hashes :=
  ⟨lockHash 32 pw, lockHash 48 pw, lockHash 64 pw, lockHash_length 32 pw, lockHash_length 48 pw, lockHash_length 64 pw⟩

def lockHeader : Header :=
  ⟨104, 1, 1, [], ⟨1, 1, []⟩, ⟨1, 1, []⟩, List.replicate 32 2, List.replicate 32 7, []⟩

/-- a program reads the header from a file -/
theorem lock_obj (P : DataHeader → Bool)
    (h : (match HeaderParse.setHeaderStream toyHashes ⟨true, fun _ => 0⟩ ⟨lockHeader.bytes, fun _ => 5, false, false⟩ with
      | .ok (.val d _) => d.isComplete && (d.contents == lockHeader) && P d | _ => false) = true) :
    ∃ d, HObj d ∧ d.isComplete = true ∧ d.contents = lockHeader ∧ P d = true := by
  split at h
  · rename_i d s e
    simp only [Bool.and_eq_true, beq_iff_eq] at h
    exact ⟨d, .stream (r := ⟨true, fun _ => 0⟩) rfl rfl e, h.1.1, h.1.2, h.2⟩
  · cases h

theorem lock_opens {pw : List Byte} (hl : pw.length ≠ 32) (x : List Byte) : Opens (lockHashes pw) lockHeader x ↔ x = pw := by
  have key : ∀ y, lockHash 32 pw (lockHash 32 pw y) = List.replicate 32 2 ↔ y = pw := by
    intro y
    have hne : ∀ k : Byte, List.replicate 32 k ≠ pw := by
      intro k hk
      exact hl (by rw [← hk]; exact List.length_replicate)
    by_cases hy : y = pw
    · rw [show lockHash 32 pw y = List.replicate 32 1 by rw [lockHash, if_pos hy]]
      rw [lockHash, if_neg (hne 1), if_pos rfl]
      exact ⟨fun _ => hy, fun _ => rfl⟩
    · refine ⟨fun h => ?_, fun h => absurd h hy⟩
      by_cases h1 : y = List.replicate 32 1
      · rw [show lockHash 32 pw y = List.replicate 32 2 by rw [lockHash, if_neg hy, if_pos h1],
          show lockHash 32 pw (List.replicate 32 2) = List.replicate 32 0 by
            rw [lockHash, if_neg (hne 2), if_neg (by decide)]] at h
        exact absurd h (by decide)
      · rw [show lockHash 32 pw y = List.replicate 32 0 by rw [lockHash, if_neg hy, if_neg h1],
          show lockHash 32 pw (List.replicate 32 0) = List.replicate 32 0 by
            rw [lockHash, if_neg (hne 0), if_neg (by decide)]] at h
        exact absurd h (by decide)
  have hd : ∀ h : List Byte → List Byte, lockHeader.ch2.digest h (lockHeader.ch1.digest h x) = h (h x) := by
    intro h
    show h (h (x ++ []) ++ []) = _
    rw [List.append_nil, List.append_nil]
  constructor
  · rintro ⟨m, hm, h⟩
    cases m with
    | sha256 => rw [hd] at h; exact (key x).mp h
    | sha384 => exact absurd hm (by decide)
    | sha512 => exact absurd hm (by decide)
  · intro hx
    refine ⟨.sha256, by decide, ?_⟩
    rw [hd]
    exact (key x).mpr hx

/-- C91 is violated (1), with a witness: the password `correct-horse!`, which the program accepts, is the only one that opens the
file, and the attacker never finds it. -/
theorem C91_violated_never : ∃ (hs : Hashes) (d : DataHeader), HObj d ∧ d.isComplete = true ∧
    isPasswordValid (ascii "correct-horse!") = .valid ∧ Opens hs d.contents (ascii "correct-horse!") ∧
    ∀ (clk : Nat → Nat) (ret : Return), ret.success ≠ .TIMEOUT → ∀ n, ∃ t, attack hs d.dh clk ret n = .ok (.running t) := by
  obtain ⟨d, h1, h2, h3, -⟩ := lock_obj (fun _ => true) (by decide +kernel)
  have ho := lock_opens (pw := ascii "correct-horse!") (by decide +kernel)
  refine ⟨lockHashes (ascii "correct-horse!"), d, h1, h2, by decide +kernel, by rw [h3, ho], ?_⟩
  intro clk ret hr n
  refine C91_violated_long _ h1 h2 clk ret hr ?_ n
  intro x hx
  rw [h3, ho] at hx
  subst hx
  exact .inl (by decide +kernel)

/-- memory in which the result is placed -/
def anyMemory : Return := ⟨.FAIL, 77, 88, Bytes.empty 0⟩

/-- the password `1e` is found after 273 guesses; the harness, given the hash of the password, does not see it as a success -/
example : ∃ d, HObj d ∧ d.isComplete = true ∧ d.contents = lockHeader ∧
    (attack (lockHashes (ascii "1e")) d.dh (fun _ => 0) anyMemory 2 == .ok (.done ⟨.SUCCESS, 273, 2, ⟨List.replicate 32 2, 32⟩⟩) &&
      run (lockHashes (ascii "1e")) d (fun _ => 0) anyMemory 2 ⟨List.replicate 32 1, 32⟩ == .ok (some false) &&
      guessesTo (ascii "1e") == 273) = true :=
  lock_obj _ (by decide +kernel)

example : Opens (lockHashes (ascii "1e")) lockHeader (ascii "1e") := (lock_opens (by decide +kernel) _).mpr rfl

/-- given the validator in place of the hash, it does -/
example : ∃ d, HObj d ∧ d.isComplete = true ∧ d.contents = lockHeader ∧
    (run (lockHashes (ascii "1e")) d (fun _ => 0) anyMemory 2 ⟨List.replicate 32 2, 32⟩ == .ok (some true)) = true :=
  lock_obj _ (by decide +kernel)

/-- with a timeout in the memory the attacker gives up before -/
example : ∃ d, HObj d ∧ d.isComplete = true ∧ d.contents = lockHeader ∧
    (attack (lockHashes (ascii "1e")) d.dh (fun _ => 0) { anyMemory with success := .TIMEOUT } 2 ==
      .ok (.done { anyMemory with success := .TIMEOUT })) = true :=
  lock_obj _ (by decide +kernel)

/-- a password of nine characters and its place in the order -/
example : (∀ c ∈ ascii "Tr0ub4d!x", passChar c = true) ∧ (ascii "Tr0ub4d!x").length = 9 := by decide +kernel

end Verif.Props
