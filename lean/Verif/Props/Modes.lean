import Verif.Spec.Modes

/- Mode numbers: C71. -/
namespace Verif.Props
open Spec Modes

theorem num_cases (n : Num) : n = 0 ∨ n = 1 ∨ n = 2 ∨ n = 3 ∨ n = 4 ∨ n = 5 ∨ 5 < n.toNat := by
  by_cases h : 5 < n.toNat
  · simp [h]
  · have : n.toNat = 0 ∨ n.toNat = 1 ∨ n.toNat = 2 ∨ n.toNat = 3 ∨ n.toNat = 4 ∨ n.toNat = 5 := by omega
    rcases this with h | h | h | h | h | h
    · exact .inl (UInt32.toNat_inj.mp h)
    · exact .inr (.inl (UInt32.toNat_inj.mp h))
    · exact .inr (.inr (.inl (UInt32.toNat_inj.mp h)))
    · exact .inr (.inr (.inr (.inl (UInt32.toNat_inj.mp h))))
    · exact .inr (.inr (.inr (.inr (.inl (UInt32.toNat_inj.mp h)))))
    · exact .inr (.inr (.inr (.inr (.inr (.inl (UInt32.toNat_inj.mp h))))))

theorem big_ne {n : Num} (h : 5 < n.toNat) : n ≠ 1 ∧ n ≠ 2 ∧ n ≠ 3 ∧ n ≠ 4 ∧ n ≠ 5 := by
  refine ⟨?_, ?_, ?_, ?_, ?_⟩ <;> rintro rfl <;> revert h <;> decide

/-- C71: a number is a hash mode for one function exactly if it is for every other: the numbers 1, 2, 3; all others are
refused by an `invalid_argument` exception wherever a name or a hash function is asked for. -/
theorem C71_hash_modes (hs : Hashes) (n : Num) (b : Bool) :
    (hashValid n = true ↔ 1 ≤ n.toNat ∧ n.toNat ≤ 3) ∧
    (1 ≤ n.toNat ∧ n.toNat ≤ 3 → ∃ H s, getHash hs n = .ok H ∧ H.size = hashBytes n.toNat ∧ hashInfo n b = .ok s) ∧
    (¬ (1 ≤ n.toNat ∧ n.toNat ≤ 3) → getHash hs n = .exn .invalidArgument ∧ hashInfo n b = .exn .invalidArgument) := by
  rcases num_cases n with rfl | rfl | rfl | rfl | rfl | rfl | h
  · exact ⟨by decide, fun h => absurd h (by decide), fun _ => ⟨rfl, rfl⟩⟩
  · exact ⟨by decide, fun _ => ⟨_, _, rfl, rfl, rfl⟩, fun h => absurd (by decide) h⟩
  · exact ⟨by decide, fun _ => ⟨_, _, rfl, rfl, rfl⟩, fun h => absurd (by decide) h⟩
  · exact ⟨by decide, fun _ => ⟨_, _, rfl, rfl, rfl⟩, fun h => absurd (by decide) h⟩
  · exact ⟨by decide, fun h => absurd h (by decide), fun _ => ⟨rfl, rfl⟩⟩
  · exact ⟨by decide, fun h => absurd h (by decide), fun _ => ⟨rfl, rfl⟩⟩
  · obtain ⟨h1, h2, h3, -⟩ := big_ne h
    refine ⟨?_, fun h' => by omega, fun _ => by simp [getHash, hashInfo, h1, h2, h3]⟩
    simp only [hashValid, Bool.and_eq_true, decide_eq_true_eq, UInt32.le_iff_toNat_le]
    exact Iff.rfl

/-- C71: the hash function behind a hash mode is the one of its name. -/
theorem C71_hash_function (hs : Hashes) (n : Num) (H : HashFn) (h : getHash hs n = .ok H) (x : List Byte) :
    (hashInfo n true = .ok "SHA256" ∧ H.h x = hs.sha256 x) ∨ (hashInfo n true = .ok "SHA384" ∧ H.h x = hs.sha384 x) ∨
    (hashInfo n true = .ok "SHA512" ∧ H.h x = hs.sha512 x) := by
  rcases num_cases n with rfl | rfl | rfl | rfl | rfl | rfl | hn
  · cases h
  · cases h; exact .inl ⟨rfl, rfl⟩
  · cases h; exact .inr (.inl ⟨rfl, rfl⟩)
  · cases h; exact .inr (.inr ⟨rfl, rfl⟩)
  · cases h
  · cases h
  · obtain ⟨h1, h2, h3, -⟩ := big_ne hn
    simp [getHash, h1, h2, h3] at h

/-- C71: the same for chain-hash modes (1 to 5) and the `Format` constructor. -/
theorem C71_chain_modes (n : Num) :
    (chainValid n = true ↔ 1 ≤ n.toNat ∧ n.toNat ≤ 5) ∧
    (1 ≤ n.toNat ∧ n.toNat ≤ 5 → ∃ f s t, Format.new n = .ok f ∧ chainInfo n = .ok s ∧ chainShortInfo n = .ok t) ∧
    (¬ (1 ≤ n.toNat ∧ n.toNat ≤ 5) → Format.new n = .exn .invalidArgument ∧ chainInfo n = .exn .invalidArgument ∧
      chainShortInfo n = .exn .invalidArgument) := by
  have hv : chainValid n = true ↔ 1 ≤ n.toNat ∧ n.toNat ≤ 5 := by
    simp only [chainValid, Bool.and_eq_true, decide_eq_true_eq, UInt32.le_iff_toNat_le]
    exact Iff.rfl
  refine ⟨hv, ?_⟩
  rcases num_cases n with rfl | rfl | rfl | rfl | rfl | rfl | h
  · exact ⟨fun h => absurd h (by decide), fun _ => ⟨rfl, rfl, rfl⟩⟩
  · exact ⟨fun _ => ⟨_, _, _, rfl, rfl, rfl⟩, fun h => absurd (by decide) h⟩
  · exact ⟨fun _ => ⟨_, _, _, rfl, rfl, rfl⟩, fun h => absurd (by decide) h⟩
  · exact ⟨fun _ => ⟨_, _, _, rfl, rfl, rfl⟩, fun h => absurd (by decide) h⟩
  · exact ⟨fun _ => ⟨_, _, _, rfl, rfl, rfl⟩, fun h => absurd (by decide) h⟩
  · exact ⟨fun _ => ⟨_, _, _, rfl, rfl, rfl⟩, fun h => absurd (by decide) h⟩
  · obtain ⟨h1, h2, h3, h4, h5⟩ := big_ne h
    refine ⟨fun h' => by omega, fun h' => ?_⟩
    have : chainValid n = false := by rw [Bool.eq_false_iff, Ne, hv]; exact h'
    simp [Format.new, this, chainInfo, chainShortInfo, h1, h2, h3, h4, h5]

/-- C71: the same for file modes (only 1); the exception is `logic_error`. -/
theorem C71_file_modes (n : Num) :
    (fileValid n = true ↔ n.toNat = 1) ∧ (n.toNat = 1 → ∃ s, fileInfo n = .ok s) ∧
    (n.toNat ≠ 1 → fileInfo n = .exn .logicError) := by
  refine ⟨?_, ?_, ?_⟩
  · simp only [fileValid, Bool.and_eq_true, decide_eq_true_eq, UInt32.le_iff_toNat_le]
    have : (1 : UInt32).toNat = 1 := rfl
    simp only [this]; omega
  · intro h
    have : n = 1 := UInt32.toNat_inj.mp h
    subst this; exact ⟨_, rfl⟩
  · intro h
    have : n ≠ 1 := by rintro rfl; exact h rfl
    simp [fileInfo, this]

/-- C71: names tell modes apart: two numbers with the same long, short or (for hash modes) either kind of name are equal. -/
theorem C71_names (n k : Num) (b : Bool) (s : String) :
    (hashInfo n b = .ok s → hashInfo k b = .ok s → n = k) ∧ (chainInfo n = .ok s → chainInfo k = .ok s → n = k) ∧
    (chainShortInfo n = .ok s → chainShortInfo k = .ok s → n = k) := by
  have h3 : ∀ n b, (∃ s, hashInfo n b = .ok s) → n = 1 ∨ n = 2 ∨ n = 3 := by
    rintro n b ⟨s, h⟩
    simp only [hashInfo] at h
    repeat' split at h
    all_goals first | cases h; done | simp [*]
  have h5 : ∀ n, (∃ s, chainInfo n = .ok s) ∨ (∃ s, chainShortInfo n = .ok s) → n = 1 ∨ n = 2 ∨ n = 3 ∨ n = 4 ∨ n = 5 := by
    rintro n (⟨s, h⟩ | ⟨s, h⟩)
    · simp only [chainInfo] at h
      repeat' split at h
      all_goals first | cases h; done | simp [*]
    · simp only [chainShortInfo] at h
      repeat' split at h
      all_goals first | cases h; done | simp [*]
  refine ⟨fun h h' => ?_, fun h h' => ?_, fun h h' => ?_⟩
  · have e := h.trans h'.symm
    rcases h3 n b ⟨s, h⟩ with rfl | rfl | rfl <;> rcases h3 k b ⟨s, h'⟩ with rfl | rfl | rfl <;>
      first | rfl | exact absurd e (by cases b <;> decide)
  · have e := h.trans h'.symm
    rcases h5 n (.inl ⟨s, h⟩) with rfl | rfl | rfl | rfl | rfl <;>
      rcases h5 k (.inl ⟨s, h'⟩) with rfl | rfl | rfl | rfl | rfl <;> first | rfl | exact absurd e (by decide)
  · have e := h.trans h'.symm
    rcases h5 n (.inr ⟨s, h⟩) with rfl | rfl | rfl | rfl | rfl <;>
      rcases h5 k (.inr ⟨s, h'⟩) with rfl | rfl | rfl | rfl | rfl <;> first | rfl | exact absurd e (by decide)

/-- C71: two formats are equal exactly if they are formats of the same mode; a format lists the parts of its mode, and
its format string is the notation of that list. -/
theorem C71_formats (n k : Num) (f g : Format) (hf : Format.new n = .ok f) (hg : Format.new k = .ok g) :
    (f.eq g = true ↔ n = k) ∧ f.mode = n ∧
    f.nameLens = (modeParts n.toNat).map (fun p => ⟨p.1, p.2.getD 0⟩) ∧ f.format = formatNotation (modeParts n.toNat) := by
  have hv : ∀ n f, Format.new n = .ok f → n = 1 ∨ n = 2 ∨ n = 3 ∨ n = 4 ∨ n = 5 := by
    intro n f h
    have h1 := C71_chain_modes n
    by_cases h2 : 1 ≤ n.toNat ∧ n.toNat ≤ 5
    · rcases num_cases n with rfl | h3 | h3 | h3 | h3 | h3 | h3
      · exact absurd h2 (by decide)
      all_goals first | simp [h3] | omega
    · rw [(h1.2.2 h2).1] at h; cases h
  rcases hv n f hf with rfl | rfl | rfl | rfl | rfl <;> cases hf <;>
    rcases hv k g hg with rfl | rfl | rfl | rfl | rfl <;> cases hg <;> exact ⟨by decide, rfl, by decide, by decide⟩

/-- numbers on both sides of the line -/
example : hashInfo 2 false = .ok "The hash mode 2 corresponds to hash function: SHA384" := by decide +kernel
example : chainInfo 4294967295 = .exn .invalidArgument ∧ fileInfo 0 = .exn .logicError := by decide
example : Format.new 4 = .ok ⟨4, "8B SN *B S", [⟨"SN", 8⟩, ⟨"S", 0⟩]⟩ := by decide

/-- C71: the enumerators used in the other modules are the valid numbers, for every byte of a file -/
theorem C71_bytes (b : Byte) : ((HMode.ofByte b).isSome = hashValid b.toUInt32) ∧
    ((CHMode.ofByte b).isSome = chainValid b.toUInt32) ∧ (fileModeValid b = fileValid b.toUInt32) := by
  have : ∀ n : Fin 256, ((HMode.ofByte (UInt8.ofNat n.1)).isSome = hashValid (UInt8.ofNat n.1).toUInt32) ∧
    ((CHMode.ofByte (UInt8.ofNat n.1)).isSome = chainValid (UInt8.ofNat n.1).toUInt32) ∧
    (fileModeValid (UInt8.ofNat n.1) = fileValid (UInt8.ofNat n.1).toUInt32) := by decide +kernel
  have h := this ⟨b.toNat, b.toNat_lt⟩
  simpa only [UInt8.ofNat_toNat] using h

/-- C71: the texts give the number asked for, and the short names fit the parts of the data block. -/
theorem C71_texts (n : Num) (s : String) :
    (hashInfo n false = .ok s → ∃ name, hashInfo n true = .ok name ∧
      s = "The hash mode " ++ Nat.repr n.toNat ++ " corresponds to hash function: " ++ name) ∧
    (chainInfo n = .ok s → ∃ what, s = "The chainhash mode " ++ Nat.repr n.toNat ++ " corresponds to a chainhash that hashes the old hash " ++ what) ∧
    (chainShortInfo n = .ok s → s = modeName (modeParts n.toNat)) ∧
    (fileInfo n = .ok s → s = "The file mode " ++ Nat.repr n.toNat ++ " stores password data") := by
  rcases num_cases n with rfl | rfl | rfl | rfl | rfl | rfl | h
  · exact ⟨nofun, nofun, nofun, nofun⟩
  · exact ⟨fun h => ⟨"SHA256", rfl, by cases h; decide +kernel⟩, fun h => ⟨"again", by cases h; decide +kernel⟩, fun h => by cases h; decide +kernel,
      fun h => by cases h; decide +kernel⟩
  · exact ⟨fun h => ⟨"SHA384", rfl, by cases h; decide +kernel⟩, fun h => ⟨"+ a constant salt again", by cases h; decide +kernel⟩,
      fun h => by cases h; decide +kernel, nofun⟩
  · exact ⟨fun h => ⟨"SHA512", rfl, by cases h; decide +kernel⟩, fun h => ⟨"+ an incrementing salt again", by cases h; decide +kernel⟩,
      fun h => by cases h; decide +kernel, nofun⟩
  · exact ⟨nofun, fun h => ⟨"+ a constant AND an incrementing salt again", by cases h; decide +kernel⟩, fun h => by cases h; decide +kernel, nofun⟩
  · exact ⟨nofun, fun h => ⟨"+ quadratic value derived from an incrementing salt and 3 coefficients", by cases h; decide +kernel⟩,
      fun h => by cases h; decide +kernel, nofun⟩
  · obtain ⟨h1, h2, h3, h4, h5⟩ := big_ne h
    refine ⟨?_, ?_, ?_, ?_⟩ <;> intro hx <;> simp [hashInfo, chainInfo, chainShortInfo, fileInfo, h1, h2, h3, h4, h5] at hx

example : hashInfo 2 false = .ok "The hash mode 2 corresponds to hash function: SHA384" ∧ chainShortInfo 4 = .ok "constant+count" := by
  decide +kernel

end Verif.Props
