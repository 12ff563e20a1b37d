import Verif.Lemmas.Util

/-!
Properties C01, C03, C04, C05, C06, C07, C08: byte container values and utility functions.
(C02, memory safety of the container, is in `Verif/Props/Heap.lean`.)
-/
namespace Verif.Props
open Spec

/-! ### C01 -/

/-- C01: the encoding with leading zeros has 8 bytes which, read as a big-endian number, are the integer;
decoding returns it. -/
theorem C01_encode_decode (n : UInt64) :
    ∃ b, Bytes.fromLong n true = .ok b ∧ b.data.length = 8 ∧ beValue b.data = n.toNat ∧ b.toLong = .ok n := by
  refine ⟨_, fromLong_true n, by simp, beValue_be8 n, ?_⟩
  rw [toLong_eq _ (by simp), beValue_be8]
  simp

/-- C01: the encoding without leading zeros decodes to the same integer too, has no leading zero and at most 8 bytes. -/
theorem C01_encode_decode_short (n : UInt64) :
    ∃ b, Bytes.fromLong n false = .ok b ∧ b.data.length ≤ 8 ∧ b.data.head? ≠ some 0 ∧
      beValue b.data = n.toNat ∧ b.toLong = .ok n := by
  have hl : ((be8 n).dropWhile (· == 0)).length ≤ 8 := by
    have := (List.dropWhile_suffix (l := be8 n) (· == 0)).length_le
    simpa using this
  refine ⟨_, fromLong_false n, hl, ?_, ?_, ?_⟩
  · have := List.head?_dropWhile_not (· == (0 : Byte)) (be8 n)
    intro h
    simp [h] at this
  · simp [beValue_dropWhile, beValue_be8]
  · rw [toLong_eq _ hl]
    simp [beValue_dropWhile, beValue_be8]

theorem getLongLen_iff (n : Nat) : ∀ k, getLongLen n = k ↔ n < 256 ^ k ∧ ∀ j, j < k → 256 ^ j ≤ n := by
  induction n using Nat.strongRecOn with
  | ind n ih =>
    intro k
    rw [getLongLen]
    by_cases h0 : n = 0
    · rw [dif_pos h0, h0]
      refine ⟨fun h => h ▸ ⟨by decide, fun j hj => absurd hj (Nat.not_lt_zero j)⟩, fun h => ?_⟩
      cases k with
      | zero => rfl
      | succ k => exact absurd (h.2 0 (Nat.succ_pos k)) (by decide)
    · rw [dif_neg h0]
      cases k with
      | zero => exact ⟨fun h => (by cases h), fun h => absurd h.1 (by simpa using h0)⟩
      | succ k =>
        rw [Nat.succ.injEq, ih (n / 256) (Nat.div_lt_self (Nat.pos_of_ne_zero h0) (by decide)) k, Nat.div_lt_iff_lt_mul (by decide), ← Nat.pow_succ]
        refine and_congr_right fun _ => ⟨fun h j hj => ?_, fun h j hj => ?_⟩
        · cases j with
          | zero => exact Nat.pos_of_ne_zero h0
          | succ j =>
            rw [Nat.pow_succ]
            exact (Nat.le_div_iff_mul_le (by decide)).mp (h j (Nat.lt_of_succ_lt_succ hj))
        · rw [Nat.le_div_iff_mul_le (by decide), ← Nat.pow_succ]
          exact h (j + 1) (Nat.succ_lt_succ hj)

theorem beValue_ge {x : Byte} {l : List Byte} (h : x ≠ 0) : 256 ^ l.length ≤ beValue (x :: l) := by
  have h1 : 1 ≤ x.toNat := Nat.pos_of_ne_zero fun h' => h (UInt8.toNat_inj.mp h')
  rw [beValue_cons]
  exact Nat.le_trans (Nat.le_mul_of_pos_left _ h1) (Nat.le_add_right _ _)

/-- C01: `getLongLen` is the number of bytes the encoding without leading zeros has: the least number of bytes that hold the number. -/
theorem C01_length (n : UInt64) : ∃ b, Bytes.fromLong n false = .ok b ∧ b.data.length = getLongLen n.toNat ∧
    n.toNat < 256 ^ getLongLen n.toNat ∧ ∀ k, n.toNat < 256 ^ k → getLongLen n.toNat ≤ k := by
  obtain ⟨b, h1, -, h2, h3, -⟩ := C01_encode_decode_short n
  have hk := (getLongLen_iff n.toNat _).mp rfl
  refine ⟨b, h1, ((getLongLen_iff n.toNat _).mpr ⟨h3 ▸ beValue_lt _, fun j hj => ?_⟩).symm, hk.1, fun k h =>
    Nat.le_of_not_lt fun hlt => Nat.lt_irrefl _ (Nat.lt_of_lt_of_le h (hk.2 k hlt))⟩
  rw [← h3]
  cases hb : b.data with
  | nil => rw [hb] at hj; exact absurd hj (Nat.not_lt_zero j)
  | cons x l =>
    rw [hb] at hj h2
    have := beValue_ge (l := l) (show x ≠ 0 from fun h => h2 (by rw [h]; rfl))
    exact Nat.le_trans (Nat.pow_le_pow_right (by decide) (Nat.le_of_lt_succ hj)) this

example : getLongLen 72057594037927936 = 8 ∧ getLongLen 72057594037927935 = 7 ∧ getLongLen 0 = 0 := by
  refine ⟨(getLongLen_iff _ _).mpr ?_, (getLongLen_iff _ _).mpr ?_, (getLongLen_iff _ _).mpr ?_⟩ <;> decide

/-- C01: decoding is refused exactly for more than 8 bytes. -/
theorem C01_decode_long (b : Bytes) : b.toLong = .exn .lengthError ↔ 8 < b.data.length := by
  simp only [Bytes.toLong]
  split <;> simp_all

/-- C01: decoding never loses information: two byte strings of the same length (at most 8) that decode to the same
integer are equal. -/
theorem C01_decode_injective (a b : Bytes) (ha : a.data.length ≤ 8) (hl : a.data.length = b.data.length)
    (h : a.toLong = b.toLong) : a.data = b.data := by
  obtain ⟨a, ca⟩ := a
  obtain ⟨b, cb⟩ := b
  simp only at ha hl ⊢
  rw [toLong_eq _ (by simpa using ha), toLong_eq _ (by simp; omega)] at h
  simp only [Res.ok.injEq] at h
  have hpow : ∀ l : List Byte, l.length ≤ 8 → beValue l < 2 ^ 64 := by
    intro l hl
    refine Nat.lt_of_lt_of_le (beValue_lt l) ?_
    exact Nat.le_trans (Nat.pow_le_pow_right (by omega) hl) (by decide)
  have h' : beValue a = beValue b := by
    have := congrArg UInt64.toNat h
    simp only [UInt64.toNat_ofNat'] at this
    rwa [Nat.mod_eq_of_lt (hpow a ha), Nat.mod_eq_of_lt (hpow b (by omega))] at this
  clear h ha ca cb hpow
  induction a generalizing b with
  | nil => cases b <;> simp_all
  | cons x a ih =>
    cases b with
    | nil => simp at hl
    | cons y b =>
      simp only [List.length_cons, Nat.add_right_cancel_iff] at hl
      rw [beValue_cons, beValue_cons, hl] at h'
      have h1 := beValue_lt a
      have h2 := beValue_lt b
      rw [hl] at h1
      have hx : x.toNat = y.toNat := by
        rcases Nat.lt_trichotomy x.toNat y.toNat with h | h | h
        · have : (x.toNat + 1) * 256 ^ b.length ≤ y.toNat * 256 ^ b.length := Nat.mul_le_mul_right _ h
          rw [Nat.add_mul] at this; omega
        · exact h
        · have : (y.toNat + 1) * 256 ^ b.length ≤ x.toNat * 256 ^ b.length := Nat.mul_le_mul_right _ h
          rw [Nat.add_mul] at this; omega
      rw [hx] at h'
      have := ih b hl (by omega)
      rw [UInt8.toNat_inj.mp hx, this]

example : Bytes.fromLong 258 true = .ok ⟨[0, 0, 0, 0, 0, 0, 1, 2], 8⟩ := by decide
example : Bytes.toLong ⟨[1, 2], 8⟩ = .ok 258 := by decide

/-! ### C03 -/

/-- C03: for equal lengths, byte-wise addition succeeds, is the sum mod 256 at each position, and subtraction undoes
it. -/
theorem C03_sub_add (a b : Bytes) (h : a.data.length = b.data.length) :
    ∃ c, a.add b = .ok c ∧ c.data.length = a.data.length ∧
      (∀ (i : Nat) (ha : i < a.data.length) (hb : i < b.data.length) (hc : i < c.data.length),
        c.data[i].toNat = (a.data[i].toNat + b.data[i].toNat) % 256) ∧
      ∃ d, c.sub b = .ok d ∧ d.data = a.data := by
  refine ⟨⟨List.zipWith (· + ·) a.data b.data, a.cap⟩, by simp [Bytes.add, h], by simp [h], ?_, ?_⟩
  · intro i ha hb hc
    simp
  · refine ⟨⟨a.data, a.cap⟩, ?_, rfl⟩
    simp only [Bytes.sub, zipWith_add, zipWith_sub, length_addB, h, Nat.min_self, ne_eq, not_true_eq_false, if_false]
    rw [subB_addB _ _ (by omega)]

/-- C03: addition undoes subtraction. -/
theorem C03_add_sub (a b : Bytes) (h : a.data.length = b.data.length) :
    ∃ c, a.sub b = .ok c ∧ c.data.length = a.data.length ∧ ∃ d, c.add b = .ok d ∧ d.data = a.data := by
  refine ⟨⟨List.zipWith (· - ·) a.data b.data, a.cap⟩, by simp [Bytes.sub, h], by simp [h], ⟨a.data, a.cap⟩, ?_, rfl⟩
  simp only [Bytes.add, zipWith_add, zipWith_sub, length_subB, h, Nat.min_self, ne_eq, not_true_eq_false, if_false]
  rw [addB_subB _ _ (by omega)]

/-- C03: different lengths are refused by both operations. -/
theorem C03_length_mismatch (a b : Bytes) (h : a.data.length ≠ b.data.length) :
    a.add b = .exn .lengthError ∧ a.sub b = .exn .lengthError := by
  simp [Bytes.add, Bytes.sub, h]

example : Bytes.add ⟨[200, 1], 2⟩ ⟨[100, 2], 5⟩ = .ok ⟨[44, 3], 2⟩ := by decide

/-! ### C04 -/

/-- C04: a sub-range copy succeeds exactly when `start ≤ stop ≤ length`, and then has exactly the bytes of the range. -/
theorem C04_sub_range (b : Bytes) (start stop : Nat) :
    (∃ c, b.copySubBytes start stop = .ok c) ↔ start ≤ stop ∧ stop ≤ b.data.length := by
  simp only [Bytes.copySubBytes]
  split
  · simp; omega
  · split
    · simp; omega
    · simp; omega

/-- C04: contents of the copied range -/
theorem C04_sub_range_content (b c : Bytes) (start stop : Nat) (h : b.copySubBytes start stop = .ok c) :
    c.data.length = stop - start ∧ c.cap = stop - start ∧
      ∀ i, i < stop - start → c.data[i]? = b.data[start + i]? := by
  simp only [Bytes.copySubBytes] at h
  split at h
  · simp at h
  · split at h
    · simp at h
    · simp only [Res.ok.injEq] at h
      subst h
      refine ⟨by simp; omega, rfl, ?_⟩
      intro i hi
      simp [hi]

/-- C04: cutting at any point and appending the two pieces to an empty container of sufficient size restores the
bytes. -/
theorem C04_cut_and_append (b : Bytes) (k cap : Nat) (hk : k ≤ b.data.length) (hc : b.data.length ≤ cap) :
    ∃ x y r1 r2, b.copySubBytes 0 k = .ok x ∧ b.copySubBytes k b.data.length = .ok y ∧
      x.addcopyToBytes (Bytes.empty cap) = .ok r1 ∧ y.addcopyToBytes r1 = .ok r2 ∧ r2.data = b.data := by
  refine ⟨⟨b.data.take k, k⟩, ⟨b.data.drop k, b.data.length - k⟩, ⟨b.data.take k, cap⟩, ⟨b.data, cap⟩, ?_, ?_, ?_, ?_, rfl⟩
  · simp [Bytes.copySubBytes, Nat.not_lt.mpr hk]
  · simp only [Bytes.copySubBytes, gt_iff_lt, Nat.not_lt.mpr hk, if_false, Nat.lt_irrefl]
    rw [List.take_of_length_le (by simp)]
  · simp [Bytes.addcopyToBytes, Bytes.empty]; omega
  · have : ¬ (cap < b.data.length - k + min k b.data.length) := by omega
    simp [Bytes.addcopyToBytes, this]

example : Bytes.copySubBytes ⟨[1, 2, 3, 4], 9⟩ 1 3 = .ok ⟨[2, 3], 2⟩ := by decide

/-! ### C05 -/

theorem hex_nibbles (x : Byte) :
    hexDecode [Bytes.hexChars.getD (x >>> 4).toNat ' ', Bytes.hexChars.getD (x &&& 0xF).toNat ' '] = some [x] := by
  have h : ∀ n : Fin 256, hexDecode [Bytes.hexChars.getD ((UInt8.ofNat n.val) >>> 4).toNat ' ',
      Bytes.hexChars.getD ((UInt8.ofNat n.val) &&& 0xF).toNat ' '] = some [UInt8.ofNat n.val] := by
    decide +kernel
  have := h ⟨x.toNat, x.toNat_lt⟩
  simpa using this

theorem hexDecode_pair (a b : Char) (x : Byte) (l : List Char) (r : List Byte) (h : hexDecode [a, b] = some [x])
    (hr : hexDecode l = some r) : hexDecode (a :: b :: l) = some (x :: r) := by
  simp only [hexDecode] at h ⊢
  rw [hr]
  cases ha : hexDigit a <;> cases hb : hexDigit b <;> simp_all

/-- C05: decoding the hexadecimal text returns the bytes. -/
theorem C05_hex_decode (b : Bytes) : hexDecode b.toHex = some b.data := by
  obtain ⟨d, c⟩ := b
  simp only [Bytes.toHex]
  induction d with
  | nil => rfl
  | cons x d ih =>
    simp only [List.flatMap_cons]
    exact hexDecode_pair _ _ _ _ _ (hex_nibbles x) ih

/-- C05: two characters per byte, all from the set 0-9A-F. -/
theorem C05_hex_shape (b : Bytes) :
    b.toHex.length = 2 * b.data.length ∧ ∀ c ∈ b.toHex, c ∈ "0123456789ABCDEF".toList := by
  obtain ⟨d, c⟩ := b
  simp only [Bytes.toHex]
  constructor
  · induction d with
    | nil => rfl
    | cons x d ih => rw [List.flatMap_cons, List.length_append, ih]; simp; omega
  · intro ch hch
    simp only [List.mem_flatMap] at hch
    obtain ⟨x, -, hx⟩ := hch
    have h : ∀ n : Fin 256, ∀ ch ∈ [Bytes.hexChars.getD ((UInt8.ofNat n.val) >>> 4).toNat ' ',
      Bytes.hexChars.getD ((UInt8.ofNat n.val) &&& 0xF).toNat ' '], ch ∈ "0123456789ABCDEF".toList := by
      decide +kernel
    have := h ⟨x.toNat, x.toNat_lt⟩ ch
    simp only [UInt8.ofNat_toNat] at this
    exact this hx

/-- C05: different bytes have different texts. -/
theorem C05_hex_injective (a b : Bytes) (h : a.toHex = b.toHex) : a.data = b.data := by
  have ha := C05_hex_decode a
  rw [h, C05_hex_decode b] at ha
  simpa using ha.symm

example : Bytes.toHex ⟨[0x0F, 0xA0], 2⟩ = "0FA0".toList := by decide

/-! ### C06 -/

/-- C06: reading from a stream that is not exhausted terminates for every buffering schedule `s.sched`; if the target
has room and at least `size` bytes remain, it delivers exactly the next `size` bytes and advances by `size`. -/
theorem C06_read_success (s : IStream) (b : Bytes) (size : Nat) (he : s.eof = false) (hs : size < 2 ^ 32)
    (hroom : size ≤ b.cap - b.data.length) (hrest : size ≤ s.rest.length) :
    ∃ s', readData s b size = .ok (some ⟨b.data ++ s.rest.take size, b.cap⟩, s') ∧ s'.rest = s.rest.drop size ∧
      s'.eof = false := by
  obtain ⟨s', h⟩ := readData_spec s b size he hs
  simp only [Nat.not_lt.mpr hroom, if_false, hrest, if_true] at h
  exact ⟨s', h⟩

/-- C06: otherwise it reports failure (again for every schedule), and so never blocks or loops. -/
theorem C06_read_failure (s : IStream) (b : Bytes) (size : Nat) (he : s.eof = false) (hs : size < 2 ^ 32)
    (h : b.cap - b.data.length < size ∨ s.rest.length < size) :
    ∃ s', readData s b size = .ok (none, s') := by
  obtain ⟨s', h'⟩ := readData_spec s b size he hs
  by_cases h1 : b.cap - b.data.length < size
  · simp only [h1, if_true] at h'; exact ⟨_, h'.1⟩
  · have h2 : ¬ size ≤ s.rest.length := by omega
    simp only [h1, if_false, h2] at h'; exact ⟨_, h'.1⟩

/-- C06: from a stream that has already reported its end nothing is read: the call returns at once, and only a request for no
bytes succeeds. -/
theorem C06_read_after_end (s : IStream) (b : Bytes) (size : Nat) (he : s.eof = true) (hs : size < 2 ^ 32) :
    readData s b size = .ok (if size = 0 then some b else none, s) := by
  unfold readData
  rw [Nat.mod_eq_of_lt hs]
  by_cases h0 : size = 0
  · subst h0
    simp [readLoop, IStream.readsome, he]
  · by_cases hr : b.cap - b.data.length < size
    · simp [hr, h0]
    · have : (0 : Nat) ≠ size := fun h => h0 h.symm
      simp [hr, h0, readLoop, IStream.readsome, he, this]

/-- a stream at its end: one byte is refused, no byte is granted -/
example : (readData ⟨[], fun _ => 5, false, true⟩ ⟨[9], 8⟩ 1 |> fun
    | .ok (none, _) => true
    | _ => false) = true ∧ (readData ⟨[], fun _ => 5, false, true⟩ ⟨[9], 8⟩ 0 |> fun
    | .ok (some b, _) => some b
    | _ => none) = some ⟨[9], 8⟩ := by decide

/-- a stream that delivers one byte at a time, after first delivering nothing -/
example : (readData ⟨[1, 2, 3, 4], fun i => if i = 0 then 0 else 1, false, false⟩ ⟨[9], 8⟩ 3 |> fun
    | .ok (some b, s) => some (b, s.rest)
    | _ => none) = some (⟨[9, 1, 2, 3], 8⟩, [4]) := by decide

/-! ### C07 -/

/-- C07: exact acceptance condition of the number check. -/
theorem C07_valid_number (s : List Byte) (blank : Bool) (lower upper : UInt64) :
    isValidNumber s blank lower upper = true ↔
      (s = [] ∧ blank = true) ∨
      (s ≠ [] ∧ (∀ c ∈ s, 48 ≤ c.toNat ∧ c.toNat ≤ 57) ∧ decValue s < 2 ^ 64 ∧
        lower.toNat ≤ decValue s ∧ decValue s ≤ upper.toNat) := by
  cases s with
  | nil => simp [isValidNumber]
  | cons c s =>
    simp only [isValidNumber, List.isEmpty_cons, Bool.false_eq_true, if_false, reduceCtorEq, false_and, ne_eq,
      not_false_eq_true, true_and, false_or, stoul_eq]
    have hd : (c :: s).all isDigitByte = true ↔ ∀ x ∈ c :: s, 48 ≤ x.toNat ∧ x.toNat ≤ 57 := by
      simp only [List.all_eq_true, isDigitByte, Bool.and_eq_true, decide_eq_true_eq]
      constructor <;> intro h x hx <;> have := h x hx
      · exact ⟨UInt8.le_iff_toNat_le.mp this.1, UInt8.le_iff_toNat_le.mp this.2⟩
      · exact ⟨UInt8.le_iff_toNat_le.mpr this.1, UInt8.le_iff_toNat_le.mpr this.2⟩
    by_cases hall : (c :: s).all isDigitByte = true
    · simp only [hall, Bool.not_true, Bool.false_eq_true, if_false, ← hd, true_and]
      by_cases hlt : decValue (c :: s) < 2 ^ 64
      · simp only [hlt, if_true, Bool.and_eq_true, decide_eq_true_eq, true_and]
        rw [UInt64.le_iff_toNat_le, UInt64.le_iff_toNat_le]
        simp only [UInt64.toNat_ofNat', Nat.mod_eq_of_lt hlt]
      · simp [hlt]
    · simp only [Bool.not_eq_true] at hall
      have hn : ¬ ∀ x ∈ c :: s, 48 ≤ x.toNat ∧ x.toNat ≤ 57 := by rw [← hd]; simp [hall]
      simp only [hall, Bool.not_false, if_true]
      constructor
      · intro h; cases h
      · intro h; exact absurd h.1 hn

example : isValidNumber (ascii "18446744073709551615") false 1 (0 - 1) = true := by decide +kernel
example : isValidNumber (ascii "18446744073709551616") false 0 (0 - 1) = false := by decide +kernel

/-! ### C08 -/

/-- C08: the suffix test. -/
theorem C08_endsWith (s e : List Byte) : endsWith s e = true ↔ ∃ p, s = p ++ e := by
  simp only [endsWith]
  constructor
  · intro h
    split at h
    · simp only [beq_iff_eq] at h
      exact ⟨s.take (s.length - e.length), by
        conv => lhs; rw [← List.take_append_drop (s.length - e.length) s]
        rw [h]⟩
    · simp at h
  · rintro ⟨p, rfl⟩
    simp

/-- C08: converting a string to bytes never fails and converting back returns the string. -/
theorem C08_string_round_trip (s : List Byte) :
    ∃ b, stringToBytes s = .ok b ∧ bytesToString b = s := by
  refine ⟨⟨s, s.length⟩, ?_, rfl⟩
  simp [stringToBytes, Bytes.setBytes, Bytes.empty]

example : endsWith (ascii "vault.enc") (ascii ".enc") = true := by decide

end Verif.Props
