import Verif.Lemmas.Util
import Verif.Lemmas.DataHeader
import Verif.Spec.FileSys

/- Paths and file handlers. -/
namespace Verif
open Spec

/-! ### paths -/

def afterLast (c : Byte) (l : List Byte) : List Byte := (l.reverse.takeWhile (· ≠ c)).reverse

theorem takeWhile_all {c : Byte} {l : List Byte} (h : c ∉ l) : l.takeWhile (· ≠ c) = l := by
  induction l with
  | nil => rfl
  | cons x l ih =>
    have h1 : x ≠ c := fun e => h (by simp [e])
    have h2 : c ∉ l := fun e => h (by simp [e])
    rw [List.takeWhile_cons_of_pos (by simpa using h1), ih h2]

theorem takeWhile_stop {c : Byte} {l r : List Byte} (h : c ∉ l) : (l ++ c :: r).takeWhile (· ≠ c) = l := by
  induction l with
  | nil => simp
  | cons x l ih =>
    have h1 : x ≠ c := fun e => h (by simp [e])
    have h2 : c ∉ l := fun e => h (by simp [e])
    rw [List.cons_append, List.takeWhile_cons_of_pos (by simpa using h1), ih h2]

theorem afterLast_none {c : Byte} {l : List Byte} (h : c ∉ l) : afterLast c l = l := by
  rw [afterLast, takeWhile_all (by simpa using h), List.reverse_reverse]

theorem afterLast_sep {c : Byte} {q l : List Byte} (h : c ∉ l) : afterLast c (q ++ c :: l) = l := by
  rw [afterLast, List.reverse_append, List.reverse_cons, List.append_assoc, List.singleton_append,
    takeWhile_stop (by simpa using h), List.reverse_reverse]

/-- split at the last separator -/
theorem split_last (c : Byte) (l : List Byte) : c ∉ l ∨ ∃ q r, l = q ++ c :: r ∧ c ∉ r := by
  induction l with
  | nil => simp
  | cons x l ih =>
    rcases ih with h | ⟨q, r, h1, h2⟩
    · by_cases e : x = c
      · exact .inr ⟨[], l, by simp [e], h⟩
      · exact .inl (by simp [h, Ne.symm e])
    · exact .inr ⟨x :: q, r, by simp [h1], h2⟩

theorem extension_eq (p : Path) : Path.extension p = (
    let f := afterLast slash p
    if f.length ≤ 2 ∧ f.head? = some dot then []
    else if (afterLast dot f).length = f.length then []
    else if (afterLast dot f).length + 1 = f.length then []
    else f.drop (f.length - (afterLast dot f).length - 1)) := rfl

theorem ext_name (f : List Byte) : (
    (if f.length ≤ 2 ∧ f.head? = some dot then []
    else if (afterLast dot f).length = f.length then []
    else if (afterLast dot f).length + 1 = f.length then []
    else f.drop (f.length - (afterLast dot f).length - 1)) = FileHandler.ext) ↔
    ∃ stem, f = stem ++ [46, 101, 110, 99] ∧ stem ≠ [] := by
  have hext : FileHandler.ext = [46, 101, 110, 99] := by decide
  rw [hext]
  constructor
  · intro h
    split at h
    · cases h
    · split at h
      · cases h
      · split at h
        · cases h
        · rename_i h1 h2 h3
          rcases split_last dot f with hd | ⟨q, r, rfl, hr⟩
          · rw [afterLast_none hd] at h2; exact absurd rfl h2
          · rw [afterLast_sep hr] at h h3
            have e : (q ++ dot :: r).length - r.length - 1 = q.length := by simp; omega
            rw [e, List.drop_left] at h
            refine ⟨q, by rw [h], ?_⟩
            rintro rfl
            simp at h3
  · rintro ⟨stem, rfl, hs⟩
    have h1 : 1 ≤ stem.length := List.length_pos_iff.mpr hs
    have e : afterLast dot (stem ++ [46, 101, 110, 99]) = [101, 110, 99] := afterLast_sep (by decide)
    rw [e, if_neg, if_neg, if_neg]
    · have : (stem ++ [46, 101, 110, 99] : List Byte).length - ([101, 110, 99] : List Byte).length - 1 = stem.length := by
        simp
      rw [this, List.drop_left]
    · simp; omega
    · simp
    · rintro ⟨h2, -⟩; simp at h2

theorem extension_iff (p : Path) : Path.extension p = FileHandler.ext ↔ EncPath p := by
  rw [extension_eq]
  refine Iff.trans (ext_name _) ?_
  constructor
  · rintro ⟨stem, h1, h2⟩
    rcases split_last slash p with hs | ⟨q, r, rfl, hr⟩
    · rw [afterLast_none hs] at h1
      refine ⟨[], stem, by simpa using h1, h2, ?_, .inl rfl⟩
      intro h; apply hs; rw [h1]; simp [h]
    · rw [afterLast_sep hr] at h1
      refine ⟨q ++ [47], stem, by rw [h1]; simp, h2, ?_, .inr ⟨q, rfl⟩⟩
      intro h; apply hr; rw [h1]; simp [h]
  · rintro ⟨d, stem, rfl, h2, h3, h4⟩
    have hn : slash ∉ stem ++ [46, 101, 110, 99] := by simp [h3]; decide
    refine ⟨stem, ?_, h2⟩
    rcases h4 with rfl | ⟨q, rfl⟩
    · exact afterLast_none hn
    · rw [List.append_assoc, List.singleton_append]; exact afterLast_sep hn

/-! ### size fields -/

theorem readData8 (l : List Byte) (sched : Nat → Nat) (primed : Bool) :
    ∃ s', (if 8 ≤ l.length then readData ⟨l, sched, primed, false⟩ (Bytes.empty 8) 8 = .ok (some ⟨l.take 8, 8⟩, s') ∧
        s'.rest = l.drop 8 ∧ s'.eof = false
      else readData ⟨l, sched, primed, false⟩ (Bytes.empty 8) 8 = .ok (none, s') ∧ s'.eof = true ∧ s'.rest = []) := by
  have := readData_spec ⟨l, sched, primed, false⟩ (Bytes.empty 8) 8 rfl (by decide)
  simpa [Bytes.empty] using this

theorem beValue_num8 {n : Nat} (h : n < 2 ^ 64) : beValue (num8 n) = n := by
  rw [← num8_ofNat h, beValue_be8, UInt64.toNat_ofNat', Nat.mod_eq_of_lt h]

theorem num8_field {l : List Byte} (h : l.length = 8) : num8 (beValue l) = l := by
  have h1 : ∃ a b c d e f g i, l = [a, b, c, d, e, f, g, i] := by
    match l, h with
    | [a, b, c, d, e, f, g, i], _ => exact ⟨a, b, c, d, e, f, g, i, rfl⟩
  obtain ⟨a, b, c, d, e, f, g, i, rfl⟩ := h1
  have := a.toNat_lt; have := b.toNat_lt; have := c.toNat_lt; have := d.toNat_lt
  have := e.toNat_lt; have := f.toNat_lt; have := g.toNat_lt; have := i.toNat_lt
  simp only [num8, beValue, List.foldl_cons, List.foldl_nil, Nat.reducePow, List.cons.injEq, and_true]
  refine ⟨?_, ?_, ?_, ?_, ?_, ?_, ?_, ?_⟩ <;> (apply UInt8.toNat_inj.mp; simp only [UInt8.toNat_ofNat']; omega)

theorem toLong8 {l : List Byte} (h : l.length ≤ 8) (cap : Nat) :
    ∃ n, Bytes.toLong ⟨l, cap⟩ = .ok n ∧ n.toNat = beValue l := by
  refine ⟨_, toLong_eq _ h, ?_⟩
  have h1 := beValue_lt l
  have h2 : 256 ^ l.length ≤ 256 ^ 8 := Nat.pow_le_pow_right (by decide) h
  have h3 : (256 : Nat) ^ 8 = 2 ^ 64 := by decide
  rw [UInt64.toNat_ofNat', Nat.mod_eq_of_lt (by simp only; omega)]

theorem readHeaderSize_eq (l : List Byte) (sched : Nat → Nat) (size : Nat) :
    FileHandler.readHeaderSize ⟨l, sched, false, false⟩ size =
      if l.length < 8 then (if size = 0 then .ok 0 else .exn .lengthError)
      else if beValue (l.take 8) ≠ size then .exn .logicError
      else if l.length < 16 then .exn .lengthError
      else .ok (beValue ((l.drop 8).take 8)) := by
  obtain ⟨s1, h1⟩ := readData8 l sched false
  by_cases hl : l.length < 8
  · rw [if_neg (by omega)] at h1
    simp only [FileHandler.readHeaderSize, h1.1, Res.bind_ok, hl, if_true]
  · rw [if_pos (by omega)] at h1
    obtain ⟨n, hn, hn'⟩ := toLong8 (l := l.take 8) (by simp; omega) 8
    simp only [FileHandler.readHeaderSize, h1.1, Res.bind_ok, hl, if_false, hn, hn']
    by_cases hs : beValue (l.take 8) = size
    · have e : Bytes.setLen ⟨l.take 8, 8⟩ 0 = .ok (Bytes.empty 8) := by
        simp [Bytes.setLen, Bytes.empty]
      simp only [hs, ne_eq, not_true, if_false, e, Res.bind_ok]
      obtain ⟨rest1, sched1, primed1, eof1⟩ := s1
      obtain ⟨-, h2, h3⟩ := h1
      simp only at h2 h3
      subst h2 h3
      obtain ⟨s2, h4⟩ := readData8 (l.drop 8) sched1 primed1
      by_cases hl2 : l.length < 16
      · rw [if_neg (by simp; omega)] at h4
        simp only [h4.1, Res.bind_ok, hl2, if_true]
      · rw [if_pos (by simp; omega)] at h4
        obtain ⟨k, hk, hk'⟩ := toLong8 (l := (l.drop 8).take 8) (by simp; omega) 8
        simp only [h4.1, Res.bind_ok, hl2, if_false, hk, hk']
    · simp only [ne_eq, hs, not_false_iff, if_true]

theorem readHeaderSize_eof (sched : Nat → Nat) (size : Nat) :
    FileHandler.readHeaderSize ⟨[], sched, false, true⟩ size = if size = 0 then .ok 0 else .exn .lengthError := by
  have h : readData ⟨[], sched, false, true⟩ (Bytes.empty 8) 8 = .ok (none, ⟨[], sched, false, true⟩) := by
    simp [readData, Bytes.empty, readLoop, IStream.readsome]
  simp only [FileHandler.readHeaderSize, h, Res.bind_ok]

theorem plausible_unique {c : List Byte} {a b : Nat} (hc : c.length < 2 ^ 64) (ha : Plausible c a) (hb : Plausible c b) :
    a = b := by
  rcases ha with ⟨rfl, rfl⟩ | ⟨r1, e1, h1, h2⟩ <;> rcases hb with ⟨h3, rfl⟩ | ⟨r2, e2, h4, h5⟩
  · rfl
  · simp [num8] at e2
  · subst h3; simp [num8] at e1
  · have e : num8 a ++ r1 = num8 b ++ r2 := List.append_cancel_left (e1.symm.trans e2)
    have := (List.append_inj e rfl).1
    have := congrArg beValue this
    rwa [beValue_num8 (by omega), beValue_num8 (by omega)] at this

/-- `update` on a readable file -/
theorem update_file {e : Env} {fs : FS} {p : Path} {c : List Byte} (hp : fs p = .file c) (hr : e.canRead p = true)
    (hc : c.length < 2 ^ 64) (i : Nat) :
    (∃ n, Plausible c n ∧ FileHandler.update e fs p i = .ok ⟨p, n, c.length, c.isEmpty⟩) ∨
    ((¬ ∃ n, Plausible c n) ∧ ∃ x, (x = .lengthError ∨ x = .logicError) ∧ FileHandler.update e fs p i = .exn x) := by
  have hm : FileHandler.measure e fs p = c.length := by simp [FileHandler.measure, hp, hr]
  have ho : fs.openIn e p i = ⟨c, e.sched i, false, false⟩ := by simp [FS.openIn, hp, hr]
  simp only [FileHandler.update, hm, ho, readHeaderSize_eq]
  by_cases h1 : c.length < 8
  · rw [if_pos h1]
    by_cases h2 : c.length = 0
    · have : c = [] := by simpa using h2
      subst this
      exact .inl ⟨0, .inl ⟨rfl, rfl⟩, by simp⟩
    · rw [if_neg h2]
      refine .inr ⟨?_, _, .inl rfl, rfl⟩
      rintro ⟨n, ⟨rfl, -⟩ | ⟨r, e1, h3, h4⟩⟩
      · exact h2 rfl
      · omega
  · rw [if_neg h1]
    by_cases h2 : beValue (c.take 8) = c.length
    · simp only [h2, ne_eq, not_true, if_false]
      by_cases h3 : c.length < 16
      · rw [if_pos h3]
        refine .inr ⟨?_, _, .inl rfl, rfl⟩
        rintro ⟨n, ⟨rfl, -⟩ | ⟨r, e1, h4, h5⟩⟩
        · simp at h1
        · omega
      · rw [if_neg h3]
        simp only [Res.bind_ok]
        have hs1 : num8 c.length = c.take 8 := by rw [← h2, num8_field (by simp; omega)]
        have hs2 : num8 (beValue ((c.drop 8).take 8)) = (c.drop 8).take 8 := num8_field (by simp; omega)
        have hdec : c = num8 c.length ++ (num8 (beValue ((c.drop 8).take 8)) ++ c.drop 16) := by
          rw [hs1, hs2]
          conv => lhs; rw [← List.take_append_drop 8 c, ← List.take_append_drop 8 (c.drop 8), List.drop_drop]
        generalize hk : beValue ((c.drop 8).take 8) = k at hdec
        have huniq : ∀ n, Plausible c n → n = k := by
          rintro n (⟨rfl, -⟩ | ⟨r, e1, h4, h5⟩)
          · simp at h1
          · have e : num8 n ++ r = num8 k ++ c.drop 16 := List.append_cancel_left (e1.symm.trans hdec)
            have := congrArg beValue (List.append_inj e rfl).1
            have hk64 : k < 2 ^ 64 := by
              rw [← hk]
              have h6 := beValue_lt ((c.drop 8).take 8)
              have h7 : ((c.drop 8).take 8).length = 8 := by simp; omega
              rw [h7] at h6
              exact Nat.lt_of_lt_of_le h6 (by decide)
            rwa [beValue_num8 (by omega), beValue_num8 hk64] at this
        by_cases h4 : k > c.length
        · rw [if_pos h4]
          refine .inr ⟨?_, _, .inr rfl, rfl⟩
          rintro ⟨n, hn⟩
          have := huniq n hn
          rcases hn with ⟨rfl, -⟩ | ⟨-, -, -, h6⟩
          · simp at h1
          · omega
        · rw [if_neg h4]
          by_cases h5 : k < minDataHeaderLen
          · rw [if_pos ⟨h5, by omega⟩]
            refine .inr ⟨?_, _, .inl rfl, rfl⟩
            rintro ⟨n, hn⟩
            have := huniq n hn
            rcases hn with ⟨rfl, -⟩ | ⟨-, -, h6, -⟩
            · simp at h1
            · simp only [minDataHeaderLen] at h5; omega
          · rw [if_neg (fun h => h5 h.1)]
            refine .inl ⟨k, .inr ⟨_, hdec, by simp only [minDataHeaderLen] at h5; omega, by omega⟩, ?_⟩
            cases c with
            | nil => simp at h1
            | cons x c => rfl
    · simp only [ne_eq, h2, not_false_iff, if_true]
      refine .inr ⟨?_, _, .inr rfl, rfl⟩
      rintro ⟨n, ⟨rfl, -⟩ | ⟨r, e1, h3, h4⟩⟩
      · simp at h1
      · apply h2
        have : c.take 8 = num8 c.length := by
          have := congrArg (List.take 8) e1
          rwa [List.take_left' (length_num8 _)] at this
        rw [this, beValue_num8 hc]

/-- `update` on a directory that can be opened -/
theorem update_dir {e : Env} {fs : FS} {p : Path} (hp : fs p = .dir) (hr : e.canRead p = true) (i : Nat) :
    FileHandler.update e fs p i = if e.dirSize p = 0 then .ok ⟨p, 0, 0, true⟩ else .exn .lengthError := by
  have hm : FileHandler.measure e fs p = e.dirSize p := by simp [FileHandler.measure, hp, hr]
  have ho : fs.openIn e p i = ⟨[], e.sched i, false, true⟩ := by simp [FS.openIn, hp]
  simp only [FileHandler.update, hm, ho, readHeaderSize_eof]
  by_cases h : e.dirSize p = 0
  · simp [h]
  · simp [h]

/-! ### validation -/

theorem isValidPath_true (e : Env) (fs : FS) (p : Path) : FileHandler.isValidPath e fs p true =
    if p = [] then .ok (.fail .ERR_EMPTY_FILEPATH)
    else if Path.extension p ≠ FileHandler.ext then .ok (.fail .ERR_EXTENSION_INVALID)
    else match fs p with
      | .missing => .ok (.fail .ERR_FILE_NOT_FOUND)
      | .unreachable => .fatal .terminate
      | _ => if e.canRead p then .ok (.success ()) else .ok (.fail .ERR_FILE_NOT_OPEN) := by
  simp only [FileHandler.isValidPath]
  by_cases h1 : p = []
  · simp [h1]
  · by_cases h2 : Path.extension p = FileHandler.ext
    · simp only [h1, h2, ne_eq, not_true, if_false, if_true]
      cases hn : fs p <;> simp [FS.existsAt, FS.opens, hn]
      · cases e.canRead p <;> simp
      · cases e.canRead p <;> simp
    · simp [h1, h2]

theorem isValidPath_false (e : Env) (fs : FS) (p : Path) : FileHandler.isValidPath e fs p false =
    if p = [] then .ok (.fail .ERR_EMPTY_FILEPATH)
    else if Path.extension p ≠ FileHandler.ext then .ok (.fail .ERR_EXTENSION_INVALID)
    else match fs p with
      | .missing => .ok (.success ())
      | .unreachable => .fatal .terminate
      | _ => .ok (.fail .ERR_FILE_EXISTS) := by
  simp only [FileHandler.isValidPath]
  by_cases h1 : p = []
  · simp [h1]
  · by_cases h2 : Path.extension p = FileHandler.ext
    · simp only [h1, h2, ne_eq, not_true, if_false]
      cases hn : fs p <;> simp [FS.existsAt, hn]
    · simp [h1, h2]

end Verif
