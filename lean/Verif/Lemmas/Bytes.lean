import Verif.Model.Util
import Verif.Spec.Basic

namespace Verif
open Spec

theorem leValue_append (l : List Byte) (x : Byte) :
    Bytes.leValue (l ++ [x]) = Bytes.leValue l + 256 ^ l.length * x.toNat := by
  induction l with
  | nil => simp [Bytes.leValue]
  | cons a l ih =>
    simp only [List.cons_append, Bytes.leValue, ih, List.length_cons, Nat.pow_succ]
    grind

theorem beValue_foldl (l : List Byte) (acc : Nat) :
    l.foldl (fun acc x => acc * 256 + x.toNat) acc = acc * 256 ^ l.length + Bytes.leValue l.reverse := by
  induction l generalizing acc with
  | nil => simp [Bytes.leValue]
  | cons a l ih =>
    simp only [List.foldl_cons, ih, List.reverse_cons, leValue_append, List.length_reverse,
      List.length_cons, Nat.pow_succ]
    grind

theorem leValue_reverse (l : List Byte) : Bytes.leValue l.reverse = beValue l := by
  simp [beValue, beValue_foldl]

theorem beValue_cons (x : Byte) (l : List Byte) : beValue (x :: l) = x.toNat * 256 ^ l.length + beValue l := by
  simp [beValue, beValue_foldl]

theorem beValue_lt (l : List Byte) : beValue l < 256 ^ l.length := by
  induction l with
  | nil => simp [beValue]
  | cons x l ih =>
    rw [beValue_cons, List.length_cons, Nat.pow_succ]
    have := x.toNat_lt
    have h2 : x.toNat * 256 ^ l.length ≤ 255 * 256 ^ l.length := Nat.mul_le_mul_right _ (by omega)
    omega

/-- the eight bytes of a number, most significant first -/
def be8 (n : UInt64) : List Byte := (List.range 8).map (Bytes.beByte n)

@[simp] theorem length_be8 (n : UInt64) : (be8 n).length = 8 := by simp [be8]

theorem be8_eq (n : UInt64) : be8 n = [Bytes.beByte n 0, Bytes.beByte n 1, Bytes.beByte n 2, Bytes.beByte n 3,
    Bytes.beByte n 4, Bytes.beByte n 5, Bytes.beByte n 6, Bytes.beByte n 7] := rfl

theorem beValue_be8 (n : UInt64) : beValue (be8 n) = n.toNat := by
  have := n.toNat_lt
  simp only [be8_eq, beValue, Bytes.beByte, List.foldl_cons, List.foldl_nil, UInt8.toNat_ofNat', Nat.reducePow,
    Nat.reduceSub]
  omega

theorem fromLong_true (n : UInt64) : Bytes.fromLong n true = .ok ⟨be8 n, 8⟩ := by
  simp only [Bytes.fromLong, Bytes.empty, be8_eq]
  have step : ∀ (i : Nat) (is : List Nat) (d : List Byte), d.length < 8 →
      Bytes.fromLongLoop n true (i :: is) ⟨d, 8⟩ = Bytes.fromLongLoop n true is ⟨d ++ [Bytes.beByte n i], 8⟩ := by
    intro i is d hd
    simp only [Bytes.fromLongLoop, Bytes.addByte]
    have : ¬ (d.length ≥ 8) := by omega
    by_cases h0 : Bytes.beByte n i = 0
    · simp [this, h0]
    · simp [this, h0]
  iterate 8 rw [step _ _ _ (by simp)]
  simp [Bytes.fromLongLoop]

/-- dropping leading zeros does not change the value -/
theorem beValue_dropWhile (l : List Byte) : beValue (l.dropWhile (· == 0)) = beValue l := by
  induction l with
  | nil => rfl
  | cons x l ih =>
    by_cases h : x = 0
    · subst h; simp [beValue_cons, ih]
    · simp [h]

theorem fromLongLoop_nonempty (n : UInt64) (z : Bool) (is : List Nat) (d : List Byte) (h0 : d ≠ [])
    (h : d.length + is.length ≤ 8) :
    Bytes.fromLongLoop n z is ⟨d, 8⟩ = .ok ⟨d ++ is.map (Bytes.beByte n), 8⟩ := by
  induction is generalizing d with
  | nil => simp [Bytes.fromLongLoop]
  | cons i is ih =>
    simp only [List.length_cons] at h
    have h1 : ¬ (d.length ≥ 8) := by omega
    have h2 : d.length ≠ 0 := by simpa using h0
    simp only [Bytes.fromLongLoop, Bytes.isEmpty, Bytes.addByte, if_neg h1]
    simp [h0]
    rw [ih _ (by simp) (by simp; omega)]
    simp

theorem fromLongLoop_false (n : UInt64) (is : List Nat) (h : is.length ≤ 8) :
    Bytes.fromLongLoop n false is ⟨[], 8⟩ = .ok ⟨(is.map (Bytes.beByte n)).dropWhile (· == 0), 8⟩ := by
  induction is with
  | nil => simp [Bytes.fromLongLoop]
  | cons i is ih =>
    simp only [List.length_cons] at h
    by_cases h0 : Bytes.beByte n i = 0
    · simp only [Bytes.fromLongLoop, Bytes.isEmpty, h0]
      simp [ih (by omega)]
      simp [h0]
    · simp only [Bytes.fromLongLoop, Bytes.addByte, Bytes.isEmpty]
      simp [h0]
      rw [fromLongLoop_nonempty _ _ _ _ (by simp) (by simp; omega)]
      simp

theorem fromLong_false (n : UInt64) : Bytes.fromLong n false = .ok ⟨(be8 n).dropWhile (· == 0), 8⟩ := by
  exact fromLongLoop_false n [0, 1, 2, 3, 4, 5, 6, 7] (by simp)

theorem toLong_eq (b : Bytes) (h : b.data.length ≤ 8) : b.toLong = .ok (UInt64.ofNat (beValue b.data)) := by
  simp [Bytes.toLong, Nat.not_lt.mpr h, leValue_reverse]

theorem zipWith_add (a b : List Byte) : List.zipWith (· + ·) a b = addB a b := by
  induction a generalizing b with
  | nil => simp [addB]
  | cons x a ih => cases b <;> simp [addB, ih]

theorem zipWith_sub (a b : List Byte) : List.zipWith (· - ·) a b = subB a b := by
  induction a generalizing b with
  | nil => simp [subB]
  | cons x a ih => cases b <;> simp [subB, ih]

@[simp] theorem length_addB (a b : List Byte) : (addB a b).length = min a.length b.length := by
  rw [← zipWith_add]; simp

@[simp] theorem length_subB (a b : List Byte) : (subB a b).length = min a.length b.length := by
  rw [← zipWith_sub]; simp

theorem subB_addB (a b : List Byte) (h : a.length ≤ b.length) : subB (addB a b) b = a := by
  induction a generalizing b with
  | nil => simp [addB, subB]
  | cons x a ih =>
    cases b with
    | nil => simp at h
    | cons y b => simp [addB, subB, ih b (by simpa using h), UInt8.add_sub_cancel]

theorem addB_subB (a b : List Byte) (h : a.length ≤ b.length) : addB (subB a b) b = a := by
  induction a generalizing b with
  | nil => simp [addB, subB]
  | cons x a ih =>
    cases b with
    | nil => simp at h
    | cons y b => simp [addB, subB, ih b (by simpa using h), UInt8.sub_add_cancel]

end Verif
