import Verif.Spec.Cipher
import Verif.Lemmas.Bytes
import Verif.Model.BlockChain

/-
Auxiliary abstract machine between the code and the byte-wise specification of the cipher, and facts about the
specification.
-/
namespace Verif
open Spec

def Dir.op : Dir → List Byte → List Byte → List Byte
  | .enc => addB
  | .dec => subB

def Dir.op1 : Dir → Byte → Byte → Byte
  | .enc => fun x y => x + y
  | .dec => fun x y => x - y

/-- plain text, given input and output -/
def Dir.pl : Dir → List Byte → List Byte → List Byte
  | .enc => fun x _ => x
  | .dec => fun _ y => y

theorem getElem?_addB (a b : List Byte) (k : Nat) :
    (addB a b)[k]? = (match a[k]?, b[k]? with | some x, some y => some (x + y) | _, _ => none) := by
  rw [← zipWith_add, List.getElem?_zipWith]
  cases a[k]? <;> cases b[k]? <;> rfl

theorem getElem?_subB (a b : List Byte) (k : Nat) :
    (subB a b)[k]? = (match a[k]?, b[k]? with | some x, some y => some (x - y) | _, _ => none) := by
  rw [← zipWith_sub, List.getElem?_zipWith]
  cases a[k]? <;> cases b[k]? <;> rfl

@[simp] theorem Dir.length_op (dir : Dir) (a b : List Byte) : (dir.op a b).length = min a.length b.length := by
  cases dir <;> simp [Dir.op]

theorem Dir.op_nil (dir : Dir) (b : List Byte) : dir.op [] b = [] := by cases dir <;> simp [Dir.op, addB, subB]

theorem Dir.op_take (dir : Dir) (a b : List Byte) : dir.op a (b.take a.length) = dir.op a b := by
  cases dir <;> simp only [Dir.op, ← zipWith_add, ← zipWith_sub]
  all_goals
    apply List.ext_getElem?
    intro i
    simp only [List.getElem?_zipWith, List.getElem?_take]
    split <;> split <;> simp_all

/-- one step of the key recurrence -/
def nextK (h : List Byte → List Byte) (k : List Byte × List Byte) (d : List Byte) : List Byte × List Byte :=
  (h (addB (addB k.1 k.2) d), h (addB (addB (h (addB (addB k.1 k.2) d)) k.2) d))

def saltK (h : List Byte → List Byte) (k : List Byte × List Byte) : List Byte := h (addB k.1 k.2)

/-- finished output, current keys, input bytes in the current block -/
structure ASt where
  R : List Byte
  k : List Byte × List Byte
  p : List Byte

namespace ASt

def cur (dir : Dir) (H : HashFn) (s : ASt) : List Byte := dir.op s.p (saltK H.h s.k)

def out (dir : Dir) (H : HashFn) (s : ASt) : List Byte := s.R ++ s.cur dir H

def commit (dir : Dir) (H : HashFn) (s : ASt) : ASt :=
  ⟨s.out dir H, nextK H.h s.k (H.h (dir.pl s.p (s.cur dir H))), []⟩

def app (s : ASt) (y : List Byte) : ASt := ⟨s.R, s.k, s.p ++ y⟩

def feed (dir : Dir) (H : HashFn) (s : ASt) (y : List Byte) : ASt :=
  if _h : s.p.length + y.length ≤ H.size then s.app y
  else feed dir H ((s.app (y.take (H.size - s.p.length))).commit dir H) (y.drop (H.size - s.p.length))
termination_by s.p.length + y.length
decreasing_by
  have := H.pos
  simp only [commit, List.length_nil, List.length_drop]
  omega

theorem feed_append (dir : Dir) (H : HashFn) (s : ASt) (y z : List Byte) :
    feed dir H (feed dir H s y) z = feed dir H s (y ++ z) := by
  induction s, y using feed.induct dir H with
  | case1 s y h =>
    rw [feed.eq_def dir H s y, dif_pos h, feed.eq_def dir H (s.app y) z, feed.eq_def dir H s (y ++ z)]
    simp only [app, List.length_append, Nat.add_assoc]
    split
    · simp
    · have h1 : (y ++ z).take (H.size - s.p.length) = y ++ z.take (H.size - (s.p.length + y.length)) := by
        rw [List.take_append, List.take_of_length_le (by omega)]
        congr 2; omega
      have h2 : (y ++ z).drop (H.size - s.p.length) = z.drop (H.size - (s.p.length + y.length)) := by
        rw [List.drop_append, List.drop_of_length_le (by omega)]
        simp; congr 1; omega
      rw [h1, h2]
      simp
  | case2 s y h ih =>
    rw [feed.eq_def dir H s y, dif_neg h, ih, feed.eq_def dir H s (y ++ z)]
    rw [dif_neg (by simp; omega)]
    rw [List.take_append_of_le_length (by omega), List.drop_append_of_le_length (by omega)]

theorem feed_nil (dir : Dir) (H : HashFn) (s : ASt) (h : s.p.length ≤ H.size) : feed dir H s [] = s := by
  rw [feed.eq_def, dif_pos (by simpa using h)]
  simp [app]

theorem feed_p_le (dir : Dir) (H : HashFn) (s : ASt) (y : List Byte) : (feed dir H s y).p.length ≤ H.size := by
  induction s, y using feed.induct dir H with
  | case1 s y h => rw [feed.eq_def, dif_pos h]; simpa [app] using h
  | case2 s y h ih => rw [feed.eq_def, dif_neg h]; exact ih

theorem feed_length (dir : Dir) (H : HashFn) (s : ASt) (y : List Byte) (hp : s.p.length ≤ H.size) :
    (feed dir H s y).R.length + (feed dir H s y).p.length = s.R.length + s.p.length + y.length := by
  induction s, y using feed.induct dir H with
  | case1 s y h => rw [feed.eq_def, dif_pos h]; simp [app]; omega
  | case2 s y h ih =>
    rw [feed.eq_def, dif_neg h, ih (by simp [commit])]
    simp [commit, app, out, cur, saltK]
    omega

end ASt

theorem blockDigest_congr (h : List Byte → List Byte) (n : Nat) (x y : List Byte) (i : Nat)
    (e : x.take (i * n) = y.take (i * n)) : blockDigest h n x i = blockDigest h n y i := by
  cases i with
  | zero => rfl
  | succ i =>
    simp only [blockDigest, blockNo, Nat.add_sub_cancel]
    have : ∀ z : List Byte, (z.drop (i * n)).take n = (z.take ((i + 1) * n)).drop (i * n) := by
      intro z
      rw [List.drop_take, Nat.add_mul, Nat.one_mul, Nat.add_sub_cancel_left]
    rw [this x, this y, e]

theorem take_take_le {x y : List Byte} {a b : Nat} (h : a ≤ b) (e : x.take b = y.take b) : x.take a = y.take a := by
  have := congrArg (List.take a) e
  simpa [List.take_take, Nat.min_eq_left h] using this

theorem keyPair_congr (h : List Byte → List Byte) (n : Nat) (a b x y : List Byte) (i : Nat)
    (e : x.take ((i - 1) * n) = y.take ((i - 1) * n)) : keyPair h n a b x i = keyPair h n a b y i := by
  induction i with
  | zero => rfl
  | succ i ih =>
    simp only [Nat.add_sub_cancel] at e
    have e' : x.take ((i - 1) * n) = y.take ((i - 1) * n) :=
      take_take_le (Nat.mul_le_mul_right n (by omega)) e
    simp only [keyPair, ih e', blockDigest_congr h n x y i e]

theorem blockSalt_congr (h : List Byte → List Byte) (n : Nat) (a b x y : List Byte) (i : Nat)
    (e : x.take ((i - 1) * n) = y.take ((i - 1) * n)) : blockSalt h n a b x i = blockSalt h n a b y i := by
  simp only [blockSalt, keyPair_congr h n a b x y i e]

theorem keyPair_succ (h : List Byte → List Byte) (n : Nat) (a b x : List Byte) (i : Nat) :
    keyPair h n a b x (i + 1) = nextK h (keyPair h n a b x i) (blockDigest h n x i) := rfl

theorem blockSalt_length (H : HashFn) (n : Nat) (a b x : List Byte) (i : Nat) :
    (blockSalt H.h n a b x i).length = H.size := by simp [blockSalt]

theorem take_succ_eq {x y : List Byte} {k : Nat} (h : x.take k = y.take k) (e : x[k]? = y[k]?) :
    x.take (k + 1) = y.take (k + 1) := by
  rw [List.take_add_one, List.take_add_one, h, e]

theorem take_of_get {x y : List Byte} {k : Nat} (h : ∀ i, i < k → x[i]? = y[i]?) : x.take k = y.take k := by
  apply List.ext_getElem?
  intro i
  simp only [List.getElem?_take]
  split
  · exact h i ‹_›
  · rfl

theorem get_of_take {x y : List Byte} {k i : Nat} (h : x.take k = y.take k) (hi : i < k) : x[i]? = y[i]? := by
  have := congrArg (fun l => l[i]?) h
  simpa [List.getElem?_take, hi] using this

/-- plain texts agreeing on the first `k` bytes have ciphertexts agreeing there -/
theorem enc_prefix {h : List Byte → List Byte} {n : Nat} {a b x y cx cy : List Byte} (k : Nat)
    (hx : IsEncryption h n a b x cx) (hy : IsEncryption h n a b y cy) (e : x.take k = y.take k) :
    cx.take k = cy.take k := by
  apply take_of_get
  intro i hi
  have ei : x[i]? = y[i]? := get_of_take e hi
  cases hxi : x[i]? with
  | none =>
    have h1 : cx[i]? = none := by simp only [List.getElem?_eq_none_iff] at hxi ⊢; rw [hx.1]; exact hxi
    have h2 : cy[i]? = none := by
      rw [hxi] at ei
      have := ei.symm
      simp only [List.getElem?_eq_none_iff] at this ⊢; rw [hy.1]; exact this
    rw [h1, h2]
  | some p =>
    obtain ⟨s, hs, hc⟩ := hx.2 i p hxi
    obtain ⟨s', hs', hc'⟩ := hy.2 i p (ei ▸ hxi)
    rw [blockSalt_congr h n a b x y (i / n + 1)] at hs
    · rw [hs] at hs'
      rw [hc, hc', Option.some.inj hs']
    · exact take_take_le (Nat.le_trans (by simpa using Nat.div_mul_le_self i n) (Nat.le_of_lt hi)) e

/-- ciphertexts agreeing on the first `k` bytes come from plain texts agreeing there -/
theorem dec_prefix {h : List Byte → List Byte} {n : Nat} {a b x y cx cy : List Byte} (k : Nat)
    (hx : IsEncryption h n a b x cx) (hy : IsEncryption h n a b y cy) (e : cx.take k = cy.take k) :
    x.take k = y.take k := by
  induction k with
  | zero => simp
  | succ k ih =>
    have e' := ih (take_take_le (by omega) e)
    apply take_succ_eq e'
    have ec : cx[k]? = cy[k]? := get_of_take e (by omega)
    cases hxk : x[k]? with
    | none =>
      have h1 : cx[k]? = none := by simp only [List.getElem?_eq_none_iff] at hxk ⊢; rw [hx.1]; exact hxk
      rw [h1] at ec
      have h2 := ec.symm
      rw [List.getElem?_eq_none_iff, hy.1] at h2
      symm
      exact List.getElem?_eq_none_iff.2 h2
    | some p =>
      obtain ⟨s, hs, hc⟩ := hx.2 k p hxk
      have : k < y.length := by
        rw [hc] at ec
        obtain ⟨h1, -⟩ := List.getElem?_eq_some_iff.1 ec.symm
        rw [hy.1] at h1; exact h1
      have hyk : y[k]? = some y[k] := List.getElem?_eq_getElem this
      obtain ⟨s', hs', hc'⟩ := hy.2 k _ hyk
      rw [blockSalt_congr h n a b x y (k / n + 1)] at hs
      · rw [hs] at hs'
        rw [hc, hc', Option.some.inj hs'] at ec
        rw [hyk]
        have := Option.some.inj ec
        congr 1
        exact UInt8.add_left_inj s' |>.1 this
      · exact take_take_le (by simpa using Nat.div_mul_le_self k n) e'

theorem dec_unique {h : List Byte → List Byte} {n : Nat} {a b x y c : List Byte}
    (hx : IsEncryption h n a b x c) (hy : IsEncryption h n a b y c) : x = y := by
  have := dec_prefix (c.length) hx hy rfl
  rwa [hx.1, List.take_length, ← hx.1, hy.1, List.take_length] at this

theorem enc_unique {h : List Byte → List Byte} {n : Nat} {a b x c d : List Byte}
    (hx : IsEncryption h n a b x c) (hy : IsEncryption h n a b x d) : c = d := by
  have := enc_prefix (x.length) hx hy rfl
  rwa [← hx.1, List.take_length, hx.1, ← hy.1, List.take_length] at this

/-- invariant tying the abstract machine to the specification; `x` is the input so far -/
structure ASt.Inv (dir : Dir) (H : HashFn) (a b : List Byte) (s : ASt) (x : List Byte) (m : Nat) : Prop where
  R : s.R.length = m * H.size
  p : x.drop (m * H.size) = s.p
  len : x.length = s.R.length + s.p.length
  le : s.p.length ≤ H.size
  key : s.k = keyPair H.h H.size a b (dir.pl x (s.out dir H)) (m + 1)
  get : ∀ (k : Nat) (v : Byte), x[k]? = some v →
    ∃ w, (blockSalt H.h H.size a b (dir.pl x (s.out dir H)) (k / H.size + 1))[k % H.size]? = some w ∧
      (s.out dir H)[k]? = some (dir.op1 v w)

theorem ASt.out_length {dir : Dir} {H : HashFn} {a b : List Byte} {s : ASt} {x : List Byte} {m : Nat}
    (i : s.Inv dir H a b x m) : (s.out dir H).length = x.length := by
  have := i.le; have := i.len
  simp [ASt.out, ASt.cur, saltK]; omega

theorem Dir.pl_length {dir : Dir} {x y : List Byte} (h : y.length = x.length) : (dir.pl x y).length = x.length := by
  cases dir <;> simp [Dir.pl, h]

theorem take_append_prefix {u v w : List Byte} {k : Nat} (h : k ≤ u.length) :
    (u ++ v).take k = (u ++ w).take k := by
  rw [List.take_append_of_le_length h, List.take_append_of_le_length h]

theorem ASt.Inv.app {dir : Dir} {H : HashFn} {a b : List Byte} {s : ASt} {x : List Byte} {m : Nat}
    (i : s.Inv dir H a b x m) (y : List Byte) (h : s.p.length + y.length ≤ H.size) :
    (s.app y).Inv dir H a b (x ++ y) m := by
  have hs := H.pos
  have hol := ASt.out_length i
  have hlen := i.len
  have hR := i.R
  have hout : ∀ k, k < x.length → ((s.app y).out dir H)[k]? = (s.out dir H)[k]? := by
    intro k hk
    simp only [ASt.out, ASt.app, ASt.cur, List.getElem?_append]
    split
    · rfl
    · have h1 : k - s.R.length < s.p.length := by omega
      cases dir <;> simp [Dir.op, getElem?_addB, getElem?_subB, List.getElem?_append, h1]
  have hol' : ((s.app y).out dir H).length = (x ++ y).length := by
    simp [ASt.out, ASt.app, ASt.cur, saltK]; omega
  have htake : ∀ k, k ≤ x.length → (dir.pl (x ++ y) ((s.app y).out dir H)).take k = (dir.pl x (s.out dir H)).take k := by
    intro k hk
    apply take_of_get
    intro j hj
    cases dir
    · simp only [Dir.pl]; rw [List.getElem?_append_left (by omega)]
    · simp only [Dir.pl]; exact hout j (by omega)
  have hkey : s.k = keyPair H.h H.size a b (dir.pl (x ++ y) ((s.app y).out dir H)) (m + 1) := by
    rw [i.key]
    apply keyPair_congr
    rw [htake _ (by simp; omega)]
  refine ⟨hR, ?_, ?_, ?_, hkey, ?_⟩
  · rw [List.drop_append_of_le_length (by omega), i.p]; rfl
  · simp [ASt.app]; omega
  · simpa [ASt.app] using h
  · intro k v hv
    by_cases hk : k < x.length
    · obtain ⟨w, hw, ho⟩ := i.get k v (by rwa [List.getElem?_append_left hk] at hv)
      refine ⟨w, ?_, by rw [hout k hk, ho]⟩
      rw [blockSalt_congr H.h H.size a b _ (dir.pl x (s.out dir H))]
      · exact hw
      · apply htake
        have := Nat.div_mul_le_self k H.size
        simp; omega
    · -- a byte of the current block
      have hkl : k < (x ++ y).length := by
        obtain ⟨h1, -⟩ := List.getElem?_eq_some_iff.1 hv; exact h1
      have hkl' : k < x.length + y.length := by simpa using hkl
      have hd : k / H.size = m := by
        have : k = (k - m * H.size) + m * H.size := by omega
        rw [this, Nat.add_mul_div_right _ _ (by omega), Nat.div_eq_of_lt (by omega)]; simp
      have hm : k % H.size = k - m * H.size := by
        have := Nat.div_add_mod k H.size
        rw [hd, Nat.mul_comm] at this; omega
      rw [hd, hm]
      have hsalt : blockSalt H.h H.size a b (dir.pl (x ++ y) ((s.app y).out dir H)) (m + 1) = saltK H.h s.k := by
        rw [blockSalt, ← hkey]; rfl
      rw [hsalt]
      have hsl : (saltK H.h s.k).length = H.size := by simp [saltK]
      have hlt : k - m * H.size < (saltK H.h s.k).length := by omega
      refine ⟨(saltK H.h s.k)[k - m * H.size], List.getElem?_eq_getElem hlt, ?_⟩
      have hpv : (s.p ++ y)[k - m * H.size]? = some v := by
        have : (x ++ y).drop (m * H.size) = s.p ++ y := by
          rw [List.drop_append_of_le_length (by omega), i.p]
        rw [← this, List.getElem?_drop, ← hv]
        congr 1; omega
      simp only [ASt.out, ASt.app, ASt.cur]
      rw [List.getElem?_append_right (by omega), hR]
      cases dir
      · simp only [Dir.op, Dir.op1, getElem?_addB, hpv, List.getElem?_eq_getElem hlt]
      · simp only [Dir.op, Dir.op1, getElem?_subB, hpv, List.getElem?_eq_getElem hlt]

theorem ASt.Inv.commit {dir : Dir} {H : HashFn} {a b : List Byte} {s : ASt} {x : List Byte} {m : Nat}
    (i : s.Inv dir H a b x m) (h : s.p.length = H.size) :
    (s.commit dir H).Inv dir H a b x (m + 1) := by
  have hlen := i.len
  have hR := i.R
  have hcl : (s.cur dir H).length = H.size := by simp [ASt.cur, saltK, h]
  have hout : (s.commit dir H).out dir H = s.out dir H := by
    simp [ASt.commit, ASt.out, ASt.cur, Dir.op_nil]
  have hx : x.length = (m + 1) * H.size := by rw [Nat.add_mul]; omega
  refine ⟨?_, ?_, ?_, by simp [ASt.commit], ?_, ?_⟩
  · simp [ASt.commit, ASt.out, hcl, hR, Nat.add_mul]
  · rw [← hx]; simp [ASt.commit]
  · simp [ASt.commit, ASt.out, hcl]; omega
  · rw [hout, keyPair_succ, ← i.key]
    simp only [ASt.commit]
    congr 1
    simp only [blockDigest, blockNo, Nat.add_sub_cancel]
    congr 1
    cases dir
    · simp only [Dir.pl]
      rw [i.p, ← h, List.take_length]
    · simp only [Dir.pl, ASt.out]
      rw [← hR, List.drop_left, ← hcl, List.take_length]
  · rw [hout]; exact i.get

theorem ASt.Inv.feed {dir : Dir} {H : HashFn} {a b : List Byte} (s : ASt) (y : List Byte) :
    ∀ (x : List Byte) (m : Nat), s.Inv dir H a b x m → ∃ m', (s.feed dir H y).Inv dir H a b (x ++ y) m' := by
  induction s, y using ASt.feed.induct dir H with
  | case1 s y h =>
    intro x m i
    rw [feed.eq_def, dif_pos h]
    exact ⟨m, i.app y h⟩
  | case2 s y h ih =>
    intro x m i
    have hp := i.le
    rw [feed.eq_def, dif_neg h]
    have hl : (y.take (H.size - s.p.length)).length = H.size - s.p.length := by simp; omega
    have i2 := (i.app (y.take (H.size - s.p.length)) (by omega)).commit (by simp [ASt.app]; omega)
    obtain ⟨m', i3⟩ := ih _ _ i2
    refine ⟨m', ?_⟩
    rwa [List.append_assoc, List.take_append_drop] at i3

/-- state after the first block has been created -/
def ASt.init (H : HashFn) (a b : List Byte) : ASt := ⟨[], nextK H.h (a, b) (List.replicate H.size 0), []⟩

theorem ASt.init_inv (dir : Dir) (H : HashFn) (a b : List Byte) : (ASt.init H a b).Inv dir H a b [] 0 := by
  refine ⟨by simp [ASt.init], by simp [ASt.init], by simp [ASt.init], by simp [ASt.init], ?_, by simp⟩
  rfl

/-- the abstract machine computes the specified cipher -/
theorem ASt.feed_spec (dir : Dir) (H : HashFn) (a b x : List Byte) :
    IsEncryption H.h H.size a b (dir.pl x (((ASt.init H a b).feed dir H x).out dir H))
      (match dir with | .enc => ((ASt.init H a b).feed dir H x).out dir H | .dec => x) := by
  obtain ⟨m, i⟩ := ASt.Inv.feed _ x [] 0 (ASt.init_inv dir H a b)
  simp only [List.nil_append] at i
  have hl := ASt.out_length i
  cases dir
  · exact ⟨hl, i.get⟩
  · refine ⟨hl.symm, ?_⟩
    intro k p hp
    simp only [Dir.pl] at hp
    have hk : k < x.length := by
      obtain ⟨h1, -⟩ := List.getElem?_eq_some_iff.1 hp
      omega
    have hx : x[k]? = some x[k] := List.getElem?_eq_getElem hk
    obtain ⟨w, hw, ho⟩ := i.get k _ hx
    refine ⟨w, hw, ?_⟩
    simp only [Dir.op1] at ho ⊢
    rw [hp] at ho
    rw [hx, Option.some.inj ho]
    simp

end Verif
