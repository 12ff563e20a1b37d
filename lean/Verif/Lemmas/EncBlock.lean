import Verif.Lemmas.HeaderOps
import Verif.Lemmas.BlockChain

namespace Verif
open Spec
namespace EncDataBlock

theorem zip_round (f : Byte → Byte → Byte) (d s S : List Byte) (k : Nat) (hk : k = min s.length d.length) :
    List.zipWith f d (s ++ S) = List.zipWith f (d.take k) (s.take k) ++ List.zipWith f (d.drop k) (if k = s.length then S else []) := by
  by_cases h : s.length ≤ d.length
  · have : k = s.length := by omega
    subst this
    rw [if_pos rfl, List.take_length, ← List.zipWith_append (by simp; omega), List.take_append_drop]
  · have : k = d.length := by omega
    subst this
    rw [if_neg (by omega), List.take_length, List.drop_length, List.zipWith_nil_left, List.append_nil]
    rw [List.zipWith_eq_zipWith_take_min]
    rw [List.take_of_length_le (by simp; omega)]
    congr 1
    rw [List.length_append, Nat.min_eq_left (by omega), List.take_append_of_le_length (by omega)]

/-- the loops of `make` and `getDec`, with the operation on bytes left open -/
def loop (cond : Nat → Prop) [DecidablePred cond] (op : Bytes → Bytes → Res Bytes) (H : HashFn) (data pw : Bytes) (len : Nat) :
    Nat → (salt out : Bytes) → (written : Nat) → Res Bytes
  | 0, _, _, _ => .fatal .diverge
  | fuel + 1, salt, out, written =>
    if cond out.data.length then do
      let salt ← H.hash (← salt.sub pw)
      let stop := min (written + salt.data.length) len % 2 ^ 16
      let a ← data.copySubBytes written stop
      let b ← salt.copySubBytes 0 (stop - written)
      let x ← op a b
      let out ← x.addcopyToBytes out
      loop cond op H data pw len fuel salt out stop
    else .ok out

theorem loop_eq {cond : Nat → Prop} [DecidablePred cond] {op : Bytes → Bytes → Res Bytes} {f : Byte → Byte → Byte}
    (hop : ∀ a b : Bytes, a.data.length = b.data.length → op a b = .ok ⟨List.zipWith f a.data b.data, a.cap⟩)
    (H : HashFn) (data pw : Bytes) (len : Nat) (hcond : ∀ n, n ≤ len → (cond n ↔ n < len)) (hlen : len ≤ data.data.length) (hl : len ≤ 255) (hpw : pw.data.length = H.size)
    (fuel : Nat) : ∀ (salt out : Bytes) (w : Nat), salt.data.length = H.size → out.data.length = w → w ≤ len → len ≤ out.cap →
      len - w < fuel →
      loop cond op H data pw len fuel salt out w =
        .ok ⟨out.data ++ List.zipWith f ((data.data.take len).drop w) (encStream H.h pw.data fuel salt.data), out.cap⟩ := by
  induction fuel with
  | zero => intro salt out w _ _ _ _ h; omega
  | succ fuel ih =>
    intro salt out w hs ho hw hc hf
    rw [loop]
    by_cases h : out.data.length < len
    · rw [if_pos ((hcond _ (by omega)).mpr h), Bytes.sub_eq (by rw [hs, hpw]), Res.bind_ok, hash_ok _ _ _ (by decide), Res.bind_ok]
      simp only
      have hh : (H.h (subB salt.data pw.data)).length = H.size := H.len _
      have h2 := H.pos
      have h64 := H.small
      have e1 : min (w + (H.h (subB salt.data pw.data)).length) len % 2 ^ 16 = min (w + H.size) len := by
        rw [hh]; exact Nat.mod_eq_of_lt (by omega)
      rw [e1]
      have c1 : data.copySubBytes w (min (w + H.size) len) =
          .ok ⟨(data.data.drop w).take (min (w + H.size) len - w), min (w + H.size) len - w⟩ := by
        unfold Bytes.copySubBytes
        rw [if_neg (by omega), if_neg (by omega)]
      have c2 : Bytes.copySubBytes ⟨H.h (subB salt.data pw.data), H.size + 0⟩ 0 (min (w + H.size) len - w) =
          .ok ⟨(H.h (subB salt.data pw.data)).take (min (w + H.size) len - w), min (w + H.size) len - w⟩ := by
        unfold Bytes.copySubBytes
        rw [if_neg (by omega), if_neg (by simp only; omega)]
        simp
      rw [c1, Res.bind_ok, c2, Res.bind_ok, hop _ _ (by simp; omega), Res.bind_ok]
      have hlx : (List.zipWith f ((data.data.drop w).take (min (w + H.size) len - w))
          ((H.h (subB salt.data pw.data)).take (min (w + H.size) len - w))).length = min (w + H.size) len - w := by
        simp; omega
      have c3 : Bytes.addcopyToBytes ⟨List.zipWith f ((data.data.drop w).take (min (w + H.size) len - w))
          ((H.h (subB salt.data pw.data)).take (min (w + H.size) len - w)), min (w + H.size) len - w⟩ out =
          .ok ⟨out.data ++ List.zipWith f ((data.data.drop w).take (min (w + H.size) len - w))
          ((H.h (subB salt.data pw.data)).take (min (w + H.size) len - w)), out.cap⟩ := by
        unfold Bytes.addcopyToBytes
        rw [if_neg (by simp only [hlx]; omega)]
      rw [c3, Res.bind_ok, ih ⟨_, _⟩ ⟨_, _⟩ _ hh (by rw [List.length_append, hlx]; omega) (by omega) (by exact hc) (by omega)]
      congr 2
      rw [List.append_assoc]
      congr 1
      have e2 : ((data.data.take len).drop w).length = len - w := by simp; omega
      rw [encStream, zip_round f _ _ _ (min (w + H.size) len - w) (by rw [hh, e2]; omega)]
      congr 1
      · congr 1
        rw [List.drop_take, List.take_take]
        congr 1; omega
      · rw [List.drop_drop]
        split
        · congr 2; omega
        · rename_i hne
          have : List.drop (min (w + H.size) len) (List.take len data.data) = [] := by
            rw [List.drop_eq_nil_iff]; simp; omega
          have e3 : w + (min (w + H.size) len - w) = min (w + H.size) len := by omega
          rw [this, e3, this, List.zipWith_nil_left, List.zipWith_nil_left]
    · rw [if_neg (fun hx => h ((hcond _ (by omega)).mp hx))]
      have : w = len := by omega
      subst this
      have : (data.data.take w).drop w = [] := by rw [List.drop_eq_nil_iff]; simp; omega
      rw [this]
      simp

theorem encLoop_eq_loop (H : HashFn) (data pw : Bytes) (fuel : Nat) : ∀ (salt out : Bytes) (w : Nat),
    encLoop H data pw fuel salt out w =
      loop (· ≠ data.data.length) Bytes.add H data pw data.data.length fuel salt out w := by
  induction fuel with
  | zero => intro _ _ _; rfl
  | succ fuel ih =>
    intro salt out w
    rw [encLoop, loop]
    simp only [Bytes.len, ih]

theorem decLoop_eq_loop (H : HashFn) (data pw : Bytes) (len fuel : Nat) : ∀ (salt out : Bytes) (w : Nat),
    decLoop H data pw len fuel salt out w = loop (· < len) Bytes.sub H data pw len fuel salt out w := by
  induction fuel with
  | zero => intro _ _ _; rfl
  | succ fuel ih =>
    intro salt out w
    rw [decLoop, loop]
    simp only [Bytes.len, ih]

theorem encLoop_eq (H : HashFn) (data pw salt : Bytes) (hl : data.data.length ≤ 255) (hpw : pw.data.length = H.size)
    (hs : salt.data.length = H.size) : encLoop H data pw 257 salt (Bytes.empty 255) 0 =
      .ok ⟨List.zipWith (· + ·) data.data (encStream H.h pw.data 257 salt.data), 255⟩ := by
  rw [encLoop_eq_loop, loop_eq (f := (· + ·)) (by intro a b h; simp [Bytes.add, h]) H data pw _ (by intro n hn; omega)
    (Nat.le_refl _) hl hpw 257 salt _ 0 hs rfl (by omega) hl (by omega)]
  simp [Bytes.empty]

theorem decLoop_eq (H : HashFn) (data pw salt : Bytes) (len : Nat) (hl : len ≤ data.data.length) (h255 : len ≤ 255)
    (hpw : pw.data.length = H.size) (hs : salt.data.length = H.size) :
    decLoop H data pw len 257 salt (Bytes.empty len) 0 =
      .ok ⟨List.zipWith (· - ·) (data.data.take len) (encStream H.h pw.data 257 salt.data), len⟩ := by
  rw [decLoop_eq_loop, loop_eq (f := (· - ·)) (by intro a b h; simp [Bytes.sub, h]) H data pw _ (by intro n hn; omega)
    hl h255 hpw 257 salt _ 0 hs rfl (by omega) (Nat.le_refl _) (by omega)]
  simp [Bytes.empty]

theorem byteAt_ok {b : Bytes} {i : Nat} {x : Byte} (h : b.data[i]? = some x) : byteAt b i = .ok x := by
  obtain ⟨hi, hx⟩ := List.getElem?_eq_some_iff.mp h
  unfold byteAt Bytes.copySubBytes
  rw [if_neg (by omega), if_neg (by omega), Res.bind_ok]
  have : (b.data.drop i).take (i + 1 - i) = [x] := by
    rw [Nat.add_sub_cancel_left, List.take_one, List.head?_drop, h]; rfl
  rw [this, toLong_eq _ (by simp)]
  simp [beValue]

theorem length_encStream (h : List Byte → List Byte) (n : Nat) (hlen : ∀ x, (h x).length = n) (key : List Byte) (k : Nat) :
    ∀ salt, (encStream h key k salt).length = k * n := by
  induction k with
  | zero => intro salt; simp [encStream]
  | succ k ih => intro salt; rw [encStream, List.length_append, ih, hlen, Nat.add_mul]; omega

theorem zip_sub_add (a : List Byte) : ∀ k : List Byte, a.length ≤ k.length →
    List.zipWith (· - ·) (List.zipWith (· + ·) a k) k = a := by
  induction a with
  | nil => intro k _; simp
  | cons x a ih =>
    intro k hk
    cases k with
    | nil => simp at hk
    | cons y k =>
      simp only [List.zipWith_cons_cons, List.cons.injEq]
      exact ⟨by simp, ih k (by simpa using hk)⟩

/-- the constructor, up to the padding -/
theorem make_eq (d : DataBlock) (H : HashFn) (pw salt : Bytes) (r : Rand) (hr : r.good = true)
    (hd : d.data.data.length ≤ 255) (hs : salt.data.length = H.size) :
    EncDataBlock.make d H pw salt r =
      if d.data.data.length = 255 then
        .ok ⟨⟨d.type, ⟨List.zipWith (· + ·) d.data.data (encStream H.h (H.h pw.data) 257 salt.data), 255⟩⟩,
          255 + (H.h pw.data).getD 1 0⟩
      else .exn .invalidArgument := by
  have hl := H.len pw.data
  have h2 := H.pos
  have g : ∀ i, i < 2 → (H.h pw.data)[i]? = some ((H.h pw.data).getD i 0) := by
    intro i hi
    rw [List.getElem?_eq_getElem (by omega), List.getD_eq_getElem?_getD, List.getElem?_eq_getElem (by omega)]; rfl
  unfold EncDataBlock.make
  have el : (List.zipWith (· + ·) d.data.data (encStream H.h (H.h pw.data) 257 salt.data)).length = d.data.data.length := by
    rw [List.length_zipWith, length_encStream H.h H.size H.len]; omega
  rw [hash_ok _ _ _ (by decide), Res.bind_ok, byteAt_ok (g 0 (by omega)), Res.bind_ok, byteAt_ok (g 1 (by omega)), Res.bind_ok]
  simp only
  rw [encLoop_eq H d.data _ salt hd hl hs, Res.bind_ok]
  simp only [Bytes.addSize, Bytes.len, el]
  have e : Bytes.fillrandom ⟨List.zipWith (· + ·) d.data.data (encStream H.h (H.h pw.data) 257 salt.data),
      255 + (255 - d.data.data.length)⟩ r = .ok ⟨List.zipWith (· + ·) d.data.data (encStream H.h (H.h pw.data) 257 salt.data) ++
        r.take (255 + (255 - d.data.data.length) - d.data.data.length), 255 + (255 - d.data.data.length)⟩ := by
    simp only [Bytes.fillrandom, Bytes.randomBytes, el]
    rw [if_neg (by rw [hr]; simp; omega), if_neg (by omega)]
    rfl
  rw [e, Res.bind_ok]
  unfold DataBlock.setData
  simp only [Bytes.len, List.length_append, el, Rand.length_take]
  by_cases h : d.data.data.length = 255
  · rw [if_pos h, if_pos (by omega), h]
    simp [Rand.take]
  · rw [if_neg h, if_neg (by omega)]
    rfl

/-- decryption, exactly -/
theorem getDec_eq (e : EncDataBlock) (H : HashFn) (pw salt : Bytes) (hs : salt.data.length = H.size)
    (he : e.block.data.data.length = 255) :
    e.getDec H pw salt =
      .ok ⟨List.zipWith (· - ·) (e.block.data.data.take (e.encLen - (H.h pw.data).getD 1 0).toNat)
        (encStream H.h (H.h pw.data) 257 salt.data), (e.encLen - (H.h pw.data).getD 1 0).toNat⟩ := by
  have hl := H.len pw.data
  have h2 := H.pos
  have g : (H.h pw.data)[1]? = some ((H.h pw.data).getD 1 0) := by
    rw [List.getElem?_eq_getElem (by omega), List.getD_eq_getElem?_getD, List.getElem?_eq_getElem (by omega)]; rfl
  have hk := (e.encLen - (H.h pw.data).getD 1 0).toNat_lt
  unfold getDec
  rw [hash_ok _ _ _ (by decide), Res.bind_ok, byteAt_ok g, Res.bind_ok]
  simp only
  rw [decLoop_eq H _ _ salt _ (by omega) (by omega) hl hs]
  rfl

theorem getDecType_eq (e : EncDataBlock) (H : HashFn) (pw : Bytes) :
    e.getDecType H pw = .ok (e.block.type - (H.h pw.data).getD 0 0) := by
  have hl := H.len pw.data
  have h2 := H.pos
  have g : (H.h pw.data)[0]? = some ((H.h pw.data).getD 0 0) := by
    rw [List.getElem?_eq_getElem (by omega), List.getD_eq_getElem?_getD, List.getElem?_eq_getElem (by omega)]; rfl
  unfold getDecType
  rw [hash_ok _ _ _ (by decide), Res.bind_ok, byteAt_ok g, Res.bind_ok]
  rfl

end EncDataBlock
end Verif
