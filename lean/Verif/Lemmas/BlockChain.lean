import Verif.Lemmas.Cipher
import Verif.Lemmas.Util

/-
The block chain code refines the abstract machine `ASt`.
-/
namespace Verif
open Spec

theorem HashFn.hash_eq (H : HashFn) (b : Bytes) : H.hash b = .ok ⟨H.h b.data, H.size⟩ := by
  have := H.small
  simp only [HashFn.hash]
  have : (H.size + 0 % 2 ^ 32) % 2 ^ 32 = H.size := by omega
  rw [this, if_neg (by omega)]

theorem Bytes.add_eq {a b : Bytes} (h : a.data.length = b.data.length) : a.add b = .ok ⟨addB a.data b.data, a.cap⟩ := by
  simp [Bytes.add, h, zipWith_add]

theorem Bytes.sub_eq {a b : Bytes} (h : a.data.length = b.data.length) : a.sub b = .ok ⟨subB a.data b.data, a.cap⟩ := by
  simp [Bytes.sub, h, zipWith_sub]

/-- data of the block object whose input bytes are `p` -/
structure BlockRel (dir : Dir) (H : HashFn) (b : Block) (k : List Byte × List Byte) (p : List Byte) : Prop where
  cap : b.data.cap = H.size
  salt : b.salt.data = saltK H.h k
  le : p.length ≤ H.size
  part : p.length < H.size → b.data.data = p ∧ b.decHash.len = 0
  fullB : p.length = H.size → b.data.data = dir.op p (saltK H.h k) ∧
    b.decHash.data = H.h (dir.pl p (dir.op p (saltK H.h k)))

theorem saltK_length (H : HashFn) (k : List Byte × List Byte) : (saltK H.h k).length = H.size := by simp [saltK]

theorem BlockRel.free {dir : Dir} {H : HashFn} {b : Block} {k : List Byte × List Byte} {p : List Byte}
    (r : BlockRel dir H b k p) : b.getFreeSpace H = H.size - p.length := by
  unfold Block.getFreeSpace Bytes.len
  by_cases h : p.length < H.size
  · rw [(r.part h).1]
  · have h' : p.length = H.size := by have := r.le; omega
    rw [(r.fullB h').1, Dir.length_op, saltK_length]
    omega

theorem BlockRel.new {dir : Dir} {H : HashFn} (k : List Byte × List Byte) (cap : Nat) :
    ∃ b, Block.new H ⟨saltK H.h k, cap⟩ = .ok b ∧ BlockRel dir H b k [] := by
  have hp := H.pos
  refine ⟨_, by rw [Block.new, if_neg (by simp [Bytes.len, saltK_length])], ?_⟩
  refine ⟨rfl, rfl, by simp, fun _ => ⟨rfl, rfl⟩, ?_⟩
  intro h; simp at h; omega

theorem BlockRel.addData {dir : Dir} {H : HashFn} {b : Block} {k : List Byte × List Byte} {p : List Byte}
    (r : BlockRel dir H b k p) (part : Bytes) (h : p.length + part.data.length ≤ H.size) :
    ∃ b', b.addData dir H part = .ok b' ∧ BlockRel dir H b' k (p ++ part.data) := by
  have hp := H.pos
  have hfree := r.free
  rw [Block.addData, if_neg (by rw [hfree, Bytes.len]; omega)]
  have hdl : b.data.data.length = p.length := by
    have : H.size - b.data.data.length = H.size - p.length := hfree
    by_cases h' : p.length < H.size
    · rw [(r.part h').1]
    · have h' : p.length = H.size := by omega
      rw [(r.fullB h').1, Dir.length_op, saltK_length]; omega
  have hadd : part.addcopyToBytes b.data = .ok ⟨b.data.data ++ part.data, b.data.cap⟩ := by
    rw [Bytes.addcopyToBytes, if_neg (by rw [r.cap, hdl]; omega)]
  rw [hadd, Res.bind_ok]
  dsimp only
  by_cases hf : p.length + part.data.length = H.size
  · -- the block is full now
    rw [if_pos (by simp [Block.getFreeSpace, Bytes.len, hdl, hf])]
    by_cases h' : p.length < H.size
    · obtain ⟨hd, hh⟩ := r.part h'
      rw [if_neg (by simpa using hh)]
      have hl : (b.data.data ++ part.data).length = b.salt.data.length := by
        rw [r.salt, saltK_length]; simp [hdl, hf]
      have hq : (p ++ part.data).length = H.size := by simp [hf]
      cases dir
      · simp only [HashFn.hash_eq, Res.bind_ok]
        rw [Bytes.add_eq hl]
        refine ⟨_, rfl, ⟨by simpa using r.cap, r.salt, by omega, by omega, ?_⟩⟩
        intro _
        simp [Dir.op, Dir.pl, r.salt, hd]
      · simp only [HashFn.hash_eq]
        rw [Bytes.sub_eq hl]
        refine ⟨_, rfl, ⟨by simpa using r.cap, r.salt, by omega, by omega, ?_⟩⟩
        intro _
        simp [Dir.op, Dir.pl, r.salt, hd]
    · have h' : p.length = H.size := by omega
      obtain ⟨hd, hh⟩ := r.fullB h'
      have h0 : part.data = [] := List.eq_nil_of_length_eq_zero (by omega)
      rw [if_pos (by rw [Bytes.len, hh, H.len]; omega)]
      refine ⟨_, rfl, ?_⟩
      rw [h0, List.append_nil, List.append_nil]
      exact ⟨r.cap, r.salt, r.le, r.part, r.fullB⟩
  · rw [if_neg (by simp [Block.getFreeSpace, Bytes.len, hdl]; omega)]
    obtain ⟨hd, hh⟩ := r.part (by omega)
    refine ⟨_, rfl, ⟨r.cap, r.salt, by simpa using h, ?_, ?_⟩⟩
    · intro _; exact ⟨by simp [hd], hh⟩
    · intro h2; simp at h2; omega

theorem BlockRel.getResult {dir : Dir} {H : HashFn} {b : Block} {k : List Byte × List Byte} {p : List Byte}
    (r : BlockRel dir H b k p) : ∃ c, b.getResult dir H = .ok ⟨dir.op p (saltK H.h k), c⟩ := by
  rw [Block.getResult, r.free]
  by_cases h : p.length < H.size
  · rw [if_pos (by omega)]
    obtain ⟨hd, -⟩ := r.part h
    have hs : b.salt.copySubBytes 0 b.data.len = .ok ⟨(saltK H.h k).take p.length, p.length⟩ := by
      rw [Bytes.copySubBytes, if_neg (by omega), if_neg (by rw [r.salt, saltK_length, Bytes.len, hd]; omega)]
      simp [r.salt, Bytes.len, hd]
    rw [hs, Res.bind_ok]
    have hl : b.data.data.length = ((saltK H.h k).take p.length).length := by
      rw [hd, List.length_take, saltK_length]; omega
    cases dir
    · simp only
      rw [Bytes.add_eq hl]
      refine ⟨b.data.cap, ?_⟩
      simp only [Res.noexcept_ok, hd]
      exact congrArg (fun l => Res.ok (⟨l, b.data.cap⟩ : Bytes)) (Dir.op_take .enc p (saltK H.h k))
    · simp only
      rw [Bytes.sub_eq hl]
      refine ⟨b.data.cap, ?_⟩
      simp only [Res.noexcept_ok, hd]
      exact congrArg (fun l => Res.ok (⟨l, b.data.cap⟩ : Bytes)) (Dir.op_take .dec p (saltK H.h k))
  · rw [if_neg (by omega)]
    have := r.le
    obtain ⟨hd, -⟩ := r.fullB (by omega)
    refine ⟨b.data.cap, ?_⟩
    rw [← hd]; rfl

theorem SaltIter.next_eq (H : HashFn) (it : SaltIter) (lbh : Bytes) (d : List Byte)
    (hh : it.hash.data.length = H.size) (hs : it.salt.data.length = H.size)
    (hd : if it.first then lbh.cap ≥ H.size ∧ d = List.replicate H.size 0 else lbh.data = d)
    (hl : d.length = H.size) :
    ∃ c c1 c2, it.next H lbh = .ok (⟨saltK H.h (nextK H.h (it.hash.data, it.salt.data) d), c⟩,
      ⟨false, ⟨(nextK H.h (it.hash.data, it.salt.data) d).1, c1⟩,
        ⟨(nextK H.h (it.hash.data, it.salt.data) d).2, c2⟩⟩) := by
  refine ⟨H.size, H.size, H.size, ?_⟩
  have hlb : ∃ cc, it.seed H lbh = .ok ⟨d, cc⟩ := by
    unfold SaltIter.seed
    cases hf : it.first
    · simp [hf] at hd ⊢
      exact ⟨lbh.cap, by rw [← hd]⟩
    · simp only [hf, if_true] at hd ⊢
      refine ⟨lbh.cap, ?_⟩
      rw [Bytes.setBytes, if_neg (by simp; omega), hd.2]
  obtain ⟨cc, hlb⟩ := hlb
  rw [SaltIter.next, hlb, Res.bind_ok, if_neg (by simp [Bytes.len, hl])]
  rw [Bytes.add_eq (by omega), Res.bind_ok, Bytes.add_eq (by simp; omega), Res.bind_ok, HashFn.hash_eq, Res.bind_ok]
  rw [Bytes.add_eq (by simp; omega), Res.bind_ok, Bytes.add_eq (by simp; omega), Res.bind_ok, HashFn.hash_eq, Res.bind_ok]
  rw [Bytes.add_eq (by simp), Res.bind_ok, HashFn.hash_eq, Res.bind_ok]
  rfl

/-- the chain object is in abstract state `s`, with room for `extra` more bytes in the result buffer -/
structure ChainRel (dir : Dir) (H : HashFn) (c : Chain) (s : ASt) (extra : Nat) : Prop where
  blk : ∃ b, c.cur = some b ∧ BlockRel dir H b s.k s.p
  res : ∃ cap, c.result = some ⟨s.R, cap⟩ ∧ cap = s.R.length + s.p.length + extra
  hash : c.iter.hash.data = s.k.1
  salt : c.iter.salt.data = s.k.2
  first : c.iter.first = false
  klen : s.k.1.length = H.size ∧ s.k.2.length = H.size
  height : c.height = 0

theorem ChainRel.free {dir : Dir} {H : HashFn} {c : Chain} {s : ASt} {e : Nat} (r : ChainRel dir H c s e) :
    c.freeSpace H = H.size - s.p.length := by
  obtain ⟨b, hb, rb⟩ := r.blk
  have := H.small
  simp only [Chain.freeSpace, hb, rb.free]
  omega

theorem ChainRel.p_le {dir : Dir} {H : HashFn} {c : Chain} {s : ASt} {e : Nat} (r : ChainRel dir H c s e) :
    s.p.length ≤ H.size := by
  obtain ⟨b, hb, rb⟩ := r.blk
  exact rb.le

theorem ChainRel.curAdd {dir : Dir} {H : HashFn} {c : Chain} {s : ASt} {e : Nat} (r : ChainRel dir H c s e)
    (part : Bytes) (h : s.p.length + part.data.length ≤ H.size) (he : part.data.length ≤ e) :
    ∃ c', c.curAdd dir H part = .ok c' ∧ ChainRel dir H c' (s.app part.data) (e - part.data.length) := by
  obtain ⟨b, hb, rb⟩ := r.blk
  obtain ⟨b', hb', rb'⟩ := rb.addData part h
  obtain ⟨cap, hr, hc⟩ := r.res
  refine ⟨{ c with cur := some b' }, by simp [Chain.curAdd, hb, hb'], ?_⟩
  exact ⟨⟨b', rfl, rb'⟩, ⟨cap, hr, by simp [ASt.app]; omega⟩, r.hash, r.salt, r.first, r.klen, r.height⟩

theorem nextK_len (H : HashFn) (k : List Byte × List Byte) (d : List Byte) :
    (nextK H.h k d).1.length = H.size ∧ (nextK H.h k d).2.length = H.size := by simp [nextK]

theorem ChainRel.addBlock {dir : Dir} {H : HashFn} {c : Chain} {s : ASt} {e : Nat} (r : ChainRel dir H c s e)
    (h : s.p.length = H.size) :
    ∃ c', c.addBlock dir H = .ok c' ∧ ChainRel dir H c' (s.commit dir H) e := by
  obtain ⟨b, hb, rb⟩ := r.blk
  obtain ⟨cap, hr, hc⟩ := r.res
  obtain ⟨hd, hh⟩ := rb.fullB h
  have hpos := H.pos
  have hg : b.getHash H = .ok b.decHash := by
    rw [Block.getHash, if_neg (by rw [rb.free]; omega), if_neg (by rw [Bytes.len, hh, H.len]; omega)]
  obtain ⟨c0, c1, c2, hn⟩ := SaltIter.next_eq H c.iter b.decHash (H.h (dir.pl s.p (s.cur dir H)))
    (by rw [r.hash]; exact r.klen.1) (by rw [r.salt]; exact r.klen.2)
    (by simp only [r.first]; exact hh) (by simp)
  obtain ⟨cg, hres⟩ := rb.getResult
  obtain ⟨nb, hnb, rnb⟩ := BlockRel.new (dir := dir) (H := H) (nextK H.h s.k (H.h (dir.pl s.p (s.cur dir H)))) c0
  have hfree := r.free
  rw [r.hash, r.salt] at hn
  refine ⟨⟨some nb, some ⟨s.out dir H, cap⟩, ⟨false, ⟨(s.commit dir H).k.1, c1⟩, ⟨(s.commit dir H).k.2, c2⟩⟩, c.height⟩, ?_, ?_⟩
  · rw [Chain.addBlock, if_neg (by rw [hfree]; omega), hb]
    simp only [hg, Res.bind_ok]
    rw [hn]
    simp only [Res.bind_ok, hres, hr]
    have ha : (⟨dir.op s.p (saltK H.h s.k), cg⟩ : Bytes).addcopyToBytes ⟨s.R, cap⟩ = .ok ⟨s.out dir H, cap⟩ := by
      rw [Bytes.addcopyToBytes, if_neg (by simp [saltK]; omega)]; rfl
    rw [ha, Res.bind_ok, hnb, Res.bind_ok]
    rfl
  · refine ⟨⟨nb, rfl, rnb⟩, ⟨cap, rfl, ?_⟩, rfl, rfl, rfl, ?_, r.height⟩
    · simp [ASt.commit, ASt.out, ASt.cur, saltK]; omega
    · exact nextK_len H _ _

theorem toInt32_small {n : Nat} (h : n < 2 ^ 31) : toInt32 n = n := by
  have h1 : n % 2 ^ 32 = n := by omega
  simp only [toInt32, h1, if_pos h]

theorem minInt_small {free n : Nat} (h : n < 2 ^ 31) : minInt free n = ((min free n : Nat) : Int) := by
  rw [minInt, toInt32_small h]; omega

theorem addMin_nat {w k : Nat} (h : w + k < 2 ^ 64) : Chain.addMin w (k : Int) = w + k := by
  unfold Chain.addMin
  have h1 : ((k : Int) % 2 ^ 64) = k := by omega
  rw [h1]
  have h2 : ((w : Int) + (k : Int)).toNat = w + k := by omega
  rw [h2, Nat.mod_eq_of_lt h]

theorem addLoop_eq {dir : Dir} {H : HashFn} (data : Bytes) (hl : data.data.length < 2 ^ 31) :
    ∀ (fuel written : Nat) (c : Chain) (s : ASt) (e : Nat), ChainRel dir H c s (data.data.length - written + e) →
      written ≤ data.data.length →
      data.data.length - written + (if s.p.length = H.size then 2 else 1) ≤ fuel →
      ∃ c', Chain.addLoop dir H data fuel written c = .ok c' ∧
        ChainRel dir H c' (s.feed dir H (data.data.drop written)) e := by
  intro fuel
  induction fuel with
  | zero => intro written c s e _ _ hf; split at hf <;> omega
  | succ fuel ih =>
    intro written c s e r hw hf
    have hp := r.p_le
    have hpos := H.pos
    rw [Chain.addLoop, r.free, minInt_small (by simp only [Bytes.len]; omega),
      addMin_nat (by simp only [Bytes.len]; omega)]
    let k := min (H.size - s.p.length) (data.len - written)
    have hk : k = min (H.size - s.p.length) (data.data.length - written) := rfl
    have hsub : data.copySubBytes written (written + k) = .ok ⟨(data.data.drop written).take k, k⟩ := by
      rw [Bytes.copySubBytes, if_neg (by omega), if_neg (by omega)]
      rw [Nat.add_sub_cancel_left]
    have hpl : ((data.data.drop written).take k).length = k := by simp; omega
    change ∃ c', (data.copySubBytes written (written + k) >>= _) = _ ∧ _
    rw [hsub, Res.bind_ok]
    obtain ⟨c1, hc1, r1⟩ := r.curAdd ⟨(data.data.drop written).take k, k⟩ (by simp only [hpl]; omega)
      (by simp only [hpl]; omega)
    rw [hc1, Res.bind_ok]
    simp only [Bytes.len, hpl]
    simp only [hpl] at r1
    by_cases hlt : written + k < data.data.length
    · rw [if_pos hlt]
      have hfull : (s.app ((data.data.drop written).take k)).p.length = H.size := by
        simp only [ASt.app, List.length_append, hpl]; omega
      have he : data.data.length - written + e - k = data.data.length - (written + k) + e := by omega
      rw [he] at r1
      obtain ⟨c2, hc2, r2⟩ := r1.addBlock hfull
      rw [hc2, Res.bind_ok]
      obtain ⟨c3, hc3, r3⟩ := ih (written + k) c2 _ e r2 (by omega) (by
        rw [if_neg (by simp only [ASt.commit, List.length_nil]; omega)]
        split at hf <;> omega)
      refine ⟨c3, hc3, ?_⟩
      have hkk : k = H.size - s.p.length := by omega
      rw [ASt.feed.eq_def, dif_neg (by simp; omega), ← hkk, List.drop_drop]
      exact r3
    · rw [if_neg hlt]
      refine ⟨c1, rfl, ?_⟩
      rw [ASt.feed.eq_def, dif_pos (by simp; omega)]
      rw [List.take_of_length_le (by simp; omega)] at r1
      have : data.data.length - written + e - k = e := by omega
      rwa [this] at r1

theorem start_eq {dir : Dir} {H : HashFn} {c : Chain} {s : ASt} {e : Nat} (r : ChainRel dir H c s e) (n : Nat) :
    ∃ c', c.start dir H n = .ok c' ∧ ChainRel dir H c' s (n + e) := by
  obtain ⟨b, hb, rb⟩ := r.blk
  obtain ⟨cap, hr, hc⟩ := r.res
  refine ⟨{ c with result := some ⟨s.R, cap + n⟩ }, by simp [Chain.start, hr, hb, Bytes.addSize], ?_⟩
  exact ⟨⟨b, hb, rb⟩, ⟨cap + n, rfl, by omega⟩, r.hash, r.salt, r.first, r.klen, r.height⟩

/-- a freshly constructed chain -/
structure Fresh (H : HashFn) (c : Chain) (a b : List Byte) : Prop where
  cur : c.cur = none
  res : c.result = some ⟨[], 0⟩
  hash : c.iter.hash.data = a
  salt : c.iter.salt.data = b
  first : c.iter.first = true
  alen : a.length = H.size
  blen : b.length = H.size
  height : c.height = 0

theorem fresh_new {H : HashFn} {pw salt : Bytes} (h1 : pw.data.length = H.size) (h2 : salt.data.length = H.size) :
    ∃ c, Chain.new H pw salt = .ok c ∧ Fresh H c pw.data salt.data := by
  refine ⟨⟨none, some (Bytes.empty 0), ⟨true, pw, salt⟩, 0⟩, ?_, ⟨rfl, rfl, rfl, rfl, rfl, h1, h2, rfl⟩⟩
  simp [Chain.new, SaltIter.init, Bytes.len, h1, h2]

theorem start_fresh {dir : Dir} {H : HashFn} {c : Chain} {a b : List Byte} (r : Fresh H c a b) (n : Nat) :
    ∃ c', c.start dir H n = .ok c' ∧ ChainRel dir H c' (ASt.init H a b) n := by
  have hsm := H.small
  obtain ⟨c0, c1, c2, hn⟩ := SaltIter.next_eq H c.iter (Bytes.empty 255) (List.replicate H.size 0)
    (by rw [r.hash]; exact r.alen) (by rw [r.salt]; exact r.blen)
    (by rw [r.first]; simp [Bytes.empty]; omega) (by simp)
  rw [r.hash, r.salt] at hn
  obtain ⟨nb, hnb, rnb⟩ := BlockRel.new (dir := dir) (H := H) (nextK H.h (a, b) (List.replicate H.size 0)) c0
  refine ⟨⟨some nb, some ⟨[], 0 + n⟩, ⟨false, ⟨(ASt.init H a b).k.1, c1⟩, ⟨(ASt.init H a b).k.2, c2⟩⟩, c.height⟩, ?_, ?_⟩
  · simp only [Chain.start, r.res, r.cur, Bytes.addSize]
    rw [Chain.addBlock, if_neg (by simp [Chain.freeSpace])]
    dsimp only
    rw [hn, Res.bind_ok]
    dsimp only
    rw [hnb, Res.bind_ok]
    rfl
  · exact ⟨⟨nb, rfl, rnb⟩, ⟨0 + n, rfl, by simp [ASt.init]⟩, rfl, rfl, rfl, nextK_len H _ _, r.height⟩

theorem addData_eq {dir : Dir} {H : HashFn} {c : Chain} {s : ASt} (data : Bytes) (hl : data.data.length < 2 ^ 31)
    (r : ChainRel dir H c s 0) :
    ∃ c', c.addData dir H data = .ok c' ∧ ChainRel dir H c' (s.feed dir H data.data) 0 := by
  obtain ⟨c1, h1, r1⟩ := start_eq r data.len
  obtain ⟨c2, h2, r2⟩ := addLoop_eq data hl (data.len + 2) 0 c1 s 0 r1 (by omega)
    (by simp only [Bytes.len]; split <;> omega)
  exact ⟨c2, by rw [Chain.addData, Chain.addDataFuel, h1, Res.bind_ok, h2], by simpa using r2⟩

theorem addData_fresh {dir : Dir} {H : HashFn} {c : Chain} {a b : List Byte} (data : Bytes)
    (hl : data.data.length < 2 ^ 31) (r : Fresh H c a b) :
    ∃ c', c.addData dir H data = .ok c' ∧ ChainRel dir H c' ((ASt.init H a b).feed dir H data.data) 0 := by
  obtain ⟨c1, h1, r1⟩ := start_fresh (dir := dir) r data.len
  obtain ⟨c2, h2, r2⟩ := addLoop_eq data hl (data.len + 2) 0 c1 _ 0 r1 (by omega)
    (by simp only [Bytes.len]; split <;> omega)
  exact ⟨c2, by rw [Chain.addData, Chain.addDataFuel, h1, Res.bind_ok, h2], by simpa using r2⟩

theorem addPieces_eq {dir : Dir} {H : HashFn} (ps : List Bytes) (hl : ∀ p ∈ ps, p.data.length < 2 ^ 31) :
    ∀ (c : Chain) (s : ASt), ChainRel dir H c s 0 →
    ∃ c', c.addPieces dir H ps = .ok c' ∧ ChainRel dir H c' (s.feed dir H (ps.flatMap (·.data))) 0 := by
  induction ps with
  | nil =>
    intro c s r
    refine ⟨c, rfl, ?_⟩
    rw [List.flatMap_nil, ASt.feed_nil _ _ _ r.p_le]; exact r
  | cons p ps ih =>
    intro c s r
    obtain ⟨c1, h1, r1⟩ := addData_eq p (hl p (by simp)) r
    obtain ⟨c2, h2, r2⟩ := ih (fun q hq => hl q (by simp [hq])) c1 _ r1
    refine ⟨c2, by rw [Chain.addPieces, h1, Res.bind_ok, h2], ?_⟩
    rwa [ASt.feed_append] at r2

theorem addPieces_fresh {dir : Dir} {H : HashFn} {c : Chain} {a b : List Byte} (ps : List Bytes) (hne : ps ≠ [])
    (hl : ∀ p ∈ ps, p.data.length < 2 ^ 31) (r : Fresh H c a b) :
    ∃ c', c.addPieces dir H ps = .ok c' ∧
      ChainRel dir H c' ((ASt.init H a b).feed dir H (ps.flatMap (·.data))) 0 := by
  cases ps with
  | nil => exact absurd rfl hne
  | cons p ps =>
    obtain ⟨c1, h1, r1⟩ := addData_fresh (dir := dir) p (hl p (by simp)) r
    obtain ⟨c2, h2, r2⟩ := addPieces_eq ps (fun q hq => hl q (by simp [hq])) c1 _ r1
    refine ⟨c2, by rw [Chain.addPieces, h1, Res.bind_ok, h2], ?_⟩
    rwa [ASt.feed_append] at r2

theorem getResult_eq {dir : Dir} {H : HashFn} {c : Chain} {s : ASt} (r : ChainRel dir H c s 0) :
    c.getResult dir H = .ok (⟨s.out dir H, (s.out dir H).length⟩, { c with result := none }) := by
  obtain ⟨b, hb, rb⟩ := r.blk
  obtain ⟨cap, hr, hc⟩ := r.res
  obtain ⟨cg, hg⟩ := rb.getResult
  have hl : (s.out dir H).length = s.R.length + s.p.length := by
    have := rb.le
    simp [ASt.out, ASt.cur, saltK]; omega
  rw [Chain.getResult, hb, hr]
  dsimp only
  rw [hg, Res.bind_ok, Bytes.addcopyToBytes, if_neg (by have := rb.le; simp [saltK]; omega), Res.bind_ok, hl, hc]
  rfl

/-- the stream loop does what the memory loop does with the bytes at the front of the stream -/
theorem streamLoop_eq {dir : Dir} {H : HashFn} (len : Nat) (hl : len < 2 ^ 31) :
    ∀ (fuel written : Nat) (st : IStream) (c : Chain) (s : ASt) (e : Nat), ChainRel dir H c s (len - written + e) →
      written ≤ len → st.eof = false → len - written ≤ st.rest.length →
      len - written + (if s.p.length = H.size then 2 else 1) ≤ fuel →
      ∃ c' st', Chain.streamLoop dir H len fuel written st c = .ok (c', st') ∧
        ChainRel dir H c' (s.feed dir H (st.rest.take (len - written))) e ∧
        st'.rest = st.rest.drop (len - written) ∧ st'.eof = false := by
  intro fuel
  induction fuel with
  | zero => intro written st c s e _ _ _ _ hf; split at hf <;> omega
  | succ fuel ih =>
    intro written st c s e r hw he hr hf
    have hp := r.p_le
    have hpos := H.pos
    have hsm := H.small
    rw [Chain.streamLoop, r.free, minInt_small (by omega)]
    generalize hk : min (H.size - s.p.length) (len - written) = k
    have hnew : Bytes.new (k : Int) = .ok ⟨[], k⟩ := by
      rw [Bytes.new, if_neg (by omega)]; simp
    rw [hnew, Res.bind_ok]
    obtain ⟨st1, h1⟩ := readData_spec st ⟨[], k⟩ k he (by omega)
    rw [if_neg (by simp), if_pos (by omega)] at h1
    obtain ⟨h1, h2, h3⟩ := h1
    rw [h1, Res.bind_ok]
    simp only [List.nil_append]
    have hpl : (st.rest.take k).length = k := by simp; omega
    obtain ⟨c1, hc1, r1⟩ := r.curAdd ⟨st.rest.take k, k⟩ (by simp only [hpl]; omega) (by simp only [hpl]; omega)
    rw [hc1, Res.bind_ok]
    simp only [Bytes.len, hpl]
    simp only [hpl] at r1
    by_cases hlt : written + k < len
    · rw [if_pos hlt]
      have hfull : (s.app (st.rest.take k)).p.length = H.size := by
        simp only [ASt.app, List.length_append, hpl]; omega
      have he' : len - written + e - k = len - (written + k) + e := by omega
      rw [he'] at r1
      obtain ⟨c2, hc2, r2⟩ := r1.addBlock hfull
      rw [hc2, Res.bind_ok]
      obtain ⟨c3, st3, hc3, r3, hr3, he3⟩ := ih (written + k) st1 c2 _ e r2 (by omega) h3
        (by rw [h2]; simp; omega) (by
          rw [if_neg (by simp only [ASt.commit, List.length_nil]; omega)]
          split at hf <;> omega)
      refine ⟨c3, st3, hc3, ?_, ?_, he3⟩
      · have hkk : k = H.size - s.p.length := by omega
        rw [ASt.feed.eq_def, dif_neg (by simp; omega), ← hkk, List.take_take, List.drop_take,
          Nat.min_eq_left (by omega), show len - written - k = len - (written + k) by omega]
        rwa [h2] at r3
      · rw [hr3, h2, List.drop_drop]; congr 1; omega
    · rw [if_neg hlt]
      have hkk : k = len - written := by omega
      refine ⟨c1, st1, rfl, ?_, by rw [h2, hkk], h3⟩
      rw [ASt.feed.eq_def, dif_pos (by simp; omega), ← hkk]
      have : len - written + e - k = e := by omega
      rwa [this] at r1

/-- a stream that is too short makes the loop fail -/
theorem streamLoop_short {dir : Dir} {H : HashFn} (len : Nat) (hl : len < 2 ^ 31) :
    ∀ (fuel written : Nat) (st : IStream) (c : Chain) (s : ASt) (e : Nat), ChainRel dir H c s (len - written + e) →
      written ≤ len → st.eof = false → st.rest.length < len - written →
      len - written + (if s.p.length = H.size then 2 else 1) ≤ fuel →
      Chain.streamLoop dir H len fuel written st c = .exn .runtimeError := by
  intro fuel
  induction fuel with
  | zero => intro written st c s e _ _ _ _ hf; split at hf <;> omega
  | succ fuel ih =>
    intro written st c s e r hw he hr hf
    have hp := r.p_le
    have hpos := H.pos
    have hsm := H.small
    rw [Chain.streamLoop, r.free, minInt_small (by omega)]
    generalize hk : min (H.size - s.p.length) (len - written) = k
    have hnew : Bytes.new (k : Int) = .ok ⟨[], k⟩ := by
      rw [Bytes.new, if_neg (by omega)]; simp
    rw [hnew, Res.bind_ok]
    obtain ⟨st1, h1⟩ := readData_spec st ⟨[], k⟩ k he (by omega)
    rw [if_neg (by simp)] at h1
    by_cases hkr : k ≤ st.rest.length
    · rw [if_pos hkr] at h1
      obtain ⟨h1, h2, h3⟩ := h1
      rw [h1, Res.bind_ok]
      simp only [List.nil_append]
      have hpl : (st.rest.take k).length = k := by simp; omega
      obtain ⟨c1, hc1, r1⟩ := r.curAdd ⟨st.rest.take k, k⟩ (by simp only [hpl]; omega) (by simp only [hpl]; omega)
      rw [hc1, Res.bind_ok]
      simp only [Bytes.len, hpl]
      simp only [hpl] at r1
      rw [if_pos (by omega)]
      have hfull : (s.app (st.rest.take k)).p.length = H.size := by
        simp only [ASt.app, List.length_append, hpl]; omega
      have he' : len - written + e - k = len - (written + k) + e := by omega
      rw [he'] at r1
      obtain ⟨c2, hc2, r2⟩ := r1.addBlock hfull
      rw [hc2, Res.bind_ok]
      exact ih (written + k) st1 c2 _ e r2 (by omega) h3 (by rw [h2]; simp; omega) (by
          rw [if_neg (by simp only [ASt.commit, List.length_nil]; omega)]
          split at hf <;> omega)
    · rw [if_neg hkr] at h1
      rw [h1.1, Res.bind_ok]

theorem part_big {data part : Bytes} (hd : data.data.length < 2 ^ 63) {w free : Nat}
    (hb : 2 ^ 31 ≤ data.data.length - w)
    (h : data.copySubBytes w (Chain.addMin w (minInt free (data.data.length - w))) = .ok part) :
    2 ^ 31 ≤ data.data.length - (w + part.data.length) := by
  rw [Bytes.copySubBytes] at h
  by_cases h1 : w > Chain.addMin w (minInt free (data.data.length - w))
  · rw [if_pos h1] at h; cases h
  rw [if_neg h1] at h
  by_cases h2 : Chain.addMin w (minInt free (data.data.length - w)) > data.data.length
  · rw [if_pos h2] at h; cases h
  rw [if_neg h2] at h
  injection h with h
  subst h
  simp only [List.length_take, List.length_drop]
  rw [minInt, toInt32] at h1 h2 ⊢
  by_cases hq : (data.data.length - w) % 2 ^ 32 < 2 ^ 31
  · rw [if_pos hq] at h1 h2 ⊢
    have hm : min (free : Int) (((data.data.length - w) % 2 ^ 32 : Nat) : Int) =
        ((min free ((data.data.length - w) % 2 ^ 32) : Nat) : Int) := by omega
    rw [hm] at h1 h2 ⊢
    have hle : min free ((data.data.length - w) % 2 ^ 32) ≤ (data.data.length - w) % 2 ^ 32 := Nat.min_le_right _ _
    rw [addMin_nat (by omega)] at h1 h2 ⊢
    omega
  · exfalso
    rw [if_neg hq] at h1 h2
    have hneg : min (free : Int) ((((data.data.length - w) % 2 ^ 32 : Nat) : Int) - 2 ^ 32) =
        (((data.data.length - w) % 2 ^ 32 : Nat) : Int) - 2 ^ 32 := by omega
    rw [hneg] at h1 h2
    unfold Chain.addMin at h1 h2
    omega

/-- once 2^31 bytes or more are outstanding, the loop never finishes successfully -/
theorem addLoop_big {dir : Dir} {H : HashFn} (data : Bytes) (hd : data.data.length < 2 ^ 63) :
    ∀ (fuel written : Nat) (c : Chain), 2 ^ 31 ≤ data.data.length - written →
      ∀ c', Chain.addLoop dir H data fuel written c ≠ .ok c' := by
  intro fuel
  induction fuel with
  | zero => intro w c _ c' h; simp [Chain.addLoop] at h
  | succ fuel ih =>
    intro w c hb c' h
    rw [Chain.addLoop] at h
    obtain ⟨part, hpart, h⟩ := Res.bind_eq_ok.1 h
    obtain ⟨c1, hc1, h⟩ := Res.bind_eq_ok.1 h
    have hpl := part_big hd hb hpart
    rw [if_pos (by simp only [Bytes.len]; omega)] at h
    obtain ⟨c2, hc2, h⟩ := Res.bind_eq_ok.1 h
    exact ih _ _ hpl _ h

end Verif
