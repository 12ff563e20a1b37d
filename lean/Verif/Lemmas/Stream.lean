import Verif.Lemmas.Crypt

/- The streaming chain, if the seed of the first salt had room (`H.size ≤ seedCap`). -/
namespace Verif
open Spec

/-- the streaming chain is in abstract state `s`; what is finished is in the output file -/
structure SChainRel (dir : Dir) (H : HashFn) (c : SChain) (s : ASt) : Prop where
  blk : ∃ b, c.cur = some b ∧ BlockRel dir H b s.k s.p
  hash : c.iter.hash.data = s.k.1
  salt : c.iter.salt.data = s.k.2
  first : c.iter.first = false
  klen : s.k.1.length = H.size ∧ s.k.2.length = H.size

theorem SChainRel.free {dir : Dir} {H : HashFn} {c : SChain} {s : ASt} (r : SChainRel dir H c s) :
    c.freeSpace H = H.size - s.p.length := by
  obtain ⟨b, hb, rb⟩ := r.blk
  simp only [SChain.freeSpace, hb, rb.free]

theorem SChainRel.setBlock {dir : Dir} {H : HashFn} {c : SChain} {s : ASt} (r : SChainRel dir H c s)
    (h : s.p.length = H.size) (n : Nat) :
    ∃ c', c.setBlock H n = .ok c' ∧ SChainRel dir H c' (s.commit dir H) := by
  obtain ⟨b, hb, rb⟩ := r.blk
  obtain ⟨hd, hh⟩ := rb.fullB h
  have hpos := H.pos
  have hg : b.getHash H = .ok b.decHash := by
    rw [Block.getHash, if_neg (by rw [rb.free]; omega), if_neg (by rw [Bytes.len, hh, H.len]; omega)]
  obtain ⟨c0, c1, c2, hn⟩ := SaltIter.next_eq H c.iter b.decHash (H.h (dir.pl s.p (s.cur dir H)))
    (by rw [r.hash]; exact r.klen.1) (by rw [r.salt]; exact r.klen.2)
    (by simp only [r.first]; exact hh) (by simp)
  obtain ⟨nb, hnb, rnb⟩ := BlockRel.new (dir := dir) (H := H) (nextK H.h s.k (H.h (dir.pl s.p (s.cur dir H)))) c0
  have hfree := r.free
  rw [r.hash, r.salt] at hn
  refine ⟨⟨some nb, ⟨false, ⟨(s.commit dir H).k.1, c1⟩, ⟨(s.commit dir H).k.2, c2⟩⟩⟩, ?_, ⟨nb, rfl, rnb⟩, rfl, rfl, rfl, nextK_len H _ _⟩
  rw [SChain.setBlock, if_neg (by rw [hfree]; omega), hb]
  simp only [hg, Res.bind_ok]
  rw [hn]
  simp only [Res.bind_ok, hnb]
  rfl

theorem SChain.first_block {dir : Dir} {H : HashFn} {pw salt : Bytes} (h1 : pw.data.length = H.size) (h2 : salt.data.length = H.size)
    {n : Nat} (hn : H.size ≤ n) :
    ∃ c', (⟨none, ⟨true, pw, salt⟩⟩ : SChain).setBlock H n = .ok c' ∧ SChainRel dir H c' (ASt.init H pw.data salt.data) := by
  obtain ⟨c0, c1, c2, hx⟩ := SaltIter.next_eq H ⟨true, pw, salt⟩ (Bytes.empty n) (List.replicate H.size 0) h1 h2
    (by simp [Bytes.empty]; omega) (by simp)
  obtain ⟨nb, hnb, rnb⟩ := BlockRel.new (dir := dir) (H := H) (nextK H.h (pw.data, salt.data) (List.replicate H.size 0)) c0
  refine ⟨⟨some nb, ⟨false, ⟨(ASt.init H pw.data salt.data).k.1, c1⟩, ⟨(ASt.init H pw.data salt.data).k.2, c2⟩⟩⟩, ?_,
    ⟨nb, rfl, rnb⟩, rfl, rfl, rfl, nextK_len H _ _⟩
  rw [SChain.setBlock, if_neg (by simp [SChain.freeSpace])]
  dsimp only
  rw [hx, Res.bind_ok]
  dsimp only
  rw [hnb, Res.bind_ok]
  rfl

/-- one round that gets a whole block -/
theorem SChainRel.round {dir : Dir} {H : HashFn} {c : SChain} {s : ASt} (r : SChainRel dir H c s) (hp : s.p = []) (got : List Byte)
    (hg : got.length = H.size) :
    ∃ b b' p, c.cur = some b ∧ b.addData dir H ⟨got, got.length⟩ = .ok b' ∧
      SChainRel dir H { c with cur := some b' } (s.app got) ∧
      (do (← b'.getResult dir H).copySubBytes (H.size - c.freeSpace H) H.size) = .ok p ∧
      s.R ++ p.data = (s.app got).out dir H := by
  obtain ⟨b, hb, rb⟩ := r.blk
  obtain ⟨b', hb', rb'⟩ := rb.addData ⟨got, got.length⟩ (by simp [hp, hg])
  obtain ⟨cap, hres⟩ := rb'.getResult
  have hl : (dir.op (s.p ++ got) (saltK H.h s.k)).length = H.size := by simp [hp, hg, saltK]
  refine ⟨b, b', ⟨dir.op (s.p ++ got) (saltK H.h s.k), H.size⟩, hb, hb', ⟨⟨b', rfl, rb'⟩, r.hash, r.salt, r.first, r.klen⟩, ?_, ?_⟩
  · rw [hres, Res.bind_ok, r.free, hp, Bytes.copySubBytes, if_neg (by simp), if_neg (by simp only; rw [← hp, hl]; omega)]
    simp only [List.length_nil, Nat.sub_zero, Nat.sub_self, List.drop_zero]
    rw [hp] at hl
    rw [List.take_of_length_le (by rw [hl]; omega)]
  · rfl

/-- one round that gets less than a block throws -/
theorem SChainRel.ragged {dir : Dir} {H : HashFn} {c : SChain} {s : ASt} (r : SChainRel dir H c s) (hp : s.p = []) (got : List Byte)
    (hg : got.length < H.size) :
    ∃ b b', c.cur = some b ∧ b.addData dir H ⟨got, got.length⟩ = .ok b' ∧
      (do (← b'.getResult dir H).copySubBytes (H.size - c.freeSpace H) H.size) = .exn .lengthError := by
  obtain ⟨b, hb, rb⟩ := r.blk
  obtain ⟨b', hb', rb'⟩ := rb.addData ⟨got, got.length⟩ (by simp [hp]; omega)
  obtain ⟨cap, hres⟩ := rb'.getResult
  refine ⟨b, b', hb, hb', ?_⟩
  rw [hres, Res.bind_ok, r.free, hp, Bytes.copySubBytes, if_neg (by simp), if_pos (by simp [saltK]; omega)]

/-- if whole blocks arrive, the loop writes what the chain in memory would return -/
theorem encLoop_blocks {dir : Dir} {H : HashFn} {n : Nat} : ∀ (m : Nat) (fuel : Nat) (c : SChain) (a : ASt) (s : IStream),
    SChainRel dir H c a → a.p = [] → s.eof = false → s.rest.length = (m + 1) * H.size → (∀ i, H.size ≤ s.sched i) → m < fuel →
    ∃ c' x, (∀ out, SChain.encLoop dir H n fuel c s out = .ok (c', out ++ x)) ∧ a.R ++ x = (a.feed dir H s.rest).out dir H ∧
      SChainRel dir H c' (a.feed dir H s.rest) ∧ (a.feed dir H s.rest).p.length = H.size := by
  intro m
  induction m with
  | zero =>
    intro fuel c a s r hp he hl hs hf
    obtain ⟨fuel, rfl⟩ : ∃ f, fuel = f + 1 := ⟨fuel - 1, by omega⟩
    have hk : min (H.size - a.p.length) s.avail = H.size := by
      have := hs 0
      simp only [IStream.avail, hp, List.length_nil]
      split <;> omega
    obtain ⟨b, b', p, h1, h2, h3, h4, h5⟩ := r.round hp s.rest (by omega)
    obtain ⟨r0, h6, h7⟩ := Res.bind_eq_ok.mp h4
    have hrd : s.readsome (c.freeSpace H) =
        (s.rest, ⟨[], fun i => s.sched (i + 1), s.primed && decide (H.size = 0), false⟩) := by
      simp only [IStream.readsome, he, r.free, hk, Bool.false_eq_true, if_false]
      rw [List.take_of_length_le (by omega), List.drop_of_length_le (by omega)]
    have hpk : ∀ f x, IStream.peekEof ⟨[], f, x, false⟩ = (true, ⟨[], f, x, true⟩) := fun _ _ => rfl
    have hfeed : a.feed dir H s.rest = a.app s.rest := by
      rw [ASt.feed.eq_def, dif_pos (by simp only [hp, List.length_nil]; omega)]
    rw [hfeed]
    refine ⟨{ c with cur := some b' }, p.data, fun out => ?_, h5, h3, by simp only [ASt.app, hp, List.nil_append]; omega⟩
    rw [SChain.encLoop, h1]
    simp only [hrd, h2, Res.bind_ok, h6, h7, hpk, if_true]
  | succ m ih =>
    intro fuel c a s r hp he hl hs hf
    obtain ⟨fuel, rfl⟩ : ∃ f, fuel = f + 1 := ⟨fuel - 1, by omega⟩
    have hpos := H.pos
    have hlen : H.size + (m + 1) * H.size = s.rest.length := by rw [hl, Nat.add_mul (m + 1), Nat.one_mul, Nat.add_comm]
    have hmp : 0 < (m + 1) * H.size := Nat.mul_pos (by omega) (by omega)
    have hk : min (H.size - a.p.length) s.avail = H.size := by
      have := hs 0
      simp only [IStream.avail, hp, List.length_nil]
      split <;> omega
    have hgl : (s.rest.take H.size).length = H.size := by simp; omega
    obtain ⟨b, b', p, h1, h2, h3, h4, h5⟩ := r.round hp (s.rest.take H.size) hgl
    obtain ⟨r0, h6, h7⟩ := Res.bind_eq_ok.mp h4
    have hfull : (a.app (s.rest.take H.size)).p.length = H.size := by simp only [ASt.app, hp, List.nil_append, hgl]
    obtain ⟨c2, h8, r2⟩ := h3.setBlock hfull n
    obtain ⟨c3, x, h9, h10, h11, h12⟩ := ih fuel c2 _ ⟨s.rest.drop H.size, fun i => s.sched (i + 1), true, false⟩ r2 rfl rfl
      (by simp; omega) (fun i => hs (i + 1)) (by omega)
    have hrd : s.readsome (c.freeSpace H) = (s.rest.take H.size,
        ⟨s.rest.drop H.size, fun i => s.sched (i + 1), s.primed && decide (H.size = 0), false⟩) := by
      simp only [IStream.readsome, he, r.free, hk, Bool.false_eq_true, if_false]
    have hpk : ∀ f x, IStream.peekEof ⟨s.rest.drop H.size, f, x, false⟩ = (false, ⟨s.rest.drop H.size, f, true, false⟩) := by
      intro f x
      rw [IStream.peekEof, if_neg (by simp), if_neg (by simp only [List.isEmpty_iff, List.drop_eq_nil_iff]; omega)]
    have hass : ({ c with cur := some b' } : SChain).freeSpace H = 0 := by rw [h3.free, hfull]; omega
    have hfeed : a.feed dir H s.rest = ((a.app (s.rest.take H.size)).commit dir H).feed dir H (s.rest.drop H.size) := by
      rw [ASt.feed.eq_def, dif_neg (by simp only [hp, List.length_nil]; omega), hp]
      rfl
    rw [hfeed]
    refine ⟨c3, p.data ++ x, fun out => ?_, ?_, h11, h12⟩
    · rw [SChain.encLoop, h1]
      simp only [hrd, h2, Res.bind_ok, h6, h7, hpk, Bool.false_eq_true, if_false, hass, Res.assert, BEq.rfl, if_true, h8]
      rw [h9, List.append_assoc]
    · rw [← List.append_assoc, h5]
      exact h10

/-- a call on a chain whose block is full goes on where the last call stopped -/
theorem encStream_again {dir : Dir} {H : HashFn} {n : Nat} {c : SChain} {a : ASt} (r : SChainRel dir H c a) (hf : a.p.length = H.size)
    (s : IStream) (m : Nat) (he : s.eof = false) (hl : s.rest.length = (m + 1) * H.size) (hs : ∀ i, H.size ≤ s.sched i) :
    ∃ c' x, c.encStream dir H n s = .ok (c', x) ∧ a.out dir H ++ x = (a.feed dir H s.rest).out dir H ∧
      SChainRel dir H c' (a.feed dir H s.rest) ∧ (a.feed dir H s.rest).p.length = H.size := by
  have hpos := H.pos
  have hm : m ≤ s.rest.length := by
    rw [hl]
    exact Nat.le_trans (Nat.le_succ m) (Nat.le_mul_of_pos_right _ (by omega))
  have hlp : 0 < s.rest.length := by rw [hl]; exact Nat.mul_pos (by omega) (by omega)
  obtain ⟨b, hb, -⟩ := r.blk
  obtain ⟨c1, h1, r1⟩ := r.setBlock hf n
  obtain ⟨c2, x, h2, h3, h4, h5⟩ := encLoop_blocks (n := n) m (s.rest.length + 2) c1 _ s r1 rfl he hl hs (by omega)
  have hfeed : a.feed dir H s.rest = (a.commit dir H).feed dir H s.rest := by
    rw [ASt.feed.eq_def dir H a, dif_neg (by omega), hf, Nat.sub_self, List.take_zero, List.drop_zero]
    simp only [ASt.app, List.append_nil]
  rw [hfeed]
  refine ⟨c2, x, ?_, h3, h4, h5⟩
  rw [SChain.encStream, hb]
  simp only [r.free, hf, Nat.sub_self, if_true, h1, Res.bind_ok]
  rw [h2]
  rfl

/-- the calls after the first one -/
theorem encStreams_again {dir : Dir} {H : HashFn} {n : Nat} : ∀ (ss : List IStream) (c : SChain) (a : ASt), SChainRel dir H c a →
    a.p.length = H.size → (∀ s ∈ ss, s.eof = false ∧ (∃ m, s.rest.length = (m + 1) * H.size) ∧ ∀ i, H.size ≤ s.sched i) →
    ∃ c' x, SChain.encStreams dir H n c ss = .ok (c', x) ∧
      a.out dir H ++ x = (a.feed dir H (ss.flatMap (·.rest))).out dir H := by
  intro ss
  induction ss with
  | nil =>
    intro c a r hf _
    exact ⟨c, [], rfl, by rw [List.flatMap_nil, ASt.feed_nil _ _ _ (by omega), List.append_nil]⟩
  | cons s ss ih =>
    intro c a r hf hall
    obtain ⟨he, ⟨m, hl⟩, hs⟩ := hall s List.mem_cons_self
    obtain ⟨c1, x, h1, h2, h3, h4⟩ := encStream_again (n := n) r hf s m he hl hs
    obtain ⟨c2, y, h5, h6⟩ := ih c1 _ h3 h4 fun t ht => hall t (List.mem_cons_of_mem _ ht)
    refine ⟨c2, x ++ y, ?_, ?_⟩
    · rw [SChain.encStreams, h1, Res.bind_ok]
      simp only [h5, Res.bind_ok]
    · rw [← List.append_assoc, h2, h6, List.flatMap_cons, ASt.feed_append]

/-- if the data do not end at the end of a block, the loop throws -/
theorem encLoop_ragged {dir : Dir} {H : HashFn} {n : Nat} : ∀ (fuel : Nat) (c : SChain) (a : ASt) (s : IStream) (out : List Byte),
    SChainRel dir H c a → a.p = [] → (s.eof = true ∨ s.rest = [] ∨ s.rest.length % H.size ≠ 0) → s.rest.length < fuel →
    SChain.encLoop dir H n fuel c s out = .exn .lengthError := by
  intro fuel
  induction fuel with
  | zero => intro c a s out _ _ _ h; omega
  | succ fuel ih =>
    intro c a s out r hp hs hf
    have hpos := H.pos
    have hread : ∃ got s', s.readsome (c.freeSpace H) = (got, s') ∧ got.length ≤ H.size ∧
        (got.length = H.size → s.eof = false ∧ s'.eof = false ∧ s'.rest = s.rest.drop H.size ∧ H.size ≤ s.rest.length) := by
      have hfree : c.freeSpace H = H.size := by rw [r.free, hp]; simp
      rw [hfree]
      unfold IStream.readsome
      cases he : s.eof with
      | true => exact ⟨[], s, rfl, by simp, fun h => by simp at h; omega⟩
      | false =>
        refine ⟨_, _, rfl, by simp only [List.length_take]; omega, fun h => ?_⟩
        simp only [List.length_take] at h
        have hm : min H.size s.avail = H.size := by omega
        exact ⟨rfl, rfl, by rw [hm], by simp only [IStream.avail] at hm h; omega⟩
    obtain ⟨got, s', hrd, hle, hgot⟩ := hread
    rw [SChain.encLoop]
    by_cases hg : got.length < H.size
    · obtain ⟨b, b', h1, h2, h3⟩ := r.ragged hp got hg
      rw [h1]
      simp only [hrd, h2, Res.bind_ok]
      cases hb' : b'.getResult dir H with
      | ok r1 =>
        rw [hb', Res.bind_ok] at h3
        rw [Res.bind_ok, h3]
        rfl
      | exn x => rw [hb'] at h3; rw [Res.bind_exn] at h3 ⊢; cases h3; rfl
      | fatal x => rw [hb'] at h3; cases h3
    · have hg : got.length = H.size := by omega
      obtain ⟨he, he', hr', hlen⟩ := hgot hg
      obtain ⟨b, b', p, h1, h2, h3, h4, h5⟩ := r.round hp got hg
      obtain ⟨r0, h6, h7⟩ := Res.bind_eq_ok.mp h4
      have hfull : (a.app got).p.length = H.size := by simp only [ASt.app, hp, List.nil_append, hg]
      obtain ⟨c2, h8, r2⟩ := h3.setBlock hfull n
      rw [h1]
      simp only [hrd, h2, Res.bind_ok, h6, h7, IStream.peekEof, he']
      have hmod : s.rest.length % H.size ≠ 0 := by
        rcases hs with h | h | h
        · rw [he] at h; cases h
        · rw [h] at hlen; simp at hlen; omega
        · exact h
      have hne : ¬ s'.rest.isEmpty = true := by
        rw [hr']
        simp only [List.isEmpty_iff, List.drop_eq_nil_iff]
        intro h
        have : s.rest.length = H.size := by omega
        rw [this, Nat.mod_self] at hmod
        exact hmod rfl
      have hass : ({ c with cur := some b' } : SChain).freeSpace H = 0 := by rw [h3.free, hfull]; omega
      simp only [Bool.false_eq_true, if_false, hne, hass, Res.assert, BEq.rfl, if_true, Res.bind_ok, h8]
      refine ih c2 _ _ _ r2 rfl (.inr (.inr ?_)) ?_
      · simp only [hr', List.length_drop]
        rw [← Nat.mod_eq_sub_mod hlen]
        exact hmod
      · simp only [hr', List.length_drop]
        omega

end Verif
