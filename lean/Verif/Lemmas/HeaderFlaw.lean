import Verif.Lemmas.HeaderExact
import Verif.Spec.Flaw

/- Which error the stream parser gives. -/
namespace Verif
open Spec
namespace HeaderParse

theorem known_mode {b : Byte} (h : knownChain b) : ∃ m : CHMode, m.toByte = b := by
  rcases h with rfl | rfl | rfl | rfl | rfl
  · exact ⟨.normal, rfl⟩
  · exact ⟨.constSalt, rfl⟩
  · exact ⟨.count, rfl⟩
  · exact ⟨.constCount, rfl⟩
  · exact ⟨.quad, rfl⟩

theorem mode_known (m : CHMode) : knownChain m.toByte := by
  cases m <;> simp [knownChain, CHMode.toByte]

theorem ofByte_unknown {b : Byte} (h : ¬ knownChain b) : CHMode.ofByte b = none := by
  cases hm : CHMode.ofByte b with
  | none => rfl
  | some m => obtain rfl := CHMode.toByte_of_ofByte hm; exact absurd (mode_known m) h

theorem hash_unknown {b : Byte} (h : ¬ (b = 1 ∨ b = 2 ∨ b = 3)) : HMode.ofByte b = none := by
  cases hm : HMode.ofByte b with
  | none => rfl
  | some m => exact absurd (ofByte_valid hm) h

theorem num8_of (n : Nat) (h : n < 2 ^ 64) : num8 n = num8 (UInt64.ofNat n).toNat := by
  rw [ofNat_toNat64 h]

theorem split_num8 {l : List Byte} (h : 8 ≤ l.length) : ∃ (n : UInt64) (l' : List Byte), l = num8 n.toNat ++ l' := by
  refine ⟨UInt64.ofNat (beValue (l.take 8)), l.drop 8, ?_⟩
  rw [ofNat_beValue _ (by simp; omega), num8_beValue (by simp; omega), List.take_append_drop]

theorem num8_inj {a b : Nat} (ha : a < 2 ^ 64) (hb : b < 2 ^ 64) (h : num8 a = num8 b) : a = b := by
  have := congrArg beValue h
  rw [← num8_ofNat ha, ← num8_ofNat hb, beValue_be8, beValue_be8, ofNat_toNat64 ha, ofNat_toNat64 hb] at this
  exact this

/-! ### chain hashes -/

theorem rdChainHash_long {m : CHMode} {l : List Byte} (h : l.length < 9) :
    rdChainHash rdList (m.toByte :: l) = short := by
  unfold rdChainHash
  rw [Par.bind_val_eq (rdByte_cons _ _), CHMode.ofByte_toByte]
  simp only
  rcases rdLong_cases l with h1 | ⟨n, l, rfl, -⟩
  · exact Par.bind_stop_eq h1
  · rw [Par.bind_val_eq (rdLong_append n.toNat_lt _)]
    have : l = [] := by
      simp only [List.length_append, length_num8] at h
      exact List.eq_nil_of_length_eq_zero (by omega)
    subst this
    exact Par.bind_stop_eq rdByte_nil

/-- a flaw of a chain hash is answered by its error -/
theorem rdChainHash_flaw {l : List Byte} {c : ErrorCode} (h : ChainFlaw l c) : rdChainHash rdList l = .ok (.stop c) := by
  cases h with
  | missing => exact Par.bind_stop_eq rdByte_nil
  | mode mode l h =>
    unfold rdChainHash
    rw [Par.bind_val_eq (rdByte_cons _ _), ofByte_unknown h]
    exact Par.fail_apply _ _
  | fields mode l h hl =>
    obtain ⟨m, rfl⟩ := known_mode h
    exact rdChainHash_long hl
  | block mode iters len l h hi hl =>
    obtain ⟨m, rfl⟩ := known_mode h
    rw [num8_of _ hi]
    rcases rdChainHash_exact m (UInt64.ofNat iters) len l with ⟨e, -⟩ | ⟨p, l', rfl, h2, h3, -⟩ | ⟨⟨k, h1, -, h3⟩, -⟩
    · exact e
    · exfalso
      simp only [List.length_append] at hl
      cases m <;> simp [blockLenOk, CHMode.num, CHMode.toByte, fixedLen] at h3 hl <;> omega
    · rw [h1] at hl
      simp only [Option.getD_some] at hl
      omega
  | start iters len l hi hl =>
    rw [num8_of _ hi]
    rcases rdChainHash_exact .constCount (UInt64.ofNat iters) len l with ⟨e, -⟩ | ⟨p, l', rfl, h2, h3, -⟩ | ⟨⟨k, h1, -, -⟩, -⟩
    · exact e
    · exfalso
      simp only [blockLenOk, CHMode.num, CHMode.toByte, UInt8.reduceToNat] at h3
      simp at h3; omega
    · cases h1

/-- and no other error occurs -/
theorem rdChainHash_stop {l : List Byte} {c : ErrorCode} (h : rdChainHash rdList l = .ok (.stop c)) : ChainFlaw l c := by
  rcases l with _ | ⟨mode, l⟩
  · rw [rdChainHash_flaw .missing] at h; cases h; exact .missing
  by_cases hm : ¬ knownChain mode
  · have e := ChainFlaw.mode mode l hm
    rw [rdChainHash_flaw e] at h; cases h; exact e
  have hm : knownChain mode := Classical.byContradiction hm
  by_cases h9 : l.length < 9
  · have e := ChainFlaw.fields mode l hm h9
    rw [rdChainHash_flaw e] at h; cases h; exact e
  obtain ⟨n, l, rfl⟩ := split_num8 (l := l) (by omega)
  rcases l with _ | ⟨len, l⟩
  · simp at h9
  by_cases hl : l.length < (fixedLen mode).getD len.toNat
  · have e := ChainFlaw.block mode n.toNat len l hm n.toNat_lt hl
    rw [rdChainHash_flaw e] at h; cases h; exact e
  obtain ⟨m, rfl⟩ := known_mode hm
  cases hf : fixedLen m.toByte with
  | some k =>
    rw [hf, Option.getD_some] at hl
    by_cases hk : len.toNat = k
    · exfalso
      have hb : blockLenOk m.num (l.take k).length = true := by
        have : (l.take k).length = k := by simp; omega
        rw [this]
        cases m <;> simp [fixedLen, CHMode.toByte] at hf <;> subst hf <;> rfl
      have := rdChainHash_append m n (l.take k) (l.drop k) hb
      have e : (ChainDesc.mk m.toByte n.toNat (l.take k)).bytes ++ l.drop k = m.toByte :: (num8 n.toNat ++ len :: l) := by
        have : (l.take k).length = len.toNat := by simp; omega
        simp [ChainDesc.bytes]
        rw [List.length_take] at this
        rw [this, UInt8.ofNat_toNat]
      rw [e, h] at this; cases this
    · exfalso
      rw [rdChainHash_bad ⟨_, _, _, _, k, rfl, n.toNat_lt, hf, hk, by omega⟩] at h
      cases h
  | none =>
    rw [hf, Option.getD_none] at hl
    by_cases hb : blockLenOk m.num len.toNat = true
    · exfalso
      have hlen : (l.take len.toNat).length = len.toNat := by simp; omega
      have := rdChainHash_append m n (l.take len.toNat) (l.drop len.toNat) (by rw [hlen]; exact hb)
      have e : (ChainDesc.mk m.toByte n.toNat (l.take len.toNat)).bytes ++ l.drop len.toNat =
          m.toByte :: (num8 n.toNat ++ len :: l) := by
        simp [ChainDesc.bytes]
        rw [List.length_take] at hlen
        rw [hlen, UInt8.ofNat_toNat]
      rw [e, h] at this; cases this
    · have hlt := len.toNat_lt
      cases m with
      | normal => simp [fixedLen, CHMode.toByte] at hf
      | count => simp [fixedLen, CHMode.toByte] at hf
      | quad => simp [fixedLen, CHMode.toByte] at hf
      | constSalt =>
        simp only [blockLenOk, CHMode.num, CHMode.toByte, UInt8.reduceToNat] at hb
        simp at hb; omega
      | constCount =>
        have e := ChainFlaw.start n.toNat len l n.toNat_lt (by
          simp only [blockLenOk, CHMode.num, CHMode.toByte, UInt8.reduceToNat] at hb
          simp at hb; omega)
        have h' := rdChainHash_flaw e
        change rdChainHash rdList (4 :: (num8 n.toNat ++ len :: l)) = _ at h
        rw [h'] at h; cases h; exact e

/-! ### blocks -/

/-- the bytes end before or inside a data block -/
def CutBlock (l : List Byte) : Prop := l.length < 2 ∨ ∃ type len x, l = type :: len :: x ∧ x.length < len.toNat

theorem rdBlocks_cut (k : Nat) (d : DataHeader) {l : List Byte} (h : CutBlock l) : rdBlocks rdList (k + 1) d l = short := by
  rcases h with h | ⟨t, len, x, rfl, h⟩
  · rcases l with _ | ⟨t, _ | ⟨len, l⟩⟩
    · exact Par.bind_stop_eq rdByte_nil
    · rw [rdBlocks, Par.bind_val_eq (rdByte_cons _ _)]
      exact Par.bind_stop_eq rdByte_nil
    · simp at h; omega
  · rw [rdBlocks, Par.bind_val_eq (rdByte_cons _ _), Par.bind_val_eq (rdByte_cons _ _)]
    have := len.toNat_lt
    rcases rd_cases len.toNat len.toNat (Nat.le_refl _) (by omega) x with h1 | ⟨a, l', rfl, ha, -⟩
    · exact Par.bind_stop_eq h1
    · simp at h; omega

theorem split_blocks (k : Nat) : ∀ l : List Byte,
    (∃ bs l', l = blockBytes bs ++ l' ∧ BlocksOk bs ∧ bs.length = k) ∨
    (∃ bs l', l = blockBytes bs ++ l' ∧ BlocksOk bs ∧ bs.length < k ∧ (CutBlock l' ∨ ∃ t x, l' = t :: 0 :: x)) := by
  induction k with
  | zero => intro l; exact .inl ⟨[], l, rfl, by simp [BlocksOk], rfl⟩
  | succ k ih =>
    intro l
    by_cases hc : CutBlock l
    · exact .inr ⟨[], l, rfl, by simp [BlocksOk], by simp, .inl hc⟩
    rcases l with _ | ⟨t, _ | ⟨len, l⟩⟩
    · exact absurd (.inl (by simp)) hc
    · exact absurd (.inl (by simp)) hc
    by_cases hz : len = 0
    · subst hz
      exact .inr ⟨[], _, rfl, by simp [BlocksOk], by simp, .inr ⟨t, l, rfl⟩⟩
    have hlen : len.toNat ≤ l.length := by
      refine Nat.le_of_not_lt fun h => hc (.inr ⟨t, len, l, rfl, h⟩)
    have hpos : 1 ≤ len.toNat := by
      rcases Nat.eq_zero_or_pos len.toNat with h | h
      · exact absurd (UInt8.toNat_inj.mp (by simpa using h)) hz
      · exact h
    have hlt := len.toNat_lt
    have htl : (l.take len.toNat).length = len.toNat := by simp; omega
    have hx : ∀ bs, BlocksOk bs → BlocksOk ((t, l.take len.toNat) :: bs) := by
      intro bs hb b hbm
      rcases List.mem_cons.mp hbm with rfl | h
      · simp only [htl]; omega
      · exact hb b h
    have e : ∀ bs l', l.drop len.toNat = blockBytes bs ++ l' →
        t :: len :: l = blockBytes ((t, l.take len.toNat) :: bs) ++ l' := by
      intro bs l' h
      have : UInt8.ofNat (l.take len.toNat).length = len := by rw [htl, UInt8.ofNat_toNat]
      simp only [blockBytes, List.flatMap_cons, this, List.cons_append, List.append_assoc]
      rw [show List.flatMap (fun b : Byte × List Byte => b.1 :: UInt8.ofNat b.2.length :: b.2) bs = blockBytes bs from rfl, ← h,
        List.take_append_drop]
    rcases ih (l.drop len.toNat) with ⟨bs, l', h1, h2, h3⟩ | ⟨bs, l', h1, h2, h3, h4⟩
    · exact .inl ⟨_, l', e bs l' h1, hx bs h2, by simp [h3]⟩
    · exact .inr ⟨_, l', e bs l' h1, hx bs h2, by simp; omega, h4⟩

theorem split_enc (k : Nat) : ∀ l : List Byte, 257 * k ≤ l.length →
    ∃ es l', l = encBytes es ++ l' ∧ EncOk es ∧ es.length = k := by
  induction k with
  | zero => intro l _; exact ⟨[], l, rfl, by simp [EncOk], rfl⟩
  | succ k ih =>
    intro l h
    rcases l with _ | ⟨t, _ | ⟨len, l⟩⟩
    · simp at h
    · simp at h; omega
    simp only [List.length_cons] at h
    obtain ⟨es, l', h1, h2, h3⟩ := ih (l.drop 255) (by simp; omega)
    refine ⟨(t, len, l.take 255) :: es, l', ?_, ?_, by simp [h3]⟩
    · simp only [encBytes, List.flatMap_cons, List.cons_append, List.append_assoc]
      rw [show List.flatMap (fun b : Byte × Byte × List Byte => b.1 :: b.2.1 :: b.2.2) es = encBytes es from rfl, ← h1,
        List.take_append_drop]
    · intro b hb
      rcases List.mem_cons.mp hb with rfl | h'
      · simp; omega
      · exact h2 b h'

theorem rdEncBlocks_short {m v s bs c1 c2 fs} (hb : BlocksOk bs) (hl : bs.length ≤ 255) (k : Nat) (hk : k ≤ 255) (l : List Byte)
    (h : l.length < 257 * k) : rdEncBlocks rdList k (obj m v s (bs.map toBlock) [] c1 c2 fs) l = short := by
  rcases rdEncBlocks_cases (m := m) (v := v) (s := s) (c1 := c1) (c2 := c2) (fs := fs) hb hl k [] l (by simpa using hk) with
    e | ⟨es, l', rfl, he, hel, -⟩
  · exact e
  · exfalso
    have := length_encBytes es he
    simp only [List.length_append] at h
    omega

/-! ### from the content to the whole -/

theorem size_content {hs : Hashes} {r : Rand} {l : List Byte} (hl : l.length < 2 ^ 64) {hsize : Nat} {rest : List Byte}
    (h : l = num8 l.length ++ (num8 hsize ++ rest)) (hk : hsize ≤ l.length) {c : ErrorCode}
    (hc : rdContent rdList hs r (UInt64.ofNat l.length) rest = .ok (.stop c)) :
    rdHeader rdList List.length hs r l = .ok (.stop c) := by
  have e1 := ofNat_toNat64 hl
  have e2 := ofNat_toNat64 (n := hsize) (by omega)
  rw [rdHeader_sizes (UInt64.ofNat l.length) (UInt64.ofNat hsize) _ l (by rw [e1, e2]; exact h),
    if_neg (by rw [e1]; simp), if_neg (by rw [gt_iff_lt, UInt64.lt_iff_toNat_lt, e1, e2]; omega)]
  exact Par.bind_stop_eq hc

theorem blocks_content {hs : Hashes} {r : Rand} (hr : r.good = true) {l : List Byte} (hl : l.length < 2 ^ 64) {m : HMode}
    {bs : List (Byte × List Byte)} {rest : List Byte} (h : UpToBlocks l m.toByte bs rest) {c : ErrorCode}
    (hc : rdChains hs (UInt64.ofNat l.length) (obj0 m r (bs.map toBlock) ChainHash.default ChainHash.default) rest = .ok (.stop c)) :
    rdHeader rdList List.length hs r l = .ok (.stop c) := by
  obtain ⟨hsize, count, ⟨eq, hk, -, -, hb⟩, hn⟩ := h
  refine size_content hl eq hk ?_
  rw [rdContent_eq hr]
  have hcount := count.toNat_lt
  have := rdBlocks_append (m := m) (v := none) (s := ⟨r.take m.size, m.size⟩) (enc := []) (c1 := ChainHash.default)
    (c2 := ChainHash.default) (fs := none) (by simp) bs [] 0 rest hb (by simp [BlocksOk]) (by simp; omega)
  rw [List.map_nil, Nat.add_zero, List.nil_append, rdBlocks, Par.pure_apply] at this
  rw [obj0, ← hn, Par.bind_val_eq this]
  exact hc

theorem upTo_mode {l : List Byte} {hmode : Byte} {bs : List (Byte × List Byte)} {rest : List Byte}
    (h : UpToBlocks l hmode bs rest) : ∃ m : HMode, m.toByte = hmode := by
  obtain ⟨_, _, ⟨-, -, hm, -, -⟩, -⟩ := h
  exact start_mode' hm

theorem chain1_content {hs : Hashes} {r : Rand} (n : UInt64) (m : HMode) (dec : List DataBlock) {c : ChainDesc} (hc : c.Valid)
    (rest : List Byte) (x : Res (Step (List Byte) DataHeader))
    (h : (do
      let c2 ← rdChainHash rdList
      let d ← Par.onExn (Par.lift ((obj0 m r dec (toCH c) ChainHash.default).setChainHash2 c2)) (catchInvalidAll .ERR_CHAINHASH2_INVALID)
      rdEnd hs n d : Par (List Byte) DataHeader) rest = x) :
    rdChains hs n (obj0 m r dec ChainHash.default ChainHash.default) (c.bytes ++ rest) = x := by
  unfold rdChains obj0
  obtain ⟨m1, n1, e1, -, -, -, hb1⟩ := desc_typed hc
  have k1 := rdChainHash_append m1 n1 c.block rest hb1
  rw [← e1] at k1
  rw [Par.bind_val_eq k1, Par.bind_val_eq (Par.onExn_ok (by rw [obj_setCh1 hb1, ← e1, if_pos hc, Par.lift_ok]))]
  exact h

theorem chain2_content {hs : Hashes} {r : Rand} (n : UInt64) (m : HMode) (dec : List DataBlock) {c c' : ChainDesc} (hc : c.Valid)
    (hc' : c'.Valid) (rest : List Byte) (x : Res (Step (List Byte) DataHeader))
    (h : rdEnd hs n (obj0 m r dec (toCH c) (toCH c')) rest = x) :
    rdChains hs n (obj0 m r dec ChainHash.default ChainHash.default) (c.bytes ++ (c'.bytes ++ rest)) = x := by
  refine chain1_content n m dec hc _ x ?_
  unfold obj0
  obtain ⟨m1, n1, e1, -, -, -, hb1⟩ := desc_typed hc'
  have k1 := rdChainHash_append m1 n1 c'.block rest hb1
  rw [← e1] at k1
  rw [Par.bind_val_eq k1, Par.bind_val_eq (Par.onExn_ok (by rw [obj_setCh2 hb1, ← e1, if_pos hc', Par.lift_ok]))]
  exact h

/-- a description with a number of iterations out of range -/
theorem badIters_typed {c : ChainDesc} (h : BadIters c) : ∃ (m : CHMode) (n : UInt64), c = ⟨m.toByte, n.toNat, c.block⟩ ∧
    blockLenOk m.num c.block.length = true ∧ ¬ c.Valid := by
  obtain ⟨h1, h2, h3⟩ := h
  have hv : (ChainDesc.mk c.mode 1 c.block).Valid := ⟨Nat.le_refl 1, by show 1 ≤ 1000000000; decide, h1⟩
  obtain ⟨m, hm⟩ := descMode hv
  simp only at hm
  refine ⟨m, UInt64.ofNat c.iters, ?_, ?_, ?_⟩
  · rw [ofNat_toNat64 h2, hm]
  · have : m.num = c.mode.toNat := by rw [← hm]
    rw [this]; exact h1
  · rintro ⟨h4, h5, -⟩; omega

/-! ### the whole parser -/

theorem rdEnd_digests {hs : Hashes} {r : Rand} {n : UInt64} {m : HMode} {dec : List DataBlock} {c1 c2 : ChainHash}
    (l : List Byte) (h : l.length < 2 * m.size) : rdEnd hs n (obj0 m r dec c1 c2) l = short := by
  have hms := m.size_le
  unfold rdEnd obj0
  simp only [obj_hashSize]
  rcases rd_cases m.size m.size (Nat.le_refl _) (by omega) l with h1 | ⟨v, l, rfl, hv, h1⟩
  · exact Par.bind_stop_eq h1
  rw [Par.bind_val_eq h1, Par.bind_val_eq (Par.onExn_ok (by rw [obj_setValidator (by exact hv), Par.lift_ok]))]
  simp only [obj_hashSize]
  rcases rd_cases m.size m.size (Nat.le_refl _) (by omega) l with h1 | ⟨s, l, rfl, hs', h1⟩
  · exact Par.bind_stop_eq h1
  · simp only [List.length_append] at h; omega

/-- after validator and salt -/
theorem rdEnd_salt {hs : Hashes} {r : Rand} {n : UInt64} {m : HMode} {bs : List (Byte × List Byte)} {c1 c2 : ChainDesc}
    (h1 : c1.Valid) (h2 : c2.Valid) (hb : BlocksOk bs) (hbl : bs.length ≤ 255) (v s l : List Byte) (hv : v.length = m.size)
    (hs' : s.length = m.size) :
    rdEnd hs n (obj0 m r (bs.map toBlock) (toCH c1) (toCH c2)) (v ++ (s ++ l)) =
      if n.toNat < headLen ⟨n.toNat, 1, m.toByte, bs, c1, c2, v, s, []⟩ then .ok (.stop .ERR_FILESIZE_INVALID)
      else (do
        let ecount ← rdByte rdList
        let d ← rdEncBlocks rdList ecount.toNat (obj m (some ⟨v, m.size⟩) ⟨s, m.size⟩ (bs.map toBlock) [] (toCH c1) (toCH c2) (some n))
        Par.onExn (Par.lift (d.calcHeaderBytes! hs (Bytes.empty 0) fun _ => 0)) catchAll : Par (List Byte) DataHeader) l := by
  have hms := m.size_le
  unfold rdEnd obj0
  simp only [obj_hashSize]
  rw [Par.bind_val_eq (rd_append hv (Nat.le_refl _) (by omega)),
    Par.bind_val_eq (Par.onExn_ok (by rw [obj_setValidator (by exact hv), Par.lift_ok]))]
  simp only [obj_hashSize]
  rw [Par.bind_val_eq (rd_append hs' (Nat.le_refl _) (by omega)),
    Par.bind_val_eq (Par.onExn_ok (by rw [obj_setSalt (by exact hs'), Par.lift_ok]))]
  by_cases hf : n.toNat < headLen ⟨n.toNat, 1, m.toByte, bs, c1, c2, v, s, []⟩
  · rw [if_pos hf]
    exact Par.bind_stop_eq (Par.onExn_caught (by rw [obj_setFileSize _ h1 h2 hv hs' hb hbl, if_pos hf, Par.lift_exn]) rfl)
  · rw [if_neg hf]
    rw [Par.bind_val_eq (Par.onExn_ok (by rw [obj_setFileSize _ h1 h2 hv hs' hb hbl, if_neg hf, Par.lift_ok]))]

/-- the size of a file that begins with a header up to its data blocks -/
theorem upTo_length {l : List Byte} {hmode : Byte} {bs : List (Byte × List Byte)} {rest : List Byte}
    (h : UpToBlocks l hmode bs rest) : l.length = 19 + (blockBytes bs).length + rest.length ∧ BlocksOk bs ∧ bs.length ≤ 255 := by
  obtain ⟨_, count, ⟨eq, -, -, -, hb⟩, hn⟩ := h
  have := count.toNat_lt
  refine ⟨?_, hb, by omega⟩
  have := congrArg List.length eq
  simp only [List.length_append, List.length_cons, length_num8] at this
  omega

theorem split_digests {l : List Byte} {k : Nat} (h : l.length = 2 * k) : ∃ v s, l = v ++ s ∧ v.length = k ∧ s.length = k :=
  ⟨l.take k, l.drop k, by simp, by simp; omega, by simp; omega⟩

/-- every flaw is answered by its error -/
theorem rdHeader_flaw {hs : Hashes} {r : Rand} (hr : r.good = true) {l : List Byte} (hl : l.length < 2 ^ 64) {c : ErrorCode}
    (h : Flaw l c) : rdHeader rdList List.length hs r l = .ok (.stop c) := by
  cases h with
  | sizes h =>
    rcases rdLong_cases l with h1 | ⟨n, l1, hl1, h1⟩
    · exact Par.bind_stop_eq h1
    rcases rdLong_cases l1 with h2 | ⟨k, l2, rfl, -⟩
    · unfold rdHeader
      rw [Par.bind_val_eq h1]
      exact Par.bind_stop_eq h2
    · rw [hl1] at h
      simp only [List.length_append, length_num8] at h; omega
  | fileSize h hn =>
    obtain ⟨n, l1, hl1⟩ := split_num8 (l := l) (by omega)
    obtain ⟨k, l2, rfl⟩ := split_num8 (l := l1) (by rw [hl1] at h; simp at h; omega)
    rw [rdHeader_sizes n k l2 l hl1, if_pos]
    intro e
    apply hn
    rw [e, hl1, List.take_left' (length_num8 _), ← num8_ofNat n.toNat_lt, beValue_be8, UInt64.ofNat_toNat]
  | headerSize hsize rest h h64 hk =>
    have e1 := ofNat_toNat64 hl
    have e2 := ofNat_toNat64 h64
    rw [rdHeader_sizes (UInt64.ofNat l.length) (UInt64.ofNat hsize) _ l (by rw [e1, e2]; exact h),
      if_neg (by rw [e1]; simp), if_pos (by rw [gt_iff_lt, UInt64.lt_iff_toNat_lt, e1, e2]; omega)]
  | modes hsize rest h hk hr =>
    refine size_content hl h hk ?_
    rcases rest with _ | ⟨fm, _ | ⟨hm, rest⟩⟩
    · exact Par.bind_stop_eq rdByte_nil
    · unfold rdContent
      rw [Par.bind_val_eq (rdByte_cons _ _)]
      exact Par.bind_stop_eq rdByte_nil
    · simp at hr; omega
  | hashMode hsize fm hm rest h hk hn =>
    refine size_content hl h hk ?_
    unfold rdContent
    rw [Par.bind_val_eq (rdByte_cons _ _), Par.bind_val_eq (rdByte_cons _ _)]
    exact Par.bind_stop_eq (by rw [start_new hr, hash_unknown hn])
  | fileMode hsize fm hm rest h hk hn hf =>
    refine size_content hl h hk ?_
    obtain ⟨m, rfl⟩ := start_mode' hn
    unfold rdContent
    rw [Par.bind_val_eq (rdByte_cons _ _), Par.bind_val_eq (rdByte_cons _ _),
      Par.bind_val_eq (by rw [start_new hr, HMode.ofByte_toByte])]
    exact Par.bind_stop_eq (by rw [start_mode, if_neg hf])
  | count hsize hm h hk hn =>
    refine size_content hl h hk ?_
    obtain ⟨m, rfl⟩ := start_mode' hn
    unfold rdContent
    rw [Par.bind_val_eq (rdByte_cons _ _), Par.bind_val_eq (rdByte_cons _ _),
      Par.bind_val_eq (by rw [start_new hr, HMode.ofByte_toByte]), Par.bind_val_eq (by rw [start_mode, if_pos rfl])]
    exact Par.bind_stop_eq rdByte_nil
  | blocks hsize hm count bs rest h hn hc =>
    obtain ⟨eq, hk, hm, -, hb⟩ := h
    obtain ⟨m, rfl⟩ := start_mode' hm
    refine size_content hl eq hk ?_
    rw [rdContent_eq hr]
    have hcount := count.toNat_lt
    obtain ⟨k, hk⟩ : ∃ k, count.toNat = bs.length + (k + 1) := ⟨count.toNat - bs.length - 1, by omega⟩
    have := rdBlocks_append (m := m) (v := none) (s := ⟨r.take m.size, m.size⟩) (enc := []) (c1 := ChainHash.default)
      (c2 := ChainHash.default) (fs := none) (by simp) bs [] (k + 1) rest hb (by simp [BlocksOk]) (by simp; omega)
    rw [List.map_nil, rdBlocks_cut _ _ hc] at this
    rw [obj0, hk]
    exact Par.bind_stop_eq this
  | chain1 hm bs rest code h hc =>
    obtain ⟨m, rfl⟩ := upTo_mode h
    refine blocks_content hr hl h ?_
    exact Par.bind_stop_eq (rdChainHash_flaw hc)
  | iters1 hm bs d rest h hc =>
    obtain ⟨m, rfl⟩ := upTo_mode h
    refine blocks_content hr hl h ?_
    obtain ⟨m1, n1, e1, hb1, hv⟩ := badIters_typed hc
    have k1 := rdChainHash_append m1 n1 d.block rest hb1
    rw [← e1] at k1
    unfold rdChains obj0
    rw [Par.bind_val_eq k1]
    exact Par.bind_stop_eq (Par.onExn_caught (by rw [obj_setCh1 hb1, ← e1, if_neg hv, Par.lift_exn]) rfl)
  | chain2 hm bs d rest code h hv hc =>
    obtain ⟨m, rfl⟩ := upTo_mode h
    refine blocks_content hr hl h (chain1_content _ _ _ hv _ _ ?_)
    exact Par.bind_stop_eq (rdChainHash_flaw hc)
  | iters2 hm bs d d' rest h hv hc =>
    obtain ⟨m, rfl⟩ := upTo_mode h
    refine blocks_content hr hl h (chain1_content _ _ _ hv _ _ ?_)
    obtain ⟨m1, n1, e1, hb1, hv⟩ := badIters_typed hc
    have k1 := rdChainHash_append m1 n1 d'.block rest hb1
    rw [← e1] at k1
    unfold obj0
    rw [Par.bind_val_eq k1]
    exact Par.bind_stop_eq (Par.onExn_caught (by rw [obj_setCh2 hb1, ← e1, if_neg hv, Par.lift_exn]) rfl)
  | digests hm bs d d' rest h hv hv' hc =>
    obtain ⟨m, rfl⟩ := upTo_mode h
    rw [digestSize_toByte] at hc
    exact blocks_content hr hl h (chain2_content _ _ _ hv hv' _ _ (rdEnd_digests rest hc))
  | encCount hm bs d d' rest h hv hv' hc =>
    obtain ⟨m, rfl⟩ := upTo_mode h
    rw [digestSize_toByte] at hc
    obtain ⟨hlen, hb, hbl⟩ := upTo_length h
    refine blocks_content hr hl h (chain2_content _ _ _ hv hv' _ _ ?_)
    obtain ⟨v, s, rfl, hvl, hsl⟩ := split_digests hc
    have := rdEnd_salt (hs := hs) (r := r) (n := UInt64.ofNat l.length) (m := m) hv hv' hb hbl v s [] hvl hsl
    rw [List.append_nil] at this
    rw [this, if_pos]
    rw [ofNat_toNat64 hl]
    simp only [headLen, Header.length, digestSize_toByte, List.length_nil]
    simp only [List.length_append, length_chainBytes, length_blockBytes, hvl, hsl] at hlen
    omega
  | encBlocks hm bs d d' dg count rest h hv hv' hd hc =>
    obtain ⟨m, rfl⟩ := upTo_mode h
    rw [digestSize_toByte] at hd
    obtain ⟨hlen, hb, hbl⟩ := upTo_length h
    refine blocks_content hr hl h (chain2_content _ _ _ hv hv' _ _ ?_)
    obtain ⟨v, s, rfl, hvl, hsl⟩ := split_digests hd
    have hcount := count.toNat_lt
    rw [List.append_assoc, rdEnd_salt hv hv' hb hbl v s _ hvl hsl, if_neg]
    · rw [Par.bind_val_eq (rdByte_cons _ _)]
      exact Par.bind_stop_eq (rdEncBlocks_short hb hbl _ (by omega) rest hc)
    · rw [ofNat_toNat64 hl]
      simp only [headLen, Header.length, digestSize_toByte, List.length_nil]
      simp only [List.length_append, List.length_cons, length_chainBytes, length_blockBytes, hvl, hsl] at hlen
      omega

/-- a byte string without flaw begins with a header in order or is one of those that end the process -/
theorem flaw_or {l : List Byte} (hl : l.length < 2 ^ 64) :
    (∃ c, Flaw l c) ∨ (∃ (h : Header) (data : List Byte), h.Valid ∧ l = h.bytes ++ data ∧ h.fileSize = l.length) ∨
    ZeroBlock l ∨ WrongChainLength l ∨ WrongHeaderSize l := by
  by_cases h16 : l.length < 16
  · exact .inl ⟨_, .sizes h16⟩
  obtain ⟨n, l1, hl1⟩ := split_num8 (l := l) (by omega)
  obtain ⟨k, l2, rfl⟩ := split_num8 (l := l1) (by rw [hl1] at h16; simp at h16; omega)
  by_cases hn : n.toNat ≠ l.length
  · refine .inl ⟨_, .fileSize (by omega) ?_⟩
    have : l.take 8 = num8 n.toNat := by rw [hl1, List.take_left' (length_num8 _)]
    rw [this, ← num8_ofNat n.toNat_lt, beValue_be8, UInt64.ofNat_toNat]
    exact hn
  have hn : n.toNat = l.length := Classical.byContradiction hn
  rw [hn] at hl1
  by_cases hk : l.length < k.toNat
  · exact .inl ⟨_, .headerSize _ _ hl1 k.toNat_lt hk⟩
  have hk : k.toNat ≤ l.length := by omega
  by_cases h2 : l2.length < 2
  · exact .inl ⟨_, .modes _ _ hl1 hk h2⟩
  rcases l2 with _ | ⟨fm, _ | ⟨hm, l2⟩⟩
  · simp at h2
  · simp at h2
  by_cases hmode : ¬ (hm = 1 ∨ hm = 2 ∨ hm = 3)
  · exact .inl ⟨_, .hashMode _ _ _ _ hl1 hk hmode⟩
  have hmode := Classical.byContradiction hmode
  by_cases hf : fm ≠ 1
  · exact .inl ⟨_, .fileMode _ _ _ _ hl1 hk hmode hf⟩
  have hf : fm = 1 := Classical.byContradiction hf
  subst hf
  rcases l2 with _ | ⟨count, l2⟩
  · exact .inl ⟨_, .count _ _ hl1 hk hmode⟩
  rcases split_blocks count.toNat l2 with ⟨bs, l3, rfl, hb, hbl⟩ | ⟨bs, l3, rfl, hb, hbl, hc | ⟨t, x, rfl⟩⟩
  case inr.inl => exact .inl ⟨_, .blocks _ _ _ bs l3 ⟨hl1, hk, hmode, by omega, hb⟩ hbl hc⟩
  case inr.inr => exact .inr (.inr (.inl ⟨_, _, _, bs, t, x, ⟨hl1, hk, hmode, by omega, hb⟩, hbl⟩))
  have hst : HeaderStart l k.toNat hm count bs l3 := ⟨hl1, hk, hmode, by omega, hb⟩
  rcases rdChainHash_cases l3 with ⟨c, h⟩ | ⟨m1, n1, p1, l3, rfl, hb1, -⟩ | ⟨hbad, -⟩
  · exact .inl ⟨c, .chain1 hm bs l3 c ⟨_, _, hst, hbl⟩ (rdChainHash_stop h)⟩
  case inr.inr => exact .inr (.inr (.inr (.inl ⟨_, _, _, bs, l3, hst, hbl, .inl hbad⟩)))
  by_cases hv1 : ¬ (ChainDesc.mk m1.toByte n1.toNat p1).Valid
  · refine .inl ⟨_, .iters1 hm bs _ l3 ⟨_, _, hst, hbl⟩ ⟨hb1, n1.toNat_lt, ?_⟩⟩
    refine Classical.byContradiction fun hh => hv1 ⟨?_, ?_, hb1⟩ <;> simp only at hh ⊢ <;> omega
  have hv1 := Classical.byContradiction hv1
  rcases rdChainHash_cases l3 with ⟨c, h⟩ | ⟨m2, n2, p2, l3, rfl, hb2, -⟩ | ⟨hbad, -⟩
  · exact .inl ⟨c, .chain2 hm bs _ l3 c ⟨_, _, hst, hbl⟩ hv1 (rdChainHash_stop h)⟩
  case inr.inr => exact .inr (.inr (.inr (.inl ⟨_, _, _, bs, _, hst, hbl, .inr ⟨_, _, rfl, hv1, hbad⟩⟩)))
  by_cases hv2 : ¬ (ChainDesc.mk m2.toByte n2.toNat p2).Valid
  · refine .inl ⟨_, .iters2 hm bs _ _ l3 ⟨_, _, hst, hbl⟩ hv1 ⟨hb2, n2.toNat_lt, ?_⟩⟩
    refine Classical.byContradiction fun hh => hv2 ⟨?_, ?_, hb2⟩ <;> simp only at hh ⊢ <;> omega
  have hv2 := Classical.byContradiction hv2
  have hup : UpToBlocks l hm bs _ := ⟨_, _, hst, hbl⟩
  by_cases h3 : l3.length < 2 * digestSize hm
  · exact .inl ⟨_, .digests hm bs _ _ l3 hup hv1 hv2 h3⟩
  by_cases h4 : l3.length = 2 * digestSize hm
  · exact .inl ⟨_, .encCount hm bs _ _ l3 hup hv1 hv2 h4⟩
  obtain ⟨dg, ecount, l4, rfl, hdg⟩ : ∃ dg ecount l4, l3 = dg ++ ecount :: l4 ∧ dg.length = 2 * digestSize hm := by
    have hh := List.take_append_drop (2 * digestSize hm) l3
    cases hd : l3.drop (2 * digestSize hm) with
    | nil => simp at hd; omega
    | cons a b => exact ⟨l3.take (2 * digestSize hm), a, b, by rw [← hd, hh], by simp; omega⟩
  by_cases h5 : l4.length < 257 * ecount.toNat
  · exact .inl ⟨_, .encBlocks hm bs _ _ dg ecount l4 hup hv1 hv2 hdg h5⟩
  obtain ⟨es, data, rfl, he, hel⟩ := split_enc ecount.toNat l4 (by omega)
  obtain ⟨v, s, rfl, hvl, hsl⟩ := split_digests hdg
  have hec := ecount.toNat_lt
  have hcount := count.toNat_lt
  right
  let h : Header := ⟨l.length, 1, hm, bs, ⟨m1.toByte, n1.toNat, p1⟩, ⟨m2.toByte, n2.toNat, p2⟩, v, s, es⟩
  have hcont : h.content.length + 16 = h.length := length_content h hvl hsl he
  have hl1' : l = num8 l.length ++ (num8 k.toNat ++ (h.content ++ data)) := by
    refine hl1.trans ?_
    simp only [h, Header.content, hbl, hel, UInt8.ofNat_toNat, List.cons_append, List.append_assoc]
  have hlen : l.length = h.length + data.length := by
    have := congrArg List.length hl1'
    simp only [List.length_append, length_num8] at this
    omega
  have hval : h.Valid := ⟨by show h.length ≤ l.length; omega, hl, rfl, hmode, by show bs.length ≤ 255; omega, hb, hv1, hv2, hvl, hsl,
    by show es.length ≤ 255; omega, he⟩
  by_cases hkk : k.toNat = h.length
  · refine .inl ⟨h, data, hval, ?_, rfl⟩
    rw [Header.bytes, List.append_assoc, List.append_assoc, ← hkk]
    exact hl1'
  · exact .inr (.inr (.inr ⟨h, k.toNat, data, hval, rfl, hl1', hk, hkk⟩))

/-- the parser stops with an error exactly if this is the error that belongs to the first flaw -/
theorem rdHeader_stop_iff {hs : Hashes} {r : Rand} (hr : r.good = true) {l : List Byte} (hl : l.length < 2 ^ 64) (c : ErrorCode) :
    rdHeader rdList List.length hs r l = .ok (.stop c) ↔ Flaw l c := by
  refine ⟨fun h => ?_, rdHeader_flaw hr hl⟩
  rcases flaw_or hl with ⟨c', hf⟩ | ⟨hd, data, hv, e, hs1⟩ | hz | hw | hw
  · rw [rdHeader_flaw hr hl hf] at h; cases h; exact hf
  · have e2 := rdHeader_append (hs := hs) hr hv data (by
      rw [hs1, e, List.length_append, length_bytes hd hv.validator hv.salt hv.encLen])
    rw [← e, h] at e2; cases e2
  · rw [rdHeader_zero hr hl hz] at h; cases h
  · rw [rdHeader_chain hr hl hw] at h; cases h
  · rw [rdHeader_size hr hl hw] at h; cases h

end HeaderParse
end Verif
