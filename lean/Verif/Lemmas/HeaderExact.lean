import Verif.Lemmas.HeaderParse

namespace Verif
open Spec
namespace HeaderParse

/-- steps up to the data blocks -/
theorem rdContent_start {hs : Hashes} {r : Rand} (hr : r.good = true) (n : UInt64) (l : List Byte) :
    (∃ c, rdContent rdList hs r n l = .ok (.stop c)) ∨
    ∃ (m : HMode) (count : Byte) (l' : List Byte), l = 1 :: m.toByte :: count :: l' := by
  rcases l with _ | ⟨fm, l⟩
  · exact .inl ⟨_, Par.bind_stop_eq rdByte_nil⟩
  rcases l with _ | ⟨hm, l⟩
  · left
    refine ⟨.ERR_NOT_ENOUGH_DATA, ?_⟩
    unfold rdContent
    rw [Par.bind_val_eq (rdByte_cons _ _)]
    exact Par.bind_stop_eq rdByte_nil
  cases hm' : HMode.ofByte hm with
  | none =>
    left
    refine ⟨.ERR_HASHMODE_INVALID, ?_⟩
    unfold rdContent
    rw [Par.bind_val_eq (rdByte_cons _ _), Par.bind_val_eq (rdByte_cons _ _)]
    exact Par.bind_stop_eq (by rw [start_new hr, hm'])
  | some m =>
    obtain rfl := HMode.toByte_of_ofByte hm'
    by_cases hf : fm = 1
    · subst hf
      rcases l with _ | ⟨count, l⟩
      · left
        refine ⟨.ERR_NOT_ENOUGH_DATA, ?_⟩
        unfold rdContent
        rw [Par.bind_val_eq (rdByte_cons _ _), Par.bind_val_eq (rdByte_cons _ _),
          Par.bind_val_eq (by rw [start_new hr, hm']), Par.bind_val_eq (by rw [start_mode, if_pos rfl])]
        exact Par.bind_stop_eq rdByte_nil
      · exact .inr ⟨m, count, l, rfl⟩
    · left
      refine ⟨.ERR_FILEMODE_INVALID, ?_⟩
      unfold rdContent
      rw [Par.bind_val_eq (rdByte_cons _ _), Par.bind_val_eq (rdByte_cons _ _),
        Par.bind_val_eq (by rw [start_new hr, hm'])]
      exact Par.bind_stop_eq (by rw [start_mode, if_neg hf])

/-- object before the data blocks -/
def obj0 (m : HMode) (r : Rand) (dec : List DataBlock) (c1 c2 : ChainHash) : DataHeader :=
  obj m none ⟨r.take m.size, m.size⟩ dec [] c1 c2 none

/-- steps after the second chain hash -/
def rdEnd (hs : Hashes) (n : UInt64) (d : DataHeader) : Par (List Byte) DataHeader := do
  let v ← rdList d.hashSize d.hashSize
  let d ← Par.onExn (Par.lift (d.setValidPasswordHashBytes ⟨v, d.hashSize⟩)) catchAll
  let s ← rdList d.hashSize d.hashSize
  let d ← Par.onExn (Par.lift (d.setEncSalt ⟨s, d.hashSize⟩)) catchAll
  let d ← Par.onExn (Par.lift (d.setFileSize n)) (catchInvalid .ERR_FILESIZE_INVALID)
  let ecount ← rdByte rdList
  let d ← rdEncBlocks rdList ecount.toNat d
  Par.onExn (Par.lift (d.calcHeaderBytes! hs (Bytes.empty 0) fun _ => 0)) catchAll

/-- steps after the data blocks -/
def rdChains (hs : Hashes) (n : UInt64) (d : DataHeader) : Par (List Byte) DataHeader := do
  let c1 ← rdChainHash rdList
  let d ← Par.onExn (Par.lift (d.setChainHash1 c1)) (catchInvalidAll .ERR_CHAINHASH1_INVALID)
  let c2 ← rdChainHash rdList
  let d ← Par.onExn (Par.lift (d.setChainHash2 c2)) (catchInvalidAll .ERR_CHAINHASH2_INVALID)
  rdEnd hs n d

theorem rdContent_eq {hs : Hashes} {r : Rand} (hr : r.good = true) (n : UInt64) (m : HMode) (count : Byte) (l : List Byte) :
    rdContent rdList hs r n (1 :: m.toByte :: count :: l) =
      (do let d ← rdBlocks rdList count.toNat (obj0 m r [] ChainHash.default ChainHash.default)
          rdChains hs n d : Par (List Byte) DataHeader) l := by
  unfold rdContent
  rw [Par.bind_val_eq (rdByte_cons _ _), Par.bind_val_eq (rdByte_cons _ _),
    Par.bind_val_eq (by rw [start_new hr, HMode.ofByte_toByte]), Par.bind_val_eq (by rw [start_mode, if_pos rfl]),
    Par.bind_val_eq (rdByte_cons _ _)]
  rfl

/-- the last steps either stop or read a complete header -/
theorem rdEnd_cases {hs : Hashes} {r : Rand} {n : UInt64} {m : HMode} {bs : List (Byte × List Byte)} {c1 c2 : ChainDesc}
    (h1 : c1.Valid) (h2 : c2.Valid) (hb : BlocksOk bs) (hbl : bs.length ≤ 255) (l : List Byte) :
    (∃ c, rdEnd hs n (obj0 m r (bs.map toBlock) (toCH c1) (toCH c2)) l = .ok (.stop c)) ∨
    ∃ v s es data, l = v ++ (s ++ UInt8.ofNat es.length :: (encBytes es ++ data)) ∧
      (Header.mk n.toNat 1 m.toByte bs c1 c2 v s es).Valid ∧
      rdEnd hs n (obj0 m r (bs.map toBlock) (toCH c1) (toCH c2)) l =
        .ok (.val (mkHeader ⟨n.toNat, 1, m.toByte, bs, c1, c2, v, s, es⟩) data) := by
  have hms := m.size_le
  unfold rdEnd obj0
  simp only [obj_hashSize]
  rcases rd_cases m.size m.size (Nat.le_refl _) (by omega) l with h | ⟨v, l, rfl, hv, h⟩
  · exact .inl ⟨_, Par.bind_stop_eq h⟩
  rw [Par.bind_val_eq h, Par.bind_val_eq (Par.onExn_ok (by rw [obj_setValidator (by exact hv), Par.lift_ok]))]
  simp only [obj_hashSize]
  rcases rd_cases m.size m.size (Nat.le_refl _) (by omega) l with h | ⟨s, l, rfl, hs', h⟩
  · exact .inl ⟨_, Par.bind_stop_eq h⟩
  rw [Par.bind_val_eq h, Par.bind_val_eq (Par.onExn_ok (by rw [obj_setSalt (by exact hs'), Par.lift_ok]))]
  by_cases hf : n.toNat < headLen ⟨n.toNat, 1, m.toByte, bs, c1, c2, v, s, []⟩
  · left
    exact ⟨_, Par.bind_stop_eq (Par.onExn_caught (by rw [obj_setFileSize _ h1 h2 hv hs' hb hbl, if_pos hf, Par.lift_exn]) rfl)⟩
  rw [Par.bind_val_eq (Par.onExn_ok (by rw [obj_setFileSize _ h1 h2 hv hs' hb hbl, if_neg hf, Par.lift_ok]))]
  rcases l with _ | ⟨count, l⟩
  · exact .inl ⟨_, Par.bind_stop_eq rdByte_nil⟩
  rw [Par.bind_val_eq (rdByte_cons _ _)]
  have hcount := count.toNat_lt
  rcases rdEncBlocks_cases (m := m) (v := some ⟨v, m.size⟩) (s := ⟨s, m.size⟩) (c1 := toCH c1) (c2 := toCH c2)
    (fs := some n) hb hbl count.toNat [] l (by simp; omega) with h | ⟨es, data, rfl, he, hel, h⟩
  · exact .inl ⟨_, Par.bind_stop_eq h⟩
  rw [List.map_nil, List.nil_append] at h
  rw [Par.bind_val_eq h]
  by_cases hn : n.toNat < (Header.mk n.toNat 1 m.toByte bs c1 c2 v s es).length
  · left
    exact ⟨_, Par.onExn_caught (by
      rw [obj_calc _ h1 hs h2 hv hs' hb hbl he (by omega), if_pos hn, Par.lift_exn]) rfl⟩
  · right
    refine ⟨v, s, es, data, ?_, ?_, ?_⟩
    · rw [hel, UInt8.ofNat_toNat]
    · exact ⟨by simp only; omega, n.toNat_lt, rfl, ofByte_valid (HMode.ofByte_toByte m), hbl, hb, h1, h2,
        by simpa using hv, by simpa using hs', by simp only; omega, he⟩
    · exact Par.onExn_ok (by rw [obj_calc _ h1 hs h2 hv hs' hb hbl he (by omega), if_neg hn, Par.lift_ok])

theorem rdChains_cases {hs : Hashes} {r : Rand} {n : UInt64} {m : HMode} {bs : List (Byte × List Byte)}
    (hb : BlocksOk bs) (hbl : bs.length ≤ 255) (l : List Byte) :
    (∃ c, rdChains hs n (obj0 m r (bs.map toBlock) ChainHash.default ChainHash.default) l = .ok (.stop c)) ∨
    (∃ c1 c2 v s es data, l = c1.bytes ++ (c2.bytes ++ (v ++ (s ++ UInt8.ofNat es.length :: (encBytes es ++ data)))) ∧
      (Header.mk n.toNat 1 m.toByte bs c1 c2 v s es).Valid ∧
      rdChains hs n (obj0 m r (bs.map toBlock) ChainHash.default ChainHash.default) l =
        .ok (.val (mkHeader ⟨n.toNat, 1, m.toByte, bs, c1, c2, v, s, es⟩) data)) ∨
    ((BadChain l ∨ ∃ c : ChainDesc, ∃ rest', l = c.bytes ++ rest' ∧ c.Valid ∧ BadChain rest') ∧
      rdChains hs n (obj0 m r (bs.map toBlock) ChainHash.default ChainHash.default) l = .fatal .abort) := by
  unfold rdChains obj0
  rcases rdChainHash_cases l with ⟨c, h⟩ | ⟨m1, n1, p1, l, rfl, hb1, h⟩ | ⟨hbad, h⟩
  · exact .inl ⟨_, Par.bind_stop_eq h⟩
  case inr.inr => exact .inr (.inr ⟨.inl hbad, Par.bind_fatal_eq h⟩)
  rw [Par.bind_val_eq h]
  by_cases hv1 : (ChainDesc.mk m1.toByte n1.toNat p1).Valid
  case neg =>
    exact .inl ⟨_, Par.bind_stop_eq (Par.onExn_caught (by rw [obj_setCh1 hb1, if_neg hv1, Par.lift_exn]) rfl)⟩
  rw [Par.bind_val_eq (Par.onExn_ok (by rw [obj_setCh1 hb1, if_pos hv1, Par.lift_ok]))]
  rcases rdChainHash_cases l with ⟨c, h⟩ | ⟨m2, n2, p2, l, rfl, hb2, h⟩ | ⟨hbad, h⟩
  · exact .inl ⟨_, Par.bind_stop_eq h⟩
  case inr.inr => exact .inr (.inr ⟨.inr ⟨_, _, rfl, hv1, hbad⟩, Par.bind_fatal_eq h⟩)
  rw [Par.bind_val_eq h]
  by_cases hv2 : (ChainDesc.mk m2.toByte n2.toNat p2).Valid
  case neg =>
    exact .inl ⟨_, Par.bind_stop_eq (Par.onExn_caught (by rw [obj_setCh2 hb2, if_neg hv2, Par.lift_exn]) rfl)⟩
  rw [Par.bind_val_eq (Par.onExn_ok (by rw [obj_setCh2 hb2, if_pos hv2, Par.lift_ok]))]
  rcases rdEnd_cases (hs := hs) (r := r) (n := n) (m := m) hv1 hv2 hb hbl l with ⟨c, h⟩ | ⟨v, s, es, data, rfl, hv, h⟩
  · exact .inl ⟨c, h⟩
  · exact .inr (.inl ⟨_, _, v, s, es, data, rfl, hv, h⟩)

/-- what follows the size fields: everything that can happen -/
theorem rdContent_cases {hs : Hashes} {r : Rand} (hr : r.good = true) (n : UInt64) (l : List Byte) :
    (∃ c, rdContent rdList hs r n l = .ok (.stop c)) ∨
    (∃ (h : Header) (data : List Byte), h.Valid ∧ h.fileSize = n.toNat ∧ l = h.content ++ data ∧
      rdContent rdList hs r n l = .ok (.val (mkHeader h) data)) ∨
    (∃ m : HMode, ∃ count bs t rest, l = 1 :: m.toByte :: count :: (blockBytes bs ++ t :: 0 :: rest) ∧ BlocksOk bs ∧
      bs.length < count.toNat ∧ rdContent rdList hs r n l = .exn .invalidArgument) ∨
    (∃ m : HMode, ∃ count bs rest, l = 1 :: m.toByte :: count :: (blockBytes bs ++ rest) ∧ BlocksOk bs ∧
      bs.length = count.toNat ∧
      (BadChain rest ∨ ∃ c : ChainDesc, ∃ rest', rest = c.bytes ++ rest' ∧ c.Valid ∧ BadChain rest') ∧
      rdContent rdList hs r n l = .fatal .abort) := by
  rcases rdContent_start (hs := hs) hr n l with ⟨c, h⟩ | ⟨m, count, l, rfl⟩
  · exact .inl ⟨c, h⟩
  rw [rdContent_eq hr]
  have hcount := count.toNat_lt
  rcases rdBlocks_cases (m := m) (v := none) (s := ⟨r.take m.size, m.size⟩) (enc := []) (c1 := ChainHash.default)
    (c2 := ChainHash.default) (fs := none) (by simp) count.toNat [] l (by simp [BlocksOk]) (by simp; omega) with
    h | ⟨bs, l, rfl, hb, hbl, h⟩ | ⟨bs, t, l, rfl, hb, hbl, h⟩
  · exact .inl ⟨_, Par.bind_stop_eq h⟩
  case inr.inr => exact .inr (.inr (.inl ⟨m, count, bs, t, l, rfl, hb, hbl, Par.bind_exn_eq h⟩))
  rw [List.map_nil, List.nil_append] at h
  rw [obj0, Par.bind_val_eq h]
  rcases rdChains_cases (hs := hs) (r := r) (n := n) (m := m) hb (by omega) l with
    ⟨c, h⟩ | ⟨c1, c2, v, s, es, data, rfl, hv, h⟩ | ⟨hbad, h⟩
  · exact .inl ⟨c, h⟩
  · refine .inr (.inl ⟨⟨n.toNat, 1, m.toByte, bs, c1, c2, v, s, es⟩, data, hv, rfl, ?_, h⟩)
    simp [Header.content, hbl]
  · exact .inr (.inr (.inr ⟨m, count, bs, l, rfl, hb, hbl, hbad, h⟩))

/-! the two ways to be killed inside the content -/

theorem rdContent_zero {hs : Hashes} {r : Rand} (hr : r.good = true) (n : UInt64) (m : HMode) (count : Byte)
    (bs : List (Byte × List Byte)) (t : Byte) (rest : List Byte) (hb : BlocksOk bs) (hl : bs.length < count.toNat) :
    rdContent rdList hs r n (1 :: m.toByte :: count :: (blockBytes bs ++ t :: 0 :: rest)) = .exn .invalidArgument := by
  rw [rdContent_eq hr]
  have hcount := count.toNat_lt
  obtain ⟨k, hk⟩ : ∃ k, count.toNat = bs.length + (k + 1) := ⟨count.toNat - bs.length - 1, by omega⟩
  have := rdBlocks_append (m := m) (v := none) (s := ⟨r.take m.size, m.size⟩) (enc := []) (c1 := ChainHash.default)
    (c2 := ChainHash.default) (fs := none) (by simp) bs [] (k + 1) (t :: 0 :: rest) hb (by simp [BlocksOk]) (by simp; omega)
  rw [List.map_nil, rdBlocks_zero] at this
  rw [obj0, hk]
  exact Par.bind_exn_eq this

theorem rdContent_bad {hs : Hashes} {r : Rand} (hr : r.good = true) (n : UInt64) (m : HMode) (count : Byte)
    (bs : List (Byte × List Byte)) (rest : List Byte) (hb : BlocksOk bs) (hl : bs.length = count.toNat)
    (hbad : BadChain rest ∨ ∃ c : ChainDesc, ∃ rest', rest = c.bytes ++ rest' ∧ c.Valid ∧ BadChain rest') :
    rdContent rdList hs r n (1 :: m.toByte :: count :: (blockBytes bs ++ rest)) = .fatal .abort := by
  rw [rdContent_eq hr]
  have hcount := count.toNat_lt
  have := rdBlocks_append (m := m) (v := none) (s := ⟨r.take m.size, m.size⟩) (enc := []) (c1 := ChainHash.default)
    (c2 := ChainHash.default) (fs := none) (by simp) bs [] 0 rest hb (by simp [BlocksOk]) (by simp; omega)
  rw [List.map_nil, Nat.add_zero, List.nil_append, rdBlocks, Par.pure_apply] at this
  rw [obj0, ← hl, Par.bind_val_eq this]
  unfold rdChains
  rcases hbad with hbad | ⟨c, rest, rfl, hc, hbad⟩
  · exact Par.bind_fatal_eq (rdChainHash_bad hbad)
  · obtain ⟨m1, n1, e1, -, -, -, hb1⟩ := desc_typed hc
    have k1 := rdChainHash_append m1 n1 c.block rest hb1
    rw [← e1] at k1
    rw [Par.bind_val_eq k1, Par.bind_val_eq (Par.onExn_ok (by rw [obj_setCh1 hb1, ← e1, if_pos hc, Par.lift_ok]))]
    exact Par.bind_fatal_eq (rdChainHash_bad hbad)

/-! ### the whole parser -/

theorem mkHeader_inv {h : Header} (hv : h.Valid) : DHInv (mkHeader h) ∧ (mkHeader h).isComplete = true := by
  obtain ⟨m, hm, hm'⟩ := valid_hmode hv.hashMode
  have hvl := hv.validator
  have hsl := hv.salt
  rw [← hm', digestSize_toByte] at hvl hsl
  have hi : DHInv (obj m (some ⟨h.validator, m.size⟩) ⟨h.salt, m.size⟩ (h.blocks.map toBlock)
      (h.encBlocks.map toEnc) (toCH h.ch1) (toCH h.ch2) (some (UInt64.ofNat h.fileSize))) :=
    obj_inv (by intro x hx; cases hx; exact hvl) hsl hv.blockLen hv.blockCount hv.encLen hv.encCount
      (.inr (toCH_good hv.ch1)) (.inr (toCH_good hv.ch2))
  have hc : (mkHeader h).isComplete = true := by
    rw [mkHeader, hm]
    exact obj_complete (fs := some (UInt64.ofNat h.fileSize)) (toCH_good hv.ch1) (toCH_good hv.ch2)
  refine ⟨?_, hc⟩
  have e := contents_mkHeader hv
  have hb : (mkHeader h).headerBytes.data = (mkHeader h).contents.bytes := by rw [e]; rfl
  have hb' := DHInv.base hi
  have : DHBase (mkHeader h) := by
    rw [mkHeader, hm]
    exact ⟨hb'.hm, hb'.fm, hb'.validator, hb'.salt, hb'.ch1, hb'.ch2, hb'.decCount, hb'.decLen, hb'.encCount, hb'.encLen,
      hb'.blen⟩
  exact this.inv (.inr ⟨hc, rfl, hb⟩)

theorem mkHeader_length {h : Header} (hv : h.Valid) : (mkHeader h).getHeaderLength = .ok h.length := by
  obtain ⟨hi, hc⟩ := mkHeader_inv hv
  obtain ⟨h1, h2, -⟩ := complete_parts hi hc
  rw [(headerLength_good hi h1 h2).1, contents_mkHeader hv]

theorem valid_length {h : Header} (hv : h.Valid) : h.content.length + 16 = h.length :=
  length_content h hv.validator hv.salt hv.encLen

/-- the last checks -/
def rdFinish (total : Nat) (k : UInt64) (d : DataHeader) : Par (List Byte) DataHeader := fun s => Par.lift (do
  let l ← d.getHeaderLength
  Res.assert (total - s.length == l)
  Res.assert (l == k.toNat)
  .ok d) s

/-- the steps after the size fields -/
theorem rdHeader_sizes {hs : Hashes} {r : Rand} (n k : UInt64) (l : List Byte) (start : List Byte)
    (hst : start = num8 n.toNat ++ (num8 k.toNat ++ l)) :
    rdHeader rdList List.length hs r start =
      if start.length ≠ n.toNat then .ok (.stop .ERR_FILESIZE_INVALID)
      else if k > n then .ok (.stop .ERR_HEADERSIZE_FILESIZE_MISMATCH)
      else (rdContent rdList hs r n >>= rdFinish start.length k) l := by
  unfold rdHeader
  have e1 : rdLong rdList start = .ok (.val n (num8 k.toNat ++ l)) := by
    rw [hst, rdLong_append n.toNat_lt, UInt64.ofNat_toNat]
  have e2 : rdLong rdList (num8 k.toNat ++ l) = .ok (.val k l) := by
    rw [rdLong_append k.toNat_lt, UInt64.ofNat_toNat]
  rw [Par.bind_val_eq e1, Par.bind_val_eq e2]
  split
  · rfl
  · split <;> rfl

/-- everything that can happen when a header is parsed -/
theorem rdHeader_cases {hs : Hashes} {r : Rand} (hr : r.good = true) (l : List Byte) :
    (∃ c, rdHeader rdList List.length hs r l = .ok (.stop c)) ∨
    (∃ (h : Header) (data : List Byte), h.Valid ∧ h.fileSize = l.length ∧ l = h.bytes ++ data ∧
      rdHeader rdList List.length hs r l = .ok (.val (mkHeader h) data)) ∨
    (ZeroBlock l ∧ rdHeader rdList List.length hs r l = .exn .invalidArgument) ∨
    ((WrongChainLength l ∨ WrongHeaderSize l) ∧ rdHeader rdList List.length hs r l = .fatal .abort) := by
  rcases rdLong_cases l with h | ⟨n, l1, hl1, h1⟩
  · left; exact ⟨_, Par.bind_stop_eq h⟩
  rcases rdLong_cases l1 with h | ⟨k, l2, hl2, -⟩
  · left
    refine ⟨.ERR_NOT_ENOUGH_DATA, ?_⟩
    unfold rdHeader
    rw [Par.bind_val_eq h1]
    exact Par.bind_stop_eq h
  subst hl2
  rw [rdHeader_sizes n k l2 l hl1]
  by_cases hn : l.length ≠ n.toNat
  · rw [if_pos hn]; exact .inl ⟨_, rfl⟩
  rw [if_neg hn]
  have hn : l.length = n.toNat := Classical.byContradiction hn
  by_cases hk : k > n
  · rw [if_pos hk]; exact .inl ⟨_, rfl⟩
  rw [if_neg hk]
  have hk' : k.toNat ≤ l.length := by
    rw [hn]
    rw [gt_iff_lt, UInt64.lt_iff_toNat_lt] at hk
    omega
  rcases rdContent_cases (hs := hs) hr n l2 with ⟨c, h⟩ | ⟨h, data, hv, hfs, rfl, e⟩ | ⟨m, count, bs, t, rest, rfl, hb, hbl, e⟩ |
    ⟨m, count, bs, rest, rfl, hb, hbl, hbad, e⟩
  · exact .inl ⟨c, Par.bind_stop_eq h⟩
  · have hlen := valid_length hv
    rw [Par.bind_val_eq e, rdFinish, mkHeader_length hv, Res.bind_ok]
    have e1 : Res.assert (l.length - data.length == h.length) = .ok () := by
      have : l.length = 16 + h.content.length + data.length := by rw [hl1]; simp; omega
      have : (l.length - data.length == h.length) = true := by rw [beq_iff_eq]; omega
      rw [this]; rfl
    rw [e1, Res.bind_ok]
    by_cases hkk : h.length = k.toNat
    · refine .inr (.inl ⟨h, data, hv, by rw [hfs, hn], ?_, ?_⟩)
      · rw [hl1, Header.bytes, hfs, hkk]; simp
      · have : (h.length == k.toNat) = true := by rw [beq_iff_eq]; exact hkk
        rw [this]; rfl
    · refine .inr (.inr (.inr ⟨.inr ⟨h, k.toNat, data, hv, by rw [hfs, hn], ?_, hk', fun e => hkk e.symm⟩, ?_⟩))
      · rw [hn]; exact hl1
      · have : (h.length == k.toNat) = false := by rw [beq_eq_false_iff_ne]; exact hkk
        rw [this]; rfl
  · refine .inr (.inr (.inl ⟨⟨k.toNat, m.toByte, count, bs, t, rest, ⟨?_, hk', ofByte_valid (HMode.ofByte_toByte m), ?_, hb⟩,
      hbl⟩, Par.bind_exn_eq e⟩))
    · rw [hn]; exact hl1
    · omega
  · refine .inr (.inr (.inr ⟨.inl ⟨k.toNat, m.toByte, count, bs, rest, ⟨?_, hk', ofByte_valid (HMode.ofByte_toByte m), ?_, hb⟩,
      hbl, hbad⟩, Par.bind_fatal_eq e⟩))
    · rw [hn]; exact hl1
    · omega

theorem ofNat_toNat64 {n : Nat} (h : n < 2 ^ 64) : (UInt64.ofNat n).toNat = n := by
  rw [UInt64.toNat_ofNat', Nat.mod_eq_of_lt h]

/-- parsing a proper header -/
theorem rdHeader_append {hs : Hashes} {r : Rand} (hr : r.good = true) {h : Header} (hv : h.Valid) (data : List Byte)
    (hsz : h.fileSize = h.length + data.length) :
    rdHeader rdList List.length hs r (h.bytes ++ data) = .ok (.val (mkHeader h) data) := by
  have hlen := valid_length hv
  have h64 := hv.size64
  have hfs := ofNat_toNat64 h64
  have hl := ofNat_toNat64 (n := h.length) (by have := hv.size; omega)
  have hb : (h.bytes ++ data).length = h.fileSize := by
    rw [List.length_append, length_bytes h hv.validator hv.salt hv.encLen, hsz]
  rw [rdHeader_sizes (UInt64.ofNat h.fileSize) (UInt64.ofNat h.length) (h.content ++ data) _
    (by rw [hfs, hl, Header.bytes]; simp)]
  rw [if_neg (by rw [hfs, hb]; simp), if_neg (by
    rw [gt_iff_lt, UInt64.lt_iff_toNat_lt, hfs, hl]; have := hv.size; omega),
    Par.bind_val_eq (rdContent_append hr hv data), rdFinish, mkHeader_length hv, Res.bind_ok]
  have e1 : ((h.bytes ++ data).length - data.length == h.length) = true := by
    rw [beq_iff_eq, List.length_append, length_bytes h hv.validator hv.salt hv.encLen]; omega
  have e2 : (h.length == (UInt64.ofNat h.length).toNat) = true := by rw [beq_iff_eq, hl]
  rw [e1, e2]; rfl

theorem length_lt64 {l : List Byte} {rest : List Byte} (_h : l = num8 l.length ++ rest) (hl : l.length < 2 ^ 64) :
    (UInt64.ofNat l.length).toNat = l.length := ofNat_toNat64 hl

theorem start_mode' {b : Byte} (h : b = 1 ∨ b = 2 ∨ b = 3) : ∃ m : HMode, m.toByte = b := by
  obtain ⟨m, -, h⟩ := valid_hmode h; exact ⟨m, h⟩

theorem rdHeader_zero {hs : Hashes} {r : Rand} (hr : r.good = true) {l : List Byte} (hl : l.length < 2 ^ 64)
    (h : ZeroBlock l) : rdHeader rdList List.length hs r l = .exn .invalidArgument := by
  obtain ⟨hsize, hmode, count, bs, t, rest, ⟨eq, hk, hm, hnum, hb⟩, hlt⟩ := h
  obtain ⟨m, rfl⟩ := start_mode' hm
  have e1 := ofNat_toNat64 hl
  have e2 := ofNat_toNat64 (n := hsize) (by omega)
  rw [rdHeader_sizes (UInt64.ofNat l.length) (UInt64.ofNat hsize) _ l (by rw [e1, e2]; exact eq),
    if_neg (by rw [e1]; simp), if_neg (by rw [gt_iff_lt, UInt64.lt_iff_toNat_lt, e1, e2]; omega)]
  exact Par.bind_exn_eq (rdContent_zero hr _ m count bs t rest hb hlt)

theorem rdHeader_chain {hs : Hashes} {r : Rand} (hr : r.good = true) {l : List Byte} (hl : l.length < 2 ^ 64)
    (h : WrongChainLength l) : rdHeader rdList List.length hs r l = .fatal .abort := by
  obtain ⟨hsize, hmode, count, bs, rest, ⟨eq, hk, hm, hnum, hb⟩, hlt, hbad⟩ := h
  obtain ⟨m, rfl⟩ := start_mode' hm
  have e1 := ofNat_toNat64 hl
  have e2 := ofNat_toNat64 (n := hsize) (by omega)
  rw [rdHeader_sizes (UInt64.ofNat l.length) (UInt64.ofNat hsize) _ l (by rw [e1, e2]; exact eq),
    if_neg (by rw [e1]; simp), if_neg (by rw [gt_iff_lt, UInt64.lt_iff_toNat_lt, e1, e2]; omega)]
  exact Par.bind_fatal_eq (rdContent_bad hr _ m count bs rest hb hlt hbad)

theorem rdHeader_size {hs : Hashes} {r : Rand} (hr : r.good = true) {l : List Byte} (hl : l.length < 2 ^ 64)
    (h : WrongHeaderSize l) : rdHeader rdList List.length hs r l = .fatal .abort := by
  obtain ⟨h, hsize, data, hv, hfs, eq, hk, hne⟩ := h
  have e1 := ofNat_toNat64 hl
  have e2 := ofNat_toNat64 (n := hsize) (by omega)
  have hlen := valid_length hv
  rw [rdHeader_sizes (UInt64.ofNat l.length) (UInt64.ofNat hsize) _ l (by rw [e1, e2]; exact eq),
    if_neg (by rw [e1]; simp), if_neg (by rw [gt_iff_lt, UInt64.lt_iff_toNat_lt, e1, e2]; omega), ← hfs,
    Par.bind_val_eq (rdContent_append hr hv data), rdFinish, mkHeader_length hv, Res.bind_ok]
  have : l.length = 16 + h.content.length + data.length := by
    rw [eq]; simp only [List.length_append, length_num8]; omega
  have b1 : (h.fileSize - data.length == h.length) = true := by rw [beq_iff_eq]; omega
  have b2 : (h.length == (UInt64.ofNat hsize).toNat) = false := by
    rw [beq_eq_false_iff_ne, e2]; exact fun e => hne e.symm
  rw [b1, b2]; rfl

/-! ### streams -/

/-- the stream parser in terms of the bytes in the stream -/
theorem setHeaderStream_eq (hs : Hashes) (r : Rand) (s : IStream) (he : s.eof = false) :
    SimR (setHeaderStream hs r s) (Res.noexcept (rdHeader rdList List.length hs r s.rest)) := by
  have h := sim_rdHeader hs r s he
  unfold setHeaderStream
  cases hq : rdHeader rdList List.length hs r s.rest with
  | ok x =>
    rw [hq] at h
    cases x with
    | val a l =>
      obtain ⟨s', h1, h2, h3⟩ := h
      rw [h1]; exact ⟨s', rfl, h2, h3⟩
    | stop c =>
      simp only [SimR] at h
      rw [h]; rfl
  | exn e =>
    rw [hq] at h
    simp only [SimR] at h
    rw [h]; rfl
  | fatal f =>
    rw [hq] at h
    simp only [SimR] at h
    rw [h]; rfl

end HeaderParse
end Verif
