import Verif.Spec.HeaderView
import Verif.Lemmas.ChainHash

namespace Verif
open Spec

/-! ### numbers -/

theorem num8_toNat (n : UInt64) : num8 n.toNat = be8 n := by
  simp [num8, be8_eq, Bytes.beByte]

@[simp] theorem length_num8 (n : Nat) : (num8 n).length = 8 := rfl

theorem num8_ofNat {n : Nat} (h : n < 2 ^ 64) : be8 (UInt64.ofNat n) = num8 n := by
  rw [← num8_toNat, UInt64.toNat_ofNat', Nat.mod_eq_of_lt h]

@[simp] theorem HMode.ofByte_toByte (m : HMode) : HMode.ofByte m.toByte = some m := by cases m <;> rfl

theorem HMode.toByte_of_ofByte {b : Byte} {m : HMode} (h : HMode.ofByte b = some m) : m.toByte = b := by
  unfold HMode.ofByte at h
  repeat' split at h
  all_goals first
    | (cases h; subst_vars; rfl)
    | cases h

@[simp] theorem digestSize_toByte (m : HMode) : digestSize m.toByte = m.size := by cases m <;> rfl

theorem HMode.size_le (m : HMode) : m.size ≤ 64 := by cases m <;> decide
theorem HMode.size_pos (m : HMode) : 32 ≤ m.size := by cases m <;> decide

/-! ### chain hashes held by a header -/

/-- a valid chain hash with the given description -/
def mkCH (m : CHMode) (n : UInt64) (block : List Byte) : ChainHash :=
  ⟨some m, some ⟨m, ⟨block, 255⟩, m.nameLens.length⟩, n, true⟩

/-- chain hashes that are valid -/
def ChainHash.Good (c : ChainHash) : Prop :=
  ∃ m n block, blockLenOk m.num block.length = true ∧ 0 < n.toNat ∧ n.toNat ≤ maxIterations ∧ c = mkCH m n block

/-- chain hashes the public operations can produce -/
def ChainHash.Obtainable (c : ChainHash) : Prop :=
  c = ChainHash.default ∨ ∃ m n od, (∀ d, od = some d → ChainHashData.Reach d) ∧ c = ChainHash.make m n od

theorem blockLenOk_le {m n : Nat} (h : blockLenOk m n = true) : n ≤ 255 := by
  unfold blockLenOk at h
  split at h <;> simp at h <;> omega

theorem ChainHash.Obtainable.good {c : ChainHash} (h : c.Obtainable) (hv : c.val = true) : c.Good := by
  rcases h with rfl | ⟨m, n, od, hd, rfl⟩
  · cases hv
  · cases od with
    | none => simp [ChainHash.make, chainHashValid] at hv
    | some d =>
      obtain ⟨rfl, h1, h2, acc, h3, h4, h5⟩ := valid_parts (hd d rfl) hv
      have hok := blockLenOk_of_parts h3 h5
      refine ⟨d.mode, n, acc.flatten, hok, h1, h2, ?_⟩
      have e : d = ⟨d.mode, ⟨acc.flatten, 255⟩, d.mode.nameLens.length⟩ := by
        rw [h4]; simp [holding, nameLens_eq, h5]
      simp only [ChainHash.make] at hv ⊢
      rw [hv, mkCH, ← e]

theorem mkCH_valid (m : CHMode) (n : UInt64) (block : List Byte) (h1 : 0 < n.toNat) (h2 : n.toNat ≤ maxIterations) :
    chainHashValid (some m) (some ⟨m, ⟨block, 255⟩, m.nameLens.length⟩) n = true := by
  simp [chainHashValid, h1, h2, ChainHashData.isCompletedFormat, ChainHashData.isComplete]

theorem mkCH_eq_make {m : CHMode} {n : UInt64} {block : List Byte} (h1 : 0 < n.toNat) (h2 : n.toNat ≤ maxIterations) :
    ChainHash.make m n (some ⟨m, ⟨block, 255⟩, m.nameLens.length⟩) = mkCH m n block := by
  simp only [ChainHash.make, mkCH_valid m n block h1 h2, mkCH]

theorem ChainHash.Good.val {c : ChainHash} (h : c.Good) : c.val = true := by
  obtain ⟨m, n, b, -, -, -, rfl⟩ := h; rfl

theorem ChainHash.Good.assign {c : ChainHash} (h : c.Good) : c.assign = .ok c := by
  obtain ⟨m, n, b, -, h1, h2, rfl⟩ := h
  simp only [ChainHash.assign, mkCH, ChainHash.getMode, ChainHash.getIters]
  simp only [Bool.not_true, Bool.false_eq_true, if_false, Res.bind_ok]
  exact congrArg Res.ok (mkCH_eq_make h1 h2)

theorem ChainHash.Good.desc_valid {c : ChainHash} (h : c.Good) : c.desc.Valid := by
  obtain ⟨m, n, b, h0, h1, h2, rfl⟩ := h
  exact ⟨h1, h2, h0⟩

theorem ChainHash.Good.getData {c : ChainHash} (h : c.Good) :
    ∃ d, c.getData = .ok d ∧ d.getLen = c.desc.block.length := by
  obtain ⟨m, n, b, h0, h1, h2, rfl⟩ := h
  refine ⟨_, rfl, ?_⟩
  have := blockLenOk_le h0
  simp only [ChainHashData.getLen, Bytes.len, ChainHash.desc, mkCH]
  omega

/-! ### writing -/

theorem Bytes.addByte_room (pre : List Byte) (cap : Nat) (x : Byte) (h : pre.length + 1 ≤ cap) :
    Bytes.addByte ⟨pre, cap⟩ x = .ok ⟨pre ++ [x], cap⟩ := by
  unfold Bytes.addByte; rw [if_neg (by simp only; omega)]

theorem Bytes.addcopy_room (b : Bytes) (pre : List Byte) (cap : Nat) (h : pre.length + b.data.length ≤ cap) :
    b.addcopyToBytes ⟨pre, cap⟩ = .ok ⟨pre ++ b.data, cap⟩ := by
  unfold Bytes.addcopyToBytes; rw [if_neg (by simp only; omega)]

theorem writeBlocks_eq (xs : List DataBlock) : ∀ (pre : List Byte) (cap : Nat),
    pre.length + (blockBytes (xs.map fun b => (b.type, b.data.data))).length ≤ cap →
    DataHeader.writeBlocks xs ⟨pre, cap⟩ = .ok ⟨pre ++ blockBytes (xs.map fun b => (b.type, b.data.data)), cap⟩ := by
  induction xs with
  | nil => intro pre cap _; simp [DataHeader.writeBlocks, blockBytes]
  | cons x xs ih =>
    intro pre cap h
    have e : blockBytes ((x :: xs).map fun b => (b.type, b.data.data)) =
        [x.type] ++ ([UInt8.ofNat x.data.len] ++ (x.data.data ++ blockBytes (xs.map fun b => (b.type, b.data.data)))) := by
      simp [blockBytes, Bytes.len]
    rw [e] at h ⊢
    simp only [List.length_append, List.length_cons, List.length_nil] at h
    rw [DataHeader.writeBlocks, Bytes.addByte_room _ _ _ (by omega), Res.bind_ok,
      Bytes.addByte_room _ _ _ (by simp; omega), Res.bind_ok, Bytes.addcopy_room _ _ _ (by simp; omega), Res.bind_ok,
      ih _ _ (by simp only [List.length_append, List.length_cons, List.length_nil]; omega)]
    simp

theorem writeEncBlocks_eq (xs : List EncDataBlock) : ∀ (pre : List Byte) (cap : Nat),
    pre.length + (encBytes (xs.map fun b => (b.block.type, b.encLen, b.block.data.data))).length ≤ cap →
    DataHeader.writeEncBlocks xs ⟨pre, cap⟩ =
      .ok ⟨pre ++ encBytes (xs.map fun b => (b.block.type, b.encLen, b.block.data.data)), cap⟩ := by
  induction xs with
  | nil => intro pre cap _; simp [DataHeader.writeEncBlocks, encBytes]
  | cons x xs ih =>
    intro pre cap h
    have e : encBytes ((x :: xs).map fun b => (b.block.type, b.encLen, b.block.data.data)) =
        [x.block.type] ++ ([x.encLen] ++ (x.block.data.data ++
          encBytes (xs.map fun b => (b.block.type, b.encLen, b.block.data.data)))) := by
      simp [encBytes]
    rw [e] at h ⊢
    simp only [List.length_append, List.length_cons, List.length_nil] at h
    rw [DataHeader.writeEncBlocks, EncDataBlock.getEncType, EncDataBlock.getEncLen, EncDataBlock.getEnc,
      Bytes.addByte_room _ _ _ (by omega), Res.bind_ok,
      Bytes.addByte_room _ _ _ (by simp; omega), Res.bind_ok, Bytes.addcopy_room _ _ _ (by simp; omega), Res.bind_ok,
      ih _ _ (by simp only [List.length_append, List.length_cons, List.length_nil]; omega)]
    simp

theorem length_chainBytes (c : ChainDesc) : c.bytes.length = 10 + c.block.length := by
  simp [ChainDesc.bytes]; omega

theorem writeChainHash_eq {c : ChainHash} (hc : c.Good) (pre : List Byte) (cap : Nat)
    (h : pre.length + c.desc.bytes.length ≤ cap) :
    DataHeader.writeChainHash c ⟨pre, cap⟩ = .ok ⟨pre ++ c.desc.bytes, cap⟩ := by
  obtain ⟨m, n, b, h0, h1, h2, rfl⟩ := hc
  have hb := blockLenOk_le h0
  rw [length_chainBytes] at h
  simp only [ChainHash.desc, mkCH] at h
  have g1 : (mkCH m n b).getMode = .ok m := rfl
  have g2 : (mkCH m n b).getIters = .ok n := rfl
  have g3 : (mkCH m n b).getData = .ok ⟨m, ⟨b, 255⟩, m.nameLens.length⟩ := rfl
  have g4 : (ChainHashData.mk m ⟨b, 255⟩ m.nameLens.length).getDataBlock = .ok ⟨b, 255⟩ := by
    simp [ChainHashData.getDataBlock, ChainHashData.isComplete]
  have g5 : (ChainHashData.mk m ⟨b, 255⟩ m.nameLens.length).getLen = b.length := by
    simp only [ChainHashData.getLen, Bytes.len]; omega
  have e : (mkCH m n b).desc.bytes = [m.toByte] ++ (be8 n ++ ([UInt8.ofNat b.length] ++ b)) := by
    simp [ChainDesc.bytes, ChainHash.desc, mkCH, num8_toNat]
  rw [e]
  simp only [DataHeader.writeChainHash, g1, g2, g3, Res.bind_ok, fromLong_true, g4, g5]
  rw [Bytes.addByte_room _ _ _ (by omega), Res.bind_ok, Bytes.addcopy_room _ _ _ (by simp; omega), Res.bind_ok,
    Bytes.addByte_room _ _ _ (by simp; omega), Res.bind_ok, Bytes.addcopy_room _ _ _ (by simp; omega)]
  simp

theorem length_blockBytes (bs : List (Byte × List Byte)) :
    (blockBytes bs).length = 2 * bs.length + (bs.map fun b => b.2.length).sum := by
  induction bs with
  | nil => rfl
  | cons b bs ih =>
    simp only [blockBytes, List.flatMap_cons, List.length_append, List.length_cons, List.map_cons, List.sum_cons] at ih ⊢
    omega

theorem length_encBytes (bs : List (Byte × Byte × List Byte)) (h : ∀ b ∈ bs, b.2.2.length = 255) :
    (encBytes bs).length = 257 * bs.length := by
  induction bs with
  | nil => rfl
  | cons b bs ih =>
    have h1 := h b (by simp)
    have h2 := ih (fun x hx => h x (by simp [hx]))
    simp only [encBytes, List.flatMap_cons, List.length_append, List.length_cons] at h2 ⊢
    omega

theorem length_content (h : Header) (hv : h.validator.length = digestSize h.hashMode)
    (hs : h.salt.length = digestSize h.hashMode) (he : ∀ b ∈ h.encBlocks, b.2.2.length = 255) :
    h.content.length + 16 = h.length := by
  simp only [Header.content, Header.length, List.length_cons, List.length_append, length_chainBytes, length_blockBytes,
    length_encBytes _ he, hv, hs]
  omega

theorem length_bytes (h : Header) (hv : h.validator.length = digestSize h.hashMode)
    (hs : h.salt.length = digestSize h.hashMode) (he : ∀ b ∈ h.encBlocks, b.2.2.length = 255) :
    h.bytes.length = h.length := by
  have := length_content h hv hs he
  simp only [Header.bytes, List.length_append, length_num8]
  omega

/-! ### the invariant of header objects -/

/-- facts that hold for every header object -/
structure DHInv (d : DataHeader) : Prop where
  hm : ∃ m, d.dh.hashMode = some m ∧ d.hashSize = m.size
  fm : d.dh.fileMode = none ∨ d.dh.fileMode = some 1
  validator : ∀ v, d.dh.validator = some v → v.data.length = d.hashSize
  salt : ∃ s, d.dh.encSalt = some s ∧ s.data.length = d.hashSize
  ch1 : d.dh.ch1 = ChainHash.default ∨ d.dh.ch1.Good
  ch2 : d.dh.ch2 = ChainHash.default ∨ d.dh.ch2.Good
  decCount : d.dh.dec.length ≤ 255
  decLen : ∀ b ∈ d.dh.dec, b.data.data.length ≤ 255
  encCount : d.dh.enc.length ≤ 255
  encLen : ∀ b ∈ d.dh.enc, b.block.data.data.length = 255
  blen : d.blocksLen = 2 * d.dh.dec.length + (d.dh.dec.map fun b => b.data.data.length).sum + 257 * d.dh.enc.length
  bytes : d.headerBytes.data = [] ∨
    (d.isComplete = true ∧ d.fileSize.isSome = true ∧ d.headerBytes.data = d.contents.bytes)

theorem sum_le (l : List Nat) (h : ∀ x ∈ l, x ≤ 255) : l.sum ≤ 255 * l.length := by
  induction l with
  | nil => simp
  | cons a l ih =>
    have := h a (by simp)
    have := ih (fun x hx => h x (by simp [hx]))
    simp only [List.sum_cons, List.length_cons]; omega

theorem DHInv.blen_le {d : DataHeader} (h : DHInv d) : d.blocksLen ≤ 131070 := by
  have h1 := h.blen
  have h2 := sum_le (d.dh.dec.map fun b => b.data.data.length) (by
    intro x hx
    obtain ⟨b, hb, rfl⟩ := List.mem_map.mp hx
    exact h.decLen b hb)
  have h3 := h.decCount
  have h4 := h.encCount
  simp only [List.length_map] at h2
  omega

theorem complete_parts {d : DataHeader} (h : DHInv d) (hc : d.isComplete = true) :
    d.dh.ch1.Good ∧ d.dh.ch2.Good ∧ d.dh.fileMode = some 1 ∧
      ∃ v, d.dh.validator = some v ∧ v.data.length = d.hashSize := by
  simp only [DataHeader.isComplete, DataHeaderParts.isComplete, Bool.and_eq_true] at hc
  obtain ⟨⟨⟨⟨⟨h1, h2⟩, h3⟩, h4⟩, h5⟩, h6⟩ := hc
  refine ⟨?_, ?_, ?_, ?_⟩
  · rcases h.ch1 with e | e
    · rw [e] at h1; cases h1
    · exact e
  · rcases h.ch2 with e | e
    · rw [e] at h2; cases h2
    · exact e
  · rcases h.fm with e | e
    · rw [e] at h4; cases h4
    · exact e
  · cases hv : d.dh.validator with
    | none => rw [hv] at h3; cases h3
    | some v => exact ⟨v, rfl, h.validator v hv⟩

theorem complete_iff {d : DataHeader} (h : DHInv d) :
    d.isComplete = true ↔ d.dh.ch1.val = true ∧ d.dh.ch2.val = true ∧ d.dh.validator.isSome = true ∧
      d.dh.fileMode.isSome = true := by
  obtain ⟨m, hm, hs⟩ := h.hm
  obtain ⟨s, hs1, -⟩ := h.salt
  simp only [DataHeader.isComplete, DataHeaderParts.isComplete, hm, hs, hs1, BEq.rfl, Bool.and_true, Option.isSome_some,
    Bool.and_eq_true, and_assoc]

/-- the length query of an object with both chain hashes set -/
theorem headerLength_good {d : DataHeader} (h : DHInv d) (h1 : d.dh.ch1.Good) (h2 : d.dh.ch2.Good) :
    d.getHeaderLength = .ok d.contents.length ∧ d.contents.length ≤ 200000 := by
  obtain ⟨m, hm, hs⟩ := h.hm
  obtain ⟨a, ha, ha'⟩ := h1.getData
  obtain ⟨b, hb, hb'⟩ := h2.getData
  have hl1 := blockLenOk_le h1.desc_valid.2.2
  have hl2 := blockLenOk_le h2.desc_valid.2.2
  have hbl := h.blen_le
  have hms := m.size_le
  have e : d.contents.length = 40 + 2 * d.hashSize + d.blocksLen + a.getLen + b.getLen := by
    simp only [DataHeader.contents, Header.length, hm, digestSize_toByte, List.length_map, List.map_map, h.blen, ha', hb',
      hs, Function.comp_def]
    omega
  have hle : d.contents.length ≤ 200000 := by omega
  refine ⟨?_, hle⟩
  simp only [DataHeader.getHeaderLength, h1.val, h2.val, Bool.and_self, if_true, ha, hb, Res.bind_ok, Res.noexcept_ok]
  rw [← e, Nat.mod_eq_of_lt (by omega)]

theorem headerLength_not_good {d : DataHeader} (h : DHInv d) (hn : ¬ (d.dh.ch1.Good ∧ d.dh.ch2.Good)) :
    d.getHeaderLength = .ok 0 := by
  have hv : (d.dh.ch1.val && d.dh.ch2.val) = false := by
    rcases h.ch1 with e1 | e1
    · rw [e1]; rfl
    · rcases h.ch2 with e2 | e2
      · rw [e2]; exact Bool.and_false _
      · exact absurd ⟨e1, e2⟩ hn
  have hb : d.headerBytes.data = [] := by
    rcases h.bytes with e | ⟨hc, -⟩
    · exact e
    · have := complete_parts h hc
      exact absurd ⟨this.1, this.2.1⟩ hn
  simp [DataHeader.getHeaderLength, hv, Bytes.len, hb]

theorem contents_lengths {d : DataHeader} (h : DHInv d) (hc : d.isComplete = true) :
    d.contents.bytes.length = d.contents.length := by
  obtain ⟨-, -, -, v, hv, hvl⟩ := complete_parts h hc
  obtain ⟨m, hm, hs⟩ := h.hm
  obtain ⟨s, hs1, hs2⟩ := h.salt
  apply length_bytes
  · simp only [DataHeader.contents, hv, hm, digestSize_toByte, ← hs, hvl]
  · simp only [DataHeader.contents, hs1, hm, digestSize_toByte, ← hs, hs2]
  · intro b hb
    simp only [DataHeader.contents, List.mem_map] at hb
    obtain ⟨x, hx, rfl⟩ := hb
    exact h.encLen x hx

theorem writeAll_eq {d : DataHeader} (h : DHInv d) (hc : d.isComplete = true) {n : UInt64} (hn : d.fileSize = some n) :
    d.writeAll n d.contents.length = .ok ⟨d.contents.bytes, d.contents.length⟩ := by
  obtain ⟨h1, h2, hf, v, hv, hvl⟩ := complete_parts h hc
  obtain ⟨m, hm, hs⟩ := h.hm
  obtain ⟨s, hs1, hs2⟩ := h.salt
  have hlen := contents_lengths h hc
  have hle := (headerLength_good h h1 h2).2
  have e : d.contents.bytes = be8 n ++ (be8 (UInt64.ofNat d.contents.length) ++ ([(1 : Byte)] ++ ([m.toByte] ++
      ([UInt8.ofNat d.dh.dec.length] ++ (blockBytes (d.dh.dec.map fun b => (b.type, b.data.data)) ++ (d.dh.ch1.desc.bytes ++
      (d.dh.ch2.desc.bytes ++ (v.data ++ (s.data ++ ([UInt8.ofNat d.dh.enc.length] ++
        encBytes (d.dh.enc.map fun b => (b.block.type, b.encLen, b.block.data.data)))))))))))) := by
    rw [num8_ofNat (by omega), ← num8_toNat]
    simp [Header.bytes, Header.content, DataHeader.contents, hm, hf, hv, hs1, hn]
  rw [e] at hlen
  generalize hL : d.contents.length = L at *
  simp only [List.length_append, length_be8, List.length_cons, List.length_nil] at hlen
  simp only [DataHeader.writeAll, fromLong_true, hf, hm, hv, hs1, DataHeaderParts.get, Res.bind_ok, Bytes.empty]
  rw [Bytes.addcopy_room _ _ _ (by simp; omega), Res.bind_ok,
    Bytes.addcopy_room _ _ _ (by simp; omega), Res.bind_ok,
    Bytes.addByte_room _ _ _ (by simp; omega), Res.bind_ok,
    Bytes.addByte_room _ _ _ (by simp; omega), Res.bind_ok,
    Bytes.addByte_room _ _ _ (by simp; omega), Res.bind_ok,
    writeBlocks_eq _ _ _ (by simp only [List.length_append, length_be8, List.length_cons, List.length_nil]; omega), Res.bind_ok,
    writeChainHash_eq h1 _ _ (by simp only [List.length_append, length_be8, List.length_cons, List.length_nil]; omega), Res.bind_ok,
    writeChainHash_eq h2 _ _ (by simp only [List.length_append, length_be8, List.length_cons, List.length_nil]; omega), Res.bind_ok,
    Bytes.addcopy_room _ _ _ (by simp only [List.length_append, length_be8, List.length_cons, List.length_nil]; omega), Res.bind_ok,
    Bytes.addcopy_room _ _ _ (by simp only [List.length_append, length_be8, List.length_cons, List.length_nil]; omega), Res.bind_ok,
    Bytes.addByte_room _ _ _ (by simp only [List.length_append, length_be8, List.length_cons, List.length_nil]; omega), Res.bind_ok,
    writeEncBlocks_eq _ _ _ (by simp only [List.length_append, length_be8, List.length_cons, List.length_nil]; omega)]
  rw [e]
  simp

@[simp] theorem clear_contents (d : DataHeader) : d.clear.contents = d.contents := rfl
@[simp] theorem clear_dh (d : DataHeader) : d.clear.dh = d.dh := rfl
@[simp] theorem clear_isComplete (d : DataHeader) : d.clear.isComplete = d.isComplete := rfl
@[simp] theorem clear_fileSize (d : DataHeader) : d.clear.fileSize = d.fileSize := rfl
@[simp] theorem clear_bytes (d : DataHeader) : d.clear.headerBytes.data = [] := rfl

/-- everything but the header bytes -/
structure DHBase (d : DataHeader) : Prop where
  hm : ∃ m, d.dh.hashMode = some m ∧ d.hashSize = m.size
  fm : d.dh.fileMode = none ∨ d.dh.fileMode = some 1
  validator : ∀ v, d.dh.validator = some v → v.data.length = d.hashSize
  salt : ∃ s, d.dh.encSalt = some s ∧ s.data.length = d.hashSize
  ch1 : d.dh.ch1 = ChainHash.default ∨ d.dh.ch1.Good
  ch2 : d.dh.ch2 = ChainHash.default ∨ d.dh.ch2.Good
  decCount : d.dh.dec.length ≤ 255
  decLen : ∀ b ∈ d.dh.dec, b.data.data.length ≤ 255
  encCount : d.dh.enc.length ≤ 255
  encLen : ∀ b ∈ d.dh.enc, b.block.data.data.length = 255
  blen : d.blocksLen = 2 * d.dh.dec.length + (d.dh.dec.map fun b => b.data.data.length).sum + 257 * d.dh.enc.length

theorem DHInv.base {d : DataHeader} (h : DHInv d) : DHBase d :=
  ⟨h.hm, h.fm, h.validator, h.salt, h.ch1, h.ch2, h.decCount, h.decLen, h.encCount, h.encLen, h.blen⟩

theorem DHBase.inv {d : DataHeader} (h : DHBase d) (hb : d.headerBytes.data = [] ∨
    (d.isComplete = true ∧ d.fileSize.isSome = true ∧ d.headerBytes.data = d.contents.bytes)) : DHInv d :=
  ⟨h.hm, h.fm, h.validator, h.salt, h.ch1, h.ch2, h.decCount, h.decLen, h.encCount, h.encLen, h.blen, hb⟩

theorem DHInv.clear {d : DataHeader} (h : DHInv d) : DHInv d.clear :=
  DHBase.inv ⟨h.hm, h.fm, h.validator, h.salt, h.ch1, h.ch2, h.decCount, h.decLen, h.encCount, h.encLen, h.blen⟩ (.inl rfl)

theorem calcBytes_eq {d : DataHeader} (h : DHInv d) (hc : d.isComplete = true) (hn : d.fileSize.isSome = true) :
    d.clear.calcBytes = .ok ⟨d.contents.bytes, d.contents.length⟩ := by
  obtain ⟨h1, h2, -⟩ := complete_parts h hc
  have hl := (headerLength_good h.clear h1 h2).1
  obtain ⟨n, hn'⟩ := Option.isSome_iff_exists.mp hn
  have hw := writeAll_eq h.clear (by exact hc) (n := n) (by exact hn')
  simp only [clear_contents] at hl hw
  simp only [DataHeader.calcBytes, hl, Res.bind_ok, clear_fileSize, hn', hw]
  rw [if_neg]
  simp [Bytes.len, contents_lengths h hc]

/-- the checks of `calcHeaderBytes` -/
theorem calcChecks_eq {d : DataHeader} (h : DHInv d) :
    d.calcChecks = if d.isComplete = true then
        match d.fileSize with
        | none => .exn .logicError
        | some n => if n.toNat < d.contents.length then .exn .invalidArgument else .ok ()
      else .exn .logicError := by
  unfold DataHeader.calcChecks
  cases hc : d.isComplete with
  | false => rfl
  | true =>
    obtain ⟨h1, h2, -⟩ := complete_parts h hc
    simp only [Bool.not_true, Bool.false_eq_true, if_false, if_true]
    cases d.fileSize with
    | none => rfl
    | some n => simp only [(headerLength_good h h1 h2).1, Res.bind_ok]

theorem calcHeaderBytes_ok {hs : Hashes} {d : DataHeader} {pw : Bytes} {clk : Nat → Nat} (h : DHInv d)
    (hc : d.isComplete = true) {n : UInt64} (hn : d.fileSize = some n) (hl : d.contents.length ≤ n.toNat)
    (hv : d.calcVerify hs pw clk = .ok ()) :
    d.calcHeaderBytes hs pw clk = (.ok (), { d with headerBytes := ⟨d.contents.bytes, d.contents.length⟩ }) := by
  have h1 : d.calcChecks = .ok () := by
    rw [calcChecks_eq h, if_pos hc, hn]
    simp only
    rw [if_neg (by omega)]
  unfold DataHeader.calcHeaderBytes
  simp only [h1, hv, Res.bind_ok, calcBytes_eq h hc (by rw [hn]; rfl)]

end Verif
