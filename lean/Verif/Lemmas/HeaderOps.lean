import Verif.Lemmas.DataHeader

namespace Verif
open Spec

/-- the public operations of a header object with their arguments -/
inductive HOp
  | setFileMode (m : Byte)
  | setCh1 (c : ChainHash)
  | setCh2 (c : ChainHash)
  | setValidator (b : Bytes)
  | clearBlocks
  | addBlock (b : DataBlock)
  | addEncBlock (b : EncDataBlock)
  | setFileSize (n : UInt64)
  | setDataSize (n : UInt32)
  | calcBytes (pwhash : Bytes) (clk : Nat → Nat)

/-- data blocks the public operations can produce: the default one or one accepted by `setData` -/
def DataBlock.Obtainable (b : DataBlock) : Prop :=
  b = DataBlock.default ∨ (∃ t, b = { DataBlock.default with type := t }) ∨ ∃ b0 x, DataBlock.setData b0 x = .ok b

/-- encrypted data blocks the public operations can produce -/
def EncDataBlock.Obtainable (b : EncDataBlock) : Prop :=
  (∃ t x l, EncDataBlock.createEncBlock t x l = .ok b) ∨
  (∃ d H pw s r, EncDataBlock.make d H pw s r = .ok b)

/-- arguments a program can build -/
def HOp.Ok : HOp → Prop
  | .setCh1 c => c.Obtainable
  | .setCh2 c => c.Obtainable
  | .addBlock b => b.Obtainable
  | .addEncBlock b => b.Obtainable
  | _ => True

/-- one call; its outcome and the object afterwards -/
def HOp.call (hs : Hashes) (d : DataHeader) : HOp → Res Unit × DataHeader
  | .setFileMode m => keep d (d.setFileDataMode m)
  | .setCh1 c => keep d (d.setChainHash1 c)
  | .setCh2 c => keep d (d.setChainHash2 c)
  | .setValidator b => keep d (d.setValidPasswordHashBytes b)
  | .clearBlocks => (.ok (), d.clearDataBlocks)
  | .addBlock b => keep d (d.addDataBlock b)
  | .addEncBlock b => keep d (d.addEncDataBlock b)
  | .setFileSize n => keep d (d.setFileSize n)
  | .setDataSize n => keep d (d.setDataSize n)
  | .calcBytes pw clk => d.calcHeaderBytes hs pw clk
where
  /-- setters throw before they change anything -/
  keep (d : DataHeader) : Res DataHeader → Res Unit × DataHeader
    | .ok d' => (.ok (), d')
    | .exn e => (.exn e, d)
    | .fatal f => (.fatal f, d)

/-- object after a history of calls, exceptions being caught by the caller -/
def HOp.run (hs : Hashes) (d : DataHeader) (ops : List HOp) : DataHeader :=
  ops.foldl (fun d op => (op.call hs d).2) d

theorem DataBlock.setData_ok {b0 b : DataBlock} {x : Bytes} (h : DataBlock.setData b0 x = .ok b) :
    b = { b0 with data := x } ∧ 0 < x.data.length ∧ x.data.length ≤ 255 := by
  unfold DataBlock.setData at h
  split at h
  · rename_i hh; cases h; exact ⟨rfl, hh.1, hh.2⟩
  · cases h

theorem DataBlock.Obtainable.len {b : DataBlock} (h : b.Obtainable) : b.data.data.length ≤ 255 := by
  rcases h with rfl | ⟨t, rfl⟩ | ⟨b0, x, h⟩
  · simp [DataBlock.default, Bytes.empty]
  · simp [DataBlock.default, Bytes.empty]
  · obtain ⟨rfl, -, h⟩ := DataBlock.setData_ok h; exact h

theorem encLoop_length (H : HashFn) (data pw : Bytes) (fuel : Nat) : ∀ (salt enc : Bytes) (w : Nat) (r : Bytes),
    EncDataBlock.encLoop H data pw fuel salt enc w = .ok r → r.data.length = data.data.length ∧ r.cap = enc.cap := by
  induction fuel with
  | zero => intro salt enc w r h; cases h
  | succ fuel ih =>
    intro salt enc w r h
    rw [EncDataBlock.encLoop] at h
    split at h
    · obtain ⟨x1, -, h⟩ := Res.bind_eq_ok.mp h
      obtain ⟨x2, -, h⟩ := Res.bind_eq_ok.mp h
      obtain ⟨x3, -, h⟩ := Res.bind_eq_ok.mp h
      obtain ⟨x4, -, h⟩ := Res.bind_eq_ok.mp h
      obtain ⟨x5, -, h⟩ := Res.bind_eq_ok.mp h
      obtain ⟨x6, h6, h⟩ := Res.bind_eq_ok.mp h
      obtain ⟨h7, h8⟩ := ih _ _ _ _ h
      refine ⟨h7, ?_⟩
      unfold Bytes.addcopyToBytes at h6
      split at h6
      · cases h6
      · cases h6; exact h8
    · rename_i hh
      cases h
      exact ⟨by simpa [Bytes.len] using hh, rfl⟩

theorem fillrandom_ok {b x : Bytes} {r : Rand} (h : b.fillrandom r = .ok x) :
    x = ⟨b.data ++ r.take (b.cap - b.data.length), b.cap⟩ := by
  unfold Bytes.fillrandom at h
  cases h1 : Bytes.randomBytes r (b.cap - b.data.length) with
  | exn e => rw [h1] at h; simp at h
  | fatal f => rw [h1] at h; simp at h
  | ok l =>
    rw [h1] at h
    simp only [Res.bind_ok, Res.pure_eq, Res.noexcept_ok, Res.ok.injEq] at h
    unfold Bytes.randomBytes at h1
    split at h1
    · cases h1
    · split at h1
      · cases h1
      · cases h1; exact h.symm

theorem encMake_ok {d : DataBlock} {H : HashFn} {pw s : Bytes} {r : Rand} {b : EncDataBlock}
    (h : EncDataBlock.make d H pw s r = .ok b) : d.data.data.length = 255 ∧ b.block.data.data.length = 255 ∧
      b.block.type = d.type := by
  unfold EncDataBlock.make at h
  obtain ⟨x1, -, h⟩ := Res.bind_eq_ok.mp h
  obtain ⟨x2, -, h⟩ := Res.bind_eq_ok.mp h
  obtain ⟨x3, -, h⟩ := Res.bind_eq_ok.mp h
  obtain ⟨x4, h4, h⟩ := Res.bind_eq_ok.mp h
  obtain ⟨x5, h5, h⟩ := Res.bind_eq_ok.mp h
  obtain ⟨x6, h6, h⟩ := Res.bind_eq_ok.mp h
  cases h
  obtain ⟨h7, h8⟩ := encLoop_length _ _ _ _ _ _ _ _ h4
  have h9 := fillrandom_ok h5
  obtain ⟨rfl, h10, h11⟩ := DataBlock.setData_ok h6
  simp only [Bytes.addSize, Bytes.len, Bytes.empty] at h9 h8
  rw [h9, h8] at h11 h10
  simp only [List.length_append, Rand.length_take] at h11 h10
  refine ⟨by omega, ?_, rfl⟩
  rw [h9, h8]
  simp only [List.length_append, Rand.length_take]
  omega

theorem createEnc_ok {t l : Byte} {x : Bytes} {b : EncDataBlock} (h : EncDataBlock.createEncBlock t x l = .ok b) :
    x.data.length = 255 ∧ b = ⟨⟨t, x⟩, l⟩ := by
  unfold EncDataBlock.createEncBlock at h
  split at h
  · cases h
  · rename_i hh
    obtain ⟨y, h1, h2⟩ := Res.bind_eq_ok.mp h
    obtain ⟨rfl, -, -⟩ := DataBlock.setData_ok h1
    cases h2
    exact ⟨by simpa [Bytes.len] using hh, rfl⟩

theorem EncDataBlock.Obtainable.len {b : EncDataBlock} (h : b.Obtainable) : b.block.data.data.length = 255 := by
  rcases h with ⟨t, x, l, h⟩ | ⟨d, H, pw, s, r, h⟩
  · obtain ⟨h1, rfl⟩ := createEnc_ok h; exact h1
  · exact (encMake_ok h).2.1

/-! ### each operation keeps the invariant -/

theorem new_inv {mode : Byte} {r : Rand} {d : DataHeader} (h : DataHeader.new mode r = .ok d) :
    DHInv d ∧ ∃ m, HMode.ofByte mode = some m ∧
      d = ⟨⟨none, some m, none, some ⟨r.take m.size, m.size⟩, [], [], ChainHash.default, ChainHash.default⟩, m.size,
        Bytes.empty 0, none, 0⟩ := by
  unfold DataHeader.new at h
  obtain ⟨p, h1, h⟩ := Res.bind_eq_ok.mp h
  obtain ⟨n, h2, h⟩ := Res.bind_eq_ok.mp h
  obtain ⟨s, h3, h⟩ := Res.bind_eq_ok.mp h
  obtain ⟨p', h4, h⟩ := Res.bind_eq_ok.mp h
  cases h
  unfold DataHeaderParts.setHashMode at h1
  split at h1
  · rename_i m hm
    cases h1
    simp only [DataHeaderParts.getHashSize, DataHeaderParts.get, Res.bind_ok, Res.ok.injEq] at h2
    subst h2
    have h5 := fillrandom_ok h3
    simp only [Bytes.empty, List.nil_append, List.length_nil, Nat.sub_zero] at h5
    subst h5
    simp only [DataHeaderParts.setEncSalt, DataHeaderParts.getHashSize, DataHeaderParts.get, Res.bind_ok, Bytes.len,
      Rand.length_take] at h4
    rw [if_pos trivial] at h4
    cases h4
    refine ⟨⟨⟨m, rfl, rfl⟩, .inl rfl, ?_, ⟨_, rfl, by simp⟩, .inl rfl, .inl rfl, ?_, ?_, ?_, ?_, rfl, .inl rfl⟩,
      m, hm, rfl⟩
    all_goals simp [DataHeaderParts.empty]
  · cases h1

theorem new_good (mode : Byte) (r : Rand) (hr : r.good = true) :
    DataHeader.new mode r = match HMode.ofByte mode with
      | none => .exn .invalidArgument
      | some m => .ok ⟨⟨none, some m, none, some ⟨r.take m.size, m.size⟩, [], [], ChainHash.default, ChainHash.default⟩,
          m.size, Bytes.empty 0, none, 0⟩ := by
  unfold DataHeader.new DataHeaderParts.setHashMode
  cases hm : HMode.ofByte mode with
  | none => rfl
  | some m =>
    have hs := m.size_le
    have h0 : Bytes.randomBytes r m.size = .ok (r.take m.size) := by
      unfold Bytes.randomBytes
      rw [if_neg, if_neg (by omega)]
      rintro (h | h)
      · omega
      · rw [hr] at h; cases h
    have h1 : (Bytes.empty m.size).fillrandom r = .ok ⟨r.take m.size, m.size⟩ := by
      simp only [Bytes.fillrandom, Bytes.empty, List.length_nil, Nat.sub_zero, h0, Res.bind_ok, List.nil_append]
      rfl
    simp only [Res.bind_ok, DataHeaderParts.getHashSize, DataHeaderParts.get, h1, DataHeaderParts.setEncSalt, Bytes.len,
      Rand.length_take]
    rw [if_pos trivial]
    rfl

theorem setFileMode_ok {d d' : DataHeader} {m : Byte} (h : d.setFileDataMode m = .ok d') :
    m = 1 ∧ d' = DataHeader.clear { d with dh := { d.dh with fileMode := some m } } := by
  unfold DataHeader.setFileDataMode DataHeaderParts.setFileDataMode at h
  obtain ⟨p, h1, h⟩ := Res.bind_eq_ok.mp h
  split at h1
  · rename_i hh
    cases h1; cases h
    refine ⟨?_, rfl⟩
    simp only [fileModeValid, Bool.and_eq_true, decide_eq_true_eq] at hh
    obtain ⟨h1, h2⟩ := hh
    rw [gt_iff_lt, UInt8.lt_iff_toNat_lt] at h1
    rw [UInt8.le_iff_toNat_le] at h2
    apply UInt8.toNat_inj.mp
    simp only [UInt8.reduceToNat] at *
    omega
  · cases h1

theorem setCh1_ok {d d' : DataHeader} {c : ChainHash} (hc : c.Obtainable) (h : d.setChainHash1 c = .ok d') :
    c.Good ∧ d' = DataHeader.clear { d with dh := { d.dh with ch1 := c } } := by
  unfold DataHeader.setChainHash1 at h
  split at h
  · cases h
  · rename_i hv
    have hg := hc.good (by simpa using hv)
    rw [hg.assign] at h
    cases h
    exact ⟨hg, rfl⟩

theorem setCh2_ok {d d' : DataHeader} {c : ChainHash} (hc : c.Obtainable) (h : d.setChainHash2 c = .ok d') :
    c.Good ∧ d' = DataHeader.clear { d with dh := { d.dh with ch2 := c } } := by
  unfold DataHeader.setChainHash2 at h
  split at h
  · cases h
  · rename_i hv
    have hg := hc.good (by simpa using hv)
    rw [hg.assign] at h
    cases h
    exact ⟨hg, rfl⟩

theorem setValidator_eq {d : DataHeader} (hd : DHInv d) (b : Bytes) :
    d.setValidPasswordHashBytes b = if b.data.length = d.hashSize
      then .ok (DataHeader.clear { d with dh := { d.dh with validator := some b } }) else .exn .invalidArgument := by
  obtain ⟨m, hm, hs⟩ := hd.hm
  simp only [DataHeader.setValidPasswordHashBytes, DataHeaderParts.setValidPasswordHash, DataHeaderParts.getHashSize, hm,
    DataHeaderParts.get, Res.bind_ok]
  by_cases h : b.data.length = d.hashSize
  · rw [if_pos h, if_pos (by simp [Bytes.len, h, hs])]; rfl
  · rw [if_neg h, if_neg (by simp [Bytes.len, ← hs]; omega)]; rfl

theorem setEncSalt_eq {d : DataHeader} (hd : DHInv d) (b : Bytes) :
    d.setEncSalt b = if b.data.length = d.hashSize
      then .ok (DataHeader.clear { d with dh := { d.dh with encSalt := some b } }) else .exn .invalidArgument := by
  obtain ⟨m, hm, hs⟩ := hd.hm
  simp only [DataHeader.setEncSalt, DataHeaderParts.setEncSalt, DataHeaderParts.getHashSize, hm,
    DataHeaderParts.get, Res.bind_ok]
  by_cases h : b.data.length = d.hashSize
  · rw [if_pos h, if_pos (by simp [Bytes.len, h, hs])]; rfl
  · rw [if_neg h, if_neg (by simp [Bytes.len, ← hs]; omega)]; rfl

theorem addBlock_eq {d : DataHeader} (hd : DHInv d) (b : DataBlock) (hb : b.data.data.length ≤ 255) :
    d.addDataBlock b = if d.dh.dec.length < 255
      then .ok (DataHeader.clear { d with blocksLen := d.blocksLen + (2 + b.data.data.length),
                                          dh := { d.dh with dec := d.dh.dec ++ [b] } })
      else .exn .lengthError := by
  have := hd.blen_le
  unfold DataHeader.addDataBlock
  by_cases h : d.dh.dec.length < 255
  · rw [if_neg (by omega), if_pos h]
    simp only [Bytes.len]
    rw [Nat.mod_eq_of_lt (by omega)]
  · rw [if_pos (by omega), if_neg h]

theorem addEncBlock_eq {d : DataHeader} (hd : DHInv d) (b : EncDataBlock) (hb : b.block.data.data.length = 255) :
    d.addEncDataBlock b = if d.dh.enc.length < 255
      then .ok (DataHeader.clear { d with blocksLen := d.blocksLen + 257,
                                          dh := { d.dh with enc := d.dh.enc ++ [b] } })
      else .exn .lengthError := by
  have := hd.blen_le
  unfold DataHeader.addEncDataBlock
  by_cases h : d.dh.enc.length < 255
  · rw [if_neg (by omega), if_pos h]
    simp only [Bytes.len, EncDataBlock.getEnc, hb]
    rw [Nat.mod_eq_of_lt (by omega)]
  · rw [if_pos (by omega), if_neg h]

theorem setFileSize_eq {d : DataHeader} (hd : DHInv d) (n : UInt64) :
    d.setFileSize n = if d.isComplete = true then
        (if n.toNat < d.contents.length then .exn .invalidArgument else .ok { d.clear with fileSize := some n })
      else .exn .logicError := by
  unfold DataHeader.setFileSize
  cases hc : d.isComplete with
  | false => rfl
  | true =>
    obtain ⟨h1, h2, -⟩ := complete_parts hd hc
    simp only [Bool.not_true, Bool.false_eq_true, if_false, if_true, (headerLength_good hd h1 h2).1, Res.bind_ok]

theorem setDataSize_eq {d : DataHeader} (hd : DHInv d) (n : UInt32) :
    d.setDataSize n = if d.isComplete = true then
        .ok { d.clear with fileSize := some (UInt64.ofNat ((n.toNat + d.contents.length) % 2 ^ 32)) }
      else .exn .logicError := by
  unfold DataHeader.setDataSize
  cases hc : d.isComplete with
  | false => rfl
  | true =>
    obtain ⟨h1, h2, -⟩ := complete_parts hd hc
    simp only [Bool.not_true, Bool.false_eq_true, if_false, if_true, (headerLength_good hd.clear h1 h2).1, Res.bind_ok,
      clear_contents]

theorem calc_state {hs : Hashes} {d : DataHeader} {pw : Bytes} {clk : Nat → Nat} (h : DHInv d) :
    ((d.calcHeaderBytes hs pw clk).1 = .ok () ∧ d.isComplete = true ∧
      (∃ n, d.fileSize = some n ∧ d.contents.length ≤ n.toNat) ∧ d.calcVerify hs pw clk = .ok () ∧
      (d.calcHeaderBytes hs pw clk).2 = { d with headerBytes := ⟨d.contents.bytes, d.contents.length⟩ }) ∨
    ((d.calcHeaderBytes hs pw clk).1 ≠ .ok () ∧ (d.calcHeaderBytes hs pw clk).2 = d) := by
  cases hx : (do d.calcChecks; d.calcVerify hs pw clk : Res Unit) with
  | exn e => right; simp [DataHeader.calcHeaderBytes, hx]
  | fatal e => right; simp [DataHeader.calcHeaderBytes, hx]
  | ok u =>
    left
    obtain ⟨u', hx1, hx2⟩ := Res.bind_eq_ok.mp hx
    rw [calcChecks_eq h] at hx1
    split at hx1
    · rename_i hc
      cases hf : d.fileSize with
      | none => rw [hf] at hx1; cases hx1
      | some n =>
        rw [hf] at hx1
        simp only at hx1
        split at hx1
        · cases hx1
        · rename_i hl
          have := calcHeaderBytes_ok (hs := hs) (pw := pw) (clk := clk) h hc hf (by omega) hx2
          rw [this]
          exact ⟨rfl, hc, ⟨n, rfl, by omega⟩, hx2, by rw [← hf]⟩
    · cases hx1

theorem call_inv {hs : Hashes} {d : DataHeader} (h : DHInv d) (op : HOp) (hop : op.Ok) : DHInv (op.call hs d).2 := by
  have keep : ∀ x : Res DataHeader, (∀ d', x = .ok d' → DHInv d') → DHInv (HOp.call.keep d x).2 := by
    intro x hx
    cases x with
    | ok d' => exact hx d' rfl
    | exn e => exact h
    | fatal f => exact h
  cases op with
  | setFileMode m =>
    apply keep; intro d' hd'
    obtain ⟨rfl, rfl⟩ := setFileMode_ok hd'
    exact DHBase.inv { h.base with fm := .inr rfl } (.inl rfl)
  | setCh1 c =>
    apply keep; intro d' hd'
    obtain ⟨hg, rfl⟩ := setCh1_ok hop hd'
    exact DHBase.inv { h.base with ch1 := .inr hg } (.inl rfl)
  | setCh2 c =>
    apply keep; intro d' hd'
    obtain ⟨hg, rfl⟩ := setCh2_ok hop hd'
    exact DHBase.inv { h.base with ch2 := .inr hg } (.inl rfl)
  | setValidator b =>
    apply keep; intro d' hd'
    rw [setValidator_eq h] at hd'
    split at hd'
    · rename_i hl
      cases hd'
      exact DHBase.inv { h.base with validator := by intro v hv; cases hv; exact hl } (.inl rfl)
    · cases hd'
  | clearBlocks =>
    exact DHBase.inv { h.base with decCount := by simp [HOp.call, DataHeader.clearDataBlocks, DataHeader.clear],
                                   decLen := by simp [HOp.call, DataHeader.clearDataBlocks, DataHeader.clear],
                                   encCount := by simp [HOp.call, DataHeader.clearDataBlocks, DataHeader.clear],
                                   encLen := by simp [HOp.call, DataHeader.clearDataBlocks, DataHeader.clear],
                                   blen := rfl } (.inl rfl)
  | addBlock b =>
    apply keep; intro d' hd'
    have hb : b.data.data.length ≤ 255 := DataBlock.Obtainable.len hop
    rw [addBlock_eq h b hb] at hd'
    split at hd'
    · rename_i hl
      cases hd'
      refine DHBase.inv { h.base with decCount := ?_, decLen := ?_, blen := ?_ } (.inl rfl)
      · simp; omega
      · intro x hx
        simp only [DataHeader.clear, List.mem_append, List.mem_singleton] at hx
        rcases hx with hx | rfl
        · exact h.decLen x hx
        · exact hb
      · have := h.blen
        simp [DataHeader.clear]; omega
    · cases hd'
  | addEncBlock b =>
    apply keep; intro d' hd'
    have hb : b.block.data.data.length = 255 := EncDataBlock.Obtainable.len hop
    rw [addEncBlock_eq h b hb] at hd'
    split at hd'
    · rename_i hl
      cases hd'
      refine DHBase.inv { h.base with encCount := ?_, encLen := ?_, blen := ?_ } (.inl rfl)
      · simp; omega
      · intro x hx
        simp only [DataHeader.clear, List.mem_append, List.mem_singleton] at hx
        rcases hx with hx | rfl
        · exact h.encLen x hx
        · exact hb
      · have := h.blen
        simp [DataHeader.clear]; omega
    · cases hd'
  | setFileSize n =>
    apply keep; intro d' hd'
    rw [setFileSize_eq h] at hd'
    split at hd'
    · split at hd'
      · cases hd'
      · cases hd'
        exact DHBase.inv { h.base with } (.inl rfl)
    · cases hd'
  | setDataSize n =>
    apply keep; intro d' hd'
    rw [setDataSize_eq h] at hd'
    split at hd'
    · cases hd'
      exact DHBase.inv { h.base with } (.inl rfl)
    · cases hd'
  | calcBytes pw clk =>
    rcases calc_state (hs := hs) (pw := pw) (clk := clk) h with ⟨-, hc, ⟨n, hn, -⟩, -, hst⟩ | ⟨-, hst⟩
    · simp only [HOp.call, hst]
      exact DHBase.inv { h.base with } (.inr ⟨hc, by simp [hn], rfl⟩)
    · simp only [HOp.call, hst]
      exact h

theorem run_inv {hs : Hashes} {d : DataHeader} (h : DHInv d) (ops : List HOp) (hops : ∀ op ∈ ops, op.Ok) :
    DHInv (HOp.run hs d ops) := by
  induction ops generalizing d with
  | nil => exact h
  | cons op ops ih =>
    exact ih (call_inv h op (hops op (by simp))) (fun o ho => hops o (by simp [ho]))

/-- when the header bytes can be obtained -/
theorem getHeaderBytes_ok {d : DataHeader} (h : DHInv d) {b : Bytes} (hb : d.getHeaderBytes = .ok b) :
    d.isComplete = true ∧ d.fileSize.isSome = true ∧ b = d.headerBytes ∧ b.data = d.contents.bytes := by
  unfold DataHeader.getHeaderBytes at hb
  obtain ⟨l, hl, hb⟩ := Res.bind_eq_ok.mp hb
  split at hb
  · cases hb
  · split at hb
    · cases hb
    · rename_i h0 hlen
      cases hb
      rcases h.bytes with e | ⟨hc, hf, he⟩
      · simp [Bytes.len, e] at hlen
        exact absurd hlen h0
      · exact ⟨hc, hf, rfl, he⟩

theorem getHeaderBytes_cleared {d : DataHeader} (h : DHInv d) (he : d.headerBytes.data = []) :
    d.getHeaderBytes = .exn .logicError := by
  have hl : ∃ l, d.getHeaderLength = .ok l := by
    by_cases hg : d.dh.ch1.Good ∧ d.dh.ch2.Good
    · exact ⟨_, (headerLength_good h hg.1 hg.2).1⟩
    · exact ⟨_, headerLength_not_good h hg⟩
  obtain ⟨l, hl⟩ := hl
  simp only [DataHeader.getHeaderBytes, hl, Res.bind_ok, Bytes.len, he, List.length_nil]
  split
  · rfl
  · rfl

end Verif
