import Verif.Lemmas.HeaderObj
import Verif.Lemmas.HeaderMemFwd
import Verif.Lemmas.EncBlock

/-!
Properties C30 to C38 and C40: the file header. `HObj` describes the header objects a program can hold (new, parsed or
made from parts, then changed by any calls); `DataHeader.contents` reads their fields; `Spec.Header` is the documented
format.
-/
namespace Verif.Props
open Spec HeaderParse

/-- a stream at its start: nothing read yet -/
def Fresh (s : IStream) (l : List Byte) : Prop := s.rest = l ∧ s.eof = false

/-! ### C30 -/

/-- C30: the bytes of a header object whose data blocks are not empty, followed by the announced amount of data, are
parsed into an object with the same contents and the same bytes, and the stream stands at the data afterwards. -/
theorem C30_round_trip (hs : Hashes) (r : Rand) (hr : r.good = true) {d : DataHeader} (hd : HObj d)
    (hne : ∀ b ∈ d.contents.blocks, b.2 ≠ []) {hb : Bytes} (hbytes : d.getHeaderBytes = .ok hb) (data : List Byte)
    (hsize : d.contents.fileSize = hb.data.length + data.length) (s : IStream) (hfresh : Fresh s (hb.data ++ data)) :
    ∃ d' s' hb', setHeaderStream hs r s = .ok (.val d' s') ∧ d'.contents = d.contents ∧ s'.rest = data ∧
      d'.getHeaderBytes = .ok hb' ∧ hb'.data = hb.data := by
  have hi := hd.inv
  obtain ⟨hc, -, -, hbd⟩ := getHeaderBytes_ok hi hbytes
  have hl := contents_lengths hi hc
  rw [hbd, hl] at hsize
  have hv := complete_valid hi hc hne (by omega)
  have hsim := setHeaderStream_eq hs r s hfresh.2
  rw [hfresh.1, hbd, rdHeader_append hr hv data hsize] at hsim
  obtain ⟨s', h1, h2, -⟩ := hsim
  exact ⟨_, s', _, h1, contents_mkHeader hv, h2, mkHeader_bytes hv, hbd.symm⟩

/-- a random source for examples -/
def sampleRand : Rand := ⟨true, fun i => UInt8.ofNat (7 * i + 3)⟩

/-- calls that complete a header: one data block, both chain hashes with data -/
def sampleOps : List HOp :=
  [.setFileMode 1, .setCh1 (mkCH .constSalt 5 [1, 2, 3]), .setCh2 (mkCH .count 2 [0, 0, 0, 0, 0, 0, 0, 9]),
   .setValidator (Bytes.full (List.replicate 32 77)), .addBlock ⟨3, Bytes.full [10, 20]⟩, .setDataSize 4,
   .calcBytes (Bytes.empty 0) fun _ => 0]

theorem sampleOps_ok : ∀ op ∈ sampleOps, op.Ok := by
  intro op hop
  simp only [sampleOps, List.mem_cons, List.not_mem_nil, or_false] at hop
  rcases hop with rfl | rfl | rfl | rfl | rfl | rfl | rfl
  · trivial
  · exact ChainHash.Good.obtainable ⟨.constSalt, 5, [1, 2, 3], by decide, by decide, by decide, rfl⟩
  · exact ChainHash.Good.obtainable ⟨.count, 2, [0, 0, 0, 0, 0, 0, 0, 9], by decide, by decide, by decide, rfl⟩
  · trivial
  · exact .inr (.inr ⟨⟨3, Bytes.empty 0⟩, Bytes.full [10, 20], rfl⟩)
  · trivial
  · trivial

/-- a test on the sample object that does not fail -/
def onSample (p : DataHeader → Bytes → Bool) : Bool :=
  match DataHeader.new 1 sampleRand with
  | .ok d => match (HOp.run toyHashes d sampleOps).getHeaderBytes with
    | .ok hb => p (HOp.run toyHashes d sampleOps) hb
    | _ => false
  | _ => false

theorem onSample_obj {p : DataHeader → Bytes → Bool} (h : onSample p = true) :
    ∃ d hb, HObj d ∧ d.getHeaderBytes = .ok hb ∧ p d hb = true := by
  unfold onSample at h
  split at h
  · split at h
    · exact ⟨_, _, (HObj.new ‹_›).run _ sampleOps_ok, ‹_›, h⟩
    · cases h
  · cases h

/-- the hypotheses of C30 are met -/
example : ∃ d hb, HObj d ∧ d.getHeaderBytes = .ok hb ∧ (d.contents.blocks == [(3, [10, 20])] &&
    d.contents.fileSize == hb.data.length + 4 && hb.data.length == 119 && sampleRand.good) = true :=
  onSample_obj (p := fun d hb => _) (by decide +kernel)

/-! ### C31 -/

theorem size_field (h : Header) (h64 : h.length < 2 ^ 64) : beValue ((h.bytes.drop 8).take 8) = h.length := by
  have e : (h.bytes.drop 8).take 8 = num8 h.length := rfl
  rw [e, ← num8_ofNat h64, beValue_be8, ofNat_toNat64 h64]

theorem file_field (h : Header) (h64 : h.fileSize < 2 ^ 64) : beValue (h.bytes.take 8) = h.fileSize := by
  have e : h.bytes.take 8 = num8 h.fileSize := rfl
  rw [e, ← num8_ofNat h64, beValue_be8, ofNat_toNat64 h64]

/-- C31: header bytes that can be obtained have the documented number of bytes, which is also the number announced in
bytes 8 to 15 and the answer of the length query. -/
theorem C31_size {d : DataHeader} (hd : HObj d) {hb : Bytes} (hbytes : d.getHeaderBytes = .ok hb) :
    hb.data.length = 40 + 2 * digestSize d.contents.hashMode + d.contents.ch1.block.length +
      d.contents.ch2.block.length + (d.contents.blocks.map fun b => 2 + b.2.length).sum +
      257 * d.contents.encBlocks.length ∧
    beValue ((hb.data.drop 8).take 8) = hb.data.length ∧
    d.getHeaderLength = .ok hb.data.length := by
  have hi := hd.inv
  obtain ⟨hc, -, -, hbd⟩ := getHeaderBytes_ok hi hbytes
  have hl := contents_lengths hi hc
  obtain ⟨h1, h2, -⟩ := complete_parts hi hc
  obtain ⟨g1, g2⟩ := headerLength_good hi h1 h2
  rw [hbd, hl]
  refine ⟨?_, size_field _ (by omega), g1⟩
  have e : ∀ bs : List (Byte × List Byte), (bs.map fun b => 2 + b.2.length).sum =
      2 * bs.length + (bs.map fun b => b.2.length).sum := by
    intro bs
    induction bs with
    | nil => rfl
    | cons b bs ih => simp only [List.map_cons, List.sum_cons, ih, List.length_cons]; omega
  rw [e]
  unfold Header.length
  omega

/-- the hypotheses of C31 are met (119 bytes with 3 + 8 bytes of chain-hash data and one block of two bytes) -/
example : ∃ d hb, HObj d ∧ d.getHeaderBytes = .ok hb ∧ (hb.data.length == 40 + 2 * 32 + 3 + 8 + (2 + 2)) = true :=
  onSample_obj (p := fun d hb => _) (by decide +kernel)

/-! ### C32 -/

/-- is the call a recomputation of the header bytes? -/
def recomputes : HOp → Bool
  | .calcBytes _ _ => true
  | _ => false

/-- C32: header bytes that can be obtained, after any history, are the documented serialisation of the current contents
of the object, which is complete. -/
theorem C32_current {d : DataHeader} (hd : HObj d) {hb : Bytes} (hbytes : d.getHeaderBytes = .ok hb) :
    hb.data = d.contents.bytes ∧ d.isComplete = true :=
  ⟨(getHeaderBytes_ok hd.inv hbytes).2.2.2, (getHeaderBytes_ok hd.inv hbytes).1⟩

theorem change_clears {hs : Hashes} {d : DataHeader} (hi : DHInv d) (op : HOp) (hop : recomputes op = false)
    (hok : op.Ok) (hsucc : (op.call hs d).1 = .ok ()) : (op.call hs d).2.headerBytes.data = [] := by
  cases op with
  | calcBytes pw clk => cases hop
  | clearBlocks => rfl
  | setFileMode m =>
    simp only [HOp.call] at hsucc ⊢
    cases hx : d.setFileDataMode m <;> rw [hx] at hsucc <;> try cases hsucc
    rw [(setFileMode_ok hx).2]; rfl
  | setCh1 c =>
    simp only [HOp.call] at hsucc ⊢
    cases hx : d.setChainHash1 c <;> rw [hx] at hsucc <;> try cases hsucc
    rw [(setCh1_ok hok hx).2]; rfl
  | setCh2 c =>
    simp only [HOp.call] at hsucc ⊢
    cases hx : d.setChainHash2 c <;> rw [hx] at hsucc <;> try cases hsucc
    rw [(setCh2_ok hok hx).2]; rfl
  | setValidator b =>
    simp only [HOp.call, setValidator_eq hi] at hsucc ⊢
    split
    · rfl
    · rename_i h; rw [if_neg h] at hsucc; cases hsucc
  | addBlock b =>
    simp only [HOp.call, DataHeader.addDataBlock] at hsucc ⊢
    split
    · rename_i h; rw [if_pos h] at hsucc; cases hsucc
    · rfl
  | addEncBlock b =>
    simp only [HOp.call, DataHeader.addEncDataBlock] at hsucc ⊢
    split
    · rename_i h; rw [if_pos h] at hsucc; cases hsucc
    · rfl
  | setFileSize n =>
    simp only [HOp.call, setFileSize_eq hi] at hsucc ⊢
    split
    · rename_i h; rw [if_pos h] at hsucc
      split
      · rename_i h; rw [if_pos h] at hsucc; cases hsucc
      · rfl
    · rename_i h; rw [if_neg h] at hsucc; cases hsucc
  | setDataSize n =>
    simp only [HOp.call, setDataSize_eq hi] at hsucc ⊢
    split
    · rfl
    · rename_i h; rw [if_neg h] at hsucc; cases hsucc

theorem stays_clear {hs : Hashes} (ops : List HOp) (hok : ∀ op ∈ ops, op.Ok) (hno : ∀ op ∈ ops, recomputes op = false) :
    ∀ {d : DataHeader}, DHInv d → d.headerBytes.data = [] → (HOp.run hs d ops).headerBytes.data = [] := by
  induction ops with
  | nil => intro d _ h; exact h
  | cons op ops ih =>
    intro d hi h
    refine ih (fun o ho => hok o (by simp [ho])) (fun o ho => hno o (by simp [ho])) (call_inv hi op (hok op (by simp))) ?_
    have hop := hno op (by simp)
    by_cases hs' : (op.call hs d).1 = .ok ()
    · exact change_clears hi op hop (hok op (by simp)) hs'
    · have : (op.call hs d).2 = d := by
        have keep : ∀ x : Res DataHeader, (HOp.call.keep d x).1 ≠ .ok () → (HOp.call.keep d x).2 = d := by
          intro x hx; cases x with
          | ok a => exact absurd rfl hx
          | exn e => rfl
          | fatal f => rfl
        cases op with
        | calcBytes pw clk => cases hop
        | clearBlocks => exact absurd rfl hs'
        | _ => exact keep _ hs'
      show (op.call hs d).2.headerBytes.data = []
      rw [this]; exact h

/-- C32: once a call has changed the object, its header bytes cannot be obtained, whatever calls follow, until they are
recomputed. -/
theorem C32_cleared (hs : Hashes) {d : DataHeader} (hd : HObj d) (op : HOp) (hop : op.Ok) (hno : recomputes op = false)
    (hsucc : (op.call hs d).1 = .ok ()) (ops : List HOp) (hops : ∀ o ∈ ops, o.Ok)
    (hnos : ∀ o ∈ ops, recomputes o = false) :
    (HOp.run hs (op.call hs d).2 ops).getHeaderBytes = .exn .logicError := by
  have hi := call_inv (hs := hs) hd.inv op hop
  exact getHeaderBytes_cleared (run_inv hi ops hops) (stays_clear ops hops hnos hi (change_clears hd.inv op hno hop hsucc))

/-- C32: a recomputation that succeeds makes the bytes available again. -/
theorem C32_recomputed (hs : Hashes) {d : DataHeader} (hd : HObj d) (pw : Bytes) (clk : Nat → Nat)
    (hsucc : (HOp.call hs d (.calcBytes pw clk)).1 = .ok ()) :
    ∃ hb, (HOp.call hs d (.calcBytes pw clk)).2.getHeaderBytes = .ok hb ∧ hb.data = d.contents.bytes := by
  rcases calc_state (hs := hs) (pw := pw) (clk := clk) hd.inv with ⟨-, hc, -, -, hst⟩ | ⟨h, -⟩
  · obtain ⟨h1, h2, -⟩ := complete_parts hd.inv hc
    have hi' := call_inv (hs := hs) hd.inv (.calcBytes pw clk) trivial
    simp only [HOp.call, hst] at hi' ⊢
    have g := (headerLength_good hi' h1 h2).1
    have hl := contents_lengths hd.inv hc
    refine ⟨⟨d.contents.bytes, d.contents.length⟩, ?_, rfl⟩
    have e : ({ d with headerBytes := ⟨d.contents.bytes, d.contents.length⟩ } : DataHeader).contents = d.contents := rfl
    rw [e] at g
    have h0 : d.contents.length ≠ 0 := by unfold Header.length; omega
    simp only [DataHeader.getHeaderBytes, g, Res.bind_ok, Bytes.len, hl, ne_eq, not_true, if_false, h0]
  · exact absurd hsucc h

/-- the hypotheses of C32 are met: the sample has its bytes, a further data block is accepted -/
example : ∃ d hb, HObj d ∧ d.getHeaderBytes = .ok hb ∧
    (((HOp.addBlock ⟨5, Bytes.full [1, 2, 3]⟩).call toyHashes d).1 == .ok () && d.isComplete) = true :=
  onSample_obj (p := fun d hb => _) (by decide +kernel)

/-! ### C33 -/

/-- C33: if parsing a stream succeeds, both size fields are right, the contents fit the format (modes, iterations and
block lengths in range), and the bytes of the parsed object are exactly the bytes read. -/
theorem C33_accepted (hs : Hashes) (r : Rand) (hr : r.good = true) (l : List Byte) (s s' : IStream) (hf : Fresh s l)
    {d : DataHeader} (h : setHeaderStream hs r s = .ok (.val d s')) :
    beValue (l.take 8) = l.length ∧ d.contents.fileSize = l.length ∧
    (∃ n, n ≤ l.length ∧ beValue ((l.drop 8).take 8) = n ∧ s'.rest = l.drop n ∧
      ∃ hb, d.getHeaderBytes = .ok hb ∧ hb.data = l.take n ∧ hb.data = d.contents.bytes) ∧
    d.contents.Valid := by
  obtain ⟨hd, hv, rfl, h1, h2, -⟩ := setHeaderStream_val hr hf.2 h
  rw [hf.1] at h1 h2
  rw [contents_mkHeader hv]
  have hl := length_bytes hd hv.validator hv.salt hv.encLen
  have h64 := hv.size64
  have hsz := hv.size
  have h16 : 16 ≤ hd.bytes.length := by rw [hl]; unfold Header.length; omega
  have e1 : l.take 8 = hd.bytes.take 8 := by rw [h2, List.take_append_of_le_length (by omega)]
  have e2 : (l.drop 8).take 8 = (hd.bytes.drop 8).take 8 := by
    rw [h2, List.drop_append_of_le_length (by omega), List.take_append_of_le_length (by simp; omega)]
  refine ⟨by rw [e1, file_field _ h64, h1], h1, ⟨hd.length, by omega, ?_, ?_, ?_⟩, hv⟩
  · rw [e2, size_field _ (by omega)]
  · rw [h2, ← hl, List.drop_left]
  · exact ⟨_, mkHeader_bytes hv, by rw [h2, ← hl, List.take_left], rfl⟩

/-- C33 for the memory parser: contents and bytes as above. This parser does not compare the announced file size with the
number of bytes it is given. -/
theorem C33_memory (hs : Hashes) (r : Rand) (hr : r.good = true) (file : Bytes) (hlen : file.data.length < 2 ^ 63)
    {d : DataHeader} {i : Nat} (h : setHeaderMem file hs r = .ok (.val d i)) :
    i ≤ file.data.length ∧ beValue ((file.data.drop 8).take 8) = i ∧
    (∃ hb, d.getHeaderBytes = .ok hb ∧ hb.data = file.data.take i ∧ hb.data = d.contents.bytes) ∧
    d.contents.Valid := by
  obtain ⟨hd, rest, hv, rfl, rfl, -, h2, -⟩ := setHeaderMem_val hr hlen h
  rw [contents_mkHeader hv]
  have hl := length_bytes hd hv.validator hv.salt hv.encLen
  have h64 := hv.size64
  have hsz := hv.size
  have h16 : 16 ≤ hd.bytes.length := by rw [hl]; unfold Header.length; omega
  refine ⟨?_, ?_, ?_, hv⟩
  · rw [h2, List.length_append, hl]; omega
  · have e2 : (file.data.drop 8).take 8 = (hd.bytes.drop 8).take 8 := by
      rw [h2, List.drop_append_of_le_length (by omega), List.take_append_of_le_length (by simp; omega)]
    rw [e2, size_field _ (by omega)]
  · exact ⟨_, mkHeader_bytes hv, by rw [h2, ← hl, List.take_left], rfl⟩

/-- result of a parser run without its final position -/
def outcome {σ : Type} : Res (Step σ DataHeader) → Res (Option Header × Option ErrorCode)
  | .ok (.val d _) => .ok (some d.contents, none)
  | .ok (.stop c) => .ok (none, some c)
  | .exn e => .exn e
  | .fatal f => .fatal f

/-- a header without data blocks and chain-hash data, 104 bytes, with three bytes of data after it -/
def smallHeader : Header := ⟨107, 1, 1, [], ⟨1, 1, []⟩, ⟨1, 7, []⟩, List.replicate 32 1, List.replicate 32 2, []⟩

/-- the hypotheses of C33 are met: parsers accept the small header -/
example : outcome (setHeaderStream toyHashes sampleRand ⟨smallHeader.bytes ++ [9, 9, 9], fun _ => 5, false, false⟩) =
    .ok (some smallHeader, none) := by decide +kernel
example : outcome (setHeaderMem (Bytes.full (smallHeader.bytes ++ [9, 9, 9])) toyHashes sampleRand) =
    .ok (some smallHeader, none) := by decide +kernel

/-! ### C34 -/

/-- C34, exact: the parser is killed (`std::terminate`, failed `assert`) by exactly the damaged headers named by
`ZeroBlock`, `WrongChainLength` and `WrongHeaderSize`; on every other byte string it succeeds or returns an error. -/
theorem C34_killed_iff_partial (hs : Hashes) (r : Rand) (hr : r.good = true) (l : List Byte) (hl : l.length < 2 ^ 64)
    (s : IStream) (hf : Fresh s l) :
    (setHeaderStream hs r s = .fatal .terminate ↔ ZeroBlock l) ∧
    (setHeaderStream hs r s = .fatal .abort ↔ WrongChainLength l ∨ WrongHeaderSize l) ∧
    (¬ ZeroBlock l → ¬ WrongChainLength l → ¬ WrongHeaderSize l → ∃ x, setHeaderStream hs r s = .ok x) := by
  have hsim := setHeaderStream_eq hs r s hf.2
  have hcases := setHeaderStream_cases (hs := hs) hr s hf.2
  rw [hf.1] at hsim hcases
  refine ⟨⟨?_, ?_⟩, ⟨?_, ?_⟩, ?_⟩
  · intro h
    rcases hcases with ⟨c, e⟩ | ⟨_, _, -, -, -, -, e⟩ | ⟨hz, -⟩ | ⟨-, e⟩
    · rw [e] at h; cases h
    · rw [e] at h; cases h
    · exact hz
    · rw [e] at h; cases h
  · intro h; rw [rdHeader_zero hr hl h] at hsim; exact hsim
  · intro h
    rcases hcases with ⟨c, e⟩ | ⟨_, _, -, -, -, -, e⟩ | ⟨-, e⟩ | ⟨hz, -⟩
    · rw [e] at h; cases h
    · rw [e] at h; cases h
    · rw [e] at h; cases h
    · exact hz
  · rintro (h | h)
    · rw [rdHeader_chain hr hl h] at hsim; exact hsim
    · rw [rdHeader_size hr hl h] at hsim; exact hsim
  · intro h1 h2 h3
    rcases hcases with ⟨c, e⟩ | ⟨_, _, -, -, -, -, e⟩ | ⟨hz, -⟩ | ⟨hz | hz, -⟩
    · exact ⟨_, e⟩
    · exact ⟨_, e⟩
    · exact absurd hz h1
    · exact absurd hz h2
    · exact absurd hz h3

/-- 21 bytes announcing one data block of length zero -/
def zeroFile : List Byte := num8 21 ++ (num8 21 ++ [1, 1, 1, 7, 0])

/-- 29 bytes with a chain hash of mode 1 whose data length byte is 5 instead of 0 -/
def chainFile : List Byte := num8 29 ++ (num8 29 ++ [1, 1, 0, 1, 0, 0, 0, 0, 0, 0, 0, 1, 5])

/-- a proper header but for its header size field (103 instead of 104) -/
def sizeFile : List Byte := num8 107 ++ (num8 103 ++ (smallHeader.content ++ [9, 9, 9]))

theorem zeroFile_bad : ZeroBlock zeroFile :=
  ⟨21, 1, 1, [], 7, [], ⟨rfl, by decide, by decide, by decide, by simp⟩, by decide⟩

theorem chainFile_bad : WrongChainLength chainFile :=
  ⟨29, 1, 0, [], _, ⟨rfl, by decide, by decide, by decide, by simp⟩, rfl,
    .inl ⟨1, 1, 5, [], 0, rfl, by decide, rfl, by decide, by simp⟩⟩

theorem smallHeader_valid : smallHeader.Valid :=
  ⟨by decide, by decide, rfl, .inl rfl, by decide, by simp [smallHeader], by decide, by decide, by decide, by decide,
    by decide, by simp [smallHeader]⟩

theorem sizeFile_bad : WrongHeaderSize sizeFile :=
  ⟨smallHeader, 103, [9, 9, 9], smallHeader_valid, by decide +kernel, rfl, by decide +kernel, by decide +kernel⟩

/-- C34 is violated: there are files (of 21 and 29 bytes) on which the parser kills the process, whatever the hash
functions, the random source and the delivery schedule. -/
theorem C34_violated (hs : Hashes) (r : Rand) (hr : r.good = true) (s : IStream) :
    (Fresh s zeroFile → setHeaderStream hs r s = .fatal .terminate) ∧
    (Fresh s chainFile → setHeaderStream hs r s = .fatal .abort) ∧
    (Fresh s sizeFile → setHeaderStream hs r s = .fatal .abort) :=
  ⟨fun h => (C34_killed_iff_partial hs r hr _ (by decide +kernel) s h).1.mpr zeroFile_bad,
   fun h => (C34_killed_iff_partial hs r hr _ (by decide +kernel) s h).2.1.mpr (.inl chainFile_bad),
   fun h => (C34_killed_iff_partial hs r hr _ (by decide +kernel) s h).2.1.mpr (.inr sizeFile_bad)⟩

/-- such streams exist; and damaged files that are answered by an error -/
example : Fresh ⟨zeroFile, fun _ => 3, false, false⟩ zeroFile := ⟨rfl, rfl⟩
example : outcome (setHeaderStream toyHashes sampleRand ⟨zeroFile.take 20, fun _ => 3, false, false⟩) =
    .ok (none, some .ERR_FILESIZE_INVALID) := by decide +kernel

/-! ### C35 -/

/-- C35, exact: a written header (with the announced amount of data) that the stream parser reads back is read back by the
memory parser exactly if neither chain hash has a free part (a salt of variable length) and the header is shorter than
2^16 bytes; then both parsers give the same object, the one that was written. -/
theorem C35_agree_iff_partial (hs : Hashes) (r : Rand) (hr : r.good = true) {d : DataHeader} (hd : HObj d)
    (hne : ∀ b ∈ d.contents.blocks, b.2 ≠ []) {hb : Bytes} (hbytes : d.getHeaderBytes = .ok hb) (data : List Byte)
    (hsize : d.contents.fileSize = hb.data.length + data.length) (hsmall : d.contents.fileSize < 2 ^ 63)
    (file : Bytes) (hfile : file.data = hb.data ++ data) (s : IStream) (hf : Fresh s file.data) :
    ∃ d' s', setHeaderStream hs r s = .ok (.val d' s') ∧ d'.contents = d.contents ∧
      ((∃ d'' i, setHeaderMem file hs r = .ok (.val d'' i)) ↔
        d.contents.ch1.free = [] ∧ d.contents.ch2.free = [] ∧ hb.data.length < 2 ^ 16) ∧
      (∀ d'' i, setHeaderMem file hs r = .ok (.val d'' i) → d'' = d' ∧ i = hb.data.length) := by
  have hi := hd.inv
  obtain ⟨hc, -, -, hbd⟩ := getHeaderBytes_ok hi hbytes
  have hl := contents_lengths hi hc
  have hlen : file.data.length = d.contents.fileSize := by rw [hfile, List.length_append]; exact hsize.symm
  have hsize' := hsize
  rw [hbd, hl] at hsize
  have hv := complete_valid hi hc hne (by omega)
  have hsim := setHeaderStream_eq hs r s hf.2
  rw [hf.1, hfile, hbd, rdHeader_append hr hv data hsize] at hsim
  obtain ⟨s', h1, h2, -⟩ := hsim
  have key : ∀ d'' i, setHeaderMem file hs r = .ok (.val d'' i) → d'' = mkHeader d.contents ∧ i = hb.data.length ∧
      d.contents.ch1.free = [] ∧ d.contents.ch2.free = [] ∧ hb.data.length < 2 ^ 16 := by
    intro d'' i h
    obtain ⟨hd', rest, v1, rfl, rfl, v3, v4, v5, v6⟩ := setHeaderMem_val hr (by omega) h
    have hl' := length_bytes hd' v1.validator v1.salt v1.encLen
    have f1 := file_field hd' v1.size64
    have f2 := file_field d.contents hv.size64
    have g1 : hd'.bytes.take 8 = file.data.take 8 := by
      rw [v4, List.take_append_of_le_length]; rw [hl']; unfold Header.length; omega
    have g2 : d.contents.bytes.take 8 = file.data.take 8 := by
      rw [hfile, hbd, List.take_append_of_le_length]; rw [hl]; unfold Header.length; omega
    rw [g1] at f1
    rw [g2, f1] at f2
    have q := rdHeader_append (hs := hs) hr v1 rest (by
      have : file.data.length = hd'.length + rest.length := by rw [v4, List.length_append, hl']
      omega)
    rw [← v4, hfile, hbd, rdHeader_append hr hv data hsize] at q
    have e : mkHeader d.contents = mkHeader hd' := by injection q with q; injection q
    have e' : d.contents = hd' := by rw [← contents_mkHeader hv, e, contents_mkHeader v1]
    subst e'
    rw [hbd, hl]
    exact ⟨rfl, rfl, v5, v6, v3⟩
  refine ⟨_, s', h1, contents_mkHeader hv, ⟨?_, ?_⟩, fun d'' i h => ⟨(key d'' i h).1, (key d'' i h).2.1⟩⟩
  · rintro ⟨d'', i, h⟩; exact (key d'' i h).2.2
  · rintro ⟨k1, k2, k3⟩
    rw [hbd, hl] at k3
    exact ⟨_, _, setHeaderMem_append hr hv data k1 k2 k3 (by rw [hfile, hbd])⟩

/-- the small header with a chain hash of mode 2 (constant salt of 2 bytes) -/
def saltHeader : Header := { smallHeader with fileSize := 109, ch1 := ⟨2, 1, [9, 6]⟩ }

/-- C35 is violated: the stream parser reads this header, the memory parser does not. -/
theorem C35_violated :
    outcome (setHeaderStream toyHashes sampleRand ⟨saltHeader.bytes ++ [9, 9, 9], fun _ => 5, false, false⟩) =
      .ok (some saltHeader, none) ∧
    outcome (setHeaderMem (Bytes.full (saltHeader.bytes ++ [9, 9, 9])) toyHashes sampleRand) =
      .ok (none, some .ERR_CHAINHASHMODE_FORMAT_INVALID) := by
  constructor <;> decide +kernel

/-- the hypotheses of the exact statement are met by an object with a free part (chain hash 1 has three bytes of salt) -/
example : ∃ d hb, HObj d ∧ d.getHeaderBytes = .ok hb ∧ (d.contents.blocks == [(3, [10, 20])] &&
    d.contents.fileSize == hb.data.length + 4 && d.contents.ch1.free == [1, 2, 3]) = true :=
  onSample_obj (p := fun d hb => _) (by decide +kernel)

/-! ### C36 -/

/-- C36: as long as header length and data size sum up to less than 2^32, setting the data size makes the announced file
size their sum. -/
theorem C36_sum_partial {d d' : DataHeader} (hd : HObj d) (n : UInt32) (h : d.setDataSize n = .ok d')
    (hn : n.toNat + d.contents.length < 2 ^ 32) :
    d'.contents.fileSize = d.contents.length + n.toNat ∧ d'.getHeaderLength = .ok d.contents.length := by
  rw [setDataSize_eq hd.inv] at h
  split at h
  · rename_i hc
    cases h
    obtain ⟨h1, h2, -⟩ := complete_parts hd.inv hc
    constructor
    · show (UInt64.ofNat ((n.toNat + d.contents.length) % 2 ^ 32)).toNat = _
      rw [UInt64.toNat_ofNat', Nat.mod_eq_of_lt hn, Nat.mod_eq_of_lt (by omega), Nat.add_comm]
    · have hi' := DHBase.inv (d := { d.clear with fileSize := some (UInt64.ofNat ((n.toNat + d.contents.length) % 2 ^ 32)) })
        { hd.inv.clear.base with } (.inl rfl)
      exact (headerLength_good hi' h1 h2).1
  · cases h

/-- C36 is violated: from a sum of 2^32 on, the call succeeds too, but the announced file size is 2^32 short. -/
theorem C36_wraps {d d' : DataHeader} (hd : HObj d) (n : UInt32) (h : d.setDataSize n = .ok d')
    (hn : 2 ^ 32 ≤ n.toNat + d.contents.length) :
    d'.contents.fileSize + 2 ^ 32 = d.contents.length + n.toNat := by
  have hn32 := n.toNat_lt
  rw [setDataSize_eq hd.inv] at h
  split at h
  · rename_i hc
    cases h
    obtain ⟨h1, h2, -⟩ := complete_parts hd.inv hc
    have hle := (headerLength_good hd.inv h1 h2).2
    show (UInt64.ofNat ((n.toNat + d.contents.length) % 2 ^ 32)).toNat + _ = _
    rw [UInt64.toNat_ofNat']
    omega
  · cases h

/-- C36: setting the file size directly is accepted exactly if it leaves room for the header, and is then announced. -/
theorem C36_file_size {d : DataHeader} (hd : HObj d) (n : UInt64) :
    ((∃ d', d.setFileSize n = .ok d') ↔ d.isComplete = true ∧ d.contents.length ≤ n.toNat) ∧
    ∀ d', d.setFileSize n = .ok d' → d'.contents.fileSize = n.toNat := by
  rw [setFileSize_eq hd.inv]
  refine ⟨?_, ?_⟩
  · by_cases hc : d.isComplete = true
    · by_cases hn : n.toNat < d.contents.length
      · simp [hc, hn]
      · simp [hc, hn]; omega
    · simp [hc]
  · intro d' h
    split at h
    · split at h
      · cases h
      · cases h; rfl
    · cases h

/-- the violating case exists: 119 bytes of header and 2^32 - 1 bytes of data are announced as 118 bytes -/
theorem C36_violated : ∃ d d' : DataHeader, HObj d ∧ d.setDataSize 4294967295 = .ok d' ∧ d.contents.length = 119 ∧
    d'.contents.fileSize = 118 := by
  obtain ⟨d, hb, h1, -, h3⟩ := onSample_obj (p := fun d _ => d.isComplete && d.contents.length == 119) (by decide +kernel)
  simp only [Bool.and_eq_true, beq_iff_eq] at h3
  obtain ⟨hc, hl⟩ := h3
  have h : d.setDataSize 4294967295 = .ok
      { d.clear with fileSize := some (UInt64.ofNat (((4294967295 : UInt32).toNat + d.contents.length) % 2 ^ 32)) } := by
    rw [setDataSize_eq h1.inv, if_pos hc]
  refine ⟨d, _, h1, h, hl, ?_⟩
  have e : (4294967295 : UInt32).toNat = 4294967295 := rfl
  have := C36_wraps h1 _ h (by rw [e, hl]; decide)
  have key : ∀ x : Nat, x + 2 ^ 32 = d.contents.length + (4294967295 : UInt32).toNat → x = 118 := by
    intro x hx; rw [e, hl] at hx; omega
  exact key _ this

/-- the case with a proper sum exists as well -/
example : ∃ d hb, HObj d ∧ d.getHeaderBytes = .ok hb ∧
    (d.isComplete && d.contents.length == 119 && decide (1000 + d.contents.length < 2 ^ 32)) = true :=
  onSample_obj (p := fun d hb => _) (by decide +kernel)

/-! ### C37 -/

/-- C37 for data blocks of exactly 255 bytes: they can be encrypted, and decrypt to what was put in. -/
theorem C37_round_trip_partial (H : HashFn) (b : DataBlock) (hb : b.data.data.length = 255) (pw salt : Bytes)
    (hs : salt.data.length = H.size) (r : Rand) (hr : r.good = true) :
    ∃ e x, EncDataBlock.make b H pw salt r = .ok e ∧ e.getDec H pw salt = .ok x ∧ x.data = b.data.data := by
  have hm := EncDataBlock.make_eq b H pw salt r hr (by omega) hs
  rw [if_pos hb] at hm
  have hl := EncDataBlock.length_encStream H.h H.size H.len (H.h pw.data) 257 salt.data
  have h2 := H.pos
  have hle : 255 ≤ 257 * H.size := by omega
  refine ⟨_, _, hm, EncDataBlock.getDec_eq _ H pw salt hs ?_, ?_⟩
  · simp only [List.length_zipWith, hb, hl]; omega
  · have e : ((255 : Byte) + (H.h pw.data).getD 1 0 - (H.h pw.data).getD 1 0).toNat = 255 := by
      rw [UInt8.add_sub_cancel]; rfl
    simp only [e]
    rw [List.take_of_length_le (by simp only [List.length_zipWith, hb]; omega)]
    exact EncDataBlock.zip_sub_add _ _ (by rw [hl, hb]; omega)

/-- C37 is violated: no data block of fewer than 255 bytes can be encrypted. -/
theorem C37_violated (H : HashFn) (b : DataBlock) (hb : b.data.data.length < 255) (pw salt : Bytes)
    (hs : salt.data.length = H.size) (r : Rand) (hr : r.good = true) :
    EncDataBlock.make b H pw salt r = .exn .invalidArgument := by
  rw [EncDataBlock.make_eq b H pw salt r hr (by omega) hs, if_neg (by omega)]

/-- C37, decryption for all lengths: a block encrypted as documented (data plus key stream, padded to 255 bytes, the length
shifted by the second byte of the hashed password hash) decrypts to its data. -/
theorem C37_decrypt_partial (H : HashFn) (t : Byte) (data pad : List Byte) (hlen : data.length + pad.length = 255)
    (pw salt : Bytes) (hs : salt.data.length = H.size) :
    ∃ e x, EncDataBlock.createEncBlock t (Bytes.full (addB data (encStream H.h (H.h pw.data) 257 salt.data) ++ pad))
        (UInt8.ofNat data.length + (H.h pw.data).getD 1 0) = .ok e ∧ e.getDec H pw salt = .ok x ∧ x.data = data := by
  have hl := EncDataBlock.length_encStream H.h H.size H.len (H.h pw.data) 257 salt.data
  have h2 := H.pos
  have hle : 255 ≤ 257 * H.size := by omega
  have ha : (addB data (encStream H.h (H.h pw.data) 257 salt.data)).length = data.length := by
    rw [length_addB, hl]; omega
  have hfull : (addB data (encStream H.h (H.h pw.data) 257 salt.data) ++ pad).length = 255 := by
    rw [List.length_append, ha]; omega
  have e : ((UInt8.ofNat data.length : Byte) + (H.h pw.data).getD 1 0 - (H.h pw.data).getD 1 0).toNat = data.length := by
    rw [UInt8.add_sub_cancel, UInt8.toNat_ofNat', Nat.mod_eq_of_lt (by omega)]
  have hc : EncDataBlock.createEncBlock t (Bytes.full (addB data (encStream H.h (H.h pw.data) 257 salt.data) ++ pad))
        (UInt8.ofNat data.length + (H.h pw.data).getD 1 0) =
      .ok ⟨⟨t, Bytes.full (addB data (encStream H.h (H.h pw.data) 257 salt.data) ++ pad)⟩,
        UInt8.ofNat data.length + (H.h pw.data).getD 1 0⟩ := by
    simp [EncDataBlock.createEncBlock, Bytes.len, Bytes.full, hfull, DataBlock.setData]
  refine ⟨_, _, hc, EncDataBlock.getDec_eq _ H pw salt hs hfull, ?_⟩
  simp only [e, Bytes.full]
  rw [List.take_append_of_le_length (by omega), List.take_of_length_le (by omega), ← zipWith_add]
  exact EncDataBlock.zip_sub_add _ _ (by rw [hl]; omega)

/-- concrete cases: 255 bytes are accepted, 3 bytes are not -/
example : ((EncDataBlock.make ⟨2, Bytes.full (List.replicate 255 8)⟩ (toyHashes.get .sha256) (Bytes.full [1, 2])
    (Bytes.full (List.replicate 32 5)) sampleRand).bind fun e =>
      e.getDec (toyHashes.get .sha256) (Bytes.full [1, 2]) (Bytes.full (List.replicate 32 5))) =
    .ok (Bytes.full (List.replicate 255 8)) := by decide +kernel
example : EncDataBlock.make ⟨2, Bytes.full [7, 8, 9]⟩ (toyHashes.get .sha256) (Bytes.full [1, 2])
    (Bytes.full (List.replicate 32 5)) sampleRand = .exn .invalidArgument := by decide +kernel

/-! ### C38 -/

/-- C38, exact: the type is stored as it is, and the type returned on reading is shifted by the first byte of the hashed
password hash; it is the original one exactly if that byte is zero. -/
theorem C38_type_iff_partial (H : HashFn) (b : DataBlock) (pw salt : Bytes) (r : Rand) {e : EncDataBlock}
    (he : EncDataBlock.make b H pw salt r = .ok e) :
    e.getEncType = b.type ∧ ∃ t, e.getDecType H pw = .ok t ∧ (t = b.type ↔ (H.h pw.data).getD 0 0 = 0) := by
  obtain ⟨-, -, ht⟩ := encMake_ok he
  refine ⟨ht, _, EncDataBlock.getDecType_eq e H pw, ?_⟩
  rw [ht]
  constructor
  · intro h
    have h' : b.type - (H.h pw.data).getD 0 0 + (H.h pw.data).getD 0 0 = b.type + (H.h pw.data).getD 0 0 := by rw [h]
    rw [UInt8.sub_add_cancel] at h'
    have := congrArg (fun x => x - b.type) h'
    simp only [UInt8.sub_self] at this
    rw [UInt8.add_comm, UInt8.add_sub_cancel] at this
    exact this.symm
  · intro h; rw [h]; simp

/-- C38 is violated: a type that is not restored -/
theorem C38_violated : ∃ (H : HashFn) (b : DataBlock) (pw salt : Bytes) (r : Rand) (e : EncDataBlock) (t : Byte),
    EncDataBlock.make b H pw salt r = .ok e ∧ e.getDecType H pw = .ok t ∧ t ≠ b.type := by
  have hm := EncDataBlock.make_eq ⟨2, Bytes.full (List.replicate 255 8)⟩ (toyHashes.get .sha256) (Bytes.full [1, 2])
    (Bytes.full (List.replicate 32 5)) sampleRand rfl (by decide +kernel) (by decide +kernel)
  rw [if_pos (by decide +kernel)] at hm
  exact ⟨_, _, _, _, _, _, _, hm, EncDataBlock.getDecType_eq _ _ _, by decide +kernel⟩

/-! ### C40 -/

/-- C40: computing the header bytes with a password hash succeeds exactly if the object is complete, has a file size that
leaves room for the header, and the second chain hash of the password hash is the stored validator. -/
theorem C40_verified (hs : Hashes) {d : DataHeader} (hd : HObj d) (pw : Bytes) (hpw : pw.data ≠ []) (hwf : pw.WF)
    (clk : Nat → Nat) {m : HMode} (hm : d.contents.hashMode = m.toByte) :
    (d.calcHeaderBytes hs pw clk).1 = .ok () ↔
      d.isComplete = true ∧ d.fileSize.isSome = true ∧ d.contents.length ≤ d.contents.fileSize ∧
      d.contents.validator = d.contents.ch2.digest (hs.get m).h pw.data := by
  have hi := hd.inv
  have hm' : d.dh.hashMode = some m := by
    obtain ⟨m', h, -⟩ := hi.hm
    simp only [DataHeader.contents, h] at hm
    rw [h]
    revert hm; cases m' <;> cases m <;> simp [HMode.toByte]
  have he : pw.isEmpty = false := by
    unfold Bytes.isEmpty
    rw [beq_eq_false_iff_ne]
    exact fun h => hpw (List.length_eq_zero_iff.mp h)
  have verify : d.isComplete = true → (d.calcVerify hs pw clk = .ok () ↔
      d.contents.validator = d.contents.ch2.digest (hs.get m).h pw.data) := by
    intro hc
    obtain ⟨-, h2, -, v, hv, -⟩ := complete_parts hi hc
    obtain ⟨b, hb, hbd⟩ := h2.performBytes (hs.get m) pw hwf clk
    simp only [DataHeader.calcVerify, he, hm', hv, DataHeaderParts.get, Res.bind_ok, hb, DataHeader.returnValue,
      Bytes.beq, hbd, DataHeader.contents]
    simp only [Bool.false_eq_true, if_false, beq_iff_eq]
    by_cases hq : v.data = d.dh.ch2.desc.digest (hs.get m).h pw.data
    · simp [hq]
    · simp [hq]
  constructor
  · intro h
    rcases calc_state (hs := hs) (pw := pw) (clk := clk) hi with ⟨-, hc, ⟨n, hn, hln⟩, hv, -⟩ | ⟨h', -⟩
    · refine ⟨hc, by rw [hn]; rfl, ?_, (verify hc).mp hv⟩
      have : d.contents.fileSize = n.toNat := by simp [DataHeader.contents, hn]
      rw [this]; exact hln
    · exact absurd h h'
  · rintro ⟨hc, hf, hl, hv⟩
    obtain ⟨n, hn⟩ := Option.isSome_iff_exists.mp hf
    have e : d.contents.fileSize = n.toNat := by simp [DataHeader.contents, hn]
    rw [calcHeaderBytes_ok hi hc hn (by omega) ((verify hc).mpr hv)]

/-- C40: an empty password hash asks for the bytes without a check; the other conditions stay. -/
theorem C40_without_hash (hs : Hashes) {d : DataHeader} (hd : HObj d) (pw : Bytes) (hpw : pw.data = [])
    (clk : Nat → Nat) :
    (d.calcHeaderBytes hs pw clk).1 = .ok () ↔
      d.isComplete = true ∧ d.fileSize.isSome = true ∧ d.contents.length ≤ d.contents.fileSize := by
  have hi := hd.inv
  constructor
  · intro h
    rcases calc_state (hs := hs) (pw := pw) (clk := clk) hi with ⟨-, hc, ⟨n, hn, hln⟩, -, -⟩ | ⟨h', -⟩
    · have : d.contents.fileSize = n.toNat := by simp [DataHeader.contents, hn]
      exact ⟨hc, by rw [hn]; rfl, by rw [this]; exact hln⟩
    · exact absurd h h'
  · rintro ⟨hc, hf, hl⟩
    obtain ⟨n, hn⟩ := Option.isSome_iff_exists.mp hf
    have e : d.contents.fileSize = n.toNat := by simp [DataHeader.contents, hn]
    have hv : d.calcVerify hs pw clk = .ok () := by
      have he : pw.isEmpty = true := by simp [Bytes.isEmpty, hpw]
      simp [DataHeader.calcVerify, he]
    rw [calcHeaderBytes_ok hi hc hn (by omega) hv]

/-- the sample gives its bytes without a password hash -/
example : ∃ d hb, HObj d ∧ d.getHeaderBytes = .ok hb ∧ ((d.calcHeaderBytes toyHashes (Bytes.full []) fun _ => 0).1 ==
    .ok ()) = true :=
  onSample_obj (p := fun d hb => _) (by decide +kernel)

/-- the sample refuses a password hash its validator does not belong to -/
example : ∃ d hb, HObj d ∧ d.getHeaderBytes = .ok hb ∧ ((d.calcHeaderBytes toyHashes (Bytes.full [1]) fun _ => 0).1 ==
    .exn .invalidArgument) = true :=
  onSample_obj (p := fun d hb => _) (by decide +kernel)

/-- and takes one whose second chain hash has been set as validator -/
example : ∃ d hb, HObj d ∧ d.getHeaderBytes = .ok hb ∧
    ((((HOp.setValidator (Bytes.full (d.contents.ch2.digest (toyHashes.get .sha256).h [1]))).call toyHashes d).2.calcHeaderBytes
      toyHashes (Bytes.full [1]) fun _ => 0).1 == .ok ()) = true :=
  onSample_obj (p := fun d hb => _) (by decide +kernel)

end Verif.Props
