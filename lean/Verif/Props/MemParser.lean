import Verif.Lemmas.HeaderMemSafe
import Verif.Props.DataHeader

/- C99: reading a header from memory. -/
namespace Verif.Props
open Spec HeaderParse

/-- C99, partial: whatever bytes it is given, the parser for bytes in memory delivers a header, returns one of ten errors, or fails
an assertion. It never calls `std::terminate`, never leaves defined behaviour and always ends. Missing: bytes that make it fail an
assertion exist, see `C99_violated`. -/
theorem C99_result_partial (hs : Hashes) (r : Rand) (hr : r.good = true) (file : Bytes) :
    (∃ d i, setHeaderMem file hs r = .ok (.val d i)) ∨
    (∃ c ∈ [ErrorCode.ERR_NOT_ENOUGH_DATA, .ERR_HASHMODE_INVALID, .ERR_FILEMODE_INVALID, .ERR_CHAINHASHMODE_FORMAT_INVALID,
        .ERR_CHAINHASH_DATABLOCK_OUTOFRANGE, .ERR_CHAINHASH_DATAPART_INVALID, .ERR_CHAINHASH1_INVALID, .ERR_CHAINHASH2_INVALID,
        .ERR_FILESIZE_INVALID, .ERR],
      setHeaderMem file hs r = .ok (.stop c)) ∨
    setHeaderMem file hs r = .fatal .abort := by
  rcases setHeaderMem_cases file hs hr with ⟨-, h⟩ | ⟨n, hsize, l, -, ⟨-, h⟩ | ⟨-, ⟨-, h⟩ | ⟨fm, hm, l', -, ⟨-, h⟩ | ⟨m, -, ⟨-, h⟩ |
    ⟨-, h⟩⟩⟩⟩⟩
  · exact .inr (.inl ⟨_, by decide, h⟩)
  · exact .inr (.inl ⟨_, by decide, h⟩)
  · exact .inr (.inl ⟨_, by decide, h⟩)
  · exact .inr (.inl ⟨_, by decide, h⟩)
  · exact .inr (.inl ⟨_, by decide, h⟩)
  · rw [h]
    rcases cpEnd_result file hs n hsize (sound_start m ⟨r.take m.size, m.size⟩) 18 with h | ⟨c, hc, h⟩ | h
    · exact .inl h
    · exact .inr (.inl ⟨c, by cases hc <;> decide, h⟩)
    · exact .inr (.inr h)

/-- the three kinds of outcome -/
example : outcome (setHeaderMem (Bytes.full (smallHeader.bytes ++ [9])) toyHashes sampleRand) = .ok (some smallHeader, none) := by
  decide +kernel
example : outcome (setHeaderMem (Bytes.full (smallHeader.bytes.take 70)) toyHashes sampleRand) =
    .ok (none, some .ERR_NOT_ENOUGH_DATA) := by decide +kernel
example : outcome (setHeaderMem (Bytes.full (smallHeader.bytes.take 15 ++ [40] ++ (smallHeader.bytes.drop 16).take 60)) toyHashes
    sampleRand) = .ok (none, some .ERR) := by decide +kernel

/-- size fields from their bytes -/
theorem mem_fields {n hsize : UInt64} {l l' : List Byte} (e : l = num8 n.toNat ++ (num8 hsize.toNat ++ l')) :
    16 ≤ l.length ∧ beValue ((l.drop 8).take 8) = hsize.toNat ∧ l.drop 16 = l' := by
  have h8 : l.drop 8 = num8 hsize.toNat ++ l' := by rw [e, List.drop_left' (length_num8 _)]
  refine ⟨by rw [e]; simp; omega, ?_, ?_⟩
  · rw [h8, List.take_left' (length_num8 _), num8_toNat, beValue_be8]
  · have : l.drop 16 = (l.drop 8).drop 8 := by rw [List.drop_drop]
    rw [this, h8, List.drop_left' (length_num8 _)]

/-- C99: "not enough data" means exactly that the size fields are cut off, or that the header announces more bytes than there are. A
header cut off further on gets another error. -/
theorem C99_short (hs : Hashes) (r : Rand) (hr : r.good = true) (file : Bytes) :
    setHeaderMem file hs r = .ok (.stop .ERR_NOT_ENOUGH_DATA) ↔
      file.data.length < 16 ∨ file.data.length < beValue ((file.data.drop 8).take 8) := by
  rcases setHeaderMem_cases file hs hr with ⟨h1, h⟩ | ⟨n, hsize, l, e, hh⟩
  · exact ⟨fun _ => .inl h1, fun _ => h⟩
  · obtain ⟨f1, f2, -⟩ := mem_fields e
    rw [f2]
    rcases hh with ⟨h1, h⟩ | ⟨hle, hh⟩
    · exact ⟨fun _ => .inr h1, fun _ => h⟩
    · refine ⟨fun h0 => ?_, fun h0 => by omega⟩
      rcases hh with ⟨-, h⟩ | ⟨fm, hm, l', -, ⟨-, h⟩ | ⟨m, -, ⟨-, h⟩ | ⟨-, h⟩⟩⟩
      · rw [h0] at h; cases h
      · rw [h0] at h; cases h
      · rw [h0] at h; cases h
      · rw [h0] at h
        rcases cpEnd_result file hs n hsize (sound_start m ⟨r.take m.size, m.size⟩) 18 with ⟨d, j, h2⟩ | ⟨c, hc, h2⟩ | h2
        · rw [h2] at h; cases h
        · rw [h2] at h; cases h; cases hc
        · rw [h2] at h; cases h

/-- C99: an invalid hash mode is reported exactly when it is there. -/
theorem C99_hash (hs : Hashes) (r : Rand) (hr : r.good = true) (file : Bytes) :
    setHeaderMem file hs r = .ok (.stop .ERR_HASHMODE_INVALID) ↔
      beValue ((file.data.drop 8).take 8) ≤ file.data.length ∧
      ∃ fmode hmode rest, file.data.drop 16 = fmode :: hmode :: rest ∧ ¬ (hmode = 1 ∨ hmode = 2 ∨ hmode = 3) := by
  rcases setHeaderMem_cases file hs hr with ⟨h1, h⟩ | ⟨n, hsize, l, e, hh⟩
  · rw [h]
    refine ⟨fun h => (by cases h), ?_⟩
    rintro ⟨-, fm, hm, rest, h2, -⟩
    rw [List.drop_of_length_le (by omega)] at h2
    cases h2
  · obtain ⟨f1, f2, f3⟩ := mem_fields e
    rw [f2, f3]
    rcases hh with ⟨h1, h⟩ | ⟨hle, ⟨h1, h⟩ | ⟨fm, hm, l', rfl, ⟨h1, h⟩ | ⟨m, h1, hh⟩⟩⟩
    · rw [h]
      exact ⟨fun h => (by cases h), fun h => by omega⟩
    · rw [h]
      refine ⟨fun h => (by cases h), ?_⟩
      rintro ⟨-, fm, hm, rest, rfl, -⟩
      simp at h1
      omega
    · refine ⟨fun _ => ⟨hle, fm, hm, l', rfl, ?_⟩, fun _ => h⟩
      rintro (rfl | rfl | rfl) <;> cases h1
    · refine ⟨fun h0 => ?_, ?_⟩
      · rcases hh with ⟨-, h⟩ | ⟨-, h⟩
        · rw [h0] at h; cases h
        · rw [h0] at h
          rcases cpEnd_result file hs n hsize (sound_start m ⟨r.take m.size, m.size⟩) 18 with ⟨d, j, h2⟩ | ⟨c, hc, h2⟩ | h2
          · rw [h2] at h; cases h
          · rw [h2] at h; cases h; cases hc
          · rw [h2] at h; cases h
      · rintro ⟨-, fm', hm', rest, h2, h3⟩
        cases h2
        exact absurd (ofByte_valid h1) h3

/-- C99: an invalid file mode is reported exactly when it is there and the hash mode is not at fault. -/
theorem C99_fileMode (hs : Hashes) (r : Rand) (hr : r.good = true) (file : Bytes) :
    setHeaderMem file hs r = .ok (.stop .ERR_FILEMODE_INVALID) ↔
      beValue ((file.data.drop 8).take 8) ≤ file.data.length ∧
      ∃ fmode hmode rest, file.data.drop 16 = fmode :: hmode :: rest ∧ (hmode = 1 ∨ hmode = 2 ∨ hmode = 3) ∧ fmode ≠ 1 := by
  rcases setHeaderMem_cases file hs hr with ⟨h1, h⟩ | ⟨n, hsize, l, e, hh⟩
  · rw [h]
    refine ⟨fun h => (by cases h), ?_⟩
    rintro ⟨-, fm, hm, rest, h2, -⟩
    rw [List.drop_of_length_le (by omega)] at h2
    cases h2
  · obtain ⟨f1, f2, f3⟩ := mem_fields e
    rw [f2, f3]
    rcases hh with ⟨h1, h⟩ | ⟨hle, ⟨h1, h⟩ | ⟨fm, hm, l', rfl, ⟨h1, h⟩ | ⟨m, h1, ⟨hf, h⟩ | ⟨hf, h⟩⟩⟩⟩
    · rw [h]
      exact ⟨fun h => (by cases h), fun h => by omega⟩
    · rw [h]
      refine ⟨fun h => (by cases h), ?_⟩
      rintro ⟨-, fm, hm, rest, rfl, -⟩
      simp at h1
      omega
    · rw [h]
      refine ⟨fun h => (by cases h), ?_⟩
      rintro ⟨-, fm', hm', rest, h2, h3, -⟩
      cases h2
      rcases h3 with rfl | rfl | rfl <;> cases h1
    · exact ⟨fun _ => ⟨hle, fm, hm, l', rfl, ofByte_valid h1, hf⟩, fun _ => h⟩
    · refine ⟨fun h0 => ?_, ?_⟩
      · rw [h0] at h
        rcases cpEnd_result file hs n hsize (sound_start m ⟨r.take m.size, m.size⟩) 18 with ⟨d, j, h2⟩ | ⟨c, hc, h2⟩ | h2
        · rw [h2] at h; cases h
        · rw [h2] at h; cases h; cases hc
        · rw [h2] at h; cases h
      · rintro ⟨-, fm', hm', rest, h2, -, h3⟩
        cases h2
        exact absurd hf h3

/-- bytes for each of the three errors -/
example : ([1, 2, 3] : List Byte).length < 16 := by decide
example : ((num8 5 ++ (num8 200 ++ [1, 1])).length) < beValue (((num8 5 ++ (num8 200 ++ [1, 1])).drop 8).take 8) := by decide
example : beValue (((num8 5 ++ (num8 18 ++ [7, 9])).drop 8).take 8) ≤ (num8 5 ++ (num8 18 ++ [7, 9])).length ∧
    ∃ fmode hmode rest, (num8 5 ++ (num8 18 ++ [7, 9])).drop 16 = fmode :: hmode :: rest ∧
      ¬ (hmode = (1 : Byte) ∨ hmode = 2 ∨ hmode = 3) := ⟨by decide, 7, 9, [], by decide, by decide⟩
example : beValue (((num8 5 ++ (num8 18 ++ [7, 2])).drop 8).take 8) ≤ (num8 5 ++ (num8 18 ++ [7, 2])).length ∧
    ∃ fmode hmode rest, (num8 5 ++ (num8 18 ++ [7, 2])).drop 16 = fmode :: hmode :: rest ∧
      (hmode = (1 : Byte) ∨ hmode = 2 ∨ hmode = 3) ∧ fmode ≠ 1 := ⟨by decide, 7, 2, [], by decide, by decide, by decide⟩

/-- C99: an empty data block, which ends the process when the header is read from a file, is an ordinary error here. -/
theorem C99_zero_block (hs : Hashes) (r : Rand) (hr : r.good = true) (file : Bytes) (hl : file.data.length < 2 ^ 16)
    (hz : ZeroBlock file.data) (s : IStream) (hf : Fresh s file.data) :
    setHeaderMem file hs r = .ok (.stop .ERR) ∧ setHeaderStream hs r s = .fatal .terminate := by
  refine ⟨?_, (C34_killed_iff_partial hs r hr file.data (by omega) s hf).1.mpr hz⟩
  obtain ⟨hsize, hmode, count, bs, t, rest, ⟨e, hsz, hm, hn, hb⟩, hlt⟩ := hz
  rcases setHeaderMem_cases file hs hr with ⟨h1, -⟩ | ⟨n, hsize', l, e', hh⟩
  · exact absurd (congrArg List.length e) (by simp; omega)
  · obtain ⟨f1, f2, f3⟩ := mem_fields e'
    have h64 : hsize = (UInt64.ofNat hsize).toNat := (ofNat_toNat64 (by omega)).symm
    have hl64 : file.data.length = (UInt64.ofNat file.data.length).toNat := (ofNat_toNat64 (by omega)).symm
    have e0 := e
    rw [hl64, h64] at e0
    obtain ⟨-, g2, g3⟩ := mem_fields e0
    rw [f2] at g2
    rw [f3] at g3
    rw [← h64] at g2
    have hcount : ∃ k, count.toNat = bs.length + (k + 1) := ⟨count.toNat - bs.length - 1, by omega⟩
    obtain ⟨k, hk⟩ := hcount
    have hc := count.toNat_lt
    rcases hh with ⟨h1, -⟩ | ⟨-, ⟨h1, -⟩ | ⟨fm, hm', l', rfl, hh⟩⟩
    · omega
    · rw [g3] at h1; simp at h1; omega
    · cases g3
      rcases hh with ⟨h1, -⟩ | ⟨m, h1, ⟨h2, -⟩ | ⟨-, h⟩⟩
      · rcases hm with rfl | rfl | rfl <;> cases h1
      · exact absurd rfl h2
      · rw [h]
        have a0 : At file 0 (num8 file.data.length ++ (num8 hsize ++ 1 :: hmode :: count :: (blockBytes bs ++ t :: 0 :: rest))) :=
          ⟨e, by omega⟩
        have a16 := (a0.next' (length_num8 _)).next' (length_num8 _)
        have a18 := a16.next1.next1
        have a19 : At file 19 (blockBytes bs ++ t :: 0 :: rest) := a18.next1
        have hlen := a19.len
        rw [List.length_append] at hlen
        simp only [List.length_cons] at hlen
        have hblk := cpBlocks_at (file := file) (m := m) (v := none) (s := ⟨r.take m.size, m.size⟩) (enc := [])
          (c1 := ChainHash.default) (c2 := ChainHash.default) (fs := none) (by decide) bs [] 19 _ hb (by simp [BlocksOk])
          (by simp; omega) a19 (by omega)
        have hend : cpEnd file hs n hsize' (obj m none ⟨r.take m.size, m.size⟩ [] [] ChainHash.default ChainHash.default none)
            18 = .exn .invalidArgument := by
          unfold cpEnd
          refine Par.bind_exn_eq ?_
          unfold cpTail
          rw [Par.bind_val_eq (cpByte_at a18 (by decide)), hk]
          refine Par.bind_exn_eq ?_
          exact (cpBlocks_add _ (k + 1) _ _ hblk).trans (cpBlocks_zero k a19.next (by omega))
        rw [Par.onExn_caught (c := .ERR) hend rfl]
        rfl

/-- a file with an empty data block -/
def emptyBlockFile : List Byte := num8 21 ++ (num8 21 ++ [1, 1, 1, 9, 0])

/-- the hypotheses of `C99_zero_block` are met -/
example : ZeroBlock emptyBlockFile ∧ emptyBlockFile.length < 2 ^ 16 :=
  ⟨⟨21, 1, 1, [], 9, [], ⟨by decide, by decide, by decide, by decide, by simp⟩, by decide⟩, by decide⟩

/-- C99 is violated: a header that is in order but for its header size field ends the process. -/
theorem C99_violated : outcome (setHeaderMem (Bytes.full (smallHeader.bytes.take 15 ++ [105] ++ smallHeader.bytes.drop 16 ++ [9]))
    toyHashes sampleRand) = .fatal .abort := by decide +kernel

end Verif.Props
