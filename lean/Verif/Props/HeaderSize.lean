import Verif.Props.DataHeader

/-!
Property C31, the table of sizes in the documentation (docs/dataheader.md:53-78): the smallest and the largest header for
each size of digest, with and without data blocks, and that each of these sizes occurs.
-/
namespace Verif.Props
open Spec HeaderParse

/-- C31: the bytes of a header are at least 40 and two digests, and at most 40, two digests, 510 bytes for the chain hashes
and 510 blocks of 257 bytes; with no data blocks of either kind at most 550 and two digests. -/
theorem C31_documented_bounds {d : DataHeader} (hd : HObj d) {hb : Bytes} (hbytes : d.getHeaderBytes = .ok hb) :
    40 + 2 * digestSize d.contents.hashMode ≤ hb.data.length ∧
    hb.data.length ≤ 40 + 2 * digestSize d.contents.hashMode + 510 + 510 * 257 ∧
    (d.contents.blocks = [] → d.contents.encBlocks = [] →
      hb.data.length ≤ 40 + 2 * digestSize d.contents.hashMode + 510) := by
  obtain ⟨hl, -, -⟩ := C31_size hd hbytes
  have hi := hd.inv
  obtain ⟨hc, -, -, -⟩ := getHeaderBytes_ok hi hbytes
  obtain ⟨h1, h2, -⟩ := complete_parts hi hc
  have l1 : d.contents.ch1.block.length ≤ 255 := blockLenOk_le h1.desc_valid.2.2
  have l2 : d.contents.ch2.block.length ≤ 255 := blockLenOk_le h2.desc_valid.2.2
  have le : d.contents.encBlocks.length ≤ 255 := by
    have := hi.encCount
    simpa [DataHeader.contents] using this
  have lc : d.contents.blocks.length ≤ 255 := by
    have := hi.decCount
    simpa [DataHeader.contents] using this
  have lb : ∀ b ∈ d.contents.blocks, b.2.length ≤ 255 := by
    intro b hb
    simp only [DataHeader.contents, List.mem_map] at hb
    obtain ⟨x, hx, rfl⟩ := hb
    exact hi.decLen x hx
  have ls : ∀ bs : List (Byte × List Byte), (∀ b ∈ bs, b.2.length ≤ 255) →
      (bs.map fun b => 2 + b.2.length).sum ≤ 257 * bs.length := by
    intro bs
    induction bs with
    | nil => intro _; exact Nat.le_refl _
    | cons b bs ih =>
      intro h
      have := h b (List.mem_cons_self ..)
      have := ih fun c hc => h c (List.mem_cons_of_mem _ hc)
      simp only [List.map_cons, List.sum_cons, List.length_cons]
      omega
  have := ls _ lb
  refine ⟨by omega, by omega, fun e1 e2 => ?_⟩
  rw [e1, e2] at hl
  simp only [List.map_nil, List.sum_nil, List.length_nil] at hl
  omega

/-- a header that fits its format is held by an object a program can have -/
theorem valid_object {h : Header} (hv : h.Valid) : HObj (mkHeader h) := by
  let s : IStream := ⟨h.bytes ++ List.replicate (h.fileSize - h.length) 0, fun _ => 1, true, false⟩
  have hsim := setHeaderStream_eq toyHashes sampleRand s rfl
  have hsz := hv.size
  have e : rdHeader rdList List.length toyHashes sampleRand s.rest = _ :=
    rdHeader_append (hs := toyHashes) (r := sampleRand) rfl hv (List.replicate (h.fileSize - h.length) 0)
      (by rw [List.length_replicate]; omega)
  rw [e] at hsim
  obtain ⟨s', h1, -⟩ := hsim
  exact .stream (hs := toyHashes) (r := sampleRand) (s := s) rfl rfl h1

/-- a header with `n` data blocks and `n` encrypted data blocks of 255 bytes, and chain-hash blocks `b` -/
def boundHeader (mode : Byte) (n : Nat) (cm : Byte) (b : List Byte) : Header :=
  { fileSize := 200000, fileMode := 1, hashMode := mode
    blocks := List.replicate n (1, List.replicate 255 7)
    ch1 := ⟨cm, 1, b⟩, ch2 := ⟨cm, 1, b⟩
    validator := List.replicate (digestSize mode) 0, salt := List.replicate (digestSize mode) 0
    encBlocks := List.replicate n (1, 2, List.replicate 255 9) }

theorem bound_sum (n : Nat) (c : Nat) : (List.replicate n c).sum = n * c := by
  induction n with
  | zero => simp
  | succ n ih => rw [List.replicate_succ, List.sum_cons, ih, Nat.succ_mul]; omega

theorem bound_length (mode : Byte) (n : Nat) (cm : Byte) (b : List Byte) :
    (boundHeader mode n cm b).length = 40 + 2 * digestSize mode + 2 * b.length + 514 * n := by
  simp only [boundHeader, Header.length, List.length_replicate, List.map_replicate, bound_sum]
  omega

theorem bound_valid {mode : Byte} (hm : mode = 1 ∨ mode = 2 ∨ mode = 3) {n : Nat} (hn : n ≤ 255) {cm : Byte} {b : List Byte}
    (hb : blockLenOk cm.toNat b.length = true) : (boundHeader mode n cm b).Valid := by
  have hbl := blockLenOk_le hb
  have hds : digestSize mode ≤ 64 := by rcases hm with rfl | rfl | rfl <;> decide
  have hn' : ∀ {α : Type} (a : α), (List.replicate n a).length ≤ 255 := fun a => by rw [List.length_replicate]; exact hn
  have hd' : (List.replicate (digestSize mode) (0 : Byte)).length = digestSize mode := List.length_replicate
  have h255 : ∀ x : Byte, (List.replicate 255 x).length = 255 := fun _ => List.length_replicate
  refine ⟨?_, (by decide : 200000 < 2 ^ 64), rfl, hm, hn' _, ?_, ⟨Nat.le_refl 1, (by decide : 1 ≤ 1000000000), hb⟩,
    ⟨Nat.le_refl 1, (by decide : 1 ≤ 1000000000), hb⟩, hd', hd', hn' _, ?_⟩
  · rw [bound_length]
    show _ ≤ 200000
    omega
  · intro x hx
    have := List.eq_of_mem_replicate hx
    subst this
    show 1 ≤ (List.replicate 255 (7 : Byte)).length ∧ (List.replicate 255 (7 : Byte)).length ≤ 255
    rw [h255]
    omega
  · intro x hx
    have := List.eq_of_mem_replicate hx
    subst this
    exact h255 _

/-- C31: the documented sizes occur, for each of the three hash functions: the smallest, the largest without data blocks
and the largest. -/
theorem C31_bounds_sharp {mode : Byte} (hm : mode = 1 ∨ mode = 2 ∨ mode = 3) :
    (∃ d hb, HObj d ∧ d.contents.hashMode = mode ∧ d.getHeaderBytes = .ok hb ∧
      hb.data.length = 40 + 2 * digestSize mode) ∧
    (∃ d hb, HObj d ∧ d.contents.hashMode = mode ∧ d.contents.blocks = [] ∧ d.contents.encBlocks = [] ∧
      d.getHeaderBytes = .ok hb ∧ hb.data.length = 40 + 2 * digestSize mode + 510) ∧
    (∃ d hb, HObj d ∧ d.contents.hashMode = mode ∧ d.getHeaderBytes = .ok hb ∧
      hb.data.length = 40 + 2 * digestSize mode + 510 + 510 * 257) := by
  have hlen : ∀ {h : Header}, h.Valid → h.bytes.length = h.length := fun hv =>
    length_bytes _ hv.validator hv.salt hv.encLen
  have v1 : (boundHeader mode 0 1 []).Valid := bound_valid hm (by decide) rfl
  have v2 : (boundHeader mode 0 2 (List.replicate 255 5)).Valid := bound_valid hm (by decide) (by rw [List.length_replicate]; rfl)
  have v3 : (boundHeader mode 255 2 (List.replicate 255 5)).Valid := bound_valid hm (by decide) (by rw [List.length_replicate]; rfl)
  refine ⟨⟨_, _, valid_object v1, ?_, mkHeader_bytes v1, ?_⟩, ⟨_, _, valid_object v2, ?_, ?_, ?_, mkHeader_bytes v2, ?_⟩,
    ⟨_, _, valid_object v3, ?_, mkHeader_bytes v3, ?_⟩⟩
  · rw [contents_mkHeader v1]; rfl
  · show List.length (Header.bytes _) = _
    rw [hlen v1, bound_length]
    simp
  · rw [contents_mkHeader v2]; rfl
  · rw [contents_mkHeader v2]; rfl
  · rw [contents_mkHeader v2]; rfl
  · show List.length (Header.bytes _) = _
    rw [hlen v2, bound_length, List.length_replicate]
  · rw [contents_mkHeader v3]; rfl
  · show List.length (Header.bytes _) = _
    rw [hlen v3, bound_length, List.length_replicate]

/-- the two tables of the documentation -/
example : (([1, 2, 3] : List Byte).map fun m => (40 + 2 * digestSize m, 40 + 2 * digestSize m + 510,
    40 + 2 * digestSize m + 510 + 510 * 257)) = [(104, 614, 131684), (136, 646, 131716), (168, 678, 131748)] := by
  decide

/-- the hypotheses of C31_documented_bounds are met (the largest header of the second hash function) -/
example : ∃ d hb, HObj d ∧ d.contents.hashMode = 2 ∧ d.getHeaderBytes = .ok hb ∧ hb.data.length = 131716 :=
  (C31_bounds_sharp (.inr (.inl rfl))).2.2

end Verif.Props
