import Verif.Lemmas.HeaderGen
import Verif.Lemmas.HeaderMemFwd
import Verif.Props.DataHeader
import Verif.Props.Sample

/-!
Property C92: the header generator of the tests (/repo/tests/dataheader_generator.h).
-/
namespace Verif.Props
open Spec HeaderParse HeaderGen

/-- C92: for every request with a known hash mode (or none) and every random source that does not fail and varies, the
generator returns. `k` bounds the rounds in which it looks for a chain hash mode. -/
theorem C92_returns (set : GenSet) (src : Nat → Rand) (k : Nat) (hv : Varied src k)
    (hm : ∀ m, set.hashmode = some m → m = 1 ∨ m = 2 ∨ m = 3) : ∃ b, generateDH src set k = .ok b :=
  generateDH_returns hv hm

/-- C92 (what holds): whatever the random source delivers, the bytes returned are those of a header with the properties asked
for, and its size fields are right. It is a proper header unless one of the numbers of iterations is zero.
Missing: a number of iterations can be zero, see `C92_violated_iterations`; see also `C92_violated_kinds`. -/
theorem C92_headers_partial (set : GenSet) (src : Nat → Rand) (k : Nat) (b : Bytes) (hb : generateDH src set k = .ok b) :
    ∃ h : Header, b.data = h.bytes ∧ AsAsked set h ∧ h.fileSize = b.data.length ∧ h.length = b.data.length ∧
      (h.Valid ↔ h.ch1.iters ≠ 0 ∧ h.ch2.iters ≠ 0) := by
  obtain ⟨h, g, e⟩ := generateDH_ok hb
  have hl := length_bytes h g.validator g.salt fun x hx => (g.enc x hx).1
  refine ⟨h, e, g.asked, by rw [e, hl, g.size], by rw [e, hl], fun hv => ?_, fun hi => g.valid hi.1 hi.2⟩
  have h1 := hv.ch1.1
  have h2 := hv.ch2.1
  omega

/-- C92 (what holds), exact: the stream parser reads the bytes returned exactly if no number of iterations is zero; it then
gives an object with the properties asked for that writes the same bytes again. The memory parser reads them exactly if
besides the chain hashes have no free part and the header is shorter than 2^16 bytes. -/
theorem C92_read_partial (set : GenSet) (src : Nat → Rand) (k : Nat) (b : Bytes) (hb : generateDH src set k = .ok b)
    (hs : Hashes) (r : Rand) (hr : r.good = true) :
    ∃ h : Header, b.data = h.bytes ∧ AsAsked set h ∧
      (∀ s, Fresh s b.data → ((∃ d s', setHeaderStream hs r s = .ok (.val d s')) ↔ h.ch1.iters ≠ 0 ∧ h.ch2.iters ≠ 0) ∧
        ∀ d s', setHeaderStream hs r s = .ok (.val d s') → d.contents = h ∧ s'.rest = [] ∧
          ∃ hb', d.getHeaderBytes = .ok hb' ∧ hb'.data = b.data) ∧
      ((∃ d i, setHeaderMem b hs r = .ok (.val d i)) ↔
        (h.ch1.iters ≠ 0 ∧ h.ch2.iters ≠ 0) ∧ h.ch1.free = [] ∧ h.ch2.free = [] ∧ b.data.length < 2 ^ 16) ∧
      (∀ d i, setHeaderMem b hs r = .ok (.val d i) → d.contents = h) := by
  obtain ⟨h, g, e⟩ := generateDH_ok hb
  have hl := length_bytes h g.validator g.salt fun x hx => (g.enc x hx).1
  have hb18 := g.bound
  have iters : h.Valid → h.ch1.iters ≠ 0 ∧ h.ch2.iters ≠ 0 := fun hv => by
    have h1 := hv.ch1.1
    have h2 := hv.ch2.1
    omega
  refine ⟨h, e, g.asked, fun s hf => ?_, ?_⟩
  · have key : ∀ d s', setHeaderStream hs r s = .ok (.val d s') → h.Valid ∧ d = mkHeader h ∧ s'.rest = [] := by
      intro d s' q
      obtain ⟨h', hv, hd, h1, h2, -⟩ := setHeaderStream_val hr hf.2 q
      have hl' := length_bytes h' hv.validator hv.salt hv.encLen
      have hrest : s'.rest = [] := by
        have h8 : h'.bytes.take 8 = b.data.take 8 := by
          rw [← hf.1, h2, List.take_append_of_le_length]; rw [hl']; unfold Header.length; omega
        -- the file size field and the header size field of the generator are the same
        have q1 : b.data.take 8 = num8 h.length := by
          rw [e, Header.bytes, g.size, List.take_append_of_le_length (by simp), List.take_of_length_le (by simp)]
        have q2 : (b.data.drop 8).take 8 = num8 h.length := by
          rw [e, Header.bytes, List.drop_append_of_le_length (by simp), List.drop_eq_nil_of_le (by simp), List.nil_append,
            List.take_append_of_le_length (by simp), List.take_of_length_le (by simp)]
        have q3 : (b.data.drop 8).take 8 = num8 h'.length := by
          rw [← hf.1, h2, Header.bytes, List.append_assoc, List.drop_append_of_le_length (by simp),
            List.drop_eq_nil_of_le (by simp), List.nil_append, List.append_assoc, List.take_append_of_le_length (by simp),
            List.take_of_length_le (by simp)]
        have hlen' : h'.length < 2 ^ 64 := by have := hv.size; have := hv.size64; omega
        have : h.length = h'.length := num8_injective (by omega) hlen' (q2.symm.trans q3)
        have hz : s'.rest.length = 0 := by
          have := congrArg List.length h2
          rw [List.length_append, hl', hf.1, e, hl] at this
          omega
        exact List.eq_nil_of_length_eq_zero hz
      rw [hrest, List.append_nil, hf.1, e] at h2
      have : h = h' := bytes_injective g.shaped (Valid.shaped hv) h2
      subst this
      exact ⟨hv, hd, hrest⟩
    refine ⟨⟨fun ⟨d, s', q⟩ => iters (key d s' q).1, fun hi => ?_⟩, fun d s' q => ?_⟩
    · have hv := g.valid hi.1 hi.2
      have hsim := setHeaderStream_eq hs r s hf.2
      have q := rdHeader_append (hs := hs) hr hv [] (by simpa using g.size)
      rw [List.append_nil] at q
      rw [hf.1, e, q] at hsim
      obtain ⟨s', h1, -, -⟩ := hsim
      exact ⟨_, s', h1⟩
    · obtain ⟨hv, rfl, hrest⟩ := key d s' q
      exact ⟨contents_mkHeader hv, hrest, _, mkHeader_bytes hv, e.symm⟩
  · have key : ∀ d i, setHeaderMem b hs r = .ok (.val d i) → h.Valid ∧ d = mkHeader h ∧ h.length < 2 ^ 16 ∧
        h.ch1.free = [] ∧ h.ch2.free = [] := by
      intro d i q
      obtain ⟨h', rest, hv, rfl, rfl, v3, v4, v5, v6⟩ := setHeaderMem_val hr (by rw [e, hl]; omega) q
      have hl' := length_bytes h' hv.validator hv.salt hv.encLen
      have q2 : (b.data.drop 8).take 8 = num8 h.length := by
        rw [e, Header.bytes, List.drop_append_of_le_length (by simp), List.drop_eq_nil_of_le (by simp), List.nil_append,
          List.take_append_of_le_length (by simp), List.take_of_length_le (by simp)]
      have q3 : (b.data.drop 8).take 8 = num8 h'.length := by
        rw [v4, Header.bytes, List.append_assoc, List.drop_append_of_le_length (by simp),
          List.drop_eq_nil_of_le (by simp), List.nil_append, List.append_assoc, List.take_append_of_le_length (by simp),
          List.take_of_length_le (by simp)]
      have : h.length = h'.length := num8_injective (by omega) (by omega) (q2.symm.trans q3)
      have hz : rest.length = 0 := by
        have := congrArg List.length v4
        rw [List.length_append, hl', e, hl] at this
        omega
      rw [List.eq_nil_of_length_eq_zero hz, List.append_nil, e] at v4
      have : h = h' := bytes_injective g.shaped (Valid.shaped hv) v4
      subst this
      exact ⟨hv, rfl, v3, v5, v6⟩
    refine ⟨⟨fun ⟨d, i, q⟩ => ?_, fun ⟨hi, f1, f2, f3⟩ => ?_⟩, fun d i q => ?_⟩
    · obtain ⟨hv, -, k1, k2, k3⟩ := key d i q
      exact ⟨iters hv, k2, k3, by rw [e, hl]; exact k1⟩
    · rw [e, hl] at f3
      exact ⟨_, _, setHeaderMem_append hr (g.valid hi.1 hi.2) [] f1 f2 f3 (by rw [e, List.append_nil])⟩
    · obtain ⟨hv, rfl, -⟩ := key d i q
      exact contents_mkHeader hv

/-- C92 (what holds): the headers of the unit tests, which ask for no blocks and empty chain-hash data, are read by the memory
parser unless a number of iterations is zero. -/
theorem C92_unittest_partial (m : Option Byte) (src : Nat → Rand) (k : Nat) (b : Bytes)
    (hb : generateDH src ⟨m, some 0, some 0, some 0, some 0⟩ k = .ok b) (hs : Hashes) (r : Rand) (hr : r.good = true) :
    ∃ h : Header, b.data = h.bytes ∧ h.blocks = [] ∧ h.encBlocks = [] ∧
      ((∃ d i, setHeaderMem b hs r = .ok (.val d i) ∧ d.contents = h) ↔ h.ch1.iters ≠ 0 ∧ h.ch2.iters ≠ 0) := by
  obtain ⟨h, e, a, -, hm, hc⟩ := C92_read_partial _ src k b hb hs r hr
  obtain ⟨h', g, e'⟩ := generateDH_ok hb
  have b1 := List.eq_nil_of_length_eq_zero (a.ch1 0 rfl)
  have b2 := List.eq_nil_of_length_eq_zero (a.ch2 0 rfl)
  have b3 := List.eq_nil_of_length_eq_zero (a.blocks 0 rfl)
  have b4 := List.eq_nil_of_length_eq_zero (a.encBlocks 0 rfl)
  have hl : b.data.length < 2 ^ 16 := by
    have c1 := List.eq_nil_of_length_eq_zero (g.ch1.asked 0 rfl)
    have c2 := List.eq_nil_of_length_eq_zero (g.ch2.asked 0 rfl)
    have c3 := List.eq_nil_of_length_eq_zero (g.blockAsked 0 rfl)
    have c4 := List.eq_nil_of_length_eq_zero (g.encAsked 0 rfl)
    have c5 : digestSize h'.hashMode ≤ 64 := by
      rcases g.hashMode with x | x | x <;> rw [x] <;> decide
    rw [e', length_bytes h' g.validator g.salt fun x hx => (g.enc x hx).1]
    simp only [Header.length, c1, c2, c3, c4, List.length_nil, List.map_nil, List.sum_nil]
    omega
  refine ⟨h, e, b3, b4, fun ⟨d, i, q, _⟩ => (hm.mp ⟨d, i, q⟩).1, fun hi => ?_⟩
  obtain ⟨d, i, q⟩ := hm.mpr ⟨hi, by rw [ChainDesc.free, b1, List.drop_nil], by rw [ChainDesc.free, b2, List.drop_nil], hl⟩
  exact ⟨d, i, q, hc d i q⟩

/-- C92: an unknown hash mode or a source that fails at the first request: no header. -/
theorem C92_refused (set : GenSet) (src : Nat → Rand) (k : Nat)
    (h : (src 0).good = false ∨ ∃ m, set.hashmode = some m ∧ ¬ (m = 1 ∨ m = 2 ∨ m = 3)) (b : Bytes) :
    generateDH src set k ≠ .ok b := by
  intro hb
  rcases h with h | ⟨m, hm, hn⟩
  · have : generate src set k 0 = .fatal .terminate := by
      have e : (Bytes.empty 16).fillrandom (src 0) = .fatal .terminate := by
        simp [Bytes.fillrandom, Bytes.randomBytes, h, Bytes.empty]
      show ((Draw.ask src (Bytes.empty 16).fillrandom) 0).bind _ = _
      rw [Draw.ask, e]; rfl
    rw [generateDH, this] at hb
    cases hb
  · obtain ⟨hd, g, -⟩ := generateDH_ok hb
    exact hn (by rw [← g.hashAsked m hm]; exact g.hashMode)

/-- C92 is violated: whatever the random source delivers, a proper header from the generator never has a quadratic chain hash
(mode 5); unless asked for it never uses SHA-512 and never has 255 blocks; no data block is 255 bytes long. The tests that
take their headers from it cannot notice an error in these cases. -/
theorem C92_violated_kinds (set : GenSet) (src : Nat → Rand) (k : Nat) (b : Bytes) (hb : generateDH src set k = .ok b)
    (h : Header) (hv : h.Valid) (hbytes : b.data = h.bytes) :
    h.ch1.mode ≠ 5 ∧ h.ch2.mode ≠ 5 ∧ (set.hashmode = none → h.hashMode ≠ 3) ∧
      (set.datablocknum = none → h.blocks.length ≠ 255) ∧ (set.decdatablocknum = none → h.encBlocks.length ≠ 255) ∧
      ∀ x ∈ h.blocks, x.2.length ≠ 255 := by
  obtain ⟨h', g, e⟩ := generateDH_ok hb
  have e2 : h = h' := bytes_injective (Valid.shaped hv) g.shaped (by rw [← hbytes, e])
  subst e2
  refine ⟨?_, ?_, g.hashFree, ?_, ?_, ?_⟩
  · intro x; have := g.ch1.mode; rw [x] at this; exact absurd this (by decide)
  · intro x; have := g.ch2.mode; rw [x] at this; exact absurd this (by decide)
  · intro x; have := g.blockFree x; omega
  · intro x; have := g.encFree x; omega
  · intro x hx; have := (g.blocks x hx).2.1; omega

/-- a request without blocks, as in /repo/tests/dataheader_unittest.cpp l.363-369 -/
def plainSet : GenSet := ⟨some 1, some 0, some 0, some 0, some 0⟩

/-- C92 is violated: if the random source delivers zeros for the iterations, the header is refused by both parsers. -/
theorem C92_violated_iterations : ∃ (src : Nat → Rand) (b : Bytes), generateDH src plainSet 1 = .ok b ∧
    outcome (setHeaderStream toyHashes sampleRand ⟨b.data, fun _ => 5, false, false⟩) = .ok (none, some .ERR_CHAINHASH1_INVALID) ∧
    outcome (setHeaderMem b toyHashes sampleRand) = .ok (none, some .ERR_CHAINHASH1_INVALID) := by
  have key : (match generateDH (fun _ => ⟨true, fun _ => 0⟩) plainSet 1 with
      | .ok b => decide (outcome (setHeaderStream toyHashes sampleRand ⟨b.data, fun _ => 5, false, false⟩) =
            .ok (none, some .ERR_CHAINHASH1_INVALID)) &&
          decide (outcome (setHeaderMem b toyHashes sampleRand) = .ok (none, some .ERR_CHAINHASH1_INVALID))
      | _ => false) = true := by decide +kernel
  refine ⟨fun _ => ⟨true, fun _ => 0⟩, ?_⟩
  generalize generateDH (fun _ => ⟨true, fun _ => 0⟩) plainSet 1 = x at key
  cases x with
  | ok b => simp only [Bool.and_eq_true, decide_eq_true_eq] at key; exact ⟨b, rfl, key.1, key.2⟩
  | exn _ => cases key
  | fatal _ => cases key

/-- a random source: byte `n` of answer `i` is `5 * n + 2 * i + 2` -/
def sweep (i : Nat) : Rand := ⟨true, fun n => UInt8.ofNat (5 * n + 2 * i + 2)⟩

/-- this source varies: answers of even number have a fourth byte with remainder one -/
example : Varied sweep 2 := by
  refine ⟨fun _ => rfl, fun i => ?_⟩
  have key : ∀ k : Nat, k % 2 = 0 → ((sweep k).byte 3).toNat % 4 = 1 := by
    intro k hk
    show (UInt8.ofNat (5 * 3 + 2 * k + 2)).toNat % 4 = 1
    rw [UInt8.toNat_ofNat']
    omega
  by_cases h : i % 2 = 0
  · exact ⟨0, by omega, key _ h⟩
  · exact ⟨1, by omega, key _ (by omega)⟩

/-- with it the generator makes a header with two data blocks and chain-hash data, which the stream parser reads -/
example : (match generateDH sweep ⟨some 2, some 2, some 1, some 8, some 3⟩ 2 with
    | .ok b => match outcome (setHeaderStream toyHashes sampleRand ⟨b.data, fun _ => 5, false, false⟩) with
      | .ok (some h, none) => h.hashMode == 2 && h.blocks.length == 2 && h.encBlocks.length == 1 && h.ch1.block.length == 8 &&
          h.ch2.block.length == 3 && h.ch1.iters != 0 && h.bytes == b.data
      | _ => false
    | _ => false) = true := by decide +kernel

/-- the hypotheses of `C92_refused` are met: hash mode 9, or no random numbers -/
example : generateDH sweep ⟨some 9, some 0, some 0, some 0, some 0⟩ 2 = .exn .invalidArgument ∧
    generateDH (fun _ => ⟨false, fun _ => 0⟩) plainSet 2 = .fatal .terminate := by
  constructor <;> decide +kernel

end Verif.Props
