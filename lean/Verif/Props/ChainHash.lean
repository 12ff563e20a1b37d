import Verif.Lemmas.ChainHash
import Verif.Lemmas.Shared
import Verif.Lemmas.Timed
import Verif.Props.PwFunc

/-!
Properties C13, C16, C17, C18, C19 (and C09 at the level of descriptions): chain-hash data and descriptions.
Modes are identified by their number (`CHMode.num`, 1 to 5); `Spec.modeParts` lists the parts of a mode.
-/
namespace Verif.Props
open Spec

/-! ### C16, C17 -/

/-- C17: after any history of attempted additions to a fresh object, the object holds exactly the parts the
specification accepts, counts as complete exactly if all parts of the mode are there, and never exceeds 255 bytes. -/
theorem C17_history (m : CHMode) (hist : List Bytes) :
    let acc := accepted m.num (hist.map Bytes.data)
    let c := runAdds (ChainHashData.new m) hist
    c.block.data = acc.flatten ∧ c.ind = acc.length ∧
    (c.isComplete = true ↔ acc.length = (modeParts m.num).length) ∧
    c.block.data.length ≤ 255 := by
  obtain ⟨h1, h2⟩ := runAdds_new m hist
  simp only [h1, isComplete_holding, decide_eq_true_eq]
  exact ⟨rfl, rfl, trivial, h2.2.2⟩

/-- C17: in any reachable situation, the next addition succeeds exactly if the specification accepts it; otherwise it
throws (and, the object being unchanged by a throw, `runAdds` keeps it). -/
theorem C17_add_iff (m : CHMode) (hist : List Bytes) (b : Bytes) :
    let acc := accepted m.num (hist.map Bytes.data)
    let c := runAdds (ChainHashData.new m) hist
    ((∃ c', c.addBytes b = .ok c') ↔ acceptable m.num acc b.data = true) ∧
    (acceptable m.num acc b.data = false → ∃ e, c.addBytes b = .exn e ∧ e ≠ .pointer) := by
  obtain ⟨h1, h2⟩ := runAdds_new m hist
  simp only [h1]
  cases ha : acceptable m.num (accepted m.num (hist.map Bytes.data)) b.data with
  | true => exact ⟨⟨fun _ => rfl, fun _ => ⟨_, (addBytes_accept h2 b ha).1⟩⟩, by simp⟩
  | false =>
    have hr := addBytes_refuse h2 b ha
    refine ⟨⟨?_, by simp⟩, fun _ => ?_⟩
    · rintro ⟨c', hc⟩
      rcases hr with h | h | h <;> rw [h] at hc <;> cases hc
    · rcases hr with h | h | h <;> exact ⟨_, h, by simp⟩

/-- C16: after any history, part number `i` of the mode can be read back by its name with exactly the bytes accepted for
it; a part not set yet is refused with an exception. -/
theorem C16_read_back (m : CHMode) (hist : List Bytes) (i : Nat) (name : String) (o : Option Nat)
    (hi : (modeParts m.num)[i]? = some (name, o)) :
    (runAdds (ChainHashData.new m) hist).getPart name =
      match (accepted m.num (hist.map Bytes.data))[i]? with
      | some p => .ok (Bytes.full p)
      | none => .exn .invalidArgument := by
  obtain ⟨h1, h2⟩ := runAdds_new m hist
  rw [h1]
  exact getPart_holding h2 i name o hi

/-- C16: a name the mode does not have is refused with an exception. -/
theorem C16_unknown_name (m : CHMode) (hist : List Bytes) (name : String)
    (hn : ∀ p ∈ modeParts m.num, p.1 ≠ name) :
    (runAdds (ChainHashData.new m) hist).getPart name = .exn .invalidArgument := by
  obtain ⟨h1, h2⟩ := runAdds_new m hist
  rw [h1]
  refine getPartLoop_absent _ _ _ _ _ ?_
  intro nl hnl
  simp only [holding, nameLens_eq, List.mem_map] at hnl
  obtain ⟨p, hp, rfl⟩ := hnl
  exact hn p hp

/-- C16: if all parts a mode asks for have been accepted, the data block is their concatenation and the reported length
is the real one. -/
theorem C16_block (m : CHMode) (hist : List Bytes)
    (hc : (accepted m.num (hist.map Bytes.data)).length = (modeParts m.num).length) :
    ∃ b, (runAdds (ChainHashData.new m) hist).getDataBlock = .ok b ∧
      b.data = (accepted m.num (hist.map Bytes.data)).flatten ∧
      (runAdds (ChainHashData.new m) hist).getLen = b.data.length := by
  obtain ⟨h1, h2⟩ := runAdds_new m hist
  rw [h1]
  have : (holding m (accepted m.num (hist.map Bytes.data))).isComplete = true := by
    rw [isComplete_holding]; simpa using hc
  refine ⟨_, by simp only [ChainHashData.getDataBlock, this]; rfl, rfl, ?_⟩
  have h3 := h2.2.2
  simp only [ChainHashData.getLen, holding, Bytes.len]
  omega

/-- C16: as long as a part is missing the data block is not handed out: asking for it throws. -/
theorem C16_incomplete (m : CHMode) (hist : List Bytes)
    (hc : (accepted m.num (hist.map Bytes.data)).length ≠ (modeParts m.num).length) :
    (runAdds (ChainHashData.new m) hist).getDataBlock = .exn .logicError := by
  obtain ⟨h1, -⟩ := runAdds_new m hist
  rw [h1]
  have : (holding m (accepted m.num (hist.map Bytes.data))).isComplete = false := by
    rw [isComplete_holding]; simpa using hc
  simp [ChainHashData.getDataBlock, this]

/-- C17: the number of parts reported is the number of parts accepted. -/
theorem C17_parts_number (m : CHMode) (hist : List Bytes) :
    (runAdds (ChainHashData.new m) hist).getPartsNumber = (accepted m.num (hist.map Bytes.data)).length := by
  rw [(runAdds_new m hist).1]; rfl

/-- a history for mode 4 with two refused additions in between -/
def exHist : List Bytes :=
  [Bytes.full [1, 2, 3], Bytes.full [0, 0, 0, 0, 0, 0, 1, 44], Bytes.full (List.replicate 250 7), Bytes.full [9, 9]]

example : accepted CHMode.constCount.num (exHist.map Bytes.data) = [[0, 0, 0, 0, 0, 0, 1, 44], [9, 9]] := by
  decide +kernel
example : (accepted CHMode.constCount.num (exHist.map Bytes.data)).length = (modeParts CHMode.constCount.num).length := by
  decide +kernel
example : (runAdds (ChainHashData.new .constCount) exHist).getPart "S" = .ok (Bytes.full [9, 9]) := by
  decide +kernel

example : (runAdds (ChainHashData.new .constCount) (exHist.take 3)).getDataBlock = .exn .logicError := by
  decide +kernel
example : (runAdds (ChainHashData.new .constCount) (exHist.take 3)).getPartsNumber = 1 := by decide +kernel

/-! ### C84 -/

/-- C84 (partial: the two objects have one mode): two data objects filled by any histories of attempted additions
compare equal exactly if all parts of the mode are there and both hold the same parts. -/
theorem C84_equal_partial (m : CHMode) (h₁ h₂ : List Bytes) :
    ∃ r, ChainHashData.eq (runAdds (ChainHashData.new m) h₁) (runAdds (ChainHashData.new m) h₂) = .ok r ∧
      (r = true ↔ (accepted m.num (h₁.map Bytes.data)).length = (modeParts m.num).length ∧
        accepted m.num (h₁.map Bytes.data) = accepted m.num (h₂.map Bytes.data)) := by
  obtain ⟨e₁, f₁⟩ := runAdds_new m h₁
  obtain ⟨e₂, f₂⟩ := runAdds_new m h₂
  rw [e₁, e₂]
  exact eq_holding f₁ f₂

/-- C84 (partial: what equality guarantees across modes): data objects which compare equal are complete and hold the
same bytes in one row; so read as data of one mode they describe the same chain hash. -/
theorem C84_blocks_partial (m₁ m₂ : CHMode) (h₁ h₂ : List Bytes)
    (he : ChainHashData.eq (runAdds (ChainHashData.new m₁) h₁) (runAdds (ChainHashData.new m₂) h₂) = .ok true) :
    (accepted m₁.num (h₁.map Bytes.data)).length = (modeParts m₁.num).length ∧
    (accepted m₂.num (h₂.map Bytes.data)).length = (modeParts m₂.num).length ∧
    (accepted m₁.num (h₁.map Bytes.data)).flatten = (accepted m₂.num (h₂.map Bytes.data)).flatten := by
  rw [(runAdds_new m₁ h₁).1, (runAdds_new m₂ h₂).1] at he
  exact eq_holding_true he

/-- C84 violated: a salt of eight bytes compares equal to a start number of the same eight bytes, though the two
describe different chain hashes and hold different parts. -/
theorem C84_violated_modes :
    let b := Bytes.full [0, 0, 0, 0, 0, 0, 1, 44]
    let c := runAdds (ChainHashData.new .constSalt) [b]
    let d := runAdds (ChainHashData.new .count) [b]
    ChainHashData.eq c d = .ok true ∧ c.getPart "S" = .ok b ∧ d.getPart "S" = .exn .invalidArgument ∧
      ruleOf CHMode.constSalt.num b.data ≠ ruleOf CHMode.count.num b.data := by
  refine ⟨by decide +kernel, by decide +kernel, by decide +kernel, ?_⟩
  intro h
  cases h

/-- C84 violated: an object with a missing part does not even compare equal to itself. -/
theorem C84_violated_self (m : CHMode) (hist : List Bytes)
    (hc : (accepted m.num (hist.map Bytes.data)).length ≠ (modeParts m.num).length) :
    ChainHashData.eq (runAdds (ChainHashData.new m) hist) (runAdds (ChainHashData.new m) hist) = .ok false := by
  rw [(runAdds_new m hist).1]
  have : (holding m (accepted m.num (hist.map Bytes.data))).isComplete = false := by
    rw [isComplete_holding]; simpa using hc
  simp [ChainHashData.eq, this]

example : ChainHashData.eq (runAdds (ChainHashData.new .constCount) exHist)
    (runAdds (ChainHashData.new .constCount) (exHist.drop 1)) = .ok true := by decide +kernel
example : ChainHashData.eq (runAdds (ChainHashData.new .constCount) exHist)
    (runAdds (ChainHashData.new .constCount) (exHist.take 2 ++ [Bytes.full [9, 8]])) = .ok false := by decide +kernel
example : (accepted CHMode.constCount.num ((exHist.take 3).map Bytes.data)).length ≠
    (modeParts CHMode.constCount.num).length := by decide +kernel

/-! ### C18 -/

/-- the block length random data has: 255 for modes with a free-length part, else the prescribed length -/
def randomLen : Nat → Nat
  | 2 => 255
  | 3 => 8
  | 4 => 255
  | 5 => 32
  | _ => 0

/-- C18: for every mode and every output of a working random generator, random data is complete, has the prescribed
length, and the chain hash of that mode can be performed with it (with every legal iteration count). -/
theorem C18_random_data_usable (m : CHMode) (r : Rand) (hr : r.good = true) :
    ∃ c, (ChainHashData.new m).generateRandomData r = .ok c ∧ c.isComplete = true ∧
      c.block.data = r.take (randomLen m.num) ∧
      ∀ (n : UInt64), 1 ≤ n.toNat → n.toNat ≤ 1000000000 → ∀ (H : HashFn) (pw : List Byte) (clk : Nat → Nat),
        ∃ b, ChainHashModes.performStr (ChainHash.make m n (some c)) H pw 0 clk = .ok (.success b) ∧
          b.data.length = H.size := by
  have hrnd : ∀ n, n ≤ 255 → Bytes.randomBytes r n = .ok (r.take n) := by
    intro n hn
    unfold Bytes.randomBytes
    rw [if_neg (by simp [hr]; omega), if_neg (by omega)]
  have hgen : ∃ c, (ChainHashData.new m).generateRandomData r = .ok c ∧ c.isComplete = true ∧ c.mode = m ∧
      c.block.data = r.take (randomLen m.num) := by
    cases m
    · exact ⟨_, by simp [ChainHashData.generateRandomData, ChainHashData.new, Bytes.isEmpty, Bytes.empty, ChainHashData.isStar,
        CHMode.nameLens, ChainHashData.datablockSize, Bytes.addrandom, hrnd 0 (by omega)]; rfl, rfl, rfl, rfl⟩
    · exact ⟨_, by simp [ChainHashData.generateRandomData, ChainHashData.new, Bytes.isEmpty, Bytes.empty, ChainHashData.isStar,
        CHMode.nameLens, Bytes.fillrandom, hrnd 255 (by omega)]; rfl, rfl, rfl, rfl⟩
    · exact ⟨_, by simp [ChainHashData.generateRandomData, ChainHashData.new, Bytes.isEmpty, Bytes.empty, ChainHashData.isStar,
        CHMode.nameLens, ChainHashData.datablockSize, Bytes.addrandom, hrnd 8 (by omega)]; rfl, rfl, rfl, rfl⟩
    · exact ⟨_, by simp [ChainHashData.generateRandomData, ChainHashData.new, Bytes.isEmpty, Bytes.empty, ChainHashData.isStar,
        CHMode.nameLens, Bytes.fillrandom, hrnd 255 (by omega)]; rfl, rfl, rfl, rfl⟩
    · exact ⟨_, by simp [ChainHashData.generateRandomData, ChainHashData.new, Bytes.isEmpty, Bytes.empty, ChainHashData.isStar,
        CHMode.nameLens, ChainHashData.datablockSize, Bytes.addrandom, hrnd 32 (by omega)]; rfl, rfl, rfl, rfl⟩
  obtain ⟨c, h1, h2, h3, h4⟩ := hgen
  refine ⟨c, h1, h2, h4, ?_⟩
  intro n hn1 hn2 H pw clk
  have hreach : c.Reach := .random (.new m) h1
  have hv : (ChainHash.make m n (some c)).val = true := by
    simp only [ChainHash.make, chainHashValid, ChainHashData.isCompletedFormat, h2, h3, beq_self_eq_true, Bool.and_true,
      Bool.and_eq_true, decide_eq_true_eq]
    exact ⟨by omega, hn2⟩
  obtain ⟨-, e, hok⟩ := perform_eq hreach hv H 0 clk
  obtain ⟨b, h5, h6⟩ := C09_string_recurrence H _ (argsOf_rule hok).2 pw n.toNat hn1 clk
  refine ⟨b, by rw [e, h5], ?_⟩
  rw [h6]
  obtain ⟨k, hk⟩ : ∃ k, n.toNat = k + 1 := ⟨n.toNat - 1, by omega⟩
  rw [hk, chain_succ]
  exact H.len _

example : (⟨true, fun i => UInt8.ofNat (3 * i)⟩ : Rand).good = true := rfl

/-! ### C09 for descriptions -/

/-- C09 (descriptions): performing a valid description computes `iterations` rounds with the salts its mode and data
block stand for, for string and byte input alike. The data object may come from any sequence of operations. -/
theorem C09_description (m : CHMode) (n : UInt64) (d : ChainHashData) (hd : d.Reach)
    (hv : (ChainHash.make m n (some d)).val = true) (H : HashFn) (pw : List Byte) (x : Bytes) (hx : x.WF)
    (clk : Nat → Nat) :
    (∃ b, ChainHashModes.performStr (ChainHash.make m n (some d)) H pw 0 clk = .ok (.success b) ∧
      b.data = chain H.h (ruleOf m.num d.block.data) n.toNat pw) ∧
    (∃ b, ChainHashModes.performBytes (ChainHash.make m n (some d)) H x 0 clk = .ok (.success b) ∧
      b.data = chain H.h (ruleOf m.num d.block.data) n.toNat x.data) := by
  obtain ⟨-, h1, -, -⟩ := valid_parts hd hv
  obtain ⟨e1, e2, hok⟩ := perform_eq hd hv H 0 clk
  obtain ⟨hr, hs⟩ := argsOf_rule hok
  rw [← hr]
  constructor
  · rw [e2]; exact C09_string_recurrence H _ hs pw n.toNat h1 clk
  · rw [e1]; exact C09_bytes_recurrence H _ hs x hx n.toNat clk

/-- C11 (descriptions): with a timeout, a valid description either times out or gives the same digest. -/
theorem C11_description (m : CHMode) (n : UInt64) (d : ChainHashData) (hd : d.Reach)
    (hv : (ChainHash.make m n (some d)).val = true) (H : HashFn) (pw : List Byte) (timeout : Nat) (clk : Nat → Nat) :
    (ChainHashModes.performStr (ChainHash.make m n (some d)) H pw timeout clk = .ok .timeout ∧ timeout ≠ 0 ∧
      ∃ j, timeout ≤ clk j) ∨
    (∃ b, ChainHashModes.performStr (ChainHash.make m n (some d)) H pw timeout clk = .ok (.success b) ∧
      b.data = chain H.h (ruleOf m.num d.block.data) n.toNat pw) := by
  obtain ⟨-, h1, -, -⟩ := valid_parts hd hv
  obtain ⟨-, e2, hok⟩ := perform_eq hd hv H timeout clk
  obtain ⟨hr, hs⟩ := argsOf_rule hok
  rw [← hr, e2]
  have := C11_string_timeout H _ hs pw n.toNat h1 timeout clk
  rcases this.2 with h | h
  · obtain ⟨ht, j, -, -, -, hj⟩ := this.1.mp h
    exact .inl ⟨h, ht, j, hj⟩
  · exact .inr h

/-- a mode-3 object with start number 300, built by one addition -/
example : ((ChainHashData.new .count).addBytes (Bytes.full [0, 0, 0, 0, 0, 0, 1, 44])) =
    .ok ⟨.count, ⟨[0, 0, 0, 0, 0, 0, 1, 44], 255⟩, 1⟩ := by decide
example : (ChainHash.make .count 7 (some ⟨.count, ⟨[0, 0, 0, 0, 0, 0, 1, 44], 255⟩, 1⟩)).val = true := by decide
example : ruleOf 3 [0, 0, 0, 0, 0, 0, 1, 44] = .count 300 := by decide

/-! ### C13 -/

/-- C13 does not hold: for no description, no input and no clock does a timed chain hash deliver a result. -/
theorem C13_timed_never_succeeds (ch : ChainHashTimed) (H : HashFn) (data : Bytes) (pw : List Byte)
    (clk : Nat → Nat → Nat) (fuel : Nat) (r : Out ChainHashResult) :
    ChainHashModes.performTimedBytes ch H data clk fuel ≠ .ok r ∧
    ChainHashModes.performTimedStr ch H pw clk fuel ≠ .ok r := by
  have key : ∀ f x, ChainHashModes.timedSwitch f ch ≠ .ok x := by
    intro f x h
    unfold ChainHashModes.timedSwitch at h
    simp only [Res.bind_eq_ok] at h
    obtain ⟨m, -, t, -, d, -, h⟩ := h
    cases m <;> simp [Res.bind_eq_ok] at h
  constructor
  · intro h
    obtain ⟨tr, h1, -⟩ := Res.bind_eq_ok.mp h
    exact key _ _ h1
  · intro h
    obtain ⟨tr, h1, -⟩ := Res.bind_eq_ok.mp h
    exact key _ _ h1

/-- C13: what happens instead: with a valid description the call throws `invalid_argument` (after wasting at least one
full run), unless a clock never reaches the limit, in which case it does not return. -/
theorem C13_timed_throws (m : CHMode) (t : UInt64) (d : ChainHashData) (hd : d.Reach)
    (hv : (ChainHashTimed.make m t (some d)).val = true) (H : HashFn) (data : Bytes) (hdata : data.WF) (pw : List Byte)
    (clk : Nat → Nat → Nat) (fuel : Nat) :
    (ChainHashModes.performTimedBytes (ChainHashTimed.make m t (some d)) H data clk fuel = .exn .invalidArgument ∨
      ChainHashModes.performTimedBytes (ChainHashTimed.make m t (some d)) H data clk fuel = .fatal .diverge) ∧
    (ChainHashModes.performTimedStr (ChainHashTimed.make m t (some d)) H pw clk fuel = .exn .invalidArgument ∨
      ChainHashModes.performTimedStr (ChainHashTimed.make m t (some d)) H pw clk fuel = .fatal .diverge) ∧
    ((∀ i, ∃ k, 1 ≤ k ∧ 1000 * k ≤ fuel ∧ t.toNat ≤ clk i (1000 * k)) →
      ChainHashModes.performTimedBytes (ChainHashTimed.make m t (some d)) H data clk fuel = .exn .invalidArgument ∧
      ChainHashModes.performTimedStr (ChainHashTimed.make m t (some d)) H pw clk fuel = .exn .invalidArgument) := by
  have hB := fun (a : ModeArgs) (ha : a.SaltFits) (i : Nat) =>
    (C14_no_overflow_partial H a ha pw data hdata 1 t.toNat (clk i) fuel).2.2.2
  have hS := fun (a : ModeArgs) (ha : a.SaltFits) (i : Nat) =>
    (C14_no_overflow_partial H a ha pw data hdata 1 t.toNat (clk i) fuel).2.2.1
  have kB : ∀ q : Prop, (∀ a : ModeArgs, a.SaltFits → ∀ i, (∃ r, a.runTimedBytes H data t.toNat (clk i) fuel = .ok r) ∨
      (q ∧ a.runTimedBytes H data t.toNat (clk i) fuel = .fatal .diverge)) →
      Throws q (ChainHashModes.performTimedBytes (ChainHashTimed.make m t (some d)) H data clk fuel) := by
    intro q hq
    have := timedSwitch_throws hd hv (ChainHashModes.timedFnsBytes H data clk fuel)
      (fun a i => a.runTimedBytes H data t.toNat (clk i) fuel)
      (fun _ => rfl) (fun _ _ => rfl) (fun _ _ => rfl) (fun _ _ _ => rfl) (fun _ _ _ _ _ => rfl) hq
    unfold ChainHashModes.performTimedBytes
    rcases this with h | ⟨hq, h⟩ <;> rw [h]
    · exact .inl rfl
    · exact .inr ⟨hq, rfl⟩
  have kS : ∀ q : Prop, (∀ a : ModeArgs, a.SaltFits → ∀ i, (∃ r, a.runTimedStr H pw t.toNat (clk i) fuel = .ok r) ∨
      (q ∧ a.runTimedStr H pw t.toNat (clk i) fuel = .fatal .diverge)) →
      Throws q (ChainHashModes.performTimedStr (ChainHashTimed.make m t (some d)) H pw clk fuel) := by
    intro q hq
    have := timedSwitch_throws hd hv (ChainHashModes.timedFnsStr H pw clk fuel)
      (fun a i => a.runTimedStr H pw t.toNat (clk i) fuel)
      (fun _ => rfl) (fun _ _ => rfl) (fun _ _ => rfl) (fun _ _ _ => rfl) (fun _ _ _ _ _ => rfl) hq
    unfold ChainHashModes.performTimedStr
    rcases this with h | ⟨hq, h⟩ <;> rw [h]
    · exact .inl rfl
    · exact .inr ⟨hq, rfl⟩
  refine ⟨?_, ?_, fun hk => ⟨?_, ?_⟩⟩
  · simpa [Throws] using kB True (fun a ha i => by simpa using hB a ha i)
  · simpa [Throws] using kS True (fun a ha i => by simpa using hS a ha i)
  · have := kB False (fun a ha i => by
      obtain ⟨k, h1, h2, h3⟩ := hk i
      exact .inl (C12_timed_returns H a ha pw data hdata t.toNat (clk i) k h1 h3 fuel h2).2)
    simpa [Throws] using this
  · have := kS False (fun a ha i => by
      obtain ⟨k, h1, h2, h3⟩ := hk i
      exact .inl (C12_timed_returns H a ha pw data hdata t.toNat (clk i) k h1 h3 fuel h2).1)
    simpa [Throws] using this

/-- a valid timed description exists for the claim above: mode 1, 5 ms -/
example : (ChainHashTimed.make .normal 5 (some (ChainHashData.new .normal))).val = true := by decide

/-! ### C19 -/

open Shared in
/-- what a valid description is: a mode, 1 to 10^9 iterations, and complete data of that mode -/
def ShouldBeValid (s : Shared.Sys) (d : Shared.Desc) : Prop :=
  ∃ m i o, d.mode = some m ∧ d.ref = some i ∧ s.store[i]? = some o ∧ o.mode = m ∧ o.isComplete = true ∧
    1 ≤ d.iters.toNat ∧ d.iters.toNat ≤ 1000000000

/-- C19, one direction, without restriction: over all histories of operations on shared data objects and descriptions,
a description that says it is valid is valid. -/
theorem C19_valid_sound_partial (ops : List Shared.Op) (d : Shared.Desc) (hd : d ∈ (Shared.run ops).descs)
    (hv : d.val = true) : ShouldBeValid (Shared.run ops) d :=
  Shared.sound ops d hd hv

/-- C19, both directions, for programs that do not change a data object any more once a description refers to it. -/
theorem C19_valid_exact_partial (ops : List Shared.Op) (hq : Shared.Quiet ops) (d : Shared.Desc)
    (hd : d ∈ (Shared.run ops).descs) : d.val = true ↔ ShouldBeValid (Shared.run ops) d :=
  Shared.exact ops hq d hd

/-- C19 fails in general: completing the data after handing it over leaves the description invalid. -/
theorem C19_late_completion_unnoticed :
    ∃ ops d, d ∈ (Shared.run ops).descs ∧ ShouldBeValid (Shared.run ops) d ∧ d.val = false :=
  ⟨[.newData .count, .newDescWith 3 5 (some 0), .addPart 0 (Bytes.full [0, 0, 0, 0, 0, 0, 0, 1])],
    ⟨some .count, some 0, 5, false⟩, by decide,
    ⟨.count, 0, ⟨.count, ⟨[0, 0, 0, 0, 0, 0, 0, 1], 255⟩, 1⟩, by decide, by decide, by decide, by decide, by decide, by decide, by decide⟩,
    rfl⟩

/-- C19: the getters answer exactly when the description is valid (and otherwise throw `runtime_error`). -/
theorem C19_getters (ops : List Shared.Op) (d : Shared.Desc) (hd : d ∈ (Shared.run ops).descs) :
    let c := (Shared.run ops).resolve d
    (d.val = true → (∃ m, c.getMode = .ok m ∧ d.mode = some m) ∧ (∃ o, c.getData = .ok o) ∧ c.getIters = .ok d.iters) ∧
    (d.val = false → c.getMode = .exn .runtimeError ∧ c.getData = .exn .runtimeError ∧ c.getIters = .exn .runtimeError)
    := by
  refine ⟨fun hv => ?_, fun hv => ?_⟩
  · obtain ⟨m, i, o, h1, h2, h3, -⟩ := C19_valid_sound_partial ops d hd hv
    simp [Shared.Sys.resolve, ChainHash.getMode, ChainHash.getData, ChainHash.getIters, hv, h1, h2, h3]
  · simp [Shared.Sys.resolve, ChainHash.getMode, ChainHash.getData, ChainHash.getIters, hv]

/-- a quiet program with a valid and an invalid description -/
example : Shared.Quiet [.newData .count, .addPart 0 (Bytes.full [0, 0, 0, 0, 0, 0, 0, 1]), .newDescWith 3 5 (some 0), .newDesc,
    .setMode 1 2] := by decide

end Verif.Props
