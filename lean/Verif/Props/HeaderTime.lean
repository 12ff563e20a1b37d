import Verif.Lemmas.HeaderTime
import Verif.Props.ChainHash
import Verif.Props.Sample

/- Creating a header by run time, beyond the construction that throws: C53. -/
namespace Verif.Props
open Spec Api

/-- `n` is the first multiple of 1000 at which the clock shows the run time `t` or more -/
structure FirstCheck (clk : Nat → Nat) (t n : Nat) : Prop where
  pos : 0 < n
  mult : n % 1000 = 0
  reached : t ≤ clk n
  first : ∀ j, 0 < j → j < n → j % 1000 = 0 → clk j < t

theorem FirstCheck.unique {clk : Nat → Nat} {t n n' : Nat} (h : FirstCheck clk t n) (h' : FirstCheck clk t n') : n = n' := by
  rcases Nat.lt_trichotomy n n' with hl | hl | hl
  · have := h'.first n h.pos hl h.mult
    have := h.reached
    omega
  · exact hl
  · have := h.first n' h'.pos hl h'.mult
    have := h'.reached
    omega

/-- C53, the second flaw: also if the result were constructed properly, no header would be created by run time. With all settings and
working randomness the process is terminated or, if a clock does not advance, the call does not return. -/
theorem C53_second_flaw (hs : Hashes) (ds : SettingsTime) (t1 t2 : Nat) (h : TimeSettings ds t1 t2) (e : Env)
    (hr : ∀ i, (e.rand i).good = true) (pw : List Byte) (clk : Nat → Nat → Nat → Nat) (fuel : Nat) :
    (Res.noexcept (timeRest hs (timedHash clk fuel) 1 pw ds e) = .fatal .terminate ∨
      Res.noexcept (timeRest hs (timedHash clk fuel) 1 pw ds e) = .fatal .diverge) ∧
    ((∀ i, ∃ k, 1 ≤ k ∧ 1000 * k ≤ fuel ∧ t1 ≤ clk 0 i (1000 * k)) →
      Res.noexcept (timeRest hs (timedHash clk fuel) 1 pw ds e) = .fatal .terminate) := by
  obtain ⟨hm, m1, m2, h2, -, -, h1, -, -, -, heq⟩ := timeRest_eq (hs := hs) (T := timedHash clk fuel) h hr pw
  rw [heq, makeHeaderTime_eq h1 h2]
  obtain ⟨-, k1, k2⟩ := C13_timed_throws m1 (UInt64.ofNat t1) (newData m1 (e.rand 0)) (newData_reach _ _ (hr 0))
    (by rw [newTimed_eq _ _ h.range1]; rfl) (hs.get hm) (Bytes.empty 0) (Nat.zero_le _) pw (clk 0) fuel
  rw [newTimed_eq _ _ h.range1] at k1 k2
  rw [toNat_time h.range1.2] at k2
  rw [show (timedHash clk fuel).str (newTimed m1 t1 (e.rand 0)) (hs.get hm) pw =
    ChainHashModes.performTimedStr (newTimed m1 t1 (e.rand 0)) (hs.get hm) pw (clk 0) fuel from rfl]
  constructor
  · rcases k1 with k1 | k1 <;> rw [k1]
    · exact .inl rfl
    · exact .inr rfl
  · intro hc
    rw [(k2 hc).2]
    rfl

/-- C53, what the rest of the code does if the construction of the result and the timed chain hashing worked as meant: the header is
the one of the same settings with the numbers of iterations that were done in the time, and opens with the password. Missing: that
they work (`C53_terminates`, `C53_second_flaw`), and numbers above 10⁹ (`C53_third_flaw`). -/
theorem C53_repaired_partial (hs : Hashes) (ds : SettingsTime) (t1 t2 : Nat) (h : TimeSettings ds t1 t2) (e : Env)
    (hr : ∀ i, (e.rand i).good = true) (pw : List Byte) (T : TimedHash) (clk : Nat → Nat → Nat) (fuel : Nat) (hT : AsMeant T clk fuel)
    (n1 n2 : Nat) (f1 : FirstCheck (clk 0) t1 n1) (f2 : FirstCheck (clk 1) t2 n2) (hf : n1 ≤ fuel ∧ n2 ≤ fuel)
    (b1 : n1 ≤ 1000000000) (b2 : n2 ≤ 1000000000) :
    ∃ d key, Res.noexcept (timeRest hs T 1 pw ds e) = .ok ⟨.success d, key⟩ ∧ MadeFrom (withIters ds n1 n2) d.contents ∧
      Opens hs d.contents pw ∧ ∃ m : HMode, ds.hashMode = some m.toByte.toNat ∧
        key.data = d.contents.ch1.digest (hs.get m).h pw ∧ d.contents.salt = (e.rand 2).take m.size := by
  obtain ⟨hm, m1, m2, h2, hm1, hm2, h1, hb, hl1, hl2, heq⟩ := timeRest_eq (hs := hs) (T := T) h hr pw
  rw [heq, makeHeaderTime_eq h1 h2]
  have hsz : (hs.get hm).size = hm.size := Hashes.get_size hs hm
  have nat64 : ∀ n, n ≤ 1000000000 → (UInt64.ofNat n).toNat = n := by
    intro n hn
    rw [UInt64.toNat_ofNat', Nat.mod_eq_of_lt (by omega)]
  rcases meant_str hT m1 h.range1.2 (e.rand 0) (hs.get hm) pw with ⟨-, q⟩ | ⟨n, x1, q1, q2, q3, q4, q5, q6, q7⟩
  · have := f1.pos
    have := f1.mult
    exact absurd f1.reached (q n1 f1.mult (by omega) (by omega))
  obtain rfl : n = n1 := FirstCheck.unique ⟨by omega, q3, q4, fun j a b c => q6 j (by omega) b c⟩ f1
  rw [q1, Res.bind_ok]
  simp only
  rw [make_new _ (by omega) b1, (newChain_good m1 _ (e.rand 0) (by rw [nat64 _ b1]; exact ⟨by omega, b1⟩)).assign, Res.bind_ok]
  rcases meant_bytes hT m2 h.range2.2 (e.rand 1) (hs.get hm) x1 q7 with ⟨-, p⟩ | ⟨n', x2, p1, p2, p3, p4, p5, p6, p7⟩
  · have := f2.pos
    exact absurd f2.reached (p n2 f2.mult f2.pos (by omega))
  obtain rfl : n' = n2 := FirstCheck.unique ⟨p2, p3, p4, p6⟩ f2
  have g1 := newChain_good m1 (UInt64.ofNat n) (e.rand 0) (by rw [nat64 _ b1]; exact ⟨by omega, b1⟩)
  have g2 := newChain_good m2 (UInt64.ofNat n') (e.rand 1) (by rw [nat64 _ b2]; exact ⟨by omega, b2⟩)
  rw [p1, Res.bind_ok]
  simp only
  rw [make_new _ p2 b2, g2.assign, Res.bind_ok]
  have desc : ∀ m k r, k ≤ 1000000000 → (newChain m (UInt64.ofNat k) r).desc = ⟨m.toByte, k, (newData m r).block.data⟩ := by
    intro m k r hk
    simp only [ChainHash.desc, newChain, mkCH, nat64 _ hk, newData]
  have dig1 : x1.data = (newChain m1 (UInt64.ofNat n) (e.rand 0)).desc.digest (hs.get hm).h pw := by
    rw [desc _ _ _ b1, q5]; rfl
  have dig2 : x2.data = (newChain m2 (UInt64.ofNat n') (e.rand 1)).desc.digest (hs.get hm).h x1.data := by
    rw [desc _ _ _ b2, p5]; rfl
  have len : ∀ (r : SaltRule) (k : Nat) (x : List Byte), 0 < k → (chain (hs.get hm).h r k x).length = hm.size := by
    intro r k x hk
    obtain ⟨j, rfl⟩ : ∃ j, k = j + 1 := ⟨k - 1, by omega⟩
    rw [chain_succ, (hs.get hm).len, hsz]
  obtain ⟨d, k1, k2⟩ := finish_made (hs := hs) (hm := hm) hb hl1 hl2 hr g1 g2 n n' dig1 q7 (by rw [q5]; exact len _ _ _ (by omega))
    dig2 (by rw [p5]; exact len _ _ _ p2)
  refine ⟨d, x1, by rw [k1]; rfl, ?_, ?_, hm, h2, ?_, ?_⟩
  all_goals
    obtain ⟨v, kd, kv⟩ := k2.dh
    have c1 : d.contents.ch1 = (newChain m1 (UInt64.ofNat n) (e.rand 0)).desc := by simp only [DataHeader.contents, kd]
    have c2 : d.contents.ch2 = (newChain m2 (UInt64.ofNat n') (e.rand 1)).desc := by simp only [DataHeader.contents, kd]
  · refine ⟨?_, ?_, ?_, ?_, ?_, ?_, ?_⟩
    · rw [show (withIters ds n n').hashMode = ds.hashMode from rfl, h2]; simp only [DataHeader.contents, kd]
    · rw [show (withIters ds n n').ch1Mode = ds.ch1Mode from rfl, hm1, c1, ← toByte_num]; rfl
    · rw [c1, desc _ _ _ b1]; rfl
    · rw [show (withIters ds n n').ch2Mode = ds.ch2Mode from rfl, hm2, c2, ← toByte_num]; rfl
    · rw [c2, desc _ _ _ b2]; rfl
    · simp only [DataHeader.contents, kd]
    · simp only [DataHeader.contents, kd]
  · refine ⟨hm, ?_, ?_⟩
    · simp only [DataHeader.contents, kd]
    · rw [c1, c2, ← dig1, ← kv]; simp only [DataHeader.contents, kd]
  · rw [c1]; exact dig1
  · simp only [DataHeader.contents, kd]

/-- C53, the third flaw: also if both worked as meant, a run time in which more than 10⁹ iterations are done terminates the process. -/
theorem C53_third_flaw (hs : Hashes) (ds : SettingsTime) (t1 t2 : Nat) (h : TimeSettings ds t1 t2) (e : Env)
    (hr : ∀ i, (e.rand i).good = true) (pw : List Byte) (T : TimedHash) (clk : Nat → Nat → Nat) (fuel : Nat) (hT : AsMeant T clk fuel)
    (n1 n2 : Nat) (f1 : FirstCheck (clk 0) t1 n1) (f2 : FirstCheck (clk 1) t2 n2) (hf : n1 ≤ fuel ∧ n2 ≤ fuel)
    (hl : n1 < 2 ^ 64 ∧ n2 < 2 ^ 64) (hb : 1000000000 < n1 ∨ 1000000000 < n2) :
    Res.noexcept (timeRest hs T 1 pw ds e) = .fatal .terminate := by
  obtain ⟨hm, m1, m2, h2, -, -, h1, -, -, -, heq⟩ := timeRest_eq (hs := hs) (T := T) h hr pw
  rw [heq, makeHeaderTime_eq h1 h2]
  rcases meant_str hT m1 h.range1.2 (e.rand 0) (hs.get hm) pw with ⟨-, q⟩ | ⟨n, x1, q1, q2, q3, q4, q5, q6, q7⟩
  · have := f1.pos
    have := f1.mult
    exact absurd f1.reached (q n1 f1.mult (by omega) (by omega))
  obtain rfl : n = n1 := FirstCheck.unique ⟨by omega, q3, q4, fun j a b c => q6 j (by omega) b c⟩ f1
  rw [q1, Res.bind_ok]
  simp only
  by_cases b1 : n ≤ 1000000000
  · have nat64 : (UInt64.ofNat n).toNat = n := by
      rw [UInt64.toNat_ofNat', Nat.mod_eq_of_lt (by omega)]
    rw [make_new _ (by omega) b1, (newChain_good m1 _ (e.rand 0) (by rw [nat64]; exact ⟨by omega, b1⟩)).assign, Res.bind_ok]
    rcases meant_bytes hT m2 h.range2.2 (e.rand 1) (hs.get hm) x1 q7 with ⟨-, p⟩ | ⟨n', x2, p1, p2, p3, p4, p5, p6, p7⟩
    · have := f2.pos
      exact absurd f2.reached (p n2 f2.mult f2.pos (by omega))
    obtain rfl : n' = n2 := FirstCheck.unique ⟨p2, p3, p4, p6⟩ f2
    rw [p1, Res.bind_ok]
    simp only
    rw [make_over _ (by omega) hl.2, Res.bind_exn]
    rfl
  · rw [make_over _ (by omega) hl.1, Res.bind_exn]
    rfl

/-- timed chain hashing as meant exists -/
def workingTimed (clk : Nat → Nat → Nat) (fuel : Nat) : TimedHash where
  str c H pw := match c.data with
    | some d => meantResult c d ((routine c.mode d.block.data).runTimedStr H pw c.runTime.toNat (clk 0) fuel)
    | none => .exn .runtimeError
  bytes c H x := match c.data with
    | some d => meantResult c d ((routine c.mode d.block.data).runTimedBytes H x c.runTime.toNat (clk 1) fuel)
    | none => .exn .runtimeError

theorem workingTimed_meant (clk : Nat → Nat → Nat) (fuel : Nat) : AsMeant (workingTimed clk fuel) clk fuel :=
  ⟨fun c d H pw _ h => by simp only [workingTimed, h], fun c d H x _ h => by simp only [workingTimed, h]⟩

/-- the sample settings with run times of 2 and 3 milliseconds instead of numbers of iterations -/
def timeSettings : SettingsTime :=
  { fileMode := some 1, hashMode := some 1, ch1Mode := some 2, ch2Mode := some 5, ch1Time := some 2, ch2Time := some 3 }

/-- the settings, and a clock that is at the first limit after 2000 and at the second after 3000 iterations -/
example : TimeSettings timeSettings 2 3 ∧ FirstCheck (fun j => j / 1000) 2 2000 ∧ FirstCheck (fun j => j / 1000) 3 3000 ∧
    ∀ i, (openEnv.rand i).good = true := by
  refine ⟨⟨⟨⟨⟨[(.fileMode, 1), (.hashMode, 1), (.ch1Mode, 2), (.ch2Mode, 5), (.num1, 1), (.num2, 1)], [], [], rfl⟩, ?_, ?_⟩,
    rfl, by decide, by decide, ?_⟩, rfl, rfl, by decide, by decide⟩, ⟨by decide, by decide, by decide, ?_⟩,
    ⟨by decide, by decide, by decide, ?_⟩, fun _ => rfl⟩
  · intro b hb; cases hb
  · intro b hb; cases hb
  · intro b hb; cases hb
  · intro j _ _ _; show j / 1000 < 2; omega
  · intro j _ _ _; show j / 1000 < 3; omega

/-- 2000 iterations per millisecond and a run time of ten minutes are more than 10⁹ iterations -/
example : FirstCheck (fun j => j / 2000) 600000 1200000000 ∧ 1000000000 < 1200000000 := by
  refine ⟨⟨by decide, by decide, by decide, ?_⟩, by decide⟩
  intro j _ _ _
  show j / 2000 < 600000
  omega

end Verif.Props
