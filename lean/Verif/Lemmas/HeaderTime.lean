import Verif.Spec.HeaderTime
import Verif.Lemmas.Reopen
import Verif.Lemmas.ChainTable
import Verif.Lemmas.Timed

/- Creating a header by run time. -/
namespace Verif.Api
open Spec PwFunc
variable {hs : Hashes} {e : Env}

theorem routine_eq (m : CHMode) (b : List Byte) : routine m b = argsOf m b := by cases m <;> rfl

/-- the random data of a chain hash -/
def newData (m : CHMode) (r : Rand) : ChainHashData := ⟨m, ⟨r.take m.randLen, 255⟩, m.nameLens.length⟩

/-- the timed description made from random data -/
def newTimed (m : CHMode) (t : Nat) (r : Rand) : ChainHashTimed := ⟨m, some (newData m r), UInt64.ofNat t, true⟩

theorem newData_reach (m : CHMode) (r : Rand) (hr : r.good = true) : (newData m r).Reach :=
  .random (.new m) (randomData_good m r hr)

theorem toNat_time {t : Nat} (h : t ≤ 86400000) : (UInt64.ofNat t).toNat = t := by
  rw [UInt64.toNat_ofNat', Nat.mod_eq_of_lt (by omega)]

theorem newTimed_eq (m : CHMode) {t : Nat} (r : Rand) (h : 1 ≤ t ∧ t ≤ 86400000) :
    ChainHashTimed.make m (UInt64.ofNat t) (some (newData m r)) = newTimed m t r := by
  simp only [ChainHashTimed.make, newTimed, toNat_time h.2, newData, ChainHashData.isCompletedFormat, ChainHashData.isComplete,
    maxRuntime]
  simp
  omega

/-- the modes and blocks of usable settings -/
theorem TimeSettings.are {ds : SettingsTime} {t1 t2 : Nat} (h : TimeSettings ds t1 t2) :
    ∃ (hm : HMode) (m1 m2 : CHMode), ds.fileMode = some 1 ∧ ds.hashMode = some hm.toByte.toNat ∧ ds.ch1Mode = some m1.num ∧ ds.ch2Mode = some m2.num ∧
      BlocksOk (withIters ds 1 1) ∧ ds.dec.length ≤ 255 ∧ ds.enc.length ≤ 255 := by
  obtain ⟨hin, hbl⟩ := built_ok h.usable.built
  obtain ⟨hm, m1, m2, n1, n2, hare⟩ := hin.are h.usable.complete
  exact ⟨hm, m1, m2, hare.efm, hare.ehm, hare.em1, hare.em2, hbl, h.usable.dec, h.usable.enc⟩

theorem makeChainsTime_good {ds : SettingsTime} {m1 m2 : CHMode} {t1 t2 : Nat} (h1 : ds.ch1Mode = some m1.num)
    (h2 : ds.ch2Mode = some m2.num) (h3 : ds.ch1Time = some t1) (h4 : ds.ch2Time = some t2) (r1 : 1 ≤ t1 ∧ t1 ≤ 86400000)
    (r2 : 1 ≤ t2 ∧ t2 ≤ 86400000) (g0 : (e.rand 0).good = true) (g1 : (e.rand 1).good = true) :
    makeChainsTime ds e = .ok (newTimed m1 t1 (e.rand 0), newTimed m2 t2 (e.rand 1)) := by
  have a : ∀ m t r, 1 ≤ t ∧ t ≤ 86400000 → (newTimed m t r).assign = .ok (newTimed m t r) := by
    intro m t r ht
    have := newTimed_eq m r ht
    exact congrArg Res.ok this
  have d1 := randomData_good m1 _ g0
  have d2 := randomData_good m2 _ g1
  rw [show (⟨m1, ⟨(e.rand 0).take m1.randLen, 255⟩, m1.nameLens.length⟩ : ChainHashData) = newData m1 (e.rand 0) from rfl] at d1
  rw [show (⟨m2, ⟨(e.rand 1).take m2.randLen, 255⟩, m2.nameLens.length⟩ : ChainHashData) = newData m2 (e.rand 1) from rfl] at d2
  simp only [makeChainsTime, SettingsTime.getChainHash1Mode, SettingsTime.getChainHash2Mode, SettingsTime.getChainHash1Time,
    SettingsTime.getChainHash2Time, h1, h2, h3, h4, DataHeaderParts.get, Res.bind_ok, chMode_num, d1, d2, newTimed_eq _ _ r1,
    newTimed_eq _ _ r2, a _ _ _ r1, a _ _ _ r2]
  rw [show (newTimed m1 t1 (e.rand 0)).getData = .ok (newData m1 (e.rand 0)) from rfl,
    show (newTimed m2 t2 (e.rand 1)).getData = .ok (newData m2 (e.rand 1)) from rfl]
  simp only [Res.bind_ok]
  rw [if_neg (by simp)]

/-- the code from the first chain hash on -/
theorem makeHeaderTime_eq {T : TimedHash} {ds : SettingsTime} {hm : HMode} (h1 : ds.fileMode = some 1)
    (h2 : ds.hashMode = some hm.toByte.toNat) (pw : List Byte) (c1 c2 : ChainHashTimed) :
    makeHeaderTime hs T pw ds e c1 c2 = (do
      match ← T.str c1 (hs.get hm) pw with
      | .fail c => .ok (.createMove (.fail c))
      | .timeout => .ok (.createMove .timeout)
      | .success r1 => do
        let a1 ← r1.chainhash.assign
        match ← T.bytes c2 (hs.get hm) r1.result with
        | .fail c => .ok (.createMove (.fail c))
        | .timeout => .ok (.createMove .timeout)
        | .success r2 => do
          let a2 ← r2.chainhash.assign
          let p ← (⟨some 1, some hm, none, none, ds.dec, ds.enc, a1, a2⟩ : DataHeaderParts).setValidPasswordHash r2.result
          let salt ← (Bytes.empty (hs.get hm).size).fillrandom (e.rand 2)
          let p ← p.setEncSalt salt
          let o ← DataHeader.setHeaderParts p (e.rand 3)
          .ok ⟨o, r1.result⟩) := by
  have e1 : HMode.ofByte (UInt8.ofNat hm.toByte.toNat) = some hm := by
    rw [UInt8.ofNat_toNat]; exact HMode.ofByte_toByte hm
  simp only [makeHeaderTime, SettingsTime.getFileDataMode, SettingsTime.getHashMode, h1, h2, DataHeaderParts.get,
      Res.bind_ok, DataHeaderParts.setFileDataMode, DataHeaderParts.setHashMode, e1]
  rw [if_pos (by decide)]
  rfl

theorem timeRest_eq {T : TimedHash} {ds : SettingsTime} {t1 t2 : Nat} (h : TimeSettings ds t1 t2)
    (hr : ∀ i, (e.rand i).good = true) (pw : List Byte) :
    ∃ (hm : HMode) (m1 m2 : CHMode), ds.hashMode = some hm.toByte.toNat ∧ ds.ch1Mode = some m1.num ∧ ds.ch2Mode = some m2.num ∧
      ds.fileMode = some 1 ∧ BlocksOk (withIters ds 1 1) ∧ ds.dec.length ≤ 255 ∧ ds.enc.length ≤ 255 ∧
      timeRest hs T 1 pw ds e = makeHeaderTime hs T pw ds e (newTimed m1 t1 (e.rand 0)) (newTimed m2 t2 (e.rand 1)) := by
  obtain ⟨hm, m1, m2, h1, h2, h3, h4, h5, h6, h7⟩ := TimeSettings.are h
  refine ⟨hm, m1, m2, h2, h3, h4, h1, h5, h6, h7, ?_⟩
  simp only [timeRest, SettingsTime.getFileDataMode, h1, DataHeaderParts.get, Res.bind_ok]
  rw [if_neg (by decide), makeChainsTime_good h3 h4 h.time1 h.time2 h.range1 h.range2 (hr 0) (hr 1)]
  rfl

theorem make_new {m : CHMode} {n : Nat} (r : Rand) (h1 : 1 ≤ n) (h2 : n ≤ 1000000000) :
    ChainHash.make m (UInt64.ofNat n) (some (newData m r)) = newChain m (UInt64.ofNat n) r := by
  have : (UInt64.ofNat n).toNat = n := by rw [UInt64.toNat_ofNat', Nat.mod_eq_of_lt (by omega)]
  exact mkCH_eq_make (by omega) (by rw [this]; exact h2)

/-- too many iterations make the description unusable -/
theorem make_over {m : CHMode} {n : Nat} (r : Rand) (h1 : 1000000000 < n) (h2 : n < 2 ^ 64) :
    (ChainHash.make m (UInt64.ofNat n) (some (newData m r))).assign = .exn .runtimeError := by
  have hn : (UInt64.ofNat n).toNat = n := by rw [UInt64.toNat_ofNat', Nat.mod_eq_of_lt (by omega)]
  have : (ChainHash.make m (UInt64.ofNat n) (some (newData m r))).val = false := by
    simp only [ChainHash.make, chainHashValid, hn, maxIterations]
    simp; omega
  simp only [ChainHash.assign, ChainHash.getMode, this]
  rfl

theorem newChain_len (m : CHMode) (r : Rand) : blockLenOk m.num (newData m r).block.data.length = true := by
  rw [show (newData m r).block.data = r.take m.randLen from rfl, Rand.length_take]; exact randLen_ok m

/-- the end of header creation: from the two hashes to the header -/
theorem finish_made {ds : SettingsTime} {hm : HMode} (hb : BlocksOk (withIters ds 1 1)) (hl1 : ds.dec.length ≤ 255)
    (hl2 : ds.enc.length ≤ 255) (hr : ∀ i, (e.rand i).good = true) {a1 a2 : ChainHash} (g1 : a1.Good) (g2 : a2.Good)
    (n1 n2 : Nat) {pw : List Byte} {x1 x2 : Bytes} (d1 : x1.data = a1.desc.digest (hs.get hm).h pw) (w1 : x1.WF)
    (l1 : x1.data.length = hm.size) (d2 : x2.data = a2.desc.digest (hs.get hm).h x1.data) (l2 : x2.data.length = hm.size) :
    ∃ d, (do
        let p ← (⟨some 1, some hm, none, none, ds.dec, ds.enc, a1, a2⟩ : DataHeaderParts).setValidPasswordHash x2
        let salt ← (Bytes.empty (hs.get hm).size).fillrandom (e.rand 2)
        let p ← p.setEncSalt salt
        let o ← DataHeader.setHeaderParts p (e.rand 3)
        (.ok ⟨o, x1⟩ : Res Helper)) = .ok ⟨.success d, x1⟩ ∧
      Made (hs.get hm) hm a1 a2 (withIters ds n1 n2) pw (e.rand 2) d x1 := by
  have hsz : (hs.get hm).size = hm.size := Hashes.get_size hs hm
  have hle := hm.size_le
  have e2 : (⟨some 1, some hm, none, none, ds.dec, ds.enc, a1, a2⟩ : DataHeaderParts).setValidPasswordHash x2 =
      .ok ⟨some 1, some hm, some x2, none, ds.dec, ds.enc, a1, a2⟩ := by
    simp only [DataHeaderParts.setValidPasswordHash, DataHeaderParts.getHashSize, DataHeaderParts.get, Res.bind_ok]
    rw [if_pos (show hm.size = x2.len from l2.symm)]
  have e3 : (⟨some 1, some hm, some x2, none, ds.dec, ds.enc, a1, a2⟩ : DataHeaderParts).setEncSalt
      ⟨(e.rand 2).take hm.size, hm.size⟩ =
      .ok ⟨some 1, some hm, some x2, some ⟨(e.rand 2).take hm.size, hm.size⟩, ds.dec, ds.enc, a1, a2⟩ := by
    simp only [DataHeaderParts.setEncSalt, DataHeaderParts.getHashSize, DataHeaderParts.get, Res.bind_ok]
    rw [if_pos (show hm.size = Bytes.len ⟨(e.rand 2).take hm.size, hm.size⟩ from (Rand.length_take _ _).symm)]
  have pok : PartsOk ⟨some 1, some hm, some x2, some ⟨(e.rand 2).take hm.size, hm.size⟩, ds.dec, ds.enc, a1, a2⟩ hm x2
      ⟨(e.rand 2).take hm.size, hm.size⟩ := ⟨rfl, rfl, ⟨rfl, l2⟩, ⟨rfl, Rand.length_take _ _⟩, g1, g2, hb.1, hb.2⟩
  have e5 := setHeaderParts_good pok (hr 3)
  rw [if_pos ⟨hl1, hl2⟩] at e5
  obtain ⟨d, k1, k2, k3, k4, k5, k6, k7⟩ := e5
  refine ⟨d, ?_, k2, k3, ⟨x2, k4, d2⟩, k5, k6, k7, d1, w1, l1⟩
  rw [e2, Res.bind_ok, hsz, fillrandom_good _ _ (hr 2) (by omega), Res.bind_ok, e3, Res.bind_ok, k1, Res.bind_ok]

/-- what one timed chain hash, working as meant, comes to -/
theorem meant_str {T : TimedHash} {clk : Nat → Nat → Nat} {fuel : Nat} (hT : AsMeant T clk fuel) (m : CHMode) {t : Nat}
    (ht : t ≤ 86400000) (r : Rand) (H : HashFn) (pw : List Byte) :
    (T.str (newTimed m t r) H pw = .fatal .diverge ∧ ∀ k, k % 1000 = 0 → 1 < k → k - 1 ≤ fuel → ¬ t ≤ clk 0 k) ∨
    ∃ n b, T.str (newTimed m t r) H pw = .ok (.success ⟨ChainHash.make m (UInt64.ofNat n) (some (newData m r)), b⟩) ∧ 1 < n ∧
      n % 1000 = 0 ∧ t ≤ clk 0 n ∧ b.data = chain H.h (ruleOf m.num (newData m r).block.data) n pw ∧
      (∀ j, 1 < j → j < n → j % 1000 = 0 → clk 0 j < t) ∧ b.WF := by
  obtain ⟨hr, hsf⟩ := argsOf_rule (newChain_len m r)
  have := runTimedStr_result H _ hsf pw t (clk 0) fuel
  rw [hT.str (newTimed m t r) (newData m r) H pw rfl rfl, routine_eq, show (newTimed m t r).runTime.toNat = t from toNat_time ht]
  rw [← hr]
  rcases this with ⟨h1, h2⟩ | ⟨n, b, h1, h2, h3, h4, h5, h6, h7⟩
  · left
    refine ⟨?_, h2⟩
    change meantResult _ _ ((argsOf m (newData m r).block.data).runTimedStr H pw t (clk 0) fuel) = _
    rw [h1]; rfl
  · right
    refine ⟨n, b, ?_, h2, h3, h4, h5, h6, h7⟩
    change meantResult _ _ ((argsOf m (newData m r).block.data).runTimedStr H pw t (clk 0) fuel) = _
    rw [h1]; rfl

theorem meant_bytes {T : TimedHash} {clk : Nat → Nat → Nat} {fuel : Nat} (hT : AsMeant T clk fuel) (m : CHMode) {t : Nat}
    (ht : t ≤ 86400000) (r : Rand) (H : HashFn) (x : Bytes) (hx : x.WF) :
    (T.bytes (newTimed m t r) H x = .fatal .diverge ∧ ∀ k, k % 1000 = 0 → 0 < k → k - 0 ≤ fuel → ¬ t ≤ clk 1 k) ∨
    ∃ n b, T.bytes (newTimed m t r) H x = .ok (.success ⟨ChainHash.make m (UInt64.ofNat n) (some (newData m r)), b⟩) ∧ 0 < n ∧
      n % 1000 = 0 ∧ t ≤ clk 1 n ∧ b.data = chain H.h (ruleOf m.num (newData m r).block.data) n x.data ∧
      (∀ j, 0 < j → j < n → j % 1000 = 0 → clk 1 j < t) ∧ b.WF := by
  obtain ⟨hr, hsf⟩ := argsOf_rule (newChain_len m r)
  have := runTimedBytes_result H _ hsf x hx t (clk 1) fuel
  rw [hT.bytes (newTimed m t r) (newData m r) H x rfl rfl, routine_eq, show (newTimed m t r).runTime.toNat = t from toNat_time ht]
  rw [← hr]
  rcases this with ⟨h1, h2⟩ | ⟨n, b, h1, h2, h3, h4, h5, h6, h7⟩
  · left
    refine ⟨?_, h2⟩
    change meantResult _ _ ((argsOf m (newData m r).block.data).runTimedBytes H x t (clk 1) fuel) = _
    rw [h1]; rfl
  · right
    refine ⟨n, b, ?_, h2, h3, h4, h5, h6, h7⟩
    change meantResult _ _ ((argsOf m (newData m r).block.data).runTimedBytes H x t (clk 1) fuel) = _
    rw [h1]; rfl

end Verif.Api
