import Verif.Lemmas.Session

/- What header creation computes. -/
namespace Verif
open Spec PwFunc

/-- length of the random data of a chain-hash mode -/
def CHMode.randLen : CHMode → Nat
  | .constSalt => 255
  | .count => 8
  | .constCount => 255
  | .quad => 32
  | _ => 0

theorem randLen_ok (m : CHMode) : blockLenOk m.num m.randLen = true := by cases m <;> decide

theorem randomData_good (m : CHMode) (r : Rand) (hr : r.good = true) :
    (ChainHashData.new m).generateRandomData r = .ok ⟨m, ⟨r.take m.randLen, 255⟩, m.nameLens.length⟩ := by
  have hrnd : ∀ n, n ≤ 255 → Bytes.randomBytes r n = .ok (r.take n) := by
    intro n hn
    unfold Bytes.randomBytes
    rw [if_neg (by simp [hr]; omega), if_neg (by omega)]
  cases m
  · simp [ChainHashData.generateRandomData, ChainHashData.new, Bytes.isEmpty, Bytes.empty, ChainHashData.isStar,
      CHMode.nameLens, ChainHashData.datablockSize, Bytes.addrandom, hrnd 0 (by omega)]; rfl
  · simp [ChainHashData.generateRandomData, ChainHashData.new, Bytes.isEmpty, Bytes.empty, ChainHashData.isStar,
      CHMode.nameLens, Bytes.fillrandom, hrnd 255 (by omega)]; rfl
  · simp [ChainHashData.generateRandomData, ChainHashData.new, Bytes.isEmpty, Bytes.empty, ChainHashData.isStar,
      CHMode.nameLens, ChainHashData.datablockSize, Bytes.addrandom, hrnd 8 (by omega)]; rfl
  · simp [ChainHashData.generateRandomData, ChainHashData.new, Bytes.isEmpty, Bytes.empty, ChainHashData.isStar,
      CHMode.nameLens, Bytes.fillrandom, hrnd 255 (by omega)]; rfl
  · simp [ChainHashData.generateRandomData, ChainHashData.new, Bytes.isEmpty, Bytes.empty, ChainHashData.isStar,
      CHMode.nameLens, ChainHashData.datablockSize, Bytes.addrandom, hrnd 32 (by omega)]; rfl

theorem randomData_bad (m : CHMode) (r : Rand) (hr : r.good = false) :
    (ChainHashData.new m).generateRandomData r =
      if ChainHashData.isStar m then .fatal .terminate else .exn .runtimeError := by
  have hrnd : ∀ n, Bytes.randomBytes r n = .exn .runtimeError := by
    intro n
    unfold Bytes.randomBytes
    rw [if_pos (.inr hr)]
  cases m <;>
    simp [ChainHashData.generateRandomData, ChainHashData.new, Bytes.isEmpty, Bytes.empty, ChainHashData.isStar,
      CHMode.nameLens, ChainHashData.datablockSize, Bytes.addrandom, Bytes.fillrandom, hrnd] <;> rfl

/-- complete settings as numbers -/
structure SettingsIters.Are (ds : SettingsIters) (hm : HMode) (m1 m2 : CHMode) (n1 n2 : UInt64) : Prop where
  efm : ds.fileMode = some 1
  ehm : ds.hashMode = some hm.toByte.toNat
  em1 : ds.ch1Mode = some m1.num
  em2 : ds.ch2Mode = some m2.num
  en1 : ds.ch1Iters = some n1.toNat
  en2 : ds.ch2Iters = some n2.toNat
  r1 : 0 < n1.toNat ∧ n1.toNat ≤ maxIterations
  r2 : 0 < n2.toNat ∧ n2.toNat ≤ maxIterations

/-- values the setters let through -/
def SettingsIters.InRange (ds : SettingsIters) : Prop :=
  (∀ n, ds.fileMode = some n → 1 ≤ n ∧ n ≤ maxFileMode) ∧ (∀ n, ds.hashMode = some n → 1 ≤ n ∧ n ≤ maxHashMode) ∧
  (∀ n, ds.ch1Mode = some n → 1 ≤ n ∧ n ≤ maxChainHashMode) ∧ (∀ n, ds.ch2Mode = some n → 1 ≤ n ∧ n ≤ maxChainHashMode) ∧
  (∀ n, ds.ch1Iters = some n → 0 < n ∧ n ≤ maxIterations) ∧ (∀ n, ds.ch2Iters = some n → 0 < n ∧ n ≤ maxIterations)

theorem SettingsIters.set_inRange {ds ds' : SettingsIters} {st : Setting} {n : Nat} (h : ds.InRange)
    (hs : ds.set st n = .ok ds') : ds'.InRange := by
  obtain ⟨h1, h2, h3, h4, h5, h6⟩ := h
  cases st
  all_goals
    simp only [SettingsIters.set, SettingsIters.setFileDataMode, SettingsIters.setHashMode, SettingsIters.setChainHash1Mode,
      SettingsIters.setChainHash2Mode, SettingsIters.setChainHash1Iters, SettingsIters.setChainHash2Iters] at hs
    split at hs
    · rename_i hr
      cases hs
      refine ⟨?_, ?_, ?_, ?_, ?_, ?_⟩
      all_goals first
        | assumption
        | (intro k hk; cases hk; exact hr)
    · cases hs

theorem SettingsIters.run_inRange (hist : List (Setting × Nat)) : (SettingsIters.run hist).InRange := by
  have key : ∀ (l : List (Setting × Nat)) (ds : SettingsIters), ds.InRange →
      (l.foldl (fun s c => match s.set c.1 c.2 with | .ok s' => s' | _ => s) ds).InRange := by
    intro l
    induction l with
    | nil => intro ds h; exact h
    | cons c l ih =>
      intro ds h
      rw [List.foldl_cons]
      apply ih
      cases hc : ds.set c.1 c.2 with
      | ok ds' => exact SettingsIters.set_inRange h hc
      | exn x => exact h
      | fatal x => exact h
  exact key hist {} ⟨by simp, by simp, by simp, by simp, by simp, by simp⟩

theorem SettingsIters.InRange.are {ds : SettingsIters} (h : ds.InRange) (hc : ds.isComplete = true) :
    ∃ hm m1 m2 n1 n2, ds.Are hm m1 m2 n1 n2 := by
  obtain ⟨h1, h2, h3, h4, h5, h6⟩ := h
  simp only [SettingsIters.isComplete, Bool.and_eq_true, Option.isSome_iff_exists] at hc
  obtain ⟨⟨⟨⟨⟨⟨a1, c1⟩, ⟨a2, c2⟩⟩, ⟨a3, c3⟩⟩, ⟨a4, c4⟩⟩, ⟨a5, c5⟩⟩, ⟨a6, c6⟩⟩ := hc
  have b1 := h1 _ c1
  have b2 := h2 _ c2
  have b3 := h3 _ c3
  have b4 := h4 _ c5
  have b5 := h5 _ c4
  have b6 := h6 _ c6
  have hmode : ∀ n, 1 ≤ n → n ≤ maxHashMode → ∃ m : HMode, m.toByte.toNat = n := by
    intro n g1 g2
    have : n = 1 ∨ n = 2 ∨ n = 3 := by simp only [maxHashMode] at g2; omega
    rcases this with rfl | rfl | rfl
    · exact ⟨.sha256, rfl⟩
    · exact ⟨.sha384, rfl⟩
    · exact ⟨.sha512, rfl⟩
  have cmode : ∀ n, 1 ≤ n → n ≤ maxChainHashMode → ∃ m : CHMode, m.num = n := by
    intro n g1 g2
    have : n = 1 ∨ n = 2 ∨ n = 3 ∨ n = 4 ∨ n = 5 := by simp only [maxChainHashMode] at g2; omega
    rcases this with rfl | rfl | rfl | rfl | rfl
    · exact ⟨.normal, rfl⟩
    · exact ⟨.constSalt, rfl⟩
    · exact ⟨.count, rfl⟩
    · exact ⟨.constCount, rfl⟩
    · exact ⟨.quad, rfl⟩
  have nat64 : ∀ n, n ≤ maxIterations → (UInt64.ofNat n).toNat = n := by
    intro n hn
    rw [UInt64.toNat_ofNat', Nat.mod_eq_of_lt (by simp only [maxIterations] at hn; omega)]
  obtain ⟨hm, e2⟩ := hmode _ b2.1 b2.2
  obtain ⟨m1, e3⟩ := cmode _ b3.1 b3.2
  obtain ⟨m2, e4⟩ := cmode _ b4.1 b4.2
  refine ⟨hm, m1, m2, UInt64.ofNat a4, UInt64.ofNat a6, ?_, ?_, ?_, ?_, ?_, ?_, ?_, ?_⟩
  · rw [c1]; congr 1; simp only [maxFileMode] at b1; omega
  · rw [c2, e2]
  · rw [c3, e3]
  · rw [c5, e4]
  · rw [c4, nat64 _ b5.2]
  · rw [c6, nat64 _ b6.2]
  · rw [nat64 _ b5.2]; exact b5
  · rw [nat64 _ b6.2]; exact b6

theorem chMode_num (m : CHMode) : Api.chMode m.num = .ok m := by cases m <;> rfl

theorem mkCH_good (m : CHMode) (n : UInt64) (block : List Byte) (h : blockLenOk m.num block.length = true)
    (hn : 0 < n.toNat ∧ n.toNat ≤ maxIterations) : (mkCH m n block).Good := ⟨m, n, block, h, hn.1, hn.2, rfl⟩

namespace Api
variable {hs : Hashes} {rest : Helper → Res Helper} {e : Env} {w w' : World}

/-- the chain hash made from random data -/
def newChain (m : CHMode) (n : UInt64) (r : Rand) : ChainHash := mkCH m n (r.take m.randLen)

theorem newChain_good (m : CHMode) (n : UInt64) (r : Rand) (hn : 0 < n.toNat ∧ n.toNat ≤ maxIterations) :
    (newChain m n r).Good := mkCH_good _ _ _ (by rw [Rand.length_take]; exact randLen_ok m) hn

theorem makeChains_good {ds : SettingsIters} {hm : HMode} {m1 m2 : CHMode} {n1 n2 : UInt64}
    (h : ds.Are hm m1 m2 n1 n2) (h0 : (e.rand 0).good = true) (h1 : (e.rand 1).good = true) :
    makeChains ds e = .ok (newChain m1 n1 (e.rand 0), newChain m2 n2 (e.rand 1)) := by
  simp only [makeChains, SettingsIters.getChainHash1Mode, SettingsIters.getChainHash2Mode,
    SettingsIters.getChainHash1Iters, SettingsIters.getChainHash2Iters, h.em1, h.em2, h.en1, h.en2, DataHeaderParts.get,
    Res.bind_ok, chMode_num, randomData_good _ _ h0, randomData_good _ _ h1, UInt64.ofNat_toNat,
    mkCH_eq_make h.r1.1 h.r1.2, mkCH_eq_make h.r2.1 h.r2.2]
  have g1 := (newChain_good m1 n1 (e.rand 0) h.r1).assign
  have g2 := (newChain_good m2 n2 (e.rand 1) h.r2).assign
  simp only [newChain] at g1 g2
  simp only [g1, g2, Res.bind_ok]
  rw [show (mkCH m1 n1 ((e.rand 0).take m1.randLen)).getData = .ok ⟨m1, ⟨(e.rand 0).take m1.randLen, 255⟩, m1.nameLens.length⟩ from rfl,
    show (mkCH m2 n2 ((e.rand 1).take m2.randLen)).getData = .ok ⟨m2, ⟨(e.rand 1).take m2.randLen, 255⟩, m2.nameLens.length⟩ from rfl]
  simp only [Res.bind_ok]
  rw [if_neg (by simp)]
  rfl

/-- without randomness no chain hash is made -/
theorem makeChains_bad {ds : SettingsIters} {x : ChainHash × ChainHash} (hx : makeChains ds e = .ok x) :
    (e.rand 0).good = true ∧ (e.rand 1).good = true := by
  have bad : ∀ (m : CHMode) (r : Rand) d, (ChainHashData.new m).generateRandomData r = .ok d → r.good = true := by
    intro m r d hd
    cases hr : r.good with
    | true => rfl
    | false => rw [randomData_bad m r hr] at hd; split at hd <;> cases hd
  unfold makeChains at hx
  obtain ⟨a1, -, hx⟩ := Res.bind_eq_ok.mp hx
  obtain ⟨a2, -, hx⟩ := Res.bind_eq_ok.mp hx
  obtain ⟨a3, -, hx⟩ := Res.bind_eq_ok.mp hx
  obtain ⟨a4, -, hx⟩ := Res.bind_eq_ok.mp hx
  obtain ⟨a5, h5, hx⟩ := Res.bind_eq_ok.mp hx
  obtain ⟨a6, h6, hx⟩ := Res.bind_eq_ok.mp hx
  exact ⟨bad _ _ _ h5, bad _ _ _ h6⟩

/-- the time limit of header creation was hit -/
def Late (e : Env) (timeout n1 n2 : Nat) : Prop :=
  Hit timeout (e.clk 0) 1 n1 ∨ (timeout ≠ 0 ∧ timeout ≤ e.peek) ∨ Hit (timeout - e.peek) (e.clk 1) 0 n2

theorem not_late_zero (e : Env) (n1 n2 : Nat) : ¬ Late e 0 n1 n2 := by
  rintro (h | ⟨h, -⟩ | h)
  · exact h.1 rfl
  · exact h rfl
  · exact h.1 (by omega)

/-- the header object and password hash made from settings -/
structure Made (H : HashFn) (hm : HMode) (c1 c2 : ChainHash) (ds : SettingsIters) (pw : List Byte) (salt : Rand)
    (d : DataHeader) (h1 : Bytes) : Prop where
  inv : DHInv d
  complete : d.isComplete = true
  dh : ∃ v, d.dh = ⟨some 1, some hm, some v, some ⟨salt.take hm.size, hm.size⟩, ds.dec, ds.enc, c1, c2⟩ ∧
    v.data = c2.desc.digest H.h h1.data
  size : d.hashSize = hm.size
  fileSize : d.fileSize = none
  bytes : d.headerBytes.data = []
  hash : h1.data = c1.desc.digest H.h pw
  wf : h1.WF
  len : h1.data.length = hm.size

theorem fillrandom_good (n : Nat) (r : Rand) (hr : r.good = true) (hn : n < 2 ^ 31) :
    (Bytes.empty n).fillrandom r = .ok ⟨r.take n, n⟩ := by
  have h0 : Bytes.randomBytes r n = .ok (r.take n) := by
    unfold Bytes.randomBytes
    rw [if_neg, if_neg (by omega)]
    rintro (h | h)
    · omega
    · rw [hr] at h; cases h
  simp only [Bytes.fillrandom, Bytes.empty, List.length_nil, Nat.sub_zero, h0, Res.bind_ok, List.nil_append]
  rfl

theorem fillrandom_bad (b : Bytes) (r : Rand) (hr : r.good = false) : b.fillrandom r = .fatal .terminate := by
  simp only [Bytes.fillrandom, Bytes.randomBytes, hr, or_true, if_true, Res.bind_exn, Res.noexcept_exn]

theorem makeHeader_spec {ds : SettingsIters} {hm : HMode} {m1 m2 : CHMode} {n1 n2 : UInt64}
    (h : ds.Are hm m1 m2 n1 n2) {c1 c2 : ChainHash} (g1 : c1.Good) (g2 : c2.Good)
    (hdec : ∀ b ∈ ds.dec, b.data.data.length ≤ 255) (henc : ∀ b ∈ ds.enc, b.block.data.data.length = 255)
    (pw : List Byte) (t : Nat) :
    (Late e t c1.desc.iters c2.desc.iters → makeHeader hs pw ds t e c1 c2 = .ok (.createMove .timeout)) ∧
    (¬ Late e t c1.desc.iters c2.desc.iters →
      ((e.rand 2).good = false ∨ (e.rand 3).good = false → makeHeader hs pw ds t e c1 c2 = .fatal .terminate) ∧
      ((e.rand 2).good = true → (e.rand 3).good = true →
        if ds.dec.length ≤ 255 ∧ ds.enc.length ≤ 255 then
          ∃ d h1, makeHeader hs pw ds t e c1 c2 = .ok ⟨.success d, h1⟩ ∧
            Made (hs.get hm) hm c1 c2 ds pw (e.rand 2) d h1
        else ∃ h1, makeHeader hs pw ds t e c1 c2 = .ok ⟨.fail .ERR, h1⟩)) := by
  have e1 : HMode.ofByte (UInt8.ofNat hm.toByte.toNat) = some hm := by
    rw [UInt8.ofNat_toNat]; exact HMode.ofByte_toByte hm
  have hsz : (hs.get hm).size = hm.size := Hashes.get_size hs hm
  have hle := hm.size_le
  have step : makeHeader hs pw ds t e c1 c2 = (do
      match ← ChainHashModes.performStr c1 (hs.get hm) pw t (e.clk 0) with
      | .fail c => .ok (.createMove (.fail c))
      | .timeout => .ok (.createMove .timeout)
      | .success h1 =>
        if t ≠ 0 ∧ t ≤ e.peek then .ok (.createMove .timeout)
        else do
          match ← ChainHashModes.performBytes c2 (hs.get hm) h1 (if t ≠ 0 then t - e.peek else t) (e.clk 1) with
          | .fail c => .ok (.createMove (.fail c))
          | .timeout => .ok (.createMove .timeout)
          | .success v => do
            let p ← (⟨some 1, some hm, none, none, ds.dec, ds.enc, c1, c2⟩ : DataHeaderParts).setValidPasswordHash v
            let salt ← (Bytes.empty (hs.get hm).size).fillrandom (e.rand 2)
            let p ← p.setEncSalt salt
            let o ← DataHeader.setHeaderParts p (e.rand 3)
            .ok ⟨o, h1⟩) := by
    simp only [makeHeader, SettingsIters.getFileDataMode, SettingsIters.getHashMode, h.efm, h.ehm, DataHeaderParts.get,
      Res.bind_ok, DataHeaderParts.setFileDataMode, DataHeaderParts.setHashMode, e1]
    rw [if_pos (by decide)]
    rfl
  rw [step]
  have hrem : (if t ≠ 0 then t - e.peek else t) = t - e.peek := by split <;> omega
  rw [hrem]
  rcases g1.str (hs.get hm) pw t (e.clk 0) with ⟨hh, r1⟩ | ⟨hh, x1, r1, d1, w1, l1⟩
  · exact ⟨fun _ => by rw [r1]; rfl, fun hl => absurd (.inl hh) hl⟩
  rw [r1, Res.bind_ok]
  simp only
  by_cases ht : t ≠ 0 ∧ t ≤ e.peek
  · rw [if_pos ht]
    exact ⟨fun _ => rfl, fun hl => absurd (.inr (.inl ht)) hl⟩
  rw [if_neg ht]
  rcases g2.bytes (hs.get hm) x1 w1 (t - e.peek) (e.clk 1) with ⟨hh2, r2⟩ | ⟨hh2, x2, r2, d2, w2, l2⟩
  · exact ⟨fun _ => by rw [r2]; rfl, fun hl => absurd (.inr (.inr hh2)) hl⟩
  refine ⟨fun hl => ?_, fun _ => ?_⟩
  · rcases hl with hl | hl | hl
    · exact absurd hl hh
    · exact absurd hl ht
    · exact absurd hl hh2
  rw [r2, Res.bind_ok]
  simp only
  rw [hsz] at l1 l2 ⊢
  have e2 : (⟨some 1, some hm, none, none, ds.dec, ds.enc, c1, c2⟩ : DataHeaderParts).setValidPasswordHash x2 =
      .ok ⟨some 1, some hm, some x2, none, ds.dec, ds.enc, c1, c2⟩ := by
    simp only [DataHeaderParts.setValidPasswordHash, DataHeaderParts.getHashSize, DataHeaderParts.get, Res.bind_ok]
    rw [if_pos (show hm.size = x2.len from l2.symm)]
  rw [e2, Res.bind_ok]
  refine ⟨fun hb => ?_, fun hr2 hr3 => ?_⟩
  all_goals
    have e3 : (e.rand 2).good = true → ∃ p, (do
        let salt ← (Bytes.empty hm.size).fillrandom (e.rand 2)
        (⟨some 1, some hm, some x2, none, ds.dec, ds.enc, c1, c2⟩ : DataHeaderParts).setEncSalt salt) = .ok p ∧
        p = ⟨some 1, some hm, some x2, some ⟨(e.rand 2).take hm.size, hm.size⟩, ds.dec, ds.enc, c1, c2⟩ := by
      intro hr
      refine ⟨_, ?_, rfl⟩
      rw [fillrandom_good _ _ hr (by omega), Res.bind_ok]
      simp only [DataHeaderParts.setEncSalt, DataHeaderParts.getHashSize, DataHeaderParts.get, Res.bind_ok]
      rw [if_pos (show hm.size = Bytes.len ⟨(e.rand 2).take hm.size, hm.size⟩ from (Rand.length_take _ _).symm)]
    have pok : PartsOk ⟨some 1, some hm, some x2, some ⟨(e.rand 2).take hm.size, hm.size⟩, ds.dec, ds.enc, c1, c2⟩ hm x2
        ⟨(e.rand 2).take hm.size, hm.size⟩ := ⟨rfl, rfl, ⟨rfl, l2⟩, ⟨rfl, Rand.length_take _ _⟩, g1, g2, hdec, henc⟩
  · cases hr : (e.rand 2).good with
    | false => rw [fillrandom_bad _ _ hr, Res.bind_fatal]
    | true =>
      obtain ⟨p, e4, rfl⟩ := e3 hr
      rw [fillrandom_good _ _ hr (by omega), Res.bind_ok] at e4 ⊢
      rw [e4, Res.bind_ok, setHeaderParts_bad pok (by simpa [hr] using hb), Res.bind_fatal]
  · obtain ⟨p, e4, rfl⟩ := e3 hr2
    rw [fillrandom_good _ _ hr2 (by omega), Res.bind_ok] at e4 ⊢
    rw [e4, Res.bind_ok]
    have e5 := setHeaderParts_good pok hr3
    by_cases hb : ds.dec.length ≤ 255 ∧ ds.enc.length ≤ 255
    · rw [if_pos hb] at e5 ⊢
      obtain ⟨d, k1, k2, k3, k4, k5, k6, k7⟩ := e5
      rw [k1]
      exact ⟨d, x1, rfl, k2, k3, ⟨x2, k4, d2⟩, k5, k6, k7, d1, w1, l1⟩
    · rw [if_neg hb] at e5 ⊢
      rw [e5]
      exact ⟨x1, rfl⟩

/-- blocks as the public operations make them -/
def BlocksOk (ds : SettingsIters) : Prop :=
  (∀ b ∈ ds.dec, b.data.data.length ≤ 255) ∧ (∀ b ∈ ds.enc, b.block.data.data.length = 255)

theorem create_complete {mode : Byte} {ds : SettingsIters} (hc : ds.isComplete = true) (n : Nat)
    (hf : ds.fileMode = some n) (pw : List Byte) (t : Nat) :
    createDataHeaderIters hs mode pw ds t e = Res.noexcept (
      if n ≠ mode.toNat then .ok (.createMove (.fail .ERR_FILEMODE_INVALID))
      else do
        match ← Res.attempt (makeChains ds e) with
        | none => .ok (.createMove (.fail .ERR))
        | some (c1, c2) => makeHeader hs pw ds t e c1 c2) := by
  simp only [createDataHeaderIters, hc, Bool.not_true, Bool.false_eq_true, if_false, SettingsIters.getFileDataMode, hf,
    DataHeaderParts.get, Res.bind_ok]
  rfl

theorem Are.complete {ds : SettingsIters} {hm : HMode} {m1 m2 : CHMode} {n1 n2 : UInt64}
    (h : ds.Are hm m1 m2 n1 n2) : ds.isComplete = true := by
  simp [SettingsIters.isComplete, h.efm, h.ehm, h.em1, h.em2, h.en1, h.en2]

/-- with working randomness: timeout, a header, or a refusal because of too many blocks -/
theorem create_spec {ds : SettingsIters} {hm : HMode} {m1 m2 : CHMode} {n1 n2 : UInt64} (h : ds.Are hm m1 m2 n1 n2)
    (hb : BlocksOk ds) (hr : ∀ i, (e.rand i).good = true) (pw : List Byte) (t : Nat) :
    (Late e t n1.toNat n2.toNat → createDataHeaderIters hs 1 pw ds t e = .ok (.createMove .timeout)) ∧
    (¬ Late e t n1.toNat n2.toNat →
        if ds.dec.length ≤ 255 ∧ ds.enc.length ≤ 255 then
          ∃ d h1, createDataHeaderIters hs 1 pw ds t e = .ok ⟨.success d, h1⟩ ∧
            Made (hs.get hm) hm (newChain m1 n1 (e.rand 0)) (newChain m2 n2 (e.rand 1)) ds pw (e.rand 2) d h1
        else ∃ h1, createDataHeaderIters hs 1 pw ds t e = .ok ⟨.fail .ERR, h1⟩) := by
  have e1 := create_complete (hs := hs) (e := e) (mode := 1) (Are.complete h) 1 h.efm pw t
  rw [if_neg (by decide), makeChains_good h (hr 0) (hr 1)] at e1
  have e2 : createDataHeaderIters hs 1 pw ds t e = Res.noexcept (makeHeader hs pw ds t e (newChain m1 n1 (e.rand 0))
      (newChain m2 n2 (e.rand 1))) := e1
  rw [e2]
  obtain ⟨k1, k2⟩ := makeHeader_spec (hs := hs) (e := e) h (newChain_good m1 n1 (e.rand 0) h.r1)
    (newChain_good m2 n2 (e.rand 1) h.r2) hb.1 hb.2 pw t
  refine ⟨fun hl => by rw [k1 hl]; rfl, fun hl => ?_⟩
  have k3 := (k2 hl).2 (hr 2) (hr 3)
  split
  · rename_i hc
    rw [if_pos hc] at k3
    obtain ⟨d, h1, k4, k5⟩ := k3
    exact ⟨d, h1, by rw [k4]; rfl, k5⟩
  · rename_i hc
    rw [if_neg hc] at k3
    obtain ⟨h1, k4⟩ := k3
    exact ⟨h1, by rw [k4]; rfl⟩

/-- what a created header is made of -/
theorem create_success {mode : Byte} {ds : SettingsIters} (hd : ds.InRange) (hb : BlocksOk ds) {pw : List Byte} {t : Nat}
    {x : Helper} {d : DataHeader} (hx : createDataHeaderIters hs mode pw ds t e = .ok x) (hxe : x.err = .success d) :
    mode = 1 ∧ (∀ i, i < 4 → (e.rand i).good = true) ∧ ∃ hm m1 m2 n1 n2, ds.Are hm m1 m2 n1 n2 ∧
      ¬ Late e t n1.toNat n2.toNat ∧ ds.dec.length ≤ 255 ∧ ds.enc.length ≤ 255 ∧
      Made (hs.get hm) hm (newChain m1 n1 (e.rand 0)) (newChain m2 n2 (e.rand 1)) ds pw (e.rand 2) d x.pwHash := by
  cases hc : ds.isComplete with
  | false =>
    simp only [createDataHeaderIters, hc, Bool.not_false, if_true, Res.noexcept_ok, Res.ok.injEq] at hx
    subst hx; cases hxe
  | true =>
    obtain ⟨hm, m1, m2, n1, n2, h⟩ := hd.are hc
    rw [create_complete hc 1 h.efm, Res.noexcept_eq_ok] at hx
    split at hx
    · cases hx; cases hxe
    · rename_i hmode
      have hm1 : mode = 1 := by
        apply UInt8.toNat_inj.mp
        simp only [UInt8.reduceToNat]
        omega
      subst hm1
      obtain ⟨a, ha, hx⟩ := Res.bind_eq_ok.mp hx
      cases a with
      | none => cases hx; cases hxe
      | some cc =>
        rw [attempt_some] at ha
        obtain ⟨hr0, hr1⟩ := makeChains_bad ha
        rw [makeChains_good h hr0 hr1] at ha
        cases ha
        simp only at hx
        obtain ⟨k1, k2⟩ := makeHeader_spec (hs := hs) (e := e) h (newChain_good m1 n1 (e.rand 0) h.r1)
          (newChain_good m2 n2 (e.rand 1) h.r2) hb.1 hb.2 pw t
        by_cases hl : Late e t n1.toNat n2.toNat
        · rw [k1 hl] at hx; cases hx; cases hxe
        · obtain ⟨k3, k4⟩ := k2 hl
          cases hr2 : (e.rand 2).good with
          | false => rw [k3 (.inl hr2)] at hx; cases hx
          | true =>
            cases hr3 : (e.rand 3).good with
            | false => rw [k3 (.inr hr3)] at hx; cases hx
            | true =>
              have k5 := k4 hr2 hr3
              split at k5
              · rename_i hle
                obtain ⟨d', h1, k6, k7⟩ := k5
                rw [k6] at hx
                cases hx; cases hxe
                refine ⟨rfl, ?_, hm, m1, m2, n1, n2, h, hl, hle.1, hle.2, k7⟩
                intro i hi
                have : i = 0 ∨ i = 1 ∨ i = 2 ∨ i = 3 := by omega
                rcases this with rfl | rfl | rfl | rfl <;> assumption
              · obtain ⟨h1, k6⟩ := k5
                rw [k6] at hx
                cases hx; cases hxe

end Api
end Verif
