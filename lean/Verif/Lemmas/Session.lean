import Verif.Lemmas.Api
import Verif.Lemmas.Crypt

/- The invariant of sessions. -/
namespace Verif
open Spec PwFunc

/-! ### chain hashes with a timeout -/

theorem ChainHash.Good.str {c : ChainHash} (h : c.Good) (H : HashFn) (pw : List Byte) (timeout : Nat) (clk : Nat → Nat) :
    (Hit timeout clk 1 c.desc.iters ∧ ChainHashModes.performStr c H pw timeout clk = .ok .timeout) ∨
    (¬ Hit timeout clk 1 c.desc.iters ∧ ∃ b, ChainHashModes.performStr c H pw timeout clk = .ok (.success b) ∧
      b.data = c.desc.digest H.h pw ∧ b.WF ∧ b.data.length = H.size) := by
  have hv := h.val
  have hn := h.desc_valid.1
  obtain ⟨m, n, d, h1, rfl, h3⟩ := h.make
  rw [h3] at hn ⊢
  obtain ⟨-, e2, hok⟩ := perform_eq h1 hv H timeout clk
  obtain ⟨hr, hs⟩ := argsOf_rule hok
  rw [e2]
  rcases runStr_result H _ hs pw n.toNat timeout clk hn with h4 | ⟨h4, b, h5, h6, h7, -⟩
  · exact .inl h4
  · refine .inr ⟨h4, b, h5, ?_, h7, ?_⟩
    · rw [h6, hr]; rfl
    · rw [h6]
      obtain ⟨k, hk⟩ : ∃ k, n.toNat = k + 1 := ⟨n.toNat - 1, by simp only at hn; omega⟩
      rw [hk, chain_succ]
      exact H.len _

theorem ChainHash.Good.bytes {c : ChainHash} (h : c.Good) (H : HashFn) (x : Bytes) (hx : x.WF) (timeout : Nat)
    (clk : Nat → Nat) :
    (Hit timeout clk 0 c.desc.iters ∧ ChainHashModes.performBytes c H x timeout clk = .ok .timeout) ∨
    (¬ Hit timeout clk 0 c.desc.iters ∧ ∃ b, ChainHashModes.performBytes c H x timeout clk = .ok (.success b) ∧
      b.data = c.desc.digest H.h x.data ∧ b.WF ∧ b.data.length = H.size) := by
  have hv := h.val
  have hn := h.desc_valid.1
  obtain ⟨m, n, d, h1, rfl, h3⟩ := h.make
  rw [h3] at hn ⊢
  obtain ⟨e1, -, hok⟩ := perform_eq h1 hv H timeout clk
  obtain ⟨hr, hs⟩ := argsOf_rule hok
  rw [e1]
  rcases runBytes_result H _ hs x hx n.toNat timeout clk with h4 | ⟨h4, b, h5, h6, h7, -⟩
  · exact .inl h4
  · refine .inr ⟨h4, b, h5, ?_, h7, ?_⟩
    · rw [h6, hr]; rfl
    · rw [h6]
      obtain ⟨k, hk⟩ : ∃ k, n.toNat = k + 1 := ⟨n.toNat - 1, by simp only at hn; omega⟩
      rw [hk, chain_succ]
      exact H.len _

@[simp] theorem not_hit_zero (clk : Nat → Nat) (lo hi : Nat) : ¬ Hit 0 clk lo hi := fun h => h.1 rfl

/-! ### a header is read only with working randomness -/

theorem new_bad {mode : Byte} {r : Rand} (hr : r.good = false) {d : DataHeader} : DataHeader.new mode r ≠ .ok d := by
  intro h
  unfold DataHeader.new at h
  obtain ⟨p, h1, h⟩ := Res.bind_eq_ok.mp h
  obtain ⟨n, h2, h⟩ := Res.bind_eq_ok.mp h
  obtain ⟨s, h3, h⟩ := Res.bind_eq_ok.mp h
  rw [Bytes.fillrandom, Res.noexcept_eq_ok, Res.bind_eq_ok] at h3
  obtain ⟨l, h4, -⟩ := h3
  unfold Bytes.randomBytes at h4
  rw [if_pos (.inr hr)] at h4
  cases h4

theorem Par.bind_val_inv {σ α β : Type} {p : Par σ α} {f : α → Par σ β} {s s' : σ} {b : β}
    (h : (p >>= f) s = .ok (.val b s')) : ∃ a s1, p s = .ok (.val a s1) ∧ f a s1 = .ok (.val b s') := by
  rw [Par.bind_apply] at h
  split at h
  · exact ⟨_, _, by assumption, h⟩
  · cases h
  · cases h
  · cases h

theorem Par.onExn_val_inv {σ α : Type} {x : Par σ α} {h : Exn → Option ErrorCode} {s s' : σ} {a : α}
    (hx : Par.onExn x h s = .ok (.val a s')) : x s = .ok (.val a s') := by
  unfold Par.onExn at hx
  split at hx
  · simp_all
  · split at hx <;> cases hx
  · cases hx

theorem Par.lift_val_inv {σ α : Type} {x : Res α} {s s' : σ} {a : α} (hx : Par.lift x s = .ok (.val a s')) :
    x = .ok a ∧ s' = s := by
  unfold Par.lift at hx
  split at hx
  · cases hx; exact ⟨rfl, rfl⟩
  · cases hx
  · cases hx

theorem setHeaderStream_good {hs : Hashes} {r : Rand} {s s' : IStream} {d : DataHeader}
    (h : HeaderParse.setHeaderStream hs r s = .ok (.val d s')) : r.good = true := by
  cases hr : r.good with
  | true => rfl
  | false =>
    exfalso
    rw [HeaderParse.setHeaderStream, Res.noexcept_eq_ok, HeaderParse.rdHeader] at h
    obtain ⟨a1, s1, -, h⟩ := Par.bind_val_inv h
    obtain ⟨a2, s2, -, h⟩ := Par.bind_val_inv h
    split at h
    · cases h
    split at h
    · cases h
    obtain ⟨a3, s3, h3, -⟩ := Par.bind_val_inv h
    rw [HeaderParse.rdContent] at h3
    obtain ⟨a4, s4, -, h4⟩ := Par.bind_val_inv h3
    obtain ⟨a5, s5, -, h5⟩ := Par.bind_val_inv h4
    obtain ⟨a6, s6, h6, -⟩ := Par.bind_val_inv h5
    exact new_bad hr (Par.lift_val_inv (Par.onExn_val_inv h6)).1

/-! ### building a header from parts -/

theorem addBlocks_inv1 {d d' : DataHeader} (h : DHInv d) {b : DataBlock} (hb : b.data.data.length ≤ 255)
    (hd : d.addDataBlock b = .ok d') : DHInv d' := by
  rw [addBlock_eq h b hb] at hd
  split at hd
  · rename_i hl
    cases hd
    have hbl := h.blen
    refine DHBase.inv ⟨h.hm, h.fm, h.validator, h.salt, h.ch1, h.ch2, ?_, ?_, h.encCount, h.encLen, ?_⟩ (.inl rfl)
    · simp only [clear_dh, List.length_append, List.length_singleton]; omega
    · intro x hx
      simp only [clear_dh, List.mem_append, List.mem_singleton] at hx
      rcases hx with hx | rfl
      · exact h.decLen x hx
      · exact hb
    · simp only [DataHeader.clear, List.length_append, List.length_singleton, List.map_append, List.sum_append,
        List.map_cons, List.map_nil, List.sum_cons, List.sum_nil] at hbl ⊢
      omega
  · cases hd

theorem addEncBlocks_inv1 {d d' : DataHeader} (h : DHInv d) {b : EncDataBlock} (hb : b.block.data.data.length = 255)
    (hd : d.addEncDataBlock b = .ok d') : DHInv d' := by
  rw [addEncBlock_eq h b hb] at hd
  split at hd
  · rename_i hl
    cases hd
    have hbl := h.blen
    refine DHBase.inv ⟨h.hm, h.fm, h.validator, h.salt, h.ch1, h.ch2, h.decCount, h.decLen, ?_, ?_, ?_⟩ (.inl rfl)
    · simp only [clear_dh, List.length_append, List.length_singleton]; omega
    · intro x hx
      simp only [clear_dh, List.mem_append, List.mem_singleton] at hx
      rcases hx with hx | rfl
      · exact h.encLen x hx
      · exact hb
    · simp only [DataHeader.clear, List.length_append, List.length_singleton] at hbl ⊢
      omega
  · cases hd

theorem addBlocks_eq (bs : List DataBlock) (hb : ∀ b ∈ bs, b.data.data.length ≤ 255) : ∀ {d : DataHeader}, DHInv d →
    if d.dh.dec.length + bs.length ≤ 255 then
      ∃ d', DataHeader.addBlocks bs d = .ok d' ∧ DHInv d' ∧ d'.dh = { d.dh with dec := d.dh.dec ++ bs } ∧
        d'.hashSize = d.hashSize ∧ d'.fileSize = d.fileSize ∧ (d.headerBytes.data = [] → d'.headerBytes.data = [])
    else DataHeader.addBlocks bs d = .exn .lengthError := by
  induction bs with
  | nil =>
    intro d h
    have := h.decCount
    rw [if_pos (by simpa using this)]
    exact ⟨d, rfl, h, by simp, rfl, rfl, id⟩
  | cons b bs ih =>
    intro d h
    have hb1 := hb b (by simp)
    have e := addBlock_eq h b hb1
    by_cases hl : d.dh.dec.length < 255
    · rw [if_pos hl] at e
      have hi := addBlocks_inv1 h hb1 e
      have := ih (fun x hx => hb x (by simp [hx])) hi
      simp only [clear_dh, List.length_append, List.length_singleton] at this
      rw [DataHeader.addBlocks, e, Res.bind_ok]
      by_cases hle : d.dh.dec.length + 1 + bs.length ≤ 255
      · rw [if_pos hle] at this
        rw [if_pos (by simp only [List.length_cons]; omega)]
        obtain ⟨d', h1, h2, h3, h4, h5, h6⟩ := this
        exact ⟨d', h1, h2, by rw [h3]; simp, h4, h5, fun _ => h6 rfl⟩
      · rw [if_neg hle] at this
        rw [if_neg (by simp only [List.length_cons]; omega)]
        exact this
    · rw [if_neg hl] at e
      rw [if_neg (by simp only [List.length_cons]; omega), DataHeader.addBlocks, e, Res.bind_exn]

theorem addEncBlocks_eq (bs : List EncDataBlock) (hb : ∀ b ∈ bs, b.block.data.data.length = 255) :
    ∀ {d : DataHeader}, DHInv d →
    if d.dh.enc.length + bs.length ≤ 255 then
      ∃ d', DataHeader.addEncBlocks bs d = .ok d' ∧ DHInv d' ∧ d'.dh = { d.dh with enc := d.dh.enc ++ bs } ∧
        d'.hashSize = d.hashSize ∧ d'.fileSize = d.fileSize ∧ (d.headerBytes.data = [] → d'.headerBytes.data = [])
    else DataHeader.addEncBlocks bs d = .exn .lengthError := by
  induction bs with
  | nil =>
    intro d h
    have := h.encCount
    rw [if_pos (by simpa using this)]
    exact ⟨d, rfl, h, by simp, rfl, rfl, id⟩
  | cons b bs ih =>
    intro d h
    have hb1 := hb b (by simp)
    have e := addEncBlock_eq h b hb1
    by_cases hl : d.dh.enc.length < 255
    · rw [if_pos hl] at e
      have hi := addEncBlocks_inv1 h hb1 e
      have := ih (fun x hx => hb x (by simp [hx])) hi
      simp only [clear_dh, List.length_append, List.length_singleton] at this
      rw [DataHeader.addEncBlocks, e, Res.bind_ok]
      by_cases hle : d.dh.enc.length + 1 + bs.length ≤ 255
      · rw [if_pos hle] at this
        rw [if_pos (by simp only [List.length_cons]; omega)]
        obtain ⟨d', h1, h2, h3, h4, h5, h6⟩ := this
        exact ⟨d', h1, h2, by rw [h3]; simp, h4, h5, fun _ => h6 rfl⟩
      · rw [if_neg hle] at this
        rw [if_neg (by simp only [List.length_cons]; omega)]
        exact this
    · rw [if_neg hl] at e
      rw [if_neg (by simp only [List.length_cons]; omega), DataHeader.addEncBlocks, e, Res.bind_exn]

/-- parts a complete header can be made of -/
structure PartsOk (p : DataHeaderParts) (m : HMode) (v s : Bytes) : Prop where
  hm : p.hashMode = some m
  fm : p.fileMode = some 1
  vl : p.validator = some v ∧ v.data.length = m.size
  sl : p.encSalt = some s ∧ s.data.length = m.size
  ch1 : p.ch1.Good
  ch2 : p.ch2.Good
  dec : ∀ b ∈ p.dec, b.data.data.length ≤ 255
  enc : ∀ b ∈ p.enc, b.block.data.data.length = 255

theorem setHeaderParts_bad {p : DataHeaderParts} {m : HMode} {v s : Bytes} (h : PartsOk p m v s) {r : Rand}
    (hr : r.good = false) : DataHeader.setHeaderParts p r = .fatal .terminate := by
  have : DataHeader.new m.toByte r = .fatal .terminate := by
    simp only [DataHeader.new, DataHeaderParts.setHashMode, HMode.ofByte_toByte, DataHeaderParts.getHashSize,
      DataHeaderParts.get, Res.bind_ok, Bytes.fillrandom, Bytes.randomBytes, hr, or_true, if_true, Res.bind_exn,
      Res.noexcept_exn, Res.bind_fatal]
  simp only [DataHeader.setHeaderParts, h.hm, DataHeaderParts.get, Res.bind_ok, this, Res.bind_fatal, Res.catchStd_fatal,
    Res.noexcept_fatal]

theorem setHeaderParts_good {p : DataHeaderParts} {m : HMode} {v s : Bytes} (h : PartsOk p m v s) {r : Rand}
    (hr : r.good = true) :
    if p.dec.length ≤ 255 ∧ p.enc.length ≤ 255 then
      ∃ d, DataHeader.setHeaderParts p r = .ok (.success d) ∧ DHInv d ∧ d.isComplete = true ∧ d.dh = p ∧
        d.hashSize = m.size ∧ d.fileSize = none ∧ d.headerBytes.data = []
    else DataHeader.setHeaderParts p r = .ok (.fail .ERR) := by
  have e0 := new_good m.toByte r hr
  rw [HMode.ofByte_toByte] at e0
  simp only at e0
  have i0 := (new_inv e0).1
  have e1 : ∀ d : DataHeader, d.setFileDataMode 1 = .ok (DataHeader.clear { d with dh := { d.dh with fileMode := some 1 } }) := by
    intro d
    simp [DataHeader.setFileDataMode, DataHeaderParts.setFileDataMode, fileModeValid]
  have i1 := call_inv (hs := toyHashes) i0 (.setFileMode 1) trivial
  rw [keep_ok rfl (e1 _)] at i1
  have e2 : ∀ d : DataHeader, d.setChainHash1 p.ch1 = .ok (DataHeader.clear { d with dh := { d.dh with ch1 := p.ch1 } }) := by
    intro d
    simp [DataHeader.setChainHash1, h.ch1.val, h.ch1.assign]
  have i2 := call_inv (hs := toyHashes) i1 (.setCh1 p.ch1) h.ch1.obtainable
  rw [keep_ok rfl (e2 _)] at i2
  have e3 : ∀ d : DataHeader, d.setChainHash2 p.ch2 = .ok (DataHeader.clear { d with dh := { d.dh with ch2 := p.ch2 } }) := by
    intro d
    simp [DataHeader.setChainHash2, h.ch2.val, h.ch2.assign]
  have i3 := call_inv (hs := toyHashes) i2 (.setCh2 p.ch2) h.ch2.obtainable
  rw [keep_ok rfl (e3 _)] at i3
  have e4g : ∀ d : DataHeader, DHInv d → d.hashSize = m.size → d.setValidPasswordHashBytes v =
      .ok (DataHeader.clear { d with dh := { d.dh with validator := some v } }) := by
    intro d hd hsz
    rw [setValidator_eq hd, if_pos (by rw [hsz]; exact h.vl.2)]
  have e4 := e4g _ i3 rfl
  have i4 := call_inv (hs := toyHashes) i3 (.setValidator v) trivial
  rw [keep_ok rfl e4] at i4
  have e5g : ∀ d : DataHeader, DHInv d → d.hashSize = m.size → d.setEncSalt s =
      .ok (DataHeader.clear { d with dh := { d.dh with encSalt := some s } }) := by
    intro d hd hsz
    rw [setEncSalt_eq hd, if_pos (by rw [hsz]; exact h.sl.2)]
  have e5 := e5g _ i4 rfl
  have i5 := setEncSalt_inv i4 e5
  obtain ⟨d5, hd5⟩ : ∃ d5 : DataHeader,
      d5 = ⟨⟨some 1, some m, some v, some s, [], [], p.ch1, p.ch2⟩, m.size, Bytes.empty 0, none, 0⟩ := ⟨_, rfl⟩
  have i6 : DHInv d5 := by rw [hd5]; exact i5
  have key : DataHeader.setHeaderParts p r = Res.noexcept (Res.catchStd (do
      let d ← DataHeader.addBlocks p.dec d5
      let d ← DataHeader.addEncBlocks p.enc d
      .ok (.success d)) fun _ => .ok (.fail .ERR)) := by
    simp only [DataHeader.setHeaderParts, h.hm, h.fm, h.vl.1, h.sl.1, DataHeaderParts.get, Res.bind_ok, e0, e1, e2, e3,
      e4, e5]
    rw [hd5]
    rfl
  rw [key]
  clear key e0 e1 e2 e3 e4 e5 i0 i1 i2 i3 i4 i5 e4g e5g
  have e6 := addBlocks_eq p.dec h.dec i6
  simp only [hd5, List.length_nil, Nat.zero_add, List.nil_append] at e6
  rw [hd5]
  by_cases hd : p.dec.length ≤ 255
  · rw [if_pos hd] at e6
    obtain ⟨d', h1, h2, h3, h4, h5, h6⟩ := e6
    rw [h1, Res.bind_ok]
    have e7 := addEncBlocks_eq p.enc h.enc h2
    simp only [h3, List.length_nil, Nat.zero_add, List.nil_append] at e7
    by_cases he : p.enc.length ≤ 255
    · rw [if_pos he] at e7
      obtain ⟨d2, k1, k2, k3, k4, k5, k6⟩ := e7
      rw [if_pos ⟨hd, he⟩, k1]
      refine ⟨d2, rfl, k2, ?_, ?_, by rw [k4, h4], by rw [k5, h5], k6 (h6 rfl)⟩
      · rw [complete_iff k2, k3]
        exact ⟨h.ch1.val, h.ch2.val, rfl, rfl⟩
      · rw [k3, ← h.hm, ← h.fm, ← h.vl.1, ← h.sl.1]
    · rw [if_neg he] at e7
      rw [if_neg (fun hh => he hh.2), e7]
      rfl
  · rw [if_neg hd] at e6
    rw [if_neg (fun hh => hd hh.1), e6]
    rfl

namespace Api
variable {hs : Hashes} {rest : Helper → Res Helper} {e : Env} {w w' : World}

theorem update_big {fs : FS} {p : Path} {c : List Byte} {f : FileHandler} {i : Nat} (hp : fs p = .file c)
    (hr : e.canRead p = true) (hu : FileHandler.update e fs p i = .ok f) : c.length < 2 ^ 64 := by
  refine Classical.byContradiction fun hc => ?_
  have hm : FileHandler.measure e fs p = c.length := by simp [FileHandler.measure, hp, hr]
  have ho : fs.openIn e p i = ⟨c, e.sched i, false, false⟩ := by simp [FS.openIn, hp, hr]
  simp only [FileHandler.update, hm, ho, readHeaderSize_eq] at hu
  have h1 := beValue_lt (c.take 8)
  have h2 : 256 ^ (c.take 8).length ≤ 256 ^ 8 := Nat.pow_le_pow_right (by decide) (by simp; omega)
  have h3 : (256 : Nat) ^ 8 = 2 ^ 64 := by decide
  rw [if_neg (by omega), if_pos (by omega)] at hu
  cases hu

/-- what a successful selection of a non-empty file says about the file -/
theorem select_header {fs : FS} {p : Path} {f : FileHandler} {d : DataHeader} {i j : Nat} {r : Rand}
    (h1 : getFileHandler e fs p i = .ok (.success f)) (h2 : f.empty = false)
    (h3 : f.getDataHeader hs e fs j r = .ok (.success d)) :
    r.good = true ∧ ∃ (h : Header) (data : List Byte), h.Valid ∧ h.fileSize = (h.bytes ++ data).length ∧
      fs p = .file (h.bytes ++ data) ∧ e.canRead p = true ∧ EncPath p ∧ d = HeaderParse.mkHeader h ∧
      f = ⟨p, h.length, h.fileSize, false⟩ := by
  obtain ⟨hpath, henc, hread, hu, hk⟩ := getFileHandler_success h1
  rw [FileHandler.getDataHeader, Res.noexcept_eq_ok, Res.bind_eq_ok] at h3
  obtain ⟨st, h4, h5⟩ := h3
  cases st with
  | stop c => cases h5
  | val d' s' =>
    cases h5
    have hg := setHeaderStream_good h4
    rcases hk with ⟨c, hc⟩ | hd
    · have hbig := update_big hc hread hu
      rw [hpath] at h4
      have ho : fs.openIn e p j = ⟨c, e.sched j, false, false⟩ := by simp [FS.openIn, hc, hread]
      rw [ho] at h4
      obtain ⟨h, hv, hd, hf, hl, -⟩ := setHeaderStream_val hg rfl h4
      simp only at hf hl
      refine ⟨hg, h, s'.rest, hv, by rw [← hl]; exact hf, by rw [← hl]; exact hc, hread, henc, hd, ?_⟩
      rcases update_file hc hread hbig i with ⟨n, hn, hu'⟩ | ⟨-, x, -, hu'⟩
      · rw [hu] at hu'
        cases hu'
        have hh : Plausible c h.length := by
          refine .inr ⟨h.content ++ s'.rest, ?_, ?_, ?_⟩
          · rw [← hf, hl, Header.bytes]; simp
          · unfold Header.length
            rcases hv.hashMode with e | e | e <;> rw [e] <;> simp [digestSize] <;> omega
          · rw [← hf]; exact hv.size
        rw [plausible_unique hbig hn hh, hf]
        congr 1
      · rw [hu] at hu'; cases hu'
    · rw [update_dir hd hread] at hu
      split at hu
      · cases hu; cases h2
      · cases hu

end Api
end Verif
