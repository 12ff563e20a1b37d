import Verif.Lemmas.HeaderOps
import Verif.Lemmas.HeaderMem
import Verif.Props.ChainHash

/-
Header objects a program can hold, and the chain hashes in them.
-/
namespace Verif
open Spec

/-- the parts of a data block of proper length -/
theorem split_parts {m : CHMode} {block : List Byte} (h : blockLenOk m.num block.length = true) :
    ∃ ps : List (List Byte), ps.flatten = block ∧ ps.length = (modeParts m.num).length ∧
      accepted m.num ps = ps := by
  cases m
  case normal =>
    have : block = [] := by simpa [blockLenOk, CHMode.num, CHMode.toByte] using h
    exact ⟨[], by simp [this], rfl, rfl⟩
  case constSalt =>
    have : block.length ≤ 255 := by simpa [blockLenOk, CHMode.num, CHMode.toByte] using h
    refine ⟨[block], by simp, rfl, ?_⟩
    simp [accepted, acceptable, modeParts, CHMode.num, CHMode.toByte, this]
  case count =>
    have : block.length = 8 := by simpa [blockLenOk, CHMode.num, CHMode.toByte] using h
    refine ⟨[block], by simp, rfl, ?_⟩
    simp [accepted, acceptable, modeParts, CHMode.num, CHMode.toByte, this]
  case constCount =>
    have : 8 ≤ block.length ∧ block.length ≤ 255 := by simpa [blockLenOk, CHMode.num, CHMode.toByte] using h
    refine ⟨[block.take 8, block.drop 8], by simp, rfl, ?_⟩
    have h8 : min 8 block.length = 8 := by omega
    have h9 : 8 + (block.length - 8) ≤ 255 := by omega
    simp [accepted, acceptable, modeParts, CHMode.num, CHMode.toByte, h8, h9]
  case quad =>
    have hl : block.length = 32 := by simpa [blockLenOk, CHMode.num, CHMode.toByte] using h
    refine ⟨[block.take 8, (block.drop 8).take 8, (block.drop 16).take 8, block.drop 24], ?_, rfl, ?_⟩
    · simp only [List.flatten_cons, List.flatten_nil, List.append_nil]
      have e1 : (block.drop 16).take 8 ++ block.drop 24 = block.drop 16 := by
        have := List.take_append_drop 8 (block.drop 16)
        rwa [List.drop_drop] at this
      have e2 : (block.drop 8).take 8 ++ block.drop 16 = block.drop 8 := by
        have := List.take_append_drop 8 (block.drop 8)
        rwa [List.drop_drop] at this
      rw [e1, e2, List.take_append_drop]
    · simp [accepted, acceptable, modeParts, CHMode.num, CHMode.toByte, hl]

theorem runAdds_reach (bs : List Bytes) : ∀ c : ChainHashData, c.Reach → (runAdds c bs).Reach := by
  induction bs with
  | nil => intro c h; exact h
  | cons b bs ih =>
    intro c h
    rw [runAdds]
    cases hc : c.addBytes b with
    | ok c' => exact ih c' (.add h hc)
    | exn e => exact ih c h
    | fatal f => exact ih c h

/-- a valid chain hash is one a program can build -/
theorem ChainHash.Good.make {c : ChainHash} (h : c.Good) : ∃ m n d, ChainHashData.Reach d ∧
    c = ChainHash.make m n (some d) ∧ c.desc = ⟨m.toByte, n.toNat, d.block.data⟩ := by
  obtain ⟨m, n, block, h0, h1, h2, rfl⟩ := h
  obtain ⟨ps, h3, h4, h5⟩ := split_parts h0
  have hr := runAdds_reach (ps.map fun p => ⟨p, p.length⟩) _ (ChainHashData.Reach.new m)
  rw [(runAdds_new m _).1, List.map_map] at hr
  have e : (Bytes.data ∘ fun p : List Byte => (⟨p, p.length⟩ : Bytes)) = id := rfl
  rw [e, List.map_id, h5] at hr
  refine ⟨m, n, _, hr, ?_, ?_⟩
  · rw [← mkCH_eq_make h1 h2]
    simp only [holding, h3, h4, nameLens_eq, List.length_map]
  · simp [ChainHash.desc, mkCH, holding, h3]

theorem ChainHash.Good.obtainable {c : ChainHash} (h : c.Good) : c.Obtainable := by
  obtain ⟨m, n, d, h1, h2, -⟩ := h.make
  exact .inr ⟨m, n, some d, by rintro _ ⟨⟩; exact h1, h2⟩

theorem ChainHash.Good.performBytes {c : ChainHash} (h : c.Good) (H : HashFn) (x : Bytes) (hx : x.WF) (clk : Nat → Nat) :
    ∃ b, ChainHashModes.performBytes c H x 0 clk = .ok (.success b) ∧ b.data = c.desc.digest H.h x.data := by
  have hv := h.val
  obtain ⟨m, n, d, h1, rfl, h3⟩ := h.make
  rw [h3]
  exact (Props.C09_description m n d h1 hv H [] x hx clk).2

theorem ChainHash.Good.performStr {c : ChainHash} (h : c.Good) (H : HashFn) (pw : List Byte) (clk : Nat → Nat) :
    ∃ b, ChainHashModes.performStr c H pw 0 clk = .ok (.success b) ∧ b.data = c.desc.digest H.h pw := by
  have hv := h.val
  obtain ⟨m, n, d, h1, rfl, h3⟩ := h.make
  rw [h3]
  exact (Props.C09_description m n d h1 hv H pw (Bytes.empty 0) (by simp [Bytes.WF, Bytes.empty]) clk).1

/-! ### header objects -/

/-- parts a program can build -/
def DataHeaderParts.Obtainable (p : DataHeaderParts) : Prop :=
  p.ch1.Obtainable ∧ p.ch2.Obtainable ∧ (∀ b ∈ p.dec, b.Obtainable) ∧ ∀ b ∈ p.enc, b.Obtainable

/-- header objects a program can hold: new ones, parsed ones (from a stream or from memory), ones made from parts, each
changed by any number of calls -/
inductive HObj : DataHeader → Prop
  | new {mode r d} : DataHeader.new mode r = .ok d → HObj d
  | stream {hs r s s' d} : r.good = true → s.eof = false →
      HeaderParse.setHeaderStream hs r s = .ok (.val d s') → HObj d
  | mem {file hs r i d} : r.good = true → file.data.length < 2 ^ 63 →
      HeaderParse.setHeaderMem file hs r = .ok (.val d i) → HObj d
  | parts {p r d} : p.Obtainable → DataHeader.setHeaderParts p r = .ok (.success d) → HObj d
  | call {d op hs} : HObj d → HOp.Ok op → HObj (op.call hs d).2

theorem setEncSalt_inv {d d' : DataHeader} {b : Bytes} (h : DHInv d) (hd : d.setEncSalt b = .ok d') : DHInv d' := by
  rw [setEncSalt_eq h] at hd
  split at hd
  · rename_i hl
    cases hd
    exact DHBase.inv { h.base with salt := ⟨b, rfl, hl⟩ } (.inl rfl)
  · cases hd

theorem keep_ok {hs : Hashes} {d d' : DataHeader} {op : HOp} {x : Res DataHeader} (he : op.call hs d = HOp.call.keep d x)
    (hx : x = .ok d') : (op.call hs d).2 = d' := by
  rw [he, hx]; rfl

theorem addBlocks_inv (bs : List DataBlock) (hb : ∀ b ∈ bs, b.Obtainable) : ∀ {d d' : DataHeader}, DHInv d →
    DataHeader.addBlocks bs d = .ok d' → DHInv d' := by
  induction bs with
  | nil => intro d d' h hd; cases hd; exact h
  | cons b bs ih =>
    intro d d' h hd
    rw [DataHeader.addBlocks] at hd
    obtain ⟨d1, h1, h2⟩ := Res.bind_eq_ok.mp hd
    refine ih (fun x hx => hb x (by simp [hx])) ?_ h2
    have := call_inv (hs := toyHashes) h (.addBlock b) (hb b (by simp))
    rwa [keep_ok rfl h1] at this

theorem addEncBlocks_inv (bs : List EncDataBlock) (hb : ∀ b ∈ bs, b.Obtainable) : ∀ {d d' : DataHeader}, DHInv d →
    DataHeader.addEncBlocks bs d = .ok d' → DHInv d' := by
  induction bs with
  | nil => intro d d' h hd; cases hd; exact h
  | cons b bs ih =>
    intro d d' h hd
    rw [DataHeader.addEncBlocks] at hd
    obtain ⟨d1, h1, h2⟩ := Res.bind_eq_ok.mp hd
    refine ih (fun x hx => hb x (by simp [hx])) ?_ h2
    have := call_inv (hs := toyHashes) h (.addEncBlock b) (hb b (by simp))
    rwa [keep_ok rfl h1] at this

theorem setHeaderParts_success {p : DataHeaderParts} {r : Rand} {d : DataHeader}
    (h : DataHeader.setHeaderParts p r = .ok (.success d)) :
    ∃ hm fm v s d0 d1 d2 d3 d4 d5 d6, p.hashMode = some hm ∧ p.fileMode = some fm ∧ p.validator = some v ∧
      p.encSalt = some s ∧ DataHeader.new hm.toByte r = .ok d0 ∧ d0.setFileDataMode fm = .ok d1 ∧
      d1.setChainHash1 p.ch1 = .ok d2 ∧ d2.setChainHash2 p.ch2 = .ok d3 ∧ d3.setValidPasswordHashBytes v = .ok d4 ∧
      d4.setEncSalt s = .ok d5 ∧ DataHeader.addBlocks p.dec d5 = .ok d6 ∧ DataHeader.addEncBlocks p.enc d6 = .ok d := by
  have get_ok : ∀ {α : Type} {o : Option α} {a : α}, DataHeaderParts.get o = .ok a → o = some a := by
    intro α o a h; cases o <;> cases h; rfl
  unfold DataHeader.setHeaderParts at h
  generalize hx : (do
    let d ← DataHeader.new (← DataHeaderParts.get p.hashMode).toByte r
    let d ← d.setFileDataMode (← DataHeaderParts.get p.fileMode)
    let d ← d.setChainHash1 p.ch1
    let d ← d.setChainHash2 p.ch2
    let d ← d.setValidPasswordHashBytes (← DataHeaderParts.get p.validator)
    let d ← d.setEncSalt (← DataHeaderParts.get p.encSalt)
    let d ← DataHeader.addBlocks p.dec d
    let d ← DataHeader.addEncBlocks p.enc d
    .ok (.success d) : Res (Out DataHeader)) = x at h
  cases x with
  | fatal f => simp at h
  | exn e => cases e <;> simp [Res.catchStd] at h
  | ok o =>
    simp only [Res.catchStd_ok, Res.noexcept_ok, Res.ok.injEq] at h
    subst h
    obtain ⟨hm, e1, hx⟩ := Res.bind_eq_ok.mp hx
    obtain ⟨d0, e2, hx⟩ := Res.bind_eq_ok.mp hx
    obtain ⟨fm, e3, hx⟩ := Res.bind_eq_ok.mp hx
    obtain ⟨d1, e4, hx⟩ := Res.bind_eq_ok.mp hx
    obtain ⟨d2, e5, hx⟩ := Res.bind_eq_ok.mp hx
    obtain ⟨d3, e6, hx⟩ := Res.bind_eq_ok.mp hx
    obtain ⟨v, e7, hx⟩ := Res.bind_eq_ok.mp hx
    obtain ⟨d4, e8, hx⟩ := Res.bind_eq_ok.mp hx
    obtain ⟨s, e9, hx⟩ := Res.bind_eq_ok.mp hx
    obtain ⟨d5, e10, hx⟩ := Res.bind_eq_ok.mp hx
    obtain ⟨d6, e11, hx⟩ := Res.bind_eq_ok.mp hx
    obtain ⟨d7, e12, hx⟩ := Res.bind_eq_ok.mp hx
    cases hx
    exact ⟨hm, fm, v, s, d0, d1, d2, d3, d4, d5, d6, get_ok e1, get_ok e3, get_ok e7, get_ok e9, e2, e4, e5, e6, e8, e10,
      e11, e12⟩

theorem setHeaderParts_inv {p : DataHeaderParts} {r : Rand} {d : DataHeader} (hp : p.Obtainable)
    (h : DataHeader.setHeaderParts p r = .ok (.success d)) : DHInv d := by
  obtain ⟨hm, fm, v, s, d0, d1, d2, d3, d4, d5, d6, -, -, -, -, e0, e1, e2, e3, e4, e5, e6, e7⟩ := setHeaderParts_success h
  have i0 := (new_inv e0).1
  have i1 := call_inv (hs := toyHashes) i0 (.setFileMode fm) trivial
  rw [keep_ok rfl e1] at i1
  have i2 := call_inv (hs := toyHashes) i1 (.setCh1 p.ch1) hp.1
  rw [keep_ok rfl e2] at i2
  have i3 := call_inv (hs := toyHashes) i2 (.setCh2 p.ch2) hp.2.1
  rw [keep_ok rfl e3] at i3
  have i4 := call_inv (hs := toyHashes) i3 (.setValidator v) trivial
  rw [keep_ok rfl e4] at i4
  exact addEncBlocks_inv _ hp.2.2.2 (addBlocks_inv _ hp.2.2.1 (setEncSalt_inv i4 e5) e6) e7

/-- everything that can happen when a header is parsed from a stream -/
theorem setHeaderStream_cases {hs : Hashes} {r : Rand} (hr : r.good = true) (s : IStream) (he : s.eof = false) :
    (∃ c, HeaderParse.setHeaderStream hs r s = .ok (.stop c)) ∨
    (∃ (h : Header) (s' : IStream), h.Valid ∧ h.fileSize = s.rest.length ∧ s.rest = h.bytes ++ s'.rest ∧ s'.eof = false ∧
      HeaderParse.setHeaderStream hs r s = .ok (.val (HeaderParse.mkHeader h) s')) ∨
    (ZeroBlock s.rest ∧ HeaderParse.setHeaderStream hs r s = .fatal .terminate) ∨
    ((WrongChainLength s.rest ∨ WrongHeaderSize s.rest) ∧ HeaderParse.setHeaderStream hs r s = .fatal .abort) := by
  have hsim := HeaderParse.setHeaderStream_eq hs r s he
  rcases HeaderParse.rdHeader_cases (hs := hs) hr s.rest with ⟨c, e⟩ | ⟨h, data, hv, hf, hl, e⟩ | ⟨hz, e⟩ | ⟨hw, e⟩
  · rw [e] at hsim; exact .inl ⟨c, hsim⟩
  · rw [e] at hsim
    obtain ⟨s', h1, h2, h3⟩ := hsim
    exact .inr (.inl ⟨h, s', hv, hf, by rw [h2]; exact hl, h3, h1⟩)
  · rw [e] at hsim; exact .inr (.inr (.inl ⟨hz, hsim⟩))
  · rw [e] at hsim; exact .inr (.inr (.inr ⟨hw, hsim⟩))

theorem setHeaderStream_val {hs : Hashes} {r : Rand} (hr : r.good = true) {s s' : IStream} {d : DataHeader}
    (he : s.eof = false) (h : HeaderParse.setHeaderStream hs r s = .ok (.val d s')) :
    ∃ h : Header, h.Valid ∧ d = HeaderParse.mkHeader h ∧ h.fileSize = s.rest.length ∧ s.rest = h.bytes ++ s'.rest ∧
      s'.eof = false := by
  rcases setHeaderStream_cases (hs := hs) hr s he with ⟨c, e⟩ | ⟨hd, s1, hv, hf, hl, h3, e⟩ | ⟨-, e⟩ | ⟨-, e⟩
  · rw [e] at h; cases h
  · rw [e] at h; cases h; exact ⟨hd, hv, rfl, hf, hl, h3⟩
  · rw [e] at h; cases h
  · rw [e] at h; cases h

theorem HObj.inv {d : DataHeader} (h : HObj d) : DHInv d := by
  induction h with
  | new h => exact (new_inv h).1
  | stream hr he h =>
    obtain ⟨hd, hv, rfl, -⟩ := setHeaderStream_val hr he h
    exact (HeaderParse.mkHeader_inv hv).1
  | mem hr hf h =>
    obtain ⟨hd, -, hv, rfl, -⟩ := HeaderParse.setHeaderMem_val hr hf h
    exact (HeaderParse.mkHeader_inv hv).1
  | parts hp h => exact setHeaderParts_inv hp h
  | call _ ho ih => exact call_inv ih _ ho

theorem HObj.run {d : DataHeader} (h : HObj d) {hs : Hashes} (ops : List HOp) (ho : ∀ op ∈ ops, op.Ok) :
    HObj (HOp.run hs d ops) := by
  induction ops generalizing d with
  | nil => exact h
  | cons op ops ih => exact ih (.call h (ho op (by simp))) (fun o h => ho o (by simp [h]))

/-- the contents of a complete object fit the header format -/
theorem complete_valid {d : DataHeader} (h : DHInv d) (hc : d.isComplete = true)
    (hne : ∀ b ∈ d.contents.blocks, b.2 ≠ []) (hsz : d.contents.length ≤ d.contents.fileSize) : d.contents.Valid := by
  obtain ⟨h1, h2, h3, v, hv, hvl⟩ := complete_parts h hc
  obtain ⟨m, hm, hs⟩ := h.hm
  obtain ⟨s, hs1, hs2⟩ := h.salt
  refine ⟨hsz, ?_, ?_, ?_, ?_, ?_, h1.desc_valid, h2.desc_valid, ?_, ?_, ?_, ?_⟩
  · simp only [DataHeader.contents]
    split
    · exact UInt64.toNat_lt _
    · omega
  · simp [DataHeader.contents, h3]
  · simp only [DataHeader.contents, hm]; cases m <;> simp [HMode.toByte]
  · simpa [DataHeader.contents] using h.decCount
  · intro b hb
    have hb' := hb
    simp only [DataHeader.contents, List.mem_map] at hb
    obtain ⟨x, hx, rfl⟩ := hb
    exact ⟨List.length_pos_iff.mpr (hne _ hb'), h.decLen x hx⟩
  · simp only [DataHeader.contents, hv, hm, digestSize_toByte, ← hs, hvl]
  · simp only [DataHeader.contents, hs1, hm, digestSize_toByte, ← hs, hs2]
  · simpa [DataHeader.contents] using h.encCount
  · intro b hb
    simp only [DataHeader.contents, List.mem_map] at hb
    obtain ⟨x, hx, rfl⟩ := hb
    exact h.encLen x hx

/-- the parsed object gives its header bytes -/
theorem mkHeader_bytes {h : Header} (hv : h.Valid) :
    (HeaderParse.mkHeader h).getHeaderBytes = .ok ⟨h.bytes, h.length⟩ := by
  have hl := length_bytes h hv.validator hv.salt hv.encLen
  have h0 : h.length ≠ 0 := by unfold Header.length; omega
  have e : (HeaderParse.mkHeader h).headerBytes = ⟨h.bytes, h.length⟩ := rfl
  simp only [DataHeader.getHeaderBytes, HeaderParse.mkHeader_length hv, Res.bind_ok, e, Bytes.len, hl, ne_eq, not_true,
    if_false, h0]

end Verif
