import Verif.Lemmas.HeaderMem

namespace Verif
open Spec
namespace HeaderParse

variable {file : Bytes}

/-- the file continues with `l` at position `i` -/
def At (file : Bytes) (i : Nat) (l : List Byte) : Prop := file.data.drop i = l ∧ i ≤ file.data.length

theorem At.len {i : Nat} {l : List Byte} (h : At file i l) : i + l.length = file.data.length := by
  rw [← h.1, List.length_drop]; have := h.2; omega

theorem At.next {i : Nat} {a l : List Byte} (h : At file i (a ++ l)) : At file (i + a.length) l := by
  have := h.len
  rw [List.length_append] at this
  refine ⟨?_, by omega⟩
  rw [← List.drop_drop, h.1]; simp

theorem At.next' {i : Nat} {a l : List Byte} {n : Nat} (h : At file i (a ++ l)) (hn : a.length = n) : At file (i + n) l := by
  rw [← hn]; exact h.next

theorem At.next1 {i : Nat} {x : Byte} {l : List Byte} (h : At file i (x :: l)) : At file (i + 1) l :=
  At.next (a := [x]) h

theorem cp_at {i : Nat} {a l : List Byte} {n : Nat} (hn : a.length = n) (h : At file i (a ++ l)) (hs : i + n < 2 ^ 16) :
    cp file n i = .ok (.val a (i + n)) := by
  have hl := h.len
  rw [List.length_append] at hl
  have : file.copySubBytes i (i + n) = .ok ⟨a, n⟩ := by
    unfold Bytes.copySubBytes
    rw [if_neg (by omega), if_neg (by omega), Nat.add_sub_cancel_left, h.1, List.take_left' hn]
  unfold cp
  rw [this]
  simp only
  rw [Nat.mod_eq_of_lt hs]

theorem cpByte_at {i : Nat} {x : Byte} {l : List Byte} (h : At file i (x :: l)) (hs : i + 1 < 2 ^ 16) :
    cpByte file i = .ok (.val x (i + 1)) := by
  unfold cpByte
  rw [Par.bind_val_eq (cp_at (n := 1) (a := [x]) rfl h hs)]
  rfl

theorem cpLong_at {i : Nat} {n : UInt64} {l : List Byte} (h : At file i (num8 n.toNat ++ l)) (hs : i + 8 < 2 ^ 16) :
    cpLong file i = .ok (.val n (i + 8)) := by
  unfold cpLong
  rw [Par.bind_val_eq (cp_at (length_num8 _) h hs), num8_toNat, toLong_eq _ (by simp)]
  simp only
  rw [beValue_be8, UInt64.ofNat_toNat]
  rfl

theorem cpBlocks_at {m v s enc c1 c2 fs} (he : enc.length ≤ 255) (bs : List (Byte × List Byte)) :
    ∀ (bs0 : List (Byte × List Byte)) (i : Nat) (l : List Byte), BlocksOk bs → BlocksOk bs0 → bs0.length + bs.length ≤ 255 →
      At file i (blockBytes bs ++ l) → i + (blockBytes bs).length < 2 ^ 16 →
      cpBlocks file bs.length (obj m v s (bs0.map toBlock) enc c1 c2 fs) i =
        .ok (.val (obj m v s ((bs0 ++ bs).map toBlock) enc c1 c2 fs) (i + (blockBytes bs).length)) := by
  induction bs with
  | nil => intro bs0 i l _ _ _ _ _; simp [cpBlocks, blockBytes, Par.pure_apply]
  | cons x bs ih =>
    intro bs0 i l hb hb0 hl ha hs
    have hx := hb x (by simp)
    simp only [List.length_cons] at hl
    have hlen : (UInt8.ofNat x.2.length).toNat = x.2.length := by
      rw [UInt8.toNat_ofNat', Nat.mod_eq_of_lt (by omega)]
    have e : blockBytes (x :: bs) = x.1 :: UInt8.ofNat x.2.length :: (x.2 ++ blockBytes bs) := by simp [blockBytes]
    rw [e] at ha hs ⊢
    simp only [List.length_cons, List.length_append, List.cons_append] at ha hs ⊢
    have a1 := ha.next1
    have a2 := a1.next1
    rw [List.append_assoc] at a2
    have a3 := a2.next
    rw [cpBlocks, Par.bind_val_eq (cpByte_at ha (by omega)), Par.bind_val_eq (cpByte_at a1 (by omega)), hlen,
      Par.bind_val_eq (cp_at rfl a2 (by omega))]
    have e2 : DataBlock.make x.1 ⟨x.2, x.2.length⟩ = .ok (toBlock x) := by
      unfold DataBlock.make DataBlock.setData
      rw [if_pos ⟨hx.1, hx.2⟩]; rfl
    rw [e2, Res.bind_ok, obj_addBlock hb0 (by omega) he x hx.2, Par.bind_val_eq (Par.lift_ok _ _),
      ih (bs0 ++ [x]) _ l (fun b hb' => hb b (by simp [hb'])) ?_ ?_ a3 (by omega)]
    · simp only [List.append_assoc, List.cons_append, List.nil_append]
      congr 2; omega
    · intro b hb'
      rcases List.mem_append.mp hb' with h | h
      · exact hb0 b h
      · simp only [List.mem_singleton] at h; subst h; exact hx
    · simp; omega

theorem cpEncBlocks_at {m v s bs c1 c2 fs} (hb : BlocksOk bs) (hl : bs.length ≤ 255)
    (es : List (Byte × Byte × List Byte)) :
    ∀ (es0 : List (Byte × Byte × List Byte)) (i : Nat) (l : List Byte), EncOk es → es0.length + es.length ≤ 255 →
      At file i (encBytes es ++ l) → i + (encBytes es).length < 2 ^ 16 →
      cpEncBlocks file es.length (obj m v s (bs.map toBlock) (es0.map toEnc) c1 c2 fs) i =
        .ok (.val (obj m v s (bs.map toBlock) ((es0 ++ es).map toEnc) c1 c2 fs) (i + (encBytes es).length)) := by
  induction es with
  | nil => intro es0 i l _ _ _ _; simp [cpEncBlocks, encBytes, Par.pure_apply]
  | cons x es ih =>
    intro es0 i l he hle ha hs
    have hx := he x (by simp)
    simp only [List.length_cons] at hle
    have e : encBytes (x :: es) = x.1 :: x.2.1 :: (x.2.2 ++ encBytes es) := by simp [encBytes]
    rw [e] at ha hs ⊢
    simp only [List.length_cons, List.length_append, List.cons_append] at ha hs ⊢
    have a1 := ha.next1
    have a2 := a1.next1
    rw [List.append_assoc] at a2
    have a3 := a2.next' hx
    rw [cpEncBlocks, Par.bind_val_eq (cpByte_at ha (by omega)), Par.bind_val_eq (cpByte_at a1 (by omega)),
      Par.bind_val_eq (cp_at hx a2 (by omega))]
    have e2 : EncDataBlock.createEncBlock x.1 ⟨x.2.2, 255⟩ x.2.1 = .ok (toEnc x) := by
      unfold EncDataBlock.createEncBlock DataBlock.setData
      rw [if_neg (by simp [Bytes.len, hx]), if_pos (by simp [Bytes.len, hx])]; rfl
    rw [e2, Res.bind_ok, obj_addEnc hb hl (by omega) x hx, Par.bind_val_eq (Par.lift_ok _ _),
      ih (es0 ++ [x]) _ l (fun b hb' => he b (by simp [hb'])) (by simp; omega) a3 (by omega)]
    simp only [List.append_assoc, List.cons_append, List.nil_append]
    congr 2; omega

theorem cpParts_fixed_at {dblen : Nat} {nm : String} {nls : List NameLen} {m : CHMode} {acc : List (List Byte)} {n i : Nat}
    (h : PartsFit m acc) {p l : List Byte} (hp : p.length = 8) (ha : acceptable m.num acc p = true)
    (hat : At file i (p ++ l)) (hs : i + 8 < 2 ^ 16) :
    cpParts file dblen (⟨nm, 8⟩ :: nls) (holding m acc) n i =
      cpParts file dblen nls (holding m (acc ++ [p])) (n + 8) (i + 8) := by
  rw [cpParts]
  simp only
  rw [if_pos (by decide), Par.bind_val_eq (Par.onExn_ok (cp_at hp hat hs)), (addBytes_accept h ⟨p, 8⟩ ha).1,
    Par.bind_val_eq (Par.onExn_ok (Par.lift_ok _ _))]

theorem cpStar_nil {n i : Nat} (hi : i ≤ file.data.length) (hs : i < 2 ^ 16) :
    cpStar file n n i = .ok (.val [] i) := by
  unfold cpStar
  simp only
  have e : (((i : Int) + ((n : Int) - n)) % 2 ^ 64).toNat = i := by omega
  rw [e]
  unfold Bytes.copySubBytes
  rw [if_neg (by omega), if_neg (by omega)]
  simp

theorem cpParts_star_nil {nm : String} {m : CHMode} {acc : List (List Byte)} {n i : Nat}
    (h : PartsFit m acc) (ha : acceptable m.num acc [] = true) (hi : i ≤ file.data.length) (hs : i < 2 ^ 16) :
    cpParts file n [⟨nm, 0⟩] (holding m acc) n i = .ok (.val (holding m (acc ++ [[]]), n) i) := by
  rw [cpParts]
  simp only
  rw [if_neg (by decide), Par.bind_val_eq (Par.onExn_ok (cpStar_nil hi hs)),
    (addBytes_accept h ⟨[], ([] : List Byte).length⟩ ha).1, Par.bind_val_eq (Par.onExn_ok (Par.lift_ok _ _))]
  rfl

theorem cpParts_at {m : CHMode} {block l : List Byte} {i : Nat} (hb : blockLenOk m.num block.length = true)
    (hfree : block.length = fixedPart m.toByte) (ha : At file i (block ++ l)) (hs : i + block.length < 2 ^ 16) :
    cpParts file block.length m.nameLens (ChainHashData.new m) 0 i =
      .ok (.val (full m block, block.length) (i + block.length)) := by
  rw [← holding_nil]
  cases m with
  | normal =>
    have : block = [] := List.length_eq_zero_iff.mp hfree
    subst this
    rfl
  | constSalt =>
    have : block = [] := List.length_eq_zero_iff.mp hfree
    subst this
    have := ha.2
    exact (cpParts_star_nil (nm := "S") (partsFit_nil _) (acc_free (nm := "S") rfl (by simp)) ha.2 (by omega)).trans
      (by simp [holding, full, CHMode.nameLens])
  | count =>
    have hp : block.length = 8 := hfree
    show cpParts file _ [⟨"SN", 8⟩] _ 0 _ = _
    rw [cpParts_fixed_at (partsFit_nil _) hp (acc_fixed (nm := "SN") rfl hp) ha (by omega), hp]
    simp [cpParts, Par.pure_apply, holding, full, CHMode.nameLens]
  | constCount =>
    have hp : block.length = 8 := hfree
    have a1 := acc_fixed (m := .constCount) (acc := []) (nm := "SN") rfl hp
    have f1 := (addBytes_accept (partsFit_nil .constCount) ⟨block, 255⟩ a1).2
    show cpParts file _ [⟨"SN", 8⟩, ⟨"S", 0⟩] _ 0 _ = _
    rw [cpParts_fixed_at (partsFit_nil _) hp a1 ha (by omega), hp]
    refine (cpParts_star_nil (nm := "S") f1 (acc_free (nm := "S") rfl (by simp; omega)) (ha.next' hp).2 (by omega)).trans ?_
    simp [holding, full, CHMode.nameLens]
  | quad =>
    have hp : block.length = 32 := hfree
    obtain ⟨p1, b1, rfl, hp1, -⟩ := split8 (n := 0) (l := block) (by omega)
    obtain ⟨p2, b2, rfl, hp2, -⟩ := split8 (n := 0) (l := b1) (by simp at hp; omega)
    obtain ⟨p3, b3, rfl, hp3, -⟩ := split8 (n := 0) (l := b2) (by simp at hp; omega)
    have hp4 : b3.length = 8 := by simp at hp; omega
    have a1 := acc_fixed (m := .quad) (acc := []) (nm := "SN") rfl hp1
    have f1 := (addBytes_accept (partsFit_nil .quad) ⟨p1, 255⟩ a1).2
    have a2 := acc_fixed (m := .quad) (acc := [p1]) (nm := "A") rfl hp2
    have f2 := (addBytes_accept f1 ⟨p2, 255⟩ a2).2
    have a3 := acc_fixed (m := .quad) (acc := [p1, p2]) (nm := "B") rfl hp3
    have f3 := (addBytes_accept f2 ⟨p3, 255⟩ a3).2
    have a4 := acc_fixed (m := .quad) (acc := [p1, p2, p3]) (nm := "C") rfl hp4
    show cpParts file _ [⟨"SN", 8⟩, ⟨"A", 8⟩, ⟨"B", 8⟩, ⟨"C", 8⟩] _ 0 _ = _
    rw [hp] at hs ⊢
    simp only [List.append_assoc] at ha
    have t1 := ha.next' hp1
    have t2 := t1.next' hp2
    have t3 := t2.next' hp3
    rw [cpParts_fixed_at (partsFit_nil _) hp1 a1 ha (by omega), cpParts_fixed_at f1 hp2 a2 t1 (by omega),
      cpParts_fixed_at f2 hp3 a3 t2 (by omega), cpParts_fixed_at f3 hp4 a4 t3 (by omega)]
    simp [cpParts, Par.pure_apply, holding, full, CHMode.nameLens]

theorem cpChainHash_at {m : CHMode} {n : UInt64} {block l : List Byte} {i : Nat} (hb : blockLenOk m.num block.length = true)
    (hfree : block.length = fixedPart m.toByte)
    (ha : At file i ((ChainDesc.mk m.toByte n.toNat block).bytes ++ l)) (hs : i + (10 + block.length) < 2 ^ 16) :
    cpChainHash file i = .ok (.val (ChainHash.make m n (some (full m block))) (i + (10 + block.length))) := by
  have hle := blockLenOk_le hb
  have hlen := len_ofNat hle
  have e : (ChainDesc.mk m.toByte n.toNat block).bytes ++ l =
      m.toByte :: (num8 n.toNat ++ UInt8.ofNat block.length :: (block ++ l)) := by simp [ChainDesc.bytes]
  rw [e] at ha
  have a1 := ha.next1
  have a2 := a1.next' (length_num8 _)
  have a3 := a2.next1
  unfold cpChainHash
  rw [Par.bind_val_eq (Par.onExn_ok (cpByte_at ha (by omega)))]
  simp only [CHMode.ofByte_toByte]
  rw [Par.bind_val_eq (cpLong_at a1 (by omega)), Par.bind_val_eq (cpByte_at a2 (by omega)), hlen,
    Par.bind_val_eq (cpParts_at hb hfree a3 (by omega))]
  simp only [getLen_full hle, BEq.rfl]
  rw [show Res.assert true = .ok () from rfl, Par.bind_val_eq (Par.lift_ok _ _), Par.bind_val_eq (Par.lift_ok _ _),
    Par.pure_apply]
  congr 2; omega

theorem free_nil {m : CHMode} {n : Nat} {block : List Byte} (hb : blockLenOk m.num block.length = true)
    (h : (ChainDesc.mk m.toByte n block).free = []) : block.length = fixedPart m.toByte := by
  have h1 : block.length ≤ fixedPart m.toByte := by
    have := congrArg List.length h
    simp only [ChainDesc.free, List.length_drop, List.length_nil] at this
    omega
  cases m with
  | normal => exact Nat.le_zero.mp h1
  | constSalt => exact Nat.le_zero.mp h1
  | count => simpa [CHMode.num, CHMode.toByte, blockLenOk, fixedPart] using hb
  | constCount =>
    simp [CHMode.num, CHMode.toByte, blockLenOk, fixedPart] at hb h1 ⊢; omega
  | quad => simpa [CHMode.num, CHMode.toByte, blockLenOk, fixedPart] using hb

theorem cpContent_at {hs : Hashes} {r : Rand} (hr : r.good = true) {h : Header} (hv : h.Valid) (data : List Byte)
    (hf1 : h.ch1.free = []) (hf2 : h.ch2.free = []) (hl : h.length < 2 ^ 16) (ha : At file 16 (h.content ++ data)) :
    cpContent file hs r (UInt64.ofNat h.fileSize) 16 = .ok (.val (mkHeader h) h.length) := by
  obtain ⟨fsz, fm, hm, bs, c1, c2, v, s, es⟩ := h
  obtain ⟨m, hm1, rfl⟩ := valid_hmode hv.hashMode
  have hfm := hv.fileMode
  simp only at hfm; subst hfm
  have h64 := hv.size64
  have hbc := hv.blockCount
  have hbl := hv.blockLen
  have hc1 := hv.ch1
  have hc2 := hv.ch2
  have hvl := hv.validator
  have hsl := hv.salt
  have hec := hv.encCount
  have hel := hv.encLen
  have hsz := hv.size
  simp only [digestSize_toByte] at *
  have hms := m.size_le
  obtain ⟨m1, n1, e1, em1, -, -, hb1⟩ := desc_typed hc1
  obtain ⟨m2, n2, e2, em2, -, -, hb2⟩ := desc_typed hc2
  have hn : (UInt64.ofNat fsz).toNat = fsz := by rw [UInt64.toNat_ofNat', Nat.mod_eq_of_lt h64]
  have e : (Header.content ⟨fsz, 1, m.toByte, bs, c1, c2, v, s, es⟩) ++ data = 1 :: m.toByte :: UInt8.ofNat bs.length ::
      (blockBytes bs ++ (c1.bytes ++ (c2.bytes ++ (v ++ (s ++ UInt8.ofNat es.length :: (encBytes es ++ data)))))) := by
    simp [Header.content]
  have q : Header.length ⟨fsz, 1, m.toByte, bs, c1, c2, v, s, es⟩ = 16 + 1 + 1 + 1 + (blockBytes bs).length +
      (10 + c1.block.length) + (10 + c2.block.length) + m.size + m.size + 1 + (encBytes es).length := by
    simp only [length_blockBytes, length_encBytes _ hel, Header.length, digestSize_toByte]; omega
  have q1 : c1.block.length = fixedPart m1.toByte := by
    rw [e1] at hf1
    exact free_nil hb1 hf1
  have q2 : c2.block.length = fixedPart m2.toByte := by
    rw [e2] at hf2
    exact free_nil hb2 hf2
  rw [q] at hl ⊢
  rw [e] at ha
  have a1 := ha.next1
  have a2 := a1.next1
  have a3 := a2.next1
  have a4 := a3.next
  have a5 := a4.next' (show c1.bytes.length = 10 + c1.block.length by simp [ChainDesc.bytes]; omega)
  have a6 := a5.next' (show c2.bytes.length = 10 + c2.block.length by simp [ChainDesc.bytes]; omega)
  have a7 := a6.next' hvl
  have a8 := a7.next' hsl
  have a9 := a8.next1
  unfold cpContent
  rw [Par.bind_val_eq (cpByte_at ha (by omega)), Par.bind_val_eq (cpByte_at a1 (by omega)),
    Par.bind_val_eq (by rw [start_new hr, hm1]), Par.bind_val_eq (by rw [start_mode, if_pos rfl]),
    Par.bind_val_eq (cpByte_at a2 (by omega)), len_ofNat' hbc]
  have b := cpBlocks_at (m := m) (v := none) (s := ⟨r.take m.size, m.size⟩) (enc := []) (c1 := ChainHash.default)
    (c2 := ChainHash.default) (fs := none) (by simp) bs [] _ _ hbl (by simp [BlocksOk]) (by simpa using hbc) a3 (by omega)
  rw [List.map_nil, List.nil_append] at b
  rw [e1] at a4
  rw [e2] at a5
  rw [Par.bind_val_eq b, Par.bind_val_eq (cpChainHash_at hb1 q1 a4 (by omega)),
    Par.bind_val_eq (Par.onExn_ok (by rw [obj_setCh1 hb1, ← e1, if_pos hc1, Par.lift_ok])),
    Par.bind_val_eq (cpChainHash_at hb2 q2 a5 (by omega)),
    Par.bind_val_eq (Par.onExn_ok (by rw [obj_setCh2 hb2, ← e2, if_pos hc2, Par.lift_ok]))]
  simp only [obj_hashSize]
  rw [Par.bind_val_eq (Par.onExn_ok (cp_at hvl a6 (by omega))),
    Par.bind_val_eq (Par.onExn_ok (by rw [obj_setValidator (by exact hvl), Par.lift_ok]))]
  simp only [obj_hashSize]
  rw [Par.bind_val_eq (Par.onExn_ok (cp_at hsl a7 (by omega))),
    Par.bind_val_eq (Par.onExn_ok (by rw [obj_setSalt (by exact hsl), Par.lift_ok])),
    Par.bind_val_eq (cpByte_at a8 (by omega)), len_ofNat' hec]
  have b2 := cpEncBlocks_at (m := m) (v := some ⟨v, m.size⟩) (s := ⟨s, m.size⟩) (c1 := toCH c1)
    (c2 := toCH c2) (fs := none) hbl hbc es [] _ data hel (by simpa using hec) a9 (by omega)
  rw [List.map_nil, List.nil_append] at b2
  rw [Par.bind_val_eq b2, Par.bind_val_eq (Par.onExn_ok (by
      rw [obj_setFileSize' _ hc1 hc2 hvl hsl hbl hbc hel hec, hn, if_neg (by omega), Par.lift_ok]))]
  refine Par.onExn_ok ?_
  rw [obj_calc _ hc1 hs hc2 hvl hsl hbl hbc hel hec, hn, if_neg (by omega), Par.lift_ok]

/-- the memory parser reads every proper header shorter than 64 KiB without free parts -/
theorem setHeaderMem_append {hs : Hashes} {r : Rand} (hr : r.good = true) {h : Header} (hv : h.Valid) (data : List Byte)
    (hf1 : h.ch1.free = []) (hf2 : h.ch2.free = []) (hl : h.length < 2 ^ 16) (hd : file.data = h.bytes ++ data) :
    setHeaderMem file hs r = .ok (.val (mkHeader h) h.length) := by
  have hlen := valid_length hv
  have hfs := ofNat_toNat64 hv.size64
  have hl64 := ofNat_toNat64 (n := h.length) (by omega)
  have a0 : At file 0 (num8 (UInt64.ofNat h.fileSize).toNat ++ (num8 (UInt64.ofNat h.length).toNat ++ (h.content ++ data))) := by
    refine ⟨?_, by omega⟩
    rw [List.drop_zero, hd, hfs, hl64]; simp [Header.bytes]
  have a1 := a0.next' (length_num8 _)
  have a2 := a1.next' (length_num8 _)
  have e : cpHeader file hs r 0 = .ok (.val (mkHeader h) h.length) := by
    unfold cpHeader
    rw [Par.bind_val_eq (Par.onExn_ok (cpLong_at a0 (by omega))), Par.bind_val_eq (Par.onExn_ok (cpLong_at a1 (by omega)))]
    rw [if_neg (by
      have := a2.len
      rw [hl64, Bytes.len, ← this, List.length_append]; omega)]
    refine (Par.bind_val_eq (cpContent_at hr hv data hf1 hf2 hl a2)).trans ?_
    simp only [hl64, mkHeader_length hv, BEq.rfl, Res.bind_ok]
    rfl
  unfold setHeaderMem
  rw [Par.onExn_ok e]
  rfl

end HeaderParse
end Verif
