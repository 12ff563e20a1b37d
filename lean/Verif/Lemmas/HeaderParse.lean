import Verif.Lemmas.Par
import Verif.Lemmas.HeaderOps

namespace Verif
open Spec

theorem beValue_inj : ∀ (l l' : List Byte), l.length = l'.length → beValue l = beValue l' → l = l' := by
  intro l
  induction l with
  | nil => intro l' h _; exact (List.length_eq_zero_iff.mp h.symm).symm
  | cons x l ih =>
    intro l' h hv
    cases l' with
    | nil => cases h
    | cons y l' =>
      simp only [List.length_cons, Nat.add_right_cancel_iff] at h
      rw [beValue_cons, beValue_cons, ← h] at hv
      have h1 := beValue_lt l
      have h2 := beValue_lt l'
      rw [← h] at h2
      have hp : 0 < 256 ^ l.length := Nat.pow_pos (by decide)
      have e1 : (x.toNat * 256 ^ l.length + beValue l) / 256 ^ l.length = x.toNat := by
        rw [Nat.mul_comm, Nat.mul_add_div hp, Nat.div_eq_of_lt h1, Nat.add_zero]
      have e2 : (y.toNat * 256 ^ l.length + beValue l') / 256 ^ l.length = y.toNat := by
        rw [Nat.mul_comm, Nat.mul_add_div hp, Nat.div_eq_of_lt h2, Nat.add_zero]
      have e3 : x.toNat = y.toNat := by rw [← e1, hv, e2]
      have e4 : beValue l = beValue l' := by rw [e3] at hv; omega
      rw [UInt8.toNat_inj.mp e3, ih l' h e4]

theorem num8_beValue {l : List Byte} (h : l.length = 8) : num8 (beValue l) = l := by
  rw [← ofNat_beValue l (by omega), num8_toNat]
  apply beValue_inj
  · simp [h]
  · rw [beValue_be8, ofNat_beValue l (by omega)]

namespace HeaderParse

abbrev short {α : Type} : Res (Step (List Byte) α) := .ok (.stop .ERR_NOT_ENOUGH_DATA)

/-! ### reading -/

@[simp] theorem rdByte_nil : rdByte rdList [] = short := rfl
@[simp] theorem rdByte_cons (x : Byte) (l : List Byte) : rdByte rdList (x :: l) = .ok (.val x l) := by
  simp [rdByte, Par.bind_apply, rdList, Par.pure_apply]

theorem rd_append {cap n : Nat} {a l : List Byte} (ha : a.length = n) (hc : n ≤ cap) (hn : n < 2 ^ 32) :
    rdList cap n (a ++ l) = .ok (.val a l) := by
  unfold rdList
  rw [Nat.mod_eq_of_lt hn, if_neg (by omega), if_pos (by simp; omega), ← ha]
  simp

theorem rd_cases (cap n : Nat) (hc : n ≤ cap) (hn : n < 2 ^ 32) (l : List Byte) :
    rdList cap n l = short ∨ ∃ a l', l = a ++ l' ∧ a.length = n ∧ rdList cap n l = .ok (.val a l') := by
  by_cases h : n ≤ l.length
  · right
    refine ⟨l.take n, l.drop n, by simp, by simp; omega, ?_⟩
    unfold rdList
    rw [Nat.mod_eq_of_lt hn, if_neg (by omega), if_pos h]
  · left
    unfold rdList
    rw [Nat.mod_eq_of_lt hn, if_neg (by omega), if_neg h]

theorem rd_toobig (cap n : Nat) (hc : cap < n) (hn : n < 2 ^ 32) (l : List Byte) : rdList cap n l = short := by
  unfold rdList
  rw [Nat.mod_eq_of_lt hn, if_pos hc]

theorem rdLong_append {n : Nat} (hn : n < 2 ^ 64) (l : List Byte) :
    rdLong rdList (num8 n ++ l) = .ok (.val (UInt64.ofNat n) l) := by
  unfold rdLong
  rw [Par.bind_val_eq (rd_append (length_num8 n) (by decide) (by decide)), toLong_eq _ (by simp), Par.lift_ok]
  simp only
  rw [← num8_ofNat hn, beValue_be8, UInt64.toNat_ofNat', Nat.mod_eq_of_lt hn]

theorem rdLong_cases (l : List Byte) :
    rdLong rdList l = short ∨ ∃ (n : UInt64) (l' : List Byte), l = num8 n.toNat ++ l' ∧ rdLong rdList l = .ok (.val n l') := by
  rcases rd_cases 8 8 (by decide) (by decide) l with h | ⟨a, l', rfl, ha, h⟩
  · left; exact Par.bind_stop_eq h
  · right
    refine ⟨UInt64.ofNat (beValue a), l', ?_, ?_⟩
    · rw [ofNat_beValue a (by omega), num8_beValue ha]
    · unfold rdLong
      rw [Par.bind_val_eq h, toLong_eq _ (by simp; omega), Par.lift_ok]

/-! ### header objects under construction -/

/-- header object of the parser; no header bytes yet -/
def obj (m : HMode) (v : Option Bytes) (s : Bytes) (dec : List DataBlock) (enc : List EncDataBlock) (c1 c2 : ChainHash)
    (fs : Option UInt64) : DataHeader :=
  ⟨⟨some 1, some m, v, some s, dec, enc, c1, c2⟩, m.size, ⟨[], 0⟩, fs,
    2 * dec.length + (dec.map fun b => b.data.data.length).sum + 257 * enc.length⟩

def toBlock (b : Byte × List Byte) : DataBlock := ⟨b.1, ⟨b.2, b.2.length⟩⟩
def toEnc (b : Byte × Byte × List Byte) : EncDataBlock := ⟨⟨b.1, ⟨b.2.2, 255⟩⟩, b.2.1⟩

theorem obj_hashSize (m v s dec enc c1 c2 fs) : (obj m v s dec enc c1 c2 fs).hashSize = m.size := rfl

/-- blocks of a header file -/
def BlocksOk (bs : List (Byte × List Byte)) : Prop := ∀ b ∈ bs, 1 ≤ b.2.length ∧ b.2.length ≤ 255

theorem sum_toBlock {bs : List (Byte × List Byte)} (hb : BlocksOk bs) :
    ((bs.map toBlock).map fun b => b.data.data.length).sum ≤ 255 * bs.length := by
  have := sum_le ((bs.map toBlock).map fun b => b.data.data.length) (by
    intro x hx
    simp only [List.map_map, List.mem_map] at hx
    obtain ⟨b, hb', rfl⟩ := hx
    exact (hb b hb').2)
  simpa using this

theorem obj_addBlock {m v s bs enc c1 c2 fs} (hb : BlocksOk bs) (hl : bs.length < 255) (he : enc.length ≤ 255)
    (x : Byte × List Byte) (hx : x.2.length ≤ 255) :
    (obj m v s (bs.map toBlock) enc c1 c2 fs).addDataBlock (toBlock x) =
      .ok (obj m v s ((bs ++ [x]).map toBlock) enc c1 c2 fs) := by
  have hs := sum_toBlock hb
  unfold DataHeader.addDataBlock
  rw [if_neg (by simp [obj]; omega)]
  simp only [obj, List.length_map] at hs ⊢
  rw [Nat.mod_eq_of_lt (by simp only [toBlock, Bytes.len]; omega)]
  simp only [DataHeader.clear, toBlock, Bytes.len, Res.ok.injEq, DataHeader.mk.injEq, List.map_append, List.length_append,
    List.sum_append, List.map_cons, List.map_nil, List.length_cons, List.length_nil, List.sum_cons, List.sum_nil,
    true_and]
  omega

theorem rdBlocks_append {m v s enc c1 c2 fs} (he : enc.length ≤ 255) (bs : List (Byte × List Byte)) :
    ∀ (bs0 : List (Byte × List Byte)) (k : Nat) (l : List Byte), BlocksOk bs → BlocksOk bs0 →
      bs0.length + bs.length ≤ 255 →
      rdBlocks rdList (bs.length + k) (obj m v s (bs0.map toBlock) enc c1 c2 fs) (blockBytes bs ++ l) =
        rdBlocks rdList k (obj m v s ((bs0 ++ bs).map toBlock) enc c1 c2 fs) l := by
  induction bs with
  | nil => intro bs0 k l _ _ _; simp [blockBytes]
  | cons x bs ih =>
    intro bs0 k l hb hb0 hl
    have hx := hb x (by simp)
    simp only [List.length_cons] at hl
    have hlen : (UInt8.ofNat x.2.length).toNat = x.2.length := by
      rw [UInt8.toNat_ofNat', Nat.mod_eq_of_lt (by omega)]
    have e : blockBytes (x :: bs) ++ l = x.1 :: UInt8.ofNat x.2.length :: (x.2 ++ (blockBytes bs ++ l)) := by
      simp [blockBytes]
    rw [e, show (x :: bs).length + k = (bs.length + k) + 1 by simp only [List.length_cons]; omega, rdBlocks,
      Par.bind_val_eq (rdByte_cons _ _), Par.bind_val_eq (rdByte_cons _ _), hlen,
      Par.bind_val_eq (rd_append rfl (Nat.le_refl _) (by omega))]
    have e2 : DataBlock.make x.1 ⟨x.2, x.2.length⟩ = .ok (toBlock x) := by
      unfold DataBlock.make DataBlock.setData
      rw [if_pos ⟨hx.1, hx.2⟩]; rfl
    rw [e2, Res.bind_ok, obj_addBlock hb0 (by omega) he x hx.2, Par.bind_val_eq (Par.lift_ok _ _),
      ih (bs0 ++ [x]) k l (fun b hb' => hb b (by simp [hb'])) ?_ ?_]
    · simp
    · intro b hb'
      rcases List.mem_append.mp hb' with h | h
      · exact hb0 b h
      · simp only [List.mem_singleton] at h; subst h; exact hx
    · simp; omega

theorem rdBlocks_zero (k : Nat) (d : DataHeader) (t : Byte) (l : List Byte) :
    rdBlocks rdList (k + 1) d (t :: 0 :: l) = .exn .invalidArgument := by
  rw [rdBlocks, Par.bind_val_eq (rdByte_cons _ _), Par.bind_val_eq (rdByte_cons _ _)]
  have : rdList (UInt8.toNat 0) (UInt8.toNat 0) l = .ok (.val [] l) := by
    simp [rdList]
  rw [Par.bind_val_eq this]
  rfl

/-- what happens at a list of data blocks -/
theorem rdBlocks_cases {m v s enc c1 c2 fs} (he : enc.length ≤ 255) (k : Nat) :
    ∀ (bs0 : List (Byte × List Byte)) (l : List Byte), BlocksOk bs0 → bs0.length + k ≤ 255 →
      rdBlocks rdList k (obj m v s (bs0.map toBlock) enc c1 c2 fs) l = short ∨
      (∃ bs l', l = blockBytes bs ++ l' ∧ BlocksOk bs ∧ bs.length = k ∧
        rdBlocks rdList k (obj m v s (bs0.map toBlock) enc c1 c2 fs) l =
          .ok (.val (obj m v s ((bs0 ++ bs).map toBlock) enc c1 c2 fs) l')) ∨
      (∃ bs t l', l = blockBytes bs ++ t :: 0 :: l' ∧ BlocksOk bs ∧ bs.length < k ∧
        rdBlocks rdList k (obj m v s (bs0.map toBlock) enc c1 c2 fs) l = .exn .invalidArgument) := by
  induction k with
  | zero =>
    intro bs0 l _ _
    exact .inr (.inl ⟨[], l, rfl, by simp [BlocksOk], rfl, by simp [rdBlocks, Par.pure_apply]⟩)
  | succ k ih =>
    intro bs0 l hb0 hl
    rcases l with _ | ⟨t, _ | ⟨len, l⟩⟩
    · left; exact Par.bind_stop_eq rdByte_nil
    · left
      rw [rdBlocks, Par.bind_val_eq (rdByte_cons _ _)]
      exact Par.bind_stop_eq rdByte_nil
    · by_cases hz : len = 0
      · subst hz
        exact .inr (.inr ⟨[], t, l, rfl, by simp [BlocksOk], by simp, rdBlocks_zero _ _ _ _⟩)
      · have hlen := len.toNat_lt
        have hpos : 1 ≤ len.toNat := by
          rcases Nat.eq_zero_or_pos len.toNat with h | h
          · exact absurd (UInt8.toNat_inj.mp (by simpa using h)) hz
          · exact h
        rcases rd_cases len.toNat len.toNat (Nat.le_refl _) (by omega) l with h | ⟨a, l', rfl, ha, h⟩
        · left
          rw [rdBlocks, Par.bind_val_eq (rdByte_cons _ _), Par.bind_val_eq (rdByte_cons _ _)]
          exact Par.bind_stop_eq h
        · have hx : BlocksOk [(t, a)] := by
            intro b hb; simp only [List.mem_singleton] at hb; subst hb; simp only; omega
          have hle : UInt8.ofNat a.length = len := by rw [ha, UInt8.ofNat_toNat]
          have e := rdBlocks_append (m := m) (v := v) (s := s) (c1 := c1) (c2 := c2) (fs := fs) he [(t, a)] bs0 k l' hx hb0
            (by simp; omega)
          simp only [blockBytes, List.flatMap_cons, List.flatMap_nil, List.append_nil, hle, List.cons_append,
            List.length_cons, List.length_nil, Nat.zero_add] at e
          rw [Nat.add_comm 1 k] at e
          rw [e]
          have hb1 : BlocksOk (bs0 ++ [(t, a)]) := by
            intro b hb
            rcases List.mem_append.mp hb with h | h
            · exact hb0 b h
            · exact hx b h
          rcases ih (bs0 ++ [(t, a)]) l' hb1 (by simp; omega) with h1 | ⟨bs, l2, h1, h2, h3, h4⟩ | ⟨bs, t2, l2, h1, h2, h3, h4⟩
          · exact .inl h1
          · refine .inr (.inl ⟨(t, a) :: bs, l2, ?_, ?_, by simp [h3], ?_⟩)
            · simp [blockBytes, hle, h1]
            · intro b hb
              rcases List.mem_cons.mp hb with rfl | h
              · exact hx _ (by simp)
              · exact h2 b h
            · rw [h4]; simp
          · refine .inr (.inr ⟨(t, a) :: bs, t2, l2, ?_, ?_, by simp; omega, h4⟩)
            · simp [blockBytes, hle, h1]
            · intro b hb
              rcases List.mem_cons.mp hb with rfl | h
              · exact hx _ (by simp)
              · exact h2 b h

/-! ### encrypted blocks -/

def EncOk (bs : List (Byte × Byte × List Byte)) : Prop := ∀ b ∈ bs, b.2.2.length = 255

theorem obj_addEnc {m v s bs es c1 c2 fs} (hb : BlocksOk bs) (hl : bs.length ≤ 255) (he : es.length < 255)
    (x : Byte × Byte × List Byte) (hx : x.2.2.length = 255) :
    (obj m v s (bs.map toBlock) (es.map toEnc) c1 c2 fs).addEncDataBlock (toEnc x) =
      .ok (obj m v s (bs.map toBlock) ((es ++ [x]).map toEnc) c1 c2 fs) := by
  have hs := sum_toBlock hb
  unfold DataHeader.addEncDataBlock
  rw [if_neg (by simp [obj]; omega)]
  simp only [obj, List.length_map] at hs ⊢
  rw [Nat.mod_eq_of_lt (by simp only [toEnc, Bytes.len, EncDataBlock.getEnc]; omega)]
  simp only [DataHeader.clear, toEnc, Bytes.len, EncDataBlock.getEnc, Res.ok.injEq, DataHeader.mk.injEq, List.map_append,
    List.length_append, List.map_cons, List.map_nil, List.length_cons, List.length_nil,
    true_and]
  omega

theorem rdEncBlocks_append {m v s bs c1 c2 fs} (hb : BlocksOk bs) (hl : bs.length ≤ 255)
    (es : List (Byte × Byte × List Byte)) :
    ∀ (es0 : List (Byte × Byte × List Byte)) (k : Nat) (l : List Byte), EncOk es →
      es0.length + es.length ≤ 255 →
      rdEncBlocks rdList (es.length + k) (obj m v s (bs.map toBlock) (es0.map toEnc) c1 c2 fs) (encBytes es ++ l) =
        rdEncBlocks rdList k (obj m v s (bs.map toBlock) ((es0 ++ es).map toEnc) c1 c2 fs) l := by
  induction es with
  | nil => intro es0 k l _ _; simp [encBytes]
  | cons x es ih =>
    intro es0 k l he hle
    have hx := he x (by simp)
    simp only [List.length_cons] at hle
    have e : encBytes (x :: es) ++ l = x.1 :: x.2.1 :: (x.2.2 ++ (encBytes es ++ l)) := by
      simp [encBytes]
    rw [e, show (x :: es).length + k = (es.length + k) + 1 by simp only [List.length_cons]; omega, rdEncBlocks,
      Par.bind_val_eq (rdByte_cons _ _), Par.bind_val_eq (rdByte_cons _ _),
      Par.bind_val_eq (rd_append hx (Nat.le_refl _) (by omega))]
    have e2 : EncDataBlock.createEncBlock x.1 ⟨x.2.2, 255⟩ x.2.1 = .ok (toEnc x) := by
      unfold EncDataBlock.createEncBlock DataBlock.setData
      rw [if_neg (by simp [Bytes.len, hx]), if_pos (by simp [Bytes.len, hx])]; rfl
    rw [e2, Res.bind_ok, obj_addEnc hb hl (by omega) x hx, Par.bind_val_eq (Par.lift_ok _ _),
      ih (es0 ++ [x]) k l (fun b hb' => he b (by simp [hb'])) (by simp; omega)]
    simp

theorem rdEncBlocks_cases {m v s bs c1 c2 fs} (hb : BlocksOk bs) (hl : bs.length ≤ 255) (k : Nat) :
    ∀ (es0 : List (Byte × Byte × List Byte)) (l : List Byte), es0.length + k ≤ 255 →
      rdEncBlocks rdList k (obj m v s (bs.map toBlock) (es0.map toEnc) c1 c2 fs) l = short ∨
      (∃ es l', l = encBytes es ++ l' ∧ EncOk es ∧ es.length = k ∧
        rdEncBlocks rdList k (obj m v s (bs.map toBlock) (es0.map toEnc) c1 c2 fs) l =
          .ok (.val (obj m v s (bs.map toBlock) ((es0 ++ es).map toEnc) c1 c2 fs) l')) := by
  induction k with
  | zero =>
    intro es0 l _
    exact .inr ⟨[], l, rfl, by simp [EncOk], rfl, by simp [rdEncBlocks, Par.pure_apply]⟩
  | succ k ih =>
    intro es0 l hle
    rcases l with _ | ⟨t, _ | ⟨len, l⟩⟩
    · left; exact Par.bind_stop_eq rdByte_nil
    · left
      rw [rdEncBlocks, Par.bind_val_eq (rdByte_cons _ _)]
      exact Par.bind_stop_eq rdByte_nil
    · rcases rd_cases 255 255 (Nat.le_refl _) (by omega) l with h | ⟨a, l', rfl, ha, h⟩
      · left
        rw [rdEncBlocks, Par.bind_val_eq (rdByte_cons _ _), Par.bind_val_eq (rdByte_cons _ _)]
        exact Par.bind_stop_eq h
      · have hx : EncOk [(t, len, a)] := by
          intro b hb; simp only [List.mem_singleton] at hb; subst hb; exact ha
        have e := rdEncBlocks_append (m := m) (v := v) (s := s) (c1 := c1) (c2 := c2) (fs := fs) hb hl [(t, len, a)] es0 k l'
          hx (by simp; omega)
        simp only [encBytes, List.flatMap_cons, List.flatMap_nil, List.append_nil, List.cons_append,
          List.length_cons, List.length_nil, Nat.zero_add] at e
        rw [Nat.add_comm 1 k] at e
        rw [e]
        rcases ih (es0 ++ [(t, len, a)]) l' (by simp; omega) with h1 | ⟨es, l2, h1, h2, h3, h4⟩
        · exact .inl h1
        · refine .inr ⟨(t, len, a) :: es, l2, ?_, ?_, by simp [h3], ?_⟩
          · simp [encBytes, h1]
          · intro b hb
            rcases List.mem_cons.mp hb with rfl | h
            · exact ha
            · exact h2 b h
          · rw [h4]; simp

/-! ### chain hashes -/

theorem rdParts_fixed {dblen : Nat} {nm : String} {nls : List NameLen} {m : CHMode} {acc : List (List Byte)} {n : Nat}
    (h : PartsFit m acc) (p l : List Byte) (hp : p.length = 8) (ha : acceptable m.num acc p = true) :
    rdParts rdList dblen (⟨nm, 8⟩ :: nls) (holding m acc) n (p ++ l) =
      rdParts rdList dblen nls (holding m (acc ++ [p])) (n + 8) l := by
  rw [rdParts]
  simp only
  rw [if_pos (by decide), Par.bind_val_eq (rd_append hp (by decide) (by decide)), (addBytes_accept h ⟨p, 255⟩ ha).1,
    Par.bind_val_eq (Par.onExn_ok (Par.lift_ok _ _))]

theorem rdParts_short {dblen : Nat} {nm : String} {nls : List NameLen} {c : ChainHashData} {n : Nat} (l : List Byte)
    (hl : l.length < 8) : rdParts rdList dblen (⟨nm, 8⟩ :: nls) c n l = short := by
  rw [rdParts]
  simp only
  rw [if_pos (by decide)]
  rcases rd_cases 255 8 (by decide) (by decide) l with h | ⟨a, l', rfl, ha, h⟩
  · exact Par.bind_stop_eq h
  · simp at hl; omega

theorem toU32_nat {a n : Nat} (h : n ≤ a) (ha : a ≤ 255) : toU32 ((a : Int) - n) = a - n := by
  unfold toU32; omega

theorem toU32_neg {a n : Nat} (h : a < n) (ha : n ≤ 255) : 255 < toU32 ((a : Int) - n) ∧ toU32 ((a : Int) - n) < 2 ^ 32 := by
  unfold toU32; omega

theorem rdParts_star {dblen : Nat} {nm : String} {m : CHMode} {acc : List (List Byte)} {n : Nat}
    (h : PartsFit m acc) (p l : List Byte) (hp : n + p.length = dblen) (hd : dblen ≤ 255)
    (ha : acceptable m.num acc p = true) :
    rdParts rdList dblen [⟨nm, 0⟩] (holding m acc) n (p ++ l) = .ok (.val (holding m (acc ++ [p]), dblen) l) := by
  rw [rdParts]
  simp only
  rw [if_neg (by decide), toU32_nat (by omega) hd, Par.bind_val_eq (rd_append (by omega) (by omega) (by omega)),
    (addBytes_accept h ⟨p, 255⟩ ha).1, Par.bind_val_eq (Par.onExn_ok (Par.lift_ok _ _)), Par.pure_apply]

theorem rdParts_star_neg {dblen : Nat} {nm : String} {c : ChainHashData} {n : Nat} (hd : dblen < n) (hn : n ≤ 255)
    (l : List Byte) : rdParts rdList dblen [⟨nm, 0⟩] c n l = short := by
  rw [rdParts]
  simp only
  rw [if_neg (by decide)]
  have := toU32_neg hd hn
  exact Par.bind_stop_eq (rd_toobig _ _ this.1 this.2 l)

/-- the object holding a complete data block -/
def full (m : CHMode) (block : List Byte) : ChainHashData := ⟨m, ⟨block, 255⟩, m.nameLens.length⟩

theorem split8 {l : List Byte} {n : Nat} (h : 8 + n ≤ l.length) :
    ∃ p l', l = p ++ l' ∧ p.length = 8 ∧ n ≤ l'.length :=
  ⟨l.take 8, l.drop 8, by simp, by simp; omega, by simp; omega⟩

theorem acc_fixed {m : CHMode} {acc : List (List Byte)} {nm : String} {p : List Byte}
    (h : (modeParts m.num)[acc.length]? = some (nm, some 8)) (hp : p.length = 8) : acceptable m.num acc p = true := by
  simp [acceptable, h, hp]

theorem acc_free {m : CHMode} {acc : List (List Byte)} {nm : String} {p : List Byte}
    (h : (modeParts m.num)[acc.length]? = some (nm, none)) (hp : acc.flatten.length + p.length ≤ 255) :
    acceptable m.num acc p = true := by
  simp [acceptable, h]; simpa using hp

/-- modes with fixed lengths -/
theorem rdParts_count (dblen : Nat) (l : List Byte) : (l.length < 8 ∧ rdParts rdList dblen CHMode.count.nameLens
      (ChainHashData.new .count) 0 l = short) ∨
    ∃ p l', l = p ++ l' ∧ p.length = 8 ∧
      rdParts rdList dblen CHMode.count.nameLens (ChainHashData.new .count) 0 l = .ok (.val (full .count p, 8) l') := by
  by_cases h : l.length < 8
  · exact .inl ⟨h, rdParts_short l h⟩
  · right
    obtain ⟨p, l', rfl, hp, -⟩ := split8 (n := 0) (l := l) (by omega)
    refine ⟨p, l', rfl, hp, ?_⟩
    rw [← holding_nil]
    show rdParts rdList dblen [⟨"SN", 8⟩] _ 0 _ = _
    rw [rdParts_fixed (partsFit_nil _) p l' hp (acc_fixed (nm := "SN") rfl hp)]
    simp [rdParts, Par.pure_apply, holding, full, CHMode.nameLens]

theorem rdParts_quad (dblen : Nat) (l : List Byte) : (l.length < 32 ∧ rdParts rdList dblen CHMode.quad.nameLens
      (ChainHashData.new .quad) 0 l = short) ∨
    ∃ p l', l = p ++ l' ∧ p.length = 32 ∧
      rdParts rdList dblen CHMode.quad.nameLens (ChainHashData.new .quad) 0 l = .ok (.val (full .quad p, 32) l') := by
  rw [← holding_nil]
  show (_ ∧ rdParts rdList dblen [⟨"SN", 8⟩, ⟨"A", 8⟩, ⟨"B", 8⟩, ⟨"C", 8⟩] _ 0 _ = _) ∨ ∃ p l', _ ∧ _ ∧
    rdParts rdList dblen [⟨"SN", 8⟩, ⟨"A", 8⟩, ⟨"B", 8⟩, ⟨"C", 8⟩] _ 0 _ = _
  by_cases h1 : l.length < 8
  · exact .inl ⟨by omega, rdParts_short l h1⟩
  obtain ⟨p1, l, rfl, hp1, -⟩ := split8 (n := 0) (l := l) (by omega)
  have a1 := acc_fixed (m := .quad) (acc := []) (nm := "SN") rfl hp1
  have f1 := (addBytes_accept (partsFit_nil .quad) ⟨p1, 255⟩ a1).2
  rw [rdParts_fixed (partsFit_nil _) p1 l hp1 a1]
  by_cases h2 : l.length < 8
  · exact .inl ⟨by simp; omega, rdParts_short l h2⟩
  obtain ⟨p2, l, rfl, hp2, -⟩ := split8 (n := 0) (l := l) (by omega)
  have a2 := acc_fixed (m := .quad) (acc := [p1]) (nm := "A") rfl hp2
  have f2 := (addBytes_accept f1 ⟨p2, 255⟩ a2).2
  rw [rdParts_fixed f1 p2 l hp2 a2]
  by_cases h3 : l.length < 8
  · exact .inl ⟨by simp; omega, rdParts_short l h3⟩
  obtain ⟨p3, l, rfl, hp3, -⟩ := split8 (n := 0) (l := l) (by omega)
  have a3 := acc_fixed (m := .quad) (acc := [p1, p2]) (nm := "B") rfl hp3
  have f3 := (addBytes_accept f2 ⟨p3, 255⟩ a3).2
  rw [rdParts_fixed f2 p3 l hp3 a3]
  by_cases h4 : l.length < 8
  · exact .inl ⟨by simp; omega, rdParts_short l h4⟩
  obtain ⟨p4, l, rfl, hp4, -⟩ := split8 (n := 0) (l := l) (by omega)
  have a4 := acc_fixed (m := .quad) (acc := [p1, p2, p3]) (nm := "C") rfl hp4
  rw [rdParts_fixed f3 p4 l hp4 a4]
  refine .inr ⟨p1 ++ (p2 ++ (p3 ++ p4)), l, by simp, by simp; omega, ?_⟩
  simp [rdParts, Par.pure_apply, holding, full, CHMode.nameLens]

theorem rdParts_const (dblen : Nat) (hd : dblen ≤ 255) (l : List Byte) : (l.length < dblen ∧ rdParts rdList dblen
      CHMode.constSalt.nameLens (ChainHashData.new .constSalt) 0 l = short) ∨
    ∃ p l', l = p ++ l' ∧ p.length = dblen ∧ rdParts rdList dblen CHMode.constSalt.nameLens
      (ChainHashData.new .constSalt) 0 l = .ok (.val (full .constSalt p, dblen) l') := by
  rw [← holding_nil]
  show (_ ∧ rdParts rdList dblen [⟨"S", 0⟩] _ 0 _ = _) ∨ ∃ p l', _ ∧ _ ∧ rdParts rdList dblen [⟨"S", 0⟩] _ 0 _ = _
  by_cases h : l.length < dblen
  · refine .inl ⟨h, ?_⟩
    rw [rdParts]
    simp only
    rw [if_neg (by decide), toU32_nat (by omega) hd]
    rcases rd_cases 255 (dblen - 0) (by omega) (by omega) l with h | ⟨a, l', rfl, ha, h⟩
    · exact Par.bind_stop_eq h
    · simp at h; simp at *; omega
  · right
    refine ⟨l.take dblen, l.drop dblen, by simp, by simp; omega, ?_⟩
    have hp : (l.take dblen).length = dblen := by simp; omega
    have := rdParts_star (dblen := dblen) (nm := "S") (n := 0) (partsFit_nil .constSalt) (l.take dblen) (l.drop dblen)
      (by omega) hd (acc_free (nm := "S") rfl (by simp; omega))
    rw [List.take_append_drop] at this
    rw [this]
    simp [holding, full, CHMode.nameLens]

theorem rdParts_constCount (dblen : Nat) (hd : dblen ≤ 255) (l : List Byte) : ((l.length < dblen ∨ dblen < 8) ∧
      rdParts rdList dblen CHMode.constCount.nameLens (ChainHashData.new .constCount) 0 l = short) ∨
    ∃ p l', l = p ++ l' ∧ p.length = dblen ∧ 8 ≤ dblen ∧ rdParts rdList dblen CHMode.constCount.nameLens
      (ChainHashData.new .constCount) 0 l = .ok (.val (full .constCount p, dblen) l') := by
  rw [← holding_nil]
  show (_ ∧ rdParts rdList dblen [⟨"SN", 8⟩, ⟨"S", 0⟩] _ 0 _ = _) ∨ ∃ p l', _ ∧ _ ∧ _ ∧
    rdParts rdList dblen [⟨"SN", 8⟩, ⟨"S", 0⟩] _ 0 _ = _
  by_cases h1 : l.length < 8
  · exact .inl ⟨by omega, rdParts_short l h1⟩
  obtain ⟨p1, l, rfl, hp1, -⟩ := split8 (n := 0) (l := l) (by omega)
  have a1 := acc_fixed (m := .constCount) (acc := []) (nm := "SN") rfl hp1
  have f1 := (addBytes_accept (partsFit_nil .constCount) ⟨p1, 255⟩ a1).2
  rw [rdParts_fixed (partsFit_nil _) p1 l hp1 a1]
  simp only [List.nil_append] at f1 ⊢
  by_cases h8 : dblen < 8
  · exact .inl ⟨.inr h8, rdParts_star_neg (by omega) (by omega) l⟩
  by_cases h : l.length < dblen - 8
  · refine .inl ⟨.inl (by simp; omega), ?_⟩
    rw [rdParts]
    simp only
    rw [if_neg (by decide), toU32_nat (by omega) hd]
    rcases rd_cases 255 (dblen - (0 + 8)) (by omega) (by omega) l with h | ⟨a, l', rfl, ha, h⟩
    · exact Par.bind_stop_eq h
    · simp at *; omega
  · right
    refine ⟨p1 ++ l.take (dblen - 8), l.drop (dblen - 8), by simp, by simp; omega, by omega, ?_⟩
    have hp : (l.take (dblen - 8)).length = dblen - 8 := by simp; omega
    have := rdParts_star (dblen := dblen) (nm := "S") (n := 0 + 8) f1 (l.take (dblen - 8)) (l.drop (dblen - 8))
      (by omega) hd (acc_free (nm := "S") rfl (by simp; omega))
    rw [List.take_append_drop] at this
    rw [this]
    simp [holding, full, CHMode.nameLens]

theorem getLen_full {m : CHMode} {p : List Byte} (h : p.length ≤ 255) : (full m p).getLen = p.length := by
  simp only [ChainHashData.getLen, full, Bytes.len]; omega

/-- the last steps of `rdChainHash` -/
theorem rdChain_end {m : CHMode} {n : UInt64} {p : List Byte} {k dblen : Nat} (l : List Byte) (hp : p.length = k)
    (hk : k ≤ 255) :
    ((do
      Par.lift (Res.assert ((full m p).getLen == dblen))
      Par.lift (Res.assert (k == dblen))
      pure (ChainHash.make m n (some (full m p))) : Par (List Byte) ChainHash)) l =
      if k = dblen then .ok (.val (ChainHash.make m n (some (full m p))) l) else .fatal .abort := by
  by_cases h : k = dblen
  · rw [if_pos h]
    have e1 : Res.assert ((full m p).getLen == dblen) = .ok () := by
      rw [getLen_full (by omega)]; simp [Res.assert, hp, h]
    have e2 : Res.assert (k == dblen) = .ok () := by simp [Res.assert, h]
    rw [e1, Par.bind_val_eq (Par.lift_ok _ _), e2, Par.bind_val_eq (Par.lift_ok _ _)]; rfl
  · rw [if_neg h]
    have e1 : Res.assert ((full m p).getLen == dblen) = .fatal .abort := by
      rw [getLen_full (by omega)]; simp [Res.assert, hp, h]
    rw [e1]; exact Par.bind_fatal_eq (Par.lift_fatal _ _)

theorem rdChainHash_start (m : CHMode) (n : UInt64) (len : Byte) (l : List Byte) :
    rdChainHash rdList (m.toByte :: (num8 n.toNat ++ len :: l)) =
      (do let (c, k) ← rdParts rdList len.toNat m.nameLens (ChainHashData.new m) 0
          Par.lift (Res.assert (c.getLen == len.toNat))
          Par.lift (Res.assert (k == len.toNat))
          pure (ChainHash.make m n (some c)) : Par (List Byte) ChainHash) l := by
  unfold rdChainHash
  rw [Par.bind_val_eq (rdByte_cons _ _), CHMode.ofByte_toByte]
  simp only
  rw [Par.bind_val_eq (rdLong_append n.toNat_lt _), UInt64.ofNat_toNat, Par.bind_val_eq (rdByte_cons _ _)]

theorem ofNat_len {len : Byte} {p : List Byte} (h : p.length = len.toNat) : UInt8.ofNat p.length = len := by
  rw [h, UInt8.ofNat_toNat]

theorem len_ofNat {p : List Byte} (h : p.length ≤ 255) : (UInt8.ofNat p.length).toNat = p.length := by
  rw [UInt8.toNat_ofNat', Nat.mod_eq_of_lt (by omega)]

theorem len_ofNat' {α : Type} {p : List α} (h : p.length ≤ 255) : (UInt8.ofNat p.length).toNat = p.length := by
  rw [UInt8.toNat_ofNat', Nat.mod_eq_of_lt (by omega)]

/-- exact behaviour after mode, iterations and length byte -/
theorem rdChainHash_exact (m : CHMode) (n : UInt64) (len : Byte) (l : List Byte) :
    (rdChainHash rdList (m.toByte :: (num8 n.toNat ++ len :: l)) = short ∧
      ∀ p l', l = p ++ l' → p.length = len.toNat → blockLenOk m.num len.toNat = false) ∨
    (∃ p l', l = p ++ l' ∧ p.length = len.toNat ∧ blockLenOk m.num p.length = true ∧
      rdChainHash rdList (m.toByte :: (num8 n.toNat ++ len :: l)) = .ok (.val (ChainHash.make m n (some (full m p))) l')) ∨
    ((∃ k, fixedLen m.toByte = some k ∧ len.toNat ≠ k ∧ k ≤ l.length) ∧
      rdChainHash rdList (m.toByte :: (num8 n.toNat ++ len :: l)) = .fatal .abort) := by
  have hlt := len.toNat_lt
  rw [rdChainHash_start]
  cases m with
  | normal =>
    have e := rdChain_end (m := .normal) (n := n) (p := []) (k := 0) (dblen := len.toNat) l rfl (by decide)
    have e0 : rdParts rdList len.toNat CHMode.normal.nameLens (ChainHashData.new .normal) 0 l =
        .ok (.val (full .normal [], 0) l) := rfl
    rw [Par.bind_val_eq e0]
    simp only
    rw [e]
    by_cases h : 0 = len.toNat
    · rw [if_pos h]
      exact .inr (.inl ⟨[], l, rfl, h, rfl, rfl⟩)
    · rw [if_neg h]
      exact .inr (.inr ⟨⟨0, rfl, fun hh => h hh.symm, by simp⟩, rfl⟩)
  | count =>
    rcases rdParts_count len.toNat l with ⟨h1, h2⟩ | ⟨p, l', rfl, hp, h2⟩
    · refine .inl ⟨Par.bind_stop_eq h2, ?_⟩
      intro p l' rfl hp
      simp only [CHMode.num, CHMode.toByte, blockLenOk, UInt8.reduceToNat]
      simp at h1 ⊢; omega
    · rw [Par.bind_val_eq h2]
      simp only
      rw [rdChain_end l' hp (by decide)]
      by_cases h : 8 = len.toNat
      · rw [if_pos h]
        refine .inr (.inl ⟨p, l', rfl, by omega, ?_, rfl⟩)
        rw [hp]; rfl
      · rw [if_neg h]
        exact .inr (.inr ⟨⟨8, rfl, fun hh => h hh.symm, by simp; omega⟩, rfl⟩)
  | quad =>
    rcases rdParts_quad len.toNat l with ⟨h1, h2⟩ | ⟨p, l', rfl, hp, h2⟩
    · refine .inl ⟨Par.bind_stop_eq h2, ?_⟩
      intro p l' rfl hp
      simp only [CHMode.num, CHMode.toByte, blockLenOk, UInt8.reduceToNat]
      simp at h1 ⊢; omega
    · rw [Par.bind_val_eq h2]
      simp only
      rw [rdChain_end l' hp (by decide)]
      by_cases h : 32 = len.toNat
      · rw [if_pos h]
        refine .inr (.inl ⟨p, l', rfl, by omega, ?_, rfl⟩)
        rw [hp]; rfl
      · rw [if_neg h]
        exact .inr (.inr ⟨⟨32, rfl, fun hh => h hh.symm, by simp; omega⟩, rfl⟩)
  | constSalt =>
    rcases rdParts_const len.toNat (by omega) l with ⟨h1, h2⟩ | ⟨p, l', rfl, hp, h2⟩
    · refine .inl ⟨Par.bind_stop_eq h2, ?_⟩
      intro p l' rfl hp
      simp at h1; omega
    · rw [Par.bind_val_eq h2]
      simp only
      rw [rdChain_end l' hp (by omega), if_pos rfl]
      refine .inr (.inl ⟨p, l', rfl, by omega, ?_, rfl⟩)
      simp only [CHMode.num, CHMode.toByte, blockLenOk, UInt8.reduceToNat]
      simp; omega
  | constCount =>
    rcases rdParts_constCount len.toNat (by omega) l with ⟨h1, h2⟩ | ⟨p, l', rfl, hp, h8, h2⟩
    · refine .inl ⟨Par.bind_stop_eq h2, ?_⟩
      intro p l' rfl hp
      simp only [CHMode.num, CHMode.toByte, blockLenOk, UInt8.reduceToNat]
      simp at h1 ⊢; omega
    · rw [Par.bind_val_eq h2]
      simp only
      rw [rdChain_end l' hp (by omega), if_pos rfl]
      refine .inr (.inl ⟨p, l', rfl, by omega, ?_, rfl⟩)
      simp only [CHMode.num, CHMode.toByte, blockLenOk, UInt8.reduceToNat]
      simp; omega

theorem fixedLen_mode {mode : Byte} {k : Nat} (h : fixedLen mode = some k) : ∃ m : CHMode, m.toByte = mode ∧
    (∀ len, blockLenOk m.num len = true → len = k) := by
  unfold fixedLen at h
  split at h
  · exact ⟨.normal, rfl, by cases h; simp [blockLenOk, CHMode.num, CHMode.toByte]⟩
  · exact ⟨.count, rfl, by cases h; simp [blockLenOk, CHMode.num, CHMode.toByte]⟩
  · exact ⟨.quad, rfl, by cases h; simp [blockLenOk, CHMode.num, CHMode.toByte]⟩
  · cases h

/-- a proper description is read -/
theorem rdChainHash_append (m : CHMode) (n : UInt64) (block l : List Byte) (hb : blockLenOk m.num block.length = true) :
    rdChainHash rdList ((ChainDesc.mk m.toByte n.toNat block).bytes ++ l) =
      .ok (.val (ChainHash.make m n (some (full m block))) l) := by
  have hle := blockLenOk_le hb
  have e : (ChainDesc.mk m.toByte n.toNat block).bytes ++ l =
      m.toByte :: (num8 n.toNat ++ UInt8.ofNat block.length :: (block ++ l)) := by simp [ChainDesc.bytes]
  have hlen := len_ofNat hle
  rw [e]
  rcases rdChainHash_exact m n (UInt8.ofNat block.length) (block ++ l) with ⟨-, h⟩ | ⟨p, l', h1, h2, h3, h4⟩ | ⟨⟨k, h1, h2, h3⟩, -⟩
  · have := h block l rfl hlen.symm
    rw [hlen, hb] at this; cases this
  · have : block = p ∧ l = l' := List.append_inj h1 (by omega)
    obtain ⟨rfl, rfl⟩ := this
    exact h4
  · rw [hlen] at h2
    obtain ⟨m', h5, h6⟩ := fixedLen_mode h1
    have : m' = m := by
      have := congrArg CHMode.ofByte h5
      simpa using this
    subst this
    exact absurd (h6 _ hb) h2

theorem rdChainHash_bad {l : List Byte} (h : BadChain l) : rdChainHash rdList l = .fatal .abort := by
  obtain ⟨mode, iters, len, rest, k, rfl, hi, hf, hn, hk⟩ := h
  obtain ⟨m, rfl, hm⟩ := fixedLen_mode hf
  have e : iters = (UInt64.ofNat iters).toNat := by rw [UInt64.toNat_ofNat', Nat.mod_eq_of_lt hi]
  rw [e]
  have hlt := len.toNat_lt
  rw [rdChainHash_start]
  cases m with
  | normal =>
    simp only [CHMode.toByte, fixedLen, Option.some.injEq] at hf
    subst hf
    have e := rdChain_end (m := .normal) (n := UInt64.ofNat iters) (p := []) (k := 0) (dblen := len.toNat) rest rfl (by decide)
    have e0 : rdParts rdList len.toNat CHMode.normal.nameLens (ChainHashData.new .normal) 0 rest =
        .ok (.val (full .normal [], 0) rest) := rfl
    rw [Par.bind_val_eq e0]
    simp only
    rw [e, if_neg (by omega)]
  | count =>
    simp only [CHMode.toByte, fixedLen, Option.some.injEq] at hf
    subst hf
    rcases rdParts_count len.toNat rest with ⟨h1, h2⟩ | ⟨p, l', rfl, hp, h2⟩
    · omega
    · rw [Par.bind_val_eq h2]
      simp only
      rw [rdChain_end l' hp (by decide), if_neg (by omega)]
  | quad =>
    simp only [CHMode.toByte, fixedLen, Option.some.injEq] at hf
    subst hf
    rcases rdParts_quad len.toNat rest with ⟨h1, h2⟩ | ⟨p, l', rfl, hp, h2⟩
    · omega
    · rw [Par.bind_val_eq h2]
      simp only
      rw [rdChain_end l' hp (by decide), if_neg (by omega)]
  | constSalt => simp [CHMode.toByte, fixedLen] at hf
  | constCount => simp [CHMode.toByte, fixedLen] at hf

/-- what happens at a chain hash -/
theorem rdChainHash_cases (l : List Byte) :
    (∃ c, rdChainHash rdList l = .ok (.stop c)) ∨
    (∃ (m : CHMode) (n : UInt64) (p l' : List Byte), l = (ChainDesc.mk m.toByte n.toNat p).bytes ++ l' ∧
      blockLenOk m.num p.length = true ∧ rdChainHash rdList l = .ok (.val (ChainHash.make m n (some (full m p))) l')) ∨
    (BadChain l ∧ rdChainHash rdList l = .fatal .abort) := by
  rcases l with _ | ⟨mode, l⟩
  · exact .inl ⟨_, Par.bind_stop_eq rdByte_nil⟩
  cases hm : CHMode.ofByte mode with
  | none =>
    left
    refine ⟨.ERR_CHAINHASHMODE_FORMAT_INVALID, ?_⟩
    unfold rdChainHash
    rw [Par.bind_val_eq (rdByte_cons _ _), hm]
    exact Par.fail_apply _ _
  | some m =>
    obtain rfl := CHMode.toByte_of_ofByte hm
    rcases rdLong_cases l with h | ⟨n, l, rfl, -⟩
    · left
      refine ⟨.ERR_NOT_ENOUGH_DATA, ?_⟩
      unfold rdChainHash
      rw [Par.bind_val_eq (rdByte_cons _ _), hm]
      exact Par.bind_stop_eq h
    rcases l with _ | ⟨len, l⟩
    · left
      refine ⟨.ERR_NOT_ENOUGH_DATA, ?_⟩
      unfold rdChainHash
      rw [Par.bind_val_eq (rdByte_cons _ _), hm]
      simp only
      rw [Par.bind_val_eq (rdLong_append n.toNat_lt _)]
      exact Par.bind_stop_eq rdByte_nil
    rcases rdChainHash_exact m n len l with ⟨h, -⟩ | ⟨p, l', rfl, h2, h3, h4⟩ | ⟨⟨k, h1, h2, h3⟩, h⟩
    · exact .inl ⟨_, h⟩
    · refine .inr (.inl ⟨m, n, p, l', ?_, h3, h4⟩)
      simp [ChainDesc.bytes, ofNat_len h2]
    · exact .inr (.inr ⟨⟨_, _, _, _, k, rfl, n.toNat_lt, h1, h2, h3⟩, h⟩)

/-! ### the whole header -/

/-- the chain hash with a given description -/
def toCH (c : ChainDesc) : ChainHash := mkCH ((CHMode.ofByte c.mode).getD .normal) (UInt64.ofNat c.iters) c.block

theorem descMode {c : ChainDesc} (h : c.Valid) : ∃ m : CHMode, m.toByte = c.mode := by
  have h3 := h.2.2
  unfold blockLenOk at h3
  split at h3
  · exact ⟨.normal, UInt8.toNat_inj.mp (by rw [‹c.mode.toNat = _›]; rfl)⟩
  · exact ⟨.constSalt, UInt8.toNat_inj.mp (by rw [‹c.mode.toNat = _›]; rfl)⟩
  · exact ⟨.count, UInt8.toNat_inj.mp (by rw [‹c.mode.toNat = _›]; rfl)⟩
  · exact ⟨.constCount, UInt8.toNat_inj.mp (by rw [‹c.mode.toNat = _›]; rfl)⟩
  · exact ⟨.quad, UInt8.toNat_inj.mp (by rw [‹c.mode.toNat = _›]; rfl)⟩
  · cases h3

/-- a valid description in terms of the types of the code -/
theorem desc_typed {c : ChainDesc} (h : c.Valid) : ∃ (m : CHMode) (n : UInt64),
    c = ⟨m.toByte, n.toNat, c.block⟩ ∧ toCH c = mkCH m n c.block ∧ 0 < n.toNat ∧ n.toNat ≤ maxIterations ∧
      blockLenOk m.num c.block.length = true := by
  obtain ⟨m, hm⟩ := descMode h
  have hn : (UInt64.ofNat c.iters).toNat = c.iters := by
    rw [UInt64.toNat_ofNat', Nat.mod_eq_of_lt (by have := h.2.1; omega)]
  refine ⟨m, UInt64.ofNat c.iters, ?_, ?_, by rw [hn]; exact h.1, by rw [hn]; exact h.2.1, ?_⟩
  · rw [hm, hn]
  · rw [toCH, ← hm, CHMode.ofByte_toByte]; rfl
  · rw [CHMode.num, hm]; exact h.2.2

theorem toCH_good {c : ChainDesc} (h : c.Valid) : (toCH c).Good := by
  obtain ⟨m, n, -, h2, h3, h4, h5⟩ := desc_typed h
  exact ⟨m, n, c.block, h5, h3, h4, h2⟩

theorem toCH_desc {c : ChainDesc} (h : c.Valid) : (toCH c).desc = c := by
  obtain ⟨m, n, h1, h2, -⟩ := desc_typed h
  rw [h2, h1]; rfl

/-- the header object with given contents, header bytes computed -/
def mkHeader (h : Header) : DataHeader :=
  let m := (HMode.ofByte h.hashMode).getD .sha256
  { obj m (some ⟨h.validator, m.size⟩) ⟨h.salt, m.size⟩ (h.blocks.map toBlock) (h.encBlocks.map toEnc) (toCH h.ch1)
      (toCH h.ch2) (some (UInt64.ofNat h.fileSize)) with headerBytes := ⟨h.bytes, h.length⟩ }

theorem valid_hmode {b : Byte} (h : b = 1 ∨ b = 2 ∨ b = 3) : ∃ m : HMode, HMode.ofByte b = some m ∧ m.toByte = b := by
  rcases h with rfl | rfl | rfl
  · exact ⟨.sha256, rfl, rfl⟩
  · exact ⟨.sha384, rfl, rfl⟩
  · exact ⟨.sha512, rfl, rfl⟩

theorem ofByte_valid {b : Byte} {m : HMode} (h : HMode.ofByte b = some m) : b = 1 ∨ b = 2 ∨ b = 3 := by
  have := HMode.toByte_of_ofByte h
  subst this
  cases m
  · exact .inl rfl
  · exact .inr (.inl rfl)
  · exact .inr (.inr rfl)

theorem map_toBlock (bs : List (Byte × List Byte)) : (bs.map toBlock).map (fun b => (b.type, b.data.data)) = bs := by
  rw [List.map_map, show ((fun b : DataBlock => (b.type, b.data.data)) ∘ toBlock) = id from rfl, List.map_id]

theorem map_toEnc (bs : List (Byte × Byte × List Byte)) :
    (bs.map toEnc).map (fun b => (b.block.type, b.encLen, b.block.data.data)) = bs := by
  rw [List.map_map, show ((fun b : EncDataBlock => (b.block.type, b.encLen, b.block.data.data)) ∘ toEnc) = id from rfl,
    List.map_id]

theorem obj_inv {m : HMode} {v : Option Bytes} {s : Bytes} {bs es c1 c2 fs} (hv : ∀ x, v = some x → x.data.length = m.size)
    (hs : s.data.length = m.size) (hb : BlocksOk bs) (hbl : bs.length ≤ 255) (he : EncOk es) (hel : es.length ≤ 255)
    (h1 : c1 = ChainHash.default ∨ c1.Good) (h2 : c2 = ChainHash.default ∨ c2.Good) :
    DHInv (obj m v s (bs.map toBlock) (es.map toEnc) c1 c2 fs) where
  hm := ⟨m, rfl, rfl⟩
  fm := .inr rfl
  validator := hv
  salt := ⟨s, rfl, hs⟩
  ch1 := h1
  ch2 := h2
  decCount := by simpa [obj] using hbl
  decLen := by
    intro b hb'
    obtain ⟨x, hx, rfl⟩ := List.mem_map.mp hb'
    exact (hb x hx).2
  encCount := by simpa [obj] using hel
  encLen := by
    intro b hb'
    obtain ⟨x, hx, rfl⟩ := List.mem_map.mp hb'
    exact he x hx
  blen := rfl
  bytes := .inl rfl

theorem obj_complete {m : HMode} {v : Bytes} {s : Bytes} {dec enc c1 c2 fs} (h1 : c1.Good) (h2 : c2.Good) :
    (obj m (some v) s dec enc c1 c2 fs).isComplete = true := by
  simp [DataHeader.isComplete, DataHeaderParts.isComplete, obj, h1.val, h2.val]

theorem obj_contents {m : HMode} {v s : List Byte} {cap cap' : Nat} {bs es} {c1 c2 : ChainDesc} {n : UInt64} (h1 : c1.Valid)
    (h2 : c2.Valid) :
    (obj m (some ⟨v, cap⟩) ⟨s, cap'⟩ (bs.map toBlock) (es.map toEnc) (toCH c1) (toCH c2) (some n)).contents =
      ⟨n.toNat, 1, m.toByte, bs, c1, c2, v, s, es⟩ := by
  simp only [DataHeader.contents, obj, map_toBlock, map_toEnc, toCH_desc h1, toCH_desc h2, Option.getD_some]

theorem contents_mkHeader {h : Header} (hv : h.Valid) : (mkHeader h).contents = h := by
  obtain ⟨m, hm, hm'⟩ := valid_hmode hv.hashMode
  have e : (mkHeader h).contents = (obj m (some ⟨h.validator, m.size⟩) ⟨h.salt, m.size⟩ (h.blocks.map toBlock)
      (h.encBlocks.map toEnc) (toCH h.ch1) (toCH h.ch2) (some (UInt64.ofNat h.fileSize))).contents := by
    rw [mkHeader, hm]; rfl
  rw [e, obj_contents hv.ch1 hv.ch2, hm', ← hv.fileMode, UInt64.toNat_ofNat', Nat.mod_eq_of_lt hv.size64]

/-- a chain hash as the parser builds it is set, or refused for its number of iterations -/
theorem obj_setCh1 {m v s dec enc c1 c2 fs} {cm : CHMode} {n : UInt64} {p : List Byte}
    (hb : blockLenOk cm.num p.length = true) :
    (obj m v s dec enc c1 c2 fs).setChainHash1 (ChainHash.make cm n (some (full cm p))) =
      if (ChainDesc.mk cm.toByte n.toNat p).Valid then
        .ok (obj m v s dec enc (toCH ⟨cm.toByte, n.toNat, p⟩) c2 fs) else .exn .invalidArgument := by
  by_cases hv : (ChainDesc.mk cm.toByte n.toNat p).Valid
  · rw [if_pos hv]
    have e : ChainHash.make cm n (some (full cm p)) = toCH ⟨cm.toByte, n.toNat, p⟩ := by
      rw [full, mkCH_eq_make hv.1 hv.2.1, toCH, CHMode.ofByte_toByte, UInt64.ofNat_toNat]; rfl
    rw [e]
    unfold DataHeader.setChainHash1
    rw [(toCH_good hv).val, (toCH_good hv).assign]
    rfl
  · rw [if_neg hv]
    have hval : (ChainHash.make cm n (some (full cm p))).val = false := by
      simp only [ChainHash.make, chainHashValid]
      by_cases h1 : 0 < n.toNat ∧ n.toNat ≤ maxIterations
      · exact absurd ⟨h1.1, h1.2, hb⟩ hv
      · rw [Bool.and_eq_false_iff]
        left
        simp only [Bool.and_eq_false_iff, decide_eq_false_iff_not]
        omega
    unfold DataHeader.setChainHash1
    rw [hval]; rfl

theorem obj_setCh2 {m v s dec enc c1 c2 fs} {cm : CHMode} {n : UInt64} {p : List Byte}
    (hb : blockLenOk cm.num p.length = true) :
    (obj m v s dec enc c1 c2 fs).setChainHash2 (ChainHash.make cm n (some (full cm p))) =
      if (ChainDesc.mk cm.toByte n.toNat p).Valid then
        .ok (obj m v s dec enc c1 (toCH ⟨cm.toByte, n.toNat, p⟩) fs) else .exn .invalidArgument := by
  by_cases hv : (ChainDesc.mk cm.toByte n.toNat p).Valid
  · rw [if_pos hv]
    have e : ChainHash.make cm n (some (full cm p)) = toCH ⟨cm.toByte, n.toNat, p⟩ := by
      rw [full, mkCH_eq_make hv.1 hv.2.1, toCH, CHMode.ofByte_toByte, UInt64.ofNat_toNat]; rfl
    rw [e]
    unfold DataHeader.setChainHash2
    rw [(toCH_good hv).val, (toCH_good hv).assign]
    rfl
  · rw [if_neg hv]
    have hval : (ChainHash.make cm n (some (full cm p))).val = false := by
      simp only [ChainHash.make, chainHashValid]
      by_cases h1 : 0 < n.toNat ∧ n.toNat ≤ maxIterations
      · exact absurd ⟨h1.1, h1.2, hb⟩ hv
      · rw [Bool.and_eq_false_iff]
        left
        simp only [Bool.and_eq_false_iff, decide_eq_false_iff_not]
        omega
    unfold DataHeader.setChainHash2
    rw [hval]; rfl

theorem obj_setValidator {m v s dec enc c1 c2 fs} {b : Bytes} (hb : b.data.length = m.size) :
    (obj m v s dec enc c1 c2 fs).setValidPasswordHashBytes b = .ok (obj m (some b) s dec enc c1 c2 fs) := by
  simp only [DataHeader.setValidPasswordHashBytes, DataHeaderParts.setValidPasswordHash, DataHeaderParts.getHashSize, obj,
    DataHeaderParts.get, Res.bind_ok]
  rw [if_pos (show m.size = b.len from hb.symm)]; rfl

theorem obj_setSalt {m v s dec enc c1 c2 fs} {b : Bytes} (hb : b.data.length = m.size) :
    (obj m v s dec enc c1 c2 fs).setEncSalt b = .ok (obj m v b dec enc c1 c2 fs) := by
  simp only [DataHeader.setEncSalt, DataHeaderParts.setEncSalt, DataHeaderParts.getHashSize, obj,
    DataHeaderParts.get, Res.bind_ok]
  rw [if_pos (show m.size = b.len from hb.symm)]; rfl

/-- length of the part of a header before its encrypted blocks -/
def headLen (h : Header) : Nat := { h with encBlocks := [] }.length

theorem headLen_le (h : Header) : headLen h ≤ h.length := by
  simp only [headLen, Header.length, List.length_nil]; omega

theorem obj_setFileSize {m : HMode} {v s : List Byte} {bs} {c1 c2 : ChainDesc} (n : UInt64) (h1 : c1.Valid)
    (h2 : c2.Valid) (hv : v.length = m.size) (hs : s.length = m.size) (hb : BlocksOk bs) (hbl : bs.length ≤ 255) :
    (obj m (some ⟨v, m.size⟩) ⟨s, m.size⟩ (bs.map toBlock) [] (toCH c1) (toCH c2) none).setFileSize n =
      if n.toNat < headLen ⟨n.toNat, 1, m.toByte, bs, c1, c2, v, s, []⟩ then .exn .invalidArgument
      else .ok (obj m (some ⟨v, m.size⟩) ⟨s, m.size⟩ (bs.map toBlock) [] (toCH c1) (toCH c2) (some n)) := by
  have hi : DHInv (obj m (some ⟨v, m.size⟩) ⟨s, m.size⟩ (bs.map toBlock) ([].map toEnc) (toCH c1) (toCH c2) none) :=
    obj_inv (by intro x hx; cases hx; exact hv) hs hb hbl (by simp [EncOk]) (by simp) (.inr (toCH_good h1))
      (.inr (toCH_good h2))
  rw [List.map_nil] at hi
  rw [setFileSize_eq hi, if_pos (obj_complete (toCH_good h1) (toCH_good h2))]
  have e : (obj m (some ⟨v, m.size⟩) ⟨s, m.size⟩ (bs.map toBlock) [] (toCH c1) (toCH c2) none).contents.length =
      headLen ⟨n.toNat, 1, m.toByte, bs, c1, c2, v, s, []⟩ := by
    simp only [DataHeader.contents, obj, map_toBlock, toCH_desc h1, toCH_desc h2, headLen, Header.length, List.map_nil]
  rw [e]
  rfl

theorem obj_calc {m : HMode} {v s : List Byte} {bs es} {c1 c2 : ChainDesc} (n : UInt64) (h1 : c1.Valid) (hs : Hashes)
    (h2 : c2.Valid) (hv : v.length = m.size) (hsl : s.length = m.size) (hb : BlocksOk bs) (hbl : bs.length ≤ 255)
    (he : EncOk es) (hel : es.length ≤ 255) :
    (obj m (some ⟨v, m.size⟩) ⟨s, m.size⟩ (bs.map toBlock) (es.map toEnc) (toCH c1) (toCH c2) (some n)).calcHeaderBytes! hs
        (Bytes.empty 0) (fun _ => 0) =
      if n.toNat < (Header.mk n.toNat 1 m.toByte bs c1 c2 v s es).length then .exn .invalidArgument
      else .ok (mkHeader ⟨n.toNat, 1, m.toByte, bs, c1, c2, v, s, es⟩) := by
  have hi : DHInv (obj m (some ⟨v, m.size⟩) ⟨s, m.size⟩ (bs.map toBlock) (es.map toEnc) (toCH c1) (toCH c2) (some n)) :=
    obj_inv (by intro x hx; cases hx; exact hv) hsl hb hbl he hel (.inr (toCH_good h1))
      (.inr (toCH_good h2))
  have hc := obj_complete (m := m) (v := ⟨v, m.size⟩) (s := ⟨s, m.size⟩) (dec := bs.map toBlock) (enc := es.map toEnc)
    (fs := some n) (toCH_good h1) (toCH_good h2)
  have e := obj_contents (m := m) (v := v) (s := s) (cap := m.size) (cap' := m.size) (bs := bs) (es := es) (n := n) h1 h2
  unfold DataHeader.calcHeaderBytes!
  by_cases hn : n.toNat < (Header.mk n.toNat 1 m.toByte bs c1 c2 v s es).length
  · rw [if_pos hn]
    have : (obj m (some ⟨v, m.size⟩) ⟨s, m.size⟩ (bs.map toBlock) (es.map toEnc) (toCH c1) (toCH c2) (some n)).calcChecks =
        .exn .invalidArgument := by
      rw [calcChecks_eq hi, if_pos hc, e]
      simp only [obj]
      rw [if_pos hn]
    unfold DataHeader.calcHeaderBytes
    rw [this]; rfl
  · rw [if_neg hn, calcHeaderBytes_ok hi hc (n := n) rfl (by rw [e]; omega) rfl, e]
    simp only [Res.bind_ok, mkHeader, HMode.ofByte_toByte, UInt64.ofNat_toNat]
    rfl

theorem start_new {σ : Type} {r : Rand} (hr : r.good = true) (b : Byte) (l : σ) :
    Par.onExn (Par.lift (DataHeader.new b r)) (catchInvalid .ERR_HASHMODE_INVALID) l = match HMode.ofByte b with
      | none => .ok (.stop .ERR_HASHMODE_INVALID)
      | some m => .ok (.val ⟨⟨none, some m, none, some ⟨r.take m.size, m.size⟩, [], [], ChainHash.default, ChainHash.default⟩,
          m.size, ⟨[], 0⟩, none, 0⟩ l) := by
  rw [new_good b r hr]
  cases HMode.ofByte b with
  | none => exact Par.onExn_caught (Par.lift_exn _ _) rfl
  | some m => exact Par.onExn_ok (Par.lift_ok _ _)

theorem start_mode {σ : Type} {m : HMode} {salt : Bytes} (b : Byte) (l : σ) :
    Par.onExn (Par.lift (DataHeader.setFileDataMode ⟨⟨none, some m, none, some salt, [], [], ChainHash.default,
      ChainHash.default⟩, m.size, ⟨[], 0⟩, none, 0⟩ b)) (catchInvalid .ERR_FILEMODE_INVALID) l =
      if b = 1 then .ok (.val (obj m none salt [] [] ChainHash.default ChainHash.default none) l)
      else .ok (.stop .ERR_FILEMODE_INVALID) := by
  by_cases hb : b = 1
  · subst hb
    rw [if_pos rfl]; rfl
  · rw [if_neg hb]
    cases h : DataHeader.setFileDataMode ⟨⟨none, some m, none, some salt, [], [], ChainHash.default,
      ChainHash.default⟩, m.size, ⟨[], 0⟩, none, 0⟩ b with
    | ok d => exact absurd (setFileMode_ok h).1 hb
    | exn e =>
      have : e = .invalidArgument := by
        unfold DataHeader.setFileDataMode DataHeaderParts.setFileDataMode at h
        split at h
        · cases h
        · cases h; rfl
      subst this
      exact Par.onExn_caught (Par.lift_exn _ _) rfl
    | fatal f =>
      unfold DataHeader.setFileDataMode DataHeaderParts.setFileDataMode at h
      split at h <;> cases h

/-- a proper header is parsed -/
theorem rdContent_append {hs : Hashes} {r : Rand} (hr : r.good = true) {h : Header} (hv : h.Valid) (data : List Byte) :
    rdContent rdList hs r (UInt64.ofNat h.fileSize) (h.content ++ data) = .ok (.val (mkHeader h) data) := by
  obtain ⟨fsz, fm, hm, bs, c1, c2, v, s, es⟩ := h
  obtain ⟨m, hm1, rfl⟩ := valid_hmode hv.hashMode
  have hfm := hv.fileMode
  simp only at hfm; subst hfm
  have h64 := hv.size64
  have hbc := hv.blockCount
  have hbl := hv.blockLen
  have hc1 := hv.ch1
  have hc2 := hv.ch2
  have hvl := hv.validator
  have hsl := hv.salt
  have hec := hv.encCount
  have hel := hv.encLen
  have hsz := hv.size
  simp only [digestSize_toByte] at *
  have hms := m.size_le
  obtain ⟨m1, n1, e1, -, -, -, hb1⟩ := desc_typed hc1
  obtain ⟨m2, n2, e2, -, -, -, hb2⟩ := desc_typed hc2
  have hn : (UInt64.ofNat fsz).toNat = fsz := by rw [UInt64.toNat_ofNat', Nat.mod_eq_of_lt h64]
  have e : (Header.content ⟨fsz, 1, m.toByte, bs, c1, c2, v, s, es⟩) ++ data = 1 :: m.toByte :: UInt8.ofNat bs.length ::
      (blockBytes bs ++ (c1.bytes ++ (c2.bytes ++ (v ++ (s ++ UInt8.ofNat es.length :: (encBytes es ++ data)))))) := by
    simp [Header.content]
  rw [e]
  unfold rdContent
  rw [Par.bind_val_eq (rdByte_cons _ _), Par.bind_val_eq (rdByte_cons _ _),
    Par.bind_val_eq (by rw [start_new hr, hm1]), Par.bind_val_eq (by rw [start_mode, if_pos rfl]),
    Par.bind_val_eq (rdByte_cons _ _), len_ofNat' hbc]
  have b := rdBlocks_append (m := m) (v := none) (s := ⟨r.take m.size, m.size⟩) (enc := []) (c1 := ChainHash.default)
    (c2 := ChainHash.default) (fs := none) (by simp) bs [] 0
    (c1.bytes ++ (c2.bytes ++ (v ++ (s ++ UInt8.ofNat es.length :: (encBytes es ++ data))))) hbl (by simp [BlocksOk]) (by simpa using hbc)
  rw [List.map_nil, Nat.add_zero, List.nil_append, rdBlocks, Par.pure_apply] at b
  have k1 := rdChainHash_append m1 n1 c1.block (c2.bytes ++ (v ++ (s ++ UInt8.ofNat es.length :: (encBytes es ++ data)))) hb1
  have k2 := rdChainHash_append m2 n2 c2.block (v ++ (s ++ UInt8.ofNat es.length :: (encBytes es ++ data))) hb2
  rw [← e1] at k1
  rw [← e2] at k2
  rw [Par.bind_val_eq b, Par.bind_val_eq k1,
    Par.bind_val_eq (Par.onExn_ok (by rw [obj_setCh1 hb1, ← e1, if_pos hc1, Par.lift_ok])),
    Par.bind_val_eq k2,
    Par.bind_val_eq (Par.onExn_ok (by rw [obj_setCh2 hb2, ← e2, if_pos hc2, Par.lift_ok]))]
  simp only [obj_hashSize]
  rw [Par.bind_val_eq (rd_append hvl (Nat.le_refl _) (by omega)),
    Par.bind_val_eq (Par.onExn_ok (by rw [obj_setValidator (by exact hvl), Par.lift_ok]))]
  simp only [obj_hashSize]
  rw [Par.bind_val_eq (rd_append hsl (Nat.le_refl _) (by omega)),
    Par.bind_val_eq (Par.onExn_ok (by rw [obj_setSalt (by exact hsl), Par.lift_ok])),
    Par.bind_val_eq (Par.onExn_ok (by
      rw [obj_setFileSize _ hc1 hc2 hvl hsl hbl hbc, if_neg, Par.lift_ok]
      have := headLen_le ⟨fsz, 1, m.toByte, bs, c1, c2, v, s, es⟩
      rw [hn]
      simp only [headLen] at this ⊢
      omega)),
    Par.bind_val_eq (rdByte_cons _ _), len_ofNat' hec]
  have b2 := rdEncBlocks_append (m := m) (v := some ⟨v, m.size⟩) (s := ⟨s, m.size⟩) (c1 := toCH c1)
    (c2 := toCH c2) (fs := some (UInt64.ofNat fsz)) hbl hbc es [] 0 data hel (by simpa using hec)
  rw [List.map_nil, Nat.add_zero, List.nil_append, rdEncBlocks, Par.pure_apply] at b2
  rw [Par.bind_val_eq b2]
  refine Par.onExn_ok ?_
  rw [obj_calc _ hc1 hs hc2 hvl hsl hbl hbc hel hec, hn, if_neg (by omega), Par.lift_ok]

end HeaderParse
end Verif
