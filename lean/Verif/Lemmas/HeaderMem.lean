import Verif.Lemmas.HeaderExact

namespace Verif
open Spec
namespace HeaderParse

variable {file : Bytes}

/-- the memory parser read `a` from position `i` and went to `j` -/
def Reads (file : Bytes) (i : Nat) (a : List Byte) (j : Nat) : Prop :=
  j = (i + a.length) % 2 ^ 16 ∧
    (i + a.length < 2 ^ 16 → file.data.drop i = a ++ file.data.drop (i + a.length))

theorem Reads.nil (i : Nat) (h : i < 2 ^ 16) : Reads file i [] i := by
  refine ⟨?_, by simp⟩
  rw [List.length_nil, Nat.add_zero, Nat.mod_eq_of_lt h]

theorem Reads.trans {i j k : Nat} {a b : List Byte} (h1 : Reads file i a j) (h2 : Reads file j b k) :
    Reads file i (a ++ b) k := by
  obtain ⟨rfl, ha⟩ := h1
  obtain ⟨rfl, hb⟩ := h2
  refine ⟨by rw [List.length_append]; omega, ?_⟩
  intro h
  rw [List.length_append] at h ⊢
  have e : (i + a.length) % 2 ^ 16 = i + a.length := Nat.mod_eq_of_lt (by omega)
  rw [ha (by omega)]
  rw [e] at hb
  rw [hb (by omega), List.append_assoc, Nat.add_assoc]

theorem Reads.lt {i j : Nat} {a : List Byte} (h : Reads file i a j) : j < 2 ^ 16 := by
  rw [h.1]; exact Nat.mod_lt _ (by decide)

/-! ### inversion -/

variable {α β : Type}

theorem bind_val {p : Par Nat α} {f : α → Par Nat β} {i j : Nat} {b : β} (h : (p >>= f) i = .ok (.val b j)) :
    ∃ a k, p i = .ok (.val a k) ∧ f a k = .ok (.val b j) := by
  rw [Par.bind_apply] at h
  split at h
  · exact ⟨_, _, ‹_›, h⟩
  · cases h
  · cases h
  · cases h

theorem lift_val {x : Res α} {i j : Nat} {a : α} (h : (Par.lift x : Par Nat α) i = .ok (.val a j)) : x = .ok a ∧ j = i := by
  cases x with
  | ok b => cases h; exact ⟨rfl, rfl⟩
  | exn e => cases h
  | fatal f => cases h

theorem onExn_val {p : Par Nat α} {c : Exn → Option ErrorCode} {i j : Nat} {a : α}
    (h : Par.onExn p c i = .ok (.val a j)) : p i = .ok (.val a j) := by
  unfold Par.onExn at h
  split at h
  · rename_i hp; rw [hp]; exact h
  · split at h <;> cases h
  · cases h

theorem pure_val {a b : α} {i j : Nat} (h : (pure a : Par Nat α) i = .ok (.val b j)) : b = a ∧ j = i := by
  cases h; exact ⟨rfl, rfl⟩

theorem fail_val {c : ErrorCode} {i j : Nat} {a : α} : (Par.fail c : Par Nat α) i ≠ .ok (.val a j) := by
  intro h; cases h

theorem cp_val {n i j : Nat} {a : List Byte} (h : cp file n i = .ok (.val a j)) : a.length = n ∧ Reads file i a j := by
  unfold cp at h
  cases hc : file.copySubBytes i (i + n) with
  | exn e => rw [hc] at h; cases h
  | fatal e => rw [hc] at h; cases h
  | ok b =>
    rw [hc] at h
    unfold Bytes.copySubBytes at hc
    rw [if_neg (by omega)] at hc
    split at hc
    · cases hc
    · rename_i hl
      cases hc
      simp only [Nat.add_sub_cancel_left] at h
      cases h
      have : (List.take n (List.drop i file.data)).length = n := by simp; omega
      refine ⟨this, by rw [this], ?_⟩
      intro _
      rw [this, ← List.drop_drop, List.take_append_drop]

theorem cpByte_val {i j : Nat} {x : Byte} (h : cpByte file i = .ok (.val x j)) : Reads file i [x] j := by
  unfold cpByte at h
  obtain ⟨a, k, h1, h2⟩ := bind_val h
  obtain ⟨hl, hr⟩ := cp_val h1
  match a, hl with
  | [y], _ =>
    obtain ⟨rfl, rfl⟩ := pure_val h2
    exact hr

theorem cpLong_val {i j : Nat} {n : UInt64} (h : cpLong file i = .ok (.val n j)) : Reads file i (num8 n.toNat) j := by
  unfold cpLong at h
  obtain ⟨a, k, h1, h2⟩ := bind_val h
  obtain ⟨hl, hr⟩ := cp_val h1
  rw [toLong_eq _ (by simp; omega)] at h2
  obtain ⟨h3, rfl⟩ := lift_val h2
  cases h3
  rw [ofNat_beValue a (by omega), num8_beValue hl]
  exact hr

theorem cpBlocks_val {m v s enc c1 c2 fs} (he : enc.length ≤ 255) (k : Nat) :
    ∀ (bs0 : List (Byte × List Byte)) (i j : Nat) (d : DataHeader), i < 2 ^ 16 → BlocksOk bs0 → bs0.length + k ≤ 255 →
      cpBlocks file k (obj m v s (bs0.map toBlock) enc c1 c2 fs) i = .ok (.val d j) →
      ∃ bs, BlocksOk bs ∧ bs.length = k ∧ d = obj m v s ((bs0 ++ bs).map toBlock) enc c1 c2 fs ∧
        Reads file i (blockBytes bs) j := by
  induction k with
  | zero =>
    intro bs0 i j d hi hb hk h
    obtain ⟨rfl, rfl⟩ := pure_val h
    exact ⟨[], by simp [BlocksOk], rfl, by simp, Reads.nil _ hi⟩
  | succ k ih =>
    intro bs0 i j d hi hb hk h
    rw [cpBlocks] at h
    obtain ⟨t, i1, h1, h⟩ := bind_val h
    obtain ⟨len, i2, h2, h⟩ := bind_val h
    obtain ⟨data, i3, h3, h⟩ := bind_val h
    obtain ⟨d1, i4, h4, h⟩ := bind_val h
    have r1 := cpByte_val h1
    have r2 := cpByte_val h2
    obtain ⟨l3, r3⟩ := cp_val h3
    obtain ⟨hq, hj⟩ := lift_val h4
    clear h4; have h4 := hq; clear hq; subst hj
    obtain ⟨b, h5, h6⟩ := Res.bind_eq_ok.mp h4
    obtain ⟨rfl, h7, h8⟩ := DataBlock.setData_ok h5
    simp only at h7 h8
    have e : { ({ DataBlock.default with type := t } : DataBlock) with data := ⟨data, len.toNat⟩ } = toBlock (t, data) := by
      simp [toBlock, l3]
    rw [e, obj_addBlock hb (by omega) he (t, data) h8] at h6
    cases h6
    have hx : BlocksOk [(t, data)] := by
      intro b hb; simp only [List.mem_singleton] at hb; subst hb; exact ⟨h7, h8⟩
    have hb1 : BlocksOk (bs0 ++ [(t, data)]) := by
      intro b hb'
      rcases List.mem_append.mp hb' with h | h
      · exact hb b h
      · exact hx b h
    obtain ⟨bs, g1, g2, g3, g4⟩ := ih _ _ _ _ r3.lt hb1 (by simp; omega) h
    refine ⟨(t, data) :: bs, ?_, by simp [g2], by rw [g3]; simp, ?_⟩
    · intro b hb'
      rcases List.mem_cons.mp hb' with rfl | h
      · exact ⟨h7, h8⟩
      · exact g1 b h
    · have : blockBytes ((t, data) :: bs) = [t] ++ ([len] ++ (data ++ blockBytes bs)) := by
        simp [blockBytes, ofNat_len l3]
      rw [this]
      exact r1.trans (r2.trans (r3.trans g4))

theorem cpEncBlocks_val {m v s bs c1 c2 fs} (hb : BlocksOk bs) (hbl : bs.length ≤ 255) (k : Nat) :
    ∀ (es0 : List (Byte × Byte × List Byte)) (i j : Nat) (d : DataHeader), i < 2 ^ 16 → es0.length + k ≤ 255 →
      cpEncBlocks file k (obj m v s (bs.map toBlock) (es0.map toEnc) c1 c2 fs) i = .ok (.val d j) →
      ∃ es, EncOk es ∧ es.length = k ∧ d = obj m v s (bs.map toBlock) ((es0 ++ es).map toEnc) c1 c2 fs ∧
        Reads file i (encBytes es) j := by
  induction k with
  | zero =>
    intro es0 i j d hi hk h
    obtain ⟨rfl, rfl⟩ := pure_val h
    exact ⟨[], by simp [EncOk], rfl, by simp, Reads.nil _ hi⟩
  | succ k ih =>
    intro es0 i j d hi hk h
    rw [cpEncBlocks] at h
    obtain ⟨t, i1, h1, h⟩ := bind_val h
    obtain ⟨len, i2, h2, h⟩ := bind_val h
    obtain ⟨data, i3, h3, h⟩ := bind_val h
    obtain ⟨d1, i4, h4, h⟩ := bind_val h
    have r1 := cpByte_val h1
    have r2 := cpByte_val h2
    obtain ⟨l3, r3⟩ := cp_val h3
    obtain ⟨hq, hj⟩ := lift_val h4
    clear h4; have h4 := hq; clear hq; subst hj
    obtain ⟨b, h5, h6⟩ := Res.bind_eq_ok.mp h4
    obtain ⟨h7, rfl⟩ := createEnc_ok h5
    have e : (⟨⟨t, ⟨data, 255⟩⟩, len⟩ : EncDataBlock) = toEnc (t, len, data) := rfl
    rw [e, obj_addEnc hb hbl (by omega) (t, len, data) l3] at h6
    cases h6
    obtain ⟨es, g1, g2, g3, g4⟩ := ih _ _ _ _ r3.lt (by simp; omega) h
    refine ⟨(t, len, data) :: es, ?_, by simp [g2], by rw [g3]; simp, ?_⟩
    · intro b hb'
      rcases List.mem_cons.mp hb' with rfl | h
      · exact l3
      · exact g1 b h
    · have : encBytes ((t, len, data) :: es) = [t] ++ ([len] ++ (data ++ encBytes es)) := by
        simp [encBytes]
      rw [this]
      exact r1.trans (r2.trans (r3.trans g4))

/-! ### chain hashes -/

theorem addBytes_ok_acc {m : CHMode} {acc : List (List Byte)} (h : PartsFit m acc) {b : Bytes} {c : ChainHashData}
    (hc : (holding m acc).addBytes b = .ok c) :
    acceptable m.num acc b.data = true ∧ c = holding m (acc ++ [b.data]) ∧ PartsFit m (acc ++ [b.data]) := by
  cases ha : acceptable m.num acc b.data with
  | true =>
    obtain ⟨h1, h2⟩ := addBytes_accept h b ha
    rw [h1] at hc; cases hc
    exact ⟨rfl, rfl, h2⟩
  | false =>
    rcases addBytes_refuse h b ha with e | e | e <;> rw [e] at hc <;> cases hc

theorem cpStar_val {dblen n i j : Nat} {a : List Byte} (hi : i < 2 ^ 16) (hd : dblen ≤ 255) (hn : n ≤ 255)
    (hf : file.data.length < 2 ^ 63) (h : cpStar file dblen n i = .ok (.val a j)) :
    j = i ∧ n + a.length = dblen ∧ a = (file.data.drop i).take a.length ∧ i + a.length ≤ file.data.length := by
  unfold cpStar at h
  simp only at h
  cases hc : file.copySubBytes i (((i : Int) + ((dblen : Int) - n)) % 2 ^ 64).toNat with
  | exn e => rw [hc] at h; cases h
  | fatal e => rw [hc] at h; cases h
  | ok b =>
    rw [hc] at h
    unfold Bytes.copySubBytes at hc
    split at hc
    · cases hc
    · split at hc
      · cases hc
      · rename_i h1 h2
        cases hc
        simp only at h
        cases h
        have e : (((i : Int) + ((dblen : Int) - n)) % 2 ^ 64).toNat = i + dblen - n := by omega
        rw [e] at h1 h2 ⊢
        have hl : (List.take (i + dblen - n - i) (List.drop i file.data)).length = i + dblen - n - i := by simp; omega
        refine ⟨rfl, by rw [hl]; omega, by rw [hl], by rw [hl]; omega⟩

theorem cpParts_fixed_val {dblen : Nat} {nm : String} {nls : List NameLen} {m : CHMode} {acc : List (List Byte)} {n i j : Nat}
    {x : ChainHashData × Nat} (hp : PartsFit m acc)
    (h : cpParts file dblen (⟨nm, 8⟩ :: nls) (holding m acc) n i = .ok (.val x j)) :
    ∃ p k, p.length = 8 ∧ Reads file i p k ∧ PartsFit m (acc ++ [p]) ∧
      cpParts file dblen nls (holding m (acc ++ [p])) (n + 8) k = .ok (.val x j) := by
  rw [cpParts] at h
  simp only at h
  rw [if_pos (by decide)] at h
  obtain ⟨p, k, h1, h⟩ := bind_val h
  obtain ⟨c, k', h2, h⟩ := bind_val h
  obtain ⟨hl, hr⟩ := cp_val (onExn_val h1)
  obtain ⟨h3, rfl⟩ := lift_val (onExn_val h2)
  obtain ⟨-, rfl, h5⟩ := addBytes_ok_acc hp h3
  exact ⟨p, _, hl, hr, h5, h⟩

theorem cpParts_star_val {dblen : Nat} {nm : String} {m : CHMode} {acc : List (List Byte)} {n i j : Nat}
    {x : ChainHashData × Nat} (hp : PartsFit m acc) (hi : i < 2 ^ 16) (hd : dblen ≤ 255) (hn : n ≤ 255)
    (hf : file.data.length < 2 ^ 63)
    (h : cpParts file dblen [⟨nm, 0⟩] (holding m acc) n i = .ok (.val x j)) :
    ∃ p, n + p.length = dblen ∧ j = i ∧ PartsFit m (acc ++ [p]) ∧ x = (holding m (acc ++ [p]), dblen) := by
  rw [cpParts] at h
  simp only at h
  rw [if_neg (by decide)] at h
  obtain ⟨p, k, h1, h⟩ := bind_val h
  obtain ⟨c, k', h2, h⟩ := bind_val h
  obtain ⟨rfl, h4, -⟩ := cpStar_val hi hd hn hf (onExn_val h1)
  obtain ⟨h3, rfl⟩ := lift_val (onExn_val h2)
  obtain ⟨-, rfl, h5⟩ := addBytes_ok_acc hp h3
  obtain ⟨rfl, rfl⟩ := pure_val h
  exact ⟨p, h4, rfl, h5, rfl⟩

theorem cpParts_nil_val {dblen n i j : Nat} {c : ChainHashData} {x : ChainHashData × Nat}
    (h : cpParts file dblen [] c n i = .ok (.val x j)) : x = (c, n) ∧ j = i := pure_val h

/-- the parts of a chain hash: `f` is read and skipped, `st` (the free part) is read without moving on -/
theorem cpParts_val {m : CHMode} {dblen i j : Nat} {x : ChainHashData × Nat} (hi : i < 2 ^ 16) (hd : dblen ≤ 255)
    (hf : file.data.length < 2 ^ 63)
    (h : cpParts file dblen m.nameLens (ChainHashData.new m) 0 i = .ok (.val x j)) :
    ∃ f st, x.1 = full m (f ++ st) ∧ blockLenOk m.num (f ++ st).length = true ∧ (f ++ st).length ≤ 255 ∧
      f.length = fixedPart m.toByte ∧ Reads file i f j := by
  rw [← holding_nil] at h
  have done : ∀ acc : List (List Byte), PartsFit m acc → acc.length = (modeParts m.num).length →
      holding m acc = full m acc.flatten ∧ blockLenOk m.num acc.flatten.length = true ∧ acc.flatten.length ≤ 255 := by
    intro acc h1 h2
    refine ⟨?_, blockLenOk_of_parts h1 h2, h1.2.2⟩
    simp [holding, full, nameLens_eq, h2]
  cases m with
  | normal =>
    obtain ⟨rfl, rfl⟩ := cpParts_nil_val h
    obtain ⟨d1, d2, d3⟩ := done [] (partsFit_nil _) rfl
    exact ⟨[], [], d1, d2, d3, rfl, Reads.nil _ hi⟩
  | constSalt =>
    obtain ⟨p, h1, rfl, h3, rfl⟩ := cpParts_star_val (partsFit_nil _) hi hd (by decide) hf h
    obtain ⟨d1, d2, d3⟩ := done [p] h3 rfl
    simp only [List.flatten_cons, List.flatten_nil, List.append_nil] at d1 d2 d3
    exact ⟨[], p, by simpa using d1, by simpa using d2, by simpa using d3, rfl, Reads.nil _ hi⟩
  | count =>
    obtain ⟨p, k, h1, h2, h3, h⟩ := cpParts_fixed_val (partsFit_nil _) h
    obtain ⟨rfl, rfl⟩ := cpParts_nil_val h
    obtain ⟨d1, d2, d3⟩ := done [p] h3 rfl
    simp only [List.flatten_cons, List.flatten_nil, List.append_nil] at d1 d2 d3
    exact ⟨p, [], by simpa using d1, by simpa using d2, by simpa using d3, h1, h2⟩
  | constCount =>
    obtain ⟨p, k, h1, h2, h3, h⟩ := cpParts_fixed_val (partsFit_nil _) h
    obtain ⟨q, h4, rfl, h5, rfl⟩ := cpParts_star_val h3 h2.lt hd (by decide) hf h
    obtain ⟨d1, d2, d3⟩ := done _ h5 rfl
    simp only [List.flatten_cons, List.flatten_nil, List.append_nil, List.nil_append, List.cons_append] at d1 d2 d3
    exact ⟨p, q, d1, d2, d3, h1, h2⟩
  | quad =>
    obtain ⟨p1, k1, a1, r1, f1, h⟩ := cpParts_fixed_val (partsFit_nil _) h
    obtain ⟨p2, k2, a2, r2, f2, h⟩ := cpParts_fixed_val f1 h
    obtain ⟨p3, k3, a3, r3, f3, h⟩ := cpParts_fixed_val f2 h
    obtain ⟨p4, k4, a4, r4, f4, h⟩ := cpParts_fixed_val f3 h
    obtain ⟨rfl, rfl⟩ := cpParts_nil_val h
    obtain ⟨d1, d2, d3⟩ := done _ f4 rfl
    simp only [List.flatten_cons, List.flatten_nil, List.append_nil, List.nil_append, List.cons_append] at d1 d2 d3
    exact ⟨p1 ++ (p2 ++ (p3 ++ p4)), [], by simpa using d1, by simpa using d2, by simpa using d3,
      by simp [a1, a2, a3, a4, fixedPart, CHMode.toByte], r1.trans (r2.trans (r3.trans r4))⟩

theorem assert_ok {b : Bool} {u : Unit} (h : Res.assert b = .ok u) : b = true := by
  cases b
  · cases h
  · rfl

theorem cpChainHash_val {i j : Nat} {c : ChainHash} (hf : file.data.length < 2 ^ 63)
    (h : cpChainHash file i = .ok (.val c j)) :
    ∃ (m : CHMode) (n : UInt64) (f st : List Byte), c = ChainHash.make m n (some (full m (f ++ st))) ∧
      blockLenOk m.num (f ++ st).length = true ∧ f.length = fixedPart m.toByte ∧
      Reads file i (m.toByte :: (num8 n.toNat ++ UInt8.ofNat (f ++ st).length :: f)) j := by
  unfold cpChainHash at h
  obtain ⟨mode, i1, h1, h⟩ := bind_val h
  have r1 := cpByte_val (onExn_val h1)
  cases hm : CHMode.ofByte mode with
  | none => rw [hm] at h; exact absurd h fail_val
  | some m =>
    rw [hm] at h
    obtain rfl := CHMode.toByte_of_ofByte hm
    obtain ⟨n, i2, h2, h⟩ := bind_val h
    obtain ⟨dblen, i3, h3, h⟩ := bind_val h
    obtain ⟨⟨c', n'⟩, i4, h4, g⟩ := bind_val h
    have r2 := cpLong_val h2
    have r3 := cpByte_val h3
    have hlt := dblen.toNat_lt
    obtain ⟨f, st, e1, e2, e3, e4, r4⟩ := cpParts_val r3.lt (by omega) hf h4
    simp only at e1 g
    obtain ⟨u, i5, h5, g1⟩ := bind_val g
    obtain ⟨u', i6, h6, g2⟩ := bind_val g1
    obtain ⟨h5', k5⟩ := lift_val h5
    obtain ⟨h6', k6⟩ := lift_val h6
    obtain ⟨rfl, k7⟩ := pure_val g2
    subst k5 k6 k7
    refine ⟨m, n, f, st, by rw [e1], e2, e4, ?_⟩
    have a1 := assert_ok h5'
    rw [e1, getLen_full e3, beq_iff_eq] at a1
    rw [ofNat_len a1]
    have : m.toByte :: (num8 n.toNat ++ dblen :: f) = [m.toByte] ++ (num8 n.toNat ++ ([dblen] ++ f)) := by simp
    rw [this]
    exact r1.trans (r2.trans (r3.trans r4))

/-! ### the whole header -/

theorem free_eq {m : CHMode} {n : Nat} {f st : List Byte} (h : f.length = fixedPart m.toByte) :
    (ChainDesc.mk m.toByte n (f ++ st)).free = st := by
  simp [ChainDesc.free, ← h]


theorem obj_setFileSize' {m : HMode} {v s : List Byte} {bs es} {c1 c2 : ChainDesc} (n : UInt64) (h1 : c1.Valid)
    (h2 : c2.Valid) (hv : v.length = m.size) (hs : s.length = m.size) (hb : BlocksOk bs) (hbl : bs.length ≤ 255)
    (he : EncOk es) (hel : es.length ≤ 255) :
    (obj m (some ⟨v, m.size⟩) ⟨s, m.size⟩ (bs.map toBlock) (es.map toEnc) (toCH c1) (toCH c2) none).setFileSize n =
      if n.toNat < (Header.mk n.toNat 1 m.toByte bs c1 c2 v s es).length then .exn .invalidArgument
      else .ok (obj m (some ⟨v, m.size⟩) ⟨s, m.size⟩ (bs.map toBlock) (es.map toEnc) (toCH c1) (toCH c2) (some n)) := by
  have hi : DHInv (obj m (some ⟨v, m.size⟩) ⟨s, m.size⟩ (bs.map toBlock) (es.map toEnc) (toCH c1) (toCH c2) none) :=
    obj_inv (by intro x hx; cases hx; exact hv) hs hb hbl he hel (.inr (toCH_good h1))
      (.inr (toCH_good h2))
  rw [setFileSize_eq hi, if_pos (obj_complete (toCH_good h1) (toCH_good h2))]
  have e : (obj m (some ⟨v, m.size⟩) ⟨s, m.size⟩ (bs.map toBlock) (es.map toEnc) (toCH c1) (toCH c2) none).contents.length =
      (Header.mk n.toNat 1 m.toByte bs c1 c2 v s es).length := by
    simp only [DataHeader.contents, obj, map_toBlock, map_toEnc, toCH_desc h1, toCH_desc h2, Header.length]
  rw [e]
  rfl

/-- what the memory parser has read when it reaches its last assertions -/
theorem cpContent_val {hs : Hashes} {r : Rand} (hr : r.good = true) {n : UInt64} {i j : Nat} {d : DataHeader}
    (hf : file.data.length < 2 ^ 63) (h : cpContent file hs r n i = .ok (.val d j)) :
    ∃ hd : Header, hd.Valid ∧ hd.fileSize = n.toNat ∧ d = mkHeader hd ∧
      (∃ a, Reads file i a j ∧ a.length + hd.ch1.free.length + hd.ch2.free.length + 16 = hd.length ∧
        (hd.ch1.free = [] → hd.ch2.free = [] → a = hd.content)) := by
  unfold cpContent at h
  obtain ⟨fm, i1, h1, h⟩ := bind_val h
  obtain ⟨hm, i2, h2, h⟩ := bind_val h
  obtain ⟨d0, i3, h3, h⟩ := bind_val h
  obtain ⟨d1, i4, h4, h⟩ := bind_val h
  have r1 := cpByte_val h1
  have r2 := cpByte_val h2
  obtain ⟨hq, hj⟩ := lift_val (onExn_val h3)
  clear h3; have h3 := hq; clear hq; subst hj
  rw [new_good hm r hr] at h3
  cases hm' : HMode.ofByte hm with
  | none => rw [hm'] at h3; cases h3
  | some m =>
  rw [hm'] at h3
  cases h3
  obtain rfl := HMode.toByte_of_ofByte hm'
  obtain ⟨hq, hj⟩ := lift_val (onExn_val h4)
  clear h4; have h4 := hq; clear hq; subst hj
  obtain ⟨rfl, rfl⟩ := setFileMode_ok h4
  have e0 : DataHeader.clear ⟨⟨some 1, some m, none, some ⟨r.take m.size, m.size⟩, [], [], ChainHash.default,
      ChainHash.default⟩, m.size, Bytes.empty 0, none, 0⟩ =
      obj m none ⟨r.take m.size, m.size⟩ ([].map toBlock) [] ChainHash.default ChainHash.default none := rfl
  simp only at h
  rw [e0] at h
  obtain ⟨count, i5, h5, h⟩ := bind_val h
  have r5 := cpByte_val h5
  obtain ⟨d2, i6, h6, h⟩ := bind_val h
  have hcount := count.toNat_lt
  obtain ⟨bs, hb, hbl, rfl, r6⟩ := cpBlocks_val (by simp) _ _ _ _ _ r5.lt (by simp [BlocksOk]) (by simp; omega) h6
  obtain ⟨c1, i7, h7, h⟩ := bind_val h
  obtain ⟨m1, n1, f1, st1, rfl, b1, q1, r7⟩ := cpChainHash_val hf h7
  obtain ⟨d3, i8, h8, h⟩ := bind_val h
  obtain ⟨hq, hj⟩ := lift_val (onExn_val h8)
  clear h8; have h8 := hq; clear hq; subst hj
  rw [obj_setCh1 b1] at h8
  split at h8
  case isFalse => cases h8
  rename_i v1
  cases h8
  obtain ⟨c2, i9, h9, h⟩ := bind_val h
  obtain ⟨m2, n2, f2, st2, rfl, b2, q2, r9⟩ := cpChainHash_val hf h9
  obtain ⟨d4, i10, h10, h⟩ := bind_val h
  obtain ⟨hq, hj⟩ := lift_val (onExn_val h10)
  clear h10; have h10 := hq; clear hq; subst hj
  rw [obj_setCh2 b2] at h10
  split at h10
  case isFalse => cases h10
  rename_i v2
  cases h10
  obtain ⟨v, i11, h11, h⟩ := bind_val h
  obtain ⟨lv, r11⟩ := cp_val (onExn_val h11)
  rw [obj_hashSize] at lv
  obtain ⟨d5, i12, h12, h⟩ := bind_val h
  obtain ⟨hq, hj⟩ := lift_val (onExn_val h12)
  clear h12; have h12 := hq; clear hq; subst hj
  rw [obj_setValidator (by exact lv)] at h12
  cases h12
  obtain ⟨s, i13, h13, h⟩ := bind_val h
  obtain ⟨ls, r13⟩ := cp_val (onExn_val h13)
  rw [obj_hashSize] at ls
  obtain ⟨d6, i14, h14, h⟩ := bind_val h
  obtain ⟨hq, hj⟩ := lift_val (onExn_val h14)
  clear h14; have h14 := hq; clear hq; subst hj
  rw [obj_setSalt (by exact ls)] at h14
  cases h14
  obtain ⟨ecount, i15, h15, h⟩ := bind_val h
  have r15 := cpByte_val h15
  have hecount := ecount.toNat_lt
  obtain ⟨d7, i16, h16, h⟩ := bind_val h
  obtain ⟨es, he, hel, rfl, r16⟩ := cpEncBlocks_val (bs := bs) hb (by omega) _ [] _ _ _ r15.lt (by simp; omega) h16
  obtain ⟨d8, i17, h17, h⟩ := bind_val h
  obtain ⟨hq, hj⟩ := lift_val (onExn_val h17)
  clear h17; have h17 := hq; clear hq; subst hj
  simp only [List.nil_append, obj_hashSize] at h17 h
  rw [obj_setFileSize' n v1 v2 lv ls hb (by omega) he (by omega)] at h17
  split at h17
  · cases h17
  rename_i hn
  cases h17
  obtain ⟨h18, rfl⟩ := lift_val (onExn_val h)
  rw [obj_calc n v1 hs v2 lv ls hb (by omega) he (by omega), if_neg hn] at h18
  cases h18
  refine ⟨⟨n.toNat, 1, m.toByte, bs, ⟨m1.toByte, n1.toNat, f1 ++ st1⟩, ⟨m2.toByte, n2.toNat, f2 ++ st2⟩, v, s, es⟩,
    ?_, rfl, rfl, ?_⟩
  · exact ⟨by simp only; omega, n.toNat_lt, rfl, ofByte_valid (HMode.ofByte_toByte m), by simp only; omega, hb, v1, v2,
      by simpa using lv, by simpa using ls, by simp only; omega, he⟩
  · refine ⟨_, r1.trans (r2.trans (r5.trans (r6.trans (r7.trans (r9.trans (r11.trans (r13.trans (r15.trans r16)))))))), ?_, ?_⟩
    · simp only [free_eq q1, free_eq q2, List.length_append, List.length_cons, List.length_nil, length_blockBytes, length_num8,
        length_encBytes _ he, Header.length, digestSize_toByte]
      omega
    · simp only [free_eq q1, free_eq q2]
      rintro rfl rfl
      simp [Header.content, ChainDesc.bytes, hbl, hel]

/-- the memory parser succeeds only on proper headers shorter than 64 KiB without free parts -/
theorem setHeaderMem_val {hs : Hashes} {r : Rand} (hr : r.good = true) {j : Nat} {d : DataHeader}
    (hf : file.data.length < 2 ^ 63) (h : setHeaderMem file hs r = .ok (.val d j)) :
    ∃ (hd : Header) (rest : List Byte), hd.Valid ∧ d = mkHeader hd ∧ j = hd.length ∧ hd.length < 2 ^ 16 ∧
      file.data = hd.bytes ++ rest ∧ hd.ch1.free = [] ∧ hd.ch2.free = [] := by
  unfold setHeaderMem at h
  have h0 : Par.onExn (cpHeader file hs r) catchAll 0 = .ok (.val d j) := by
    revert h
    cases Par.onExn (cpHeader file hs r) catchAll 0 <;> intro h <;> first | exact h | cases h
  replace h0 := onExn_val h0
  unfold cpHeader at h0
  obtain ⟨fs, i1, h1, h2⟩ := bind_val h0
  obtain ⟨hsz, i2, h3, h4⟩ := bind_val h2
  have r1 := cpLong_val (onExn_val h1)
  have r2 := cpLong_val (onExn_val h3)
  split at h4
  · exact absurd h4 fail_val
  obtain ⟨d', i3, h5, h6⟩ := bind_val h4
  obtain ⟨hd, v, hn, rfl, a, r3, l3, c3⟩ := cpContent_val hr hf h5
  obtain ⟨h7, k7⟩ := lift_val h6
  obtain ⟨u, a1, h8⟩ := Res.bind_eq_ok.mp h7
  obtain ⟨l, h9, h10⟩ := Res.bind_eq_ok.mp h8
  obtain ⟨u', a2, h11⟩ := Res.bind_eq_ok.mp h10
  cases h11
  subst k7
  have a1 := assert_ok a1
  have a2 := assert_ok a2
  rw [beq_iff_eq] at a1 a2
  rw [mkHeader_length v] at h9
  cases h9
  have r := r1.trans (r2.trans r3)
  have hl := r.lt
  have e1 := r.1
  simp only [List.length_append, length_num8] at e1
  have z : hd.ch1.free = [] ∧ hd.ch2.free = [] := by
    constructor <;> apply List.length_eq_zero_iff.mp <;> omega
  have ea := c3 z.1 z.2
  refine ⟨hd, file.data.drop hd.length, v, rfl, by omega, by omega, ?_, z⟩
  have e2 := r.2 (by simp only [List.length_append, length_num8]; omega)
  rw [List.drop_zero] at e2
  have e3 : 0 + (num8 fs.toNat ++ (num8 hsz.toNat ++ a)).length = hd.length := by
    simp only [List.length_append, length_num8]; omega
  rw [e3, ea, ← hn, ← a2] at e2
  exact e2

end HeaderParse
end Verif
