import Verif.Model.ChainHash
import Verif.Spec.ChainHashData
import Verif.Lemmas.ChainTable
import Verif.Lemmas.Bytes

namespace Verif
open Spec

/-- number of a mode -/
abbrev CHMode.num (m : CHMode) : Nat := m.toByte.toNat

/-- `acc` is a list of parts that fits the first parts of the mode -/
def PartsFit (m : CHMode) (acc : List (List Byte)) : Prop :=
  acc.length ≤ (modeParts m.num).length ∧
  (∀ (i : Nat) (p : List Byte) n k, acc[i]? = some p → (modeParts m.num)[i]? = some (n, some k) → p.length = k) ∧
  acc.flatten.length ≤ 255

/-- the object holding the parts `acc` -/
def holding (m : CHMode) (acc : List (List Byte)) : ChainHashData := ⟨m, ⟨acc.flatten, 255⟩, acc.length⟩

theorem holding_nil (m : CHMode) : holding m [] = ChainHashData.new m := rfl

theorem nameLens_eq (m : CHMode) : m.nameLens = (modeParts m.num).map fun p => ⟨p.1, p.2.getD 0⟩ := by
  cases m <;> rfl

theorem modeParts_length_le (m : CHMode) : (modeParts m.num).length ≤ 4 := by cases m <;> decide

theorem modeParts_pos (m : CHMode) (i : Nat) (n : String) (k : Nat) (h : (modeParts m.num)[i]? = some (n, some k)) :
    k = 8 := by
  revert h
  rcases i with _ | _ | _ | _ | i <;> cases m <;>
    simp only [CHMode.num, CHMode.toByte, modeParts] <;> intro h <;> simp_all [UInt8.toNat]

theorem partsFit_flatten_length {m : CHMode} {acc : List (List Byte)} (h : PartsFit m acc) {n : String} {k : Nat}
    (hn : (modeParts m.num)[acc.length]? = some (n, some k)) : acc.flatten.length ≤ 24 := by
  obtain ⟨h1, h2, h3⟩ := h
  cases m
  case normal => simp [modeParts, CHMode.num, CHMode.toByte] at hn
  case constSalt =>
    rcases acc with _ | ⟨a, _ | ⟨b, acc⟩⟩
    · simp
    · simp [modeParts, CHMode.num, CHMode.toByte] at hn
    · simp [modeParts, CHMode.num, CHMode.toByte] at hn
  case count =>
    rcases acc with _ | ⟨a, _ | ⟨b, acc⟩⟩
    · simp
    · simp [modeParts, CHMode.num, CHMode.toByte] at hn
    · simp [modeParts, CHMode.num, CHMode.toByte] at hn
  case constCount =>
    rcases acc with _ | ⟨a, _ | ⟨b, acc⟩⟩
    · simp
    · simp [modeParts, CHMode.num, CHMode.toByte] at hn
    · simp [modeParts, CHMode.num, CHMode.toByte] at hn
  case quad =>
    have e : modeParts CHMode.quad.num = [("SN", some 8), ("A", some 8), ("B", some 8), ("C", some 8)] := rfl
    rw [e] at h2 hn h1
    rcases acc with _ | ⟨a, _ | ⟨b, _ | ⟨c, _ | ⟨d, acc⟩⟩⟩⟩
    · simp
    · have := h2 0 a _ 8 rfl rfl; simp; omega
    · have := h2 0 a _ 8 rfl rfl; have := h2 1 b _ 8 rfl rfl; simp; omega
    · have := h2 0 a _ 8 rfl rfl; have := h2 1 b _ 8 rfl rfl; have := h2 2 c _ 8 rfl rfl; simp; omega
    · simp at hn

theorem isComplete_holding (m : CHMode) (acc : List (List Byte)) :
    (holding m acc).isComplete = decide (acc.length = (modeParts m.num).length) := by
  simp [holding, ChainHashData.isComplete, nameLens_eq]
  rw [Bool.eq_iff_iff]; simp

theorem addBytes_eq (m : CHMode) (blk : List Byte) (ind : Nat) (b : Bytes) (nl : NameLen) (hb : blk.length ≤ 255)
    (hget : m.nameLens[ind]? = some nl) :
    (ChainHashData.mk m ⟨blk, 255⟩ ind).addBytes b =
      if nl.len ≠ b.data.length ∧ nl.len ≠ 0 then .exn .invalidArgument
      else if 255 < b.data.length + blk.length then .exn .lengthError
      else .ok ⟨m, ⟨blk ++ b.data, 255⟩, (ind + 1) % 256⟩ := by
  have hne : ind ≠ m.nameLens.length := by
    rintro rfl; simp at hget
  have hc : (ChainHashData.mk m ⟨blk, 255⟩ ind).isComplete = false := by simpa [ChainHashData.isComplete] using hne
  unfold ChainHashData.addBytes
  rw [if_neg (by simp [hc])]
  simp only [hget]
  by_cases h1 : nl.len ≠ b.data.length ∧ nl.len ≠ 0
  · rw [if_pos h1, if_pos (by exact h1)]
  · rw [if_neg h1, if_neg (by exact h1)]
    by_cases h2 : 255 < b.data.length + blk.length
    · rw [if_pos h2]
      have : b.addcopyToBytes ⟨blk, 255⟩ = .exn .lengthError := by
        unfold Bytes.addcopyToBytes; rw [if_pos (by exact h2)]
      simp only [this]
      have hl : blk.length % 256 = blk.length := by omega
      have : Res.assert (decide ((ChainHashData.mk m ⟨blk, 255⟩ ind).getLen + b.len > 255)) = .ok () := by
        unfold Res.assert; rw [if_pos (by simp only [ChainHashData.getLen, Bytes.len, hl, decide_eq_true_eq]; omega)]
      rw [this]; rfl
    · rw [if_neg h2]
      have : b.addcopyToBytes ⟨blk, 255⟩ = .ok ⟨blk ++ b.data, 255⟩ := by
        unfold Bytes.addcopyToBytes; rw [if_neg (by exact h2)]
      simp only [this]
      have hl : (blk ++ b.data).length % 256 ≤ 255 := by omega
      have : Res.assert (decide ((Bytes.mk (blk ++ b.data) 255).len % 256 ≤ 255)) = .ok () := by
        unfold Res.assert; rw [if_pos (by simpa [Bytes.len] using hl)]
      rw [this]; rfl

theorem nameLens_get {m : CHMode} {i : Nat} {n : String} {o : Option Nat} (h : (modeParts m.num)[i]? = some (n, o)) :
    m.nameLens[i]? = some ⟨n, o.getD 0⟩ := by rw [nameLens_eq, List.getElem?_map, h]; rfl

theorem addBytes_accept {m : CHMode} {acc : List (List Byte)} (h : PartsFit m acc) (b : Bytes)
    (ha : acceptable m.num acc b.data = true) :
    (holding m acc).addBytes b = .ok (holding m (acc ++ [b.data])) ∧ PartsFit m (acc ++ [b.data]) := by
  have h4 := modeParts_length_le m
  obtain ⟨n, o, hp⟩ : ∃ n o, (modeParts m.num)[acc.length]? = some (n, o) := by
    unfold acceptable at ha
    split at ha
    · cases ha
    all_goals exact ⟨_, _, by assumption⟩
  have hlt : acc.length < (modeParts m.num).length := (List.getElem?_eq_some_iff.mp hp).1
  have hlen : o = none ∨ o = some b.data.length := by
    unfold acceptable at ha
    rw [hp] at ha
    cases o with
    | none => exact .inl rfl
    | some k => simp at ha; exact .inr (by rw [ha])
  have hsum : acc.flatten.length + b.data.length ≤ 255 := by
    unfold acceptable at ha
    rw [hp] at ha
    cases o with
    | none => simpa using ha
    | some k =>
      have := partsFit_flatten_length h hp
      have := modeParts_pos m _ _ _ hp
      simp at ha
      omega
  constructor
  · rw [holding, addBytes_eq m _ _ b _ h.2.2 (nameLens_get hp)]
    rw [if_neg, if_neg (by omega)]
    · simp only [holding, List.flatten_append, List.flatten_cons, List.flatten_nil, List.append_nil,
        List.length_append, List.length_cons, List.length_nil, Nat.zero_add,
        show (acc.length + 1) % 256 = acc.length + 1 by omega]
    · rcases hlen with rfl | rfl <;> simp
  · refine ⟨by simp; omega, ?_, by simpa using hsum⟩
    intro i p n' k hp' hk
    rw [List.getElem?_append] at hp'
    split at hp'
    · exact h.2.1 i p n' k hp' hk
    · rename_i hi
      have : i = acc.length := Classical.byContradiction fun hne => by
        rw [List.getElem?_eq_none (by simp; omega)] at hp'
        cases hp'
      subst this
      simp at hp'
      subst hp'
      rw [hp] at hk
      simp at hk
      rcases hlen with rfl | rfl
      · simp at hk
      · simpa using hk.2

theorem addBytes_refuse {m : CHMode} {acc : List (List Byte)} (h : PartsFit m acc) (b : Bytes)
    (ha : acceptable m.num acc b.data = false) :
    (holding m acc).addBytes b = .exn .logicError ∨ (holding m acc).addBytes b = .exn .invalidArgument ∨
      (holding m acc).addBytes b = .exn .lengthError := by
  by_cases hc : (holding m acc).isComplete = true
  · left; simp [ChainHashData.addBytes, hc]
  · right
    have hlt : acc.length < (modeParts m.num).length := by
      rw [isComplete_holding] at hc
      have := h.1
      simp at hc; omega
    obtain ⟨p, hp⟩ : ∃ p, (modeParts m.num)[acc.length]? = some p := ⟨_, List.getElem?_eq_getElem hlt⟩
    obtain ⟨n, o⟩ := p
    rw [holding, addBytes_eq m _ _ b _ h.2.2 (nameLens_get hp)]
    unfold acceptable at ha
    rw [hp] at ha
    cases o with
    | none =>
      right
      simp only [decide_eq_false_iff_not] at ha
      rw [if_neg (by simp), if_pos (by omega)]
    | some k =>
      left
      have := modeParts_pos m _ _ _ hp
      simp only [beq_eq_false_iff_ne] at ha
      rw [if_pos]
      simp only [Option.getD_some]
      exact ⟨fun h => ha h.symm, by omega⟩

/-- object after a history of attempted additions, refused ones being caught by the caller -/
def runAdds (c : ChainHashData) : List Bytes → ChainHashData
  | [] => c
  | b :: bs => match c.addBytes b with
    | .ok c' => runAdds c' bs
    | _ => runAdds c bs

theorem runAdds_holding (m : CHMode) (bs : List Bytes) : ∀ acc, PartsFit m acc →
    runAdds (holding m acc) bs = holding m ((bs.map Bytes.data).foldl
      (fun acc b => if acceptable m.num acc b then acc ++ [b] else acc) acc) ∧
    PartsFit m ((bs.map Bytes.data).foldl (fun acc b => if acceptable m.num acc b then acc ++ [b] else acc) acc) := by
  induction bs with
  | nil => intro acc h; exact ⟨rfl, h⟩
  | cons b bs ih =>
    intro acc h
    simp only [runAdds, List.map_cons, List.foldl_cons]
    cases ha : acceptable m.num acc b.data with
    | true =>
      obtain ⟨h1, h2⟩ := addBytes_accept h b ha
      rw [h1]
      exact ih _ h2
    | false =>
      have : runAdds (holding m acc) (b :: bs) = runAdds (holding m acc) bs := by
        rcases addBytes_refuse h b ha with h1 | h1 | h1 <;> simp [runAdds, h1]
      simp only [runAdds] at this
      rw [this]
      exact ih _ h

theorem partsFit_nil (m : CHMode) : PartsFit m [] := ⟨by simp, by simp, by simp⟩

theorem runAdds_new (m : CHMode) (bs : List Bytes) :
    runAdds (ChainHashData.new m) bs = holding m (accepted m.num (bs.map Bytes.data)) ∧
    PartsFit m (accepted m.num (bs.map Bytes.data)) := runAdds_holding m bs [] (partsFit_nil m)

/-! ### comparing -/

/-- the parts of a complete block are given by the block -/
theorem partsFit_split {m : CHMode} {a b : List (List Byte)} (ha : PartsFit m a) (hb : PartsFit m b)
    (la : a.length = (modeParts m.num).length) (lb : b.length = (modeParts m.num).length)
    (h : a.flatten = b.flatten) : a = b := by
  have key : ∀ (i : Nat) (n : String) (k : Nat) (x y : List Byte), a[i]? = some x → b[i]? = some y → (modeParts m.num)[i]? = some (n, some k) →
      x.length = y.length := fun i n k x y h1 h2 h3 => by rw [ha.2.1 i x n k h1 h3, hb.2.1 i y n k h2 h3]
  cases m <;> simp only [CHMode.num, modeParts] at la lb key
  · rw [List.eq_nil_of_length_eq_zero la, List.eq_nil_of_length_eq_zero lb]
  · match a, b, la, lb with
    | [x], [y], _, _ => simpa using h
  · match a, b, la, lb with
    | [x], [y], _, _ => simpa using h
  · match a, b, la, lb with
    | [x, x'], [y, y'], _, _ =>
      have k0 := key 0 "SN" 8 x y rfl rfl rfl
      have := List.append_inj (by simpa using h) k0
      simp_all
  · match a, b, la, lb with
    | [x, xa, xb, xc], [y, ya, yb, yc], _, _ =>
      have k0 := key 0 "SN" 8 x y rfl rfl rfl
      have k1 := key 1 "A" 8 xa ya rfl rfl rfl
      have k2 := key 2 "B" 8 xb yb rfl rfl rfl
      have h0 := List.append_inj (by simpa using h) k0
      have h1 := List.append_inj h0.2 k1
      have h2 := List.append_inj h1.2 k2
      simp [h0.1, h1.1, h2.1, h2.2]

theorem getDataBlock_holding {m : CHMode} {a : List (List Byte)} (la : a.length = (modeParts m.num).length) :
    (holding m a).isComplete = true ∧ (holding m a).getDataBlock = .ok ⟨a.flatten, 255⟩ := by
  have h : (holding m a).isComplete = true := by rw [isComplete_holding]; simpa using la
  exact ⟨h, by simp [ChainHashData.getDataBlock, h]; rfl⟩

theorem eq_holding {m : CHMode} {a b : List (List Byte)} (ha : PartsFit m a) (hb : PartsFit m b) :
    ∃ r, ChainHashData.eq (holding m a) (holding m b) = .ok r ∧
      (r = true ↔ a.length = (modeParts m.num).length ∧ a = b) := by
  by_cases la : a.length = (modeParts m.num).length
  · by_cases lb : b.length = (modeParts m.num).length
    · refine ⟨a.flatten == b.flatten, ?_, ?_⟩
      · simp [ChainHashData.eq, getDataBlock_holding la, getDataBlock_holding lb, Bytes.beq]
      · simp only [beq_iff_eq, la, true_and]
        exact ⟨partsFit_split ha hb la lb, fun h => by rw [h]⟩
    · exact ⟨false, by simp [ChainHashData.eq, isComplete_holding, lb], by simp [la]; rintro rfl; exact lb la⟩
  · exact ⟨false, by simp [ChainHashData.eq, isComplete_holding, la], by simp [la]⟩

theorem eq_holding_true {m₁ m₂ : CHMode} {a b : List (List Byte)}
    (h : ChainHashData.eq (holding m₁ a) (holding m₂ b) = .ok true) :
    a.length = (modeParts m₁.num).length ∧ b.length = (modeParts m₂.num).length ∧ a.flatten = b.flatten := by
  by_cases la : a.length = (modeParts m₁.num).length
  · by_cases lb : b.length = (modeParts m₂.num).length
    · refine ⟨la, lb, ?_⟩
      simpa [ChainHashData.eq, getDataBlock_holding la, getDataBlock_holding lb, Bytes.beq] using h
    · simp [ChainHashData.eq, isComplete_holding, lb] at h
  · simp [ChainHashData.eq, isComplete_holding, la] at h

/-! ### reading parts back -/

theorem getPartLoop_unset (c : ChainHashData) (name : String) (nls : List NameLen) :
    ∀ i start, c.ind ≤ i → c.getPartLoop name nls i start = .exn .invalidArgument := by
  induction nls with
  | nil => intros; rfl
  | cons nl rest ih =>
    intro i start h
    rw [ChainHashData.getPartLoop, if_neg (by omega)]
    exact ih _ _ (by omega)

theorem getPartLoop_absent (c : ChainHashData) (name : String) (nls : List NameLen) :
    ∀ i start, (∀ nl ∈ nls, nl.name ≠ name) → c.getPartLoop name nls i start = .exn .invalidArgument := by
  induction nls with
  | nil => intros; rfl
  | cons nl rest ih =>
    intro i start h
    rw [ChainHashData.getPartLoop, if_neg (fun hh => h nl (by simp) hh.1)]
    exact ih _ _ (fun x hx => h x (by simp [hx]))

theorem getPartLoop_spec (m : CHMode) (name : String) (nls : List NameLen) :
    ∀ (pre suf : List (List Byte)) (j : Nat) (nl : NameLen), (pre ++ suf).flatten.length ≤ 255 →
      (∀ (k : Nat) (p : List Byte) nl, suf[k]? = some p → k + 1 < suf.length → nls[k]? = some nl → p.length = nl.len) →
      suf.length ≤ nls.length →
      nls[j]? = some nl → nl.name = name → (∀ k nl', k < j → nls[k]? = some nl' → nl'.name ≠ name) →
      (holding m (pre ++ suf)).getPartLoop name nls pre.length pre.flatten.length =
        match suf[j]? with
        | some p => .ok (Bytes.full p)
        | none => .exn .invalidArgument := by
  induction nls with
  | nil => intro pre suf j nl _ _ _ h; simp at h
  | cons n0 rest ih =>
    intro pre suf j nl hlen hfix hsl hj hname hfirst
    cases suf with
    | nil =>
      simp only [List.getElem?_nil]
      exact getPartLoop_unset _ _ _ _ _ (by simp [holding])
    | cons p suf =>
      rw [ChainHashData.getPartLoop]
      cases j with
      | zero =>
        simp at hj
        subst hj
        rw [if_pos ⟨hname, by simp [holding]⟩]
        simp only [List.getElem?_cons_zero]
        have hflat : (pre ++ p :: suf).flatten = pre.flatten ++ (p ++ suf.flatten) := by simp
        have hstop : (if (holding m (pre ++ p :: suf)).ind > pre.length + 1 then pre.flatten.length + n0.len
            else (holding m (pre ++ p :: suf)).block.len) = pre.flatten.length + p.length := by
          simp only [holding, Bytes.len, hflat]
          cases suf with
          | nil => rw [if_neg (by simp)]; simp
          | cons q suf =>
            rw [if_pos (by simp)]
            have := hfix 0 p n0 rfl (by simp) rfl
            omega
        rw [hstop]
        simp only [Bytes.copySubBytes, holding, hflat]
        rw [if_neg (by omega), if_neg (by simp only [List.length_append]; omega)]
        simp [Bytes.full, Nat.add_sub_cancel_left]
      | succ j =>
        rw [if_neg (fun hh => hfirst 0 n0 (by omega) rfl hh.1)]
        simp only [List.getElem?_cons_succ] at hj ⊢
        cases suf with
        | nil =>
          simp only [List.getElem?_nil]
          exact getPartLoop_unset _ _ _ _ _ (by simp [holding])
        | cons q suf =>
          have hp := hfix 0 p n0 rfl (by simp) rfl
          have h2 := ih (pre ++ [p]) (q :: suf) j nl (by simpa using hlen)
            (fun k p' nl' h1 h2 h3 => hfix (k + 1) p' nl' h1 (by simp at h2 ⊢; omega) h3)
            (by simp at hsl ⊢; omega) hj hname
            (fun k nl' h1 h2 => hfirst (k + 1) nl' (by omega) h2)
          have e : (pre.flatten.length + n0.len) % 256 = (pre ++ [p]).flatten.length := by
            simp only [List.flatten_append, List.flatten_cons, List.flatten_nil, List.append_nil, List.length_append]
              at hlen ⊢
            omega
          rw [e]
          simpa using h2

theorem modeParts_fixed (m : CHMode) (i : Nat) (h : i + 1 < (modeParts m.num).length) :
    ∃ n, (modeParts m.num)[i]? = some (n, some 8) := by
  have h4 := modeParts_length_le m
  have : i = 0 ∨ i = 1 ∨ i = 2 := by omega
  revert h
  rcases this with rfl | rfl | rfl <;> cases m <;> simp [modeParts, CHMode.num, CHMode.toByte]

theorem modeParts_nodup (m : CHMode) (i j : Nat) (n : String) (o o' : Option Nat)
    (hi : (modeParts m.num)[i]? = some (n, o)) (hj : (modeParts m.num)[j]? = some (n, o')) : i = j := by
  have h : ((modeParts m.num).map Prod.fst).Nodup := by cases m <;> decide
  have hi' : ((modeParts m.num).map Prod.fst)[i]? = some n := by simp [hi]
  have hj' : ((modeParts m.num).map Prod.fst)[j]? = some n := by simp [hj]
  exact (List.getElem?_inj (List.getElem?_eq_some_iff.mp hi').1 h).mp (by rw [hi', hj'])

theorem getPart_holding {m : CHMode} {acc : List (List Byte)} (h : PartsFit m acc) (i : Nat) (name : String)
    (o : Option Nat) (hi : (modeParts m.num)[i]? = some (name, o)) :
    (holding m acc).getPart name = match acc[i]? with
      | some p => .ok (Bytes.full p)
      | none => .exn .invalidArgument := by
  have := getPartLoop_spec m name m.nameLens [] acc i ⟨name, o.getD 0⟩ (by simpa using h.2.2)
    (by
      intro k p nl h1 h2 h3
      obtain ⟨n, hn⟩ := modeParts_fixed m k (by have := h.1; omega)
      have h4 := nameLens_get hn
      rw [h3] at h4
      have := h.2.1 k p n 8 h1 hn
      simp at h4
      rw [h4, this])
    (by rw [nameLens_eq]; simpa using h.1) (nameLens_get hi) rfl
    (by
      intro k nl' h1 h2 h3
      rw [nameLens_eq, List.getElem?_map] at h2
      obtain ⟨⟨n', o'⟩, h4, h5⟩ := Option.map_eq_some_iff.mp h2
      subst h5
      simp only at h3
      subst h3
      have := modeParts_nodup m k i n' o' o h4 hi
      omega)
  simpa [ChainHashData.getPart, holding] using this

/-! ### objects reached by any operations -/

/-- objects the public operations of the class can produce -/
inductive ChainHashData.Reach : ChainHashData → Prop
  | new (m : CHMode) : Reach (ChainHashData.new m)
  | add {c c' : ChainHashData} {b : Bytes} : Reach c → c.addBytes b = .ok c' → Reach c'
  | random {c c' : ChainHashData} {r : Rand} : Reach c → c.generateRandomData r = .ok c' → Reach c'

/-- every reachable object holds parts that fit its mode -/
theorem ChainHashData.Reach.holding {c : ChainHashData} (h : c.Reach) :
    ∃ acc, PartsFit c.mode acc ∧ c = Verif.holding c.mode acc := by
  induction h with
  | new m => exact ⟨[], partsFit_nil m, rfl⟩
  | @add c c' b _ hc ih =>
    obtain ⟨acc, h1, h2⟩ := ih
    rw [h2] at hc
    cases ha : acceptable c.mode.num acc b.data with
    | true =>
      obtain ⟨h3, h4⟩ := addBytes_accept h1 b ha
      rw [h3] at hc
      cases hc
      exact ⟨_, h4, rfl⟩
    | false => rcases addBytes_refuse h1 b ha with h3 | h3 | h3 <;> rw [h3] at hc <;> cases hc
  | @random c c' r _ hc ih =>
    obtain ⟨acc, h1, h2⟩ := ih
    have hcap : c.block.cap = 255 := by rw [h2]; rfl
    unfold ChainHashData.generateRandomData at hc
    split at hc
    · cases hc
    rename_i hemp
    have hnil : c.block.data = [] := by simpa [Bytes.isEmpty] using hemp
    have hblk : c.block = ⟨[], 255⟩ := by
      cases hb : c.block with
      | mk d cp =>
        rw [hb] at hnil hcap
        simp only at hnil hcap
        rw [hnil, hcap]
    rw [hblk] at hc
    have hrnd : ∀ n, n ≤ 255 → Bytes.randomBytes r n = .ok (r.take n) ∨ Bytes.randomBytes r n = .exn .runtimeError := by
      intro n hn
      unfold Bytes.randomBytes
      split
      · exact .inr rfl
      · rw [if_neg (by omega)]; exact .inl rfl
    have hfill : ∀ x, Bytes.fillrandom ⟨[], 255⟩ r = .ok x → x = ⟨r.take 255, 255⟩ := by
      intro x hx
      rcases hrnd 255 (by omega) with h | h <;> simp [Bytes.fillrandom, h] at hx
      exact hx.symm
    have hadd : ∀ n x, n ≤ 255 → Bytes.addrandom ⟨[], 255⟩ ((n : Nat) : Int) r = .ok x → x = ⟨r.take n, 255⟩ := by
      intro n x hn hx
      unfold Bytes.addrandom at hx
      rw [if_neg (by omega), if_neg (by simp; omega)] at hx
      rcases hrnd n (by omega) with h | h <;> simp [h] at hx
      exact hx.symm
    cases hm : c.mode <;> rw [hm] at hc <;>
      simp only [ChainHashData.isStar, CHMode.nameLens, List.getLast?, List.getLast, Nat.reduceBEq, BEq.rfl, if_true, Bool.false_eq_true,
        if_false, ChainHashData.datablockSize, List.map_cons, List.map_nil, List.sum_cons, List.sum_nil, Nat.reduceAdd, Nat.reduceMod,
        Nat.zero_mod] at hc <;>
      obtain ⟨x, h3, h4⟩ := Res.bind_eq_ok.mp hc <;> cases h4
    · have := hadd 0 x (by omega) h3
      subst this
      exact ⟨[], partsFit_nil _, rfl⟩
    · have := hfill x h3
      subst this
      refine ⟨[r.take 255], ⟨Nat.le_refl _, ?_, by simp⟩, by simp [Verif.holding]⟩
      intro i p n k h5 h6
      rcases i with _ | i <;> simp [modeParts, CHMode.num, CHMode.toByte] at h6
    · have := hadd 8 x (by omega) h3
      subst this
      refine ⟨[r.take 8], ⟨Nat.le_refl _, ?_, by simp⟩, by simp [Verif.holding]⟩
      intro i p n k h5 h6
      rcases i with _ | i <;> simp [modeParts, CHMode.num, CHMode.toByte] at h6 h5
      rw [← h5, ← h6.2]; simp
    · have := hfill x h3
      subst this
      have e : r.take 255 = r.take 8 ++ (r.take 255).drop 8 := by
        have : r.take 8 = (r.take 255).take 8 := by
          simp [Rand.take, ← List.map_take, List.take_range]
        rw [this, List.take_append_drop]
      refine ⟨[r.take 8, (r.take 255).drop 8], ⟨Nat.le_refl _, ?_, by simp⟩, ?_⟩
      · intro i p n k h5 h6
        rcases i with _ | _ | i <;> simp [modeParts, CHMode.num, CHMode.toByte] at h6 h5
        rw [← h5, ← h6.2]; simp
      · simp [Verif.holding, ← e]
    · have := hadd 32 x (by omega) h3
      subst this
      have hd : ∀ l : List Byte, l = l.take 8 ++ ((l.drop 8).take 8 ++ ((l.drop 16).take 8 ++ l.drop 24)) := by
        intro l
        have e1 : l.drop 16 = (l.drop 8).drop 8 := by rw [List.drop_drop]
        have e2 : l.drop 24 = (l.drop 16).drop 8 := by rw [List.drop_drop]
        rw [e2, List.take_append_drop, e1, List.take_append_drop, List.take_append_drop]
      refine ⟨[(r.take 32).take 8, ((r.take 32).drop 8).take 8, ((r.take 32).drop 16).take 8, (r.take 32).drop 24],
        ⟨Nat.le_refl _, ?_, by simp⟩, ?_⟩
      · intro i p n k h5 h6
        rcases i with _ | _ | _ | _ | i <;> simp [modeParts, CHMode.num, CHMode.toByte] at h6 h5 <;>
          (rw [← h5, ← h6.2]; simp)
      · simp only [Verif.holding, List.flatten_cons, List.flatten_nil, List.append_nil, ← hd]
        rfl

/-! ### performing a chain hash -/

/-- arguments of the chain-hash routine described by a mode and its data block -/
def argsOf (m : CHMode) (block : List Byte) : ModeArgs :=
  match m with
  | .normal => .normal
  | .constSalt => .const block
  | .count => .count (UInt64.ofNat (beValue block))
  | .constCount => .constCount (UInt64.ofNat (beValue (block.take 8))) (block.drop 8)
  | .quad => .quad (UInt64.ofNat (beValue (block.take 8))) (UInt64.ofNat (beValue ((block.drop 8).take 8)))
      (UInt64.ofNat (beValue ((block.drop 16).take 8))) (UInt64.ofNat (beValue ((block.drop 24).take 8)))

theorem ofNat_beValue (l : List Byte) (h : l.length ≤ 8) : (UInt64.ofNat (beValue l)).toNat = beValue l := by
  have h1 := beValue_lt l
  have h2 : 256 ^ l.length ≤ 256 ^ 8 := Nat.pow_le_pow_right (by decide) h
  rw [UInt64.toNat_ofNat']
  exact Nat.mod_eq_of_lt (by omega)

theorem toLong_full (p : List Byte) (h : p.length = 8) : (Bytes.full p).toLong = .ok (UInt64.ofNat (beValue p)) :=
  toLong_eq _ (by simp [Bytes.full, h])

@[simp] theorem bytesToString_full (l : List Byte) : bytesToString (Bytes.full l) = l := rfl

theorem valid_parts {m : CHMode} {n : UInt64} {d : ChainHashData} (hd : d.Reach)
    (hv : (ChainHash.make m n (some d)).val = true) :
    d.mode = m ∧ 0 < n.toNat ∧ n.toNat ≤ maxIterations ∧
      ∃ acc, PartsFit m acc ∧ d = holding m acc ∧ acc.length = (modeParts m.num).length := by
  simp only [ChainHash.make, chainHashValid, Bool.and_eq_true, decide_eq_true_eq, ChainHashData.isCompletedFormat,
    beq_iff_eq] at hv
  obtain ⟨⟨h1, h2⟩, h3, h4⟩ := hv
  obtain ⟨acc, h5, h6⟩ := hd.holding
  rw [h6, isComplete_holding, decide_eq_true_eq] at h4
  subst h3
  exact ⟨rfl, h1, h2, acc, h5, h6, h4⟩

/-- lengths of a complete data block -/
theorem blockLenOk_of_parts {m : CHMode} {acc : List (List Byte)} (h : PartsFit m acc)
    (hl : acc.length = (modeParts m.num).length) : blockLenOk m.num acc.flatten.length = true := by
  obtain ⟨-, h2, h3⟩ := h
  cases m
  case normal =>
    have : acc = [] := List.length_eq_zero_iff.mp hl
    subst this; rfl
  case constSalt => simpa [blockLenOk, CHMode.num, CHMode.toByte] using h3
  case count =>
    have e : modeParts CHMode.count.num = [("SN", some 8)] := rfl
    rw [e] at hl h2
    rcases acc with _ | ⟨a, _ | ⟨b, acc⟩⟩ <;> simp at hl
    have := h2 0 a _ 8 rfl rfl
    simp [blockLenOk, CHMode.num, CHMode.toByte, this]
  case constCount =>
    have e : modeParts CHMode.constCount.num = [("SN", some 8), ("S", none)] := rfl
    rw [e] at hl h2
    rcases acc with _ | ⟨a, _ | ⟨b, _ | ⟨c, acc⟩⟩⟩ <;> simp at hl
    have := h2 0 a _ 8 rfl rfl
    simp [blockLenOk, CHMode.num, CHMode.toByte, this]
    simpa [this] using h3
  case quad =>
    have e : modeParts CHMode.quad.num = [("SN", some 8), ("A", some 8), ("B", some 8), ("C", some 8)] := rfl
    rw [e] at hl h2
    rcases acc with _ | ⟨a, _ | ⟨b, _ | ⟨c, _ | ⟨d, _ | ⟨f, acc⟩⟩⟩⟩⟩ <;> simp at hl
    have := h2 0 a _ 8 rfl rfl
    have := h2 1 b _ 8 rfl rfl
    have := h2 2 c _ 8 rfl rfl
    have := h2 3 d _ 8 rfl rfl
    simp [blockLenOk, CHMode.num, CHMode.toByte, *]

theorem argsOf_rule {m : CHMode} {block : List Byte} (h : blockLenOk m.num block.length = true) :
    (argsOf m block).rule = ruleOf m.num block ∧ (argsOf m block).SaltFits := by
  cases m <;> simp [blockLenOk, CHMode.num, CHMode.toByte] at h <;>
    simp only [argsOf, ModeArgs.rule, ruleOf, ModeArgs.SaltFits, CHMode.num, CHMode.toByte, and_true] <;>
    simp only [UInt8.reduceToNat]
  · constructor
    · trivial
    · omega
  · rw [ofNat_beValue _ (by omega)]
  · rw [ofNat_beValue _ (by simp; omega)]
    refine ⟨rfl, ?_⟩
    simp; omega
  · rw [ofNat_beValue _ (by simp; omega), ofNat_beValue _ (by simp; omega), ofNat_beValue _ (by simp; omega),
      ofNat_beValue _ (by simp; omega)]

theorem perform_eq {m : CHMode} {n : UInt64} {d : ChainHashData} (hd : d.Reach)
    (hv : (ChainHash.make m n (some d)).val = true) (H : HashFn) (timeout : Nat) (clk : Nat → Nat) :
    (∀ data, ChainHashModes.performBytes (ChainHash.make m n (some d)) H data timeout clk =
      (argsOf m d.block.data).runBytes H data n.toNat timeout clk) ∧
    (∀ pw, ChainHashModes.performStr (ChainHash.make m n (some d)) H pw timeout clk =
      (argsOf m d.block.data).runStr H pw n.toNat timeout clk) ∧
    blockLenOk m.num d.block.data.length = true := by
  obtain ⟨rfl, h1, h2, acc, h3, h4, h5⟩ := valid_parts hd hv
  have hok := blockLenOk_of_parts h3 h5
  have hg1 : (ChainHash.make d.mode n (some d)).getMode = .ok d.mode := by
    simp only [ChainHash.getMode, hv]; rfl
  have hg2 : (ChainHash.make d.mode n (some d)).getIters = .ok n := by
    simp only [ChainHash.getIters, hv]; rfl
  have hg3 : (ChainHash.make d.mode n (some d)).getData = .ok d := by
    simp only [ChainHash.getData, hv]; rfl
  have hblk : d.block.data = acc.flatten := by rw [h4]; rfl
  refine ⟨?_, ?_, by rw [hblk]; exact hok⟩
  all_goals
    intro data
    simp only [ChainHashModes.performBytes, ChainHashModes.performStr, hg1, hg2, hg3, Res.bind_ok]
    rw [hblk]
    have hpart := getPart_holding h3
    rw [← h4] at hpart
    obtain ⟨-, h6, h7⟩ := h3
    cases hm : d.mode
  all_goals rw [hm] at h5 h6 hpart
  case normal => rfl
  case normal => rfl
  case constSalt | constSalt =>
    have e : modeParts CHMode.constSalt.num = [("S", none)] := rfl
    rw [e] at h5 hpart
    rcases acc with _ | ⟨a, _ | ⟨b, acc⟩⟩ <;> simp at h5
    have p0 := hpart 0 "S" none rfl
    simp only [List.getElem?_cons_zero] at p0
    simp [p0, argsOf, ModeArgs.runBytes, ModeArgs.runStr, bytesToString_full]
  case count | count =>
    have e : modeParts CHMode.count.num = [("SN", some 8)] := rfl
    rw [e] at h5 h6 hpart
    rcases acc with _ | ⟨a, _ | ⟨b, acc⟩⟩ <;> simp at h5
    have p0 := hpart 0 "SN" (some 8) rfl
    have l0 := h6 0 a _ 8 rfl rfl
    simp only [List.getElem?_cons_zero] at p0
    simp [p0, argsOf, ModeArgs.runBytes, ModeArgs.runStr, toLong_full a l0]
  case constCount | constCount =>
    have e : modeParts CHMode.constCount.num = [("SN", some 8), ("S", none)] := rfl
    rw [e] at h5 h6 hpart
    rcases acc with _ | ⟨a, _ | ⟨b, _ | ⟨c, acc⟩⟩⟩ <;> simp at h5
    have p0 := hpart 0 "SN" (some 8) rfl
    have p1 := hpart 1 "S" none rfl
    have l0 := h6 0 a _ 8 rfl rfl
    simp only [List.getElem?_cons_zero, List.getElem?_cons_succ] at p0 p1
    have t0 : List.take 8 (a ++ b) = a := by rw [List.take_append_of_le_length (by omega), List.take_of_length_le (by omega)]
    have t1 : List.drop 8 (a ++ b) = b := by rw [← l0, List.drop_left]
    simp [p0, p1, argsOf, ModeArgs.runBytes, ModeArgs.runStr, toLong_full a l0, bytesToString_full, t0, t1]
  case quad | quad =>
    have e : modeParts CHMode.quad.num = [("SN", some 8), ("A", some 8), ("B", some 8), ("C", some 8)] := rfl
    rw [e] at h5 h6 hpart
    rcases acc with _ | ⟨a, _ | ⟨b, _ | ⟨c, _ | ⟨f, _ | ⟨g, acc⟩⟩⟩⟩⟩ <;> simp at h5
    have p0 := hpart 0 "SN" (some 8) rfl
    have p1 := hpart 1 "A" (some 8) rfl
    have p2 := hpart 2 "B" (some 8) rfl
    have p3 := hpart 3 "C" (some 8) rfl
    have l0 := h6 0 a _ 8 rfl rfl
    have l1 := h6 1 b _ 8 rfl rfl
    have l2 := h6 2 c _ 8 rfl rfl
    have l3 := h6 3 f _ 8 rfl rfl
    simp only [List.getElem?_cons_zero, List.getElem?_cons_succ] at p0 p1 p2 p3
    have hflat : [a, b, c, f].flatten = a ++ (b ++ (c ++ f)) := by simp
    have d1 : List.drop 8 (a ++ (b ++ (c ++ f))) = b ++ (c ++ f) := by rw [← l0, List.drop_left]
    have d2 : List.drop 16 (a ++ (b ++ (c ++ f))) = c ++ f := by
      rw [show 16 = 8 + 8 from rfl, ← List.drop_drop, d1, ← l1, List.drop_left]
    have d3 : List.drop 24 (a ++ (b ++ (c ++ f))) = f := by
      rw [show 24 = 16 + 8 from rfl, ← List.drop_drop, d2, ← l2, List.drop_left]
    have t : ∀ x y : List Byte, x.length = 8 → List.take 8 (x ++ y) = x := by
      intro x y h
      rw [← h, List.take_left]
    have t3 : List.take 8 f = f := List.take_of_length_le (by omega)
    simp only [p0, p1, p2, p3, argsOf, ModeArgs.runBytes, ModeArgs.runStr, toLong_full a l0, toLong_full b l1,
      toLong_full c l2, toLong_full f l3, hflat, d1, d2, d3, t a _ l0, t b _ l1, t c _ l2, t3, Res.bind_ok]

end Verif
