import Verif.Spec.PasswordData

/-! Lemmas about the password list. -/
namespace Verif.Pw
open Spec

/-! ### the map -/

def all (m : SiteMap) : List Entry := m.flatMap entriesOf

theorem put_new (m : SiteMap) (k : Text) (v : List SiteSet) (h : m.has k = false) : m.put k v = m ++ [(k, v)] := by
  induction m with
  | nil => rfl
  | cons x m ih =>
    simp only [SiteMap.has, List.any_cons, Bool.or_eq_false_iff] at h
    have := ih h.2
    simp only [SiteMap.put, h.1, List.cons_append]
    rw [if_neg (by simp), this]

theorem at_new (m : SiteMap) (k : Text) (h : m.has k = false) : m.at k = [] := by
  unfold SiteMap.at
  have : m.find? (fun x => x.1 == k) = none := by
    rw [List.find?_eq_none]
    intro x hx
    have := List.any_eq_false.mp h x hx
    simpa using this
  rw [this]

theorem at_cons (x : Text × List SiteSet) (m : SiteMap) (k : Text) :
    SiteMap.at (x :: m) k = if x.1 = k then x.2 else SiteMap.at m k := by
  unfold SiteMap.at
  rw [List.find?_cons]
  by_cases h : x.1 = k
  · simp [h]
  · have : (x.1 == k) = false := by simpa using h
    simp [h, this]

theorem put_cons (x : Text × List SiteSet) (m : SiteMap) (k : Text) (v : List SiteSet) :
    SiteMap.put (x :: m) k v = if x.1 = k then (k, v) :: m else x :: SiteMap.put m k v := by
  by_cases h : x.1 = k <;> simp [SiteMap.put, h]

theorem has_cons (x : Text × List SiteSet) (m : SiteMap) (k : Text) :
    SiteMap.has (x :: m) k = (decide (x.1 = k) || SiteMap.has m k) := by
  by_cases h : x.1 = k <;> simp [SiteMap.has, h]

theorem at_put (m : SiteMap) (k k' : Text) (v : List SiteSet) :
    (m.put k v).at k' = if k = k' then v else m.at k' := by
  induction m with
  | nil => simp only [SiteMap.put, at_cons]
  | cons x m ih =>
    rw [put_cons]
    by_cases h : x.1 = k
    · rw [if_pos h, at_cons, at_cons]
      by_cases h' : k = k'
      · simp [h']
      · simp [h', h]
    · rw [if_neg h, at_cons, at_cons, ih]
      by_cases h' : k = k'
      · subst h'
        simp [h]
      · simp [h']

theorem keys_put (m : SiteMap) (k : Text) (v : List SiteSet) :
    (m.put k v).map (·.1) = if m.has k then m.map (·.1) else m.map (·.1) ++ [k] := by
  induction m with
  | nil => rfl
  | cons x m ih =>
    rw [put_cons, has_cons]
    by_cases h : x.1 = k
    · simp [h]
    · rw [if_neg h]
      simp only [h, decide_false, Bool.false_or, List.map_cons, ih]
      split <;> simp

theorem has_iff (m : SiteMap) (k : Text) : m.has k = true ↔ k ∈ m.map (·.1) := by
  simp [SiteMap.has]

theorem nodup_put (m : SiteMap) (k : Text) (v : List SiteSet) (h : (m.map (·.1)).Nodup) :
    ((m.put k v).map (·.1)).Nodup := by
  rw [keys_put]
  split
  · exact h
  · rename_i hk
    rw [List.nodup_append]
    refine ⟨h, by simp, ?_⟩
    rintro a ha b hb rfl
    simp only [List.mem_singleton] at hb
    subst hb
    exact hk ((has_iff m _).mpr ha)

theorem all_put_append (m : SiteMap) (k : Text) (s : SiteSet) :
    (all (m.put k (m.at k ++ [s]))).Perm (all m ++ [⟨k, s.username, s.email, s.password⟩]) := by
  induction m with
  | nil => simp [SiteMap.put, SiteMap.at, all, entriesOf]
  | cons x m ih =>
    rw [put_cons, at_cons]
    by_cases h : x.1 = k
    · subst h
      simp only [if_true, all, List.flatMap_cons, entriesOf, List.map_append, List.map_cons, List.map_nil,
        List.append_assoc]
      exact List.Perm.append_left _ (List.perm_append_comm)
    · simp only [if_neg h, all, List.flatMap_cons, List.append_assoc]
      exact List.Perm.append_left _ ih

theorem all_filter (P : Text → Bool) (m : SiteMap) :
    all (m.filter fun x => P x.1) = (all m).filter fun p => P p.site := by
  induction m with
  | nil => rfl
  | cons x m ih =>
    have hx : (entriesOf x).filter (fun p => P p.site) = if P x.1 then entriesOf x else [] := by
      split
      · rw [List.filter_eq_self]
        rintro p hp
        obtain ⟨s, -, rfl⟩ := List.mem_map.mp hp
        assumption
      · rw [List.filter_eq_nil_iff]
        rintro p hp
        obtain ⟨s, -, rfl⟩ := List.mem_map.mp hp
        assumption
    simp only [List.filter_cons, all, List.flatMap_cons, List.filter_append, hx]
    split
    · simp only [List.flatMap_cons]
      rw [← all, ih, all]
    · rw [← all, ih, all]
      simp

theorem all_site (m : SiteMap) (h : (m.map (·.1)).Nodup) (k : Text) :
    (all m).filter (fun p => p.site = k) = entriesOf (k, m.at k) := by
  rw [← all_filter (fun x => decide (x = k))]
  induction m with
  | nil => rfl
  | cons x m ih =>
    rw [List.map_cons, List.nodup_cons] at h
    rw [at_cons]
    by_cases hk : x.1 = k
    · subst hk
      have hn : m.filter (fun y => decide (y.1 = x.1)) = [] := by
        rw [List.filter_eq_nil_iff]
        intro y hy hy'
        exact h.1 (List.mem_map.mpr ⟨y, hy, by simpa using hy'⟩)
      simp [all, hn]
    · simp only [List.filter_cons, hk, decide_false, if_false, Bool.false_eq_true]
      exact ih h.2

theorem at_perm {m it : SiteMap} (hp : it.Perm m) (h : (m.map (·.1)).Nodup) (k : Text) :
    entriesOf (k, it.at k) = entriesOf (k, m.at k) := by
  have h' : (it.map (·.1)).Nodup := ((hp.map _).nodup_iff).mpr h
  rw [← all_site m h, ← all_site it h', ← all_filter (fun x => decide (x = k)), ← all_filter (fun x => decide (x = k))]
  have hf : (it.filter fun x => decide (x.1 = k)).Perm (m.filter fun x => decide (x.1 = k)) := hp.filter _
  have hlen : ∀ m : SiteMap, (m.map (·.1)).Nodup → (m.filter fun x => decide (x.1 = k)).length ≤ 1 := by
    intro m
    induction m with
    | nil => intro _; simp
    | cons x m ih =>
      intro hn
      rw [List.map_cons, List.nodup_cons] at hn
      by_cases hk : x.1 = k
      · subst hk
        have hn : m.filter (fun y => decide (y.1 = x.1)) = [] := by
          rw [List.filter_eq_nil_iff]
          intro y hy hy'
          exact hn.1 (List.mem_map.mpr ⟨y, hy, by simpa using hy'⟩)
        simp [hn]
      · simp only [List.filter_cons, hk, decide_false, if_false, Bool.false_eq_true]
        exact ih hn.2
  have h1 := hlen m h
  revert hf h1
  generalize m.filter (fun x => decide (x.1 = k)) = M
  intro hf h1
  match M with
  | [] => rw [hf.eq_nil]
  | [x] => rw [List.perm_singleton.mp hf]
  | x :: y :: l => simp at h1

/-! ### matching -/

theorem lower_same (a b : Byte) : lower a = lower b ↔ SameLetter a b := by
  have : ∀ a b : Byte, decide (lower a = lower b) =
      decide (a = b ∨ (65 ≤ a ∧ a ≤ 90 ∧ b = a + 32) ∨ (65 ≤ b ∧ b ≤ 90 ∧ a = b + 32)) := by
    intro a b
    apply Bool.eq_iff_iff.mpr
    simp only [decide_eq_true_eq]
    unfold lower
    have ha := a.toNat_lt
    have hb := b.toNat_lt
    simp only [UInt8.le_iff_toNat_le, ← UInt8.toNat_inj, apply_ite UInt8.toNat, UInt8.toNat_add]
    simp only [UInt8.toNat_ofNat]
    split <;> split <;> omega
  have h := this a b
  simp only [decide_eq_decide] at h
  exact h

theorem sameText_iff (s t : Text) : SameText s t ↔ s.map lower = t.map lower := by
  induction s generalizing t with
  | nil => cases t <;> simp [SameText]
  | cons a s ih =>
    cases t with
    | nil => simp [SameText]
    | cons b t => simp [SameText, ih, lower_same]

theorem contains_iff (t s : Text) : contains t s = true ↔ ∃ a b, s = a ++ t ++ b := by
  induction s with
  | nil =>
    simp only [contains, List.isEmpty_iff]
    constructor
    · rintro rfl; exact ⟨[], [], rfl⟩
    · rintro ⟨a, b, h⟩
      simp only [List.nil_eq, List.append_eq_nil_iff] at h
      exact h.1.2
  | cons c s ih =>
    simp only [contains, Bool.or_eq_true, ih, List.isPrefixOf_iff_prefix]
    constructor
    · rintro (⟨b, hb⟩ | ⟨a, b, h⟩)
      · exact ⟨[], b, by simp [hb]⟩
      · exact ⟨c :: a, b, by simp [h]⟩
    · rintro ⟨a, b, h⟩
      cases a with
      | nil => left; exact ⟨b, by simpa using h.symm⟩
      | cons x a =>
        right
        simp only [List.cons_append, List.cons.injEq] at h
        exact ⟨a, b, h.2⟩

theorem map_split {f : Byte → Byte} : ∀ {s a b c : Text}, s.map f = a ++ b ++ c →
    ∃ p m q, s = p ++ m ++ q ∧ m.map f = b := by
  intro s a b c h
  refine ⟨s.take a.length, (s.drop a.length).take b.length, (s.drop a.length).drop b.length, ?_, ?_⟩
  · rw [List.append_assoc, List.take_append_drop, List.take_append_drop]
  · rw [List.map_take, List.map_drop, h, List.append_assoc, List.drop_left, List.take_left]

theorem matches_iff (text : Text) (p : Entry) :
    Matches text p ↔ contains (text.map lower) (p.site.map lower) = true := by
  rw [contains_iff]
  constructor
  · rintro ⟨a, m, b, h, hm⟩
    rw [sameText_iff] at hm
    exact ⟨a.map lower, b.map lower, by rw [h, ← hm]; simp⟩
  · rintro ⟨a, b, h⟩
    obtain ⟨p', m, q, h1, h2⟩ := map_split h
    exact ⟨p', m, q, h1, (sameText_iff _ _).mpr h2⟩

/-! ### adding -/

theorem isValid_iff (p : Entry) : p.isValid = true ↔ Storable p := by
  unfold Entry.isValid Storable
  constructor
  · intro h
    split at h
    · cases h
    split at h
    · cases h
    split at h
    · cases h
    split at h
    · cases h
    omega
  · rintro ⟨h1, h2, h3, h4⟩
    rw [if_neg (by omega), if_neg (by omega), if_neg (by omega), if_neg (by omega)]

theorem make_ok {u e p : Text} (hu : u.length ≤ 255) (he : e.length ≤ 255) (hp : p.length ≤ 255) :
    SiteSet.make u e p = .ok ⟨u, e, p⟩ := by
  unfold SiteSet.make SiteSet.setUsername SiteSet.setEmail SiteSet.setPassword
  rw [if_neg (by omega)]
  simp only [Res.bind_ok]
  rw [if_neg (by omega)]
  simp only [Res.bind_ok]
  rw [if_neg (by omega)]

/-- the map holds the entries of the list -/
structure Mirrors (m : SiteMap) (l : List Entry) : Prop where
  nodup : (m.map (·.1)).Nodup
  perm : (all m).Perm l
  site : ∀ k, entriesOf (k, m.at k) = l.filter fun p => p.site = k

theorem mirrors_nil : Mirrors [] [] := ⟨by simp, by simp [all], fun k => rfl⟩

theorem addPw_refused (m : SiteMap) (p : Entry) (h : ¬ Storable p) : addPw m p = .exn .invalidArgument := by
  unfold addPw
  rw [if_pos]
  cases hv : p.isValid with
  | false => rfl
  | true => exact absurd ((isValid_iff p).mp hv) h

theorem addPw_ok (m : SiteMap) (p : Entry) (h : Storable p) {l : List Entry} (hm : Mirrors m l) :
    ∃ m', addPw m p = .ok m' ∧ Mirrors m' (l ++ [p]) := by
  have hv := (isValid_iff p).mpr h
  obtain ⟨h1, h2, h3, h4⟩ := h
  let m1 := if m.has p.site = false then m.put p.site [] else m
  have hm1 : Mirrors m1 l := by
    by_cases hh : m.has p.site = false
    · have he : m1 = m ++ [(p.site, [])] := by
        simp only [m1, if_pos hh, put_new m _ _ hh]
      have ha : all m1 = all m := by rw [he]; simp [all, entriesOf]
      have hat : ∀ k, m1.at k = m.at k := by
        intro k
        simp only [m1, if_pos hh, at_put]
        split
        · rename_i hk; subst hk; rw [at_new _ _ hh]
        · rfl
      exact ⟨by simp only [m1, if_pos hh]; exact nodup_put _ _ _ hm.nodup, by rw [ha]; exact hm.perm,
        fun k => by rw [hat]; exact hm.site k⟩
    · have : m1 = m := by simp only [m1, if_neg hh]
      rw [this]; exact hm
  refine ⟨m1.put p.site (m1.at p.site ++ [⟨p.username, p.email, p.password⟩]), ?_, ?_⟩
  · unfold addPw
    rw [if_neg (by rw [hv]; simp)]
    simp only [make_ok h2 h3 h4, Res.bind_ok]
    rfl
  · refine ⟨nodup_put _ _ _ hm1.nodup, (all_put_append m1 p.site _).trans (hm1.perm.append_right _), fun k => ?_⟩
    rw [at_put, List.filter_append]
    by_cases hk : p.site = k
    · subst hk
      have := hm1.site p.site
      simp only [entriesOf] at this
      simp only [if_true, entriesOf, List.map_append, this, List.map_cons, List.map_nil, List.filter_cons, decide_true,
        List.filter_nil]
    · simp [hk, hm1.site k]

/-! ### loading -/

theorem readField_framed (x d : Text) (h : x.length ≤ 255) : readField (framed x ++ d) = some (x, d) := by
  have hn : (UInt8.ofNat x.length).toNat = x.length := by
    rw [UInt8.toNat_ofNat_of_lt' (by simp [UInt8.size]; omega)]
  simp [readField, popFirst, framed, hn]

theorem readField_some {d x r : Text} (h : readField d = some (x, r)) : x.length ≤ 255 ∧ d = framed x ++ r := by
  cases d with
  | nil => simp [readField, popFirst] at h
  | cons n d =>
    simp only [readField, popFirst, List.length_cons, Nat.le_add_left, if_true, List.take_succ_cons, List.take_zero,
      List.drop_succ_cons, List.drop_zero] at h
    split at h
    · simp only [Option.some.injEq, Prod.mk.injEq] at h
      have hn := n.toNat_lt
      have hl : x.length = n.toNat := by rw [← h.1, List.length_take]; omega
      refine ⟨by omega, ?_⟩
      simp only [framed, hl, UInt8.ofNat_toNat, List.cons_append, List.cons.injEq, true_and]
      rw [← h.1, ← h.2, List.take_append_drop]
    · cases h

theorem setLast_empty {m : SiteMap} {site : Text} (f : SiteSet → Res SiteSet) (h : m.at site = []) :
    setLast m site f = .fatal .ub := by simp [setLast, h]

/-- loading into an empty list: nothing but an empty file works -/
theorem readSets_nil (n : Nat) (d : Text) : readSets (n + 1) [] d =
    if d = [] then .ok ([], .success ()) else
    match readField d with
    | none => .ok ([], .fail .ERR_FILEDATA_INVALID)
    | some (site, r) =>
      match readField r with
      | none => .ok ([(site, [])], .fail .ERR_FILEDATA_INVALID)
      | some _ => .fatal .ub := by
  unfold readSets
  by_cases hd : d = []
  · simp [hd]
  · have hl : ¬ d.length = 0 := by simpa using hd
    rw [if_neg hl, if_neg hd]
    unfold readSet
    cases h1 : readField d with
    | none => rfl
    | some x =>
      obtain ⟨site, r⟩ := x
      simp only
      have ho : openSite [] site = [(site, [])] := rfl
      cases h2 : readField r with
      | none => rfl
      | some y =>
        obtain ⟨u, r'⟩ := y
        simp only [ho]
        rw [setLast_empty _ (by simp [SiteMap.at])]
        rfl

theorem load_eq (m : SiteMap) (b : Bytes) : constructFileData m ⟨some 1, some b⟩ =
    if b.data = [] then .ok ([], .success ()) else
    match readField b.data with
    | none => .ok ([], .fail .ERR_FILEDATA_INVALID)
    | some (site, r) =>
      match readField r with
      | none => .ok ([(site, [])], .fail .ERR_FILEDATA_INVALID)
      | some _ => .fatal .ub := by
  have : constructFileData m ⟨some 1, some b⟩ = Res.noexcept (readSets (b.data.length + 1) [] b.data) := rfl
  rw [this, readSets_nil]
  split
  · rfl
  · cases h1 : readField b.data with
    | none => rfl
    | some x =>
      obtain ⟨site, r⟩ := x
      simp only
      cases h2 : readField r with
      | none => rfl
      | some y => rfl

theorem load_returns {m m' : SiteMap} {f : FileDataStruct} {o : Out Unit} (h : constructFileData m f = .ok (m', o)) :
    (f.fileMode ≠ some 1 ∧ m' = m ∧ o = .fail .ERR_FILEMODE_INVALID) ∨
    (f.fileMode = some 1 ∧ (m' = [] ∨ ∃ site, m' = [(site, [])]) ∧
      (o = .success () → ∃ b, f.decData = some b ∧ b.data = [])) := by
  obtain ⟨mode, dat⟩ := f
  cases mode with
  | none => cases h
  | some md =>
    by_cases hm : md = 1
    · subst hm
      right
      cases dat with
      | none => cases h
      | some b =>
        rw [load_eq] at h
        split at h
        · rename_i hb
          cases h
          exact ⟨rfl, .inl rfl, fun _ => ⟨b, rfl, hb⟩⟩
        · cases h1 : readField b.data with
          | none =>
            rw [h1] at h
            cases h
            exact ⟨rfl, .inl rfl, nofun⟩
          | some x =>
            obtain ⟨site, r⟩ := x
            rw [h1] at h
            simp only at h
            cases h2 : readField r with
            | none =>
              rw [h2] at h
              cases h
              exact ⟨rfl, .inr ⟨site, rfl⟩, nofun⟩
            | some y => rw [h2] at h; cases h
    · left
      have : constructFileData m ⟨some md, dat⟩ = .ok (m, .fail .ERR_FILEMODE_INVALID) := by
        have h1 : FileDataStruct.getFileMode ⟨some md, dat⟩ = .ok md := rfl
        unfold constructFileData
        rw [h1]
        simp only [Res.bind_ok, ne_eq, hm, not_false_eq_true, if_true]
        rfl
      rw [this] at h
      cases h
      exact ⟨by simpa using hm, rfl, rfl⟩

/-! ### histories -/

theorem call_mirrors {m m' : SiteMap} {l : List Entry} {c : Call} (hm : Mirrors m l) (h : call m c = .ok m') :
    Mirrors m' (ledger l [c]) := by
  cases c with
  | add p =>
    by_cases hp : Storable p
    · obtain ⟨m1, h1, h2⟩ := addPw_ok m p hp hm
      simp only [call, h1] at h
      cases h
      simpa [ledger, hp] using h2
    · simp only [call, addPw_refused m p hp] at h
      cases h
      simpa [ledger, hp] using hm
  | rem p => cases h; exact hm
  | edit p => cases h; exact hm
  | load f =>
    simp only [call] at h
    obtain ⟨⟨m1, o⟩, h1, h2⟩ := Res.bind_eq_ok.mp h
    cases h2
    rcases load_returns h1 with ⟨h3, rfl, -⟩ | ⟨h3, h4, -⟩
    · simpa [ledger, h3] using hm
    · simp only [ledger, h3, if_true]
      rcases h4 with rfl | ⟨site, rfl⟩
      · exact mirrors_nil
      · refine ⟨by simp, by simp [all, entriesOf], fun k => ?_⟩
        by_cases hk : site = k <;> simp [hk, entriesOf, SiteMap.at]

theorem ledger_cons (l : List Entry) (c : Call) (cs : List Call) : ledger l (c :: cs) = ledger (ledger l [c]) cs := by
  cases c <;> rfl

theorem calls_mirrors {m m' : SiteMap} {l : List Entry} {cs : List Call} (hm : Mirrors m l) (h : calls m cs = .ok m') :
    Mirrors m' (ledger l cs) := by
  induction cs generalizing m l with
  | nil => cases h; exact hm
  | cons c cs ih =>
    obtain ⟨m1, h1, h2⟩ := Res.bind_eq_ok.mp h
    rw [ledger_cons]
    exact ih (call_mirrors hm h1) h2

/-! ### saving -/

theorem addMixed_ne {mixed : Text → Res Text} {ret t b : Text} (h : addMixed mixed ret t = .ok b) : b ≠ [] := by
  obtain ⟨v, -, h2⟩ := Res.bind_eq_ok.mp h
  cases h2
  simp

theorem addSet_ne {mixed : Text → Res Text} {ret site b : Text} {x : SiteSet} (h : addSet mixed ret site x = .ok b) :
    b ≠ [] := by
  obtain ⟨v, -, h2⟩ := Res.bind_eq_ok.mp h
  obtain ⟨v, -, h2⟩ := Res.bind_eq_ok.mp h2
  exact addMixed_ne h2

theorem addSiteSets_ne {mixed : Text → Res Text} {site : Text} {xs : List SiteSet} : ∀ {ret b : Text},
    addSiteSets mixed ret site xs = .ok b → b ≠ [] := by
  induction xs with
  | nil => intro ret b h; cases h
  | cons x xs ih =>
    intro ret b h
    cases xs with
    | nil => exact addSet_ne h
    | cons y ys =>
      obtain ⟨v, -, h2⟩ := Res.bind_eq_ok.mp h
      exact ih h2

theorem addSites_ne {mixed : Text → Res Text} {m : SiteMap} : ∀ {ret b : Text}, addSites mixed ret m = .ok b →
    (ret ≠ [] ∨ m ≠ []) → b ≠ [] := by
  induction m with
  | nil =>
    intro ret b h hr
    cases h
    rcases hr with hr | hr
    · exact hr
    · exact absurd rfl hr
  | cons x m ih =>
    intro ret b h _
    unfold addSites at h
    split at h
    · cases h
    · obtain ⟨v, h1, h2⟩ := Res.bind_eq_ok.mp h
      exact ih h2 (.inl (addSiteSets_ne h1))

end Verif.Pw
