import Verif.Spec.SharedTimed
import Verif.Lemmas.Shared

namespace Verif.Timed
open Spec

/-- the pointer leads to an object -/
def RefOk (s : Sys) (d : Desc) : Prop := ∀ i, d.ref = some i → i < s.store.length

/-- a data object as the public interface makes it -/
def GoodData (c : ChainHashData) : Prop := c.block.cap = 255 ∧ c.block.data.length ≤ 255 ∧ c.ind ≤ c.mode.nameLens.length

theorem nameLens_le (m : CHMode) : m.nameLens.length ≤ 4 := by cases m <;> simp [CHMode.nameLens]

theorem addBytes_good {c : ChainHashData} (h : GoodData c) (b : Bytes) :
    (∃ e, c.addBytes b = .exn e) ∨ ∃ c', c.addBytes b = .ok c' ∧ GoodData c' ∧ c.isComplete = false := by
  obtain ⟨m, ⟨blk, cap⟩, ind⟩ := c
  obtain ⟨h1, h2, h3⟩ := h
  simp only at h1 h2 h3
  subst h1
  by_cases hc : ind = m.nameLens.length
  · left; exact ⟨_, by simp [ChainHashData.addBytes, ChainHashData.isComplete, hc]; rfl⟩
  · have hlt : ind < m.nameLens.length := by omega
    have h4 := nameLens_le m
    have h5 := addBytes_eq m blk ind b _ h2 (List.getElem?_eq_getElem hlt)
    rw [h5]
    split
    · exact .inl ⟨_, rfl⟩
    · split
      · exact .inl ⟨_, rfl⟩
      · refine .inr ⟨_, rfl, ⟨rfl, ?_, ?_⟩, by simpa [ChainHashData.isComplete] using hc⟩
        · simp only [List.length_append]; omega
        · simp only; omega

theorem take_length (r : Rand) (n : Nat) : (r.take n).length = n := by simp [Rand.take]

theorem generate_good {c : ChainHashData} (h : GoodData c) (r : Rand) :
    (∃ e, c.generateRandomData r = .exn e) ∨ (∃ c', c.generateRandomData r = .ok c' ∧ GoodData c' ∧
      c'.mode = c.mode ∧ c'.isComplete = true) ∨ (r.good = false ∧ c.generateRandomData r = .fatal .terminate) := by
  obtain ⟨m, ⟨blk, cap⟩, ind⟩ := c
  obtain ⟨h1, h2, h3⟩ := h
  simp only at h1 h2 h3
  subst h1
  rcases Classical.em (blk = []) with he | he
  case inr => left; exact ⟨.pointer, by simp [ChainHashData.generateRandomData, Bytes.isEmpty, Bytes.len, he]⟩
  subst he
  by_cases hg : r.good = true
  · right; left
    have hs : ∀ m : CHMode, ChainHashData.datablockSize m ≤ 32 := by
      intro m; cases m <;> decide
    have hr : ∀ n, n ≤ 255 → Bytes.randomBytes r n = .ok (r.take n) := by
      intro n hn
      unfold Bytes.randomBytes
      rw [if_neg (by simp only [hg, Bool.true_eq_false, or_false]; omega), if_neg (by omega)]
    have := hs m
    by_cases hst : ChainHashData.isStar m = true
    · refine ⟨_, by simp [ChainHashData.generateRandomData, Bytes.isEmpty, Bytes.len, hst, Bytes.fillrandom, hr]; rfl, ?_⟩
      refine ⟨⟨rfl, ?_, Nat.le_refl _⟩, rfl, by simp [ChainHashData.isComplete]⟩
      simp [take_length]
    · refine ⟨_, by
        simp [ChainHashData.generateRandomData, Bytes.isEmpty, Bytes.len, hst, Bytes.addrandom,
          hr (ChainHashData.datablockSize m) (by omega), show ¬ 255 < ChainHashData.datablockSize m by omega]
        rfl, ?_⟩
      refine ⟨⟨rfl, ?_, Nat.le_refl _⟩, rfl, by simp [ChainHashData.isComplete]⟩
      simp only [take_length]; omega
  · have hg : r.good = false := by simpa using hg
    have hr : ∀ n, Bytes.randomBytes r n = .exn .runtimeError := by
      intro n; unfold Bytes.randomBytes; rw [if_pos (by simp [hg])]
    by_cases hst : ChainHashData.isStar m = true
    · right; right
      exact ⟨hg, by simp [ChainHashData.generateRandomData, Bytes.isEmpty, Bytes.len, hst, Bytes.fillrandom, hr]⟩
    · left
      have hs : ∀ m : CHMode, ChainHashData.datablockSize m ≤ 32 := by
        intro m; cases m <;> decide
      have := hs m
      exact ⟨.runtimeError, by
        simp [ChainHashData.generateRandomData, Bytes.isEmpty, Bytes.len, hst, Bytes.addrandom, hr,
          show ¬ 255 < ChainHashData.datablockSize m by omega,
          show ¬ (ChainHashData.datablockSize m : Int) < 0 by omega]⟩

theorem check_spec (s : Sys) (d : Desc) (hr : RefOk s d) :
    (∃ d', s.check d = .ok d' ∧ d'.mode = d.mode ∧ d'.ref = d.ref ∧ d'.time = d.time ∧
      (d'.val = true ↔ TimedValid s d')) ∨
    (s.check d = .fatal .ub ∧ d.mode ≠ none ∧ d.ref ≠ none ∧ d.time = none) := by
  unfold Sys.check Sys.data
  cases hm : d.mode with
  | none => exact .inl ⟨_, rfl, rfl, rfl, rfl, by simp [TimedValid]⟩
  | some m =>
    cases hf : d.ref with
    | none => exact .inl ⟨_, rfl, rfl, rfl, rfl, by simp [TimedValid]⟩
    | some i =>
      have ho := List.getElem?_eq_getElem (hr i hf)
      simp only [Option.bind_some, ho]
      cases ht : d.time with
      | none => exact .inr ⟨rfl, by simp, by simp, rfl⟩
      | some t =>
        refine .inl ⟨_, rfl, rfl, rfl, rfl, ?_⟩
        simp only [Bool.and_eq_true, decide_eq_true_eq, ChainHashData.isCompletedFormat, beq_iff_eq,
          ChainHashData.isComplete, TimedValid, Option.some.injEq]
        constructor
        · rintro ⟨⟨h1, h2⟩, h3, h4⟩
          exact ⟨m, i, _, t, rfl, rfl, ho, h3.symm, h4, rfl, by omega, by simpa [maxRuntime] using h2⟩
        · rintro ⟨m', i', o', t', rfl, rfl, h3, h4, h5, rfl, h6, h7⟩
          rw [ho] at h3
          cases h3
          exact ⟨⟨by omega, by simpa [maxRuntime] using h7⟩, h4.symm, h5⟩

theorem check_ub {s : Sys} {d : Desc} (hr : RefOk s d) (h1 : d.mode ≠ none) (h2 : d.ref ≠ none) (h3 : d.time = none) :
    s.check d = .fatal .ub := by
  unfold Sys.check Sys.data
  obtain ⟨m, hm⟩ := Option.ne_none_iff_exists'.mp h1
  obtain ⟨i, hi⟩ := Option.ne_none_iff_exists'.mp h2
  simp [hm, hi, h3, List.getElem?_eq_getElem (hr i hi)]

/-- what every program keeps -/
structure Inv (s : Sys) : Prop where
  good : ∀ c ∈ s.store, GoodData c
  refs : ∀ d ∈ s.descs, RefOk s d
  sound : ∀ d ∈ s.descs, d.val = true → TimedValid s d

/-- store `l'` keeps the complete objects of `l` complete and of the same mode -/
def Grows (l l' : List ChainHashData) : Prop :=
  l.length ≤ l'.length ∧ ∀ (i : Nat) (o : ChainHashData), l[i]? = some o → o.isComplete = true →
    ∃ o' : ChainHashData, l'[i]? = some o' ∧ o'.mode = o.mode ∧ o'.isComplete = true

theorem Grows.refl (l : List ChainHashData) : Grows l l := ⟨Nat.le_refl _, fun _ o h h' => ⟨o, h, rfl, h'⟩⟩

theorem Grows.valid {s s' : Sys} (h : Grows s.store s'.store) {d : Desc} (hd : TimedValid s d) : TimedValid s' d := by
  obtain ⟨m, i, o, t, h1, h2, h3, h4, h5, h6⟩ := hd
  obtain ⟨o', h7, h8, h9⟩ := h.2 i o h3 (by simp [ChainHashData.isComplete, h5])
  exact ⟨m, i, o', t, h1, h2, h7, by rw [h8, h4], by simpa [ChainHashData.isComplete] using h9, h6⟩

/-- descriptions after a step -/
def NewDescs (s : Sys) (ds : List Desc) : Prop :=
  ∀ d ∈ ds, d ∈ s.descs ∨ (∃ t, d = ⟨none, none, t, false⟩) ∨ (RefOk s d ∧ (d.val = true ↔ TimedValid s d))

/-- the objects a step leaves alone -/
def Untouched (s : Sys) (op : Op) (l : List ChainHashData) : Prop :=
  TimedQuietOp s op → ∀ d ∈ s.descs, ∀ i, d.ref = some i → l[i]? = s.store[i]?

theorem putData_shape {s : Sys} (h : Inv s) {i : Nat} {c : ChainHashData} (hc : s.store[i]? = some c)
    (x : Res ChainHashData) (op : Op) (hop : TimedQuietOp s op → ∀ d ∈ s.descs, d.ref ≠ some i)
    (hx : (∃ e, x = .exn e) ∨ (∃ c', x = .ok c' ∧ GoodData c' ∧
      (c.isComplete = true → c'.mode = c.mode ∧ c'.isComplete = true))) :
    ∃ l, s.putData i x = .ok { s with store := l } ∧ Grows s.store l ∧ (∀ c ∈ l, GoodData c) ∧ Untouched s op l := by
  rcases hx with ⟨e, rfl⟩ | ⟨c', rfl, hg, hk⟩
  · exact ⟨s.store, rfl, .refl _, h.good, fun _ _ _ _ _ => rfl⟩
  · refine ⟨s.store.set i c', rfl, ⟨by simp, ?_⟩, ?_, ?_⟩
    · intro j o h1 h2
      by_cases hij : i = j
      · subst hij
        rw [hc] at h1; cases h1
        have hj := (List.getElem?_eq_some_iff.mp hc).1
        exact ⟨c', by simp [hj], hk h2⟩
      · exact ⟨o, by simp [hij, h1], rfl, h2⟩
    · intro c hcm
      rcases List.mem_or_eq_of_mem_set hcm with h1 | h1
      · exact h.good c h1
      · exact h1 ▸ hg
    · intro hq d hd j hj
      have : i ≠ j := by rintro rfl; exact hop hq d hd hj
      simp [this]

theorem put_shape {s : Sys} (k : Nat) {d : Desc} (hr : RefOk s d) :
    (∃ ds, s.put k d = .ok { s with descs := ds } ∧ NewDescs s ds) ∨
    (s.put k d = .fatal .ub ∧ d.mode ≠ none ∧ d.ref ≠ none ∧ d.time = none) := by
  unfold Sys.put
  rcases check_spec s d hr with ⟨d', h1, h2, h3, h4, h5⟩ | ⟨h1, h2⟩
  · left
    refine ⟨_, by rw [h1]; rfl, ?_⟩
    intro x hx
    rcases List.mem_or_eq_of_mem_set hx with h6 | h6
    · exact .inl h6
    · subst h6
      exact .inr (.inr ⟨fun i hi => hr i (h3 ▸ hi), h5⟩)
  · right
    exact ⟨by rw [h1]; rfl, h2⟩

theorem chmode_range {b : Byte} : (∃ m, CHMode.ofByte b = some m) ↔ 1 ≤ b.toNat ∧ b.toNat ≤ 5 := by
  have : ∀ n : Fin 256, (CHMode.ofByte (UInt8.ofNat n.1)).isSome = true ↔ 1 ≤ n.1 ∧ n.1 ≤ 5 := by decide +kernel
  have h := this ⟨b.toNat, b.toNat_lt⟩
  simp only [UInt8.ofNat_toNat] at h
  rw [← h, Option.isSome_iff_exists]

theorem ptr_ok {s : Sys} {ref : Option Nat} (h : s.ptr ref = true) (i : Nat) (hi : ref = some i) : i < s.store.length := by
  subst hi; simpa [Sys.ptr] using h

/-- all a step can do -/
theorem step_shape (s : Sys) (op : Op) (h : Inv s) :
    (∃ l, s.step op = .ok { s with store := l } ∧ Grows s.store l ∧ (∀ c ∈ l, GoodData c) ∧ Untouched s op l) ∨
    (∃ ds, s.step op = .ok { s with descs := ds } ∧ NewDescs s ds) ∨
    (s.step op = .fatal .terminate ∧ ∃ i r, op = .genRandom i r ∧ r.good = false) ∨
    (s.step op = .fatal .ub ∧ ReadsUnset s op) := by
  have stay : ∃ ds, (Res.ok s : Res Sys) = .ok { s with descs := ds } ∧ NewDescs s ds :=
    ⟨s.descs, rfl, fun d hd => .inl hd⟩
  have hd : ∀ {k : Nat} {d : Desc}, s.descs[k]? = some d → RefOk s d := fun hk => h.refs _ (List.mem_of_getElem? hk)
  cases op with
  | newData m =>
    refine .inl ⟨_, rfl, ⟨by simp, ?_⟩, ?_, ?_⟩
    · intro i o h1 h2
      have hi := (List.getElem?_eq_some_iff.mp h1).1
      exact ⟨o, by rw [List.getElem?_append_left hi]; exact h1, rfl, h2⟩
    · intro c hc
      rcases List.mem_append.mp hc with h1 | h1
      · exact h.good c h1
      · rw [List.mem_singleton] at h1
        subst h1
        exact ⟨rfl, by simp [ChainHashData.new, Bytes.empty], by simp [ChainHashData.new]⟩
    · intro _ d hdm i hi
      exact List.getElem?_append_left (h.refs d hdm i hi)
  | addPart i b =>
    simp only [Sys.step]
    split
    · exact .inr (.inl stay)
    · rename_i c hc
      refine .inl (putData_shape h hc _ _ (fun hq => hq) ?_)
      rcases addBytes_good (h.good c (List.mem_of_getElem? hc)) b with h1 | ⟨c', h1, h2, h3⟩
      · exact .inl h1
      · exact .inr ⟨c', h1, h2, fun hh => by rw [h3] at hh; cases hh⟩
  | genRandom i r =>
    simp only [Sys.step]
    split
    · exact .inr (.inl stay)
    · rename_i c hc
      rcases generate_good (h.good c (List.mem_of_getElem? hc)) r with h1 | ⟨c', h1, h2, h3⟩ | ⟨h1, h2⟩
      · exact .inl (putData_shape h hc _ _ (fun hq => hq) (.inl h1))
      · exact .inl (putData_shape h hc _ _ (fun hq => hq) (.inr ⟨c', h1, h2, fun _ => h3⟩))
      · exact .inr (.inr (.inl ⟨by rw [h2]; rfl, i, r, rfl, h1⟩))
  | newDesc =>
    refine .inr (.inl ⟨_, rfl, ?_⟩)
    intro d hdm
    rcases List.mem_append.mp hdm with h1 | h1
    · exact .inl h1
    · exact .inr (.inl ⟨_, List.mem_singleton.mp h1⟩)
  | newDescZero =>
    refine .inr (.inl ⟨_, rfl, ?_⟩)
    intro d hdm
    rcases List.mem_append.mp hdm with h1 | h1
    · exact .inl h1
    · exact .inr (.inl ⟨_, List.mem_singleton.mp h1⟩)
  | newDescWith m t ref =>
    simp only [Sys.step]
    split
    · exact .inr (.inl stay)
    · split
      · rename_i hp
        rcases check_spec s ⟨some _, ref, some t, false⟩ (fun i hi => ptr_ok hp i hi) with
          ⟨d', h1, h2, h3, h4, h5⟩ | ⟨-, -, -, h1⟩
        · refine .inr (.inl ⟨_, by rw [h1]; rfl, ?_⟩)
          intro d hdm
          rcases List.mem_append.mp hdm with h6 | h6
          · exact .inl h6
          · rw [List.mem_singleton] at h6
            subst h6
            exact .inr (.inr ⟨fun i hi => ptr_ok hp i (h3.symm.trans hi), h5⟩)
        · cases h1
      · exact .inr (.inl stay)
  | copy j =>
    simp only [Sys.step]
    split
    · exact .inr (.inl stay)
    · rename_i d hj
      split
      · rename_i ht
        exact .inr (.inr (.inr ⟨rfl, d, hj, ht⟩))
      · refine .inr (.inl ⟨_, rfl, ?_⟩)
        intro x hx
        rcases List.mem_append.mp hx with h6 | h6
        · exact .inl h6
        · rw [List.mem_singleton] at h6
          exact .inl (h6 ▸ List.mem_of_getElem? hj)
  | setTime k t =>
    simp only [Sys.step]
    split
    · exact .inr (.inl stay)
    · rename_i d hk
      rcases put_shape k (d := { d with time := some t }) (fun i hi => hd hk i hi) with h1 | ⟨-, -, -, h1⟩
      · exact .inr (.inl h1)
      · cases h1
  | setMode k m =>
    simp only [Sys.step]
    split
    · rename_i d m' hk hm
      rcases put_shape k (d := { d with mode := some m' }) (fun i hi => hd hk i hi) with h1 | ⟨h1, -, h2, h3⟩
      · exact .inr (.inl h1)
      · exact .inr (.inr (.inr ⟨h1, d, hk, h3, h2, chmode_range.mp ⟨m', hm⟩⟩))
    · exact .inr (.inl stay)
  | setData k ref =>
    simp only [Sys.step]
    split
    · exact .inr (.inl stay)
    · rename_i d hk
      split
      · rename_i hp
        rcases put_shape k (d := { d with ref := ref }) (fun i hi => ptr_ok hp i hi) with h1 | ⟨h1, h2, h3, h4⟩
        · exact .inr (.inl h1)
        · obtain ⟨i, hi⟩ := Option.ne_none_iff_exists'.mp h3
          exact .inr (.inr (.inr ⟨h1, d, i, hk, h4, h2, hi, ptr_ok hp i hi⟩))
      · exact .inr (.inl stay)
  | assign k j =>
    simp only [Sys.step]
    split
    · rename_i d0 src hk hj
      split
      · rename_i m t hm ht
        rcases put_shape k (d := ⟨some m, src.ref, some t, false⟩) (fun i hi => hd hj i hi) with h1 | ⟨-, -, -, h1⟩
        · exact .inr (.inl h1)
        · cases h1
      · rename_i f hf
        exfalso
        cases hv : src.val with
        | false => simp [Desc.getRunTime, hv] at hf
        | true =>
          obtain ⟨_, _, _, t, _, _, _, _, _, h6, _⟩ := h.sound src (List.mem_of_getElem? hj) hv
          simp [Desc.getRunTime, hv, h6] at hf
      · exact .inr (.inl stay)
    · exact .inr (.inl stay)

theorem valid_congr {s s' : Sys} (h : s'.store = s.store) (d : Desc) : TimedValid s' d ↔ TimedValid s d := by
  unfold TimedValid; rw [h]

theorem inv_step {s s' : Sys} {op : Op} (h : Inv s) (hs : s.step op = .ok s') : Inv s' := by
  rcases step_shape s op h with ⟨l, h1, h2, h3, -⟩ | ⟨ds, h1, h2⟩ | ⟨h1, -⟩ | ⟨h1, -⟩
  · rw [hs] at h1; cases h1
    refine ⟨h3, fun d hd i hi => Nat.lt_of_lt_of_le (h.refs d hd i hi) h2.1, fun d hd hv => ?_⟩
    exact Grows.valid (s := s) h2 (h.sound d hd hv)
  · rw [hs] at h1; cases h1
    refine ⟨h.good, fun d hd => ?_, fun d hd hv => ?_⟩
    · rcases h2 d hd with h3 | ⟨t, rfl⟩ | ⟨h3, -⟩
      · exact h.refs d h3
      · intro i hi; cases hi
      · exact h3
    · rcases h2 d hd with h3 | ⟨t, rfl⟩ | ⟨-, h3⟩
      · exact (valid_congr rfl d).mpr (h.sound d h3 hv)
      · cases hv
      · exact (valid_congr rfl d).mpr (h3.mp hv)
  · rw [hs] at h1; cases h1
  · rw [hs] at h1; cases h1

theorem inv_start : Inv ⟨[], []⟩ := ⟨by simp, by simp, by simp⟩

theorem runFrom_append (s : Sys) (l l' : List Op) : runFrom s (l ++ l') = (runFrom s l >>= fun s' => runFrom s' l') := by
  induction l generalizing s with
  | nil => rfl
  | cons op l ih =>
    show (s.step op >>= fun s' => runFrom s' (l ++ l')) = _
    cases h : s.step op with
    | ok s1 => simp only [Res.bind_ok, ih]; simp [runFrom, h]
    | exn e => simp [runFrom, h]
    | fatal f => simp [runFrom, h]

theorem run_snoc (l : List Op) (op : Op) : run (l ++ [op]) = (run l >>= fun s => s.step op) := by
  unfold run
  rw [runFrom_append]
  congr 1
  funext s
  cases h : s.step op <;> simp [runFrom, h]

/-- induction over the length of a program -/
theorem snoc_induction {P : List Op → Prop} (h0 : P []) (h1 : ∀ l op, P l → P (l ++ [op])) (l : List Op) : P l := by
  rw [← List.reverse_reverse l]
  induction l.reverse with
  | nil => exact h0
  | cons a l ih => rw [List.reverse_cons]; exact h1 _ _ ih

theorem inv_run (ops : List Op) : ∀ s, run ops = .ok s → Inv s := by
  induction ops using snoc_induction with
  | h0 => intro s h; cases h; exact inv_start
  | h1 l op ih =>
    intro s h
    rw [run_snoc] at h
    obtain ⟨s1, h2, h3⟩ := Res.bind_eq_ok.mp h
    exact inv_step (ih s1 h2) h3

theorem step_ub {s : Sys} (h : Inv s) {op : Op} (hr : ReadsUnset s op) : s.step op = .fatal .ub := by
  cases op with
  | copy k =>
    obtain ⟨d, h1, h2⟩ := hr
    simp [Sys.step, h1, h2]
  | setMode k m =>
    obtain ⟨d, h1, h2, h3, h4⟩ := hr
    obtain ⟨m', hm⟩ := chmode_range.mpr h4
    simp only [Sys.step, h1, hm, Sys.put]
    rw [check_ub (d := { d with mode := some m' }) (h.refs d (List.mem_of_getElem? h1)) (by simp) h3 h2]; rfl
  | setData k ref =>
    obtain ⟨d, i, h1, h2, h3, rfl, h4⟩ := hr
    simp only [Sys.step, h1, Sys.put]
    rw [if_pos (by simpa [Sys.ptr] using h4),
      check_ub (d := { d with ref := some i }) (fun j hj => by cases hj; exact h4) h3 (by simp) h2]; rfl
  | _ => exact hr.elim

theorem step_exn {s : Sys} (h : Inv s) (op : Op) (e : Exn) : s.step op ≠ .exn e := by
  rcases step_shape s op h with ⟨_, h1, -⟩ | ⟨_, h1, -⟩ | ⟨h1, -⟩ | ⟨h1, -⟩ <;> rw [h1] <;> simp

theorem run_exn (ops : List Op) (e : Exn) : run ops ≠ .exn e := by
  induction ops using snoc_induction with
  | h0 => simp [run, runFrom]
  | h1 l op ih =>
    rw [run_snoc]
    intro h
    rcases Res.bind_eq_exn.mp h with h1 | ⟨s, h1, h2⟩
    · exact ih h1
    · exact step_exn (inv_run l s h1) op e h2

theorem run_ub_iff (ops : List Op) : run ops = .fatal .ub ↔
    ∃ pre op post s, ops = pre ++ op :: post ∧ run pre = .ok s ∧ ReadsUnset s op := by
  constructor
  · induction ops using snoc_induction with
    | h0 => intro h; cases h
    | h1 l op ih =>
      intro h
      rw [run_snoc] at h
      rcases Res.bind_eq_fatal.mp h with h1 | ⟨s, h1, h2⟩
      · obtain ⟨pre, op', post, s, rfl, h3⟩ := ih h1
        exact ⟨pre, op', post ++ [op], s, by simp, h3⟩
      · refine ⟨l, op, [], s, rfl, h1, ?_⟩
        rcases step_shape s op (inv_run l s h1) with ⟨_, h3, -⟩ | ⟨_, h3, -⟩ | ⟨h3, -⟩ | ⟨-, h3⟩
        · rw [h2] at h3; cases h3
        · rw [h2] at h3; cases h3
        · rw [h2] at h3; cases h3
        · exact h3
  · rintro ⟨pre, op, post, s, rfl, h1, h2⟩
    unfold run at h1 ⊢
    rw [runFrom_append, h1]
    show (s.step op >>= _) = _
    rw [step_ub (inv_run pre s h1) h2]; rfl

theorem run_fatal (ops : List Op) (f : Fatal) (h : run ops = .fatal f) :
    f = .ub ∨ (f = .terminate ∧ ∃ i r, Op.genRandom i r ∈ ops ∧ r.good = false) := by
  induction ops using snoc_induction with
  | h0 => cases h
  | h1 l op ih =>
    rw [run_snoc] at h
    rcases Res.bind_eq_fatal.mp h with h1 | ⟨s, h1, h2⟩
    · rcases ih h1 with h3 | ⟨h3, i, r, h4, h5⟩
      · exact .inl h3
      · exact .inr ⟨h3, i, r, by simp [h4], h5⟩
    · rcases step_shape s op (inv_run l s h1) with ⟨_, h3, -⟩ | ⟨_, h3, -⟩ | ⟨h3, i, r, rfl, h4⟩ | ⟨h3, -⟩
      · rw [h2] at h3; cases h3
      · rw [h2] at h3; cases h3
      · rw [h2] at h3; cases h3; exact .inr ⟨rfl, i, r, by simp, h4⟩
      · rw [h2] at h3; cases h3; exact .inl rfl

/-- without a default-constructed description every run time is set -/
theorem times_set (ops : List Op) (hn : Op.newDesc ∉ ops) : ∀ s, run ops = .ok s → ∀ d ∈ s.descs, d.time ≠ none := by
  induction ops using snoc_induction with
  | h0 => intro s h; cases h; simp
  | h1 l op ih =>
    intro s h d hd
    rw [run_snoc] at h
    obtain ⟨s1, h2, h3⟩ := Res.bind_eq_ok.mp h
    have h4 := ih (fun h => hn (List.mem_append_left _ h)) s1 h2
    have hput : ∀ (k : Nat) (x : Desc) (s' : Sys), s1.put k x = .ok s' → x.time ≠ none → d ∈ s'.descs → d.time ≠ none := by
      intro k x s' hp hx hm
      obtain ⟨x', h5, h6⟩ := Res.bind_eq_ok.mp hp
      cases h6
      rcases List.mem_or_eq_of_mem_set hm with h7 | h7
      · exact h4 d h7
      · subst h7
        unfold Sys.check at h5
        repeat' split at h5
        all_goals cases h5
        all_goals simpa using hx
    cases op with
    | newData m => cases h3; exact h4 d hd
    | addPart i b =>
      simp only [Sys.step] at h3
      split at h3
      · cases h3; exact h4 d hd
      · unfold Sys.putData at h3
        split at h3 <;> cases h3 <;> exact h4 d hd
    | genRandom i b =>
      simp only [Sys.step] at h3
      split at h3
      · cases h3; exact h4 d hd
      · unfold Sys.putData at h3
        split at h3 <;> cases h3 <;> exact h4 d hd
    | newDesc => exact (hn (by simp)).elim
    | newDescZero =>
      cases h3
      rcases List.mem_append.mp hd with h5 | h5
      · exact h4 d h5
      · rw [List.mem_singleton] at h5; subst h5; simp
    | newDescWith m t ref =>
      simp only [Sys.step] at h3
      split at h3
      · cases h3; exact h4 d hd
      · split at h3
        · obtain ⟨x', h5, h6⟩ := Res.bind_eq_ok.mp h3
          cases h6
          rcases List.mem_append.mp hd with h7 | h7
          · exact h4 d h7
          · rw [List.mem_singleton] at h7; subst h7
            unfold Sys.check at h5
            repeat' split at h5
            all_goals cases h5
            all_goals simp
        · cases h3; exact h4 d hd
    | copy j =>
      simp only [Sys.step] at h3
      split at h3
      · cases h3; exact h4 d hd
      · rename_i d0 hj
        split at h3
        · cases h3
        · cases h3
          rcases List.mem_append.mp hd with h5 | h5
          · exact h4 d h5
          · rw [List.mem_singleton] at h5; subst h5; exact h4 d (List.mem_of_getElem? hj)
    | setTime k t =>
      simp only [Sys.step] at h3
      split at h3
      · cases h3; exact h4 d hd
      · exact hput _ _ _ h3 (by simp) hd
    | setMode k m =>
      simp only [Sys.step] at h3
      split at h3
      · rename_i d0 _ hk _
        exact hput _ _ _ h3 (h4 d0 (List.mem_of_getElem? hk)) hd
      · cases h3; exact h4 d hd
    | setData k ref =>
      simp only [Sys.step] at h3
      split at h3
      · cases h3; exact h4 d hd
      · rename_i d0 hk
        split at h3
        · exact hput _ _ _ h3 (h4 d0 (List.mem_of_getElem? hk)) hd
        · cases h3; exact h4 d hd
    | assign k j =>
      simp only [Sys.step] at h3
      split at h3
      · split at h3
        · exact hput _ _ _ h3 (by simp) hd
        · cases h3
        · cases h3; exact h4 d hd
      · cases h3; exact h4 d hd

/-- both directions, for programs that leave data objects alone once a description refers to them -/
theorem exact (ops : List Op) (hq : Along TimedQuietOp ops) :
    ∀ s, run ops = .ok s → ∀ d ∈ s.descs, d.val = true ↔ TimedValid s d := by
  induction ops using snoc_induction with
  | h0 => intro s h; cases h; simp
  | h1 l op ih =>
    intro s h
    rw [run_snoc] at h
    obtain ⟨s1, h2, h3⟩ := Res.bind_eq_ok.mp h
    have h4 := ih (fun pre op' post s0 he hr => hq pre op' (post ++ [op]) s0 (by simp [he]) hr) s1 h2
    have hq1 := hq l op [] s1 rfl h2
    have hi := inv_run l s1 h2
    rcases step_shape s1 op hi with ⟨l', h5, h6, -, h7⟩ | ⟨ds, h5, h6⟩ | ⟨h5, -⟩ | ⟨h5, -⟩
    · rw [h3] at h5; cases h5
      intro d hd
      rw [h4 d hd]
      constructor
      · exact Grows.valid (s := s1) h6
      · rintro ⟨m, i, o, t, h8, h9, h10, h11⟩
        simp only at h10
        rw [h7 hq1 d hd i h9] at h10
        exact ⟨m, i, o, t, h8, h9, h10, h11⟩
    · rw [h3] at h5; cases h5
      intro d hd
      rcases h6 d hd with h7 | ⟨t, rfl⟩ | ⟨-, h7⟩
      · rw [h4 d h7]; exact (valid_congr rfl d).symm
      · simp [TimedValid]
      · rw [h7]; exact (valid_congr rfl d).symm
    · rw [h3] at h5; cases h5
    · rw [h3] at h5; cases h5

end Verif.Timed
