import Verif.Lemmas.Faults
import Verif.Spec.Sharing

/- Several sessions that share files. -/
namespace Verif.Spec
variable {hs : Hashes} {locks : SettingsIters → List Byte → (List Byte → Prop) → Prop} {e : Env} {s s' : Store} {c : Call} {r : Ret}

theorem VStep.keep_other {v v' : Vault} (h : VStep locks v c r v') {p : Path} (hm : v.slots p ≠ .missing)
    (hd : c = .deleteFile ∨ c = .writeToFile → v.phase.path ≠ some p) (hw : c = .writeToFileAt p → v.slots p ≠ .empty) :
    v'.slots p = v.slots p := by
  cases h <;> try rfl
  all_goals simp_all [Vault.put, Phase.path]
  all_goals grind

/-- what lies under a path stays as long as nothing is deleted there or saved to it -/
theorem FStep.keep_other (h : FStep locks e s c r s') {p : Path} (hm : s.vault.slots p ≠ .missing) (hf : ¬ s.foreign p)
    (hd : c = .deleteFile ∨ c = .writeToFile → s.vault.phase.path ≠ some p)
    (hw : c = .writeToFileAt p → s.vault.slots p ≠ .empty) : s'.vault.slots p = s.vault.slots p ∧ ¬ s'.foreign p := by
  have saves : ∀ {q : Path}, SavesTo s c q → q ≠ p := by
    rintro q (⟨h1, h2, -⟩ | ⟨h1, -, -, h2⟩) rfl
    · exact hd (.inr h1) h2
    · exact hw h1 h2
  cases h with
  | ideal h _ => exact ⟨h.keep_other hm hd hw, hf⟩
  | failed ha hd hx => exact ⟨rfl, hf⟩
  | savedNothing _ h1 _ =>
    have := saves h1
    exact ⟨by simp only [Store.put, Vault.put, if_neg (Ne.symm this)], fun h => hf h.2⟩
  | savedPart _ h1 _ =>
    have := saves h1
    exact ⟨by simp only [Store.spoil, Vault.put, if_neg (Ne.symm this)], fun h => h.elim (fun h => this h.symm) hf⟩
  | savedAll _ h1 _ _ =>
    have := saves h1
    exact ⟨by simp only [Store.put, Vault.put, if_neg (Ne.symm this)], fun h => hf h.2⟩

theorem VStep.opens {v v' : Vault} {p : Path} {b : Box} {pw : List Byte} (h : VStep locks v .getDecryptedData r v')
    (hp : v.phase = .verified p pw) (hs : v.slots p = .box b) :
    ∃ x : Bytes, r = .data (.success ⟨some 1, some x⟩) ∧ x.data = b.shows pw ∧ v' = v.goto (.opened p b.accepts pw false) := by
  cases h <;> simp_all [Phase.admits, Lacking]

theorem VStep.creates {v v' : Vault} {p : Path} (h : VStep locks v (.createFile p) (.flag (.success true)) v') :
    EncPath p ∧ v.slots p = .missing ∧ v' = v.put p .empty .idle := by
  cases h <;> simp_all

theorem Pool.of_after_same (m : Pool) (i : Nat) (s : Store) : (m.after i s).of i = s := by
  simp [Pool.of, Pool.after]

theorem Pool.of_after_other (m : Pool) {i j : Nat} (s : Store) (h : j ≠ i) :
    (m.after i s).of j = ⟨⟨s.vault.slots, m.phase j⟩, s.foreign⟩ := by
  simp [Pool.of, Pool.after, h]

end Verif.Spec

namespace Verif.Api
open Spec
variable {hs : Hashes} {rest : Helper → Res Helper} {e : Env} {c : Call}

/-- every session and the vault as it sees it -/
def StandsAll (hs : Hashes) (m : Pool) (w : Many) : Prop := ∀ i, Stands hs (m.of i) (w.of i)

/-- the file that is being read is there -/
theorem Stands.reading {s : Store} {w : World} (hl : Stands hs s w) {p : Path} (h : s.vault.phase.reads = some p) :
    EncPath p ∧ ¬ s.foreign p ∧ s.vault.slots p ≠ .missing := by
  have hph := hl.linked.phase
  cases hp : s.vault.phase with
  | idle => rw [hp] at h; cases h
  | done => rw [hp] at h; cases h
  | opened p L pw b => rw [hp] at h; cases h
  | ready p L pw data => rw [hp] at h; cases h
  | chosen q =>
    rw [hp] at h hph
    cases h
    rcases hph with ⟨h1, h2, h3, h4, h5, h6⟩ | ⟨h1, h, enc, m, b, hc⟩
    · exact ⟨h1, h2, by rw [h3]; simp⟩
    · exact ⟨hc.path, hc.free, by rw [hc.slot]; simp⟩
  | verified q pw =>
    rw [hp] at h hph
    cases h
    obtain ⟨h1, h, enc, m, b, hc, h2, h3⟩ := hph
    exact ⟨hc.path, hc.free, by rw [hc.slot]; simp⟩

theorem reads_back {s : Store} {w : World} (hl : Stands hs s w) {p : Path} (h : Reads w.api p) : s.vault.phase.reads = some p := by
  have hph := hl.linked.phase
  obtain ⟨hst, f, hf, rfl⟩ := h
  cases hp : s.vault.phase with
  | idle => rw [hp] at hph; rw [show w.api.state = _ from hph] at hst; simp at hst
  | done => rw [hp] at hph; rw [show w.api.state = _ from hph] at hst; simp at hst
  | opened p L pw b =>
    rw [hp] at hph
    obtain ⟨d, m, f, h1, h2, -⟩ := hph
    rw [h2.state] at hst; simp at hst
  | ready p L pw data =>
    rw [hp] at hph
    obtain ⟨d, m, f, r, h⟩ := hph
    rw [h.state] at hst; simp at hst
  | chosen q =>
    rw [hp] at hph
    rcases hph with ⟨h1, h2, h3, h4, h5, h6⟩ | ⟨h1, h, enc, m, b, hc⟩
    · rw [hf] at h6; cases h6; rfl
    · have := hc.sel; rw [hf] at this; cases this; rfl
  | verified q pw =>
    rw [hp] at hph
    obtain ⟨h1, h, enc, m, b, hc, h2, h3⟩ := hph
    have := hc.sel; rw [hf] at this; cases this; rfl

theorem inslot_node {n n' : Node} {sl : Slot} (h : InSlot hs n sl) (h' : InSlot hs n' sl) : n = n' := by
  cases h with
  | missing => cases h'; rfl
  | empty => cases h'; rfl
  | box hf => cases h' with
    | box hf' => rw [← hf.raw, ← hf'.raw]

/-- an empty slot is an empty file -/
theorem Stands.emptyFile {s : Store} {w : World} (hl : Stands hs s w) {p : Path} (hp : EncPath p) (hf : ¬ s.foreign p)
    (h : s.vault.slots p = .empty) : w.fs p = .file [] := by
  have := hl.linked.disk p hp hf
  rw [h] at this
  exact inslot_node this .empty

/-- a session does not notice what happens elsewhere -/
theorem Stands.move {s s1 : Store} {w w1 : World} (hl : Stands hs s w) (h1 : Stands hs s1 w1)
    (hq : ∀ p, s.vault.phase.reads = some p → s1.vault.slots p = s.vault.slots p ∧ ¬ s1.foreign p) :
    Stands hs ⟨⟨s1.vault.slots, s.vault.phase⟩, s1.foreign⟩ ⟨w.api, w1.fs⟩ := by
  refine ⟨⟨hl.linked.mode, h1.linked.disk, ?_⟩, h1.stray⟩
  refine hl.linked.phase.move fun q hq' hx => ?_
  obtain ⟨k1, k2⟩ := hq q hx
  refine ⟨k1, fun h => absurd h k2, ?_⟩
  have d := hl.linked.disk q hq' (hl.reading hx).2.1
  have d1 := h1.linked.disk q hq' k2
  rw [k1] at d1
  exact inslot_node d1 d

theorem stepMany_run {m m1 m2 : Many} {ev : ManyEvent} {evs : List ManyEvent} {r : Option (Nat × Ret)} {rs : List (Option (Nat × Ret))}
    (h : stepMany hs rest m ev = .ok (r, m1)) (ht : runMany hs rest m1 evs = .ok (rs, m2)) :
    runMany hs rest m (ev :: evs) = .ok (r :: rs, m2) := by
  simp only [runMany, h, Res.bind_ok, ht]

theorem Polite.tail {m m1 : Many} {ev : ManyEvent} {evs : List ManyEvent} {r : Option (Nat × Ret)}
    (hp : Polite hs rest m (ev :: evs)) (h : stepMany hs rest m ev = .ok (r, m1)) : Polite hs rest m1 evs := by
  intro pre x post rs m2 hev hrun
  exact hp (ev :: pre) x post (r :: rs) m2 (by rw [hev]; rfl) (stepMany_run h hrun)

/-- one call of one of the sessions -/
theorem share_call {m : Pool} {w : Many} (hl : StandsAll hs m w) {i : Nat} (hf : Fair (.call c e))
    (hp : ∀ p, EncPath p → Aims w (.call i c e) p → ∀ j, j ≠ i → ¬ Reads (w.api j) p) :
    ∃ r w1 s1, stepMany hs rest w (.call i c e) = .ok (some (i, r), w1) ∧ FStep (madeLocks hs) e (m.of i) c r s1 ∧
      (∀ j p, j ≠ i → (m.phase j).reads = some p → m.SameAt (m.after i s1) p) ∧ StandsAll hs (m.after i s1) w1 ∧
      ∀ p, ¬ EncPath p → w1.fs p = w.fs p := by
  obtain ⟨r, w1, s1, h1, h2, h3, h4⟩ := fault_call (rest := rest) (hl i) hf
  have keep : ∀ j p, j ≠ i → (m.phase j).reads = some p → s1.vault.slots p = m.slots p ∧ ¬ s1.foreign p ∧ ¬ m.foreign p := by
    intro j p hj hr
    obtain ⟨k1, k2, k3⟩ := (hl j).reading hr
    have hrd := reads_of (hl j) hr
    have := h2.keep_other (p := p) k3 k2 ?_ ?_
    · exact ⟨this.1, this.2, k2⟩
    · intro hc hx
      obtain ⟨f, hf1, hf2⟩ := path_of (hl i) hx
      refine hp p k1 ?_ j hj hrd
      rcases hc with rfl | rfl <;> exact ⟨f, hf1, hf2⟩
    · intro hc hx
      subst hc
      exact hp p k1 ⟨rfl, (hl i).emptyFile k1 k2 hx⟩ j hj hrd
  refine ⟨r, w.after i w1, s1, ?_, h2, fun j p hj hr => ?_, fun j => ?_, h4⟩
  · simp only [stepMany, h1, Res.bind_ok]
  · obtain ⟨k1, k2, k3⟩ := keep j p hj hr
    exact ⟨k1, ⟨fun h => absurd h k2, fun h => absurd h k3⟩⟩
  · by_cases hj : j = i
    · subst hj
      rw [Pool.of_after_same]
      simpa only [Many.of, Many.after, if_true] using h3
    · rw [Pool.of_after_other _ _ hj]
      have := (hl j).move h3 fun p hr => ⟨(keep j p hj hr).1, (keep j p hj hr).2.1⟩
      simpa only [Many.of, Many.after, if_neg hj, Pool.of] using this

/-- a change by another program -/
theorem share_outside {m : Pool} {w : Many} (hl : StandsAll hs m w) {p : Path} {n : Node} (ht : EncPath p → Tame n)
    (hr : EncPath p → ∀ j, ¬ Reads (w.api j) p) :
    ∃ m1 : Pool, (EncPath p → ∀ j, Lies hs (m1.of j) p n) ∧ m1.phase = m.phase ∧ (∀ q, q ≠ p → m.SameAt m1 q) ∧
      StandsAll hs m1 ⟨w.api, w.fs.set p n⟩ := by
  obtain ⟨s1, h1, h2, h3, h4⟩ := fault_outside (hl 0) ht fun he => hr he 0
  refine ⟨⟨s1.vault.slots, s1.foreign, m.phase⟩, fun he j => h1 he, rfl, fun q hq => h3 q hq, fun j => ?_⟩
  refine (hl j).move h4 fun q hq => ?_
  obtain ⟨k1, k2, -⟩ := (hl j).reading hq
  have hne : q ≠ p := by
    rintro rfl
    exact hr k1 j (reads_of (hl j) hq)
  obtain ⟨k4, k5⟩ := h3 q hne
  exact ⟨k4, fun h => k2 (k5.mp h)⟩

theorem outsideOnlyMany_congr {p : Path} : ∀ (evs : List ManyEvent) {fs fs' : FS}, fs p = fs' p →
    outsideOnlyMany fs evs p = outsideOnlyMany fs' evs p
  | [], _, _, h => h
  | .call _ _ _ :: evs, _, _, h => outsideOnlyMany_congr evs h
  | .outside q n :: evs, _, _, h => outsideOnlyMany_congr evs (by simp only [FS.set, h])

/-- a whole history -/
theorem share_run : ∀ {evs : List ManyEvent} {m : Pool} {w : Many}, StandsAll hs m w → (∀ ev ∈ evs, FairMany ev) →
    Polite hs rest w evs → ∃ rs w' m', runMany hs rest w evs = .ok (rs, w') ∧ PRun hs (madeLocks hs) m evs rs m' ∧
      StandsAll hs m' w' ∧ ∀ p, ¬ EncPath p → w'.fs p = outsideOnlyMany w.fs evs p
  | [], m, w, hl, _, _ => ⟨[], w, m, rfl, .nil m, hl, fun _ _ => rfl⟩
  | .outside p n :: evs, m, w, hl, he, hu => by
    have hr : EncPath p → ∀ j, ¬ Reads (w.api j) p := fun hp j =>
      hu [] (.outside p n) evs [] w rfl rfl p hp rfl j (by simp [ManyEvent.who])
    obtain ⟨m1, h1, h2, h3, h4⟩ := share_outside hl (he _ (List.mem_cons_self ..)) hr
    have hst : stepMany hs rest w (.outside p n) = .ok (none, ⟨w.api, w.fs.set p n⟩) := rfl
    obtain ⟨rs, w2, m2, k1, k2, k3, k4⟩ := share_run (evs := evs) h4 (fun ev h => he ev (List.mem_cons_of_mem _ h)) (Polite.tail hu hst)
    exact ⟨none :: rs, w2, m2, stepMany_run hst k1, .outside (fun hp j hx => hr hp j (reads_of (hl j) hx)) h1 h2 h3 k2, k3, k4⟩
  | .call i c e :: evs, m, w, hl, he, hu => by
    obtain ⟨r, w1, s1, h1, h2, h3, h4, h5⟩ := share_call (rest := rest) hl (he _ (List.mem_cons_self ..))
      (fun p hp ha j hj => hu [] (.call i c e) evs [] w rfl rfl p hp ha j (fun h => by cases h; exact hj rfl))
    obtain ⟨rs, w2, m2, k1, k2, k3, k4⟩ := share_run (evs := evs) h4 (fun ev h => he ev (List.mem_cons_of_mem _ h)) (Polite.tail hu h1)
    exact ⟨some (i, r) :: rs, w2, m2, stepMany_run h1 k1, .call h2 h3 k2, k3,
      fun p hp => (k4 p hp).trans (outsideOnlyMany_congr evs (h5 p hp))⟩

end Verif.Api
