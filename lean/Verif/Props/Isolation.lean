import Verif.Lemmas.Isolation
import Verif.Props.Vault

/- Properties of sessions among others: C79. -/
namespace Verif.Props
open Spec Api

variable {hs : Hashes} {rest : Api.Helper → Res Api.Helper} {P : Path → Bool}

theorem over_agree {fs1 fs2 : FS} (h : ∀ p, P p = true → fs1 p = fs2 p) : fs2 = over P fs1 fs2 := by
  funext p
  cases hp : P p
  · rw [over_out hp]
  · rw [over_in hp, h p hp]

/-- C79: what a call answers and does depends only on the files it names and on the selected file, and nothing else is
changed. -/
theorem C79_call (e : Env) (s : Session) (fs1 fs2 : FS) (hfs : ∀ p, P p = true → fs1 p = fs2 p) (c : Call)
    (hc : ∀ q, Mentions c q → P q = true) (hsel : SelectedIn P s) :
    (∀ x, Api.call hs rest e ⟨s, fs1⟩ c = .fatal x → Api.call hs rest e ⟨s, fs2⟩ c = .fatal x) ∧
    ∀ r w1, Api.call hs rest e ⟨s, fs1⟩ c = .ok (r, w1) → ∃ w2, Api.call hs rest e ⟨s, fs2⟩ c = .ok (r, w2) ∧
      w2.api = w1.api ∧ (∀ p, P p = true → w2.fs p = w1.fs p) ∧ ∀ p, P p = false → w1.fs p = fs1 p ∧ w2.fs p = fs2 p := by
  have h2 : Api.call hs rest e ⟨s, fs2⟩ c = relayW P fs2 (Api.call hs rest e ⟨s, fs1⟩ c) := by
    rw [← call_over hsel hc, ← over_agree hfs]
  have h1 : Api.call hs rest e ⟨s, fs1⟩ c = relayW P fs1 (Api.call hs rest e ⟨s, fs1⟩ c) := by
    rw [← call_over hsel hc, over_self]
  refine ⟨fun x hx => by rw [h2, hx]; rfl, fun r w1 hw => ?_⟩
  rw [hw] at h1
  have hw1 : w1 = w1.over P fs1 := by simpa using h1
  refine ⟨w1.over P fs2, by rw [h2, hw]; rfl, rfl, fun p hp => over_in hp, fun p hp => ⟨?_, over_out hp⟩⟩
  rw [hw1]
  exact over_out hp

/-- the answers of the calls alone, with a gap for every change by another program -/
def weave : List Event → List (Option Ret) → List (Option Ret)
  | .call _ _ :: evs, r :: rs => r :: weave evs rs
  | .outside _ _ :: evs, rs => none :: weave evs rs
  | _, _ => []

theorem run_over (evs : List Event) : ∀ (s : Session) (a b : FS), SelectedIn P s → (∀ ev ∈ evs, KeepsTo P ev) →
    Api.run hs rest ⟨s, over P a b⟩ evs = (do
      let (rs, w) ← Api.run hs rest ⟨s, a⟩ (alone evs)
      .ok (weave evs rs, ⟨w.api, over P w.fs (outsideOnly b evs)⟩)) := by
  induction evs with
  | nil => intro s a b _ _; rfl
  | cons ev evs ih =>
    intro s a b hsel hk
    have hev := hk ev (by simp)
    have hk' : ∀ ev ∈ evs, KeepsTo P ev := fun x hx => hk x (List.mem_cons_of_mem _ hx)
    cases ev with
    | call c e =>
      simp only [Api.run, Api.step, alone, call_over hsel hev]
      cases hcl : Api.call hs rest e ⟨s, a⟩ c with
      | ok x =>
        obtain ⟨r, w⟩ := x
        have hsel' := call_selectedIn hcl hsel hev
        have := ih w.api w.fs b hsel' hk'
        simp only [relayW_ok, Res.bind_ok, World.over, this]
        cases Api.run hs rest w (alone evs) with
        | ok y => rfl
        | _ => rfl
      | _ => rfl
    | outside p n =>
      simp only [Api.run, Api.step, alone, Res.bind_ok, over_set_out hev, ih s a _ hsel hk', outsideOnly]
      cases Api.run hs rest ⟨s, a⟩ (alone evs) with
      | ok y => rfl
      | _ => rfl

theorem answers_weave (evs : List Event) : ∀ (w : World) (rs : List (Option Ret)) (w' : World),
    Api.run hs rest w (alone evs) = .ok (rs, w') → answers (weave evs rs) = answers rs := by
  induction evs with
  | nil => intro w rs w' h; cases h; rfl
  | cons ev evs ih =>
    intro w rs w' h
    cases ev with
    | call c e =>
      simp only [alone, Api.run] at h
      obtain ⟨⟨r, w1⟩, -, h⟩ := Res.bind_eq_ok.mp h
      obtain ⟨⟨rs1, w2⟩, h2, h⟩ := Res.bind_eq_ok.mp h
      cases h
      have := ih _ _ _ h2
      cases r <;> simp only [answers, weave, List.filterMap_cons, id] at this ⊢ <;> rw [this]
    | outside p n =>
      have := ih _ _ _ h
      simpa [answers, weave] using this

/-- C79: a session that keeps to its own paths runs as if it were alone on the disk, whatever other programs do to other
paths: it ends the same way, with the same answers in the same state, and its own files are the same; on all other paths there
is what the other programs put there. -/
theorem C79_isolated (s : Session) (hsel : SelectedIn P s) (fs : FS) (evs : List Event) (hk : ∀ ev ∈ evs, KeepsTo P ev) :
    (∀ x, Api.run hs rest ⟨s, fs⟩ evs = .fatal x ↔ Api.run hs rest ⟨s, fs⟩ (alone evs) = .fatal x) ∧
    ∀ rs w, Api.run hs rest ⟨s, fs⟩ (alone evs) = .ok (rs, w) → ∃ rs' w', Api.run hs rest ⟨s, fs⟩ evs = .ok (rs', w') ∧
      answers rs' = answers rs ∧ w'.api = w.api ∧ (∀ p, P p = true → w'.fs p = w.fs p) ∧
      ∀ p, P p = false → w'.fs p = outsideOnly fs evs p ∧ w.fs p = fs p := by
  have h1 := run_over (hs := hs) (rest := rest) evs s fs fs hsel hk
  rw [over_self] at h1
  refine ⟨fun x => ?_, fun rs w hr => ?_⟩
  · rw [h1]
    cases Api.run hs rest ⟨s, fs⟩ (alone evs) with
    | ok y => simp
    | exn y => simp
    | fatal y => simp
  · rw [hr] at h1
    refine ⟨_, _, h1, answers_weave _ _ _ _ hr, rfl, fun p hp => over_in hp, fun p hp => ⟨over_out hp, ?_⟩⟩
    have hk2 : ∀ ev ∈ alone evs, KeepsTo P ev := by
      clear h1 hr
      induction evs with
      | nil => intro ev h; cases h
      | cons x evs ih =>
        have ih := ih fun ev hev => hk ev (List.mem_cons_of_mem _ hev)
        cases x with
        | call c e =>
          intro ev h
          rcases List.mem_cons.mp h with rfl | h
          · exact hk _ (by simp)
          · exact ih ev h
        | outside p n => exact ih
    have hout : ∀ (evs : List Event) (b : FS), outsideOnly b (alone evs) = b := by
      intro evs
      induction evs with
      | nil => intro b; rfl
      | cons x evs ih => cases x <;> exact ih
    have h2 := run_over (hs := hs) (rest := rest) (alone evs) s fs fs hsel hk2
    rw [over_self] at h2
    have hal : ∀ evs : List Event, alone (alone evs) = alone evs := by
      intro evs
      induction evs with
      | nil => rfl
      | cons x evs ih => cases x <;> simp [alone, ih]
    rw [hal, hr] at h2
    simp only [Res.bind_ok, hout, Res.ok.injEq, Prod.mk.injEq] at h2
    rw [h2.2]
    exact over_out hp

theorem call_frame {e : Env} {w w' : World} {c : Call} {r : Ret} (h : Api.call hs rest e w c = .ok (r, w'))
    (hsel : SelectedIn P w.api) (hc : ∀ q, Mentions c q → P q = true) {p : Path} (hp : P p = false) : w'.fs p = w.fs p := by
  obtain ⟨s, fs⟩ := w
  obtain ⟨-, k⟩ := C79_call (hs := hs) (rest := rest) e s fs fs (fun _ _ => rfl) c hc hsel
  obtain ⟨w2, -, -, -, k⟩ := k r w' h
  exact (k p hp).1

theorem many_alone (P : Nat → Path → Bool) (hP : ∀ i j p, P i p = true → P j p = true → i = j) (i : Nat) (evs : List ManyEvent) :
    ∀ (m m' : Many) (fs : FS) (rs : List (Option (Nat × Ret))), (∀ j, SelectedIn (P j) (m.api j)) → (∀ ev ∈ evs, Apart P ev) →
      (∀ p, P i p = true → fs p = m.fs p) → Api.runMany hs rest m evs = .ok (rs, m') →
      ∃ ri w, Api.run hs rest ⟨m.api i, fs⟩ (eventsOf i evs) = .ok (ri, w) ∧ answers ri = answersOf i rs ∧
        w.api = m'.api i ∧ ∀ p, P i p = true → w.fs p = m'.fs p := by
  induction evs with
  | nil =>
    intro m m' fs rs _ _ hfs h
    cases h
    exact ⟨[], _, rfl, rfl, rfl, hfs⟩
  | cons ev evs ih =>
    intro m m' fs rs hsel hap hfs h
    have hev := hap ev (by simp)
    have hap' : ∀ ev ∈ evs, Apart P ev := fun x hx => hap x (List.mem_cons_of_mem _ hx)
    simp only [Api.runMany] at h
    obtain ⟨⟨r, m1⟩, h1, h⟩ := Res.bind_eq_ok.mp h
    obtain ⟨⟨rs1, m2⟩, h2, h⟩ := Res.bind_eq_ok.mp h
    cases h
    cases ev with
    | call j c e =>
      simp only [Api.stepMany] at h1
      obtain ⟨⟨rr, w1⟩, hcl, h1⟩ := Res.bind_eq_ok.mp h1
      cases h1
      have hselj : SelectedIn (P j) w1.api := call_selectedIn hcl (hsel j) hev
      have hsel' : ∀ k, SelectedIn (P k) ((m.after j w1).api k) := by
        intro k
        by_cases hk : k = j
        · subst hk; simpa [Many.after] using hselj
        · simpa [Many.after, hk] using hsel k
      by_cases hj : j = i
      · subst hj
        obtain ⟨-, k⟩ := C79_call (hs := hs) (rest := rest) e (m.api j) m.fs fs (fun p hp => (hfs p hp).symm) c hev (hsel j)
        obtain ⟨w2, k1, k2, k3, -⟩ := k rr w1 hcl
        obtain ⟨ri, w, q1, q2, q3, q4⟩ := ih (m.after j w1) m2 w2.fs rs1 hsel' hap' (by simpa [Many.after] using k3) h2
        refine ⟨some rr :: ri, w, ?_, ?_, q3, q4⟩
        · have : (m.after j w1).api j = w2.api := by simp [Many.after, k2]
          rw [this] at q1
          simp only [eventsOf, if_true, Api.run, Api.step, k1, Res.bind_ok, q1]
        · simp only [answers, answersOf, List.filterMap_cons, id, if_true] at q2 ⊢
          rw [q2]
      · have hfs' : ∀ p, P i p = true → fs p = (m.after j w1).fs p := by
          intro p hp
          have hpj : P j p = false := by
            cases hx : P j p
            · rfl
            · exact absurd (hP j i p hx hp) hj
          rw [hfs p hp]
          exact (call_frame hcl (hsel j) hev hpj).symm
        obtain ⟨ri, w, q1, q2, q3, q4⟩ := ih (m.after j w1) m2 fs rs1 hsel' hap' hfs' h2
        refine ⟨ri, w, ?_, ?_, q3, q4⟩
        · have : (m.after j w1).api i = m.api i := by simp [Many.after, Ne.symm hj]
          rw [this] at q1
          simpa only [eventsOf, if_neg hj] using q1
        · rw [q2]; simp [answersOf, hj]
    | outside p n =>
      cases h1
      have hfs' : ∀ q, P i q = true → fs q = (m.fs.set p n) q := by
        intro q hq
        have hne : q ≠ p := by rintro rfl; rw [hev i] at hq; cases hq
        rw [hfs q hq]; simp [FS.set, hne]
      obtain ⟨ri, w, q1, q2, q3, q4⟩ := ih ⟨m.api, m.fs.set p n⟩ m2 fs rs1 hsel hap' hfs' h2
      exact ⟨ri, w, q1, by rw [q2]; simp [answersOf], q3, q4⟩

/-- C79: sessions that share a disk but no paths: in every interleaving of their calls, with changes of other paths by other
programs, each of them gets the answers, ends in the state and leaves its files as if it had run alone. -/
theorem C79_sessions (P : Nat → Path → Bool) (hP : ∀ i j p, P i p = true → P j p = true → i = j) (m m' : Many)
    (hsel : ∀ i, SelectedIn (P i) (m.api i)) (evs : List ManyEvent) (hevs : ∀ ev ∈ evs, Apart P ev)
    (rs : List (Option (Nat × Ret))) (h : Api.runMany hs rest m evs = .ok (rs, m')) (i : Nat) :
    ∃ ri w, Api.run hs rest (m.of i) (eventsOf i evs) = .ok (ri, w) ∧ answers ri = answersOf i rs ∧ w.api = m'.api i ∧
      ∀ p, P i p = true → w.fs p = m'.fs p :=
  many_alone P hP i evs m m' m.fs rs hsel hevs (fun _ _ => rfl) h

theorem many_together (P : Nat → Path → Bool) (hP : ∀ i j p, P i p = true → P j p = true → i = j) (evs : List ManyEvent) :
    ∀ (m : Many), (∀ j, SelectedIn (P j) (m.api j)) → (∀ ev ∈ evs, Apart P ev) →
      (∀ i, ∃ fs x, (∀ p, P i p = true → fs p = m.fs p) ∧ Api.run hs rest ⟨m.api i, fs⟩ (eventsOf i evs) = .ok x) →
      ∃ y, Api.runMany hs rest m evs = .ok y := by
  induction evs with
  | nil => intro m _ _ _; exact ⟨_, rfl⟩
  | cons ev evs ih =>
    intro m hsel hap hall
    have hev := hap ev (by simp)
    have hap' : ∀ ev ∈ evs, Apart P ev := fun x hx => hap x (List.mem_cons_of_mem _ hx)
    cases ev with
    | call j c e =>
      obtain ⟨fs, x, hfs, hx⟩ := hall j
      simp only [eventsOf, if_true, Api.run, Api.step] at hx
      obtain ⟨⟨r, w0⟩, hcl, hx⟩ := Res.bind_eq_ok.mp hx
      obtain ⟨⟨rr, w1⟩, hcl', hy⟩ := Res.bind_eq_ok.mp hcl
      cases hy
      obtain ⟨⟨rs, w2⟩, hrun, -⟩ := Res.bind_eq_ok.mp hx
      obtain ⟨-, k⟩ := C79_call (hs := hs) (rest := rest) e (m.api j) fs m.fs hfs c hev (hsel j)
      obtain ⟨w3, k1, k2, k3, k4⟩ := k rr w1 hcl'
      have hselj : SelectedIn (P j) w3.api := call_selectedIn k1 (hsel j) hev
      have hsel' : ∀ k, SelectedIn (P k) ((m.after j w3).api k) := by
        intro k
        by_cases hk : k = j
        · subst hk; simpa [Many.after] using hselj
        · simpa [Many.after, hk] using hsel k
      obtain ⟨y, hy⟩ := ih (m.after j w3) hsel' hap' (by
        intro i
        by_cases hi : i = j
        · subst hi
          refine ⟨w1.fs, (rs, w2), fun p hp => (k3 p hp).symm, ?_⟩
          have : (m.after i w3).api i = w1.api := by simp [Many.after, k2]
          rw [this]; exact hrun
        · obtain ⟨fs', x', hfs', hx'⟩ := hall i
          refine ⟨fs', x', fun p hp => ?_, ?_⟩
          · have hpj : P j p = false := by
              cases hq : P j p
              · rfl
              · exact absurd (hP i j p hp hq) hi
            rw [hfs' p hp]; exact (k4 p hpj).2.symm
          · have : (m.after j w3).api i = m.api i := by simp [Many.after, hi]
            rw [this]
            simpa only [eventsOf, if_neg (Ne.symm hi)] using hx')
      refine ⟨(some (j, rr) :: y.1, y.2), ?_⟩
      simp only [Api.runMany, Api.stepMany, Many.of, k1, Res.bind_ok, hy]
    | outside p n =>
      obtain ⟨y, hy⟩ := ih ⟨m.api, m.fs.set p n⟩ hsel hap' (by
        intro i
        obtain ⟨fs, x, hfs, hx⟩ := hall i
        refine ⟨fs, x, fun q hq => ?_, hx⟩
        have hne : q ≠ p := by rintro rfl; rw [hev i] at hq; cases hq
        rw [hfs q hq]; simp [FS.set, hne])
      refine ⟨(none :: y.1, y.2), ?_⟩
      simp only [Api.runMany, Api.stepMany, Res.bind_ok, hy]

/-- C79: if each of these sessions runs through alone, every interleaving of them runs through. -/
theorem C79_together (P : Nat → Path → Bool) (hP : ∀ i j p, P i p = true → P j p = true → i = j) (m : Many)
    (hsel : ∀ i, SelectedIn (P i) (m.api i)) (evs : List ManyEvent) (hevs : ∀ ev ∈ evs, Apart P ev)
    (h : ∀ i, ∃ x, Api.run hs rest (m.of i) (eventsOf i evs) = .ok x) : ∃ y, Api.runMany hs rest m evs = .ok y :=
  many_together P hP evs m hsel hevs fun i => by
    obtain ⟨x, hx⟩ := h i
    exact ⟨m.fs, x, fun _ _ => rfl, hx⟩

/-- two sessions, one on `a.enc`, one on `b.enc` -/
def ownPaths (i : Nat) (p : Path) : Bool := (i == 0 && p == samplePath) || (i == 1 && p == ascii "b.enc")

theorem ownPaths_apart (i j : Nat) (p : Path) (h1 : ownPaths i p = true) (h2 : ownPaths j p = true) : i = j := by
  have hne : samplePath ≠ ascii "b.enc" := by decide
  simp only [ownPaths, Bool.or_eq_true, Bool.and_eq_true, beq_iff_eq] at h1 h2
  rcases h1 with ⟨rfl, rfl⟩ | ⟨rfl, rfl⟩ <;> rcases h2 with ⟨rfl, h⟩ | ⟨rfl, h⟩ <;> first | rfl | exact absurd h hne | exact absurd h.symm hne

/-- both create, select and save a file in turns, while another program writes to a third one -/
def sampleMany : List ManyEvent :=
  [.call 0 (.createFile samplePath) openEnv, .call 1 (.createFile (ascii "b.enc")) openEnv,
   .outside (ascii "c.enc") (.file [1, 2, 3]), .call 1 (.selectFile (ascii "b.enc")) openEnv,
   .call 0 (.selectFile samplePath) openEnv, .call 0 (.createDataHeader samplePw sampleSettings 0) openEnv,
   .call 1 (.createDataHeader (ascii "other") sampleSettings 0) openEnv,
   .call 1 (.encryptData (some ⟨some 1, some (Bytes.full (ascii "world"))⟩)) openEnv,
   .call 0 (.encryptData (some ⟨some 1, some (Bytes.full (ascii "hello"))⟩)) openEnv, .call 0 .writeToFile openEnv,
   .outside (ascii "c.enc") .missing, .call 1 .writeToFile openEnv]

example : (∀ i, SelectedIn (ownPaths i) (freshWorld fun _ => .missing).api) ∧ ∀ ev ∈ sampleMany, Apart ownPaths ev := by
  refine ⟨fun i f h => by simp [freshWorld] at h, ?_⟩
  have h1 : ascii "c.enc" ≠ samplePath := by decide
  have h2 : ascii "c.enc" ≠ ascii "b.enc" := by decide
  simp [sampleMany, Apart, Mentions, ownPaths, h1, h2]

/-- the first session sees what it sees alone -/
example : eventsOf 0 sampleMany = sampleSave := rfl

/-- the history of both runs through: both files are saved, the second holding something else than the first -/
example : (match Api.runMany toyHashes noRest ⟨fun _ => (freshWorld fun _ => .missing).api, fun _ => .missing⟩ sampleMany with
    | .ok (rs, m) => rs.length == 12 && answersOf 0 rs == [.flag (.success true), .flag (.success true),
        .flag (.success true), .flag (.success true), .plain (.success ())] && answersOf 1 rs == answersOf 0 rs &&
        m.fs samplePath != .missing && m.fs (ascii "b.enc") != .missing && m.fs samplePath != m.fs (ascii "b.enc") &&
        m.fs (ascii "c.enc") == .missing
    | _ => false) = true := by decide +kernel

/-! ### the ideal vault among other programs -/

theorem alone_append (a b : List Event) : alone (a ++ b) = alone a ++ alone b := by
  induction a with
  | nil => rfl
  | cons x a ih => cases x <;> simp [alone, ih]

theorem weave_append (a : List Event) : ∀ (b : List Event) (ra rb : List (Option Ret)), ra.length = (alone a).length →
    weave (a ++ b) (ra ++ rb) = weave a ra ++ weave b rb := by
  induction a with
  | nil =>
    intro b ra rb h
    have : ra = [] := List.length_eq_zero_iff.mp h
    subst this
    rfl
  | cons x a ih =>
    intro b ra rb h
    cases x with
    | call c e =>
      cases ra with
      | nil => simp [alone] at h
      | cons r ra => simp only [List.cons_append, weave]; rw [ih b ra rb (by simpa [alone] using h)]
    | outside p n => simp only [List.cons_append, weave]; rw [ih b ra rb h]

theorem answers_some (evs : List Event) {locks : SettingsIters → List Byte → (List Byte → Prop) → Prop} :
    ∀ {v v' : Vault} {rs : List (Option Ret)}, VRun locks v evs rs v' → (answers rs).map some = rs := by
  induction evs with
  | nil => intro v v' rs h; cases h; rfl
  | cons x evs ih =>
    intro v v' rs h
    cases h with
    | call h1 h2 => simpa [answers] using ih h2

/-- C79: a session that keeps to its own paths, on which nothing but missing, empty and saved files lie, behaves like the
ideal vault, whatever lies on other paths and whatever other programs do there. -/
theorem C79_ideal (mode : Byte) (s0 : Session) (h0 : Api.new mode = .ok s0) (fs : FS) (slots : Path → Slot)
    (hfs : ∀ p, P p = true → EncPath p → InSlot hs (fs p) (slots p)) (evs : List Event) (hk : ∀ ev ∈ evs, KeepsTo P ev)
    (hevs : ∀ ev ∈ alone evs, Smooth ev) :
    ∃ rs w v, Api.run hs rest ⟨s0, fs⟩ evs = .ok (rs, w) ∧
      VRun (madeLocks hs) ⟨fun p => if P p then slots p else .missing, .idle⟩ (alone evs) ((answers rs).map some) v ∧
      (∀ p, P p = true → EncPath p → InSlot hs (w.fs p) (v.slots p)) ∧ ∀ p, P p = false → w.fs p = outsideOnly fs evs p := by
  have hov : over P (over P fs fun _ => .missing) fs = fs := by
    funext p
    cases hp : P p
    · rw [over_out hp]
    · rw [over_in hp, over_in hp]
  have hsel : SelectedIn P s0 := by
    obtain ⟨-, rfl⟩ := new_mode h0
    intro f hf
    cases hf
  obtain ⟨rs, w, v, h1, h2, h3, -⟩ := C76_ideal (hs := hs) (rest := rest) mode s0 h0 (over P fs fun _ => .missing)
    (fun p => if P p then slots p else .missing) (by
      intro p hp
      cases hP : P p
      · rw [over_out hP]; exact .missing
      · rw [over_in hP]; exact hfs p hP hp) (alone evs) hevs
  have h4 := run_over (hs := hs) (rest := rest) evs s0 (over P fs fun _ => .missing) fs hsel hk
  rw [hov, h1] at h4
  refine ⟨_, _, v, h4, ?_, fun p hP hp => ?_, fun p hP => over_out hP⟩
  · rw [answers_weave _ _ _ _ h1, answers_some _ h2]; exact h2
  · show InSlot hs (over P w.fs _ p) _
    rw [over_in hP]; exact h3 p hp

theorem run_selectedIn (evs : List Event) : ∀ {w w' : World} {rs : List (Option Ret)}, (∀ ev ∈ evs, KeepsTo P ev) →
    SelectedIn P w.api → Api.run hs rest w evs = .ok (rs, w') → SelectedIn P w'.api := by
  induction evs with
  | nil => intro w w' rs _ hsel h; cases h; exact hsel
  | cons ev evs ih =>
    intro w w' rs hk hsel h
    simp only [Api.run] at h
    obtain ⟨⟨r, w1⟩, h1, h⟩ := Res.bind_eq_ok.mp h
    obtain ⟨⟨rs1, w2⟩, h2, h⟩ := Res.bind_eq_ok.mp h
    cases h
    refine ih (fun x hx => hk x (List.mem_cons_of_mem _ hx)) ?_ h2
    have hev := hk ev (by simp)
    cases ev with
    | call c e =>
      obtain ⟨⟨rr, w3⟩, h3, h1⟩ := Res.bind_eq_ok.mp h1
      cases h1
      exact call_selectedIn h3 hsel hev
    | outside p n => cases h1; exact hsel

theorem weave_length (evs : List Event) : ∀ {w w' : World} {rs : List (Option Ret)},
    Api.run hs rest w evs = .ok (rs, w') → rs.length = evs.length := by
  induction evs with
  | nil => intro w w' rs h; cases h; rfl
  | cons ev evs ih =>
    intro w w' rs h
    simp only [Api.run] at h
    obtain ⟨⟨r, w1⟩, -, h⟩ := Res.bind_eq_ok.mp h
    obtain ⟨⟨rs1, w2⟩, h2, h⟩ := Res.bind_eq_ok.mp h
    cases h
    simp [ih h2]

theorem over_over (a b : FS) : over P (over P a b) b = over P a b := by
  funext p
  cases hp : P p
  · rw [over_out hp, over_out hp]
  · rw [over_in hp]

/-- C79: what a session saved under a password stays until the session itself deletes it or saves it again, whatever other
programs do on other paths meanwhile, and whatever lies there. -/
theorem C79_durable (mode : Byte) (s0 : Session) (h0 : Api.new mode = .ok s0) (fs : FS) (slots : Path → Slot)
    (hfs : ∀ p, P p = true → EncPath p → InSlot hs (fs p) (slots p)) (pre mid : List Event)
    (hkp : ∀ ev ∈ pre, KeepsTo P ev) (hkm : ∀ ev ∈ mid, KeepsTo P ev) (hpre : ∀ ev ∈ alone pre, Smooth ev)
    (hmid : ∀ ev ∈ alone mid, Smooth ev) (e : Nat → Env) (he : ∀ i, Friendly (e i)) (p : Path) (hp : P p = true)
    (pw : List Byte) (ds : SettingsIters) (hds : Usable ds) (data : Bytes) (hdata : data.data.length < 2 ^ 31)
    (rs : List (Option Ret)) (w : World)
    (hcr : Api.run hs rest ⟨s0, fs⟩ (pre ++ [.call .logout (e 0), .call (.createFile p) (e 1)]) =
      .ok (rs ++ [some .void, some (.flag (.success true))], w))
    (hkeep : (∀ e, Event.call (.selectFile p) e ∉ mid) ∨
      ∀ e, Event.call .deleteFile e ∉ mid ∧ Event.call .writeToFile e ∉ mid) :
    ∃ rs' r w', Api.run hs rest w
      ([.call (.selectFile p) (e 2), .call (.createDataHeader pw ds 0) (e 3),
        .call (.encryptData (some ⟨some 1, some data⟩)) (e 4), .call .writeToFile (e 5)] ++ (mid ++
       [.call .logout (e 6), .call (.selectFile p) (e 7), .call (.verifyPassword pw 0) (e 8), .call .getDecryptedData (e 9)])) =
      .ok ([some (.flag (.success true)), some (.flag (.success true)), some (.flag (.success true)),
        some (.plain (.success ()))] ++ (rs' ++
       [some .void, some (.flag (.success true)), some (.flag (.success true)), some (.data (.success ⟨some 1, some r⟩))]), w') ∧
      r.data = data.data := by
  have hov : over P (over P fs fun _ => .missing) fs = fs := by
    funext q
    cases hq : P q
    · rw [over_out hq]
    · rw [over_in hq, over_in hq]
  have hsel : SelectedIn P s0 := by
    obtain ⟨-, rfl⟩ := new_mode h0
    intro f hf
    cases hf
  have hmem : ∀ {evs : List Event} {ev : Event}, ev ∈ alone evs → ev ∈ evs := by
    intro evs
    induction evs with
    | nil => intro ev h; exact h
    | cons x evs ih =>
      intro ev h
      cases x with
      | call c e =>
        rcases List.mem_cons.mp h with h | h
        · exact h ▸ List.mem_cons_self
        · exact List.mem_cons_of_mem _ (ih h)
      | outside q n => exact List.mem_cons_of_mem _ (ih h)
  have hk1 : ∀ ev ∈ pre ++ [.call .logout (e 0), .call (.createFile p) (e 1)], KeepsTo P ev := by
    intro ev hev
    simp only [List.mem_append, List.mem_cons, List.not_mem_nil, or_false] at hev
    rcases hev with hev | rfl | rfl
    · exact hkp ev hev
    · intro q hq; cases hq
    · intro q hq; cases hq; exact hp
  have hk2 : ∀ ev ∈ ([.call (.selectFile p) (e 2), .call (.createDataHeader pw ds 0) (e 3),
        .call (.encryptData (some ⟨some 1, some data⟩)) (e 4), .call .writeToFile (e 5)] ++ (mid ++
       [.call .logout (e 6), .call (.selectFile p) (e 7), .call (.verifyPassword pw 0) (e 8),
        .call .getDecryptedData (e 9)]) : List Event), KeepsTo P ev := by
    intro ev hev
    simp only [List.mem_append, List.mem_cons, List.not_mem_nil, or_false] at hev
    rcases hev with (rfl | rfl | rfl | rfl) | hev | rfl | rfl | rfl | rfl <;>
      first | exact hkm _ hev | (intro q hq; cases hq; done) | (intro q hq; cases hq; exact hp)
  have h1 := run_over (hs := hs) (rest := rest) _ s0 (over P fs fun _ => .missing) fs hsel hk1
  rw [hov, hcr, alone_append] at h1
  obtain ⟨⟨ra, wa⟩, h2, h3⟩ := Res.bind_eq_ok.mp h1.symm
  obtain ⟨r1, w1, r2, h4, h5, rfl⟩ := run_append.mp h2
  have hl1 := weave_length _ h4
  have hl2 := weave_length _ h5
  simp only [Res.ok.injEq, Prod.mk.injEq] at h3
  obtain ⟨h3, rfl⟩ := h3
  rw [weave_append _ _ _ _ hl1] at h3
  have hr2 : r2 = [some .void, some (.flag (.success true))] := by
    match r2, hl2, h3 with
    | [x, y], _, h3 => exact (List.append_inj' h3 rfl).2
  subst hr2
  obtain ⟨rs', r, w', h6, h7⟩ := C76_durable (hs := hs) (rest := rest) mode s0 h0 (over P fs fun _ => .missing)
    (fun p => if P p then slots p else .missing) (by
      intro q hq
      cases hP : P q
      · rw [over_out hP]; exact .missing
      · rw [over_in hP]; exact hfs q hP hq) (alone pre) (alone mid) hpre hmid e he p pw ds hds data hdata r1 wa h2
    (hkeep.imp (fun h e he => h e (hmem he)) fun h e => ⟨fun he => (h e).1 (hmem he), fun he => (h e).2 (hmem he)⟩)
  have h8 := run_over (hs := hs) (rest := rest) _ wa.api wa.fs
    (outsideOnly fs (pre ++ [.call .logout (e 0), .call (.createFile p) (e 1)]))
    (run_selectedIn (w := ⟨s0, over P fs fun _ => .missing⟩) _ (by
      intro ev hev
      rcases List.mem_append.mp hev with hev | hev
      · exact hkp ev (hmem hev)
      · exact hk1 ev (List.mem_append_right _ hev)) hsel h2) hk2
  rw [alone_append, alone_append] at h8
  obtain ⟨t1, u1, t2, h9, h10, h11⟩ := run_append.mp h6
  obtain ⟨t3, u3, t4, h12, h13, h14⟩ := run_append.mp h10
  have hl9 := weave_length _ h9
  have hl12 := weave_length _ h12
  have hl13 := weave_length _ h13
  have h15 := List.append_inj h11 (by rw [hl9]; rfl)
  obtain ⟨rfl, h15⟩ := h15
  subst h14
  have h16 := List.append_inj' h15 (by rw [hl13]; rfl)
  obtain ⟨rfl, rfl⟩ := h16
  have h17 : Api.run hs rest ⟨wa.api, wa.fs⟩ _ = _ := h6
  rw [show alone [Event.call (.selectFile p) (e 2), .call (.createDataHeader pw ds 0) (e 3),
        .call (.encryptData (some ⟨some 1, some data⟩)) (e 4), .call .writeToFile (e 5)] =
      [Event.call (.selectFile p) (e 2), .call (.createDataHeader pw ds 0) (e 3),
        .call (.encryptData (some ⟨some 1, some data⟩)) (e 4), .call .writeToFile (e 5)] from rfl,
    show alone [Event.call .logout (e 6), .call (.selectFile p) (e 7), .call (.verifyPassword pw 0) (e 8),
        .call .getDecryptedData (e 9)] = [Event.call .logout (e 6), .call (.selectFile p) (e 7), .call (.verifyPassword pw 0) (e 8),
        .call .getDecryptedData (e 9)] from rfl, h17] at h8
  simp only [Res.bind_ok, List.cons_append, List.nil_append, weave] at h8
  rw [weave_append _ _ _ _ hl12] at h8
  exact ⟨weave mid rs', r, _, h8, h7⟩

/-- a session on `a.enc` while another program fills, changes and removes `c.enc` -/
def sampleAmong : List Event :=
  .outside (ascii "c.enc") (.file [9]) :: (sampleSave ++ .outside (ascii "c.enc") .dir :: sampleOpen)

/-- the hypotheses of C79_isolated, C79_ideal and C79_durable: the session keeps to `a.enc` -/
example : (∀ ev ∈ sampleAmong, KeepsTo (fun p => p == samplePath) ev) ∧ (∀ ev ∈ alone sampleAmong, Smooth ev) ∧
    alone sampleAmong = sampleSave ++ sampleOpen := by
  have h1 : ascii "c.enc" ≠ samplePath := by decide
  refine ⟨?_, ?_, rfl⟩
  · simp [sampleAmong, sampleSave, sampleOpen, KeepsTo, Mentions, h1]
  · intro ev hev
    have h2 : ev ∈ sampleSave ++ sampleOpen := hev
    refine vaultHistory_smooth ev ?_
    rcases List.mem_append.mp h2 with h2 | h2
    · exact List.mem_append_left _ (List.mem_append_left _ (List.mem_append_left _ h2))
    · exact List.mem_append_left _ (List.mem_append_right _ h2)

/-- it runs through, and the other file is what the other program left -/
example : runIs sampleAmong (fun rs w => rs.length == 11 && w.fs (ascii "c.enc") == .dir &&
    (answers rs).getLast? == some (.data (.success ⟨some 1, some (Bytes.full (ascii "hello"))⟩))) = true := by decide +kernel

end Verif.Props
