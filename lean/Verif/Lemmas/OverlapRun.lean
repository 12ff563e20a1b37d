import Verif.Lemmas.Overlap

/- Lemmas for C83: the paths a call goes to, and overlapping calls as calls one after the other. -/
namespace Verif

namespace Prog

/-- the call looks at paths in `P` only, changes paths in `Q` only, and what it returns is in `R` -/
def Within {α : Type} (P Q : Path → Prop) (R : α → Prop) : Prog α → Prop
  | .done r => ∀ a, r = .ok a → R a
  | .act p f k => P p ∧ (Q p ∨ ∀ n, f n = none) ∧ ∀ n, (k n).Within P Q R

variable {α β : Type} {P Q : Path → Prop} {R : α → Prop} {S : β → Prop}

theorem Within.done {r : Res α} (h : ∀ a, r = .ok a → R a) : Within P Q R (.done r) := h
theorem Within.lift {r : Res α} (h : ∀ a, r = .ok a → R a) : Within P Q R (liftM r : Prog α) := h

theorem Within.pure {a : α} (h : R a) : Within P Q R (Pure.pure a : Prog α) := by
  rintro _ ⟨⟩
  exact h

theorem Within.look {p : Path} (hp : P p) : Within P Q (fun _ => True) (look p) :=
  ⟨hp, .inr fun _ => rfl, fun _ _ _ => trivial⟩

theorem Within.bind {x : Prog α} {g : α → Prog β} (hx : Within P Q R x) (hg : ∀ a, R a → Within P Q S (g a)) :
    Within P Q S (x >>= g) := by
  show Within P Q S (Prog.bind x g)
  induction x with
  | done r =>
    cases r with
    | ok a => exact hg a (hx a rfl)
    | exn _ => exact fun _ h => nomatch h
    | fatal _ => exact fun _ h => nomatch h
  | act p f k ih => exact ⟨hx.1, hx.2.1, fun n => ih n (hx.2.2 n)⟩

theorem Within.mono {R' : α → Prop} {x : Prog α} (hx : Within P Q R x) (h : ∀ a, R a → R' a) : Within P Q R' x := by
  induction x with
  | done r => exact fun a ha => h a (hx a ha)
  | act p f k ih => exact ⟨hx.1, hx.2.1, fun n => ih n (hx.2.2 n)⟩

theorem Within.noexcept {x : Prog α} (hx : Within P Q R x) : Within P Q R x.noexcept := by
  induction x with
  | done r =>
    intro a ha
    exact hx a (Res.noexcept_eq_ok.mp ha)
  | act p f k ih => exact ⟨hx.1, hx.2.1, fun n => ih n (hx.2.2 n)⟩

theorem Within.attempt {x : Prog α} (hx : Within P Q R x) : Within P Q (fun o => ∀ a, o = some a → R a) x.attempt := by
  induction x with
  | done r =>
    rintro o ho a rfl
    refine hx a ?_
    rcases r with b | x | x
    · cases ho
      rfl
    · cases x <;> cases ho
    · cases ho
  | act p f k ih => exact ⟨hx.1, hx.2.1, fun n => ih n (hx.2.2 n)⟩

theorem Within.ite {c : Prop} [Decidable c] {x y : Prog α} (hx : Within P Q R x) (hy : Within P Q R y) :
    Within P Q R (if c then x else y) := by
  split <;> assumption

theorem alter_other {fs : FS} {p q : Path} {f : Node → Option Node} (h : q ≠ p) : fs.alter p f q = fs q := by
  unfold FS.alter
  cases f (fs p)
  · rfl
  · simp [FS.set, h]

theorem alter_none {fs : FS} {p : Path} {f : Node → Option Node} (h : ∀ n, f n = none) : fs.alter p f = fs := by
  simp [FS.alter, h]

theorem alter_congr {fs fs' : FS} {p : Path} (f : Node → Option Node) (hp : fs p = fs' p) {q : Path} (hq : fs q = fs' q) :
    fs.alter p f q = fs'.alter p f q := by
  unfold FS.alter
  rw [hp]
  cases f (fs' p)
  · exact hq
  · simp [FS.set, hq]

/-- an access changes only paths the call may change -/
theorem Within.alter {fs : FS} {p q : Path} {f : Node → Option Node} {k : Node → Prog α} (h : Within P Q R (.act p f k))
    (hq : ¬ Q q) : fs.alter p f q = fs q := by
  rcases h.2.1 with h | h
  · exact alter_other fun hpq => hq (hpq ▸ h)
  · rw [alter_none h]

/-- the call behaves the same on disks that agree on the paths it looks at -/
theorem Within.congr {x : Prog α} (hx : Within P Q R x) {fs fs' : FS} (h : ∀ p, P p → fs p = fs' p) :
    (x.eval fs).1 = (x.eval fs').1 ∧ ∀ p, P p → (x.eval fs).2 p = (x.eval fs').2 p := by
  induction x generalizing fs fs' with
  | done r => exact ⟨rfl, h⟩
  | act p f k ih =>
    have hp := h p hx.1
    simp only [eval]
    rw [hp]
    exact ih _ (hx.2.2 _) fun q hq => alter_congr f hp (h q hq)

/-- the call leaves alone what it may not change -/
theorem Within.keeps {x : Prog α} (hx : Within P Q R x) {fs : FS} {p : Path} (hp : ¬ Q p) : (x.eval fs).2 p = fs p := by
  induction x generalizing fs with
  | done r => rfl
  | act q f k ih =>
    simp only [eval]
    rw [ih _ (hx.2.2 _), hx.alter hp]

theorem Within.relax {P' Q' : Path → Prop} {x : Prog α} (hx : Within P Q R x) (hP : ∀ p, P p → P' p) (hQ : ∀ p, Q p → Q' p) :
    Within P' Q' R x := by
  induction x with
  | done r => exact hx
  | act p f k ih => exact ⟨hP _ hx.1, hx.2.1.imp (hQ _) id, fun n => ih n (hx.2.2 n)⟩

end Prog

namespace Steps
open Prog Spec

variable {hs : Hashes} {rest : Api.Helper → Res Api.Helper} {e : Env} {P Q : Path → Prop} {p : Path}

theorem existsAt_within (hp : P p) : Within P Q (fun _ => True) (existsAt p) :=
  .bind (.look hp) fun _ _ => .lift fun _ _ => trivial

theorem isValidPath_within (hp : P p) (b : Bool) : Within P Q (fun _ => True) (isValidPath e p b) := by
  refine .noexcept (.ite (.pure trivial) (.ite (.pure trivial) (.ite ?_ ?_)))
  · exact .bind (existsAt_within hp) fun _ _ => .ite (.pure trivial) (.bind (.look hp) fun _ _ => .ite (.pure trivial) (.pure trivial))
  · exact .bind (existsAt_within hp) fun _ _ => .ite (.pure trivial) (.pure trivial)

theorem update_path {fs : FS} {i : Nat} {f : FileHandler} (h : FileHandler.update e fs p i = .ok f) : f.path = p := by
  simp only [FileHandler.update] at h
  obtain ⟨n, -, h⟩ := Res.bind_eq_ok.mp h
  split at h
  · cases h
  · split at h
    · cases h
    · cases h
      rfl

theorem newHandler_within (hp : P p) (i : Nat) : Within P Q (fun f => f.path = p) (newHandler e p i) := by
  refine .bind (isValidPath_within hp true) fun o _ => ?_
  rcases o with ⟨⟩ | c | _
  · exact .bind (.look hp) fun n _ => .lift fun f hf => update_path hf
  · exact .done fun _ h => nomatch h
  · exact .done fun _ h => nomatch h

theorem getFileHandler_within (hp : P p) (i : Nat) :
    Within P Q (fun o => ∀ f, o = .success f → f.path = p) (getFileHandler e p i) := by
  refine .noexcept (.bind (isValidPath_within hp true) fun o _ => ?_)
  rcases o with ⟨⟩ | c | _
  · refine .bind (newHandler_within hp i).attempt fun o ho => ?_
    cases o with
    | none => exact .pure fun _ h => nomatch h
    | some f =>
      refine .pure fun f' h => ?_
      cases h
      exact ho f rfl
  · exact .pure fun _ h => nomatch h
  · exact .pure fun _ h => nomatch h

theorem openOut_within (hp : P p) (hq : Q p) : Within P Q (fun _ => True) (openOut e p) :=
  ⟨hp, .inl hq, fun _ _ _ => trivial⟩

theorem createFile_within (hp : P p) (hq : Q p) : Within P Q (fun _ => True) (createFile e p) := by
  refine .noexcept (.bind (isValidPath_within hp false) fun o _ => ?_)
  rcases o with ⟨⟩ | c | _
  · exact .bind (openOut_within hp hq) fun _ _ => .ite (.pure trivial) (.pure trivial)
  · exact .pure trivial
  · exact .pure trivial

theorem getDataHeader_within {f : FileHandler} (hp : P f.path) (i : Nat) (r : Rand) :
    Within P Q (fun _ => True) (getDataHeader hs e f i r) :=
  .bind (.look hp) fun _ _ => .lift fun _ _ => trivial

theorem isDataHeader_within {f : FileHandler} (hp : P f.path) (m : Byte) (i : Nat) (r : Rand) :
    Within P Q (fun _ => True) (isDataHeader hs e f m i r) :=
  .bind (.look hp) fun _ _ => .lift fun _ _ => trivial

theorem getWriteStream_within {f : FileHandler} (hp : P f.path) (hq : Q f.path) :
    Within P Q (fun r => r.2.path = f.path) (getWriteStream e f) := by
  refine .noexcept (.bind (isValidPath_within hp true) fun o _ => ?_)
  rcases o with ⟨⟩ | c | _
  · exact .bind (openOut_within hp hq) fun _ _ => .ite (.pure rfl) (.pure rfl)
  · exact .pure rfl
  · exact .pure rfl

theorem getWriteStreamIfEmpty_within {f : FileHandler} (hp : P f.path) (hq : Q f.path) :
    Within P Q (fun r => r.2.path = f.path) (getWriteStreamIfEmpty e f) :=
  .noexcept (.ite (getWriteStream_within hp hq) (.pure rfl))

theorem finishWrite_within (s : Session) (hp : P p) (hq : Q p) : Within P Q (fun _ => True) (finishWrite e s p) :=
  .bind (.lift (R := fun _ => True) fun _ _ => trivial) fun _ _ =>
    .bind (R := fun _ => True) ⟨hp, .inl hq, fun _ _ _ => trivial⟩ fun _ _ => .pure trivial

theorem writeToPath_within (s : Session) (hp : P p) (hq : Q p) : Within P Q (fun _ => True) (writeToPath e s p) := by
  refine .noexcept (.bind (getFileHandler_within hp 0) fun o ho => ?_)
  rcases o with f | c | _
  · have hf := ho f rfl
    refine .bind (getWriteStreamIfEmpty_within (hf ▸ hp) (hf ▸ hq)) fun r hr => ?_
    rcases r with ⟨⟨⟩ | c | _, f'⟩
    · have hf' : f'.path = p := hr.trans hf
      exact finishWrite_within s (hf' ▸ hp) (hf' ▸ hq)
    · exact .pure trivial
    · exact .pure trivial
  · exact .pure trivial
  · exact .pure trivial

theorem deref_within {α : Type} (o : Option α) : Within P Q (fun a => o = some a) (liftM (deref o) : Prog α) := by
  refine .lift fun a h => ?_
  cases o with
  | none => cases h
  | some b =>
    cases h
    rfl

theorem writeToSelected_within (s : Session) (hp : ∀ f, s.selected = some f → P f.path)
    (hq : ∀ f, s.selected = some f → Q f.path) : Within P Q (fun _ => True) (writeToSelected e s) := by
  refine .noexcept (.bind (deref_within s.selected) fun f hf => .bind (getWriteStream_within (hp f hf) (hq f hf)) fun r hr => ?_)
  rcases r with ⟨⟨⟩ | c | _, f'⟩
  · exact finishWrite_within _ (by rw [hr]; exact hp f hf) (by rw [hr]; exact hq f hf)
  · exact .pure trivial
  · exact .pure trivial

theorem deleteSelected_within (s : Session) (hp : ∀ f, s.selected = some f → P f.path)
    (hq : ∀ f, s.selected = some f → Q f.path) : Within P Q (fun _ => True) (deleteSelected e s) :=
  .noexcept (.bind (deref_within s.selected) fun f hf =>
    .bind (R := fun _ => True) ⟨hp f hf, .inl (hq f hf), fun _ _ _ => trivial⟩ fun _ _ => .ite (.pure trivial) (.pure trivial))

theorem pick_within {dir : Path} (hp : ∀ n, P (Path.join dir n)) : ∀ l, Within P Q (fun _ => True) (pick dir l)
  | [] => .pure trivial
  | n :: ns => by
    refine .bind (.look (hp n)) fun x _ => ?_
    cases x with
    | missing => exact pick_within hp ns
    | file c => exact .bind (pick_within hp ns) fun _ _ => .pure trivial
    | dir => exact pick_within hp ns
    | unreachable => exact .done fun _ h => nomatch h

theorem getAllEncFileNames_within {dir : Path} (hd : P dir) (hp : ∀ n, P (Path.join dir n)) :
    Within P Q (fun _ => True) (getAllEncFileNames e dir) := by
  refine .noexcept (.ite (.pure trivial) (.bind (existsAt_within hd) fun _ _ => .ite (.pure trivial) ?_))
  exact .bind (.look hd) fun n _ => .ite (.done fun _ h => nomatch h) (.bind (pick_within hp _) fun _ _ => .pure trivial)

theorem scan_within {mode : Byte} {dir : Path} (hp : ∀ n, P (Path.join dir n)) :
    ∀ l i ret, Within P Q (fun _ => True) (scan hs e mode dir l i ret)
  | [], _, _ => .pure trivial
  | n :: ns, i, ret => by
    unfold scan
    refine .bind (getFileHandler_within (hp n) _) fun o ho => ?_
    rcases o with f | c | _
    · exact .ite (scan_within hp ns _ _)
        (.bind (isDataHeader_within (by rw [ho f rfl]; exact hp n) _ _ _) fun _ _ => scan_within hp ns _ _)
    · exact scan_within hp ns _ _
    · exact scan_within hp ns _ _

theorem getRelevantFileNames_within {mode : Byte} {dir : Path} (hd : P dir) (hp : ∀ n, P (Path.join dir n)) :
    Within P Q (fun _ => True) (getRelevantFileNames hs e mode dir) := by
  refine .noexcept (.bind (getAllEncFileNames_within hd hp) fun o _ => ?_)
  rcases o with l | c | _
  · exact .bind (scan_within hp l 0 []) fun _ _ => .pure trivial
  · exact .pure trivial
  · exact .pure trivial

theorem selectFile_within (s : Session) (hp : P p) : Within P Q (fun _ => True) (selectFile hs e s p) := by
  refine .noexcept (.bind (getFileHandler_within hp 0) fun o ho => ?_)
  rcases o with f | c | _
  · refine .ite (.pure trivial) (.noexcept (.bind (getDataHeader_within (by rw [ho f rfl]; exact hp) _ _) fun o _ => ?_))
    cases o <;> exact .pure trivial
  · exact .pure trivial
  · exact .pure trivial

theorem getFileContent_within (s : Session) (hp : ∀ f, s.selected = some f → P f.path) :
    Within P Q (fun _ => True) (getFileContent e s) := by
  refine .noexcept (.bind (deref_within s.selected) fun f hf => .bind (.look (hp f hf)) fun n _ =>
    .bind (.lift (R := fun _ => True) fun _ _ => trivial) fun o _ => ?_)
  cases o <;> exact .pure trivial

theorem getDecryptedData_within (s : Session) (hp : ∀ f, s.selected = some f → P f.path) :
    Within P Q (fun _ => True) (getDecryptedData hs e s) := by
  unfold getDecryptedData
  split
  · rename_i f hf
    exact .bind (.look (hp f hf)) fun n _ => .bind (.lift (R := fun _ => True) fun _ _ => trivial) fun _ _ => .pure trivial
  · exact .bind (.lift (R := fun _ => True) fun _ _ => trivial) fun _ _ => .pure trivial

/-- A call goes to the paths it uses, and changes only those it may change. -/
theorem call_within (s : Session) (c : Call) : Within (Uses s c) (Changes s c) (fun _ => True) (call hs rest e s c) := by
  unfold call
  have sel : ∀ {c}, OnSelected c → ∀ f, s.selected = some f → Uses s c f.path := fun h f hf => .inr ⟨h, f, hf, rfl⟩
  split
  · rename_i dir _
    refine .bind (getRelevantFileNames_within (.inl (.inl rfl)) fun n => .inl (.inr ⟨n, ?_⟩)) fun _ _ => .pure trivial
    unfold Path.join
    split
    · exact .inl rfl
    · exact .inr rfl
  · exact .bind (createFile_within (.inl rfl) rfl) fun _ _ => .pure trivial
  · exact .bind (selectFile_within s (.inl rfl)) fun _ _ => .pure trivial
  · exact .bind (deleteSelected_within s (sel trivial) fun f hf => ⟨f, hf, rfl⟩) fun _ _ => .pure trivial
  · exact .bind (deleteSelected_within s (sel trivial) fun f hf => ⟨f, hf, rfl⟩) fun _ _ => .pure trivial
  · exact .bind (getFileContent_within s (sel trivial)) fun _ _ => .pure trivial
  · exact .bind (getDecryptedData_within s (sel trivial)) fun _ _ => .pure trivial
  · exact .bind (writeToSelected_within s (sel trivial) fun f hf => ⟨f, hf, rfl⟩) fun _ _ => .pure trivial
  · exact .bind (writeToPath_within s (.inl rfl) rfl) fun _ _ => .pure trivial
  · exact .bind (.lift (R := fun _ => True) fun _ _ => trivial) fun _ _ => .pure trivial

end Steps
namespace Spec

theorem changes_uses {s : Session} {c : Call} {p : Path} (h : Changes s c p) : Uses s c p := by
  cases c with
  | createFile q => exact .inl h.symm
  | writeToFileAt q => exact .inl h.symm
  | deleteFile => exact .inr ⟨trivial, h⟩
  | writeToFile => exact .inr ⟨trivial, h⟩
  | _ => exact h.elim

theorem clash_symm {s s' : Session} {c c' : Call} (h : Clash s c s' c') : Clash s' c' s c := by
  obtain ⟨p, h | h⟩ := h
  · exact ⟨p, .inr ⟨h.2, h.1⟩⟩
  · exact ⟨p, .inl ⟨h.2, h.1⟩⟩

variable {hs : Hashes} {rest : Api.Helper → Res Api.Helper}

theorem orderly_cons {m : Over} {ev : OverEvent} {evs : List OverEvent} (h : Orderly hs rest m (ev :: evs)) :
    MayHappen m ev ∧ ∀ r m1, Api.stepOver hs rest m ev = .ok (r, m1) → Orderly hs rest m1 evs := by
  refine ⟨h [] ev evs [] m rfl rfl, ?_⟩
  intro r m1 h1 pre ev' post rs m2 he hrun
  refine h (ev :: pre) ev' post (r :: rs) m2 (by rw [he]; rfl) ?_
  simp only [Api.runOver, h1, Res.bind_ok, hrun]

/-- the calls that are going on stay within their paths and do not clash -/
structure Separate (m : Over) : Prop where
  within : ∀ j r, m.running j = some r → r.prog.Within (Uses (m.api j) r.call) (Changes (m.api j) r.call) (fun _ => True)
  apart : ∀ i j r r', i ≠ j → m.running i = some r → m.running j = some r' → ¬ Clash (m.api i) r.call (m.api j) r'.call

theorem separate_idle {m : Over} (h : AllIdle m) : Separate m :=
  ⟨fun j _ hr => (nomatch ((h j).symm.trans hr)), fun i _ _ _ _ hr => (nomatch ((h i).symm.trans hr))⟩

theorem setRun_same (m : Over) (i : Nat) (r : Option Running) : (m.set i r).running i = r := by simp [Over.set]
theorem setRun_other (m : Over) {i j : Nat} (h : j ≠ i) (r : Option Running) : (m.set i r).running j = m.running j := by
  simp [Over.set, h]

theorem separate_step {m m1 : Over} {ev : OverEvent} {x : Option (Nat × Ret)} (hs0 : Separate m) (hf : MayHappen m ev)
    (h : Api.stepOver hs rest m ev = .ok (x, m1)) : Separate m1 := by
  cases ev with
  | outside p n =>
    cases h
    exact ⟨hs0.within, hs0.apart⟩
  | start i c e =>
    obtain ⟨hi, hc⟩ := hf
    simp only [Api.stepOver, hi] at h
    cases h
    constructor
    · intro j r hr
      by_cases hj : j = i
      · subst hj
        rw [setRun_same] at hr
        cases hr
        exact Steps.call_within _ _
      · rw [setRun_other m hj] at hr
        exact hs0.within j r hr
    · intro k j r r' hkj hk hj
      by_cases hki : k = i
      · subst hki
        rw [setRun_same] at hk
        cases hk
        rw [setRun_other m (Ne.symm hkj)] at hj
        exact hc j r' hj
      · rw [setRun_other m hki] at hk
        by_cases hji : j = i
        · subst hji
          rw [setRun_same] at hj
          cases hj
          exact fun h => hc k r hk (clash_symm h)
        · rw [setRun_other m hji] at hj
          exact hs0.apart k j r r' hkj hk hj
  | step i =>
    simp only [Api.stepOver] at h
    split at h
    · cases h
      exact hs0
    · rename_i r hr
      split at h
      · obtain ⟨⟨ret, s⟩, -, h⟩ := Res.bind_eq_ok.mp h
        cases h
        constructor
        · intro j r' hr'
          by_cases hj : j = i
          · subst hj
            have := (setRun_same m j none).symm.trans hr'
            cases this
          · have : m.running j = some r' := (setRun_other m hj none).symm.trans hr'
            simp only [hj, if_false]
            exact hs0.within j r' this
        · intro k j r1 r2 hkj hk hj
          have hki : k ≠ i := by
            rintro rfl
            have := (setRun_same m k none).symm.trans hk
            cases this
          have hji : j ≠ i := by
            rintro rfl
            have := (setRun_same m j none).symm.trans hj
            cases this
          simp only [hki, hji, if_false]
          exact hs0.apart k j r1 r2 hkj ((setRun_other m hki none).symm.trans hk) ((setRun_other m hji none).symm.trans hj)
      · rename_i p f k hp
        cases h
        have hw := hs0.within i r hr
        rw [hp] at hw
        constructor
        · intro j r' hr'
          by_cases hj : j = i
          · subst hj
            have := (setRun_same m j _).symm.trans hr'
            cases this
            exact hw.2.2 _
          · exact hs0.within j r' ((setRun_other m hj _).symm.trans hr')
        · intro k' j r1 r2 hkj hk hj
          by_cases hki : k' = i
          · subst hki
            have := (setRun_same m k' _).symm.trans hk
            cases this
            exact hs0.apart k' j r r2 hkj hr ((setRun_other m (Ne.symm hkj) _).symm.trans hj)
          · have hk1 : m.running k' = some r1 := (setRun_other m hki _).symm.trans hk
            by_cases hji : j = i
            · subst hji
              have := (setRun_same m j _).symm.trans hj
              cases this
              exact hs0.apart k' j r1 r hkj hk1 hr
            · exact hs0.apart k' j r1 r2 hkj hk1 ((setRun_other m hji _).symm.trans hj)

/-- what a step of others or another program changes is not used by a call that goes on -/
theorem step_unused {m m1 : Over} {ev : OverEvent} {x : Option (Nat × Ret)} (hs0 : Separate m) (hf : MayHappen m ev)
    (h : Api.stepOver hs rest m ev = .ok (x, m1)) {j : Nat} {r : Running} (hj : m.running j = some r) (hev : ev ≠ .step j) :
    m1.running j = some r ∧ m1.api j = m.api j ∧ ∀ p, Uses (m.api j) r.call p → m1.fs p = m.fs p := by
  cases ev with
  | outside p n =>
    cases h
    refine ⟨hj, rfl, fun q hq => ?_⟩
    have : q ≠ p := fun h => hf j r hj (h ▸ hq)
    simp [FS.set, this]
  | start i c e =>
    obtain ⟨hi, -⟩ := hf
    simp only [Api.stepOver, hi] at h
    cases h
    have : j ≠ i := by
      rintro rfl
      rw [hi] at hj
      cases hj
    exact ⟨(setRun_other m this _).trans hj, rfl, fun _ _ => rfl⟩
  | step i =>
    have hji : j ≠ i := fun h => hev (h ▸ rfl)
    simp only [Api.stepOver] at h
    split at h
    · cases h
      exact ⟨hj, rfl, fun _ _ => rfl⟩
    · rename_i r' hr'
      split at h
      · obtain ⟨⟨ret, s⟩, -, h⟩ := Res.bind_eq_ok.mp h
        cases h
        exact ⟨(setRun_other m hji none).trans hj, by simp [hji], fun _ _ => rfl⟩
      · rename_i p f k hp
        cases h
        have hw := hs0.within i r' hr'
        rw [hp] at hw
        refine ⟨(setRun_other m hji _).trans hj, rfl, fun q hq => ?_⟩
        exact hw.alter fun hc => hs0.apart i j r' r (Ne.symm hji) hr' hj ⟨q, .inl ⟨hc, hq⟩⟩

/-- A call that will die does not return. -/
theorem doomed {j : Nat} : ∀ {evs : List OverEvent} {m m' : Over} {rs : List (Option (Nat × Ret))} {r : Running},
    Separate m → Orderly hs rest m evs → m.running j = some r → (∀ a, (r.prog.eval m.fs).1 ≠ .ok a) →
    Api.runOver hs rest m evs = .ok (rs, m') → m'.running j ≠ none
  | [], m, m', rs, r, _, _, hj, _, h => by
    cases h
    rw [hj]
    exact fun h => nomatch h
  | ev :: evs, m, m', rs, r, hs0, ho, hj, hd, h => by
    simp only [Api.runOver] at h
    obtain ⟨⟨x, m1⟩, h1, h⟩ := Res.bind_eq_ok.mp h
    obtain ⟨⟨rs1, m2⟩, h2, h⟩ := Res.bind_eq_ok.mp h
    cases h
    obtain ⟨hf, ho⟩ := orderly_cons ho
    have hs1 := separate_step hs0 hf h1
    by_cases hev : ev = .step j
    · subst hev
      simp only [Api.stepOver, hj] at h1
      split at h1
      · rename_i y hy
        obtain ⟨a, ha, -⟩ := Res.bind_eq_ok.mp h1
        rw [hy] at hd
        exact (hd a ha).elim
      · rename_i p f k hp
        rw [hp] at hd
        have ho' := ho _ _ (by simp only [Api.stepOver, hj, hp]; rfl)
        cases h1
        exact doomed hs1 ho' (setRun_same m j _) hd h2
    · obtain ⟨h3, h4, h5⟩ := step_unused hs0 hf h1 hj hev
      refine doomed hs1 (ho _ _ h1) h3 ?_ h2
      have := ((hs0.within j r hj).congr (fs := m1.fs) (fs' := m.fs) h5).1
      rw [this]
      exact hd

/-- the sessions `v` are where the sessions `m` will be when the calls that are going on are over; `pend`: what these will
return -/
structure Ahead (m : Over) (v : Many) (pend : Nat → Option Ret) : Prop where
  idle : ∀ j, m.running j = none → v.api j = m.api j ∧ pend j = none
  busy : ∀ j r, m.running j = some r → ∃ ret fs', pend j = some ret ∧ r.prog.eval m.fs = (.ok (ret, v.api j), fs') ∧
    ∀ p, Changes (m.api j) r.call p → fs' p = v.fs p
  rest : ∀ p, (∀ j r, m.running j = some r → ¬ Changes (m.api j) r.call p) → m.fs p = v.fs p

theorem ahead_idle {m : Over} (h : AllIdle m) : Ahead m ⟨m.api, m.fs⟩ (fun _ => none) :=
  ⟨fun _ _ => ⟨rfl, rfl⟩, fun j _ hr => (nomatch ((h j).symm.trans hr)), fun _ _ => rfl⟩

/-- the calls going on are neither helped nor disturbed by a step of another one -/
theorem busy_step {m m1 : Over} {v : Many} {pend : Nat → Option Ret} (ha : Ahead m v pend) {ev : OverEvent}
    {x : Option (Nat × Ret)} (hs0 : Separate m) (hf : MayHappen m ev) (h : Api.stepOver hs rest m ev = .ok (x, m1)) {j : Nat}
    {r : Running} (hj : m.running j = some r) (hev : ev ≠ .step j) : ∃ ret fs', pend j = some ret ∧
      r.prog.eval m1.fs = (.ok (ret, v.api j), fs') ∧ ∀ p, Changes (m.api j) r.call p → fs' p = v.fs p := by
  obtain ⟨ret, fs', h1, h2, h3⟩ := ha.busy j r hj
  obtain ⟨-, -, h5⟩ := step_unused hs0 hf h hj hev
  obtain ⟨h6, h7⟩ := (hs0.within j r hj).congr (fs := m1.fs) (fs' := m.fs) h5
  refine ⟨ret, (r.prog.eval m1.fs).2, h1, ?_, fun p hp => ?_⟩
  · rw [h2] at h6
    exact Prod.ext h6 rfl
  · rw [h7 p (changes_uses hp), h2]
    exact h3 p hp

theorem call_eval {e : Env} {s : Session} {c : Call} {fs : FS} {r : Ret} {w : World}
    (h : Api.call hs rest e ⟨s, fs⟩ c = .ok (r, w)) : (Steps.call hs rest e s c).eval fs = (.ok (r, w.api), w.fs) := by
  have := Steps.call_solo (hs := hs) (rest := rest) (e := e) (fs := fs) s c
  rw [h] at this
  simp only [Prog.solo, Res.bind_ok] at this
  obtain ⟨a, h1, h2⟩ := Res.bind_eq_ok.mp this
  obtain ⟨rfl, h3⟩ := Prod.mk.inj (Res.ok.inj h2)
  exact Prod.ext h1 h3

theorem call_eval_ok {e : Env} {s : Session} {c : Call} {fs : FS} {a : Ret × Session}
    (h : ((Steps.call hs rest e s c).eval fs).1 = .ok a) : ∃ w, Api.call hs rest e ⟨s, fs⟩ c = .ok (a.1, w) := by
  have := Steps.call_solo (hs := hs) (rest := rest) (e := e) (fs := fs) s c
  simp only [Prog.solo, h, Res.bind_ok] at this
  obtain ⟨⟨r, w⟩, h1, h2⟩ := Res.bind_eq_ok.mp this.symm
  obtain ⟨rfl, -⟩ := Prod.mk.inj (Res.ok.inj h2)
  exact ⟨w, h1⟩

/-- the disks agree on the paths that a call uses that clashes with none of those going on -/
theorem agree {m : Over} {v : Many} {pend : Nat → Option Ret} (ha : Ahead m v pend) {s : Session} {c : Call}
    (hc : ∀ j r, m.running j = some r → ¬ Clash s c (m.api j) r.call) {p : Path} (hp : Uses s c p) : m.fs p = v.fs p :=
  ha.rest p fun j r hj hch => hc j r hj ⟨p, .inr ⟨hp, hch⟩⟩

theorem ahead_start {m : Over} {v : Many} {pend : Nat → Option Ret} (ha : Ahead m v pend) {i : Nat}
    {c : Call} {e : Env} (hf : MayHappen m (.start i c e)) {ret : Ret} {w : World} (h : Api.call hs rest e (v.of i) c = .ok (ret, w)) :
    Ahead (m.set i (some ⟨c, Steps.call hs rest e (m.api i) c⟩)) (v.after i w)
      (fun j => if j = i then some ret else pend j) := by
  obtain ⟨hi, hc⟩ := hf
  have hapi := (ha.idle i hi).1
  have h1 := call_eval h
  rw [hapi] at h1
  have hw := Steps.call_within (hs := hs) (rest := rest) (e := e) (m.api i) c
  obtain ⟨h2, h3⟩ := hw.congr (fs := m.fs) (fs' := v.fs) fun p hp => agree ha hc hp
  rw [h1] at h2 h3
  have hkeep : ∀ p, ¬ Changes (m.api i) c p → w.fs p = v.fs p := by
    intro p hp
    have := hw.keeps (fs := v.fs) hp
    rwa [h1] at this
  constructor
  · intro j hj
    have hji : j ≠ i := by
      rintro rfl
      rw [setRun_same] at hj
      cases hj
    rw [setRun_other m hji] at hj
    simp only [Many.after, hji, if_false]
    exact ha.idle j hj
  · intro j r hj
    by_cases hji : j = i
    · subst hji
      rw [setRun_same] at hj
      cases hj
      simp only [Many.after, if_true]
      exact ⟨ret, ((Steps.call hs rest e (m.api j) c).eval m.fs).2, rfl, Prod.ext h2 rfl, fun p hp => h3 p (changes_uses hp)⟩
    · rw [setRun_other m hji] at hj
      simp only [Many.after, hji, if_false]
      obtain ⟨ret', fs', h4, h5, h6⟩ := ha.busy j r hj
      refine ⟨ret', fs', h4, h5, fun p hp => ?_⟩
      rw [h6 p hp, hkeep]
      exact fun hch => hc j r hj ⟨p, .inl ⟨hch, changes_uses hp⟩⟩
  · intro p hp
    have h4 : ¬ Changes (m.api i) c p := hp i _ (setRun_same m i _)
    simp only [Many.after]
    rw [hkeep p h4]
    refine ha.rest p fun j r hj => ?_
    have hji : j ≠ i := by
      rintro rfl
      rw [hi] at hj
      cases hj
    exact hp j r ((setRun_other m hji _).trans hj)

theorem ahead_outside (hs : Hashes) (rest : Api.Helper → Res Api.Helper) {m : Over} {v : Many} {pend : Nat → Option Ret} (ha : Ahead m v pend) (hs0 : Separate m) {p : Path} {n : Node}
    (hf : MayHappen m (.outside p n)) : Ahead { m with fs := m.fs.set p n } { v with fs := v.fs.set p n } pend := by
  constructor
  · exact ha.idle
  · intro j r hj
    obtain ⟨ret, fs', h1, h2, h3⟩ := busy_step (hs := hs) (rest := rest) ha hs0 hf rfl hj (fun h => nomatch h)
    refine ⟨ret, fs', h1, h2, fun q hq => ?_⟩
    have : q ≠ p := fun h => hf j r hj (h ▸ changes_uses hq)
    simp only [FS.set, this, if_false]
    exact h3 q hq
  · intro q hq
    have := ha.rest q hq
    simp only [FS.set]
    split
    · rfl
    · exact this

theorem ahead_act {m m1 : Over} {v : Many} {pend : Nat → Option Ret} (ha : Ahead m v pend) (hs0 : Separate m) {i : Nat} {r : Running}
    {p : Path} {f : Node → Option Node} {k : Node → Prog (Ret × Session)} (hi : m.running i = some r) (hp : r.prog = .act p f k)
    {x : Option (Nat × Ret)} (h : Api.stepOver hs rest m (.step i) = .ok (x, m1)) : x = none ∧ Ahead m1 v pend := by
  have hb := fun j r' (hj : m.running j = some r') hji => busy_step ha hs0 (ev := .step i) trivial h hj hji
  simp only [Api.stepOver, hi, hp] at h
  cases h
  refine ⟨rfl, ?_⟩
  have hw := hs0.within i r hi
  rw [hp] at hw
  constructor
  · intro j hj
    have hji : j ≠ i := by
      rintro rfl
      exact nomatch (setRun_same m j _).symm.trans hj
    exact ha.idle j ((setRun_other m hji _).symm.trans hj)
  · intro j r' hj
    by_cases hji : j = i
    · subst hji
      have := (setRun_same m j _).symm.trans hj
      cases this
      obtain ⟨ret, fs', h1, h2, h3⟩ := ha.busy j r hi
      rw [hp] at h2
      exact ⟨ret, fs', h1, h2, h3⟩
    · exact hb j r' ((setRun_other m hji _).symm.trans hj) fun h => hji (by cases h; rfl)
  · intro q hq
    have h1 : ¬ Changes (m.api i) r.call q := hq i { r with prog := k (m.fs p) } (setRun_same m i _)
    show m.fs.alter p f q = _
    rw [hw.alter h1]
    refine ha.rest q fun j r' hj => ?_
    by_cases hji : j = i
    · subst hji
      rw [hi] at hj
      cases hj
      exact h1
    · exact hq j r' ((setRun_other m hji _).trans hj)

theorem ahead_done {m : Over} {v : Many} {pend : Nat → Option Ret} (ha : Ahead m v pend) {i : Nat} {r : Running}
    {y : Res (Ret × Session)} (hi : m.running i = some r) (hp : r.prog = .done y) :
    ∃ ret, y = .ok (ret, v.api i) ∧ pend i = some ret ∧
      Ahead { m.set i none with api := fun j => if j = i then v.api i else m.api j } v (fun j => if j = i then none else pend j) := by
  obtain ⟨ret, fs', h1, h2, h3⟩ := ha.busy i r hi
  rw [hp] at h2
  cases h2
  refine ⟨ret, rfl, h1, ?_, ?_, ?_⟩
  · intro j hj
    by_cases hji : j = i
    · subst hji
      simp
    · simp only [hji, if_false]
      exact ha.idle j ((setRun_other m hji _).symm.trans hj)
  · intro j r' hj
    have hji : j ≠ i := by
      rintro rfl
      exact nomatch (setRun_same m j _).symm.trans hj
    simp only [hji, if_false]
    exact ha.busy j r' ((setRun_other m hji _).symm.trans hj)
  · intro p hq
    by_cases hc : Changes (m.api i) r.call p
    · exact h3 p hc
    · refine ha.rest p fun j r' hj => ?_
      by_cases hji : j = i
      · subst hji
        rw [hi] at hj
        cases hj
        exact hc
      · have := hq j r' ((setRun_other m hji _).trans hj)
        simpa only [hji, if_false] using this

theorem answersOf_cons_none (i : Nat) (rs : List (Option (Nat × Ret))) : answersOf i (none :: rs) = answersOf i rs := rfl

theorem answersOf_cons_some (i j : Nat) (r : Ret) (rs : List (Option (Nat × Ret))) :
    answersOf i (some (j, r) :: rs) = if j = i then r :: answersOf i rs else answersOf i rs := by
  unfold answersOf
  by_cases h : j = i <;> simp [h]

/-- Calls that overlap without clashing: when all are over, it is as if each had been over as soon as it started. -/
theorem serial : ∀ {evs : List OverEvent} {m m' : Over} {v : Many} {pend : Nat → Option Ret} {rs : List (Option (Nat × Ret))},
    Separate m → Ahead m v pend → Orderly hs rest m evs → Api.runOver hs rest m evs = .ok (rs, m') → AllIdle m' →
    ∃ rs', Api.runMany hs rest v (begun evs) = .ok (rs', ⟨m'.api, m'.fs⟩) ∧
      ∀ i, answersOf i rs = (pend i).toList ++ answersOf i rs'
  | [], m, m', v, pend, rs, _, ha, _, h, hid => by
    cases h
    refine ⟨[], ?_, fun i => ?_⟩
    · show Res.ok ([], v) = _
      have h1 : v.api = m.api := funext fun j => (ha.idle j (hid j)).1
      have h2 : v.fs = m.fs := funext fun p => (ha.rest p fun j r hj => nomatch ((hid j).symm.trans hj)).symm
      rw [← h1, ← h2]
    · rw [(ha.idle i (hid i)).2]
      rfl
  | ev :: evs, m, m', v, pend, rs, hs0, ha, ho, h, hid => by
    have ⟨hf, ho'⟩ := orderly_cons ho
    have hrun := h
    simp only [Api.runOver] at h
    obtain ⟨⟨x, m1⟩, h1, h⟩ := Res.bind_eq_ok.mp h
    obtain ⟨⟨rs1, m2⟩, h2, h⟩ := Res.bind_eq_ok.mp h
    cases h
    have hs1 := separate_step hs0 hf h1
    have ho1 := ho' _ _ h1
    cases ev with
    | outside p n =>
      have ha1 := ahead_outside hs rest ha hs0 hf
      cases h1
      obtain ⟨rs', h3, h4⟩ := serial hs1 ha1 ho1 h2 hid
      exact ⟨none :: rs', by simp only [begun, Api.runMany, Api.stepMany, Res.bind_ok, h3], h4⟩
    | start i c e =>
      have hi := hf.1
      simp only [Api.stepOver, hi] at h1
      cases h1
      rcases hc : Api.call hs rest e (v.of i) c with ⟨ret, w⟩ | y | y
      · obtain ⟨rs', h3, h4⟩ := serial hs1 (ahead_start ha hf hc) ho1 h2 hid
        refine ⟨some (i, ret) :: rs', by simp only [begun, Api.runMany, Api.stepMany, hc, Res.bind_ok, h3], fun j => ?_⟩
        rw [answersOf_cons_none, h4 j, answersOf_cons_some]
        by_cases hji : j = i
        · subst hji
          simp [(ha.idle j hi).2]
        · simp [hji, Ne.symm hji]
      all_goals
        refine (doomed hs1 ho1 (setRun_same m i _) ?_ h2 (hid i)).elim
        intro a h5
        have h6 := ((Steps.call_within (hs := hs) (rest := rest) (e := e) (m.api i) c).congr (fs := m.fs) (fs' := v.fs)
          fun p hp => agree ha hf.2 hp).1
        obtain ⟨w, h7⟩ := call_eval_ok (h6.symm.trans h5)
        have h8 : v.of i = ⟨m.api i, v.fs⟩ := by rw [Many.of, (ha.idle i hi).1]
        rw [h8, h7] at hc
        cases hc
    | step i =>
      cases hi : m.running i with
      | none =>
        simp only [Api.stepOver, hi] at h1
        cases h1
        exact serial (evs := evs) (rs := rs1) hs1 ha ho1 h2 hid
      | some r =>
        cases hp : r.prog with
        | act p f k =>
          obtain ⟨rfl, ha1⟩ := ahead_act ha hs0 hi hp h1
          exact serial (evs := evs) (rs := rs1) hs1 ha1 ho1 h2 hid
        | done y =>
          obtain ⟨ret, rfl, h3, ha1⟩ := ahead_done ha hi hp
          simp only [Api.stepOver, hi, hp, Res.bind_ok] at h1
          cases h1
          obtain ⟨rs', h4, h5⟩ := serial hs1 ha1 ho1 h2 hid
          refine ⟨rs', h4, fun j => ?_⟩
          rw [answersOf_cons_some, h5 j]
          by_cases hji : j = i
          · subst hji
            simp [h3]
          · simp [hji, Ne.symm hji]

/-- If the calls one after the other survive, so do the overlapping ones, and they are going to be where these are. -/
theorem lives : ∀ {evs : List OverEvent} {m : Over} {v v' : Many} {pend : Nat → Option Ret} {rs' : List (Option (Nat × Ret))},
    Separate m → Ahead m v pend → Orderly hs rest m evs → Api.runMany hs rest v (begun evs) = .ok (rs', v') →
    ∃ rs m' pend', Api.runOver hs rest m evs = .ok (rs, m') ∧ Separate m' ∧ Ahead m' v' pend' ∧
      ∀ i, answersOf i rs ++ (pend' i).toList = (pend i).toList ++ answersOf i rs'
  | [], m, v, v', pend, rs', hs0, ha, _, h => by
    cases h
    exact ⟨[], m, pend, rfl, hs0, ha, fun i => (List.append_nil _).symm⟩
  | ev :: evs, m, v, v', pend, rs', hs0, ha, ho, h => by
    have ⟨hf, ho'⟩ := orderly_cons ho
    cases ev with
    | outside p n =>
      have ha1 := ahead_outside hs rest ha hs0 hf
      simp only [begun, Api.runMany, Api.stepMany, Res.bind_ok] at h
      obtain ⟨⟨rs1, v1⟩, h2, h⟩ := Res.bind_eq_ok.mp h
      cases h
      obtain ⟨rs, m', pend', h3, h4, h5, h6⟩ := lives (separate_step (hs := hs) (rest := rest) hs0 hf rfl) ha1 (ho' _ _ rfl) h2
      exact ⟨none :: rs, m', pend', by simp only [Api.runOver, Api.stepOver, Res.bind_ok, h3], h4, h5, h6⟩
    | start i c e =>
      have hi := hf.1
      have h1 : Api.stepOver hs rest m (.start i c e) =
          .ok (none, m.set i (some ⟨c, Steps.call hs rest e (m.api i) c⟩)) := by simp only [Api.stepOver, hi]
      simp only [begun, Api.runMany, Api.stepMany] at h
      obtain ⟨⟨x, v1⟩, h2, h⟩ := Res.bind_eq_ok.mp h
      obtain ⟨⟨ret, w⟩, hc, h2⟩ := Res.bind_eq_ok.mp h2
      cases h2
      obtain ⟨⟨rs1, v2⟩, h2, h⟩ := Res.bind_eq_ok.mp h
      cases h
      obtain ⟨rs, m', pend', h3, h4, h5, h6⟩ := lives (separate_step hs0 hf h1) (ahead_start ha hf hc) (ho' _ _ h1) h2
      refine ⟨none :: rs, m', pend', by simp only [Api.runOver, h1, Res.bind_ok, h3], h4, h5, fun j => ?_⟩
      rw [answersOf_cons_none, h6 j, answersOf_cons_some]
      by_cases hji : j = i
      · subst hji
        simp [(ha.idle j hi).2]
      · simp [hji, Ne.symm hji]
    | step i =>
      cases hi : m.running i with
      | none =>
        have h1 : Api.stepOver hs rest m (.step i) = .ok (none, m) := by simp only [Api.stepOver, hi]
        obtain ⟨rs, m', pend', h3, h4, h5, h6⟩ := lives hs0 ha (ho' _ _ h1) h
        exact ⟨none :: rs, m', pend', by simp only [Api.runOver, h1, Res.bind_ok, h3], h4, h5, h6⟩
      | some r =>
        cases hp : r.prog with
        | act p f k =>
          obtain ⟨⟨x, m1⟩, h1⟩ : ∃ y, Api.stepOver hs rest m (.step i) = .ok y := by simp only [Api.stepOver, hi, hp]; exact ⟨_, rfl⟩
          obtain ⟨rfl, ha1⟩ := ahead_act ha hs0 hi hp h1
          obtain ⟨rs, m', pend', h3, h4, h5, h6⟩ := lives (separate_step hs0 hf h1) ha1 (ho' _ _ h1) h
          exact ⟨none :: rs, m', pend', by simp only [Api.runOver, h1, Res.bind_ok, h3], h4, h5, h6⟩
        | done y =>
          obtain ⟨ret, rfl, h3, ha1⟩ := ahead_done ha hi hp
          have h1 : Api.stepOver hs rest m (.step i) = .ok (some (i, ret),
              { m.set i none with api := fun j => if j = i then v.api i else m.api j }) := by
            simp only [Api.stepOver, hi, hp, Res.bind_ok]
          obtain ⟨rs, m', pend', h4, h5, h6, h7⟩ := lives (separate_step hs0 hf h1) ha1 (ho' _ _ h1) h
          refine ⟨some (i, ret) :: rs, m', pend', by simp only [Api.runOver, h1, Res.bind_ok, h4], h5, h6, fun j => ?_⟩
          have := h7 j
          rw [answersOf_cons_some]
          by_cases hji : j = i
          · subst hji
            simp only [if_true, Option.toList_none, List.nil_append] at this
            simp [h3, this]
          · simp only [hji, if_false] at this
            simp [Ne.symm hji, this]

theorem runOver_append : ∀ {xs ys : List OverEvent} {m m1 m2 : Over} {rs rs' : List (Option (Nat × Ret))},
    Api.runOver hs rest m xs = .ok (rs, m1) → Api.runOver hs rest m1 ys = .ok (rs', m2) →
    Api.runOver hs rest m (xs ++ ys) = .ok (rs ++ rs', m2)
  | [], ys, m, m1, m2, rs, rs', h, h' => by
    cases h
    exact h'
  | x :: xs, ys, m, m1, m2, rs, rs', h, h' => by
    simp only [Api.runOver] at h
    obtain ⟨⟨y, m3⟩, h1, h⟩ := Res.bind_eq_ok.mp h
    obtain ⟨⟨rs1, m4⟩, h2, h⟩ := Res.bind_eq_ok.mp h
    cases h
    simp only [List.cons_append, Api.runOver, h1, Res.bind_ok, runOver_append h2 h']

/-- steps are always in order -/
theorem orderly_steps (l : List Nat) (m : Over) : Orderly hs rest m (l.map .step) := by
  intro pre ev post rs m1 h _
  have : ev ∈ l.map OverEvent.step := by rw [h]; simp
  obtain ⟨i, -, rfl⟩ := List.mem_map.mp this
  trivial

theorem begun_steps (l : List Nat) : begun (l.map .step) = [] := by
  induction l with
  | nil => rfl
  | cons i l ih => exact ih

theorem begun_append (xs ys : List OverEvent) : begun (xs ++ ys) = begun xs ++ begun ys := by
  induction xs with
  | nil => rfl
  | cons x xs ih => cases x <;> simp [begun, ih]

theorem orderly_append {xs : List OverEvent} {m : Over} (h : Orderly hs rest m xs) (l : List Nat) :
    Orderly hs rest m (xs ++ l.map .step) := by
  intro pre ev post rs m1 he hrun
  rcases List.append_eq_append_iff.mp he with ⟨ys, h1, h2⟩ | ⟨ys, h1, h2⟩
  · have : ev ∈ l.map OverEvent.step := by rw [h2]; simp
    obtain ⟨i, -, rfl⟩ := List.mem_map.mp this
    trivial
  · cases ys with
    | nil =>
      have : ev ∈ l.map OverEvent.step := by
        simp only [List.nil_append] at h2
        rw [← h2]
        simp
      obtain ⟨i, -, rfl⟩ := List.mem_map.mp this
      trivial
    | cons y ys =>
      cases h2
      exact h pre ev ys rs m1 h1 hrun

/-- a call that is going on can be finished -/
theorem finish_one {v : Many} (i : Nat) (x : Prog (Ret × Session)) : ∀ {m : Over} {pend : Nat → Option Ret} {r : Running},
    Separate m → Ahead m v pend → m.running i = some r → r.prog = x →
    ∃ n rs m', Api.runOver hs rest m ((List.replicate n i).map .step) = .ok (rs, m') ∧ m'.running i = none ∧
      ∀ j, j ≠ i → m'.running j = m.running j := by
  induction x with
  | done y =>
    intro m pend r _ ha hi hp
    obtain ⟨ret, rfl, h3, ha1⟩ := ahead_done ha hi hp
    have h1 : Api.stepOver hs rest m (.step i) = .ok (some (i, ret),
        { m.set i none with api := fun j => if j = i then v.api i else m.api j }) := by
      simp only [Api.stepOver, hi, hp, Res.bind_ok]
    exact ⟨1, [some (i, ret)], { m.set i none with api := fun j => if j = i then v.api i else m.api j }, by simp only [List.replicate, List.map, Api.runOver, h1, Res.bind_ok], setRun_same m i _,
      fun j hj => setRun_other m hj _⟩
  | act p f k ih =>
    intro m pend r hs0 ha hi hp
    have h1 : Api.stepOver hs rest m (.step i) =
        .ok (none, { m.set i (some { r with prog := k (m.fs p) }) with fs := m.fs.alter p f }) := by
      simp only [Api.stepOver, hi, hp]
    obtain ⟨-, ha1⟩ := ahead_act ha hs0 hi hp h1
    obtain ⟨n, rs, m', h2, h3, h4⟩ := ih _ (separate_step hs0 (ev := .step i) trivial h1) ha1 (setRun_same m i _) rfl
    refine ⟨n + 1, none :: rs, m', ?_, h3, fun j hj => (h4 j hj).trans (setRun_other m hj _)⟩
    simp only [List.replicate_succ, List.map_cons, Api.runOver, h1, Res.bind_ok, h2]

/-- all calls that are going on can be finished -/
theorem finish_all {v : Many} : ∀ (k : Nat) {m : Over} {pend : Nat → Option Ret}, Separate m → Ahead m v pend →
    (∀ j, k ≤ j → m.running j = none) →
    ∃ (l : List Nat) (rs : List (Option (Nat × Ret))) (m' : Over), Api.runOver hs rest m (l.map .step) = .ok (rs, m') ∧ AllIdle m'
  | 0, m, _, _, _, h => ⟨[], [], m, rfl, fun j => h j (Nat.zero_le _)⟩
  | k + 1, m, pend, hs0, ha, h => by
    have key : ∃ n rs m', Api.runOver hs rest m ((List.replicate n k).map .step) = .ok (rs, m') ∧ m'.running k = none ∧
        ∀ j, j ≠ k → m'.running j = m.running j := by
      cases hk : m.running k with
      | none => exact ⟨0, [], m, rfl, hk, fun _ _ => rfl⟩
      | some r => exact finish_one k r.prog hs0 ha hk rfl
    obtain ⟨n, rs, m1, h1, h2, h3⟩ := key
    obtain ⟨rs2, m2, pend', h4, h5, h6, -⟩ := lives (rs' := []) (v' := v) hs0 ha (orderly_steps (List.replicate n k) m)
      (by rw [begun_steps]; rfl)
    rw [h1] at h4
    cases h4
    obtain ⟨l, rs3, m3, h7, h8⟩ := finish_all k h5 h6 (fun j hj => by
      by_cases hjk : j = k
      · rw [hjk]
        exact h2
      · rw [h3 j hjk]
        exact h j (by omega))
    refine ⟨List.replicate n k ++ l, rs ++ rs3, m3, ?_, h8⟩
    rw [List.map_append]
    exact runOver_append h1 h7

/-- only finitely many sessions are in a call -/
theorem finite_run : ∀ {evs : List OverEvent} {m m' : Over} {rs : List (Option (Nat × Ret))} {k : Nat},
    (∀ j, k ≤ j → m.running j = none) → Api.runOver hs rest m evs = .ok (rs, m') → ∃ k', ∀ j, k' ≤ j → m'.running j = none
  | [], m, m', rs, k, hk, h => by
    cases h
    exact ⟨k, hk⟩
  | ev :: evs, m, m', rs, k, hk, h => by
    simp only [Api.runOver] at h
    obtain ⟨⟨x, m1⟩, h1, h⟩ := Res.bind_eq_ok.mp h
    obtain ⟨⟨rs1, m2⟩, h2, h⟩ := Res.bind_eq_ok.mp h
    cases h
    have : ∃ k', ∀ j, k' ≤ j → m1.running j = none := by
      cases ev with
      | outside p n =>
        cases h1
        exact ⟨k, hk⟩
      | start i c e =>
        simp only [Api.stepOver] at h1
        split at h1
        · cases h1
          exact ⟨k, hk⟩
        · cases h1
          exact ⟨k + (i + 1), fun j hj => (setRun_other m (by omega) _).trans (hk j (by omega))⟩
      | step i =>
        simp only [Api.stepOver] at h1
        split at h1
        · cases h1
          exact ⟨k, hk⟩
        · split at h1
          · obtain ⟨⟨ret, s⟩, -, h1⟩ := Res.bind_eq_ok.mp h1
            cases h1
            exact ⟨k + (i + 1), fun j hj => (setRun_other m (by omega) _).trans (hk j (by omega))⟩
          · cases h1
            exact ⟨k + (i + 1), fun j hj => (setRun_other m (by omega) _).trans (hk j (by omega))⟩
    obtain ⟨k', hk'⟩ := this
    exact finite_run hk' h2

/-- a call that dies when nobody interrupts it does so after finitely many steps -/
theorem dies_alone (i : Nat) (x : Prog (Ret × Session)) : ∀ {m : Over} {r : Running},
    m.running i = some r → r.prog = x → (∀ a, (x.eval m.fs).1 ≠ .ok a) →
    ∃ n : Nat, ∀ y, Api.runOver hs rest m ((List.replicate n i).map .step) ≠ .ok y := by
  induction x with
  | done z =>
    intro m r hi hp hd
    refine ⟨1, fun y h => ?_⟩
    simp only [List.replicate, List.map, Api.runOver] at h
    obtain ⟨u, h1, -⟩ := Res.bind_eq_ok.mp h
    simp only [Api.stepOver, hi, hp] at h1
    obtain ⟨a, h2, -⟩ := Res.bind_eq_ok.mp h1
    exact hd a h2
  | act p f k ih =>
    intro m r hi hp hd
    have h1 : Api.stepOver hs rest m (.step i) =
        .ok (none, { m.set i (some { r with prog := k (m.fs p) }) with fs := m.fs.alter p f }) := by
      simp only [Api.stepOver, hi, hp]
    obtain ⟨n, h2⟩ := ih (m.fs p) (m := { m.set i (some { r with prog := k (m.fs p) }) with fs := m.fs.alter p f })
      (setRun_same m i _) rfl hd
    refine ⟨n + 1, fun y h => ?_⟩
    simp only [List.replicate_succ, List.map_cons, Api.runOver, h1, Res.bind_ok] at h
    obtain ⟨u, h3, -⟩ := Res.bind_eq_ok.mp h
    exact h2 u h3

end Spec
end Verif
