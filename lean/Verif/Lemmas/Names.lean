import Verif.Spec.Names
import Verif.Lemmas.OverlapRun

/- Lemmas for C86. -/
namespace Verif

namespace Prog

variable {α : Type} {P Q : Path → Prop} {R : α → Prop} {σ : Path → Path}

/-- a call that changes at most one path and then looks at no other goes to the places just as it goes to the paths of a disk that
looks like the places -/
theorem Within.named {x : Prog α} (hx : Within P Q R x) (hPQ : ∀ p q, Q p → P q → q = p) {D fs : FS}
    (h : ∀ p, P p → fs p = D (σ p)) :
    (x.named σ D).1 = (x.eval fs).1 ∧ (∀ p, P p → (x.named σ D).2 (σ p) = (x.eval fs).2 p) ∧
      ∀ d, (∀ p, Q p → σ p ≠ d) → (x.named σ D).2 d = D d := by
  induction x generalizing D fs with
  | done r => exact ⟨rfl, fun p hp => (h p hp).symm, fun _ _ => rfl⟩
  | act p f k ih =>
    have hp := h p hx.1
    simp only [Prog.named, eval]
    rw [← hp]
    rcases hx.2.1 with hq | hn
    · have h1 : ∀ q, P q → fs.alter p f q = D.alter (σ p) f (σ q) := by
        intro q hq'
        cases hPQ p q hq hq'
        unfold FS.alter
        rw [hp]
        cases f (D (σ p))
        · exact hp
        · simp [FS.set]
      obtain ⟨h2, h3, h4⟩ := ih _ (hx.2.2 _) h1
      refine ⟨h2, h3, fun d hd => ?_⟩
      rw [h4 d hd, alter_other fun he => hd p hq he.symm]
    · rw [alter_none hn, alter_none hn]
      exact ih _ (hx.2.2 _) h

end Prog

namespace Steps
open Prog Spec

variable {hs : Hashes} {rest : Api.Helper → Res Api.Helper} {e : Env} {P Q : Path → Prop}

theorem pick_listed {dir : Path} : ∀ l, (∀ n ∈ l, P (Path.join dir n)) →
    Within P Q (fun r => ∀ x ∈ r, ∃ n ∈ l, x = Path.filename (Path.join dir n)) (pick dir l)
  | [], _ => .pure fun _ h => nomatch h
  | n :: ns, hp => by
    have ih := pick_listed ns fun n hn => hp n (List.mem_cons_of_mem _ hn)
    have weak : ∀ r : List (List Byte), (∀ x ∈ r, ∃ n ∈ ns, x = Path.filename (Path.join dir n)) →
        ∀ x ∈ r, ∃ m ∈ n :: ns, x = Path.filename (Path.join dir m) := fun r hr x hx => by
      obtain ⟨m, hm, h⟩ := hr x hx
      exact ⟨m, List.mem_cons_of_mem _ hm, h⟩
    refine .bind (.look (hp n (List.mem_cons_self))) fun x _ => ?_
    cases x with
    | missing => exact ih.mono weak
    | dir => exact ih.mono weak
    | unreachable => exact .done fun _ h => nomatch h
    | file c =>
      refine .bind ih fun r hr => .pure ?_
      split
      · intro x hx
        rcases List.mem_cons.mp hx with rfl | hx
        · exact ⟨n, List.mem_cons_self, rfl⟩
        · exact weak r hr x hx
      · exact weak r hr

theorem scan_listed {mode : Byte} {dir : Path} : ∀ l i ret, (∀ n ∈ l, P (Path.join dir n)) →
    Within P Q (fun _ => True) (scan hs e mode dir l i ret)
  | [], _, _, _ => .pure trivial
  | n :: ns, i, ret, hp => by
    have hn := hp n List.mem_cons_self
    have ih := fun i ret => scan_listed (mode := mode) ns i ret fun n hn => hp n (List.mem_cons_of_mem _ hn)
    unfold scan
    refine .bind (getFileHandler_within hn _) fun o ho => ?_
    rcases o with f | c | _
    · exact .ite (ih _ _) (.bind (isDataHeader_within (by rw [ho f rfl]; exact hn) _ _ _) fun _ _ => ih _ _)
    · exact ih _ _
    · exact ih _ _

theorem getRelevantFileNames_listed {mode : Byte} {dir : Path} (hd : P dir) (hp : ∀ n ∈ e.list dir, P (Path.join dir n))
    (hp' : ∀ n ∈ e.list dir, P (Path.join dir (Path.filename (Path.join dir n)))) :
    Within P Q (fun _ => True) (getRelevantFileNames hs e mode dir) := by
  refine .noexcept (.bind (R := fun o => ∀ l, o = .success l → ∀ n ∈ l, P (Path.join dir n)) ?_ fun o ho => ?_)
  · refine .noexcept (.ite (.pure fun _ h => nomatch h) (.bind (existsAt_within hd) fun _ _ => .ite (.pure fun _ h => nomatch h) ?_))
    refine .bind (.look hd) fun n _ => .ite (.done fun _ h => nomatch h) (.bind (pick_listed _ hp) fun r hr => .pure ?_)
    rintro l ⟨⟩ n hn
    obtain ⟨m, hm, rfl⟩ := hr n hn
    exact hp' m hm
  · rcases o with l | c | _
    · exact .bind (scan_listed l 0 [] (ho l rfl)) fun _ _ => .pure trivial
    · exact .pure trivial
    · exact .pure trivial

end Steps

namespace Spec

/-- the names a call comes across, the selected file included -/
def Meets (s : Session) (e : Env) (c : Call) (p : Path) : Prop :=
  Comes e c p ∨ OnSelected c ∧ ∃ f, s.selected = some f ∧ f.path = p

theorem changes_meets {s : Session} {e : Env} {c : Call} {p : Path} (h : Changes s c p) : Meets s e c p := by
  cases c with
  | createFile q => exact .inl h.symm
  | writeToFileAt q => exact .inl h.symm
  | deleteFile => exact .inr ⟨trivial, h⟩
  | writeToFile => exact .inr ⟨trivial, h⟩
  | _ => exact h.elim

theorem changes_one {s : Session} {e : Env} {c : Call} {p q : Path} (h : Changes s c p) (h' : Meets s e c q) : q = p := by
  cases c with
  | createFile _ =>
    rcases h' with h' | ⟨h', -⟩
    · exact h'.trans h
    · exact h'.elim
  | writeToFileAt _ =>
    rcases h' with h' | ⟨h', -⟩
    · exact h'.trans h
    · exact h'.elim
  | deleteFile =>
    rcases h' with h' | ⟨-, f', h1, h2⟩
    · exact h'.elim
    · obtain ⟨f, h3, h4⟩ := h
      cases h1.symm.trans h3
      exact h2.symm.trans h4
  | writeToFile =>
    rcases h' with h' | ⟨-, f', h1, h2⟩
    · exact h'.elim
    · obtain ⟨f, h3, h4⟩ := h
      cases h1.symm.trans h3
      exact h2.symm.trans h4
  | _ => exact h.elim

variable {hs : Hashes} {rest : Api.Helper → Res Api.Helper} {e : Env}

open Prog in
/-- a call goes to the names it meets -/
theorem call_meets (s : Session) (c : Call) :
    Within (Meets s e c) (Changes s c) (fun _ => True) (Steps.call hs rest e s c) := by
  have sel : ∀ {c}, OnSelected c → ∀ f, s.selected = some f → Meets s e c f.path := fun h f hf => .inr ⟨h, f, hf, rfl⟩
  unfold Steps.call
  split
  · exact .bind (Steps.getRelevantFileNames_listed (.inl (.inl rfl)) (fun n hn => .inl (.inr ⟨n, hn, .inl rfl⟩))
      fun n hn => .inl (.inr ⟨n, hn, .inr rfl⟩)) fun _ _ => .pure trivial
  · exact .bind (Steps.createFile_within (.inl rfl) rfl) fun _ _ => .pure trivial
  · exact .bind (Steps.selectFile_within s (.inl rfl)) fun _ _ => .pure trivial
  · exact .bind (Steps.deleteSelected_within s (sel trivial) fun f hf => ⟨f, hf, rfl⟩) fun _ _ => .pure trivial
  · exact .bind (Steps.deleteSelected_within s (sel trivial) fun f hf => ⟨f, hf, rfl⟩) fun _ _ => .pure trivial
  · exact .bind (Steps.getFileContent_within s (sel trivial)) fun _ _ => .pure trivial
  · exact .bind (Steps.getDecryptedData_within s (sel trivial)) fun _ _ => .pure trivial
  · exact .bind (Steps.writeToSelected_within s (sel trivial) fun f hf => ⟨f, hf, rfl⟩) fun _ _ => .pure trivial
  · exact .bind (Steps.writeToPath_within s (.inl rfl) rfl) fun _ _ => .pure trivial
  · exact .bind (.lift (R := fun _ => True) fun _ _ => trivial) fun _ _ => .pure trivial

theorem call_of_eval {s : Session} {c : Call} {fs : FS} {r : Ret} {s' : Session}
    (h : ((Steps.call hs rest e s c).eval fs).1 = .ok (r, s')) :
    Api.call hs rest e ⟨s, fs⟩ c = .ok (r, ⟨s', ((Steps.call hs rest e s c).eval fs).2⟩) := by
  have := Steps.call_solo (hs := hs) (rest := rest) (e := e) (fs := fs) s c
  simp only [Prog.solo, h, Res.bind_ok] at this
  obtain ⟨⟨r1, w⟩, h1, h2⟩ := Res.bind_eq_ok.mp this.symm
  obtain ⟨h2, h3⟩ := Prod.mk.inj (Res.ok.inj h2)
  obtain ⟨rfl, rfl⟩ := Prod.mk.inj h2
  rw [h1, ← h3]

theorem call_of_exn {s : Session} {c : Call} {fs : FS} {x : Exn} (h : ((Steps.call hs rest e s c).eval fs).1 = .exn x) :
    Api.call hs rest e ⟨s, fs⟩ c = .exn x := by
  have := Steps.call_solo (hs := hs) (rest := rest) (e := e) (fs := fs) s c
  simp only [Prog.solo, h, Res.bind_exn] at this
  rcases hc : Api.call hs rest e ⟨s, fs⟩ c with y | y | y
  · rw [hc] at this
    cases this
  · rw [hc] at this
    cases this
    rfl
  · rw [hc] at this
    cases this

theorem call_of_fatal {s : Session} {c : Call} {fs : FS} {x : Fatal} (h : ((Steps.call hs rest e s c).eval fs).1 = .fatal x) :
    Api.call hs rest e ⟨s, fs⟩ c = .fatal x := by
  have := Steps.call_solo (hs := hs) (rest := rest) (e := e) (fs := fs) s c
  simp only [Prog.solo, h, Res.bind_fatal] at this
  rcases hc : Api.call hs rest e ⟨s, fs⟩ c with y | y | y
  · rw [hc] at this
    cases this
  · rw [hc] at this
    cases this
  · rw [hc] at this
    cases this
    rfl

/-! ### histories -/

open Api

/-- other programs change the paths of a list -/
theorem run_outsides (g : Path → Node) (evs : List ManyEvent) : ∀ (L : List Path) (v : Many),
    runMany hs rest v (L.map (fun q => .outside q (g q)) ++ evs) = (do
      let (rs, v) ← runMany hs rest ⟨v.api, fun q => if q ∈ L then g q else v.fs q⟩ evs
      .ok (L.map (fun _ => none) ++ rs, v))
  | [], v => by
    have : (⟨v.api, fun q => if q ∈ [] then g q else v.fs q⟩ : Many) = v := by simp
    simp only [List.map_nil, List.nil_append, this]
    rcases runMany hs rest v evs with y | y | y <;> rfl
  | p :: L, v => by
    have ih := run_outsides g evs L { v with fs := v.fs.set p (g p) }
    have hd : (fun q => if q ∈ L then g q else v.fs.set p (g p) q) = fun q => if q ∈ p :: L then g q else v.fs q := by
      funext q
      by_cases hq : q = p
      · rw [hq]
        simp [FS.set]
      · simp [FS.set, hq]
    simp only [List.map_cons, List.cons_append, runMany, stepMany, Res.bind_ok]
    simp only at ih
    rw [ih, hd]
    rcases runMany hs rest _ evs with y | y | y <;> rfl

/-- same outcome: the same answers, sessions and, under the names `Q`, files -/
def SameOutcome (Q : List Path) : Res (List (Option (Nat × Ret)) × Named) → Res (List (Option (Nat × Ret)) × Many) → Prop
  | .ok (rs, m), .ok (rs', v) => (∀ i, answersOf i rs = answersOf i rs') ∧ v.api = m.api ∧ ∀ q ∈ Q, v.fs q = m.view q
  | .exn x, .exn y => x = y
  | .fatal x, .fatal y => x = y
  | _, _ => False

theorem same_cons {Q : List Path} {a : Res (List (Option (Nat × Ret)) × Named)} {b : Res (List (Option (Nat × Ret)) × Many)}
    {x : Option (Nat × Ret)} {xs : List (Option (Nat × Ret))} (h : SameOutcome Q a b)
    (hx : ∀ i, answersOf i [x] = answersOf i xs) :
    SameOutcome Q (do let (rs, m) ← a; .ok (x :: rs, m)) (do let (rs, v) ← b; .ok (xs ++ rs, v)) := by
  rcases a with ⟨rs, m⟩ | a | a <;> rcases b with ⟨rs', v⟩ | b | b <;> first
    | exact h.elim
    | exact h
    | skip
  refine ⟨fun i => ?_, h.2⟩
  have h1 : answersOf i (x :: rs) = answersOf i [x] ++ answersOf i rs := by
    simp only [answersOf, ← List.filterMap_append]
    rfl
  have h2 : answersOf i (xs ++ rs') = answersOf i xs ++ answersOf i rs' := by
    simp only [answersOf, List.filterMap_append]
  rw [h1, h2, hx i, h.1 i]

theorem answersOf_nones {α : Type} (i : Nat) (L : List α) : answersOf i (L.map fun _ => none) = [] := by
  induction L with
  | nil => rfl
  | cons a L ih =>
    simp only [answersOf, List.map_cons, List.filterMap_cons] at ih ⊢
    exact ih

/-- there is a history by names -/
theorem shadow_byName (Q : List Path) : ∀ (evs : List NamedEvent) (σ : Path → Path), Shadow Q σ evs (byName Q σ evs)
  | [], _ => .nil _
  | .call i c e :: evs, σ => .call σ i c e evs [] _ (fun _ h => nomatch h) (shadow_byName Q evs σ)
  | .outside d n :: evs, σ => .outside σ d n evs _ (shadow_byName Q evs σ)
  | .rename σ' :: evs, σ => .rename σ σ' evs [] _ (fun _ h => nomatch h) (shadow_byName Q evs σ')

/-- the only one if every place has one name -/
theorem shadow_unique {Q : List Path} {σ : Path → Path} {evs : List NamedEvent} {evs' : List ManyEvent}
    (hinj : ∀ p ∈ Q, ∀ q ∈ Q, σ p = σ q → p = q) (hno : ∀ ev ∈ evs, NoRename ev) (h : Shadow Q σ evs evs') :
    evs' = byName Q σ evs := by
  induction h with
  | nil => rfl
  | call σ i c e evs l evs' hl _ ih =>
    have : l = [] := List.eq_nil_iff_forall_not_mem.mpr fun ev hev => by
      obtain ⟨p, q, n, -, hq, hp, hne, h⟩ := hl ev hev
      exact hne (hinj p hp q hq h)
    rw [this, ih hinj fun ev hev => hno ev (List.mem_cons_of_mem _ hev)]
    rfl
  | outside σ d n evs evs' _ ih =>
    rw [ih hinj fun ev hev => hno ev (List.mem_cons_of_mem _ hev)]
    rfl
  | rename σ σ' evs l evs' _ _ _ => exact (hno _ List.mem_cons_self).elim

/-- listing selects nothing -/
theorem listing_selected {w w' : World} {d : Path} {r : Ret} {e : Env}
    (h : Api.call hs rest e w (.getRelevantFileNames d) = .ok (r, w')) : w'.api.selected = w.api.selected := by
  simp only [Api.call] at h
  split at h
  · obtain ⟨o, -, h⟩ := Res.bind_eq_ok.mp h
    cases h
    rfl
  · cases h
    rfl

theorem shadow_run (Q : List Path) : ∀ (evs : List NamedEvent) (m : Named) (v : Many), v.api = m.api →
    (∀ q ∈ Q, v.fs q = m.view q) → (∀ i f, (m.api i).selected = some f → f.path ∈ Q) → (∀ ev ∈ evs, NamesIn Q ev) →
    ∃ evs', Shadow Q m.names evs evs' ∧ SameOutcome Q (runNamed hs rest m evs) (runMany hs rest v evs')
  | [], m, v, ha, hd, _, _ => ⟨[], .nil _, fun _ => rfl, ha, hd⟩
  | .outside d n :: evs, m, v, ha, hd, hsel, hn => by
    obtain ⟨evs', h1, h2⟩ := shadow_run Q evs { m with fs := m.fs.set d n }
      ⟨v.api, fun q => if q ∈ Q.filter (m.names · = d) then n else v.fs q⟩ ha (by
        intro q hq
        simp only [List.mem_filter, hq, true_and, decide_eq_true_eq, Named.view, FS.set]
        split
        · rfl
        · exact hd q hq) hsel fun ev hev => hn ev (List.mem_cons_of_mem _ hev)
    refine ⟨_, .outside _ _ _ _ _ h1, ?_⟩
    rw [run_outsides (fun _ => n)]
    exact same_cons h2 fun i => (answersOf_nones i _).symm
  | .rename σ :: evs, m, v, ha, hd, hsel, hn => by
    obtain ⟨evs', h1, h2⟩ := shadow_run Q evs { m with names := σ }
      ⟨v.api, fun q => if q ∈ Q.filter (fun q => m.names q ≠ σ q) then m.fs (σ q) else v.fs q⟩ ha (by
        intro q hq
        simp only [List.mem_filter, hq, true_and, decide_eq_true_eq, Named.view]
        split
        · rfl
        · rename_i h
          rw [hd q hq, Named.view, Decidable.not_not.mp h]) hsel fun ev hev => hn ev (List.mem_cons_of_mem _ hev)
    refine ⟨_, .rename _ _ _ ((Q.filter fun q => m.names q ≠ σ q).map fun q => .outside q (m.fs (σ q))) _ (fun ev hev => ?_) h1, ?_⟩
    · obtain ⟨q, hq, rfl⟩ := List.mem_map.mp hev
      obtain ⟨hq, h⟩ := List.mem_filter.mp hq
      exact ⟨q, _, rfl, hq, of_decide_eq_true h⟩
    · rw [run_outsides]
      exact same_cons h2 fun i => (answersOf_nones i _).symm
  | .call i c e :: evs, m, v, ha, hd, hsel, hn => by
    have hev := hn _ List.mem_cons_self
    have hQ : ∀ p, Meets (m.api i) e c p → p ∈ Q := by
      rintro p (hp | ⟨-, f, hf, rfl⟩)
      · exact hev p hp
      · exact hsel i f hf
    have hw := call_meets (hs := hs) (rest := rest) (e := e) (m.api i) c
    obtain ⟨h1, h2, h3⟩ := hw.named (σ := m.names) (D := m.fs) (fs := v.fs) (fun p q hp hq => changes_one hp hq)
      fun p hp => hd p (hQ p hp)
    have hof : v.of i = ⟨m.api i, v.fs⟩ := by rw [Many.of, ha]
    rcases hr : ((Steps.call hs rest e (m.api i) c).eval v.fs).1 with ⟨r, s⟩ | x | x
    · have hc := call_of_eval hr
      have hk : ∀ p, ¬ Changes (m.api i) c p → ((Steps.call hs rest e (m.api i) c).eval v.fs).2 p = v.fs p :=
        fun p hp => hw.keeps hp
      generalize ((Steps.call hs rest e (m.api i) c).eval v.fs).2 = E at *
      have hsel' : ∀ j f, ((if j = i then s else m.api j) : Session).selected = some f → f.path ∈ Q := by
        intro j f hf
        split at hf
        · rcases call_selected hc f hf with ⟨f0, h4, h5⟩ | h4
          · rw [h5]
            exact hsel i f0 h4
          · cases c with
            | createFile q => exact hev _ h4
            | selectFile q => exact hev _ h4
            | writeToFileAt q => exact hev _ h4
            | getRelevantFileNames d =>
              have := listing_selected hc
              exact hsel i f (this ▸ hf)
            | _ => exact h4.elim
        · exact hsel j f hf
      have go : ∀ (L : List Path) (g : Path → Node),
          (∀ q ∈ L, ∃ p, q ∈ Q ∧ p ∈ Q ∧ p ≠ q ∧ m.names p = m.names q) →
          (∀ q ∈ Q, (if q ∈ L then g q else E q) = ((Steps.call hs rest e (m.api i) c).named m.names m.fs).2 (m.names q)) →
          ∃ evs', Shadow Q m.names (.call i c e :: evs) evs' ∧
            SameOutcome Q (runNamed hs rest m (.call i c e :: evs)) (runMany hs rest v evs') := by
        intro L g hL hg
        obtain ⟨evs', h4, h5⟩ := shadow_run Q evs
          { m with api := fun j => if j = i then s else m.api j
                   fs := ((Steps.call hs rest e (m.api i) c).named m.names m.fs).2 }
          ⟨fun j => if j = i then s else v.api j, fun q => if q ∈ L then g q else E q⟩ (by simp only [ha]) hg hsel'
          fun ev hev => hn ev (List.mem_cons_of_mem _ hev)
        refine ⟨_, .call _ _ _ _ _ (L.map fun q => .outside q (g q)) _ (fun ev hev => ?_) h4, ?_⟩
        · obtain ⟨q, hq, rfl⟩ := List.mem_map.mp hev
          obtain ⟨p, h6⟩ := hL q hq
          exact ⟨p, q, _, rfl, h6⟩
        · simp only [runNamed, stepNamed, h1.trans hr, Res.bind_ok, runMany, stepMany, hof, hc]
          have h6 := run_outsides (hs := hs) (rest := rest) g evs' L (v.after i ⟨s, E⟩)
          rw [h6]
          have h7 := same_cons (x := some (i, r)) (xs := some (i, r) :: L.map fun _ => none) h5 fun j => by
            have := answersOf_nones j L
            simp only [answersOf, List.filterMap_cons, List.filterMap_nil] at this ⊢
            rw [this]
          show SameOutcome Q _ (do
            let (rs, m) ← (do
              let (rs, v) ← runMany hs rest ⟨fun j => if j = i then s else v.api j, fun q => if q ∈ L then g q else E q⟩ evs'
              Res.ok (L.map (fun _ => none) ++ rs, v))
            Res.ok (some (i, r) :: rs, m))
          generalize runMany hs rest ⟨fun j => if j = i then s else v.api j, fun q => if q ∈ L then g q else E q⟩ evs' = B at h7 ⊢
          rcases B with y | y | y <;> exact h7
      by_cases hch : ∃ p, Changes (m.api i) c p
      · obtain ⟨p, hp⟩ := hch
        have hpQ := hQ p (changes_meets hp)
        refine go (Q.filter fun q => p ≠ q ∧ m.names p = m.names q) (fun _ => E p) (fun q hq => ?_) fun q hq => ?_
        · obtain ⟨h4, h5⟩ := List.mem_filter.mp hq
          exact ⟨p, h4, hpQ, of_decide_eq_true h5⟩
        · simp only [List.mem_filter, hq, true_and, decide_eq_true_eq]
          split
          · rename_i h4
            rw [← h4.2, h2 p (changes_meets hp)]
          · rename_i h4
            by_cases hpq : p = q
            · rw [← hpq, h2 p (changes_meets hp)]
            · have hne : m.names p ≠ m.names q := fun h => h4 ⟨hpq, h⟩
              rw [h3 _ fun p' hp' => by rw [changes_one (e := e) hp (changes_meets hp')]; exact hne,
                hk q fun hcq => hpq (changes_one (e := e) hcq (changes_meets hp)), hd q hq]
              rfl
      · refine go [] (fun _ => .missing) (fun _ h => nomatch h) fun q hq => ?_
        rw [h3 _ fun p' hp' => absurd ⟨p', hp'⟩ hch]
        simp only [List.not_mem_nil, if_false]
        rw [hk q fun hcq => hch ⟨q, hcq⟩, hd q hq]
        rfl
    · refine ⟨_, .call _ _ _ _ _ [] _ (fun _ h => nomatch h) (shadow_byName Q evs m.names), ?_⟩
      simp only [runNamed, stepNamed, h1.trans hr, runMany, stepMany, hof, call_of_exn hr, Res.bind_exn]
      rfl
    · refine ⟨_, .call _ _ _ _ _ [] _ (fun _ h => nomatch h) (shadow_byName Q evs m.names), ?_⟩
      simp only [runNamed, stepNamed, h1.trans hr, runMany, stepMany, hof, call_of_fatal hr, Res.bind_fatal]
      rfl

end Spec
end Verif
