import Verif.Lemmas.OverlapRun
import Verif.Props.Sharing

/- Calls that overlap in time: C83. -/
namespace Verif.Props
open Spec Api

variable {hs : Hashes} {rest : Api.Helper → Res Api.Helper}

/-- C83, for calls that do not clash: the calls of several sessions, in whatever way their accesses to the disk come to lie in
time, are as good as calls one after the other, in the order in which they start: same answers, same sessions, same disk. What
is missing: the code does nothing to keep calls that clash apart; for them it is false. -/
theorem C83_serial_partial (m : Many) (evs : List OverEvent) (ho : Orderly hs rest (Over.quiet m) evs)
    (rs : List (Option (Nat × Ret))) (m' : Over) (h : runOver hs rest (Over.quiet m) evs = .ok (rs, m')) (hid : AllIdle m') :
    ∃ rs', runMany hs rest m (begun evs) = .ok (rs', ⟨m'.api, m'.fs⟩) ∧ ∀ i, answersOf i rs = answersOf i rs' := by
  have hq : AllIdle (Over.quiet m) := fun _ => rfl
  obtain ⟨rs', h1, h2⟩ := serial (separate_idle hq) (ahead_idle hq) ho h hid
  exact ⟨rs', h1, h2⟩

/-- C83, for calls that do not clash: if the calls one after the other survive then so do the overlapping ones, whatever their
accesses look like in time; they can all be finished, and then everybody has got the answers, and everything is as it is, when
the calls happen one after the other. -/
theorem C83_finish_partial (m : Many) (evs : List OverEvent) (ho : Orderly hs rest (Over.quiet m) evs)
    (rs' : List (Option (Nat × Ret))) (v : Many) (h : runMany hs rest m (begun evs) = .ok (rs', v)) :
    ∃ rs m1, runOver hs rest (Over.quiet m) evs = .ok (rs, m1) ∧ ∃ (l : List Nat) (rs2 : List (Option (Nat × Ret))),
      runOver hs rest m1 (l.map .step) = .ok (rs2, Over.quiet v) ∧ ∀ i, answersOf i (rs ++ rs2) = answersOf i rs' := by
  have hq : AllIdle (Over.quiet m) := fun _ => rfl
  obtain ⟨rs, m1, pend, h1, h2, h3, -⟩ := lives (separate_idle hq) (ahead_idle hq) ho h
  obtain ⟨k, hk⟩ := finite_run (k := 0) (fun j _ => hq j) h1
  obtain ⟨l, rs2, m2, h4, h5⟩ := finish_all k h2 h3 hk
  have h6 := runOver_append h1 h4
  obtain ⟨rs3, h7, h8⟩ := C83_serial_partial m _ (orderly_append ho l) _ m2 h6 h5
  rw [begun_append, begun_steps, List.append_nil, h] at h7
  simp only [Res.ok.injEq, Prod.mk.injEq] at h7
  obtain ⟨rfl, rfl⟩ := h7
  refine ⟨rs, m1, h1, l, rs2, ?_, h8⟩
  rw [h4]
  have : m2 = Over.quiet ⟨m2.api, m2.fs⟩ := by
    cases m2
    simp only [Over.quiet, Over.mk.injEq, true_and, and_true]
    exact funext h5
  rw [← this]

/-- C83: a call that nobody interrupts does exactly what the call does in one go. -/
theorem C83_alone (m : Many) (i : Nat) (c : Call) (e : Env) (r : Ret) (w : World)
    (h : Api.call hs rest e (m.of i) c = .ok (r, w)) :
    ∃ n rs, runOver hs rest (Over.quiet m) (.start i c e :: (List.replicate n i).map .step) = .ok (rs, Over.quiet (m.after i w)) ∧
      answersOf i rs = [r] := by
  have h1 : stepOver hs rest (Over.quiet m) (.start i c e) =
      .ok (none, (Over.quiet m).set i (some ⟨c, Steps.call hs rest e (m.api i) c⟩)) := rfl
  have hf : MayHappen (Over.quiet m) (.start i c e) := ⟨rfl, fun _ _ h => nomatch h⟩
  have hq : AllIdle (Over.quiet m) := fun _ => rfl
  obtain ⟨n, rs, m1, h2, h3, h4⟩ := finish_one (hs := hs) (rest := rest) i _ (separate_step (separate_idle hq) hf h1)
    (ahead_start (ahead_idle hq) hf h) (setRun_same _ i _) rfl
  have h5 : AllIdle m1 := by
    intro j
    by_cases hj : j = i
    · rw [hj]
      exact h3
    · rw [h4 j hj, setRun_other _ hj]
      rfl
  have h6 : runOver hs rest (Over.quiet m) (.start i c e :: (List.replicate n i).map .step) = .ok (none :: rs, m1) := by
    simp only [runOver, h1, Res.bind_ok, h2]
  have ho : Orderly hs rest (Over.quiet m) (.start i c e :: (List.replicate n i).map .step) := by
    intro pre ev post rs' m2 he hrun
    cases pre with
    | nil =>
      cases he
      cases hrun
      exact hf
    | cons x pre =>
      simp only [List.cons_append, List.cons.injEq] at he
      have : ev ∈ (List.replicate n i).map OverEvent.step := by rw [he.2]; simp
      obtain ⟨i, -, rfl⟩ := List.mem_map.mp this
      trivial
  obtain ⟨rs', h7, h8⟩ := C83_serial_partial m _ ho _ m1 h6 h5
  simp only [begun, begun_steps, runMany, stepMany, h, Res.bind_ok, Res.ok.injEq, Prod.mk.injEq] at h7
  obtain ⟨rfl, h7⟩ := h7
  refine ⟨n, none :: rs, ?_, ?_⟩
  · rw [h6]
    have : m1 = Over.quiet ⟨m1.api, m1.fs⟩ := by
      cases m1
      simp only [Over.quiet, Over.mk.injEq, true_and, and_true]
      exact funext h5
    rw [this, h7]
  · rw [h8 i]
    simp [answersOf]

/-- C83, for calls that do not clash: new sessions whose calls overlap behave like sessions on one ideal vault with faults, under
the conditions of `C81_ideal` on the calls. -/
theorem C83_ideal_partial (w : Many) (hnew : ∀ i, ∃ mode, Api.new mode = .ok (w.api i)) (m : Pool) (hp : ∀ i, m.phase i = .idle)
    (hfs : ∀ i p, EncPath p → Lies hs (m.of i) p (w.fs p)) (evs : List OverEvent) (ho : Orderly hs rest (Over.quiet w) evs)
    (hevs : ∀ ev ∈ begun evs, FairMany ev) (hu : Polite hs rest w (begun evs)) :
    ∃ rs m1, runOver hs rest (Over.quiet w) evs = .ok (rs, m1) ∧ (AllIdle m1 → ∃ rs' m',
      PRun hs (madeLocks hs) m (begun evs) rs' m' ∧ (∀ i, answersOf i rs = answersOf i rs') ∧
      ∀ i p, EncPath p → Lies hs (m'.of i) p (m1.fs p)) := by
  obtain ⟨rs', w', m', h1, h2, h3, -⟩ := C81_ideal (rest := rest) w hnew m hp hfs (begun evs) hevs hu
  obtain ⟨rs, m1, h4, -⟩ := C83_finish_partial w evs ho rs' w' h1
  refine ⟨rs, m1, h4, fun hid => ?_⟩
  obtain ⟨rs2, h5, h6⟩ := C83_serial_partial w evs ho rs m1 h4 hid
  rw [h1] at h5
  simp only [Res.ok.injEq, Prod.mk.injEq] at h5
  obtain ⟨rfl, rfl⟩ := h5
  exact ⟨rs', m', h2, h6, h3⟩

/-- C83: a call that dies in one go dies when nobody interrupts it. -/
theorem C83_alone_dies (m : Many) (i : Nat) (c : Call) (e : Env) (h : ∀ y, Api.call hs rest e (m.of i) c ≠ .ok y) :
    ∃ n : Nat, ∀ y, runOver hs rest (Over.quiet m) (.start i c e :: (List.replicate n i).map .step) ≠ .ok y := by
  obtain ⟨n, h1⟩ := dies_alone (hs := hs) (rest := rest) i (Steps.call hs rest e (m.api i) c)
    (m := (Over.quiet m).set i (some ⟨c, Steps.call hs rest e (m.api i) c⟩)) (setRun_same _ i _) rfl (by
      intro a ha
      obtain ⟨w, hw⟩ := call_eval_ok ha
      exact h _ hw)
  refine ⟨n, fun y hy => ?_⟩
  simp only [runOver] at hy
  obtain ⟨u, h2, hy⟩ := Res.bind_eq_ok.mp hy
  cases h2
  obtain ⟨u, h2, -⟩ := Res.bind_eq_ok.mp hy
  exact h1 u h2

/-! ### checking concrete histories -/

/-- does the call look at the path? (for listings: is the directory a prefix?) -/
def usesNow (s : Session) (c : Call) (p : Path) : Bool := match c with
  | .createFile q | .selectFile q | .writeToFileAt q => p == q
  | .getRelevantFileNames d => d.isPrefixOf p
  | .deleteFile | .getFileContent | .getDecryptedData | .writeToFile => s.selected.map FileHandler.path == some p
  | _ => false

theorem usesNow_of {s : Session} {c : Call} {p : Path} (h : Uses s c p) : usesNow s c p = true := by
  rcases h with h | ⟨h, f, h1, h2⟩
  · cases c with
    | getRelevantFileNames d =>
      rcases h with rfl | ⟨n, rfl | rfl⟩ <;> simp [usesNow]
    | createFile q => simpa [usesNow, Mentions] using h
    | selectFile q => simpa [usesNow, Mentions] using h
    | writeToFileAt q => simpa [usesNow, Mentions] using h
    | _ => exact h.elim
  · cases c <;> first
      | exact h.elim
      | simp [usesNow, h1, h2]

/-- the paths a call may change -/
def changesNow (s : Session) : Call → List Path
  | .createFile q | .writeToFileAt q => [q]
  | .deleteFile | .writeToFile => (s.selected.map FileHandler.path).toList
  | _ => []

theorem changesNow_of {s : Session} {c : Call} {p : Path} (h : Changes s c p) : p ∈ changesNow s c := by
  cases c with
  | createFile q => exact List.mem_singleton.mpr h.symm
  | writeToFileAt q => exact List.mem_singleton.mpr h.symm
  | deleteFile =>
    obtain ⟨f, h1, rfl⟩ := h
    simp [changesNow, h1]
  | writeToFile =>
    obtain ⟨f, h1, rfl⟩ := h
    simp [changesNow, h1]
  | _ => exact h.elim

/-- do the calls clash? -/
def clashNow (s : Session) (c : Call) (s' : Session) (c' : Call) : Bool :=
  (changesNow s c).any (usesNow s' c') || (changesNow s' c').any (usesNow s c)

theorem clashNow_of {s s' : Session} {c c' : Call} (h : Clash s c s' c') : clashNow s c s' c' = true := by
  obtain ⟨p, ⟨h1, h2⟩ | ⟨h1, h2⟩⟩ := h
  · simp only [clashNow, Bool.or_eq_true, List.any_eq_true]
    exact .inl ⟨p, changesNow_of h1, usesNow_of h2⟩
  · simp only [clashNow, Bool.or_eq_true, List.any_eq_true]
    exact .inr ⟨p, changesNow_of h2, usesNow_of h1⟩

/-- is the step in order, with calls by the first `n` sessions going on? -/
def mayHappenNow (n : Nat) (m : Over) : OverEvent → Bool
  | .start i c _ => decide (i < n) && (m.running i).isNone && (List.range n).all fun j => match m.running j with
    | some r => !clashNow (m.api i) c (m.api j) r.call
    | none => true
  | .step _ => true
  | .outside p _ => (List.range n).all fun j => match m.running j with
    | some r => !usesNow (m.api j) r.call p
    | none => true

/-- is the history in order? -/
def orderlyNow (hs : Hashes) (rest : Api.Helper → Res Api.Helper) (n : Nat) (m : Over) : List OverEvent → Bool
  | [] => true
  | ev :: evs => mayHappenNow n m ev && match stepOver hs rest m ev with
    | .ok (_, m1) => orderlyNow hs rest n m1 evs
    | _ => true

theorem mayHappen_of {n : Nat} {m : Over} (hn : ∀ j, n ≤ j → m.running j = none) {ev : OverEvent}
    (h : mayHappenNow n m ev = true) : MayHappen m ev := by
  have below : ∀ {j : Nat} {r : Running}, m.running j = some r → j ∈ List.range n := fun {j r} hj => by
    refine List.mem_range.mpr (Nat.lt_of_not_le fun hle => ?_)
    rw [hn j hle] at hj
    cases hj
  cases ev with
  | step i => trivial
  | start i c e =>
    simp only [mayHappenNow, Bool.and_eq_true] at h
    refine ⟨by simpa using h.1.2, fun j r hj hc => ?_⟩
    have := List.all_eq_true.mp h.2 j (below hj)
    simp [hj, clashNow_of hc] at this
  | outside p nd =>
    intro j r hj hu
    have := List.all_eq_true.mp h j (below hj)
    simp [hj, usesNow_of hu] at this

/-- which sessions take part -/
def starts (n : Nat) : OverEvent → Bool
  | .start i _ _ => decide (i < n)
  | _ => true

theorem others_idle {n : Nat} {m m1 : Over} {ev : OverEvent} {x : Option (Nat × Ret)} (hn : ∀ j, n ≤ j → m.running j = none)
    (hev : starts n ev = true) (h : stepOver hs rest m ev = .ok (x, m1)) : ∀ j, n ≤ j → m1.running j = none := by
  intro j hj
  cases ev with
  | outside p nd =>
    cases h
    exact hn j hj
  | start i c e =>
    have : i < n := of_decide_eq_true hev
    simp only [stepOver] at h
    split at h
    · cases h
      exact hn j hj
    · cases h
      exact (setRun_other m (by omega) _).trans (hn j hj)
  | step i =>
    simp only [stepOver] at h
    split at h
    · cases h
      exact hn j hj
    · rename_i r hr
      have hji : j ≠ i := by
        rintro rfl
        rw [hn j hj] at hr
        cases hr
      split at h
      · obtain ⟨⟨ret, s⟩, -, h⟩ := Res.bind_eq_ok.mp h
        cases h
        exact (setRun_other m hji _).trans (hn j hj)
      · cases h
        exact (setRun_other m hji _).trans (hn j hj)

theorem orderly_of {n : Nat} : ∀ {evs : List OverEvent} {m : Over}, (∀ j, n ≤ j → m.running j = none) →
    orderlyNow hs rest n m evs = true → Orderly hs rest m evs
  | [], m, _, _ => by
    intro pre ev post rs m1 h
    cases pre <;> cases h
  | x :: evs, m, hn, h => by
    simp only [orderlyNow, Bool.and_eq_true] at h
    obtain ⟨h1, h2⟩ := h
    intro pre ev post rs m1 hev hrun
    cases pre with
    | nil =>
      cases hev
      cases hrun
      exact mayHappen_of hn h1
    | cons y pre =>
      cases hev
      simp only [runOver] at hrun
      obtain ⟨⟨r0, m0⟩, h0, hrun⟩ := Res.bind_eq_ok.mp hrun
      obtain ⟨⟨r5, m5⟩, h5, hrun⟩ := Res.bind_eq_ok.mp hrun
      cases hrun
      rw [h0] at h2
      refine orderly_of (others_idle hn ?_ h0) h2 pre ev post r5 _ rfl h5
      cases x with
      | start i c e =>
        simp only [mayHappenNow, Bool.and_eq_true] at h1
        exact h1.1.1
      | _ => rfl

theorem others_idle_run {n : Nat} : ∀ {evs : List OverEvent} {m m1 : Over} {rs : List (Option (Nat × Ret))},
    (∀ j, n ≤ j → m.running j = none) → evs.all (starts n) = true → runOver hs rest m evs = .ok (rs, m1) →
    ∀ j, n ≤ j → m1.running j = none
  | [], m, m1, rs, hn, _, h => by
    cases h
    exact hn
  | ev :: evs, m, m1, rs, hn, hev, h => by
    simp only [List.all_cons, Bool.and_eq_true] at hev
    simp only [runOver] at h
    obtain ⟨⟨r0, m0⟩, h0, h⟩ := Res.bind_eq_ok.mp h
    obtain ⟨⟨r5, m5⟩, h5, h⟩ := Res.bind_eq_ok.mp h
    cases h
    exact others_idle_run (others_idle hn hev.1 h0) hev.2 h5

/-- Does the history of the first `n` sessions run through, with nobody in a call in the end, and end like this? -/
def overIs (n : Nat) (w : Many) (evs : List OverEvent) (ok : List (Option (Nat × Ret)) → Over → Bool) : Bool :=
  evs.all (starts n) && match runOver toyHashes noRest (Over.quiet w) evs with
  | .ok (rs, m) => (List.range n).all (fun i => (m.running i).isNone) && ok (rs.filter Option.isSome) m
  | _ => false

theorem overIs_run {n : Nat} {w : Many} {evs : List OverEvent} {ok : List (Option (Nat × Ret)) → Over → Bool}
    (h : overIs n w evs ok = true) : ∃ rs m, runOver toyHashes noRest (Over.quiet w) evs = .ok (rs, m) ∧ AllIdle m ∧
      ok (rs.filter Option.isSome) m = true := by
  simp only [overIs, Bool.and_eq_true] at h
  obtain ⟨h1, h2⟩ := h
  rcases hr : runOver toyHashes noRest (Over.quiet w) evs with ⟨rs, m⟩ | x | x
  · simp only [hr, Bool.and_eq_true] at h2
    refine ⟨rs, m, rfl, fun j => ?_, h2.2⟩
    by_cases hj : j < n
    · simpa using List.all_eq_true.mp h2.1 j (List.mem_range.mpr hj)
    · exact others_idle_run (fun _ _ => rfl) h1 hr j (by omega)
  · simp [hr] at h2
  · simp [hr] at h2

theorem answersOf_filter (i : Nat) (rs : List (Option (Nat × Ret))) : answersOf i (rs.filter Option.isSome) = answersOf i rs := by
  induction rs with
  | nil => rfl
  | cons r rs ih =>
    cases r with
    | none => simpa [answersOf] using ih
    | some x =>
      simp only [List.filter, Option.isSome_some]
      simp only [answersOf, List.filterMap_cons] at ih ⊢
      rw [ih]

/-! ### a concrete history -/

/-- a call of a session, from start to end -/
def whole (i : Nat) (c : Call) : List OverEvent := .start i c openEnv :: (List.replicate 9 i).map .step

/-- Sessions 0 and 1 create a file each; their accesses alternate. Session 2 starts to look for a file that is not there, while
session 0 looks at its own new file. Session 0 makes a header for it while another program makes a directory. Session 0 saves
while session 1 looks at the other file. Sessions 1 and 2 open the saved file at the same time. -/
def overHistory : List OverEvent :=
  [.start 0 (.createFile samplePath) openEnv, .start 1 (.createFile otherPath) openEnv, .step 0, .step 1, .step 1, .step 0,
   .step 0, .step 1, .start 2 (.selectFile (ascii "x.enc")) openEnv, .start 0 (.selectFile samplePath) openEnv, .step 0,
   .step 2, .step 0, .step 0, .step 2, .step 0, .step 0, .step 0,
   .start 0 (.createDataHeader samplePw sampleSettings 0) openEnv, .outside (ascii "b.enc") .dir, .step 0] ++
  whole 0 (.encryptData (some ⟨some 1, some oneHello⟩)) ++
  [.start 0 .writeToFile openEnv, .step 0, .step 0, .step 0, .start 1 (.selectFile otherPath) openEnv, .step 1, .step 1, .step 0,
   .step 1, .step 0, .step 1, .step 1, .step 1] ++ whole 1 .unselectFile ++
  [.start 1 (.selectFile samplePath) openEnv, .start 2 (.selectFile samplePath) openEnv] ++
  [1, 2, 2, 1, 1, 1, 2, 2, 1, 2, 1, 2, 2, 1].map .step ++
  whole 2 (.verifyPassword samplePw 0) ++ [.start 2 .getDecryptedData openEnv] ++ whole 1 (.verifyPassword samplePw 0) ++
  [.start 1 .getDecryptedData openEnv] ++ [1, 2, 1, 2].map .step

theorem overHistory_orderly : Orderly toyHashes noRest (Over.quiet (freshMany fun _ => .missing)) overHistory :=
  orderly_of (n := 3) (fun _ _ => rfl) (by decide +kernel)

theorem overHistory_fair : ∀ ev ∈ begun overHistory, FairMany ev := by
  have e0 := openEnv_ordinary
  have hd : Careful (.createDataHeader samplePw sampleSettings 0) := ⟨usable_sample.built, usable_sample.full⟩
  simp only [overHistory, whole, begun_append, begun_steps, begun, List.append_nil, List.nil_append, List.cons_append,
    List.forall_mem_cons]
  exact ⟨⟨e0, trivial⟩, ⟨e0, trivial⟩, ⟨e0, trivial⟩, ⟨e0, trivial⟩, ⟨e0, hd⟩, fun _ => trivial, ⟨e0, _, _, rfl, by decide⟩,
    ⟨e0, trivial⟩, ⟨e0, trivial⟩, ⟨e0, trivial⟩, ⟨e0, trivial⟩, ⟨e0, trivial⟩, ⟨e0, trivial⟩, ⟨e0, trivial⟩, ⟨e0, trivial⟩,
    ⟨e0, trivial⟩, by simp⟩

theorem overHistory_polite : Polite toyHashes noRest (freshMany fun _ => .missing) (begun overHistory) :=
  polite_of (n := 3) (fun _ _ => rfl) (by decide +kernel)

/-- the hypotheses of the theorems hold, and these are the answers, in the order in which the calls return -/
example : Orderly toyHashes noRest (Over.quiet (freshMany fun _ => .missing)) overHistory ∧
    (∀ i, ∃ mode, Api.new mode = .ok ((freshMany fun _ => .missing).api i)) ∧
    (∃ m : Pool, (∀ i, m.phase i = .idle) ∧ ∀ i p, EncPath p → Lies toyHashes (m.of i) p .missing) ∧
    (∀ ev ∈ begun overHistory, FairMany ev) ∧ Polite toyHashes noRest (freshMany fun _ => .missing) (begun overHistory) ∧
    overIs 3 (freshMany fun _ => .missing) overHistory (fun rs _ => rs ==
      [some (0, .flag (.success true)), some (1, .flag (.success true)), some (2, .flag (.fail .ERR_FILE_NOT_FOUND)),
       some (0, .flag (.success true)), some (0, .flag (.success true)), some (0, .flag (.success true)),
       some (0, .plain (.success ())), some (1, .flag (.success true)), some (1, .flag (.success true)),
       some (2, .flag (.success true)), some (1, .flag (.success true)), some (2, .flag (.success true)),
       some (1, .flag (.success true)), some (1, .data (.success ⟨some 1, some oneHello⟩)),
       some (2, .data (.success ⟨some 1, some oneHello⟩))]) = true ∧
    manyIs (freshMany fun _ => .missing) (begun overHistory) (fun rs _ =>
      answersOf 0 rs == [.flag (.success true), .flag (.success true), .flag (.success true), .flag (.success true),
        .plain (.success ())]) = true :=
  ⟨overHistory_orderly, freshMany_new _, C81_described _ fun _ _ => trivial, overHistory_fair, overHistory_polite,
    by decide +kernel, by decide +kernel⟩

/-- a call, and a call that dies: what the two theorems on single calls are about -/
example : (∃ r w, Api.call toyHashes noRest openEnv ((freshMany fun _ => .missing).of 4) (.createFile samplePath) = .ok (r, w)) ∧
    ∀ y, Api.call toyHashes noRest openEnv ((freshMany fun _ => .unreachable).of 4) (.createFile samplePath) ≠ .ok y := by
  refine ⟨⟨_, _, rfl⟩, fun y h => ?_⟩
  have : (match Api.call toyHashes noRest openEnv ((freshMany fun _ => .unreachable).of 4) (.createFile samplePath) with
    | .ok _ => false
    | _ => true) = true := by decide +kernel
  rw [h] at this
  cases this

/-! ### calls that clash -/

theorem perm_two {α : Type} {l : List α} {a b : α} (h : l.Perm [a, b]) : l = [a, b] ∨ l = [b, a] := by
  match l, h.length_eq with
  | [x, y], _ =>
    have hx : x = a ∨ x = b := by simpa using h.subset (List.mem_cons_self (a := x))
    rcases hx with rfl | rfl
    · have := (List.perm_cons x).mp h
      rw [List.perm_singleton.mp this]
      exact .inl rfl
    · have := (List.perm_cons x).mp (h.trans (List.Perm.swap _ _ _))
      rw [List.perm_singleton.mp this]
      exact .inr rfl

/-- the sessions after a history -/
def after (l : List ManyEvent) : Many := match runMany toyHashes noRest (freshMany fun _ => .missing) l with
  | .ok (_, m) => m
  | _ => freshMany fun _ => .missing

theorem after_run {l : List ManyEvent} (h : manyIs (freshMany fun _ => .missing) l (fun _ _ => true) = true) :
    ∃ rs, runMany toyHashes noRest (freshMany fun _ => .missing) l = .ok (rs, after l) := by
  unfold manyIs at h
  unfold after
  split at h
  · rename_i rs m hr
    exact ⟨rs, by rw [hr]⟩
  · cases h

/-- no order of two calls ends like this -/
theorem not_serializable {w : Many} {evs : List OverEvent} {a b : ManyEvent} (he : begun evs = [a, b])
    {rs : List (Option (Nat × Ret))} {m : Over} {bad : List Ret → List Ret → Many → Bool}
    (h1 : manyIs w [a, b] (fun rs m => bad (answersOf 0 rs) (answersOf 1 rs) m) = false)
    (h2 : manyIs w [b, a] (fun rs m => bad (answersOf 0 rs) (answersOf 1 rs) m) = false)
    (h3 : bad (answersOf 0 rs) (answersOf 1 rs) ⟨m.api, m.fs⟩ = true) : ¬ Serializable toyHashes noRest w evs rs m := by
  rintro ⟨l, hl, rs', hr, ha⟩
  rw [he] at hl
  rw [ha 0, ha 1] at h3
  rcases perm_two hl with rfl | rfl
  · simp only [manyIs, hr] at h1
    rw [h1] at h3
    cases h3
  · simp only [manyIs, hr] at h2
    rw [h2] at h3
    cases h3

/-- both look whether the file exists, then both create it -/
def createRace : List OverEvent :=
  [.start 0 (.createFile samplePath) openEnv, .start 1 (.createFile samplePath) openEnv] ++ [0, 1, 0, 1, 0, 1].map .step

/-- C83 is violated: two new sessions create the same file at the same time, and both are told that they have created it. When
calls happen one after the other, the second one is told that the file exists. -/
theorem C83_violated_create : ∃ evs rs m, runOver toyHashes noRest (Over.quiet (freshMany fun _ => .missing)) evs = .ok (rs, m) ∧
    AllIdle m ∧ begun evs = [.call 0 (.createFile samplePath) openEnv, .call 1 (.createFile samplePath) openEnv] ∧
    (∀ i < 2, answersOf i rs = [.flag (.success true)]) ∧
    ¬ Serializable toyHashes noRest (freshMany fun _ => .missing) evs rs m := by
  have h : overIs 2 (freshMany fun _ => .missing) createRace (fun rs _ =>
    rs == [some (0, .flag (.success true)), some (1, .flag (.success true))]) = true := by decide +kernel
  obtain ⟨rs, m, h1, h2, h3⟩ := overIs_run h
  have h4 : ∀ i, answersOf i rs = answersOf i [some (0, .flag (.success true)), some (1, .flag (.success true))] := by
    intro i
    rw [← answersOf_filter, eq_of_beq h3]
  refine ⟨createRace, rs, m, h1, h2, rfl, fun i hi => ?_, ?_⟩
  · rw [h4 i]
    match i, hi with
    | 0, _ => rfl
    | 1, _ => rfl
  · refine not_serializable (bad := fun a b _ => a == [.flag (.success true)] && b == [.flag (.success true)]) rfl
      (by decide +kernel) (by decide +kernel) ?_
    rw [h4 0, h4 1]
    rfl

/-- more data than the other session has -/
def longData : Bytes := Bytes.full (ascii "hello, this is a longer text for the file, longer than the other")

/-- two sessions have selected the same new file and have data for it -/
def twoReady : List ManyEvent :=
  [.call 0 (.createFile samplePath) openEnv, .call 0 (.selectFile samplePath) openEnv, .call 1 (.selectFile samplePath) openEnv,
   .call 0 (.createDataHeader samplePw sampleSettings 0) openEnv, .call 1 (.createDataHeader samplePw sampleSettings 0) openEnv,
   .call 0 (.encryptData (some ⟨some 1, some longData⟩)) openEnv, .call 1 (.encryptData (some ⟨some 1, some oneHello⟩)) openEnv]

/-- both empty the file, then both write to it -/
def saveRace : List OverEvent :=
  [.start 0 .writeToFile openEnv, .start 1 .writeToFile openEnv] ++ [0, 0, 0, 1, 1, 1, 0, 1, 0, 1].map .step

/-- C83 is violated: two sessions save to the same file at the same time, and both are told that it worked. The file then begins
with the bytes of the one and ends with bytes of the other; nobody can open it. When calls happen one after the other, it holds
what the second one has saved. -/
theorem C83_violated_save : ∃ prep rs0 w evs rs m,
    runMany toyHashes noRest (freshMany fun _ => .missing) prep = .ok (rs0, w) ∧
    runOver toyHashes noRest (Over.quiet w) evs = .ok (rs, m) ∧ AllIdle m ∧
    begun evs = [.call 0 .writeToFile openEnv, .call 1 .writeToFile openEnv] ∧
    (∀ i < 2, answersOf i rs = [.plain (.success ())]) ∧
    (∃ m', stepMany toyHashes noRest ⟨m.api, m.fs⟩ (.call 2 (.selectFile samplePath) openEnv) =
      .ok (some (2, .flag (.fail .ERR_FILEHANDLER_CREATION)), m')) ∧
    ¬ Serializable toyHashes noRest w evs rs m := by
  obtain ⟨rs0, h0⟩ := after_run (l := twoReady) (by decide +kernel)
  have h : overIs 2 (after twoReady) saveRace (fun rs m =>
    rs == [some (0, .plain (.success ())), some (1, .plain (.success ()))] &&
    match stepMany toyHashes noRest ⟨m.api, m.fs⟩ (.call 2 (.selectFile samplePath) openEnv) with
    | .ok (r, _) => r == some (2, .flag (.fail .ERR_FILEHANDLER_CREATION))
    | _ => false) = true := by decide +kernel
  obtain ⟨rs, m, h1, h2, h3⟩ := overIs_run h
  simp only [Bool.and_eq_true] at h3
  obtain ⟨h3, h5⟩ := h3
  have h4 : ∀ i, answersOf i rs = answersOf i [some (0, .plain (.success ())), some (1, .plain (.success ()))] := by
    intro i
    rw [← answersOf_filter, eq_of_beq h3]
  refine ⟨twoReady, rs0, after twoReady, saveRace, rs, m, h0, h1, h2, rfl, fun i hi => ?_, ?_, ?_⟩
  · rw [h4 i]
    match i, hi with
    | 0, _ => rfl
    | 1, _ => rfl
  · split at h5
    · rename_i r m' hr
      exact ⟨m', by rw [hr, eq_of_beq h5]⟩
    · cases h5
  · refine not_serializable (bad := fun _ _ m => match stepMany toyHashes noRest m (.call 2 (.selectFile samplePath) openEnv) with
      | .ok (r, _) => r == some (2, .flag (.fail .ERR_FILEHANDLER_CREATION))
      | _ => false) rfl (by decide +kernel) (by decide +kernel) h5

/-- the file holds data, session 1 has other data for it, session 0 is new -/
def oneReady : List ManyEvent := twoReady ++ [.call 0 .writeToFile openEnv, .call 0 .logout openEnv]

/-- the file is selected after it has been emptied and before it is written -/
def readRace : List OverEvent :=
  [.start 1 .writeToFile openEnv, .start 0 (.selectFile samplePath) openEnv] ++ [1, 1, 1, 0, 0, 0, 0, 0, 0, 1, 1].map .step

/-- C83 is violated: while one session saves to a file that holds data, another one selects it, and finds it empty, though it
has held data before and holds data afterwards. When calls happen one after the other, it finds data. -/
theorem C83_violated_read : ∃ prep rs0 w evs rs m,
    runMany toyHashes noRest (freshMany fun _ => .missing) prep = .ok (rs0, w) ∧
    runOver toyHashes noRest (Over.quiet w) evs = .ok (rs, m) ∧ AllIdle m ∧
    begun evs = [.call 1 .writeToFile openEnv, .call 0 (.selectFile samplePath) openEnv] ∧
    answersOf 0 rs = [.flag (.success true)] ∧ (m.api 0).state = .EMPTY_FILE_SELECTED ∧
    w.fs samplePath ≠ .file [] ∧ m.fs samplePath ≠ .file [] ∧
    ¬ Serializable toyHashes noRest w evs rs m := by
  obtain ⟨rs0, h0⟩ := after_run (l := oneReady) (by decide +kernel)
  have h : overIs 2 (after oneReady) readRace (fun rs m =>
    rs == [some (0, .flag (.success true)), some (1, .plain (.success ()))] && (m.api 0).state == .EMPTY_FILE_SELECTED &&
    m.fs samplePath != .file []) = true := by decide +kernel
  obtain ⟨rs, m, h1, h2, h3⟩ := overIs_run h
  simp only [Bool.and_eq_true] at h3
  obtain ⟨⟨h3, h5⟩, h6⟩ := h3
  have h4 : ∀ i, answersOf i rs = answersOf i [some (0, .flag (.success true)), some (1, .plain (.success ()))] := by
    intro i
    rw [← answersOf_filter, eq_of_beq h3]
  refine ⟨oneReady, rs0, after oneReady, readRace, rs, m, h0, h1, h2, rfl, ?_, eq_of_beq h5, ?_, by simpa using h6, ?_⟩
  · rw [h4 0]
    rfl
  · have : ((after oneReady).fs samplePath != .file []) = true := by decide +kernel
    simpa using this
  · exact not_serializable (bad := fun _ _ m => (m.api 0).state == .EMPTY_FILE_SELECTED) rfl (by decide +kernel)
      (by decide +kernel) h5

/-- the file holds data, session 1 has other data for it, session 0 has selected it -/
def bothHold : List ManyEvent := oneReady ++ [.call 0 (.selectFile samplePath) openEnv]

/-- the file is removed after session 1 has made sure that it exists and before it opens it -/
def deleteRace : List OverEvent :=
  [.start 1 .writeToFile openEnv, .start 0 .deleteFile openEnv] ++ [1, 1, 0, 1, 1, 1, 0].map .step

/-- the file is removed after session 1 has opened it and before it writes to it -/
def lateDelete : List OverEvent :=
  [.start 1 .writeToFile openEnv, .start 0 .deleteFile openEnv] ++ [1, 1, 1, 0, 0, 1, 1].map .step

/-- C83 is violated: one session saves to a file while another one deletes it, both are told that it worked, and the file is
there. When calls happen one after the other, the file is gone or saving fails. -/
theorem C83_violated_delete : ∃ prep rs0 w evs rs m,
    runMany toyHashes noRest (freshMany fun _ => .missing) prep = .ok (rs0, w) ∧
    runOver toyHashes noRest (Over.quiet w) evs = .ok (rs, m) ∧ AllIdle m ∧
    begun evs = [.call 1 .writeToFile openEnv, .call 0 .deleteFile openEnv] ∧
    answersOf 0 rs = [.flag (.success true)] ∧ answersOf 1 rs = [.plain (.success ())] ∧
    m.fs samplePath ≠ .missing ∧ ¬ Serializable toyHashes noRest w evs rs m := by
  obtain ⟨rs0, h0⟩ := after_run (l := bothHold) (by decide +kernel)
  have h : overIs 2 (after bothHold) deleteRace (fun rs m =>
    rs == [some (1, .plain (.success ())), some (0, .flag (.success true))] &&
    m.fs samplePath != .missing) = true := by decide +kernel
  obtain ⟨rs, m, h1, h2, h3⟩ := overIs_run h
  simp only [Bool.and_eq_true] at h3
  obtain ⟨h3, h5⟩ := h3
  have h4 : ∀ i, answersOf i rs = answersOf i [some (1, .plain (.success ())), some (0, .flag (.success true))] := by
    intro i
    rw [← answersOf_filter, eq_of_beq h3]
  refine ⟨bothHold, rs0, after bothHold, deleteRace, rs, m, h0, h1, h2, rfl, by rw [h4 0]; rfl, by rw [h4 1]; rfl,
    by simpa using h5, ?_⟩
  refine not_serializable (bad := fun _ b m => b == [.plain (.success ())] && m.fs samplePath != .missing) rfl
    (by decide +kernel) (by decide +kernel) ?_
  rw [h4 1]
  exact Bool.and_eq_true_iff.mpr ⟨rfl, h5⟩

/-- A save that reports success need not leave anything: if another session deletes the file after it has been opened for saving,
the data go to a file nobody sees. (This is as if the file had been saved first and then deleted, though the save returns when the
file is gone.) -/
theorem C83_violated_lost : ∃ prep rs0 w evs rs m,
    runMany toyHashes noRest (freshMany fun _ => .missing) prep = .ok (rs0, w) ∧
    runOver toyHashes noRest (Over.quiet w) evs = .ok (rs, m) ∧ AllIdle m ∧
    begun evs = [.call 1 .writeToFile openEnv, .call 0 .deleteFile openEnv] ∧
    rs.filter Option.isSome = [some (0, .flag (.success true)), some (1, .plain (.success ()))] ∧
    m.fs samplePath = .missing := by
  obtain ⟨rs0, h0⟩ := after_run (l := bothHold) (by decide +kernel)
  have h : overIs 2 (after bothHold) lateDelete (fun rs m =>
    rs == [some (0, .flag (.success true)), some (1, .plain (.success ()))] &&
    m.fs samplePath == .missing) = true := by decide +kernel
  obtain ⟨rs, m, h1, h2, h3⟩ := overIs_run h
  simp only [Bool.and_eq_true] at h3
  exact ⟨bothHold, rs0, after bothHold, lateDelete, rs, m, h0, h1, h2, rfl, eq_of_beq h3.1, eq_of_beq h3.2⟩

end Verif.Props
