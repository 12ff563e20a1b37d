import Verif.Lemmas.Names
import Verif.Props.Overlap

/- Different names of one file, and names that change their meaning: C86. -/
namespace Verif.Props
open Spec Api

variable {hs : Hashes} {rest : Api.Helper → Res Api.Helper}

/-- C86: a call does what it does on the disk as it looks through the names; afterwards all names of the place it changed show the
same, and all other places are as before. -/
theorem C86_view (m m' : Named) (i : Nat) (c : Call) (e : Env) (a : Option (Nat × Ret))
    (h : stepNamed hs rest m (.call i c e) = .ok (a, m')) :
    ∃ r w, Api.call hs rest e ⟨m.api i, m.view⟩ c = .ok (r, w) ∧ a = some (i, r) ∧
      m'.api = (fun j => if j = i then w.api else m.api j) ∧ m'.names = m.names ∧
      (∀ p q, Changes (m.api i) c p → m.names q = m.names p → m'.view q = w.fs p) ∧
      ∀ d, (∀ p, Changes (m.api i) c p → m.names p ≠ d) → m'.fs d = m.fs d := by
  obtain ⟨h1, h2, h3⟩ := (call_meets (hs := hs) (rest := rest) (e := e) (m.api i) c).named (σ := m.names) (D := m.fs)
    (fs := m.view) (fun p q hp hq => changes_one hp hq) fun _ _ => rfl
  simp only [stepNamed] at h
  obtain ⟨⟨r, s⟩, h4, h⟩ := Res.bind_eq_ok.mp h
  cases h
  refine ⟨r, _, call_of_eval (h1.symm.trans h4), rfl, rfl, rfl, fun p q hp hq => ?_, h3⟩
  exact (congrArg _ hq).trans (h2 p (changes_meets hp))

/-- C86: a call dies exactly when it dies on the disk as it looks through the names. -/
theorem C86_view_dies (m : Named) (i : Nat) (c : Call) (e : Env) (x : Fatal) :
    stepNamed hs rest m (.call i c e) = .fatal x ↔ Api.call hs rest e ⟨m.api i, m.view⟩ c = .fatal x := by
  obtain ⟨h1, -⟩ := (call_meets (hs := hs) (rest := rest) (e := e) (m.api i) c).named (σ := m.names) (D := m.fs)
    (fs := m.view) (fun p q hp hq => changes_one hp hq) fun _ _ => rfl
  simp only [stepNamed, h1]
  rcases hr : ((Steps.call hs rest e (m.api i) c).eval m.view).1 with ⟨r, s⟩ | y | y
  · rw [call_of_eval hr]
    exact ⟨(nomatch ·), (nomatch ·)⟩
  · rw [call_of_exn hr]
    exact ⟨(nomatch ·), (nomatch ·)⟩
  · rw [call_of_fatal hr]
    exact ⟨fun h => by cases h; rfl, fun h => by cases h; rfl⟩

/-- C86: sessions on files with several names get the answers that they get in a world where each name is a file of its own and
other programs now and then change a file: one of those that share their place with another one when a call has been made, one
of those that change their meaning when names do. -/
theorem C86_shadow (Q : List Path) (m : Named) (hsel : ∀ i f, (m.api i).selected = some f → f.path ∈ Q) (evs : List NamedEvent)
    (hn : ∀ ev ∈ evs, NamesIn Q ev) (rs : List (Option (Nat × Ret))) (m' : Named) (h : runNamed hs rest m evs = .ok (rs, m')) :
    ∃ evs' rs' v, Shadow Q m.names evs evs' ∧ runMany hs rest ⟨m.api, m.view⟩ evs' = .ok (rs', v) ∧
      (∀ i, answersOf i rs = answersOf i rs') ∧ v.api = m'.api ∧ ∀ q ∈ Q, v.fs q = m'.view q := by
  obtain ⟨evs', h1, h2⟩ := shadow_run (hs := hs) (rest := rest) Q evs m ⟨m.api, m.view⟩ rfl (fun _ _ => rfl) hsel hn
  rw [h] at h2
  rcases hr : runMany hs rest ⟨m.api, m.view⟩ evs' with ⟨rs', v⟩ | y | y
  · rw [hr] at h2
    exact ⟨evs', rs', v, h1, hr, h2⟩
  · rw [hr] at h2
    exact h2.elim
  · rw [hr] at h2
    exact h2.elim

/-- C86: and they die only if they die in that world. -/
theorem C86_shadow_dies (Q : List Path) (m : Named) (hsel : ∀ i f, (m.api i).selected = some f → f.path ∈ Q)
    (evs : List NamedEvent) (hn : ∀ ev ∈ evs, NamesIn Q ev) (x : Fatal) (h : runNamed hs rest m evs = .fatal x) :
    ∃ evs', Shadow Q m.names evs evs' ∧ runMany hs rest ⟨m.api, m.view⟩ evs' = .fatal x := by
  obtain ⟨evs', h1, h2⟩ := shadow_run (hs := hs) (rest := rest) Q evs m ⟨m.api, m.view⟩ rfl (fun _ _ => rfl) hsel hn
  rw [h] at h2
  rcases hr : runMany hs rest ⟨m.api, m.view⟩ evs' with ⟨rs', v⟩ | y | y
  · rw [hr] at h2
    exact h2.elim
  · rw [hr] at h2
    exact h2.elim
  · rw [hr] at h2
    exact ⟨evs', h1, by rw [hr, show x = y from h2]⟩

/-- C86, if no two of the names in use mean the same place and none changes its meaning: names are as good as files. What is
missing: the code takes no care of either. -/
theorem C86_one_name_partial (Q : List Path) (m : Named) (hsel : ∀ i f, (m.api i).selected = some f → f.path ∈ Q)
    (evs : List NamedEvent) (hn : ∀ ev ∈ evs, NamesIn Q ev) (hinj : ∀ p ∈ Q, ∀ q ∈ Q, m.names p = m.names q → p = q)
    (hno : ∀ ev ∈ evs, NoRename ev) (rs : List (Option (Nat × Ret))) (m' : Named) (h : runNamed hs rest m evs = .ok (rs, m')) :
    ∃ rs' v, runMany hs rest ⟨m.api, m.view⟩ (byName Q m.names evs) = .ok (rs', v) ∧ (∀ i, answersOf i rs = answersOf i rs') ∧
      v.api = m'.api ∧ ∀ q ∈ Q, v.fs q = m'.view q := by
  obtain ⟨evs', rs', v, h1, h2, h3⟩ := C86_shadow Q m hsel evs hn rs m' h
  rw [shadow_unique hinj hno h1] at h2
  exact ⟨rs', v, h2, h3⟩

/-! ### concrete histories -/

/-- the current directory is `a`; in it there is a link `l` to the directory itself -/
def inA (p : Path) : Path := match p with
  | 108 :: 47 :: q => ascii "a/" ++ q
  | q => ascii "a/" ++ q

/-- the current directory is `b`, without such a link -/
def inB (p : Path) : Path := ascii "b/" ++ p

def freshNamed (fs : FS) (σ : Path → Path) : Named := ⟨(freshMany fs).api, fs, σ⟩

/-- does the run end like this? -/
def namedIs (w : Named) (evs : List NamedEvent) (ok : List (Option (Nat × Ret)) → Named → Bool) : Bool :=
  match runNamed toyHashes noRest w evs with
  | .ok (rs, m) => ok rs m
  | _ => false

theorem namedIs_ok {w : Named} {evs : List NamedEvent} {ok : List (Option (Nat × Ret)) → Named → Bool}
    (h : namedIs w evs ok = true) : ∃ rs m, runNamed toyHashes noRest w evs = .ok (rs, m) ∧ ok rs m = true := by
  unfold namedIs at h
  split at h
  · rename_i rs m hr
    exact ⟨rs, m, hr, h⟩
  · cases h

/-- a listing finds two names -/
def listEnv : Env := { openEnv with list := fun _ => [ascii "x.enc", ascii "y.enc"] }

/-- the names in use -/
def someNames : List Path := [ascii "x.enc", ascii "l/x.enc", ascii "y.enc", ascii "l", ascii "l/y.enc"]

/-- Session 0 creates `x.enc`; session 1 may not create it by its other name, but selects it. Session 0 selects it as well, gives
it a header and saves. Session 2 lists the directory by way of the link. The current directory changes, another program makes a
file there, and session 2 opens it. -/
def namedHistory : List NamedEvent :=
  [.outside (ascii "a/l") .dir, .call 0 (.createFile (ascii "x.enc")) openEnv, .call 1 (.createFile (ascii "l/x.enc")) openEnv,
   .call 1 (.selectFile (ascii "l/x.enc")) openEnv, .call 0 (.selectFile (ascii "x.enc")) openEnv,
   .call 0 (.createDataHeader samplePw sampleSettings 0) openEnv, .call 0 (.encryptData (some ⟨some 1, some oneHello⟩)) openEnv,
   .call 0 .writeToFile openEnv, .call 2 (.getRelevantFileNames (ascii "l")) listEnv, .rename inB,
   .outside (ascii "b/y.enc") (.file []), .call 2 (.selectFile (ascii "y.enc")) openEnv]

/-- the hypotheses of the theorems on histories hold, two of the names mean the same, and these are the answers -/
example : (∀ i f, ((freshNamed (fun _ => .missing) inA).api i).selected = some f → f.path ∈ someNames) ∧
    (∀ ev ∈ namedHistory, NamesIn someNames ev) ∧ inA (ascii "x.enc") = inA (ascii "l/x.enc") ∧
    namedIs (freshNamed (fun _ => .missing) inA) namedHistory (fun rs m =>
      rs.filterMap id == [(0, .flag (.success true)), (1, .flag (.fail .ERR_FILE_EXISTS)), (1, .flag (.success true)),
        (0, .flag (.success true)), (0, .flag (.success true)), (0, .flag (.success true)), (0, .plain (.success ())),
        (2, .names (.success [])), (2, .flag (.success true))] &&
      (match m.fs (ascii "a/x.enc") with | .file c => c.length == 369 | _ => false)) = true := by
  refine ⟨fun i f h => (nomatch h), ?_, by decide, by decide +kernel⟩
  simp only [namedHistory, List.forall_mem_cons, NamesIn, Comes, List.not_mem_nil, false_imp_iff, implies_true, and_true, true_and]
  refine ⟨?_, ?_, ?_, ?_, ?_, ?_⟩
  · rintro _ rfl; decide
  · rintro _ rfl; decide
  · rintro _ rfl; decide
  · rintro _ rfl; decide
  · rintro q (rfl | ⟨n, hn, h⟩)
    · decide
    · have : n = ascii "x.enc" ∨ n = ascii "y.enc" := by simpa [listEnv] using hn
      rcases this with rfl | rfl <;> rcases h with rfl | rfl <;> decide
  · rintro _ rfl; decide

/-- the same without the other name, without the listing and without the change of the directory: the hypotheses of
`C86_one_name_partial` hold -/
example : (∀ p ∈ [ascii "x.enc", ascii "y.enc"], ∀ q ∈ [ascii "x.enc", ascii "y.enc"], inA p = inA q → p = q) ∧
    (∀ ev ∈ [NamedEvent.call 0 (.createFile (ascii "x.enc")) openEnv, .outside (ascii "a/y.enc") .dir,
      .call 0 (.selectFile (ascii "x.enc")) openEnv], NamesIn [ascii "x.enc", ascii "y.enc"] ev ∧ NoRename ev) ∧
    namedIs (freshNamed (fun _ => .missing) inA) [.call 0 (.createFile (ascii "x.enc")) openEnv, .outside (ascii "a/y.enc") .dir,
      .call 0 (.selectFile (ascii "x.enc")) openEnv] (fun rs _ =>
        rs == [some (0, .flag (.success true)), none, some (0, .flag (.success true))]) = true := by
  refine ⟨by decide, ?_, by decide +kernel⟩
  simp only [List.forall_mem_cons, NamesIn, Comes, NoRename, List.not_mem_nil, false_imp_iff, implies_true, and_true, true_and]
  constructor
  · rintro _ rfl; decide
  · rintro _ rfl; decide

/-- a call that dies -/
example : namedIs (freshNamed (fun _ => .unreachable) inA) [.call 0 (.createFile (ascii "x.enc")) openEnv] (fun _ _ => true) =
    false := by decide +kernel

/-- C86 violated: a session selects a new, empty file; the current directory changes; the session deletes "it". What is deleted
is the file of the same name in the other directory, with all that is in it; the selected file is still there. -/
theorem C86_violated_delete : ∃ rs m, runNamed toyHashes noRest (freshNamed (fun _ => .missing) inA)
      [.outside (ascii "b/x.enc") (.file [1, 2, 3]), .call 0 (.createFile (ascii "x.enc")) openEnv,
       .call 0 (.selectFile (ascii "x.enc")) openEnv, .rename inB, .call 0 .deleteFile openEnv] = .ok (rs, m) ∧
    rs = [none, some (0, .flag (.success true)), some (0, .flag (.success true)), none, some (0, .flag (.success true))] ∧
    m.fs (ascii "a/x.enc") = .file [] ∧ m.fs (ascii "b/x.enc") = .missing := by
  obtain ⟨rs, m, h1, h2⟩ := namedIs_ok (w := freshNamed (fun _ => .missing) inA)
    (evs := [.outside (ascii "b/x.enc") (.file [1, 2, 3]), .call 0 (.createFile (ascii "x.enc")) openEnv,
      .call 0 (.selectFile (ascii "x.enc")) openEnv, .rename inB, .call 0 .deleteFile openEnv])
    (ok := fun rs m => decide (rs = [none, some (0, .flag (.success true)), some (0, .flag (.success true)), none,
      some (0, .flag (.success true))]) && decide (m.fs (ascii "a/x.enc") = .file []) &&
      decide (m.fs (ascii "b/x.enc") = .missing)) (by decide +kernel)
  simp only [Bool.and_eq_true, decide_eq_true_eq] at h2
  exact ⟨rs, m, h1, h2.1.1, h2.1.2, h2.2⟩

/-- C86 violated: the same with a save: it empties and overwrites a file in the other directory, and the selected file stays
empty. -/
theorem C86_violated_save : ∃ rs m, runNamed toyHashes noRest (freshNamed (fun _ => .missing) inA)
      [.outside (ascii "b/x.enc") (.file [1, 2, 3]), .call 0 (.createFile (ascii "x.enc")) openEnv,
       .call 0 (.selectFile (ascii "x.enc")) openEnv, .call 0 (.createDataHeader samplePw sampleSettings 0) openEnv,
       .call 0 (.encryptData (some ⟨some 1, some oneHello⟩)) openEnv, .rename inB, .call 0 .writeToFile openEnv] = .ok (rs, m) ∧
    rs.getLast? = some (some (0, .plain (.success ()))) ∧ m.fs (ascii "a/x.enc") = .file [] ∧
    ∃ c, m.fs (ascii "b/x.enc") = .file c ∧ c.length = 369 := by
  obtain ⟨rs, m, h1, h2⟩ := namedIs_ok (w := freshNamed (fun _ => .missing) inA)
    (evs := [.outside (ascii "b/x.enc") (.file [1, 2, 3]), .call 0 (.createFile (ascii "x.enc")) openEnv,
       .call 0 (.selectFile (ascii "x.enc")) openEnv, .call 0 (.createDataHeader samplePw sampleSettings 0) openEnv,
       .call 0 (.encryptData (some ⟨some 1, some oneHello⟩)) openEnv, .rename inB, .call 0 .writeToFile openEnv])
    (ok := fun rs m => decide (rs.getLast? = some (some (0, .plain (.success ())))) &&
      decide (m.fs (ascii "a/x.enc") = .file []) &&
      (match m.fs (ascii "b/x.enc") with | .file c => decide (c.length = 369) | _ => false)) (by decide +kernel)
  simp only [Bool.and_eq_true, decide_eq_true_eq] at h2
  obtain ⟨⟨h2, h3⟩, h4⟩ := h2
  split at h4
  · rename_i c hc
    exact ⟨rs, m, h1, h2, h3, c, hc, of_decide_eq_true h4⟩
  · cases h4

/-- C86 violated: two sessions that keep to names of their own get into each other's way: session 1 deletes the file by its other
name, and session 0 cannot save what it has. -/
theorem C86_violated_alias : ∃ rs m, runNamed toyHashes noRest (freshNamed (fun _ => .missing) inA)
      [.call 0 (.createFile (ascii "x.enc")) openEnv, .call 0 (.selectFile (ascii "x.enc")) openEnv,
       .call 0 (.createDataHeader samplePw sampleSettings 0) openEnv,
       .call 0 (.encryptData (some ⟨some 1, some oneHello⟩)) openEnv, .call 1 (.selectFile (ascii "l/x.enc")) openEnv,
       .call 1 .deleteFile openEnv, .call 0 .writeToFile openEnv] = .ok (rs, m) ∧
    answersOf 1 rs = [.flag (.success true), .flag (.success true)] ∧
    rs.getLast? = some (some (0, .plain (.fail .ERR_FILE_NOT_FOUND))) ∧ m.fs (ascii "a/x.enc") = .missing := by
  obtain ⟨rs, m, h1, h2⟩ := namedIs_ok (w := freshNamed (fun _ => .missing) inA)
    (evs := [.call 0 (.createFile (ascii "x.enc")) openEnv, .call 0 (.selectFile (ascii "x.enc")) openEnv,
       .call 0 (.createDataHeader samplePw sampleSettings 0) openEnv,
       .call 0 (.encryptData (some ⟨some 1, some oneHello⟩)) openEnv, .call 1 (.selectFile (ascii "l/x.enc")) openEnv,
       .call 1 .deleteFile openEnv, .call 0 .writeToFile openEnv])
    (ok := fun rs m => decide (answersOf 1 rs = [.flag (.success true), .flag (.success true)]) &&
      decide (rs.getLast? = some (some (0, .plain (.fail .ERR_FILE_NOT_FOUND)))) &&
      decide (m.fs (ascii "a/x.enc") = .missing)) (by decide +kernel)
  simp only [Bool.and_eq_true, decide_eq_true_eq] at h2
  exact ⟨rs, m, h1, h2.1.1, h2.1.2, h2.2⟩

/-- a path without zero bytes is handed over as it is -/
theorem C86_no_zero_byte (p : Path) (h : (0 : Byte) ∉ p) : p.cString = p := by
  unfold Path.cString
  induction p with
  | nil => rfl
  | cons x p ih =>
    rw [List.mem_cons, not_or] at h
    rw [List.takeWhile_cons, if_pos (decide_eq_true (Ne.symm h.1)), ih h.2]

example : Path.cString (ascii "a/x.enc") = ascii "a/x.enc" := C86_no_zero_byte _ (by decide)

/-- a path is a directory part and a last part -/
theorem split_last (p : List Byte) : ∃ dir base, p = dir ++ base ∧ (47 : Byte) ∉ base ∧ (dir = [] ∨ ∃ d, dir = d ++ [47]) := by
  induction p with
  | nil => exact ⟨[], [], rfl, List.not_mem_nil, .inl rfl⟩
  | cons x p ih =>
    obtain ⟨dir, base, rfl, hb, rfl | ⟨d, rfl⟩⟩ := ih
    · by_cases hx : x = 47
      · exact ⟨[47], base, by simp [hx], hb, .inr ⟨[], rfl⟩⟩
      · exact ⟨[], x :: base, rfl, by simpa [List.mem_cons, hb] using Ne.symm hx, .inl rfl⟩
    · exact ⟨x :: (d ++ [47]), base, rfl, hb, .inr ⟨x :: d, rfl⟩⟩

/-- C86 violated: every file whatsoever has a name that passes for the name of an `.enc` file. -/
theorem C86_violated_ending (p : Path) (h : (0 : Byte) ∉ p) :
    EncPath (p ++ 0 :: ascii ".enc") ∧ Path.cString (p ++ 0 :: ascii ".enc") = p := by
  constructor
  · obtain ⟨dir, base, rfl, hb, hd⟩ := split_last p
    refine ⟨dir, base ++ [0], by rw [List.append_assoc, List.append_assoc]; rfl, by simp, ?_, hd⟩
    rw [List.mem_append]
    exact fun hm => hm.elim hb (by decide)
  · have := C86_no_zero_byte p h
    unfold Path.cString at *
    rw [List.takeWhile_append, this, if_pos rfl]
    show p ++ [] = p
    rw [List.append_nil]

example : EncPath (ascii "notes.txt" ++ 0 :: ascii ".enc") := (C86_violated_ending _ (by decide)).1

/-- C86 violated: by such a name a file is created that is no `.enc` file. -/
theorem C86_violated_zero_byte : ¬ EncPath (ascii "notes.txt") ∧
    ∃ rs m, runNamed toyHashes noRest (freshNamed (fun _ => .missing) Path.cString)
        [.call 0 (.createFile (ascii "notes.txt" ++ 0 :: ascii ".enc")) openEnv] = .ok (rs, m) ∧
      rs = [some (0, .flag (.success true))] ∧ m.fs (ascii "notes.txt") = .file [] := by
  refine ⟨fun h => absurd ((extension_iff _).mpr h) (by decide), ?_⟩
  obtain ⟨rs, m, h1, h2⟩ := namedIs_ok (w := freshNamed (fun _ => .missing) Path.cString)
    (evs := [.call 0 (.createFile (ascii "notes.txt" ++ 0 :: ascii ".enc")) openEnv])
    (ok := fun rs m => decide (rs = [some (0, .flag (.success true))]) && decide (m.fs (ascii "notes.txt") = .file []))
    (by decide +kernel)
  simp only [Bool.and_eq_true, decide_eq_true_eq] at h2
  exact ⟨rs, m, h1, h2⟩

end Verif.Props
