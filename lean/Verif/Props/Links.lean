import Verif.Lemmas.Links
import Verif.Props.Names
import Verif.Props.Select

/- Links to files: C103. -/
namespace Verif.Props
open Spec Api

variable {hs : Hashes} {rest : Api.Helper → Res Api.Helper}

/-- C103: a call that does not remove anything does what it does on the disk as it looks when links are followed. Afterwards all
paths that lead to the file it changed show the same, under all others there is what was there, and paths lead to the same file
just if they did before. -/
theorem C103_call (e : Env) (s s' : Session) (d d' : Disk) (hd : Sound d) (c : Call) (hc : Keeps s c) (r : Ret)
    (h : callLinked hs rest e s d c = .ok ((r, s'), d')) :
    ∃ w, Api.call hs rest e ⟨s, d.view⟩ c = .ok (r, w) ∧ w.api = s' ∧
      (∀ p q, Changes s c p → SameFile d p q → d'.view q = w.fs p) ∧
      (∀ q, (∀ p, Changes s c p → ¬ SameFile d p q) → d'.view q = d.view q) ∧
      Sound d' ∧ ∀ p q, SameFile d' p q ↔ SameFile d p q := by
  obtain ⟨h1, h2, h3, h4, h5, -⟩ := linked_call (hs := hs) (rest := rest) (e := e) hd hc rfl
  rw [callLinked_keeps hc] at h
  obtain ⟨⟨r, s'⟩, hr, h⟩ := Res.bind_eq_ok.mp h
  cases h
  refine ⟨_, call_of_eval (h1.symm.trans hr), rfl, fun p q hp hq => ?_, h5, h3, fun p q => ?_⟩
  · refine Eq.trans ?_ (h2 p (changes_meets hp))
    unfold Disk.view
    rw [(h4 q p).1.mpr hq.1.symm]
  · exact ⟨fun h => ⟨(h4 p q).1.mp h.1, fun h0 => h.2 ((h4 p q).2.mpr h0)⟩,
      fun h => ⟨(h4 p q).1.mpr h.1, fun h0 => h.2 ((h4 p q).2.mp h0)⟩⟩

/-- C103: such a call dies just when it dies there. -/
theorem C103_call_dies (e : Env) (s : Session) (d : Disk) (hd : Sound d) (c : Call) (hc : Keeps s c) (x : Fatal) :
    callLinked hs rest e s d c = .fatal x ↔ Api.call hs rest e ⟨s, d.view⟩ c = .fatal x := by
  obtain ⟨h1, -⟩ := linked_call (hs := hs) (rest := rest) (e := e) hd hc rfl
  rw [callLinked_keeps hc, h1]
  rcases hr : ((Steps.call hs rest e s c).eval d.view).1 with ⟨r, s⟩ | y | y
  · rw [call_of_eval hr]
    exact ⟨(nomatch ·), (nomatch ·)⟩
  · rw [call_of_exn hr]
    exact ⟨(nomatch ·), (nomatch ·)⟩
  · rw [call_of_fatal hr]
    exact ⟨fun h => by cases h; rfl, fun h => by cases h; rfl⟩

/-- C103: such a call makes a new name only if it is to create a file with the right ending, it makes it where the links from
there lead, and it takes no name and no link away. -/
theorem C103_new (e : Env) (s s' : Session) (d d' : Disk) (hd : Sound d) (c : Call) (hc : Keeps s c) (r : Ret)
    (h : callLinked hs rest e s d c = .ok ((r, s'), d')) (q : Path) (hq : d'.entry q ≠ d.entry q) :
    d.entry q = .none ∧ ∃ p, c = .createFile p ∧ EncPath p ∧ Leads d p q := by
  obtain ⟨h1, h2, h3, h4, h5, h6⟩ := linked_call (hs := hs) (rest := rest) (e := e) hd hc rfl
  rw [callLinked_keeps hc] at h
  obtain ⟨⟨r, s'⟩, hr, h⟩ := Res.bind_eq_ok.mp h
  cases h
  obtain ⟨hn, ⟨i, he⟩, p, hp, hpl⟩ := h6 q hq
  have hw := call_of_eval (h1.symm.trans hr)
  have hmiss : d.view p = .missing := by
    unfold Disk.view
    rw [hpl]
    rfl
  have hqp : d.place p = d.place q := by
    rw [hpl]
    unfold Disk.place Disk.follow
    rw [hn]
  have hthere : ((Steps.call hs rest e s c).linked d).2.view p ≠ .missing := by
    unfold Disk.view
    rw [(h4 p q).1.mpr hqp]
    have : ((Steps.call hs rest e s c).linked d).2.place q = some (.file i) := by
      unfold Disk.place Disk.follow
      rw [he]
    rw [this]
    exact (h3 q i he).2
  rw [h2 p (changes_meets hp)] at hthere
  obtain ⟨h7, h8⟩ := call_creates hw hmiss hthere
  exact ⟨hn, p, h7, h8, (Disk.follow_free _ _ hpl).2⟩

/-- C103, without a link at the path that is to be created the new name is this path. Missing: a link there, which may lead to a
name with any ending (`C103_violated_extension`). -/
theorem C103_new_partial (e : Env) (s s' : Session) (d d' : Disk) (hd : Sound d) (c : Call) (hc : Keeps s c) (r : Ret)
    (h : callLinked hs rest e s d c = .ok ((r, s'), d')) (hl : ∀ p q, c = .createFile p → d.entry p ≠ .link q) (q : Path)
    (hq : d'.entry q ≠ d.entry q) : EncPath q ∧ c = .createFile q := by
  obtain ⟨-, p, hp, he, hpq⟩ := C103_new e s s' d d' hd c hc r h q hq
  cases hpq with
  | here => exact ⟨he, hp⟩
  | step _ t _ ht _ => exact absurd ht (hl p t hp)

/-- C103: deleting the selected file removes the name by which it was selected, be it the name of a file or a link, and nothing
else: no other name, no other link, and no file. Under a path that does not come by this name there is what was there; paths that
do come by it lead to the free name. -/
theorem C103_delete (e : Env) (s : Session) (d : Disk) (f : FileHandler) (hf : s.selected = some f)
    (hs' : s.state = .FILE_SELECTED ∨ s.state = .EMPTY_FILE_SELECTED) :
    (d.entry f.path = .none → callLinked hs rest e s d .deleteFile = .ok ((.flag (.fail .ERR_FILE_NOT_DELETED), s), d)) ∧
    (d.entry f.path = .unreachable → callLinked hs rest e s d .deleteFile = .fatal .terminate) ∧
    ((∃ i, d.entry f.path = .name i) ∨ (∃ q, d.entry f.path = .link q) →
      (e.canRemove f.path = false → callLinked hs rest e s d .deleteFile = .fatal .terminate) ∧
      (e.canRemove f.path = true → ∃ s' d', callLinked hs rest e s d .deleteFile = .ok ((.flag (.success true), s'), d') ∧
        s'.selected = none ∧ s'.state = .INIT ∧ d'.entry f.path = .none ∧ (∀ q, q ≠ f.path → d'.entry q = d.entry q) ∧
        d'.file = d.file ∧ (∀ q, ¬ Leads d q f.path → d'.view q = d.view q) ∧
        ∀ q, Leads d q f.path → d.place q ≠ none → d'.view q = .missing)) := by
  rw [callLinked_delete hs']
  unfold Steps.deleteLinked
  rw [hf]
  simp only [deref, Res.bind_ok, Disk.remove]
  have yes : e.canRemove f.path = true → ∀ d', d' = { d with entry := fun r => if r = f.path then .none else d.entry r } →
      d'.entry f.path = .none ∧ (∀ q, q ≠ f.path → d'.entry q = d.entry q) ∧
        d'.file = d.file ∧ (∀ q, ¬ Leads d q f.path → d'.view q = d.view q) ∧
        ∀ q, Leads d q f.path → d.place q ≠ none → d'.view q = .missing := by
    rintro - d' rfl
    refine ⟨if_pos rfl, fun q hq => if_neg hq, rfl, fun q hq => ?_, fun q hq hn => ?_⟩
    · unfold Disk.view Disk.place
      rw [Disk.follow_removed 40 q hq]
      rfl
    · unfold Disk.view Disk.place
      rw [Disk.follow_gone hq 40 hn]
      rfl
  refine ⟨fun h => by rw [h]; rfl, fun h => by rw [h]; rfl, fun h => ⟨fun hr => ?_, fun hr => ?_⟩⟩
  · rcases h with ⟨i, h⟩ | ⟨q, h⟩ <;> rw [h] <;> simp [hr, Res.noexcept]
  · rcases h with ⟨i, h⟩ | ⟨q, h⟩ <;> rw [h] <;> simp only [hr] <;>
      exact ⟨_, _, rfl, rfl, rfl, yes hr _ rfl⟩

/-- C103, on a disk without links: every history of calls, deleting included, gets the answers and leaves the files that it gets
and leaves where each path is a file of its own, and there are no links afterwards. Missing: disks with links, on which deleting
does not remove the file (`C103_violated_delete`). -/
theorem C103_plain_partial (evs : List (Nat × Call × Env)) : ∀ (m : Linked), Plain m.disk →
    runMany hs rest ⟨m.api, m.disk.view⟩ (evs.map fun x => .call x.1 x.2.1 x.2.2) = (do
      let (rs, m') ← runLinked hs rest m (evs.map fun x => .call x.1 x.2.1 x.2.2)
      .ok (rs, ⟨m'.api, m'.disk.view⟩)) ∧
    ∀ rs m', runLinked hs rest m (evs.map fun x => .call x.1 x.2.1 x.2.2) = .ok (rs, m') → Plain m'.disk := by
  induction evs with
  | nil => exact fun m hm => ⟨rfl, fun rs m' h => by cases h; exact hm⟩
  | cons x evs ih =>
    intro m hm
    obtain ⟨i, c, e⟩ := x
    obtain ⟨h1, h2⟩ := plain_call (hs := hs) (rest := rest) (e := e) (s := m.api i) hm c
    simp only [List.map_cons, runMany, runLinked, stepMany, stepLinked, Many.of, Many.after]
    rw [h1]
    rcases hr : callLinked hs rest e (m.api i) m.disk c with ⟨⟨r, s'⟩, d'⟩ | y | y
    · have := ih ⟨fun j => if j = i then s' else m.api j, d'⟩ (h2 _ _ hr)
      simp only [Res.bind_ok]
      rw [this.1]
      have this := this.2
      generalize runLinked hs rest ⟨fun j => if j = i then s' else m.api j, d'⟩ _ = x at this ⊢
      rcases x with ⟨rs, m'⟩ | y | y
      · refine ⟨rfl, fun rs' m'' h => ?_⟩
        cases h
        exact this _ _ rfl
      · exact ⟨rfl, fun _ _ h => by cases h⟩
      · exact ⟨rfl, fun _ _ h => by cases h⟩
    · exact ⟨rfl, fun _ _ h => by cases h⟩
    · exact ⟨rfl, fun _ _ h => by cases h⟩

/-! ### concrete histories -/

/-- one file with the names `x.enc` and `y.enc` and a link `z.enc` to the first of them; a link `n.enc` to `notes.txt`, which is
missing; a loop -/
def linkedDisk : Disk where
  entry := fun p => if p = ascii "x.enc" ∨ p = ascii "y.enc" then .name 0
    else if p = ascii "z.enc" then .link (ascii "x.enc")
    else if p = ascii "n.enc" then .link (ascii "notes.txt")
    else if p = ascii "o.enc" then .link (ascii "o.enc") else .none
  file := fun _ => .file smallVault
  next := 1

theorem linkedDisk_sound : Sound linkedDisk := by
  intro p i h
  unfold linkedDisk at h
  dsimp only at h
  split at h
  · cases h
    exact ⟨Nat.zero_lt_one, (nomatch ·)⟩
  · split at h
    · cases h
    · split at h
      · cases h
      · split at h <;> cases h

def freshLinked (d : Disk) : Linked := ⟨(freshMany d.view).api, d⟩

/-- does the run end like this? -/
def linkedIs (m : Linked) (evs : List LinkedEvent) (ok : List (Option (Nat × Ret)) → Linked → Bool) : Bool :=
  match runLinked toyHashes noRest m evs with
  | .ok (rs, m) => ok rs m
  | _ => false

theorem linkedIs_ok {w : Linked} {evs : List LinkedEvent} {ok : List (Option (Nat × Ret)) → Linked → Bool}
    (h : linkedIs w evs ok = true) : ∃ rs m, runLinked toyHashes noRest w evs = .ok (rs, m) ∧ ok rs m = true := by
  unfold linkedIs at h
  split at h
  · rename_i rs m hr
    exact ⟨rs, m, hr, h⟩
  · cases h

/-- what the links make of the paths -/
example : SameFile linkedDisk (ascii "x.enc") (ascii "y.enc") ∧ SameFile linkedDisk (ascii "x.enc") (ascii "z.enc") ∧
    SameFile linkedDisk (ascii "n.enc") (ascii "notes.txt") ∧ ¬ SameFile linkedDisk (ascii "o.enc") (ascii "o.enc") ∧
    ¬ SameFile linkedDisk (ascii "x.enc") (ascii "n.enc") := by
  unfold SameFile
  decide

/-- the calls of `C103_call` and `C103_new`: `n.enc` is created and `notes.txt` comes into being, which the other path shows -/
example : Sound linkedDisk ∧ Keeps ((freshLinked linkedDisk).api 0) (.createFile (ascii "n.enc")) ∧
    linkedIs (freshLinked linkedDisk) [.call 0 (.createFile (ascii "n.enc")) openEnv] (fun rs m =>
      rs == [some (0, .flag (.success true))] && m.disk.entry (ascii "notes.txt") == .name 1 &&
      m.disk.view (ascii "n.enc") == .file [] && m.disk.view (ascii "x.enc") == .file smallVault) = true :=
  ⟨linkedDisk_sound, .inl (nomatch ·), by decide +kernel⟩

/-- without a link at the path, as in `C103_new_partial` -/
example : (∀ p q, Call.createFile (ascii "w.enc") = .createFile p → linkedDisk.entry p ≠ .link q) ∧
    linkedIs (freshLinked linkedDisk) [.call 0 (.createFile (ascii "w.enc")) openEnv] (fun rs m =>
      rs == [some (0, .flag (.success true))] && m.disk.entry (ascii "w.enc") == .name 1) = true := by
  refine ⟨fun p q h => ?_, by decide +kernel⟩
  cases h
  exact (nomatch ·)

/-- a call that dies: a loop of links -/
example : (match callLinked toyHashes noRest openEnv ((freshLinked linkedDisk).api 0) linkedDisk (.createFile (ascii "o.enc")) with
    | .fatal x => x == .terminate
    | _ => false) = true := by decide +kernel

/-- deleting by the link removes the link, and paths that come by the name lead nowhere -/
example : Leads linkedDisk (ascii "z.enc") (ascii "x.enc") ∧
    linkedIs (freshLinked linkedDisk) [.call 0 (.selectFile (ascii "x.enc")) openEnv, .call 0 .deleteFile openEnv] (fun rs m =>
      rs == [some (0, .flag (.success true)), some (0, .flag (.success true))] && m.disk.entry (ascii "x.enc") == .none &&
      m.disk.view (ascii "z.enc") == .missing && m.disk.view (ascii "y.enc") == .file smallVault) = true :=
  ⟨.step _ (ascii "x.enc") _ (by decide) (.here _), by decide +kernel⟩

/-- a disk without links -/
def plainDisk : Disk where
  entry := fun p => if p = ascii "x.enc" then .name 0 else if p = ascii "d" then .name 1 else .none
  file := fun i => if i = 0 then .file smallVault else .dir
  next := 2

/-- the hypothesis of `C103_plain_partial` holds, and a history on it deletes the file and creates it anew -/
example : Plain (freshLinked plainDisk).disk ∧
    linkedIs (freshLinked plainDisk) [.call 0 (.selectFile (ascii "x.enc")) openEnv, .call 0 .deleteFile openEnv,
      .call 1 (.selectFile (ascii "x.enc")) openEnv, .call 1 (.createFile (ascii "x.enc")) openEnv] (fun rs m =>
        rs == [some (0, .flag (.success true)), some (0, .flag (.success true)), some (1, .flag (.fail .ERR_FILE_NOT_FOUND)),
          some (1, .flag (.success true))] && m.disk.view (ascii "x.enc") == .file []) = true := by
  have cases' : ∀ p x, plainDisk.entry p = x → (p = ascii "x.enc" ∧ x = .name 0) ∨ (p = ascii "d" ∧ x = .name 1) ∨ x = .none := by
    rintro p x rfl
    unfold plainDisk
    dsimp only
    split
    · exact .inl ⟨‹_›, rfl⟩
    · split
      · exact .inr (.inl ⟨‹_›, rfl⟩)
      · exact .inr (.inr rfl)
  refine ⟨⟨?_, ?_, ?_, ?_⟩, by decide +kernel⟩
  · intro p i h
    rcases cases' p _ h with ⟨-, h⟩ | ⟨-, h⟩ | h <;> cases h
    · exact ⟨by decide, (nomatch ·)⟩
    · exact ⟨by decide, (nomatch ·)⟩
  · intro p q h
    rcases cases' p _ h with ⟨-, h⟩ | ⟨-, h⟩ | h <;> cases h
  · intro p q i h1 h2
    rcases cases' p _ h1 with ⟨hp, h⟩ | ⟨hp, h⟩ | h <;> cases h <;> rcases cases' q _ h2 with ⟨hq, h⟩ | ⟨hq, h⟩ | h <;> cases h
    · exact hp.trans hq.symm
    · exact hp.trans hq.symm
  · intro p i h
    rcases cases' p _ h with ⟨-, h⟩ | ⟨-, h⟩ | h <;> cases h
    · exact .inl ⟨smallVault, rfl⟩
    · exact .inr rfl

/-- C103 violated: a session selects a file and deletes it, and is told that it is deleted. Another name of the file shows that
nothing is lost: all of its content can be read. -/
theorem C103_violated_delete : ∃ rs m, runLinked toyHashes noRest (freshLinked linkedDisk)
      [.call 0 (.selectFile (ascii "x.enc")) openEnv, .call 0 .deleteFile openEnv, .call 0 (.selectFile (ascii "y.enc")) openEnv,
       .call 0 .getFileContent openEnv] = .ok (rs, m) ∧
    rs = [some (0, .flag (.success true)), some (0, .flag (.success true)), some (0, .flag (.success true)),
      some (0, .content (.success (Bytes.full smallVault)))] ∧
    m.disk.view (ascii "x.enc") = .missing ∧ m.disk.view (ascii "y.enc") = .file smallVault := by
  obtain ⟨rs, m, h1, h2⟩ := linkedIs_ok (w := freshLinked linkedDisk)
    (evs := [.call 0 (.selectFile (ascii "x.enc")) openEnv, .call 0 .deleteFile openEnv,
      .call 0 (.selectFile (ascii "y.enc")) openEnv, .call 0 .getFileContent openEnv])
    (ok := fun rs m => decide (rs = [some (0, .flag (.success true)), some (0, .flag (.success true)),
      some (0, .flag (.success true)), some (0, .content (.success (Bytes.full smallVault)))]) &&
      decide (m.disk.view (ascii "x.enc") = .missing) && decide (m.disk.view (ascii "y.enc") = .file smallVault)) (by decide +kernel)
  simp only [Bool.and_eq_true, decide_eq_true_eq] at h2
  exact ⟨rs, m, h1, h2.1.1, h2.1.2, h2.2⟩

/-- C103 violated: the same by way of a link. What is gone is the link. -/
theorem C103_violated_delete_link : ∃ rs m, runLinked toyHashes noRest (freshLinked linkedDisk)
      [.call 0 (.selectFile (ascii "z.enc")) openEnv, .call 0 .deleteFile openEnv] = .ok (rs, m) ∧
    rs = [some (0, .flag (.success true)), some (0, .flag (.success true))] ∧
    m.disk.view (ascii "z.enc") = .missing ∧ m.disk.view (ascii "x.enc") = .file smallVault := by
  obtain ⟨rs, m, h1, h2⟩ := linkedIs_ok (w := freshLinked linkedDisk)
    (evs := [.call 0 (.selectFile (ascii "z.enc")) openEnv, .call 0 .deleteFile openEnv])
    (ok := fun rs m => decide (rs = [some (0, .flag (.success true)), some (0, .flag (.success true))]) &&
      decide (m.disk.view (ascii "z.enc") = .missing) && decide (m.disk.view (ascii "x.enc") = .file smallVault)) (by decide +kernel)
  simp only [Bool.and_eq_true, decide_eq_true_eq] at h2
  exact ⟨rs, m, h1, h2.1.1, h2.1.2, h2.2⟩

/-- C103 violated: a file without the ending `.enc` is created. -/
theorem C103_violated_extension : ¬ EncPath (ascii "notes.txt") ∧ linkedDisk.view (ascii "notes.txt") = .missing ∧
    ∃ rs m, runLinked toyHashes noRest (freshLinked linkedDisk) [.call 0 (.createFile (ascii "n.enc")) openEnv] = .ok (rs, m) ∧
      rs = [some (0, .flag (.success true))] ∧ m.disk.entry (ascii "notes.txt") = .name 1 ∧
      m.disk.view (ascii "notes.txt") = .file [] := by
  refine ⟨fun h => absurd ((extension_iff _).mpr h) (by decide), by decide, ?_⟩
  obtain ⟨rs, m, h1, h2⟩ := linkedIs_ok (w := freshLinked linkedDisk)
    (evs := [.call 0 (.createFile (ascii "n.enc")) openEnv])
    (ok := fun rs m => decide (rs = [some (0, .flag (.success true))]) && decide (m.disk.entry (ascii "notes.txt") = .name 1) &&
      decide (m.disk.view (ascii "notes.txt") = .file [])) (by decide +kernel)
  simp only [Bool.and_eq_true, decide_eq_true_eq] at h2
  exact ⟨rs, m, h1, h2.1.1, h2.1.2, h2.2⟩

/-- the same disk when there are notes, and `x.enc` is a link to them instead -/
def turnedDisk : Disk where
  entry := fun p => if p = ascii "x.enc" then .link (ascii "notes.txt") else if p = ascii "notes.txt" then .name 1 else .none
  file := fun i => if i = 0 then .file [] else .file [1, 2, 3]
  next := 2

/-- C103 violated: between selecting a new file and saving, another program puts a link in its place. The save follows the link
and overwrites a file that is no `.enc` file. -/
theorem C103_violated_save : ∃ rs m, runLinked toyHashes noRest (freshLinked ⟨fun _ => .none, fun _ => .missing, 0⟩)
      [.call 0 (.createFile (ascii "x.enc")) openEnv, .call 0 (.selectFile (ascii "x.enc")) openEnv,
       .call 0 (.createDataHeader samplePw sampleSettings 0) openEnv,
       .call 0 (.encryptData (some ⟨some 1, some oneHello⟩)) openEnv, .outside turnedDisk, .call 0 .writeToFile openEnv] = .ok (rs, m) ∧
    rs.getLast? = some (some (0, .plain (.success ()))) ∧ turnedDisk.view (ascii "notes.txt") = .file [1, 2, 3] ∧
    ∃ c, m.disk.view (ascii "notes.txt") = .file c ∧ c.length = 369 := by
  obtain ⟨rs, m, h1, h2⟩ := linkedIs_ok (w := freshLinked ⟨fun _ => .none, fun _ => .missing, 0⟩)
    (evs := [.call 0 (.createFile (ascii "x.enc")) openEnv, .call 0 (.selectFile (ascii "x.enc")) openEnv,
       .call 0 (.createDataHeader samplePw sampleSettings 0) openEnv,
       .call 0 (.encryptData (some ⟨some 1, some oneHello⟩)) openEnv, .outside turnedDisk, .call 0 .writeToFile openEnv])
    (ok := fun rs m => decide (rs.getLast? = some (some (0, .plain (.success ())))) &&
      (match m.disk.view (ascii "notes.txt") with | .file c => decide (c.length = 369) | _ => false)) (by decide +kernel)
  simp only [Bool.and_eq_true, decide_eq_true_eq] at h2
  obtain ⟨h2, h4⟩ := h2
  split at h4
  · rename_i c hc
    exact ⟨rs, m, h1, h2, by decide, c, hc, of_decide_eq_true h4⟩
  · cases h4

end Verif.Props
