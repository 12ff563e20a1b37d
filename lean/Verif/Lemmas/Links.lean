import Verif.Spec.Links
import Verif.Lemmas.Names

/- Lemmas for C103. -/
namespace Verif

namespace Prog

/-- what the call leaves behind are files, and it leaves none where it found a directory or nothing it could reach -/
def Follows {α : Type} : Prog α → Prop
  | .done _ => True
  | .act _ f k => (∀ n n', f n = some n' → n ≠ .unreachable ∧ n ≠ .dir ∧ ∃ c, n' = .file c) ∧ ∀ n, (k n).Follows

variable {α β : Type}

theorem Follows.done {r : Res α} : Follows (.done r) := trivial
theorem Follows.lift {r : Res α} : Follows (liftM r : Prog α) := trivial
theorem Follows.pure {a : α} : Follows (Pure.pure a : Prog α) := trivial
theorem Follows.look {p : Path} : Follows (look p) := ⟨fun _ _ h => (nomatch h), fun _ => trivial⟩

theorem Follows.bind {x : Prog α} {g : α → Prog β} (hx : Follows x) (hg : ∀ a, Follows (g a)) : Follows (x >>= g) := by
  show Follows (Prog.bind x g)
  induction x with
  | done r =>
    cases r with
    | ok a => exact hg a
    | exn _ => trivial
    | fatal _ => trivial
  | act p f k ih => exact ⟨hx.1, fun n => ih n (hx.2 n)⟩

theorem Follows.noexcept {x : Prog α} (hx : Follows x) : Follows x.noexcept := by
  induction x with
  | done r => trivial
  | act p f k ih => exact ⟨hx.1, fun n => ih n (hx.2 n)⟩

theorem Follows.attempt {x : Prog α} (hx : Follows x) : Follows x.attempt := by
  induction x with
  | done r => trivial
  | act p f k ih => exact ⟨hx.1, fun n => ih n (hx.2 n)⟩

theorem Follows.ite {c : Prop} [Decidable c] {x y : Prog α} (hx : Follows x) (hy : Follows y) :
    Follows (if c then x else y) := by
  split <;> assumption

end Prog

namespace Steps
open Prog Spec

variable {hs : Hashes} {rest : Api.Helper → Res Api.Helper} {e : Env}

theorem existsAt_follows {p : Path} : Follows (existsAt p) := .bind .look fun _ => .lift

theorem isValidPath_follows {p : Path} {b : Bool} : Follows (isValidPath e p b) := by
  refine .noexcept (.ite .pure (.ite .pure (.ite ?_ ?_)))
  · exact .bind existsAt_follows fun _ => .ite .pure (.bind .look fun _ => .ite .pure .pure)
  · exact .bind existsAt_follows fun _ => .ite .pure .pure

theorem openOut_follows {p : Path} : Follows (openOut e p) := by
  refine ⟨fun n n' h => ?_, fun _ => trivial⟩
  cases n with
  | unreachable => cases h
  | dir => cases h
  | missing =>
    simp only [FS.openOut, only] at h
    split at h
    · cases h
      exact ⟨(nomatch ·), (nomatch ·), [], by simp [FS.set]⟩
    · cases h
  | file c =>
    simp only [FS.openOut, only] at h
    split at h
    · cases h
      exact ⟨(nomatch ·), (nomatch ·), [], by simp [FS.set]⟩
    · cases h

theorem writeOut_follows {p : Path} {b : List Byte} : Follows (writeOut p b) := by
  refine ⟨fun n n' h => ?_, fun _ => trivial⟩
  cases n <;> cases h
  exact ⟨(nomatch ·), (nomatch ·), _, rfl⟩

theorem createFile_follows {p : Path} : Follows (createFile e p) := by
  refine .noexcept (.bind isValidPath_follows fun o => ?_)
  rcases o with ⟨⟩ | c | _
  · exact .bind openOut_follows fun _ => .ite .pure .pure
  · exact .pure
  · exact .pure

theorem newHandler_follows {p : Path} {i : Nat} : Follows (newHandler e p i) := by
  refine .bind isValidPath_follows fun o => ?_
  rcases o with ⟨⟩ | c | _
  · exact .bind .look fun _ => .lift
  · exact .done
  · exact .done

theorem getFileHandler_follows {p : Path} {i : Nat} : Follows (getFileHandler e p i) := by
  refine .noexcept (.bind isValidPath_follows fun o => ?_)
  rcases o with ⟨⟩ | c | _
  · refine .bind (.attempt newHandler_follows) fun o => ?_
    cases o <;> exact .pure
  · exact .pure
  · exact .pure

theorem getWriteStream_follows {f : FileHandler} : Follows (getWriteStream e f) := by
  refine .noexcept (.bind isValidPath_follows fun o => ?_)
  rcases o with ⟨⟩ | c | _
  · exact .bind openOut_follows fun _ => .ite .pure .pure
  · exact .pure
  · exact .pure

theorem finishWrite_follows {s : Session} {p : Path} : Follows (finishWrite e s p) :=
  .bind .lift fun _ => .bind writeOut_follows fun _ => .pure

theorem writeToPath_follows {s : Session} {p : Path} : Follows (writeToPath e s p) := by
  refine .noexcept (.bind getFileHandler_follows fun o => ?_)
  rcases o with f | c | _
  · refine .bind (.noexcept (.ite getWriteStream_follows .pure)) fun x => ?_
    obtain ⟨⟨⟩ | c | _, f⟩ := x
    · exact finishWrite_follows
    · exact .pure
    · exact .pure
  · exact .pure
  · exact .pure

theorem writeToSelected_follows {s : Session} : Follows (writeToSelected e s) := by
  refine .noexcept (.bind .lift fun f => .bind getWriteStream_follows fun x => ?_)
  obtain ⟨⟨⟩ | c | _, f⟩ := x
  · exact finishWrite_follows
  · exact .pure
  · exact .pure

theorem pick_follows {dir : Path} : ∀ l, Follows (pick dir l)
  | [] => .pure
  | n :: ns => by
    refine .bind .look fun x => ?_
    cases x with
    | missing => exact pick_follows ns
    | dir => exact pick_follows ns
    | unreachable => exact .done
    | file c => exact .bind (pick_follows ns) fun _ => .pure

theorem scan_follows {mode : Byte} {dir : Path} : ∀ l i ret, Follows (scan hs e mode dir l i ret)
  | [], _, _ => .pure
  | n :: ns, i, ret => by
    unfold scan
    refine .bind getFileHandler_follows fun o => ?_
    rcases o with f | c | _
    · exact .ite (scan_follows _ _ _) (.bind (.bind .look fun _ => .lift) fun _ => scan_follows _ _ _)
    · exact scan_follows _ _ _
    · exact scan_follows _ _ _

theorem getRelevantFileNames_follows {mode : Byte} {dir : Path} : Follows (getRelevantFileNames hs e mode dir) := by
  refine .noexcept (.bind (.noexcept (.ite .pure (.bind existsAt_follows fun _ => .ite .pure
    (.bind .look fun _ => .ite .done (.bind (pick_follows _) fun _ => .pure))))) fun o => ?_)
  rcases o with l | c | _
  · exact .bind (scan_follows l 0 []) fun _ => .pure
  · exact .pure
  · exact .pure

theorem selectFile_follows {s : Session} {p : Path} : Follows (selectFile hs e s p) := by
  refine .noexcept (.bind getFileHandler_follows fun o => ?_)
  rcases o with f | c | _
  · refine .ite .pure (.noexcept (.bind (.bind .look fun _ => .lift) fun o => ?_))
    rcases o with f | c | _ <;> exact .pure
  · exact .pure
  · exact .pure

theorem getFileContent_follows {s : Session} : Follows (getFileContent e s) := by
  refine .noexcept (.bind .lift fun f => .bind .look fun n => .bind .lift fun o => ?_)
  cases o <;> exact .pure

theorem getDecryptedData_follows {s : Session} : Follows (getDecryptedData hs e s) := by
  unfold getDecryptedData
  split
  · exact .bind .look fun _ => .bind .lift fun _ => .pure
  · exact .bind .lift fun _ => .pure

theorem call_follows (s : Session) (c : Call) (h : Keeps s c) : Follows (call hs rest e s c) := by
  unfold call
  split
  · exact .bind getRelevantFileNames_follows fun _ => .pure
  · exact .bind createFile_follows fun _ => .pure
  · exact .bind selectFile_follows fun _ => .pure
  · rename_i hst
    rcases h with h | h
    · exact absurd rfl h
    · exact absurd hst h.1
  · rename_i hst
    rcases h with h | h
    · exact absurd rfl h
    · exact absurd hst h.2
  · exact .bind getFileContent_follows fun _ => .pure
  · exact .bind getDecryptedData_follows fun _ => .pure
  · exact .bind writeToSelected_follows fun _ => .pure
  · exact .bind writeToPath_follows fun _ => .pure
  · exact .bind .lift fun _ => .pure

end Steps

namespace Disk
open Spec

theorem follow_free {d : Disk} {q : Path} : ∀ (n : Nat) (p : Path), d.follow n p = some (.free q) → d.entry q = .none ∧ Leads d p q
  | n, p, h => by
    unfold follow at h
    split at h
    · rename_i he
      cases h
      exact ⟨he, .here _⟩
    · cases h
    · cases h
    · cases h
    · rename_i r n he
      obtain ⟨h1, h2⟩ := follow_free n r h
      exact ⟨h1, .step _ _ _ he h2⟩

theorem follow_file {d : Disk} {i : Nat} : ∀ (n : Nat) (p : Path), d.follow n p = some (.file i) → ∃ q, d.entry q = .name i ∧ Leads d p q
  | n, p, h => by
    unfold follow at h
    split at h
    · cases h
    · cases h
    · rename_i j he
      cases h
      exact ⟨p, he, .here _⟩
    · cases h
    · rename_i r n he
      obtain ⟨q, h1, h2⟩ := follow_file n r h
      exact ⟨q, h1, .step _ _ _ he h2⟩

/-- a name that was free becomes the name of a file -/
theorem follow_named {d : Disk} {q : Path} {i : Nat} {file : Nat → Node} {next : Nat} (hq : d.entry q = .none) :
    ∀ (n : Nat) (r : Path), (Disk.mk (fun r => if r = q then .name i else d.entry r) file next).follow n r =
      if d.follow n r = some (.free q) then some (.file i) else d.follow n r
  | n, r => by
    by_cases hr : r = q
    · subst hr
      unfold follow
      simp [hq]
    · rcases he : d.entry r with _ | _ | j | t
      · unfold follow
        simp [he, hr]
      · unfold follow
        simp [he, hr]
      · unfold follow
        simp [he, hr]
      · cases n with
        | zero =>
          unfold follow
          simp [he, hr]
        | succ n =>
          have := follow_named hq (i := i) (file := file) (next := next) n t
          unfold follow
          simp only [he, hr, if_false]
          exact this

/-- after a name has been removed, paths that do not come by it lead where they led -/
theorem follow_removed {d : Disk} {p : Path} : ∀ (n : Nat) (r : Path), ¬ Leads d r p →
    (Disk.mk (fun r => if r = p then .none else d.entry r) d.file d.next).follow n r = d.follow n r
  | n, r, h => by
    have hr : r ≠ p := fun hr => h (hr ▸ .here _)
    rcases he : d.entry r with _ | _ | j | t
    · unfold follow
      simp [he, hr]
    · unfold follow
      simp [he, hr]
    · unfold follow
      simp [he, hr]
    · cases n with
      | zero =>
        unfold follow
        simp [he, hr]
      | succ n =>
        have := follow_removed n t fun ht => h (.step _ _ _ he ht)
        unfold follow
        simp only [he, hr, if_false]
        exact this

/-- the others lead to the free name -/
theorem follow_gone {d : Disk} {p r : Path} (h : Leads d r p) : ∀ n, d.follow n r ≠ none →
    (Disk.mk (fun r => if r = p then .none else d.entry r) d.file d.next).follow n r = some (.free p) := by
  induction h with
  | here p =>
    intro n _
    unfold follow
    simp
  | step q r p he hr ih =>
    intro n hn
    by_cases hq : q = p
    · subst hq
      unfold follow
      simp
    · cases n with
      | zero =>
        unfold follow at hn
        simp [he] at hn
      | succ n =>
        have hn' : d.follow n r ≠ none := by
          unfold follow at hn
          simpa [he] using hn
        unfold follow
        simp only [he, hq, if_false]
        exact ih n hn'

theorem sound_place {d : Disk} (hd : Sound d) {p : Path} {i : Nat} (h : d.place p = some (.file i)) : i < d.next := by
  obtain ⟨q, hq, -⟩ := follow_file _ _ h
  exact (hd q i hq).1

theorem place_store {d : Disk} {p : Path} {n : Node} (r : Path) : (d.store p n).place r =
    match d.place p with
    | some (.free q) => if d.place r = some (.free q) then some (.file d.next) else d.place r
    | _ => d.place r := by
  rcases h : d.place p with _ | q | i
  · simp only [store, h]
  · simp only [store, h]
    exact follow_named (follow_free _ _ h).1 40 r
  · simp only [store, h]
    have : ∀ (f : Nat → Node) n r, (Disk.mk d.entry f d.next).follow n r = d.follow n r := by
      intro f n
      induction n with
      | zero => intro r; unfold follow; split <;> simp_all
      | succ n ih =>
        intro r
        unfold follow
        split <;> simp_all
    exact this _ 40 r

/-- two paths lead to the same before and after -/
theorem same_store {d : Disk} (hd : Sound d) {p : Path} {n : Node} (q r : Path) :
    ((d.store p n).place q = (d.store p n).place r ↔ d.place q = d.place r) ∧
    ((d.store p n).place q = none ↔ d.place q = none) := by
  rw [place_store, place_store]
  rcases h : d.place p with _ | x | i
  · exact ⟨.rfl, .rfl⟩
  · have fresh : ∀ t, d.place t ≠ some (.file d.next) := fun t ht => Nat.lt_irrefl _ (sound_place hd ht)
    dsimp only
    by_cases hq : d.place q = some (.free x)
    · by_cases hr : d.place r = some (.free x)
      · simp [hq, hr]
      · rw [if_pos hq, if_neg hr, hq]
        exact ⟨⟨fun h => absurd h.symm (fresh r), fun h => absurd h.symm hr⟩, ⟨(nomatch ·), (nomatch ·)⟩⟩
    · by_cases hr : d.place r = some (.free x)
      · rw [if_neg hq, if_pos hr, hr]
        exact ⟨⟨fun h => absurd h (fresh q), fun h => absurd h hq⟩, .rfl⟩
      · rw [if_neg hq, if_neg hr]
        exact ⟨.rfl, .rfl⟩
  · exact ⟨.rfl, .rfl⟩

theorem sound_store {d : Disk} (hd : Sound d) {p : Path} {n : Node} (hn : n ≠ .missing) : Sound (d.store p n) := by
  unfold store
  split
  · exact hd
  · rename_i j hj
    intro r i h
    refine ⟨(hd r i h).1, ?_⟩
    show (if i = j then n else d.file i) ≠ _
    split
    · exact hn
    · exact (hd r i h).2
  · intro r i h
    show i < d.next + 1 ∧ (if i = d.next then n else d.file i) ≠ _
    dsimp only at h
    split at h
    · cases h
      exact ⟨Nat.lt_succ_self _, by rw [if_pos rfl]; exact hn⟩
    · refine ⟨Nat.lt_succ_of_lt (hd r i h).1, ?_⟩
      split
      · exact hn
      · exact (hd r i h).2

/-- what is left behind is found under all paths that lead there and under no others -/
theorem view_store {d : Disk} (hd : Sound d) {p : Path} {n : Node} (hp : d.place p ≠ none) (q : Path) :
    (d.store p n).view q = if d.place q = d.place p then n else d.view q := by
  unfold view
  rw [place_store]
  rcases h : d.place p with _ | x | i
  · exact absurd h hp
  · dsimp only
    by_cases hq : d.place q = some (.free x)
    · rw [if_pos hq, if_pos hq]
      simp [store, h, «at»]
    · rw [if_neg hq, if_neg hq]
      rcases h' : d.place q with _ | y | j
      · rfl
      · rfl
      · have : j ≠ d.next := Nat.ne_of_lt (sound_place hd h')
        simp [store, h, «at», this]
  · dsimp only
    rcases h' : d.place q with _ | y | j
    · simp [«at»]
    · simp [«at»]
    · by_cases hj : j = i
      · subst hj
        simp [store, h, «at»]
      · simp [store, h, «at», hj]

/-- only the name that the path leads to may change, from free to taken -/
theorem entry_store {d : Disk} {p : Path} {n : Node} {r : Path} (h : (d.store p n).entry r ≠ d.entry r) :
    d.entry r = .none ∧ d.place p = some (.free r) ∧ (d.store p n).entry r = .name d.next := by
  unfold store at h ⊢
  split at h
  · exact absurd rfl h
  · exact absurd rfl h
  · rename_i q hq
    dsimp only at h
    split at h
    · rename_i hr
      cases hr
      exact ⟨(follow_free _ _ hq).1, hq, if_pos rfl⟩
    · exact absurd rfl h

end Disk

namespace Prog
open Spec

variable {α : Type} {P Q : Path → Prop} {R : α → Prop}

/-- a call that changes at most one path and then looks at no other goes to the files just as it goes to the paths of a disk that
looks like the files -/
theorem Within.linked {x : Prog α} (hx : Within P Q R x) (hf : Follows x) (hPQ : ∀ p q, Q p → P q → q = p) {d : Disk} {fs : FS}
    (hd : Sound d) (h : ∀ p, P p → fs p = d.view p) :
    (x.linked d).1 = (x.eval fs).1 ∧ (∀ p, P p → (x.linked d).2.view p = (x.eval fs).2 p) ∧ Sound (x.linked d).2 ∧
      (∀ q r, ((x.linked d).2.place q = (x.linked d).2.place r ↔ d.place q = d.place r) ∧
        ((x.linked d).2.place q = none ↔ d.place q = none)) ∧
      (∀ q, (∀ p, Q p → ¬ SameFile d p q) → (x.linked d).2.view q = d.view q) ∧
      ∀ r, (x.linked d).2.entry r ≠ d.entry r → d.entry r = .none ∧ (∃ i, (x.linked d).2.entry r = .name i) ∧
        ∃ p, Q p ∧ d.place p = some (.free r) := by
  induction x generalizing d fs with
  | done r => exact ⟨rfl, fun p hp => (h p hp).symm, hd, fun _ _ => ⟨.rfl, .rfl⟩, fun _ _ => rfl, fun _ h => absurd rfl h⟩
  | act p f k ih =>
    have hp := h p hx.1
    simp only [Prog.linked, eval]
    rw [← hp]
    cases hn : f (fs p) with
    | none =>
      dsimp only
      have : fs.alter p f = fs := by
        unfold FS.alter
        rw [hn]
      rw [this]
      exact ih _ (hx.2.2 _) (hf.2 _) hd h
    | some n =>
      obtain ⟨hu, -, c, hc⟩ := hf.1 _ _ hn
      have hpl : d.place p ≠ none := by
        intro hpl
        rw [hp] at hu
        unfold Disk.view at hu
        rw [hpl] at hu
        exact hu rfl
      rcases hx.2.1 with hq | hno
      · have h1 : ∀ q, P q → fs.alter p f q = (d.store p n).view q := by
          intro q hq'
          cases hPQ p q hq hq'
          rw [Disk.view_store hd hpl, if_pos rfl]
          unfold FS.alter
          rw [hn]
          simp [FS.set]
        obtain ⟨a1, a2, a3, a4, a5, a6⟩ := ih _ (hx.2.2 _) (hf.2 _) (Disk.sound_store hd (hc ▸ (nomatch ·))) h1
        refine ⟨a1, a2, a3, fun q r => ?_, fun q hq' => ?_, fun r hr => ?_⟩
        · exact ⟨(a4 q r).1.trans (Disk.same_store hd q r).1, (a4 q r).2.trans (Disk.same_store hd q r).2⟩
        · rw [a5 q, Disk.view_store hd hpl, if_neg fun he => hq' p hq ⟨he.symm, hpl⟩]
          intro p' hp' hs
          refine hq' p' hp' ⟨(Disk.same_store hd p' q).1.mp hs.1, fun h0 => hs.2 ((Disk.same_store hd p' q).2.mpr h0)⟩
        · by_cases hs : (d.store p n).entry r = d.entry r
          · obtain ⟨-, -, p', hp', hpl'⟩ := a6 r (fun h0 => hr (h0.trans hs))
            cases hPQ p' p hp' hx.1
            rw [Disk.place_store] at hpl'
            split at hpl'
            · rename_i q0 h0
              rw [if_pos h0] at hpl'
              cases hpl'
            · rename_i hnf
              exact absurd hpl' (hnf r)
          · obtain ⟨b1, b2, b3⟩ := Disk.entry_store hs
            refine ⟨b1, ⟨d.next, ?_⟩, p, hq, b2⟩
            rw [← b3]
            refine Classical.byContradiction fun h0 => ?_
            have := (a6 r h0).1
            rw [b3] at this
            cases this
      · exact absurd hn (by rw [hno]; exact (nomatch ·))

end Prog

namespace Api
open Spec

variable {hs : Hashes} {rest : Helper → Res Helper} {e : Env}

theorem callLinked_keeps {s : Session} {d : Disk} {c : Call} (h : Keeps s c) : callLinked hs rest e s d c = (do
    let r ← ((Steps.call hs rest e s c).linked d).1
    .ok (r, ((Steps.call hs rest e s c).linked d).2)) := by
  unfold callLinked
  split
  · rename_i hst
    rcases h with h | h
    · exact absurd rfl h
    · exact absurd hst h.1
  · rename_i hst
    rcases h with h | h
    · exact absurd rfl h
    · exact absurd hst h.2
  · rfl

theorem callLinked_delete {s : Session} {d : Disk} (h : s.state = .FILE_SELECTED ∨ s.state = .EMPTY_FILE_SELECTED) :
    callLinked hs rest e s d .deleteFile = Steps.deleteLinked e s d := by
  unfold callLinked
  rcases h with h | h <;> rw [h]

/-- what the accesses of a call make of a disk with links -/
theorem linked_call {s : Session} {d : Disk} {c : Call} (hd : Sound d) (h : Keeps s c) {x : Res (Ret × Session) × Disk}
    (hx : (Steps.call hs rest e s c).linked d = x) :
    x.1 = ((Steps.call hs rest e s c).eval d.view).1 ∧
      (∀ p, Meets s e c p → x.2.view p = ((Steps.call hs rest e s c).eval d.view).2 p) ∧ Sound x.2 ∧
      (∀ q r, (x.2.place q = x.2.place r ↔ d.place q = d.place r) ∧ (x.2.place q = none ↔ d.place q = none)) ∧
      (∀ q, (∀ p, Changes s c p → ¬ SameFile d p q) → x.2.view q = d.view q) ∧
      ∀ r, x.2.entry r ≠ d.entry r → d.entry r = .none ∧ (∃ i, x.2.entry r = .name i) ∧ ∃ p, Changes s c p ∧ d.place p = some (.free r) := by
  subst hx
  exact (call_meets (hs := hs) (rest := rest) (e := e) s c).linked (Steps.call_follows s c h)
    (fun _ _ hp hq => changes_one hp hq) (fs := d.view) hd fun _ _ => rfl

/-- only creating a file makes a path lead somewhere -/
theorem call_creates {w w' : World} {c : Call} {r : Ret} {p : Path} (h : call hs rest e w c = .ok (r, w')) (hp : w.fs p = .missing)
    (hp' : w'.fs p ≠ .missing) : c = .createFile p ∧ EncPath p := by
  by_cases ht : mayTouch w.api p (.call c e)
  case neg => exact absurd (((call_frame h).1 p ht).trans hp) hp'
  cases c <;> simp only [mayTouch] at ht
  case createFile q =>
    subst ht
    simp only [call] at h
    split at h
    · obtain ⟨⟨o, fs⟩, hc, h⟩ := Res.bind_eq_ok.mp h
      simp only [Res.ok.injEq, Prod.mk.injEq] at h
      obtain ⟨-, rfl⟩ := h
      rcases createFile_cases hc with ⟨rfl, -⟩ | ⟨-, he, -⟩
      · exact absurd hp hp'
      · exact ⟨rfl, he⟩
    · cases h; exact absurd hp hp'
  case deleteFile =>
    obtain ⟨f, hf, rfl⟩ := ht
    have key : ∀ o, deleteSelected e w = .ok (o, w') → False := by
      intro o ho
      rcases deleteSelected_cases ho with ⟨rfl, -⟩ | ⟨-, g, hg, -, -, hn, -⟩
      · exact hp' hp
      · cases hf.symm.trans hg
        exact hn hp
    simp only [call] at h
    split at h
    · obtain ⟨⟨o, w1⟩, hc, h⟩ := Res.bind_eq_ok.mp h
      cases h
      exact (key o hc).elim
    · obtain ⟨⟨o, w1⟩, hc, h⟩ := Res.bind_eq_ok.mp h
      cases h
      exact (key o hc).elim
    · cases h; exact absurd hp hp'
  case writeToFile =>
    obtain ⟨f, hf, rfl⟩ := ht
    simp only [call] at h
    split at h
    · obtain ⟨⟨o, w1⟩, hc, h⟩ := Res.bind_eq_ok.mp h
      cases h
      obtain ⟨g, hg, ⟨-, h1, -⟩ | ⟨-, -, ⟨c, h1⟩, -⟩⟩ := writeToSelected_cases hc
      · rw [h1] at hp'
        exact absurd hp hp'
      · cases hf.symm.trans hg
        cases hp.symm.trans h1
    · cases h; exact absurd hp hp'
  case writeToFileAt q =>
    subst ht
    simp only [call] at h
    split at h
    · obtain ⟨⟨o, w1⟩, hc, h⟩ := Res.bind_eq_ok.mp h
      cases h
      rcases writeToPath_cases hc with ⟨-, rfl⟩ | ⟨-, -, h1, -⟩
      · exact absurd hp hp'
      · cases hp.symm.trans h1
    · cases h; exact absurd hp hp'

end Api

namespace Disk
open Spec

theorem plain_place {d : Disk} (hd : Plain d) (p : Path) : d.place p = match d.entry p with
    | .name i => some (.file i)
    | .none => some (.free p)
    | _ => none := by
  unfold place follow
  rcases he : d.entry p with _ | _ | i | t
  · rfl
  · rfl
  · rfl
  · exact absurd he (hd.symbolic _ _)

theorem plain_same {d : Disk} (hd : Plain d) {p q : Path} (h : SameFile d p q) : q = p := by
  obtain ⟨h1, h2⟩ := h
  rw [plain_place hd, plain_place hd] at h1
  rw [plain_place hd] at h2
  rcases hp : d.entry p with _ | _ | i | t <;> rcases hq : d.entry q with _ | _ | j | u <;> simp only [hp, hq] at h1 h2
  · cases h1; rfl
  · cases h1
  · cases h1
  · cases h1
  · exact absurd rfl h2
  · exact absurd rfl h2
  · exact absurd rfl h2
  · exact absurd rfl h2
  · cases h1
  · cases h1
  · cases h1
    exact hd.hard _ _ _ hq hp
  · cases h1
  · exact absurd rfl h2
  · exact absurd rfl h2
  · exact absurd rfl h2
  · exact absurd rfl h2

theorem plain_store {d : Disk} (hd : Plain d) {p : Path} {c : List Byte} : Plain (d.store p (.file c)) := by
  refine ⟨sound_store hd.sound (nomatch ·), ?_, ?_, ?_⟩
  · intro r q h
    unfold store at h
    split at h
    · exact hd.symbolic _ _ h
    · exact hd.symbolic _ _ h
    · dsimp only at h
      split at h
      · cases h
      · exact hd.symbolic _ _ h
  · intro q r i h1 h2
    unfold store at h1 h2
    split at h1
    · rename_i h0
      simp only [h0] at h2
      exact hd.hard _ _ _ h1 h2
    · rename_i h0
      simp only [h0] at h2
      exact hd.hard _ _ _ h1 h2
    · rename_i t h0
      simp only [h0] at h2
      dsimp only at h1
      split at h1
      · rename_i hq
        cases h1
        split at h2
        · rename_i hr
          exact hq.trans hr.symm
        · exact absurd (hd.sound _ _ h2).1 (Nat.lt_irrefl _)
      · split at h2
        · cases h2
          exact absurd (hd.sound _ _ h1).1 (Nat.lt_irrefl _)
        · exact hd.hard _ _ _ h1 h2
  · intro r i h
    unfold store at h ⊢
    split at h
    · exact hd.there r i h
    · rename_i j h0
      show (∃ b, (if i = j then Node.file c else d.file i) = .file b) ∨ (if i = j then Node.file c else d.file i) = .dir
      by_cases hi : i = j
      · exact .inl ⟨c, if_pos hi⟩
      · rw [if_neg hi]
        exact hd.there r i h
    · show (∃ b, (if i = d.next then Node.file c else d.file i) = .file b) ∨ (if i = d.next then Node.file c else d.file i) = .dir
      by_cases hi : i = d.next
      · exact .inl ⟨c, if_pos hi⟩
      · rw [if_neg hi]
        dsimp only at h
        split at h
        · cases h
          exact absurd rfl hi
        · exact hd.there r i h

theorem plain_linked {α : Type} {x : Prog α} (hx : x.Follows) : ∀ {d : Disk}, Plain d → Plain (x.linked d).2 := by
  induction x with
  | done r => exact fun h => h
  | act p f k ih =>
    intro d hd
    simp only [Prog.linked]
    cases hn : f (d.view p) with
    | none => exact ih _ (hx.2 _) hd
    | some n =>
      obtain ⟨-, -, c, rfl⟩ := hx.1 _ _ hn
      exact ih _ (hx.2 _) (plain_store hd)

/-- the disk after a name was removed -/
def without (d : Disk) (p : Path) : Disk := { d with entry := fun r => if r = p then .none else d.entry r }

theorem plain_without {d : Disk} (hd : Plain d) (p : Path) : Plain (d.without p) := by
  have sub : ∀ q x, x ≠ Entry.none → (d.without p).entry q = x → d.entry q = x := by
    intro q x hx h
    unfold without at h
    dsimp only at h
    split at h
    · exact absurd h.symm hx
    · exact h
  exact ⟨fun q i h => hd.sound q i (sub q _ (nomatch ·) h), fun q r h => hd.symbolic q r (sub q _ (nomatch ·) h),
    fun q r i h1 h2 => hd.hard q r i (sub q _ (nomatch ·) h1) (sub r _ (nomatch ·) h2),
    fun q i h => hd.there q i (sub q _ (nomatch ·) h)⟩

theorem view_without {d : Disk} (hd : Plain d) (p : Path) : (d.without p).view = d.view.set p .missing := by
  funext q
  show (d.without p).at ((d.without p).place q) = if q = p then Node.missing else d.at (d.place q)
  rw [plain_place hd, plain_place (plain_without hd p)]
  by_cases hq : q = p
  · subst hq
    simp [without, «at»]
  · rw [if_neg hq]
    have : (d.without p).entry q = d.entry q := if_neg hq
    rw [this]
    rcases d.entry q with _ | _ | i | t <;> rfl

theorem plain_view {d : Disk} (hd : Plain d) (p : Path) : d.view p = match d.entry p with
    | .name i => d.file i
    | .none => .missing
    | _ => .unreachable := by
  unfold view
  rw [plain_place hd]
  rcases d.entry p with _ | _ | i | t <;> rfl

/-- removing a name, where every file has one, is removing the file -/
theorem plain_remove {d : Disk} (hd : Plain d) (e : Env) (p : Path) : d.view.remove e p = (do
    let (b, d') ← d.remove e p
    .ok (b, d'.view)) := by
  unfold FS.remove Disk.remove
  rw [plain_view hd]
  rcases he : d.entry p with _ | _ | i | t
  · rfl
  · rfl
  · rcases hd.there p i he with ⟨c, h⟩ | h <;> dsimp only <;> rw [h] <;> dsimp only <;> split
    · show _ = Res.ok (true, (d.without p).view)
      rw [view_without hd]
    · rfl
    · show _ = Res.ok (true, (d.without p).view)
      rw [view_without hd]
    · rfl
  · exact absurd he (hd.symbolic _ _)

theorem plain_removed {d d' : Disk} (hd : Plain d) {e : Env} {p : Path} {b : Bool} (h : d.remove e p = .ok (b, d')) : Plain d' := by
  unfold Disk.remove at h
  split at h
  · cases h; exact hd
  · cases h
  · split at h
    · cases h; exact plain_without hd p
    · cases h

end Disk

namespace Api
open Spec

variable {hs : Hashes} {rest : Helper → Res Helper} {e : Env}

/-- on a disk without links a call does what it does there -/
theorem plain_call {s : Session} {d : Disk} (hd : Plain d) (c : Call) :
    call hs rest e ⟨s, d.view⟩ c = (do
      let ((r, s'), d') ← callLinked hs rest e s d c
      .ok (r, ⟨s', d'.view⟩)) ∧
    ∀ a d', callLinked hs rest e s d c = .ok (a, d') → Plain d' := by
  by_cases hk : Keeps s c
  · obtain ⟨h1, h2, -, -, h5, -⟩ := linked_call (hs := hs) (rest := rest) (e := e) hd.sound hk rfl
    rw [callLinked_keeps hk]
    have hp := Disk.plain_linked (Steps.call_follows (hs := hs) (rest := rest) (e := e) s c hk) hd
    constructor
    · rw [h1]
      rcases hr : ((Steps.call hs rest e s c).eval d.view).1 with ⟨r, s'⟩ | y | y
      · have hc := call_of_eval hr
        rw [hc]
        simp only [Res.bind_ok]
        congr 3
        funext q
        by_cases hq : Changes s c q
        · exact (h2 q (changes_meets hq)).symm
        · have h0 : ¬ mayTouch s q (.call c e) := by
            intro ht
            refine hq ?_
            cases c <;> simp only [mayTouch] at ht
            case createFile => exact ht.symm
            case deleteFile => obtain ⟨f, hf, rfl⟩ := ht; exact ⟨f, hf, rfl⟩
            case writeToFile => obtain ⟨f, hf, rfl⟩ := ht; exact ⟨f, hf, rfl⟩
            case writeToFileAt => exact ht.symm
          rw [h5 q fun p hp hs => hq (by rw [Disk.plain_same hd hs]; exact hp)]
          exact (call_frame hc).1 q h0
      · rw [call_of_exn hr]; rfl
      · rw [call_of_fatal hr]; rfl
    · intro a d' h
      obtain ⟨r, -, h⟩ := Res.bind_eq_ok.mp h
      cases h
      exact hp
  · have hc : c = .deleteFile ∧ (s.state = .FILE_SELECTED ∨ s.state = .EMPTY_FILE_SELECTED) := by
      unfold Keeps at hk
      by_cases hc : c = .deleteFile
      · refine ⟨hc, ?_⟩
        by_cases h1 : s.state = .FILE_SELECTED
        · exact .inl h1
        · by_cases h2 : s.state = .EMPTY_FILE_SELECTED
          · exact .inr h2
          · exact absurd (.inr ⟨h1, h2⟩) hk
      · exact absurd (.inl hc) hk
    obtain ⟨rfl, hst⟩ := hc
    rw [callLinked_delete hst]
    have hcall : call hs rest e ⟨s, d.view⟩ .deleteFile = (do
        let (o, w) ← deleteSelected e ⟨s, d.view⟩
        .ok (.flag o, w)) := by
      rcases hst with h | h <;> simp only [call, h]
    rw [hcall]
    unfold deleteSelected Steps.deleteLinked
    dsimp only
    cases hsel : s.selected with
    | none => exact ⟨rfl, fun a d' h => by cases h⟩
    | some f =>
      simp only [deref, Res.bind_ok, Disk.plain_remove hd]
      rcases hr : d.remove e f.path with ⟨b, d'⟩ | y | y
      · have hp := Disk.plain_removed hd hr
        cases b
        · exact ⟨rfl, fun a d2 h => by cases h; exact hd⟩
        · exact ⟨rfl, fun a d2 h => by cases h; exact hp⟩
      · exact ⟨rfl, fun a d2 h => by cases h⟩
      · exact ⟨rfl, fun a d2 h => by cases h⟩

end Api
end Verif
