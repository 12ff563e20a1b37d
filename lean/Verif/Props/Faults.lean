import Verif.Lemmas.Faults
import Verif.Props.Vault

/- Properties of sessions in an imperfect world: C80. -/
namespace Verif.Props
open Spec Api

variable {hs : Hashes} {rest : Api.Helper → Res Api.Helper}

theorem stands_new {mode : Byte} {s0 : Session} (h0 : Api.new mode = .ok s0) {fs : FS} {s : Store} (hp : s.vault.phase = .idle)
    (hfs : ∀ p, EncPath p → Lies hs s p (fs p)) : Stands hs s ⟨s0, fs⟩ := by
  obtain ⟨-, rfl⟩ := new_mode h0
  refine ⟨⟨rfl, fun p he hf => (hfs p he).elim (fun h => absurd h.1 hf) (·.2), ?_⟩,
    fun p he hf => (hfs p he).elim (·.2) (fun h => absurd hf h.1)⟩
  rw [hp]
  rfl

/-! ### a concrete history with faults -/

/-- does the session still read the file? -/
def readsNow (s : Session) (p : Path) : Bool :=
  (s.state == .EMPTY_FILE_SELECTED || s.state == .FILE_SELECTED || s.state == .PASSWORD_VERIFIED) &&
  match s.selected with
  | some f => f.path == p
  | none => false

theorem readsNow_of {s : Session} {p : Path} (h : Reads s p) : readsNow s p = true := by
  obtain ⟨h1, f, h2, rfl⟩ := h
  unfold readsNow
  rcases h1 with h1 | h1 | h1 <;> simp [h1, h2]

/-- is the file that is being read left alone? -/
def leavesAlone (hs : Hashes) (rest : Api.Helper → Res Api.Helper) (w : World) : List Event → Bool
  | [] => true
  | .outside p n :: evs => !readsNow w.api p && leavesAlone hs rest ⟨w.api, w.fs.set p n⟩ evs
  | .call c e :: evs =>
    match Api.call hs rest e w c with
    | .ok (_, w') => leavesAlone hs rest w' evs
    | _ => true

theorem undisturbed_of : ∀ {evs : List Event} {w : World}, leavesAlone hs rest w evs = true → Undisturbed hs rest w evs
  | [], w, _ => by
    intro pre p n post rs w' h
    cases pre <;> cases h
  | .outside q m :: evs, w, h => by
    simp only [leavesAlone, Bool.and_eq_true, Bool.not_eq_true'] at h
    intro pre p n post rs w' hev hrun hp
    cases pre with
    | nil =>
      cases hev
      cases hrun
      intro hx
      rw [readsNow_of hx] at h
      cases h.1
    | cons x pre =>
      cases hev
      simp only [run, step, Res.bind_ok] at hrun
      obtain ⟨⟨r1, w1⟩, h1, h2⟩ := Res.bind_eq_ok.mp hrun
      cases h2
      exact undisturbed_of h.2 pre p n post _ _ rfl h1 hp
  | .call c e :: evs, w, h => by
    intro pre p n post rs w' hev hrun hp
    cases pre with
    | nil => cases hev
    | cons x pre =>
      cases hev
      simp only [run, step] at hrun
      obtain ⟨⟨r0, w0⟩, h0, hrun⟩ := Res.bind_eq_ok.mp hrun
      obtain ⟨⟨r1, w1⟩, h1, h2⟩ := Res.bind_eq_ok.mp hrun
      cases h2
      obtain ⟨⟨r3, w3⟩, h3, h4⟩ := Res.bind_eq_ok.mp h0
      cases h4
      simp only [leavesAlone, h3] at h
      exact undisturbed_of h pre p n post _ _ rfl h1 hp

/-- nothing may be read -/
def deafEnv : Env := { openEnv with canRead := fun _ => false }

/-- there is room for ten bytes -/
def tightEnv : Env := { openEnv with stored := 10 }

theorem openEnv_ordinary : Ordinary openEnv := ⟨fun _ => rfl, fun _ => rfl, .inl rfl, fun _ => Nat.succ_ne_zero 4095⟩

/-- A file is saved. Another program makes a directory with a name like a vault file and a text file. The directory is not
opened, nor the file while reading is forbidden. It is opened, but decrypting fails while reading is forbidden, then
succeeds. Another program deletes the file before it is saved again, then puts something else there; the save replaces that,
but the disk is full. Another program puts a complete file there. -/
def faultyHistory : List Event :=
  sampleSave ++
  [.outside (ascii "b.enc") .dir, .outside (ascii "notes.txt") (.file [1]), .call .logout openEnv,
   .call (.selectFile (ascii "b.enc")) openEnv, .call (.selectFile samplePath) deafEnv, .call (.selectFile samplePath) openEnv,
   .call (.verifyPassword samplePw 0) deafEnv, .call .getDecryptedData deafEnv, .call .getDecryptedData openEnv,
   .call (.encryptData (some ⟨some 1, some (Bytes.full (ascii "other"))⟩)) openEnv, .outside samplePath .missing,
   .call .writeToFile openEnv, .outside samplePath .dir, .call .writeToFile openEnv, .outside samplePath (.file []),
   .call .writeToFile tightEnv, .call .logout openEnv, .call (.selectFile samplePath) openEnv,
   .outside samplePath (.file smallVault), .call (.selectFile samplePath) openEnv]

theorem smallVault_harmless : Harmless smallVault := by
  have := harmless_take smallHeader_valid [9, 9, 9] (by decide) (by decide) (by decide) 1000
  rwa [List.take_of_length_le (by decide)] at this

theorem faultyHistory_fair : ∀ ev ∈ faultyHistory, Fair ev := by
  have e0 := openEnv_ordinary
  have e1 : Ordinary deafEnv := ⟨fun _ => rfl, fun _ => rfl, .inl rfl, fun _ => Nat.succ_ne_zero 4095⟩
  have e2 : Ordinary tightEnv := ⟨fun _ => rfl, fun _ => rfl, .inl rfl, fun _ => Nat.succ_ne_zero 4095⟩
  have hd : Careful (.createDataHeader samplePw sampleSettings 0) := ⟨usable_sample.built, usable_sample.full⟩
  have ht : ¬ EncPath (ascii "notes.txt") := fun h => absurd ((extension_iff _).mpr h) (by decide)
  simp only [faultyHistory, sampleSave, List.cons_append, List.nil_append, List.forall_mem_cons]
  exact ⟨⟨e0, trivial⟩, ⟨e0, trivial⟩, ⟨e0, hd⟩, ⟨e0, _, _, rfl, by decide⟩, ⟨e0, trivial⟩, fun _ => trivial,
    fun h => absurd h ht, ⟨e0, trivial⟩, ⟨e0, trivial⟩, ⟨e1, trivial⟩, ⟨e0, trivial⟩, ⟨e1, trivial⟩, ⟨e1, trivial⟩, ⟨e0, trivial⟩,
    ⟨e0, _, _, rfl, by decide⟩, fun _ => trivial, ⟨e0, trivial⟩, fun _ => trivial, ⟨e0, trivial⟩, fun _ => .inl rfl,
    ⟨e2, trivial⟩, ⟨e0, trivial⟩, ⟨e0, trivial⟩, fun _ => smallVault_harmless, ⟨e0, trivial⟩, by simp⟩

theorem faultyHistory_undisturbed :
    Undisturbed toyHashes noRest (freshWorld fun _ => .missing) faultyHistory :=
  undisturbed_of (by decide +kernel)

example : runIs faultyHistory (fun rs w => rs ==
    [some (.flag (.success true)), some (.flag (.success true)), some (.flag (.success true)), some (.flag (.success true)),
     some (.plain (.success ())), none, none, some .void, some (.flag (.fail .ERR_FILEHANDLER_CREATION)),
     some (.flag (.fail .ERR_FILE_NOT_OPEN)), some (.flag (.success true)), some (.flag (.success true)),
     some (.data (.fail .ERR)), some (.data (.success ⟨some 1, some (Bytes.full (ascii "hello"))⟩)), some (.flag (.success true)),
     none, some (.plain (.fail .ERR_FILE_NOT_FOUND)), none, some (.plain (.fail .ERR_FILE_NOT_OPEN)), none,
     some (.plain (.success ())), some .void, some (.flag (.fail .ERR_FILEHANDLER_CREATION)), none, some (.flag (.success true))] &&
    w.fs samplePath == .file smallVault && w.fs (ascii "notes.txt") == .file [1]) = true := by decide +kernel

/-- C80: from a new session, on any disk described by a store, every history in which the random source works, clocks stay in
range, files can be removed and arguments are sensible runs through, whatever may not be read, written or created, however
full the disk is and whatever other programs do to files that are not just being read. It gives answers the ideal vault with
faults gives, the disk holds what the store holds, and files of other kinds have been changed by other programs only. -/
theorem C80_ideal (mode : Byte) (s0 : Session) (h0 : Api.new mode = .ok s0) (fs : FS) (s : Store) (hp : s.vault.phase = .idle)
    (hfs : ∀ p, EncPath p → Lies hs s p (fs p)) (evs : List Event) (hevs : ∀ ev ∈ evs, Fair ev)
    (hu : Undisturbed hs rest ⟨s0, fs⟩ evs) :
    ∃ rs w s', Api.run hs rest ⟨s0, fs⟩ evs = .ok (rs, w) ∧ FRun hs (madeLocks hs) s evs rs s' ∧
      (∀ p, EncPath p → Lies hs s' p (w.fs p)) ∧ ∀ p, ¬ EncPath p → w.fs p = outsideOnly fs evs p := by
  obtain ⟨rs, w, s', h1, h2, h3, h4⟩ := fault_run (rest := rest) (stands_new h0 hp hfs) hevs hu
  exact ⟨rs, w, s', h1, h2, fun p hp => h3.lies hp, h4⟩

/-- C80: every disk on which the status of the `.enc` files can be determined and no file is one of those that kill the
process is described by some store. -/
theorem C80_described (fs : FS) (hfs : ∀ p, EncPath p → Tame (fs p)) :
    ∃ s : Store, s.vault.phase = .idle ∧ ∀ p, EncPath p → Lies hs s p (fs p) := by
  have key : ∀ p, ∃ sl : Slot, ∃ F : Prop, EncPath p → (F ∧ Stray (fs p)) ∨ (¬ F ∧ InSlot hs (fs p) sl) := by
    intro p
    rcases Classical.em (EncPath p) with hp | hp
    · rcases tame_cases (hs := hs) (hfs p hp) with h | ⟨sl, h⟩
      · exact ⟨.missing, True, fun _ => .inl ⟨trivial, h⟩⟩
      · exact ⟨sl, False, fun _ => .inr ⟨id, h⟩⟩
    · exact ⟨.missing, False, fun h => absurd h hp⟩
  exact ⟨⟨⟨fun p => (key p).choose, .idle⟩, fun p => (key p).choose_spec.choose⟩, rfl, fun p => (key p).choose_spec.choose_spec⟩

example : (∃ s : Store, s.vault.phase = .idle ∧ ∀ p, EncPath p → Lies toyHashes s p .missing) ∧
    (∀ ev ∈ faultyHistory, Fair ev) ∧ Undisturbed toyHashes noRest (freshWorld fun _ => .missing) faultyHistory :=
  ⟨C80_described _ fun _ _ => trivial, faultyHistory_fair, faultyHistory_undisturbed⟩

example : ∀ p, EncPath p → Tame
    ((fun p => if p = samplePath then .file smallVault else if p = ascii "b.enc" then .dir else .missing : FS) p) := by
  intro p _
  simp only
  split
  · exact smallVault_harmless
  · split <;> trivial

/-- C80: the faults are all there is: where the outside cooperates and the files of a call are the vault's own, the call is
one of the ideal vault. -/
theorem C80_faultless {locks : SettingsIters → List Byte → (List Byte → Prop) → Prop} {e : Env} {s s' : Store} {c : Call} {r : Ret}
    (h : FStep locks e s c r s') (he : Friendly e)
    (hq : ∀ q, Touches s.vault.phase c q → ¬ s.foreign q ∧ s.vault.slots q ≠ .missing ∨ ¬ s.foreign q ∧ c ≠ .writeToFile) :
    VStep locks s.vault c r s'.vault ∧ ∀ q, s'.foreign q ↔ s.foreign q :=
  h.friendly he fun q h => (hq q h).elim (fun h => ⟨h.1, fun _ => h.2⟩) (fun h => ⟨h.1, fun hc => absurd hc h.2⟩)

example : FStep (fun _ _ _ => True) tightEnv ⟨⟨fun _ => .empty, .ready samplePath (fun _ => True) [] [1]⟩, fun _ => False⟩ .writeToFile
    (.plain (.success ())) (Store.put ⟨⟨fun _ => .empty, .ready samplePath (fun _ => True) [] [1]⟩, fun _ => False⟩ samplePath .empty .done) :=
  .savedNothing rfl (.inl ⟨rfl, rfl, .inr (by simp)⟩) fun h => absurd h.room (by decide)

example : FStep (fun _ _ _ => True) openEnv ⟨⟨fun _ => .empty, .idle⟩, fun q => q = ascii "b.enc"⟩ (.selectFile samplePath)
    (.flag (.success true)) ⟨⟨fun _ => .empty, .chosen samplePath⟩, fun q => q = ascii "b.enc"⟩ ∧
    ∀ q, Touches .idle (.selectFile samplePath) q → q ≠ ascii "b.enc" := by
  have hp : EncPath samplePath := (extension_iff samplePath).mp (by decide)
  have hq : samplePath ≠ ascii "b.enc" := by decide
  exact ⟨.ideal (.select rfl hp (by simp)) (by rintro - q ⟨-, rfl⟩; exact ⟨hq, by simp⟩), by rintro q ⟨-, rfl⟩; exact hq⟩

/-! ### what was saved -/

theorem undisturbed_calls {w : World} {evs : List Event} (h : ∀ p n, Event.outside p n ∉ evs) : Undisturbed hs rest w evs := by
  intro pre p n post rs w' hev
  exact absurd (by rw [hev]; simp) (h p n)

/-- the outside cooperates in every respect -/
def Kind (e : Env) : Prop := Friendly e ∧ Ordinary e

theorem fair_kind {e : Env} (he : Kind e) {c : Call} (hc : Careful c) (hd : ∀ d, c ≠ .getRelevantFileNames d) : Fair (.call c e) := by
  cases c <;> first | exact ⟨he.2, hc⟩ | exact absurd rfl (hd _)

/-- one call in a world without faults -/
theorem kind_call {e : Env} (he : Kind e) {s : Store} {w : World} (hl : Stands hs s w) {c : Call} (hc : Careful c)
    (hd : ∀ d, c ≠ .getRelevantFileNames d)
    (hq : ∀ q, Touches s.vault.phase c q → ¬ s.foreign q ∧ (c = .writeToFile → s.vault.slots q ≠ .missing)) :
    ∃ r w' s', call hs rest e w c = .ok (r, w') ∧ VStep (madeLocks hs) s.vault c r s'.vault ∧ Stands hs s' w' ∧
      ∀ q, s'.foreign q ↔ s.foreign q := by
  obtain ⟨r, w', s', h1, h2, h3, -⟩ := fault_call (rest := rest) hl (fair_kind he hc hd)
  obtain ⟨h4, h5⟩ := h2.friendly he.1 hq
  exact ⟨r, w', s', h1, h4, h3, h5⟩

theorem kind_open {e : Nat → Env} (he : ∀ i, Kind (e i)) {s : Store} {w : World} (hl : Stands hs s w) {p : Path} (hp : EncPath p)
    {b : Box} (hb : s.vault.slots p = .box b) (hf : ¬ s.foreign p) {pw : List Byte} (ha : b.accepts pw) :
    ∃ r w', Api.run hs rest w [.call .logout (e 0), .call (.selectFile p) (e 1), .call (.verifyPassword pw 0) (e 2),
        .call .getDecryptedData (e 3)] =
      .ok ([some .void, some (.flag (.success true)), some (.flag (.success true)), some (.data (.success ⟨some 1, some r⟩))], w') ∧
      r.data = b.shows pw := by
  obtain ⟨r1, w1, s1, h1, k1, l1, f1⟩ := kind_call (rest := rest) (he 0) hl (c := .logout) trivial (by simp) (fun _ h => h.elim)
  obtain ⟨rfl, hv1⟩ := k1.at_logout
  have hb1 : s1.vault.slots p = .box b := by rw [hv1]; exact hb
  have hf1 : ¬ s1.foreign p := fun h => hf ((f1 p).mp h)
  obtain ⟨r2, w2, s2, h2, k2, l2, f2⟩ := kind_call (rest := rest) (he 1) l1 (c := .selectFile p) trivial (by simp)
    (by rintro q ⟨-, rfl⟩; exact ⟨hf1, by simp⟩)
  obtain ⟨rfl, hv2⟩ := k2.at_select (by rw [hv1]; rfl) hp (by rw [hb1]; simp)
  have hb2 : s2.vault.slots p = .box b := by rw [hv2]; exact hb1
  obtain ⟨r3, w3, s3, h3, k3, l3, f3⟩ := kind_call (rest := rest) (he 2) l2 (c := .verifyPassword pw 0) trivial (by simp) (fun _ h => h.elim)
  obtain ⟨rfl, hv3⟩ := k3.at_verify (by rw [hv2]; rfl) hb2 ha
  have hb3 : s3.vault.slots p = .box b := by rw [hv3]; exact hb2
  obtain ⟨r4, w4, s4, h4, k4, -, -⟩ := kind_call (rest := rest) (he 3) l3 (c := .getDecryptedData) trivial (by simp) (fun _ h => h.elim)
  obtain ⟨x, rfl, hx⟩ := k4.at_decrypt (by rw [hv3]; rfl) hb3
  exact ⟨x, w4, call_step h1 (call_step h2 (call_step h3 (call_step h4 rfl))), hx⟩

theorem kind_save {e : Nat → Env} (he : ∀ i, Kind (e i)) {s : Store} {w : World} (hl : Stands hs s w) {p : Path} (hp : EncPath p)
    (hph : s.vault.phase = .idle) (hb : s.vault.slots p = .empty) (hf : ¬ s.foreign p) {pw : List Byte} {ds : SettingsIters}
    (hds : Usable ds) {data : Bytes} (hdata : data.data.length < 2 ^ 31) :
    ∃ w' s' b, Api.run hs rest w [.call (.selectFile p) (e 0), .call (.createDataHeader pw ds 0) (e 1),
        .call (.encryptData (some ⟨some 1, some data⟩)) (e 2), .call .writeToFile (e 3)] =
      .ok ([some (.flag (.success true)), some (.flag (.success true)), some (.flag (.success true)),
        some (.plain (.success ()))], w') ∧ Stands hs s' w' ∧ s'.vault = s.vault.put p (.box b) .done ∧
      (∀ q, s'.foreign q ↔ s.foreign q) ∧ b.accepts pw ∧ b.shows pw = data.data := by
  obtain ⟨r1, w1, s1, h1, k1, l1, f1⟩ := kind_call (rest := rest) (he 0) hl (c := .selectFile p) trivial (by simp)
    (by rintro q ⟨-, rfl⟩; exact ⟨hf, by simp⟩)
  obtain ⟨rfl, hv1⟩ := k1.at_select hph hp (by rw [hb]; simp)
  have hb1 : s1.vault.slots p = .empty := by rw [hv1]; exact hb
  obtain ⟨r2, w2, s2, h2, k2, l2, f2⟩ := kind_call (rest := rest) (he 1) l1 (c := .createDataHeader pw ds 0) ⟨hds.built, hds.full⟩
    (by simp) (fun _ h => h.elim)
  obtain ⟨rfl, L, ⟨hd, -, hop, hL⟩, hv2⟩ := k2.at_header (by rw [hv1]; rfl) hb1 hds.complete ⟨hds.dec, hds.enc⟩
  obtain ⟨r3, w3, s3, h3, k3, l3, f3⟩ := kind_call (rest := rest) (he 2) l2 (c := .encryptData (some ⟨some 1, some data⟩))
    ⟨_, _, rfl, hdata⟩ (by simp) (fun _ h => h.elim)
  obtain ⟨rfl, hv3⟩ := k3.at_encrypt (by rw [hv2]; rfl)
  have hs3 : s3.vault.slots = s.vault.slots := by rw [hv3, hv2, hv1]; rfl
  have hph3 : s3.vault.phase = .ready p L pw data.data := by rw [hv3]; rfl
  have hf3 : ∀ q, s3.foreign q ↔ s.foreign q := fun q => ((f3 q).trans (f2 q)).trans (f1 q)
  obtain ⟨r4, w4, s4, h4, k4, l4, f4⟩ := kind_call (rest := rest) (he 3) l3 (c := .writeToFile) trivial (by simp) (by
    rintro q ⟨_, _, _, hq⟩
    rw [hph3] at hq
    cases hq
    refine ⟨fun h => hf ((hf3 p).mp h), fun _ => ?_⟩
    rw [hs3, hb]; simp)
  obtain ⟨rfl, b, hb1, hb2, hv4⟩ := k4.at_save hph3
  refine ⟨w4, s4, b, call_step h1 (call_step h2 (call_step h3 (call_step h4 rfl))), l4, ?_, fun q => (f4 q).trans (hf3 q),
    by rw [hb1]; exact (hL pw).mpr hop, hb2⟩
  rw [hv4]
  simp only [Vault.put, hs3]

/-- what a file is depends on its bytes only -/
theorem filed_unique {c : List Byte} {b b' : Box} (h : InSlot hs (.file c) (.box b)) (h' : InSlot hs (.file c) (.box b')) :
    (∀ x, b.accepts x ↔ b'.accepts x) ∧ ∀ x, b.shows x = b'.shows x := by
  generalize hn : Node.file c = n at h
  generalize hsl : Slot.box b = sl at h
  cases h with
  | missing => cases hsl
  | empty => cases hsl
  | @box h enc m _ hf =>
    cases hsl
    cases hn
    generalize hn : Node.file (h.bytes ++ enc) = n at h'
    generalize hsl : Slot.box b' = sl at h'
    cases h' with
    | missing => cases hsl
    | empty => cases hsl
    | @box h' enc' m' _ hf' =>
      cases hsl
      simp only [Node.file.injEq] at hn
      have e1 := select_ok (hs := hs) (e := openEnv) (w := freshWorld fun _ => .file (h.bytes ++ enc)) (p := samplePath)
        ((extension_iff samplePath).mp (by decide)) hf.valid hf.size rfl rfl rfl
      have e2 := select_ok (hs := hs) (e := openEnv) (w := freshWorld fun _ => .file (h.bytes ++ enc)) (p := samplePath)
        ((extension_iff samplePath).mp (by decide)) hf'.valid hf'.size (by rw [← hn]; rfl) rfl rfl
      rw [e1] at e2
      simp only [Res.ok.injEq, Prod.mk.injEq, World.mk.injEq, Session.mk.injEq, Option.some.injEq, true_and] at e2
      have hh : h = h' := by rw [← HeaderParse.contents_mkHeader hf.valid, ← HeaderParse.contents_mkHeader hf'.valid, e2.1.1]
      subst hh
      have he : enc = enc' := List.append_cancel_left hn
      subst he
      have hm : m = m' := by
        have := hf.mode.trans hf'.mode.symm
        revert this
        cases m <;> cases m' <;> decide
      subst hm
      exact ⟨fun x => (hf.accepts x).trans (hf'.accepts x).symm, fun x => dec_unique (hf.shows x) (hf'.shows x)⟩

/-- a file on the disk is in the store -/
theorem _root_.Verif.Api.Stands.same {s : Store} {w : World} (hl : Stands hs s w) {q : Path} (hq : EncPath q) {b : Box}
    (hin : InSlot hs (w.fs q) (.box b)) : ∃ b', s.vault.slots q = .box b' ∧ ¬ s.foreign q ∧ (∀ x, b'.accepts x ↔ b.accepts x) ∧
      ∀ x, b'.shows x = b.shows x := by
  have hl' := hl.lies hq
  generalize hn : w.fs q = n at hin hl'
  generalize hsl : Slot.box b = sl at hin
  cases hin with
  | missing => cases hsl
  | empty => cases hsl
  | @box h enc m _ hf =>
    cases hsl
    rcases hl' with ⟨-, -, -, hh⟩ | ⟨hf', hin⟩
    · exact absurd (filed_headed hf) hh
    · have : ∃ b', s.vault.slots q = .box b' := by
        generalize s.vault.slots q = sl at hin
        generalize hx : Node.file (h.bytes ++ enc) = n at hin
        cases hin with
        | missing => cases hx
        | empty =>
          have := (filed_length hf).2
          have hs' := hf.valid.size
          simp only [Node.file.injEq] at hx
          have := congrArg List.length hx
          simp only [List.length_append, List.length_nil, Header.length] at *
          omega
        | box _ => exact ⟨_, rfl⟩
      obtain ⟨b', hb'⟩ := this
      rw [hb'] at hin
      obtain ⟨h1, h2⟩ := filed_unique hin (.box hf)
      exact ⟨b', hb', hf', h1, h2⟩

/-- C80: what was saved under a password can be read wherever its bytes lie. A file is created in any history, given a header
and data and saved; then anything may happen, with faults and changes by other programs. If afterwards the bytes that were
saved lie under some `.enc` path, because they were never touched or copied there or put back from a backup, then the password
opens that file and shows the data. -/
theorem C80_backup (mode : Byte) (s0 : Session) (h0 : Api.new mode = .ok s0) (fs : FS) (hfs : ∀ p, EncPath p → Tame (fs p))
    (pre : List Event) (hpre : ∀ ev ∈ pre, Fair ev) (hu : Undisturbed hs rest ⟨s0, fs⟩ pre)
    (e : Nat → Env) (he : ∀ i, Kind (e i)) (p : Path) (pw : List Byte) (ds : SettingsIters) (hds : Usable ds) (data : Bytes)
    (hdata : data.data.length < 2 ^ 31) (rs : List (Option Ret)) (w : World)
    (hcr : Api.run hs rest ⟨s0, fs⟩ (pre ++ [.call .logout (e 0), .call (.createFile p) (e 1)]) =
      .ok (rs ++ [some .void, some (.flag (.success true))], w)) :
    ∃ w1, Api.run hs rest w
      [.call (.selectFile p) (e 2), .call (.createDataHeader pw ds 0) (e 3),
       .call (.encryptData (some ⟨some 1, some data⟩)) (e 4), .call .writeToFile (e 5)] =
      .ok ([some (.flag (.success true)), some (.flag (.success true)), some (.flag (.success true)),
        some (.plain (.success ()))], w1) ∧
      ∀ mid, (∀ ev ∈ mid, Fair ev) → Undisturbed hs rest w1 mid →
        ∃ rs2 w2, Api.run hs rest w1 mid = .ok (rs2, w2) ∧ ∀ q, EncPath q → w2.fs q = w1.fs p →
          ∃ r w3, Api.run hs rest w2 [.call .logout (e 6), .call (.selectFile q) (e 7), .call (.verifyPassword pw 0) (e 8),
              .call .getDecryptedData (e 9)] =
            .ok ([some .void, some (.flag (.success true)), some (.flag (.success true)),
              some (.data (.success ⟨some 1, some r⟩))], w3) ∧ r.data = data.data := by
  obtain ⟨s, hsi, hsl⟩ := C80_described (hs := hs) fs hfs
  obtain ⟨ra, wa, sa, g1, -, g3, -⟩ := fault_run (rest := rest) (stands_new h0 hsi hsl) hpre hu
  obtain ⟨r1, w1, s1, h1, k1, l1, f1⟩ := kind_call (rest := rest) (he 0) g3 (c := .logout) trivial (by simp) (fun _ h => h.elim)
  obtain ⟨rfl, hv1⟩ := k1.at_logout
  obtain ⟨r2, w2, s2, h2, k2, l2, -⟩ := fault_call (rest := rest) (c := .createFile p) l1 (fair_kind (he 1) trivial (by simp))
  have hrun := Api.run_append.mpr ⟨_, _, _, g1, call_step h1 (call_step h2 (evs := []) rfl), rfl⟩
  rw [hrun] at hcr
  simp only [Res.ok.injEq, Prod.mk.injEq] at hcr
  obtain ⟨hr, rfl⟩ := hcr
  have hlen : ra.length = rs.length := by
    have := congrArg List.length hr
    simpa using this
  obtain ⟨-, hab⟩ := List.append_inj hr hlen
  simp only [List.cons.injEq, Option.some.injEq, and_true, true_and] at hab
  subst hab
  -- a success cannot be a fault
  have hcre : EncPath p ∧ s2.vault = s1.vault.put p .empty .idle ∧ ¬ s2.foreign p := by
    generalize hcc : Call.createFile p = c at k2
    generalize hrr : (Ret.flag (.success true)) = r at k2
    cases k2 with
    | ideal h hq =>
      subst hcc hrr
      obtain ⟨a, b⟩ := h.at_create
      exact ⟨a, b, (hq (by rw [hv1]; trivial) p ⟨a, rfl⟩).1⟩
    | failed _ _ _ => subst hcc; cases hrr
    | savedNothing _ h _ => subst hcc; cases hrr
    | savedPart _ h _ => subst hcc; cases hrr
    | savedAll _ h _ _ => subst hcc; cases hrr
  obtain ⟨hp, hv2, hf2⟩ := hcre
  obtain ⟨w5, s5, b, h5, l5, hv5, f5, hacc, hsh⟩ := kind_save (rest := rest) (fun i => he (i + 2)) l2 hp (by rw [hv2]; rfl)
    (by rw [hv2]; simp [Vault.put]) hf2 (pw := pw) hds hdata
  refine ⟨w5, h5, fun mid hm hum => ?_⟩
  obtain ⟨rs6, w6, s6, m1, -, l6, -⟩ := fault_run (rest := rest) l5 hm hum
  refine ⟨rs6, w6, m1, fun q hq hqp => ?_⟩
  have hin : InSlot hs (w5.fs p) (.box b) := by
    have := l5.linked.disk p hp (fun h => hf2 ((f5 p).mp h))
    rw [hv5] at this
    simpa [Vault.put] using this
  obtain ⟨b', h6, hf6, ha6, hs6⟩ := l6.same hq (by rw [hqp]; exact hin)
  obtain ⟨r, w7, h7, hr7⟩ := kind_open (rest := rest) (fun i => he (i + 6)) l6 hq h6 hf6 ((ha6 pw).mpr hacc)
  exact ⟨r, w7, h7, by rw [hr7, hs6, hsh]⟩

/-- what the first save in the history writes -/
def savedBytes : List Byte :=
  match Api.run toyHashes noRest (freshWorld fun _ => .missing) sampleSave with
  | .ok (_, w) => match w.fs samplePath with
    | .file c => c
    | _ => []
  | _ => []

/-- the file is copied, lost and put back -/
def backupHistory : List Event :=
  sampleSave ++ [.outside (ascii "c.enc") (.file savedBytes), .call .logout openEnv, .call (.selectFile samplePath) openEnv,
    .call .deleteFile openEnv, .outside samplePath (.file savedBytes)] ++ sampleOpen ++
  [.call .logout openEnv, .call (.selectFile (ascii "c.enc")) openEnv, .call (.verifyPassword samplePw 0) openEnv,
   .call .getDecryptedData openEnv]

example : leavesAlone toyHashes noRest (freshWorld fun _ => .missing) backupHistory = true ∧
    runIs backupHistory (fun rs _ => rs ==
    [some (.flag (.success true)), some (.flag (.success true)), some (.flag (.success true)), some (.flag (.success true)),
     some (.plain (.success ())), none, some .void, some (.flag (.success true)), some (.flag (.success true)), none,
     some .void, some (.flag (.success true)), some (.flag (.success true)),
     some (.data (.success ⟨some 1, some (Bytes.full (ascii "hello"))⟩)),
     some .void, some (.flag (.success true)), some (.flag (.success true)),
     some (.data (.success ⟨some 1, some (Bytes.full (ascii "hello"))⟩))]) = true := by
  constructor <;> decide +kernel

example : (∀ ev ∈ faultyHistory, Fair ev) ∧ Undisturbed toyHashes noRest (freshWorld fun _ => .missing) faultyHistory ∧ Kind openEnv ∧
    Usable sampleSettings ∧ runIs (faultyHistory ++ [.call .logout openEnv, .call (.createFile (ascii "c.enc")) openEnv])
      (fun rs _ => rs.drop 25 == [some .void, some (.flag (.success true))]) = true :=
  ⟨faultyHistory_fair, faultyHistory_undisturbed, ⟨openEnv_friendly, openEnv_ordinary⟩, usable_sample, by decide +kernel⟩

/-- C80: what was saved stays. In any history with faults and changes by other programs, a file with a complete header keeps its
bytes as long as other programs leave it alone and either it is never selected, or nothing is deleted and nothing is saved to
the selected file. -/
theorem C80_durable (mode : Byte) (s0 : Session) (h0 : Api.new mode = .ok s0) (fs : FS) (hfs : ∀ p, EncPath p → Tame (fs p))
    (pre : List Event) (hpre : ∀ ev ∈ pre, Fair ev) (hu : Undisturbed hs rest ⟨s0, fs⟩ pre) (rs : List (Option Ret)) (w : World)
    (hrun : Api.run hs rest ⟨s0, fs⟩ pre = .ok (rs, w)) (p : Path) (hp : EncPath p) (c : List Byte) (hc : w.fs p = .file c)
    (hh : Headed 1 c) (mid : List Event) (hmid : ∀ ev ∈ mid, Fair ev) (hum : Undisturbed hs rest w mid)
    (ho : ∀ n, Event.outside p n ∉ mid)
    (hkeep : ((∀ f, w.api.selected = some f → f.path ≠ p) ∧ ∀ e, Event.call (.selectFile p) e ∉ mid) ∨
      ∀ e, Event.call .deleteFile e ∉ mid ∧ Event.call .writeToFile e ∉ mid) :
    ∃ rs2 w2, Api.run hs rest w mid = .ok (rs2, w2) ∧ w2.fs p = .file c := by
  obtain ⟨s, hsi, hsl⟩ := C80_described (hs := hs) fs hfs
  obtain ⟨ra, wa, sa, g1, -, g3, -⟩ := fault_run (rest := rest) (stands_new h0 hsi hsl) hpre hu
  rw [hrun] at g1
  cases g1
  obtain ⟨rs2, w2, s2, k1, k2, k3, -⟩ := fault_run (rest := rest) g3 hmid hum
  have ht := g3.tame hp
  rw [hc] at ht
  obtain ⟨b0, hb0⟩ := headed_filed (hs := hs) ht hh
  obtain ⟨b, hb, hf, -, -⟩ := g3.same hp (by rw [hc]; exact hb0)
  obtain ⟨h1, h2⟩ := k2.keep hb hf ho (hkeep.imp (fun h => ⟨fun hx => by
    obtain ⟨f, h3, h4⟩ := path_of g3 hx
    exact h.1 f h3 h4, h.2⟩) id)
  have d1 := g3.linked.disk p hp hf
  have d2 := k3.linked.disk p hp h2
  rw [hb] at d1
  rw [h1] at d2
  have raw : ∀ {n : Node}, InSlot hs n (.box b) → n = .file b.raw := by
    intro n h
    generalize hsl : Slot.box b = sl at h
    cases h with
    | missing => cases hsl
    | empty => cases hsl
    | box hf => cases hsl; rw [hf.raw]
  exact ⟨rs2, w2, k1, by rw [raw d2, ← raw d1, hc]⟩

example : (∀ ev ∈ faultyHistory, Fair ev) ∧ Headed 1 smallVault ∧ runIs faultyHistory (fun _ w => w.fs samplePath == .file smallVault) = true ∧
    let mid : List Event := [.call .logout openEnv, .outside (ascii "b.enc") .missing, .call (.createFile (ascii "b.enc")) openEnv,
      .call (.selectFile samplePath) openEnv, .call (.verifyPassword samplePw 0) deafEnv]
    (∀ n, Event.outside samplePath n ∉ mid) ∧ (∀ e, Event.call .deleteFile e ∉ mid ∧ Event.call .writeToFile e ∉ mid) := by
  refine ⟨faultyHistory_fair, smallVault_headed, by decide +kernel, ?_, ?_⟩
  · have : samplePath ≠ ascii "b.enc" := by decide
    simp [this]
  · simp

end Verif.Props
