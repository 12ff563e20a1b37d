import Verif.Lemmas.Sharing
import Verif.Props.Faults

/- Several sessions that share files: C81, C82. -/
namespace Verif.Props
open Spec Api

variable {hs : Hashes} {rest : Api.Helper → Res Api.Helper}

theorem standsAll_new {w : Many} (hnew : ∀ i, ∃ mode, Api.new mode = .ok (w.api i)) {m : Pool} (hp : ∀ i, m.phase i = .idle)
    (hfs : ∀ i p, EncPath p → Lies hs (m.of i) p (w.fs p)) : StandsAll hs m w := by
  intro i
  obtain ⟨mode, h⟩ := hnew i
  exact stands_new h (hp i) (hfs i)

/-- C81: new sessions, as many as one likes, on any disk described by a pool. Every history of their calls, in any order, and
of changes by other programs, in which the random source works, clocks stay in range, files can be removed, arguments are sensible
and nobody is about to replace or remove a file that another session is reading, runs through, with answers that sessions on
one ideal vault with faults get. In the end the disk holds what the pool holds, and files of other kinds have been changed by
other programs only. -/
theorem C81_ideal (w : Many) (hnew : ∀ i, ∃ mode, Api.new mode = .ok (w.api i)) (m : Pool) (hp : ∀ i, m.phase i = .idle)
    (hfs : ∀ i p, EncPath p → Lies hs (m.of i) p (w.fs p)) (evs : List ManyEvent) (hevs : ∀ ev ∈ evs, FairMany ev)
    (hu : Polite hs rest w evs) :
    ∃ rs w' m', Api.runMany hs rest w evs = .ok (rs, w') ∧ PRun hs (madeLocks hs) m evs rs m' ∧
      (∀ i p, EncPath p → Lies hs (m'.of i) p (w'.fs p)) ∧ ∀ p, ¬ EncPath p → w'.fs p = outsideOnlyMany w.fs evs p := by
  obtain ⟨rs, w', m', h1, h2, h3, h4⟩ := share_run (rest := rest) (standsAll_new hnew hp hfs) hevs hu
  exact ⟨rs, w', m', h1, h2, fun i p hp => (h3 i).lies hp, h4⟩

/-- C81: every disk on which the status of the `.enc` files can be determined and no file is one of those that kill the
process is described by some pool. -/
theorem C81_described (fs : FS) (hfs : ∀ p, EncPath p → Tame (fs p)) :
    ∃ m : Pool, (∀ i, m.phase i = .idle) ∧ ∀ i p, EncPath p → Lies hs (m.of i) p (fs p) := by
  obtain ⟨s, -, h⟩ := C80_described (hs := hs) fs hfs
  exact ⟨⟨s.vault.slots, s.foreign, fun _ => .idle⟩, fun _ => rfl, fun _ => h⟩

/-! ### a concrete history of three sessions -/

/-- the paths a step is about to change -/
def targets (m : Many) : ManyEvent → List Path
  | .call i .deleteFile _ | .call i .writeToFile _ => ((m.api i).selected.map FileHandler.path).toList
  | .call _ (.writeToFileAt q) _ => if m.fs q = .file [] then [q] else []
  | .call _ _ _ => []
  | .outside q _ => [q]

theorem targets_of {m : Many} {ev : ManyEvent} {p : Path} (h : Aims m ev p) : p ∈ targets m ev := by
  cases ev with
  | outside q n =>
    cases h
    exact List.mem_singleton.mpr rfl
  | call i c e =>
    cases c <;> first
      | exact h.elim
      | (obtain ⟨f, h1, rfl⟩ := h; simp [targets, h1]; done)
      | (obtain ⟨rfl, h1⟩ := h; simp [targets, h1])

/-- does each step leave the files alone that others among the first `n` sessions are reading? -/
def politeNow (hs : Hashes) (rest : Api.Helper → Res Api.Helper) (n : Nat) (m : Many) : List ManyEvent → Bool
  | [] => true
  | ev :: evs =>
    ((targets m ev).all fun p => (List.range n).all fun j => decide (ManyEvent.who ev = some j) || !readsNow (m.api j) p) &&
    (match ev with
      | .call i _ _ => decide (i < n)
      | .outside _ _ => true) &&
    match Api.stepMany hs rest m ev with
    | .ok (_, m1) => politeNow hs rest n m1 evs
    | _ => true

theorem polite_of {n : Nat} : ∀ {evs : List ManyEvent} {m : Many}, (∀ j, n ≤ j → (m.api j).state = .INIT) →
    politeNow hs rest n m evs = true → Polite hs rest m evs
  | [], m, _, _ => by
    intro pre ev post rs m1 h
    cases pre <;> cases h
  | x :: evs, m, hn, h => by
    simp only [politeNow, Bool.and_eq_true] at h
    obtain ⟨⟨h1, h2⟩, h3⟩ := h
    intro pre ev post rs m1 hev hrun p hp ha j hj hrd
    cases pre with
    | nil =>
      cases hev
      cases hrun
      by_cases hjn : j < n
      · have := List.all_eq_true.mp (List.all_eq_true.mp h1 p (targets_of ha)) j (List.mem_range.mpr hjn)
        simp [hj, readsNow_of hrd] at this
      · obtain ⟨hst, -⟩ := hrd
        rw [hn j (by omega)] at hst
        simp at hst
    | cons y pre =>
      cases hev
      simp only [Api.runMany] at hrun
      obtain ⟨⟨r0, m0⟩, h0, hrun⟩ := Res.bind_eq_ok.mp hrun
      obtain ⟨⟨r5, m5⟩, h5, hrun⟩ := Res.bind_eq_ok.mp hrun
      cases hrun
      rw [h0] at h3
      refine polite_of (n := n) ?_ h3 pre ev post r5 _ rfl h5 p hp ha j hj hrd
      intro j hj
      cases x with
      | outside q nd =>
        cases h0
        exact hn j hj
      | call i c e =>
        simp only [Api.stepMany] at h0
        obtain ⟨⟨r6, m6⟩, h6, h0⟩ := Res.bind_eq_ok.mp h0
        cases h0
        have : i < n := of_decide_eq_true h2
        simp only [Many.after]
        rw [if_neg (by omega)]
        exact hn j hj

/-- new sessions on a disk -/
def freshMany (fs : FS) : Many := ⟨fun _ => (freshWorld fs).api, fs⟩

/-- does the run end like this? -/
def manyIs (w : Many) (evs : List ManyEvent) (ok : List (Option (Nat × Ret)) → Many → Bool) : Bool :=
  match Api.runMany toyHashes noRest w evs with
  | .ok (rs, m) => ok rs m
  | _ => false

def oneHello : Bytes := Bytes.full (ascii "hello")
def oneWorld : Bytes := Bytes.full (ascii "world")

/-- Session 0 creates a file. Sessions 1 and 2 select it while it is empty; session 2 lets it go. Session 1 gives it a header;
session 0 opens a file that is not there; session 1 encrypts data, and the disk is full when it saves. Another program
makes a directory. Session 1 saves again, after giving it a header again. Session 2 opens it with a wrong and with the right
password, while session 0 opens it too. Session 2 deletes nothing, for it is too late; it saves other data. -/
def sharedHistory : List ManyEvent :=
  [.call 0 (.createFile samplePath) openEnv, .call 1 (.selectFile samplePath) openEnv, .call 2 (.selectFile samplePath) openEnv,
   .call 2 .unselectFile openEnv, .call 1 (.createDataHeader samplePw sampleSettings 0) openEnv,
   .call 0 (.selectFile (ascii "b.enc")) openEnv, .call 1 (.encryptData (some ⟨some 1, some oneHello⟩)) openEnv,
   .call 1 .writeToFile tightEnv, .outside (ascii "b.enc") .dir, .call 2 (.selectFile samplePath) openEnv,
   .call 1 .logout openEnv, .outside samplePath (.file []), .call 1 (.selectFile samplePath) openEnv,
   .call 1 (.createDataHeader samplePw sampleSettings 0) openEnv, .call 1 (.encryptData (some ⟨some 1, some oneHello⟩)) openEnv,
   .call 1 .writeToFile openEnv, .call 2 (.selectFile samplePath) openEnv, .call 2 (.verifyPassword (ascii "wrong!!!") 0) openEnv,
   .call 2 (.verifyPassword samplePw 0) openEnv, .call 0 (.selectFile samplePath) openEnv,
   .call 2 .getDecryptedData openEnv, .call 0 (.verifyPassword samplePw 0) deafEnv, .call 0 .getDecryptedData deafEnv,
   .call 0 .getDecryptedData openEnv, .call 2 .deleteFile openEnv, .call 2 (.encryptData (some ⟨some 1, some oneWorld⟩)) openEnv,
   .call 2 .writeToFile openEnv]

theorem freshMany_new (fs : FS) : ∀ i, ∃ mode, Api.new mode = .ok ((freshMany fs).api i) := fun _ => ⟨1, rfl⟩

theorem sharedHistory_polite : Polite toyHashes noRest (freshMany fun _ => .missing) sharedHistory :=
  polite_of (n := 3) (fun _ _ => rfl) (by decide +kernel)

theorem sharedHistory_fair : ∀ ev ∈ sharedHistory, FairMany ev := by
  have e0 := openEnv_ordinary
  have e1 : Ordinary deafEnv := ⟨fun _ => rfl, fun _ => rfl, .inl rfl, fun _ => Nat.succ_ne_zero 4095⟩
  have e2 : Ordinary tightEnv := ⟨fun _ => rfl, fun _ => rfl, .inl rfl, fun _ => Nat.succ_ne_zero 4095⟩
  have hd : Careful (.createDataHeader samplePw sampleSettings 0) := ⟨usable_sample.built, usable_sample.full⟩
  simp only [sharedHistory, List.forall_mem_cons]
  exact ⟨⟨e0, trivial⟩, ⟨e0, trivial⟩, ⟨e0, trivial⟩, ⟨e0, trivial⟩, ⟨e0, hd⟩, ⟨e0, trivial⟩, ⟨e0, _, _, rfl, by decide⟩,
    ⟨e2, trivial⟩, fun _ => trivial, ⟨e0, trivial⟩, ⟨e0, trivial⟩, fun _ => .inl rfl, ⟨e0, trivial⟩, ⟨e0, hd⟩,
    ⟨e0, _, _, rfl, by decide⟩, ⟨e0, trivial⟩, ⟨e0, trivial⟩, ⟨e0, trivial⟩, ⟨e0, trivial⟩, ⟨e0, trivial⟩, ⟨e0, trivial⟩,
    ⟨e1, trivial⟩, ⟨e1, trivial⟩, ⟨e0, trivial⟩, ⟨e0, trivial⟩, ⟨e0, _, _, rfl, by decide⟩, ⟨e0, trivial⟩, by simp⟩

/-- the hypotheses of the theorem hold, and these are the answers -/
example : (∀ i, ∃ mode, Api.new mode = .ok ((freshMany fun _ => .missing).api i)) ∧
    (∃ m : Pool, (∀ i, m.phase i = .idle) ∧ ∀ i p, EncPath p → Lies toyHashes (m.of i) p .missing) ∧
    (∀ ev ∈ sharedHistory, FairMany ev) ∧ Polite toyHashes noRest (freshMany fun _ => .missing) sharedHistory ∧
    manyIs (freshMany fun _ => .missing) sharedHistory (fun rs _ => rs ==
      [some (0, .flag (.success true)), some (1, .flag (.success true)), some (2, .flag (.success true)),
       some (2, .flag (.success true)), some (1, .flag (.success true)), some (0, .flag (.fail .ERR_FILE_NOT_FOUND)),
       some (1, .flag (.success true)), some (1, .plain (.success ())), none, some (2, .flag (.fail .ERR_FILEHANDLER_CREATION)),
       some (1, .void), none, some (1, .flag (.success true)), some (1, .flag (.success true)), some (1, .flag (.success true)),
       some (1, .plain (.success ())), some (2, .flag (.success true)), some (2, .flag (.fail .ERR_PASSWORD_INVALID)),
       some (2, .flag (.success true)), some (0, .flag (.success true)), some (2, .data (.success ⟨some 1, some oneHello⟩)),
       some (0, .flag (.success true)), some (0, .data (.fail .ERR)), some (0, .data (.success ⟨some 1, some oneHello⟩)),
       some (2, .flag (.fail .ERR_API_STATE_INVALID)), some (2, .flag (.success true)), some (2, .plain (.success ()))]) = true :=
  ⟨freshMany_new _, C81_described _ fun _ _ => trivial, sharedHistory_fair, sharedHistory_polite, by decide +kernel⟩

/-! ### sessions in a world without faults -/

theorem kind_share {e : Env} (he : Kind e) {m : Pool} {w : Many} (hl : StandsAll hs m w) (i : Nat) {c : Call} (hc : Careful c)
    (hd : ∀ d, c ≠ .getRelevantFileNames d)
    (hq : ∀ q, Touches (m.phase i) c q → ¬ m.foreign q ∧ (c = .writeToFile → m.slots q ≠ .missing))
    (ha : ∀ p, EncPath p → Aims w (.call i c e) p → ∀ j, j ≠ i → (m.phase j).reads ≠ some p) :
    ∃ r w1 m1, stepMany hs rest w (.call i c e) = .ok (some (i, r), w1) ∧
      VStep (madeLocks hs) (m.of i).vault c r (m1.of i).vault ∧ StandsAll hs m1 w1 ∧ (∀ q, m1.foreign q ↔ m.foreign q) ∧
      ∀ j, j ≠ i → m1.phase j = m.phase j := by
  obtain ⟨r, w1, s1, h1, h2, h3, h4, h5⟩ := share_call (rest := rest) hl (fair_kind he hc hd)
    (fun p hp hx j hj hr => ha p hp hx j hj (reads_back (hl j) hr))
  obtain ⟨k1, k2⟩ := h2.friendly he.1 hq
  refine ⟨r, w1, m.after i s1, h1, ?_, h4, k2, fun j hj => by simp [Pool.after, hj]⟩
  rw [Pool.of_after_same]
  exact k1

theorem goto_eq {m m1 : Pool} {i : Nat} {ph : Phase} (h : (m1.of i).vault = (m.of i).vault.goto ph) :
    m1.slots = m.slots ∧ m1.phase i = ph := by
  simp only [Pool.of, Vault.goto, Vault.mk.injEq] at h
  exact h

theorem put_eq {m m1 : Pool} {i : Nat} {p : Path} {sl : Slot} {ph : Phase} (h : (m1.of i).vault = (m.of i).vault.put p sl ph) :
    (m1.slots = fun q => if q = p then sl else m.slots q) ∧ m1.phase i = ph := by
  simp only [Pool.of, Vault.put, Vault.mk.injEq] at h
  exact h

/-- opening a file with its password -/
def openBy (e : Nat → Env) (j : Nat) (p : Path) (pw : List Byte) : List ManyEvent :=
  [.call j .logout (e 0), .call j (.selectFile p) (e 1), .call j (.verifyPassword pw 0) (e 2), .call j .getDecryptedData (e 3)]

/-- the answers when it succeeds -/
def openedBy (j : Nat) (r : Bytes) : List (Option (Nat × Ret)) :=
  [some (j, .void), some (j, .flag (.success true)), some (j, .flag (.success true)), some (j, .data (.success ⟨some 1, some r⟩))]

theorem share_open {e : Nat → Env} (he : ∀ i, Kind (e i)) {m : Pool} {w : Many} (hl : StandsAll hs m w) (j : Nat) {p : Path}
    (hp : EncPath p) {b : Box} (hb : m.slots p = .box b) (hf : ¬ m.foreign p) {pw : List Byte} (ha : b.accepts pw) :
    ∃ r w1 m1, Api.runMany hs rest w (openBy e j p pw) = .ok (openedBy j r, w1) ∧ r.data = b.shows pw ∧ StandsAll hs m1 w1 ∧
      m1.slots = m.slots ∧ (∀ q, m1.foreign q ↔ m.foreign q) ∧ m1.phase j = .opened p b.accepts pw false ∧
      ∀ k, k ≠ j → m1.phase k = m.phase k := by
  obtain ⟨r1, w1, m1, h1, k1, l1, f1, g1⟩ := kind_share (rest := rest) (he 0) hl j (c := .logout) trivial (by simp)
    (fun _ h => h.elim) (fun _ _ h => h.elim)
  obtain ⟨rfl, hv1⟩ := k1.at_logout
  obtain ⟨hs1, hp1⟩ := goto_eq hv1
  obtain ⟨r2, w2, m2, h2, k2, l2, f2, g2⟩ := kind_share (rest := rest) (he 1) l1 j (c := .selectFile p) trivial (by simp)
    (by rintro q ⟨-, rfl⟩; exact ⟨fun h => hf ((f1 _).mp h), by simp⟩) (fun _ _ h => h.elim)
  obtain ⟨rfl, hv2⟩ := k2.at_select hp1 hp (by show m1.slots p ≠ _; rw [hs1, hb]; simp)
  obtain ⟨hs2, hp2⟩ := goto_eq hv2
  obtain ⟨r3, w3, m3, h3, k3, l3, f3, g3⟩ := kind_share (rest := rest) (he 2) l2 j (c := .verifyPassword pw 0) trivial (by simp)
    (fun _ h => h.elim) (fun _ _ h => h.elim)
  obtain ⟨rfl, hv3⟩ := k3.at_verify hp2 (by show m2.slots p = _; rw [hs2, hs1, hb]) ha
  obtain ⟨hs3, hp3⟩ := goto_eq hv3
  obtain ⟨r4, w4, m4, h4, k4, l4, f4, g4⟩ := kind_share (rest := rest) (he 3) l3 j (c := .getDecryptedData) trivial (by simp)
    (fun _ h => h.elim) (fun _ _ h => h.elim)
  obtain ⟨x, rfl, hx, hv4⟩ := k4.opens (b := b) hp3 (by show m3.slots p = _; rw [hs3, hs2, hs1, hb])
  obtain ⟨hs4, hp4⟩ := goto_eq hv4
  refine ⟨x, w4, m4, stepMany_run h1 (stepMany_run h2 (stepMany_run h3 (stepMany_run h4 rfl))), hx, l4,
    by rw [hs4, hs3, hs2, hs1], fun q => (((f4 q).trans (f3 q)).trans (f2 q)).trans (f1 q), hp4, fun k hk => ?_⟩
  rw [g4 k hk, g3 k hk, g2 k hk, g1 k hk]

theorem share_edit {e : Env} (he : Kind e) {m : Pool} {w : Many} (hl : StandsAll hs m w) (j : Nat) {p : Path}
    {L : List Byte → Prop} {pw : List Byte} {fresh : Bool} (hph : m.phase j = .opened p L pw fresh) {data : Bytes}
    (hd : data.data.length < 2 ^ 31) :
    ∃ w1 m1, stepMany hs rest w (.call j (.encryptData (some ⟨some 1, some data⟩)) e) = .ok (some (j, .flag (.success true)), w1) ∧
      StandsAll hs m1 w1 ∧ m1.slots = m.slots ∧ (∀ q, m1.foreign q ↔ m.foreign q) ∧ m1.phase j = .ready p L pw data.data ∧
      ∀ k, k ≠ j → m1.phase k = m.phase k := by
  obtain ⟨r1, w1, m1, h1, k1, l1, f1, g1⟩ := kind_share (rest := rest) he hl j (c := .encryptData (some ⟨some 1, some data⟩))
    ⟨_, _, rfl, hd⟩ (by simp) (fun _ h => h.elim) (fun _ _ h => h.elim)
  obtain ⟨rfl, hv1⟩ := k1.at_encrypt hph
  obtain ⟨hs1, hp1⟩ := goto_eq hv1
  exact ⟨w1, m1, h1, l1, hs1, f1, hp1, g1⟩

theorem share_write {e : Env} (he : Kind e) {m : Pool} {w : Many} (hl : StandsAll hs m w) (j : Nat) {p : Path}
    {L : List Byte → Prop} {pw data : List Byte} (hph : m.phase j = .ready p L pw data) (hb : m.slots p ≠ .missing)
    (hf : ¬ m.foreign p) (hr : ∀ k, k ≠ j → (m.phase k).reads ≠ some p) :
    ∃ b w1 m1, stepMany hs rest w (.call j .writeToFile e) = .ok (some (j, .plain (.success ())), w1) ∧
      StandsAll hs m1 w1 ∧ (m1.slots = fun q => if q = p then .box b else m.slots q) ∧ (∀ q, m1.foreign q ↔ m.foreign q) ∧
      m1.phase j = .done ∧ (∀ k, k ≠ j → m1.phase k = m.phase k) ∧ b.accepts = L ∧ b.shows pw = data := by
  obtain ⟨r1, w1, m1, h1, k1, l1, f1, g1⟩ := kind_share (rest := rest) he hl j (c := .writeToFile) trivial (by simp)
    (by
      rintro q ⟨_, _, _, hq⟩
      rw [hph] at hq
      cases hq
      exact ⟨hf, fun _ => hb⟩)
    (by
      rintro q - ⟨f, hsel, rfl⟩ k hk hx
      obtain ⟨f', hf1, hf2⟩ := path_of (p := p) (hl j) (by show (m.phase j).path = _; rw [hph]; rfl)
      have : f = f' := by
        have := hf1
        simp only [Many.of] at this
        rw [hsel] at this
        cases this
        rfl
      subst this
      exact hr k hk (by rw [← hf2]; exact hx))
  obtain ⟨rfl, b, hb1, hb2, hv1⟩ := k1.at_save hph
  obtain ⟨hs1, hp1⟩ := put_eq hv1
  exact ⟨b, w1, m1, h1, l1, hs1, f1, hp1, g1, hb1, hb2⟩

/-- a new file with a header and data -/
def saveBy (e : Nat → Env) (i : Nat) (p : Path) (pw : List Byte) (ds : SettingsIters) (data : Bytes) : List ManyEvent :=
  [.call i (.selectFile p) (e 0), .call i (.createDataHeader pw ds 0) (e 1),
   .call i (.encryptData (some ⟨some 1, some data⟩)) (e 2), .call i .writeToFile (e 3)]

/-- the answers when it succeeds -/
def savedBy (i : Nat) : List (Option (Nat × Ret)) :=
  [some (i, .flag (.success true)), some (i, .flag (.success true)), some (i, .flag (.success true)), some (i, .plain (.success ()))]

theorem share_save {e : Nat → Env} (he : ∀ i, Kind (e i)) {m : Pool} {w : Many} (hl : StandsAll hs m w) (i : Nat) {p : Path}
    (hp : EncPath p) (hph : m.phase i = .idle) (hb : m.slots p = .empty) (hf : ¬ m.foreign p)
    (hr : ∀ k, k ≠ i → (m.phase k).reads ≠ some p) {pw : List Byte} {ds : SettingsIters} (hds : Usable ds) {data : Bytes}
    (hdata : data.data.length < 2 ^ 31) :
    ∃ b w1 m1, Api.runMany hs rest w (saveBy e i p pw ds data) = .ok (savedBy i, w1) ∧ StandsAll hs m1 w1 ∧
      m1.slots p = .box b ∧ ¬ m1.foreign p ∧ m1.phase i = .done ∧ (∀ k, k ≠ i → m1.phase k = m.phase k) ∧
      b.accepts pw ∧ b.shows pw = data.data := by
  obtain ⟨r1, w1, m1, h1, k1, l1, f1, g1⟩ := kind_share (rest := rest) (he 0) hl i (c := .selectFile p) trivial (by simp)
    (by rintro q ⟨-, rfl⟩; exact ⟨hf, by simp⟩) (fun _ _ h => h.elim)
  obtain ⟨rfl, hv1⟩ := k1.at_select hph hp (by show m.slots p ≠ _; rw [hb]; simp)
  obtain ⟨hs1, hp1⟩ := goto_eq hv1
  obtain ⟨r2, w2, m2, h2, k2, l2, f2, g2⟩ := kind_share (rest := rest) (he 1) l1 i (c := .createDataHeader pw ds 0)
    ⟨hds.built, hds.full⟩ (by simp) (fun _ h => h.elim) (fun _ _ h => h.elim)
  obtain ⟨rfl, L, ⟨hd, -, hop, hL⟩, hv2⟩ := k2.at_header hp1 (by show m1.slots p = _; rw [hs1, hb]) hds.complete ⟨hds.dec, hds.enc⟩
  obtain ⟨hs2, hp2⟩ := goto_eq hv2
  obtain ⟨w3, m3, h3, l3, hs3, f3, hp3, g3⟩ := share_edit (rest := rest) (he 2) l2 i hp2 hdata
  have hf3 : ¬ m3.foreign p := fun h => hf ((f1 p).mp ((f2 p).mp ((f3 p).mp h)))
  obtain ⟨b, w4, m4, h4, l4, hs4, f4, hp4, g4, a4, b4⟩ := share_write (rest := rest) (he 3) l3 i hp3
    (by rw [hs3, hs2, hs1, hb]; simp) hf3
    (fun k hk => by rw [g3 k hk, g2 k hk, g1 k hk]; exact hr k hk)
  refine ⟨b, w4, m4, stepMany_run h1 (stepMany_run h2 (stepMany_run h3 (stepMany_run h4 rfl))), l4, ?_, ?_, hp4, ?_, ?_, b4⟩
  · rw [hs4]; simp
  · exact fun h => hf3 ((f4 p).mp h)
  · intro k hk
    rw [g4 k hk, g3 k hk, g2 k hk, g1 k hk]
  · rw [a4]; exact (hL pw).mpr hop

theorem runMany_append {a b : List ManyEvent} : ∀ {w w1 w2 : Many} {ra rb : List (Option (Nat × Ret))},
    Api.runMany hs rest w a = .ok (ra, w1) → Api.runMany hs rest w1 b = .ok (rb, w2) →
    Api.runMany hs rest w (a ++ b) = .ok (ra ++ rb, w2) := by
  induction a with
  | nil => intro w w1 w2 ra rb h1 h2; cases h1; exact h2
  | cons x a ih =>
    intro w w1 w2 ra rb h1 h2
    simp only [Api.runMany] at h1
    obtain ⟨⟨r, w0⟩, h0, h1⟩ := Res.bind_eq_ok.mp h1
    obtain ⟨⟨rs, w3⟩, h3, h1⟩ := Res.bind_eq_ok.mp h1
    cases h1
    exact stepMany_run h0 (ih h3 h2)

/-- a file has been created and saved by one of several sessions -/
theorem share_begin {w0 : Many} (hnew : ∀ i, ∃ mode, Api.new mode = .ok (w0.api i))
    (hfs : ∀ p, EncPath p → Tame (w0.fs p)) {pre : List ManyEvent} (hpre : ∀ ev ∈ pre, FairMany ev) (hu : Polite hs rest w0 pre)
    {e : Nat → Env} (he : ∀ i, Kind (e i)) {i : Nat} {p : Path} {pw : List Byte} {ds : SettingsIters} (hds : Usable ds)
    {data : Bytes} (hdata : data.data.length < 2 ^ 31) {rs : List (Option (Nat × Ret))} {w : Many}
    (hcr : Api.runMany hs rest w0 (pre ++ [.call i .logout (e 0), .call i (.createFile p) (e 1)]) =
      .ok (rs ++ [some (i, .void), some (i, .flag (.success true))], w)) :
    ∃ b w1 m1, Api.runMany hs rest w (saveBy (fun k => e (k + 2)) i p pw ds data) = .ok (savedBy i, w1) ∧ StandsAll hs m1 w1 ∧
      EncPath p ∧ m1.slots p = .box b ∧ ¬ m1.foreign p ∧ (∀ k, (m1.phase k).reads ≠ some p) ∧ b.accepts pw ∧
      b.shows pw = data.data := by
  obtain ⟨m, hmi, hml⟩ := C81_described (hs := hs) w0.fs hfs
  obtain ⟨ra, wa, ma, g1, -, g3, -⟩ := share_run (rest := rest) (standsAll_new hnew hmi hml) hpre hu
  obtain ⟨r1, w1, m1, h1, k1, l1, f1, j1⟩ := kind_share (rest := rest) (he 0) g3 i (c := .logout) trivial (by simp)
    (fun _ h => h.elim) (fun _ _ h => h.elim)
  obtain ⟨rfl, hv1⟩ := k1.at_logout
  obtain ⟨hs1, hp1⟩ := goto_eq hv1
  obtain ⟨r2, w2, s2, h2, k2, -, l2, -⟩ := share_call (rest := rest) (c := .createFile p) (i := i) l1 (fair_kind (he 1) trivial (by simp))
    (fun _ _ h => h.elim)
  have hrun := runMany_append g1 (stepMany_run h1 (stepMany_run h2 (evs := []) rfl))
  rw [hrun] at hcr
  simp only [Res.ok.injEq, Prod.mk.injEq] at hcr
  obtain ⟨hr, rfl⟩ := hcr
  have hlen : ra.length = rs.length := by
    have := congrArg List.length hr
    simpa using this
  obtain ⟨-, hab⟩ := List.append_inj hr hlen
  simp only [List.cons.injEq, Option.some.injEq, Prod.mk.injEq, and_true, true_and] at hab
  subst hab
  have hcre : EncPath p ∧ m1.slots p = .missing ∧ s2.vault = (m1.of i).vault.put p .empty .idle ∧ ¬ s2.foreign p := by
    generalize hcc : Call.createFile p = c at k2
    generalize hrr : (Ret.flag (.success true)) = r at k2
    cases k2 with
    | ideal h hq =>
      subst hcc hrr
      obtain ⟨a, b, c⟩ := h.creates
      exact ⟨a, b, c, (hq (by show Phase.admits (m1.phase i) _; rw [hp1]; trivial) p ⟨a, rfl⟩).1⟩
    | failed _ _ _ => subst hcc; cases hrr
    | savedNothing _ h _ => subst hcc; cases hrr
    | savedPart _ h _ => subst hcc; cases hrr
    | savedAll _ h _ _ => subst hcc; cases hrr
  obtain ⟨hp, hmis, hv2, hf2⟩ := hcre
  have hmine : (m1.after i s2).phase i = .idle := by simp only [Pool.after, if_true, hv2]; rfl
  have hother : ∀ k, k ≠ i → ((m1.after i s2).phase k).reads ≠ some p := by
    intro k hk hx
    simp only [Pool.after, if_neg hk] at hx
    exact ((l1 k).reading hx).2.2 hmis
  obtain ⟨b, w5, m5, h5, l5, hs5, f5, hp5, g5, a5, b5⟩ := share_save (rest := rest) (fun k => he (k + 2)) l2 i hp hmine
    (by simp only [Pool.after, hv2]; simp [Vault.put]) hf2 hother (pw := pw) hds hdata
  refine ⟨b, w5, m5, h5, l5, hp, hs5, f5, fun k => ?_, a5, b5⟩
  by_cases hk : k = i
  · subst hk
    rw [hp5]
    simp [Phase.reads]
  · rw [g5 k hk]
    exact hother k hk

/-- C81: what one session saved under a password, any session can open. After any common history one session creates a file,
gives it a header and data and saves it; then anything may happen. If afterwards the bytes that were saved lie under some `.enc`
path, then for every session the password opens that file and shows the data. -/
theorem C81_handover (w0 : Many) (hnew : ∀ i, ∃ mode, Api.new mode = .ok (w0.api i))
    (hfs : ∀ p, EncPath p → Tame (w0.fs p)) (pre : List ManyEvent) (hpre : ∀ ev ∈ pre, FairMany ev) (hu : Polite hs rest w0 pre)
    (e : Nat → Env) (he : ∀ i, Kind (e i)) (i : Nat) (p : Path) (pw : List Byte) (ds : SettingsIters) (hds : Usable ds)
    (data : Bytes) (hdata : data.data.length < 2 ^ 31) (rs : List (Option (Nat × Ret))) (w : Many)
    (hcr : Api.runMany hs rest w0 (pre ++ [.call i .logout (e 0), .call i (.createFile p) (e 1)]) =
      .ok (rs ++ [some (i, .void), some (i, .flag (.success true))], w)) :
    ∃ w1, Api.runMany hs rest w (saveBy (fun k => e (k + 2)) i p pw ds data) = .ok (savedBy i, w1) ∧
      ∀ mid, (∀ ev ∈ mid, FairMany ev) → Polite hs rest w1 mid →
        ∃ rs2 w2, Api.runMany hs rest w1 mid = .ok (rs2, w2) ∧ ∀ j q, EncPath q → w2.fs q = w1.fs p →
          ∃ r w3, Api.runMany hs rest w2 (openBy (fun k => e (k + 6)) j q pw) = .ok (openedBy j r, w3) ∧ r.data = data.data := by
  obtain ⟨b, w5, m5, h5, l5, hp, hs5, f5, -, a5, b5⟩ := share_begin (rest := rest) hnew hfs hpre hu he (pw := pw) hds hdata hcr
  refine ⟨w5, h5, fun mid hm hum => ?_⟩
  obtain ⟨rs6, w6, m6, g1, -, l6, -⟩ := share_run (rest := rest) l5 hm hum
  refine ⟨rs6, w6, g1, fun j q hq hqp => ?_⟩
  have hin : InSlot hs (w5.fs p) (.box b) := by
    have := (l5 i).linked.disk p hp f5
    rw [show (m5.of i).vault.slots p = _ from hs5] at this
    exact this
  obtain ⟨b', h6, hf6, ha6, hs6⟩ := (l6 j).same hq (by show InSlot hs (w6.fs q) _; rw [hqp]; exact hin)
  obtain ⟨r, w7, m7, h7, hr7, -⟩ := share_open (rest := rest) (fun k => he (k + 6)) l6 j hq h6 hf6 ((ha6 pw).mpr a5)
  exact ⟨r, w7, h7, by rw [hr7, hs6, b5]⟩

/-- before: a history with faults, at whose end a file is created; after: three sessions open it and lose it and put it back -/
def otherPath : Path := ascii "d.enc"

def createdBy (i : Nat) : List ManyEvent := [.call i .logout openEnv, .call i (.createFile otherPath) openEnv]

theorem sharedHistory_created (rs : List (Option (Nat × Ret))) (w : Many)
    (h : Api.runMany toyHashes noRest (freshMany fun _ => .missing) (sharedHistory ++ createdBy 1) = .ok (rs, w)) :
    rs.drop 27 = [some (1, .void), some (1, .flag (.success true))] := by
  have : manyIs (freshMany fun _ => .missing) (sharedHistory ++ createdBy 1) (fun rs _ =>
    rs.drop 27 == [some (1, .void), some (1, .flag (.success true))]) = true := by decide +kernel
  simpa only [manyIs, h, beq_iff_eq] using this

/-- what the session saves -/
def handedBytes : List Byte :=
  match Api.runMany toyHashes noRest (freshMany fun _ => .missing)
      (sharedHistory ++ createdBy 1 ++ saveBy (fun _ => openEnv) 1 otherPath samplePw sampleSettings oneHello) with
  | .ok (_, m) => match m.fs otherPath with
    | .file c => c
    | _ => []
  | _ => []

/-- another session opens the file and deletes it; a third one creates it again; another program puts the old bytes back -/
def handMid : List ManyEvent :=
  openBy (fun _ => openEnv) 0 otherPath samplePw ++
  [.call 0 .logout openEnv, .call 0 (.selectFile otherPath) openEnv, .call 0 .deleteFile openEnv,
   .call 5 (.createFile otherPath) openEnv, .outside otherPath (.file handedBytes)]

example : (∀ ev ∈ sharedHistory, FairMany ev) ∧ Polite toyHashes noRest (freshMany fun _ => .missing) sharedHistory ∧ Kind openEnv ∧
    Usable sampleSettings ∧ oneHello.data.length < 2 ^ 31 ∧
    (politeNow toyHashes noRest 6 (freshMany fun _ => .missing)
      (sharedHistory ++ createdBy 1 ++ saveBy (fun _ => openEnv) 1 otherPath samplePw sampleSettings oneHello ++ handMid)) = true ∧
    manyIs (freshMany fun _ => .missing)
      (sharedHistory ++ createdBy 1 ++ saveBy (fun _ => openEnv) 1 otherPath samplePw sampleSettings oneHello ++ handMid ++
        openBy (fun _ => openEnv) 2 otherPath samplePw) (fun rs m => rs.drop 27 ==
      [some (1, .void), some (1, .flag (.success true))] ++ savedBy 1 ++ openedBy 0 oneHello ++
      [some (0, .void), some (0, .flag (.success true)), some (0, .flag (.success true)), some (5, .flag (.success true)), none] ++
      openedBy 2 oneHello && (m.fs otherPath == .file handedBytes) && decide (handedBytes ≠ [])) = true :=
  ⟨sharedHistory_fair, sharedHistory_polite, ⟨openEnv_friendly, openEnv_ordinary⟩, usable_sample, by decide, by decide +kernel,
    by decide +kernel⟩

theorem share_keep {p : Path} (hp : EncPath p) : ∀ {evs : List ManyEvent} {m : Pool} {w : Many}, StandsAll hs m w →
    (∀ ev ∈ evs, FairMany ev) → Polite hs rest w evs → Untouched hs rest w evs p → m.slots p ≠ .missing → ¬ m.foreign p →
    ∃ rs w' m', Api.runMany hs rest w evs = .ok (rs, w') ∧ StandsAll hs m' w' ∧ m'.slots p = m.slots p ∧ ¬ m'.foreign p
  | [], m, w, hl, _, _, _, _, hf => ⟨[], w, m, rfl, hl, rfl, hf⟩
  | .outside q n :: evs, m, w, hl, he, hu, hk, hb, hf => by
    have hr : EncPath q → ∀ j, ¬ Reads (w.api j) q := fun hp j =>
      hu [] (.outside q n) evs [] w rfl rfl q hp rfl j (by simp [ManyEvent.who])
    obtain ⟨m1, h1, h2, h3, h4⟩ := share_outside hl (he _ (List.mem_cons_self ..)) hr
    have hst : stepMany hs rest w (.outside q n) = .ok (none, ⟨w.api, w.fs.set q n⟩) := rfl
    have hne : p ≠ q := fun h => hk [] (.outside q n) evs [] w rfl rfl h.symm
    obtain ⟨k1, k2⟩ := h3 p hne
    obtain ⟨rs, w2, m2, g1, g2, g3, g4⟩ := share_keep hp (evs := evs) h4 (fun ev h => he ev (List.mem_cons_of_mem _ h)) (Polite.tail hu hst)
      (fun pre x post rs m2 hev hrun => hk (.outside q n :: pre) x post (none :: rs) m2 (by rw [hev]; rfl) (stepMany_run hst hrun))
      (by rw [k1]; exact hb) (fun h => hf (k2.mp h))
    exact ⟨none :: rs, w2, m2, stepMany_run hst g1, g2, by rw [g3, k1], g4⟩
  | .call i c e :: evs, m, w, hl, he, hu, hk, hb, hf => by
    obtain ⟨r, w1, s1, h1, h2, h3, h4, h5⟩ := share_call (rest := rest) hl (he _ (List.mem_cons_self ..))
      (fun p hp ha j hj => hu [] (.call i c e) evs [] w rfl rfl p hp ha j (fun h => by cases h; exact hj rfl))
    have ha := hk [] (.call i c e) evs [] w rfl rfl
    obtain ⟨k1, k2⟩ := h2.keep_other (p := p) hb hf
      (fun hc hx => by
        obtain ⟨f, hf1, hf2⟩ := path_of (hl i) hx
        refine ha ?_
        rcases hc with rfl | rfl <;> exact ⟨f, hf1, hf2⟩)
      (fun hc hx => by
        subst hc
        exact ha ⟨rfl, (hl i).emptyFile hp hf hx⟩)
    obtain ⟨rs, w2, m2, g1, g2, g3, g4⟩ := share_keep hp (evs := evs) h4 (fun ev h => he ev (List.mem_cons_of_mem _ h)) (Polite.tail hu h1)
      (fun pre x post rs m2 hev hrun => hk (.call i c e :: pre) x post (some (i, r) :: rs) m2 (by rw [hev]; rfl) (stepMany_run h1 hrun))
      (by show s1.vault.slots p ≠ _; rw [k1]; exact hb) k2
    exact ⟨some (i, r) :: rs, w2, m2, stepMany_run h1 g1, g2, g3.trans k1, g4⟩

/-- C81: an empty or complete file keeps its bytes, whatever any number of sessions and other programs do, as long as other
programs leave it alone and no session deletes or saves it while it is selected there, or saves to it while it is empty. -/
theorem C81_durable (w0 : Many) (hnew : ∀ i, ∃ mode, Api.new mode = .ok (w0.api i))
    (hfs : ∀ p, EncPath p → Tame (w0.fs p)) (pre : List ManyEvent) (hpre : ∀ ev ∈ pre, FairMany ev) (hu : Polite hs rest w0 pre)
    (rs : List (Option (Nat × Ret))) (w : Many) (hrun : Api.runMany hs rest w0 pre = .ok (rs, w)) (p : Path) (hp : EncPath p)
    (c : List Byte) (hc : w.fs p = .file c) (hh : c = [] ∨ Headed 1 c) (mid : List ManyEvent) (hmid : ∀ ev ∈ mid, FairMany ev)
    (hum : Polite hs rest w mid) (hk : Untouched hs rest w mid p) :
    ∃ rs2 w2, Api.runMany hs rest w mid = .ok (rs2, w2) ∧ w2.fs p = .file c := by
  obtain ⟨m, hmi, hml⟩ := C81_described (hs := hs) w0.fs hfs
  obtain ⟨ra, wa, ma, g1, -, g3, -⟩ := share_run (rest := rest) (standsAll_new hnew hmi hml) hpre hu
  rw [hrun] at g1
  cases g1
  have hin : ma.slots p ≠ .missing ∧ ¬ ma.foreign p := by
    rcases (g3 0).lies hp with ⟨hf, hs'⟩ | ⟨hf, hin⟩
    · exfalso
      simp only [Many.of, hc, Stray] at hs'
      rcases hh with rfl | hh
      · exact hs'.1 rfl
      · exact hs'.2.2 hh
    · refine ⟨fun h => ?_, hf⟩
      simp only [Many.of, hc] at hin
      rw [show (ma.of 0).vault.slots p = _ from h] at hin
      cases hin
  obtain ⟨rs2, w2, m2, k1, k2, k3, k4⟩ := share_keep (rest := rest) hp g3 hmid hum hk hin.1 hin.2
  refine ⟨rs2, w2, k1, ?_⟩
  have d1 := (g3 0).linked.disk p hp hin.2
  have d2 := (k2 0).linked.disk p hp k4
  rw [show (m2.of 0).vault.slots p = _ from k3] at d2
  exact (inslot_node d2 d1).trans hc

/-- does no step aim at the path? -/
def untouchedNow (hs : Hashes) (rest : Api.Helper → Res Api.Helper) (p : Path) (m : Many) : List ManyEvent → Bool
  | [] => true
  | ev :: evs => !(targets m ev).contains p &&
    match Api.stepMany hs rest m ev with
    | .ok (_, m1) => untouchedNow hs rest p m1 evs
    | _ => true

theorem untouched_of {p : Path} : ∀ {evs : List ManyEvent} {m : Many}, untouchedNow hs rest p m evs = true → Untouched hs rest m evs p
  | [], m, _ => by
    intro pre ev post rs m1 h
    cases pre <;> cases h
  | x :: evs, m, h => by
    simp only [untouchedNow, Bool.and_eq_true] at h
    obtain ⟨h1, h3⟩ := h
    intro pre ev post rs m1 hev hrun ha
    cases pre with
    | nil =>
      cases hev
      cases hrun
      simp [targets_of ha] at h1
    | cons y pre =>
      cases hev
      simp only [Api.runMany] at hrun
      obtain ⟨⟨r0, m0⟩, h0, hrun⟩ := Res.bind_eq_ok.mp hrun
      obtain ⟨⟨r5, m5⟩, h5, hrun⟩ := Res.bind_eq_ok.mp hrun
      cases hrun
      rw [h0] at h3
      exact untouched_of h3 pre ev post r5 _ rfl h5 ha

/-- sessions select the file and try a password; one saves another file; one tries to create the file again; one saves
under its name, which fails, as the file is not empty; another program makes a directory -/
def calmMid : List ManyEvent :=
  [.call 0 (.selectFile samplePath) openEnv, .call 1 (.selectFile samplePath) openEnv, .call 0 (.verifyPassword samplePw 0) openEnv] ++
  saveBy (fun _ => openEnv) 2 otherPath samplePw sampleSettings oneHello ++ openBy (fun _ => openEnv) 2 otherPath samplePw ++
  [.call 3 (.createFile samplePath) openEnv, .call 2 (.encryptData (some ⟨some 1, some oneWorld⟩)) openEnv,
   .call 2 (.writeToFileAt samplePath) openEnv, .outside (ascii "b.enc") .dir, .call 1 .unselectFile deafEnv]

/-- the world after a new session has created the other file -/
def calmWorld : Many :=
  match Api.runMany toyHashes noRest (freshMany (oneFile samplePath smallVault)) [.call 1 (.createFile otherPath) openEnv] with
  | .ok (_, m) => m
  | _ => freshMany fun _ => .missing

example : calmWorld.fs samplePath = .file smallVault ∧ Headed 1 smallVault ∧
    politeNow toyHashes noRest 4 calmWorld calmMid = true ∧ Untouched toyHashes noRest calmWorld calmMid samplePath ∧
    manyIs calmWorld calmMid (fun rs m => (m.fs samplePath == .file smallVault) && (rs ==
      [some (0, .flag (.success true)), some (1, .flag (.success true)), some (0, .flag (.fail .ERR_PASSWORD_INVALID))] ++ savedBy 2 ++
      openedBy 2 oneHello ++ [some (3, .flag (.fail .ERR_FILE_EXISTS)), some (2, .flag (.success true)),
        some (2, .plain (.fail .ERR_FILE_NOT_EMPTY)), none, some (1, .flag (.success true))])) = true :=
  ⟨by decide +kernel, smallVault_headed, by decide +kernel, untouched_of (by decide +kernel), by decide +kernel⟩

/-! ### changes by several sessions -/

/-- C82 violated: the update is lost. After any common history one session creates a file and saves data in it. Two sessions open
it. Both encrypt new data and save, and both are told that all went well. Whoever opens the file afterwards sees the data of the
second; nothing is left of what the first one saved. -/
theorem C82_violated_lost_update (w0 : Many) (hnew : ∀ i, ∃ mode, Api.new mode = .ok (w0.api i))
    (hfs : ∀ p, EncPath p → Tame (w0.fs p)) (pre : List ManyEvent) (hpre : ∀ ev ∈ pre, FairMany ev) (hu : Polite hs rest w0 pre)
    (e : Nat → Env) (he : ∀ i, Kind (e i)) (i : Nat) (p : Path) (pw : List Byte) (ds : SettingsIters) (hds : Usable ds)
    (data d1 d2 : Bytes) (hdata : data.data.length < 2 ^ 31) (hd1 : d1.data.length < 2 ^ 31) (hd2 : d2.data.length < 2 ^ 31)
    (rs : List (Option (Nat × Ret))) (w : Many)
    (hcr : Api.runMany hs rest w0 (pre ++ [.call i .logout (e 0), .call i (.createFile p) (e 1)]) =
      .ok (rs ++ [some (i, .void), some (i, .flag (.success true))], w)) (j k : Nat) (hjk : j ≠ k) (l : Nat) :
    ∃ r1 r2 r3 w1, Api.runMany hs rest w (saveBy (fun x => e (x + 2)) i p pw ds data ++
        (openBy (fun x => e (x + 6)) j p pw ++ (openBy (fun x => e (x + 10)) k p pw ++
          ([.call j (.encryptData (some ⟨some 1, some d1⟩)) (e 14), .call k (.encryptData (some ⟨some 1, some d2⟩)) (e 15),
            .call j .writeToFile (e 16), .call k .writeToFile (e 17)] ++ openBy (fun x => e (x + 18)) l p pw)))) =
      .ok (savedBy i ++ (openedBy j r1 ++ (openedBy k r2 ++
        ([some (j, .flag (.success true)), some (k, .flag (.success true)), some (j, .plain (.success ())), some (k, .plain (.success ()))] ++
          openedBy l r3))), w1) ∧ r1.data = data.data ∧ r2.data = data.data ∧ r3.data = d2.data := by
  obtain ⟨b, wa, ma, ha, la, hp, sa, fa, ra, aa, ba⟩ := share_begin (rest := rest) hnew hfs hpre hu he (pw := pw) hds hdata hcr
  obtain ⟨r1, wb, mb, hb, rb, lb, sb, fb, pb, gb⟩ := share_open (rest := rest) (fun x => he (x + 6)) la j hp sa fa aa
  have fb' : ¬ mb.foreign p := fun h => fa ((fb p).mp h)
  have sb' : mb.slots p = .box b := by rw [sb, sa]
  obtain ⟨r2, wc, mc, hc, rc, lc, sc, fc, pc, gc⟩ := share_open (rest := rest) (fun x => he (x + 10)) lb k hp sb' fb' aa
  have fc' : ¬ mc.foreign p := fun h => fb' ((fc p).mp h)
  have pcj : mc.phase j = .opened p b.accepts pw false := by rw [gc j hjk, pb]
  obtain ⟨wd, md, hd, ld, sd, fd, pd, gd⟩ := share_edit (rest := rest) (he 14) lc j pcj hd1
  have pdk : md.phase k = .opened p b.accepts pw false := by rw [gd k (Ne.symm hjk), pc]
  obtain ⟨we, me, h5, le, se, fe, pe, ge⟩ := share_edit (rest := rest) (he 15) ld k pdk hd2
  have fe' : ¬ me.foreign p := fun h => fc' ((fd p).mp ((fe p).mp h))
  have se' : me.slots p = .box b := by rw [se, sd, sc, sb']
  have pej : me.phase j = .ready p b.accepts pw d1.data := by rw [ge j hjk, pd]
  have free : ∀ x, x ≠ j → x ≠ k → (me.phase x).reads ≠ some p := by
    intro x h1 h2
    rw [ge x h2, gd x h1, gc x h2, gb x h1]
    exact ra x
  obtain ⟨b1, wf, mf, h6, lf, sf, ff, pf, gf, -, -⟩ := share_write (rest := rest) (he 16) le j pej (by rw [se']; simp) fe' (by
    intro x hx
    by_cases hk : x = k
    · subst hk; rw [pe]; simp [Phase.reads]
    · exact free x hx hk)
  have ff' : ¬ mf.foreign p := fun h => fe' ((ff p).mp h)
  have pfk : mf.phase k = .ready p b.accepts pw d2.data := by rw [gf k (Ne.symm hjk), pe]
  obtain ⟨b2, wg, mg, h7, lg, sg, fg, pg, gg, ag, bg⟩ := share_write (rest := rest) (he 17) lf k pfk (by rw [sf]; simp) ff' (by
    intro x hx
    by_cases hk : x = j
    · subst hk; rw [pf]; simp [Phase.reads]
    · rw [gf x hk]; exact free x hk hx)
  have fg' : ¬ mg.foreign p := fun h => ff' ((fg p).mp h)
  obtain ⟨r3, wh, mh, h8, rh, -⟩ := share_open (rest := rest) (fun x => he (x + 18)) lg l hp (b := b2) (pw := pw) (by rw [sg]; simp)
    fg' (by rw [ag]; exact aa)
  exact ⟨r1, r2, r3, wh, runMany_append ha (runMany_append hb (runMany_append hc
    (runMany_append (stepMany_run hd (stepMany_run h5 (stepMany_run h6 (stepMany_run h7 rfl)))) h8))),
    by rw [rb, ba], by rw [rc, ba], by rw [rh, bg]⟩

example : (∀ ev ∈ sharedHistory, FairMany ev) ∧ Polite toyHashes noRest (freshMany fun _ => .missing) sharedHistory ∧ Kind openEnv ∧
    Usable sampleSettings ∧ (0 : Nat) ≠ 2 ∧ manyIs (freshMany fun _ => .missing) (sharedHistory ++ createdBy 1 ++
      (saveBy (fun _ => openEnv) 1 otherPath samplePw sampleSettings oneHello ++ (openBy (fun _ => openEnv) 0 otherPath samplePw ++
        (openBy (fun _ => openEnv) 2 otherPath samplePw ++
          ([.call 0 (.encryptData (some ⟨some 1, some oneWorld⟩)) openEnv,
            .call 2 (.encryptData (some ⟨some 1, some (Bytes.full (ascii "other"))⟩)) openEnv,
            .call 0 .writeToFile openEnv, .call 2 .writeToFile openEnv] ++ openBy (fun _ => openEnv) 0 otherPath samplePw)))))
      (fun rs _ => rs.drop 29 == savedBy 1 ++ (openedBy 0 oneHello ++ (openedBy 2 oneHello ++
        ([some (0, .flag (.success true)), some (2, .flag (.success true)), some (0, .plain (.success ())), some (2, .plain (.success ()))] ++
          openedBy 0 (Bytes.full (ascii "other")))))) = true :=
  ⟨sharedHistory_fair, sharedHistory_polite, ⟨openEnv_friendly, openEnv_ordinary⟩, usable_sample, by decide, by decide +kernel⟩

/-- sessions that take turns: each opens the file, changes it and saves it -/
def turns (p : Path) (pw : List Byte) : (Nat → Env) → List (Nat × Bytes) → List ManyEvent
  | _, [] => []
  | e, (j, d) :: ts => (openBy e j p pw ++ [.call j (.encryptData (some ⟨some 1, some d⟩)) (e 4), .call j .writeToFile (e 5)]) ++
      turns p pw (fun x => e (x + 6)) ts

/-- each sees what the one before saved -/
def TurnAnswers : List Byte → List (Nat × Bytes) → List (Option (Nat × Ret)) → Prop
  | _, [], rs => rs = []
  | old, (j, d) :: ts, rs => ∃ r rs', r.data = old ∧
      rs = (openedBy j r ++ [some (j, .flag (.success true)), some (j, .plain (.success ()))]) ++ rs' ∧ TurnAnswers d.data ts rs'

/-- what was saved last -/
def lastData (old : List Byte) : List (Nat × Bytes) → List Byte
  | [] => old
  | (_, d) :: ts => lastData d.data ts

theorem share_turns {p : Path} (hp : EncPath p) {pw : List Byte} : ∀ (ts : List (Nat × Bytes)) {e : Nat → Env}, (∀ x, Kind (e x)) →
    (∀ t ∈ ts, t.2.data.length < 2 ^ 31) → ∀ {m : Pool} {w : Many}, StandsAll hs m w → ∀ {b : Box}, m.slots p = .box b →
    ¬ m.foreign p → (∀ x, (m.phase x).reads ≠ some p) → b.accepts pw →
    ∃ rs w' m' b', Api.runMany hs rest w (turns p pw e ts) = .ok (rs, w') ∧ TurnAnswers (b.shows pw) ts rs ∧ StandsAll hs m' w' ∧
      m'.slots p = .box b' ∧ ¬ m'.foreign p ∧ b'.accepts = b.accepts ∧ b'.shows pw = lastData (b.shows pw) ts
  | [], e, he, hd, m, w, hl, b, hb, hf, hr, ha => ⟨[], w, m, b, rfl, rfl, hl, hb, hf, rfl, rfl⟩
  | (j, d) :: ts, e, he, hd, m, w, hl, b, hb, hf, hr, ha => by
    obtain ⟨r, w1, m1, h1, r1, l1, s1, f1, p1, g1⟩ := share_open (rest := rest) he hl j hp hb hf ha
    obtain ⟨w2, m2, h2, l2, s2, f2, p2, g2⟩ := share_edit (rest := rest) (he 4) l1 j p1 (hd (j, d) (by simp))
    have hf2 : ¬ m2.foreign p := fun h => hf ((f1 p).mp ((f2 p).mp h))
    obtain ⟨b3, w3, m3, h3, l3, s3, f3, p3, g3, a3, c3⟩ := share_write (rest := rest) (he 5) l2 j p2 (by rw [s2, s1, hb]; simp) hf2
      (fun x hx => by rw [g2 x hx, g1 x hx]; exact hr x)
    obtain ⟨rs, w4, m4, b4, h4, t4, l4, s4, f4, a4, c4⟩ := share_turns hp ts (fun x => he (x + 6)) (fun t ht => hd t (by simp [ht])) l3
      (b := b3) (by rw [s3]; simp) (fun h => hf2 ((f3 p).mp h)) (by
        intro x
        by_cases hx : x = j
        · subst hx; rw [p3]; simp [Phase.reads]
        · rw [g3 x hx, g2 x hx, g1 x hx]; exact hr x) (by rw [a3]; exact ha)
    refine ⟨_, w4, m4, b4, runMany_append (runMany_append h1 (stepMany_run h2 (stepMany_run h3 rfl))) h4, ⟨r, rs, r1, rfl, ?_⟩, l4, s4, f4,
      by rw [a4, a3], ?_⟩
    · rw [← c3]; exact t4
    · rw [c4, c3]; rfl

/-- C82, the part that holds: as long as the sessions take turns, nothing is lost. After any common history one session creates
a file and saves data in it. Then any number of sessions, in any order, open the file, change it and save it, one after the
other. Each of them sees what the one before saved, and whoever opens the file in the end sees what was saved last. -/
theorem C82_turns_partial (w0 : Many) (hnew : ∀ i, ∃ mode, Api.new mode = .ok (w0.api i))
    (hfs : ∀ p, EncPath p → Tame (w0.fs p)) (pre : List ManyEvent) (hpre : ∀ ev ∈ pre, FairMany ev) (hu : Polite hs rest w0 pre)
    (e : Nat → Env) (he : ∀ i, Kind (e i)) (i : Nat) (p : Path) (pw : List Byte) (ds : SettingsIters) (hds : Usable ds)
    (data : Bytes) (hdata : data.data.length < 2 ^ 31) (rs : List (Option (Nat × Ret))) (w : Many)
    (hcr : Api.runMany hs rest w0 (pre ++ [.call i .logout (e 0), .call i (.createFile p) (e 1)]) =
      .ok (rs ++ [some (i, .void), some (i, .flag (.success true))], w)) (ts : List (Nat × Bytes))
    (hts : ∀ t ∈ ts, t.2.data.length < 2 ^ 31) (e' e'' : Nat → Env) (he' : ∀ x, Kind (e' x)) (he'' : ∀ x, Kind (e'' x)) (l : Nat) :
    ∃ rs1 r w1, Api.runMany hs rest w (saveBy (fun x => e (x + 2)) i p pw ds data ++ (turns p pw e' ts ++ openBy e'' l p pw)) =
      .ok (savedBy i ++ (rs1 ++ openedBy l r), w1) ∧ TurnAnswers data.data ts rs1 ∧ r.data = lastData data.data ts := by
  obtain ⟨b, wa, ma, ha, la, hp, sa, fa, ra, aa, ba⟩ := share_begin (rest := rest) hnew hfs hpre hu he (pw := pw) hds hdata hcr
  obtain ⟨rs1, w1, m1, b1, h1, t1, l1, s1, f1, a1, c1⟩ := share_turns (rest := rest) hp ts he' hts la sa fa ra aa
  obtain ⟨r, w2, m2, h2, r2, -⟩ := share_open (rest := rest) he'' l1 l hp s1 f1 (by rw [a1]; exact aa)
  rw [ba] at t1 c1
  exact ⟨rs1, r, w2, runMany_append ha (runMany_append h1 h2), t1, by rw [r2, c1]⟩

example : (∀ ev ∈ sharedHistory, FairMany ev) ∧ Polite toyHashes noRest (freshMany fun _ => .missing) sharedHistory ∧ Kind openEnv ∧
    Usable sampleSettings ∧
    let ts := [(0, oneWorld), (2, Bytes.full (ascii "other")), (0, Bytes.full [])]
    (∀ t ∈ ts, t.2.data.length < 2 ^ 31) ∧ lastData (ascii "hello") ts = [] ∧
    manyIs (freshMany fun _ => .missing) (sharedHistory ++ createdBy 1 ++
      (saveBy (fun _ => openEnv) 1 otherPath samplePw sampleSettings oneHello ++
        (turns otherPath samplePw (fun _ => openEnv) (ts.take 2) ++ openBy (fun _ => openEnv) 1 otherPath samplePw)))
      (fun rs _ => rs.drop 33 == openedBy 0 oneHello ++ [some (0, .flag (.success true)), some (0, .plain (.success ()))] ++
        (openedBy 2 oneWorld ++ [some (2, .flag (.success true)), some (2, .plain (.success ()))] ++
          openedBy 1 (Bytes.full (ascii "other")))) = true :=
  ⟨sharedHistory_fair, sharedHistory_polite, ⟨openEnv_friendly, openEnv_ordinary⟩, usable_sample, by decide, rfl, by decide +kernel⟩

/-- the second password -/
def laterPw : List Byte := ascii "Secret99!"

/-- A session selects the file; another one deletes it and makes a new one with another password and other data there. -/
def staleHistory : List ManyEvent :=
  [.call 0 (.createFile otherPath) openEnv] ++ saveBy (fun _ => openEnv) 0 otherPath samplePw sampleSettings oneHello ++
  [.call 1 (.selectFile otherPath) openEnv, .call 0 .logout openEnv, .call 0 (.selectFile otherPath) openEnv,
   .call 0 .deleteFile openEnv, .call 0 (.createFile otherPath) openEnv] ++
  saveBy (fun _ => openEnv) 0 otherPath laterPw sampleSettings oneWorld ++
  [.call 1 (.verifyPassword laterPw 0) openEnv, .call 1 (.verifyPassword samplePw 0) openEnv, .call 1 .getDecryptedData openEnv]

/-- C82 violated: old headers. A session selects a file. Another session deletes it and makes a new one with another password and
other data there. The first session refuses the password of the file and accepts the password of the file that is gone; it then
shows, as a success, data that nobody ever saved. -/
theorem C82_violated_stale : ∃ rs w r, Api.runMany toyHashes noRest (freshMany fun _ => .missing) staleHistory =
      .ok (rs ++ [some (1, .flag (.fail .ERR_PASSWORD_INVALID)), some (1, .flag (.success true)),
        some (1, .data (.success ⟨some 1, some r⟩))], w) ∧ r.data ≠ oneHello.data ∧ r.data ≠ oneWorld.data := by
  have h : manyIs (freshMany fun _ => .missing) staleHistory (fun rs _ =>
      rs.drop 14 == [some (1, .flag (.fail .ERR_PASSWORD_INVALID)), some (1, .flag (.success true)),
        some (1, .data (.success ⟨some 1, some (Bytes.full [5, 25, 55, 77, 97])⟩))]) = true := by decide +kernel
  unfold manyIs at h
  cases hr : Api.runMany toyHashes noRest (freshMany fun _ => .missing) staleHistory with
  | ok x =>
    rw [hr] at h
    refine ⟨x.1.take 14, x.2, Bytes.full [5, 25, 55, 77, 97], ?_, by decide, by decide⟩
    rw [← eq_of_beq h, List.take_append_drop]
  | exn x => rw [hr] at h; cases h
  | fatal x => rw [hr] at h; cases h

end Verif.Props
