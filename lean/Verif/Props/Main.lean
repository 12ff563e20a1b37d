import Verif.Lemmas.Main
import Verif.Props.Faults

/- C87: the demonstration program. -/
namespace Verif.Props
open Spec Api PwFunc Demo
variable {hs : Hashes} {rest : Helper → Res Helper}

/-! ### the parts of the two runs -/

/-- the run up to the password check; what comes then -/
theorem append_tail {e : Nat → Env} {fs : FS} {r1 r2 : Ret} {w1 w2 : World} (h0 : start (e 0) fs = .ok demoDir)
    (h1 : call hs rest (e 1) ⟨⟨.INIT, 1, none, Bytes.empty 0, none, none, none⟩, fs⟩ (.selectFile demoFile) = .ok (r1, w1))
    (h2 : call hs rest (e 2) w1 (.verifyPassword demoPass 0) = .ok (r2, w2)) :
    appendRun hs rest e fs = next w2.fs (call hs rest (e 3) w2 .getDecryptedData) fun (r, w) =>
      next w.fs (appended r) fun fd => finish hs rest e w fd := by
  unfold appendRun
  rw [next_ok settings_eq, next_ok new_eq, next_ok h0, file_eq, next_ok h1]
  simp only
  rw [show pass = demoPass from rfl, next_ok h2]

theorem append_start {e : Nat → Env} {fs fs' : FS} {r : Res Ret} (h : appendRun hs rest e fs = (r, fs')) :
    (fs' = fs ∧ ∀ y, r ≠ .ok y) ∨ start (e 0) fs = .ok demoDir := by
  unfold appendRun at h
  rw [next_ok settings_eq, next_ok new_eq] at h
  rcases next_cases h with ⟨d, hd, -⟩ | hx
  · exact .inr (by rw [hd, start_dir hd])
  · exact .inl hx

/-! ## C87 -/

/-- C87: whatever the disk and the outside are like, the program changes no file but its own; and unless it reports a
successful save, it changes nothing at all. -/
theorem C87_unchanged (e : Nat → Env) (fs fs' : FS) (r : Res Ret) (h : appendRun hs rest e fs = (r, fs')) :
    (∀ q, q ≠ demoFile → fs' q = fs q) ∧ (¬ Saved r → fs' = fs) := by
  have key : (¬ Saved r ∧ fs' = fs) ∨ (Saved r ∧ ∃ n, fs' = fs.set demoFile n) := by
    rcases append_start h with ⟨rfl, hr⟩ | h0
    · exact .inl ⟨fun hx => hr _ hx, rfl⟩
    unfold appendRun at h
    rw [next_ok settings_eq, next_ok new_eq, next_ok h0, file_eq] at h
    rcases next_cases h with ⟨⟨r1, w1⟩, h1, h⟩ | ⟨rfl, hr⟩
    case inr => exact .inl ⟨fun hx => hr _ hx, rfl⟩
    have f1 := same_disk h1 fun q hq => hq
    have g1 := same_file h1 (p := demoFile) (fun q hq => by cases hq; rfl) (fun f hf => by cases hf)
    rcases next_cases h with ⟨⟨r2, w2⟩, h2, h⟩ | ⟨rfl, hr⟩
    case inr => exact .inl ⟨fun hx => hr _ hx, f1⟩
    have f2 := (same_disk h2 fun q hq => hq).trans f1
    have g2 := same_file h2 (p := demoFile) (fun q hq => by cases hq) g1
    rcases next_cases h with ⟨⟨r3, w3⟩, h3, h⟩ | ⟨rfl, hr⟩
    case inr => exact .inl ⟨fun hx => hr _ hx, f2⟩
    have f3 := (same_disk h3 fun q hq => hq).trans f2
    have g3 := same_file h3 (p := demoFile) (fun q hq => by cases hq) g2
    rcases next_cases h with ⟨fd, h4, h⟩ | ⟨rfl, hr⟩
    case inr => exact .inl ⟨fun hx => hr _ hx, f3⟩
    rcases finish_cases h g3 with ⟨hn, rfl⟩ | ⟨hsv, -, -, -, -, -, -, -, b, -, rfl⟩
    · exact .inl ⟨hn, f3⟩
    · exact .inr ⟨hsv, _, by rw [f3]⟩
  rcases key with ⟨hn, rfl⟩ | ⟨hsv, n, rfl⟩
  · exact ⟨fun _ _ => rfl, fun _ => rfl⟩
  · exact ⟨fun q hq => by simp [FS.set, hq], fun hn => absurd hsv hn⟩

/-! A disk with a file that the password of the program opens. -/

/-- the validator of the password -/
def demoCheck : List Byte :=
  smallHeader.ch2.digest (toyHashes.get .sha256).h (smallHeader.ch1.digest (toyHashes.get .sha256).h demoPass)
def demoHeader : Header := { smallHeader with validator := demoCheck }
def demoDisk : FS := fun p => if p = demoFile then .file (demoHeader.bytes ++ [9, 9, 9]) else if p = demoDir then .dir else .missing

def demoBox : Box := boxOf toyHashes demoHeader .sha256 (Opens toyHashes demoHeader) [9, 9, 9]

theorem demoHeader_valid : demoHeader.Valid :=
  ⟨by decide +kernel, by decide +kernel, rfl, .inl rfl, by decide +kernel, by simp [demoHeader, smallHeader], by decide +kernel, by decide +kernel, by decide +kernel, by decide +kernel,
    by decide +kernel, by simp [demoHeader, smallHeader]⟩

theorem demoDisk_box : InSlot toyHashes (demoDisk demoFile) (.box demoBox) :=
  .box ⟨demoHeader_valid, by decide +kernel, by decide, rfl, fun _ => Iff.rfl, fun _ => cryptOut_dec _ _ _ _, rfl⟩

theorem demoBox_accepts : demoBox.accepts demoPass := ⟨.sha256, rfl, by decide +kernel⟩

theorem demoBox_length : (demoBox.shows demoPass).length = 3 := by
  show (cryptOut _ _ _ _ _).length = 3
  rw [cryptOut_length]; rfl

theorem demoDisk_listable : Listable openEnv demoDisk := ⟨by decide, rfl, fun _ h => by cases h⟩

/-- does the program report a save, leaving this under its path? -/
def savedAs (x : Res Ret × FS) (p : Node → Bool) : Bool :=
  match x with
  | (.ok r, fs) => r == .plain (.success ()) && p (fs demoFile)
  | _ => false

/-- does the program end with `logic_error`, leaving this under its path? -/
def brokeOff (x : Res Ret × FS) (p : Node → Bool) : Bool :=
  match x with
  | (.exn .logicError, fs) => p (fs demoFile)
  | _ => false

example : savedAs (appendRun toyHashes noRest (fun _ => openEnv) demoDisk)
    (fun n => match n with | .file c => c.length == 112 | _ => false) = true := by decide +kernel
example : brokeOff (appendRun toyHashes noRest (fun _ => openEnv) (oneFile demoFile [1, 2, 3]))
    (fun n => n == .file [1, 2, 3]) = true := by decide +kernel

/-- C87, in a healthy world with a directory that can be listed and a file that the password opens: the program appends its
five bytes to what the password shows, changes no password, and reports a save. What lies on the disk afterwards is what the
disk had room for.

Missing: room on the disk is not guaranteed, and the program does not notice (`C87_violated_full`). -/
theorem C87_appends_partial (e : Nat → Env) (fs : FS) (b : Box) (hl : Listable (e 0) fs) (he : ∀ i, Healthy (e i) demoFile)
    (hb : InSlot hs (fs demoFile) (.box b)) (ha : b.accepts demoPass) (hn : (b.shows demoPass).length + 5 < 2 ^ 31) :
    ∃ b' : Box, Grown b b' demoPass [0, 1, 2, 3, 4] ∧ InSlot hs (.file b'.raw) (.box b') ∧
      b'.raw.length < 2 ^ 31 + 200000 ∧ appendRun hs rest e fs = (.ok (.plain (.success ())), fs.set demoFile (.file (b'.raw.take (e 6).stored))) := by
  obtain ⟨r1, w1, r2, w2, c1, c2, f1, f2, ⟨v2, l2, p2, s2⟩, g2⟩ := opened_box (rest := rest) (e1 := e 1) (e2 := e 2) file_path hb
    ha (he 1).read ((he 1).rand 0) (he 2).clock
  rw [append_tail (start_ok hl) c1 c2]
  obtain ⟨r3, w3, v3, c3, s3, l3, -⟩ := sim_decrypt (rest := rest) (e := e 3) l2 p2 fun h enc m b hc hk =>
    hc.decrypts l2.mode hk (he 3).read
  have f3 : w3.fs = fs := (same_disk c3 fun q hq => hq).trans f2
  cases s3 with
  | refused h => rw [p2] at h; exact absurd trivial h
  | lacking h => exact h.elim
  | decrypt hp hb' hr =>
    rename_i p' pw' b'' x
    rw [p2] at hp; cases hp
    rw [s2] at hb'; cases hb'
    have hd : ∃ c, w3.fs demoFile = .file c := by
      rw [f3]
      generalize fs demoFile = n at hb
      cases hb; exact ⟨_, rfl⟩
    obtain ⟨c, hd⟩ := hd
    obtain ⟨b', h1, h2, h3, h5, h4⟩ := finish_ok (rest := rest) (en := e) l3 (p := demoFile) rfl (he 4).rand
      (data := ⟨x.data ++ [0, 1, 2, 3, 4], x.data.length + 5⟩) (by simp [hr]; omega) hd (he 6).read (he 6).write
    refine ⟨b', ⟨fun y => by rw [h1], by rw [h2, hr]⟩, h3, h5, ?_⟩
    rw [next_ok c3]
    simp only
    rw [next_ok appended_ok, h4, f3]

example : Listable openEnv demoDisk ∧ (∀ _ : Nat, Healthy openEnv demoFile) ∧ InSlot toyHashes (demoDisk demoFile) (.box demoBox) ∧
    demoBox.accepts demoPass ∧ (demoBox.shows demoPass).length + 5 < 2 ^ 31 :=
  ⟨demoDisk_listable, fun _ => healthy_open _, demoDisk_box, demoBox_accepts, by rw [demoBox_length]; decide⟩

/-- C87, with room: the grown box lies on the disk as a whole. -/
theorem C87_appends_room (e : Nat → Env) (fs : FS) (b : Box) (hl : Listable (e 0) fs) (he : ∀ i, Friendly (e i))
    (hb : InSlot hs (fs demoFile) (.box b)) (ha : b.accepts demoPass) (hn : (b.shows demoPass).length + 5 < 2 ^ 31) :
    ∃ b' fs', Grown b b' demoPass [0, 1, 2, 3, 4] ∧ InSlot hs (fs' demoFile) (.box b') ∧ (∀ q, q ≠ demoFile → fs' q = fs q) ∧
      appendRun hs rest e fs = (.ok (.plain (.success ())), fs') := by
  obtain ⟨b', h1, h2, h4, h3⟩ := C87_appends_partial (rest := rest) e fs b hl (fun i => (he i).healthy _) hb ha hn
  have hlen : b'.raw.length ≤ (e 6).stored := by
    have := (he 6).room
    omega
  refine ⟨b', _, h1, ?_, fun q hq => ?_, h3⟩
  · simp only [FS.set, if_true]
    rw [List.take_of_length_le hlen]; exact h2
  · simp [FS.set, hq]

example : ∀ _ : Nat, Friendly openEnv := fun _ => openEnv_friendly

/-- C87 is violated: on a full disk the program reports a successful save as well, and nothing is left of the file. -/
theorem C87_violated_full (e : Nat → Env) (fs : FS) (b : Box) (hl : Listable (e 0) fs) (he : ∀ i, Healthy (e i) demoFile)
    (hb : InSlot hs (fs demoFile) (.box b)) (ha : b.accepts demoPass) (hn : (b.shows demoPass).length + 5 < 2 ^ 31)
    (hfull : (e 6).stored = 0) :
    ∃ r fs', appendRun hs rest e fs = (r, fs') ∧ Saved r ∧ fs' demoFile = .file [] := by
  obtain ⟨b', -, -, -, h⟩ := C87_appends_partial (rest := rest) e fs b hl he hb ha hn
  exact ⟨_, _, h, rfl, by simp [FS.set, hfull]⟩

example : savedAs (appendRun toyHashes noRest (fun _ => { openEnv with stored := 0 }) demoDisk) (fun n => n == .file []) = true := by
  decide +kernel

/-- C87: if the program reports a successful save, then its file was one that the password opens, and what was written is
that file with five bytes more behind what the password shows; in an ordinary world, in which reading, writing and creating
files may be forbidden and disks may be full.

Missing: the disk may have kept only a first part of what was written. -/
theorem C87_saved_partial (e : Nat → Env) (fs fs' : FS) (r : Res Ret) (he : ∀ i, Ordinary (e i)) (ht : Tame (fs demoFile))
    (hn : ∀ c, fs demoFile = .file c → c.length + 5 < 2 ^ 31)
    (h : appendRun hs rest e fs = (r, fs')) (hsv : Saved r) :
    ∃ b b', InSlot hs (fs demoFile) (.box b) ∧ b.accepts demoPass ∧ Grown b b' demoPass [0, 1, 2, 3, 4] ∧
      InSlot hs (.file b'.raw) (.box b') ∧ fs' = fs.set demoFile (.file (b'.raw.take (e 6).stored)) := by
  have h0 := (append_start h).resolve_left fun hx => hx.2 _ hsv
  obtain ⟨r1, w1, r2, w2, c1, c2, f1, f2, g2, hv⟩ := verified_or_not (hs := hs) (rest := rest) (pw := demoPass) file_path ht (he 1) (he 2)
  rw [append_tail h0 c1 c2] at h
  rcases hv with hst | ⟨b, v2, hb, ha, l2, p2, s2⟩
  · rw [next_ok (wrong_decrypt hst)] at h
    simp only [appended, next] at h
    cases h; cases hsv
  · rcases decrypted_or_not (rest := rest) (e := e 3) l2 p2 s2 with c3 | ⟨x, w3, v3, c3, hx, l3, p3⟩
    · rw [next_ok c3] at h
      simp only [appended, next] at h
      cases h; cases hsv
    · rw [next_ok c3] at h
      simp only at h
      rw [next_ok appended_ok] at h
      have f3 : w3.fs = fs := (same_disk c3 fun q hq => hq).trans f2
      have g3 := same_file c3 (p := demoFile) (fun q hq => by cases hq) g2
      have hlen : (b.shows demoPass).length + 5 < 2 ^ 31 := by
        generalize hc : fs demoFile = c at hb
        cases hb with
        | box hb =>
          have h1 := hn _ hc
          have h2 := (hb.shows demoPass).1
          rw [List.length_append] at h1
          omega
      obtain ⟨b', h1, h2, h3, h4⟩ := finish_saved l3 p3 (he 4).rand
        (data := ⟨x.data ++ [0, 1, 2, 3, 4], x.data.length + 5⟩) (by simp [hx]; omega) g3 h hsv
      exact ⟨b, b', hb, ha, ⟨fun y => by rw [h1], by rw [h2, hx]⟩, h3, by rw [h4, f3]⟩

theorem demoDisk_tame : Tame (demoDisk demoFile) := by
  have := harmless_take demoHeader_valid [9, 9, 9] (by decide +kernel) (by decide) (by decide) 1000
  rwa [List.take_of_length_le (by decide +kernel)] at this

example : (∀ _ : Nat, Ordinary openEnv) ∧ Tame (demoDisk demoFile) ∧
    (∀ c, demoDisk demoFile = .file c → c.length + 5 < 2 ^ 31) :=
  ⟨fun _ => openEnv_ordinary, demoDisk_tame, fun c h => by cases h; decide +kernel⟩

/-- C87: a file that the password does not open (or something that is no file of this kind at all) makes the program break
off with an exception; the disk stays as it is. -/
theorem C87_refuses (e : Nat → Env) (fs : FS) (he : ∀ i, Ordinary (e i)) (ht : Tame (fs demoFile)) (hl : Listable (e 0) fs)
    (hb : ∀ b, InSlot hs (fs demoFile) (.box b) → ¬ b.accepts demoPass) :
    appendRun hs rest e fs = (.exn .logicError, fs) := by
  obtain ⟨r1, w1, r2, w2, c1, c2, f1, f2, g2, hv⟩ := verified_or_not (hs := hs) (rest := rest) (pw := demoPass) file_path ht (he 1) (he 2)
  rw [append_tail (start_ok hl) c1 c2]
  rcases hv with hst | ⟨b, v2, hb', ha, -⟩
  · rw [next_ok (wrong_decrypt hst)]
    simp only [appended, next, f2]
  · exact absurd ha (hb b hb')

/-- a file with another validator -/
def otherDisk : FS := demoDisk.set demoFile (.file smallVault)

theorem otherDisk_breaks : brokeOff (appendRun toyHashes noRest (fun _ => openEnv) otherDisk)
    (fun n => n == .file smallVault) = true := by decide +kernel

example : (∀ _ : Nat, Ordinary openEnv) ∧ Tame (otherDisk demoFile) ∧ Listable openEnv otherDisk ∧
    ∀ b, InSlot toyHashes (otherDisk demoFile) (.box b) → ¬ b.accepts demoPass := by
  refine ⟨fun _ => openEnv_ordinary, smallVault_harmless, ⟨by decide +kernel, rfl, fun _ h => by cases h⟩, ?_⟩
  intro b hb ha
  have hlen : (b.shows demoPass).length + 5 < 2 ^ 31 := by
    generalize hc : otherDisk demoFile = c at hb
    cases hb with
    | box hb =>
      have h1 := hb.small
      have h2 := (hb.shows demoPass).1
      have h3 : smallVault.length + 5 < 2 ^ 31 := by decide +kernel
      have h4 := Node.file.inj (show Node.file smallVault = _ from hc)
      rw [h4, List.length_append] at h3
      omega
  obtain ⟨b', -, -, -, h⟩ := C87_appends_partial (rest := noRest) (fun _ => openEnv) otherDisk b
    ⟨by decide +kernel, rfl, fun _ h => by cases h⟩ (fun _ => healthy_open _) hb ha hlen
  have hx := otherDisk_breaks
  rw [h] at hx
  cases hx

/-! ### the branch that is switched off -/

theorem new_tail {e : Nat → Env} {fs : FS} {r1 r2 : Ret} {w1 w2 : World} (h0 : start (e 0) fs = .ok demoDir)
    (h1 : call hs rest (e 1) ⟨⟨.INIT, 1, none, Bytes.empty 0, none, none, none⟩, fs⟩ (.createFile demoFile) = .ok (r1, w1))
    (h2 : call hs rest (e 2) w1 (.selectFile demoFile) = .ok (r2, w2)) :
    newRun hs rest e fs = next w2.fs (call hs rest (e 3) w2 (.createDataHeader demoPass demoSettings 0)) fun (_, w) =>
      next w.fs (call hs rest (e 7) w .getFileData) fun (r, w) =>
      next w.fs (replaced r) fun fd => finish hs rest e w fd := by
  unfold newRun
  rw [next_ok settings_eq, next_ok new_eq, next_ok h0, file_eq, next_ok h1]
  simp only
  rw [next_ok h2]
  rfl

theorem new_start {e : Nat → Env} {fs fs' : FS} {r : Res Ret} (h : newRun hs rest e fs = (r, fs')) :
    (fs' = fs ∧ ∀ y, r ≠ .ok y) ∨ start (e 0) fs = .ok demoDir := by
  unfold newRun at h
  rw [next_ok settings_eq, next_ok new_eq] at h
  rcases next_cases h with ⟨d, hd, -⟩ | hx
  · exact .inr (by rw [hd, start_dir hd])
  · exact .inl hx

/-- C87, the branch that is switched off, in a healthy world with a directory that can be listed: a file that is missing or
empty becomes one that the password opens and that shows the five bytes. What lies on the disk afterwards is what the disk
had room for. -/
theorem C87_new_partial (e : Nat → Env) (fs : FS) (hl : Listable (e 0) fs) (he : ∀ i, Healthy (e i) demoFile)
    (hf : fs demoFile = .missing ∨ fs demoFile = .file []) :
    ∃ b : Box, madeLocks hs demoSettings demoPass b.accepts ∧ b.shows demoPass = [0, 1, 2, 3, 4] ∧
      InSlot hs (.file b.raw) (.box b) ∧ b.raw.length < 2 ^ 31 + 200000 ∧
      newRun hs rest e fs = (.ok (.plain (.success ())), fs.set demoFile (.file (b.raw.take (e 6).stored))) := by
  have hsl : ∃ sl, InSlot hs (fs demoFile) sl ∧ (sl = .missing ∨ sl = .empty) := by
    rcases hf with h | h <;> rw [h]
    · exact ⟨_, .missing, .inl rfl⟩
    · exact ⟨_, .empty, .inr rfl⟩
  obtain ⟨sl, hin, hsl⟩ := hsl
  obtain ⟨r1, w1, v1, c1, s1, l1, -⟩ := sim_create (rest := rest) (e := e 1) (linked_one hin) (p := demoFile) (fun _ h => h rfl)
    (fun _ => (he 1).create) rfl
  have hv1 : v1.phase = .idle ∧ v1.slots demoFile = .empty := by
    have hbad : ∀ code, ¬ BadPath demoFile code := by
      rintro code (⟨h, -⟩ | ⟨-, h, -⟩)
      · exact absurd h (by decide)
      · exact h file_path
    cases s1 with
    | refused h => exact absurd trivial h
    | lacking h => exact h.elim
    | createBad _ h => exact absurd h (hbad _)
    | createExists _ _ h => exact ⟨rfl, hsl.resolve_left h⟩
    | create => exact ⟨rfl, by simp [Vault.put]⟩
  obtain ⟨p1, e1⟩ := hv1
  have f1 : w1.fs demoFile = .file [] ∧ ∀ n, w1.fs.set demoFile n = fs.set demoFile n := by
    have h1 := l1.disk demoFile file_path fun h => h rfl
    rw [e1] at h1
    refine ⟨by generalize w1.fs demoFile = n at h1; cases h1; rfl, fun n => ?_⟩
    funext q
    by_cases hq : q = demoFile
    · simp [FS.set, hq]
    · simp only [FS.set, if_neg hq]
      exact (call_frame c1).1 q (by simpa [mayTouch] using hq)
  obtain ⟨r2, w2, v2, c2, s2, l2, -⟩ := sim_select (rest := rest) (e := e 2) l1 (p := demoFile) (fun _ h => h rfl)
    (fun _ => (he 2).read) ((he 2).rand 0) p1
  obtain ⟨-, rfl⟩ := s2.at_select p1 file_path (by rw [e1]; simp)
  have hu := settings_usable settings_eq
  obtain ⟨r3, w3, v3, c3, s3, l3, -⟩ := sim_header (rest := rest) (e := e 3) (pw := demoPass) (t := 0) l2 (he 3).rand (.inl ⟨demoFile, rfl⟩)
    hu.complete hu.built hu.full
  obtain ⟨-, L, hL, rfl⟩ := s3.at_header (p := demoFile) rfl e1 hu.complete ⟨hu.dec, hu.enc⟩
  obtain ⟨r4, w4, v4, c4, s4, l4, -⟩ := sim_fileData (rest := rest) (e := e 7) l3 rfl
  have f2 : w2.fs = w1.fs := same_disk c2 fun q hq => hq
  have f3 : w3.fs = w1.fs := (same_disk c3 fun q hq => hq).trans f2
  have f4 : w4.fs = w1.fs := (same_disk c4 fun q hq => hq).trans f3
  rw [new_tail (start_ok hl) c1 c2]
  cases s4 with
  | refused h => exact absurd trivial h
  | lacking h => exact h.elim
  | stale h => cases h
  | fresh h hr =>
    cases h
    obtain ⟨b, h1, h2, h3, h5, h4⟩ := finish_ok (rest := rest) (en := e) l4 (p := demoFile) rfl (he 4).rand
      (data := ⟨[0, 1, 2, 3, 4], 5⟩) (by decide) (by rw [f4]; exact f1.1) (he 6).read (he 6).write
    refine ⟨b, by rw [h1]; exact hL, h2, h3, h5, ?_⟩
    rw [show demoSettings = _ from rfl, next_ok c3]
    simp only
    rw [next_ok c4]
    simp only
    rw [next_ok replaced_ok, h4, f4, f1.2]

/-- a disk with nothing but the directory -/
def bareDisk : FS := fun p => if p = demoDir then .dir else .missing

theorem bareDisk_listable : Listable openEnv bareDisk := ⟨by decide, rfl, fun _ h => by cases h⟩

example : Listable openEnv bareDisk ∧ (∀ _ : Nat, Healthy openEnv demoFile) ∧ bareDisk demoFile = .missing :=
  ⟨bareDisk_listable, fun _ => healthy_open _, by decide⟩

/-- C87, both branches one after the other, with room on the disk: the file shows the five bytes twice. -/
theorem C87_new_then_append (e e' : Nat → Env) (fs fs1 : FS) (r1 : Res Ret) (hl : Listable (e 0) fs) (he : ∀ i, Friendly (e i))
    (he' : ∀ i, Friendly (e' i)) (hf : fs demoFile = .missing ∨ fs demoFile = .file [])
    (h1 : newRun hs rest e fs = (r1, fs1)) (hl' : Listable (e' 0) fs1) :
    ∃ b r2 fs2, appendRun hs rest e' fs1 = (r2, fs2) ∧ Saved r1 ∧ Saved r2 ∧ InSlot hs (fs2 demoFile) (.box b) ∧
      b.accepts demoPass ∧ b.shows demoPass = [0, 1, 2, 3, 4, 0, 1, 2, 3, 4] := by
  obtain ⟨b, hL, hx, hin, hlen, h⟩ := C87_new_partial (hs := hs) (rest := rest) e fs hl (fun i => (he i).healthy _) hf
  rw [h] at h1
  cases h1
  have hroom := (he 6).room
  have hin' : InSlot hs ((fs.set demoFile (.file (b.raw.take (e 6).stored))) demoFile) (.box b) := by
    simp only [FS.set, if_true]
    rw [List.take_of_length_le (by omega)]; exact hin
  obtain ⟨hh, -, hop, hiff⟩ := hL
  obtain ⟨b', fs2, ⟨g1, g2⟩, g3, -, g4⟩ := C87_appends_room (rest := rest) e' _ b hl' he' hin' ((hiff _).mpr hop) (by rw [hx]; decide)
  exact ⟨b', _, fs2, g4, rfl, rfl, g3, (g1 _).mpr ((hiff _).mpr hop), by rw [g2, hx]; rfl⟩

/-- listing still works when a file has been written -/
example (c : List Byte) : Listable openEnv (bareDisk.set demoFile (.file c)) :=
  ⟨by simp [FS.set, bareDisk, show demoDir ≠ demoFile by decide], rfl, fun _ h => by cases h⟩

/-- C87, the branch that is switched off: whatever the disk and the outside are like, it changes no file but its own; unless it
reports a successful save it changes nothing at all, except that the file may have been created; and something that is not
empty is never touched. -/
theorem C87_new_unchanged (e : Nat → Env) (fs fs' : FS) (r : Res Ret) (h : newRun hs rest e fs = (r, fs')) :
    (∀ q, q ≠ demoFile → fs' q = fs q) ∧
    (¬ Saved r → fs' = fs ∨ (fs demoFile = .missing ∧ fs' = fs.set demoFile (.file []))) ∧
    ((∃ c, fs demoFile = .file c ∧ c ≠ []) → ¬ Saved r ∧ fs' = fs) := by
  have key : ∃ fs1, (fs1 = fs ∨ (fs demoFile = .missing ∧ fs1 = fs.set demoFile (.file []))) ∧
      ((¬ Saved r ∧ fs' = fs1) ∨ (Saved r ∧ (∀ c, fs demoFile = .file c → c = []) ∧ ∃ n, fs' = fs1.set demoFile n)) := by
    rcases new_start h with ⟨rfl, hr⟩ | h0
    · exact ⟨_, .inl rfl, .inl ⟨fun hx => hr _ hx, rfl⟩⟩
    unfold newRun at h
    rw [next_ok settings_eq, next_ok new_eq, next_ok h0, file_eq] at h
    rcases next_cases h with ⟨⟨r1, w1⟩, h1, h⟩ | ⟨rfl, hr⟩
    case inr => exact ⟨_, .inl rfl, .inl ⟨fun hx => hr _ hx, rfl⟩⟩
    have g1 := same_file h1 (p := demoFile) (fun q hq => by cases hq) (fun f hf => by cases hf)
    have d1 : w1.api.state = .INIT ∧ (w1.fs = fs ∨ (fs demoFile = .missing ∧ w1.fs = fs.set demoFile (.file []))) := by
      simp only [call] at h1
      obtain ⟨⟨o, fs1⟩, hc, h1⟩ := Res.bind_eq_ok.mp h1
      have hk := createFile_cases hc
      have hw : w1 = ⟨⟨.INIT, 1, none, Bytes.empty 0, none, none, none⟩, fs1⟩ := by
        cases o <;> cases h1 <;> rfl
      subst hw
      refine ⟨rfl, ?_⟩
      rcases hk with ⟨rfl, -⟩ | ⟨-, -, hm, -, rfl⟩
      · exact .inl rfl
      · exact .inr ⟨hm, rfl⟩
    refine ⟨w1.fs, d1.2, ?_⟩
    rcases next_cases h with ⟨⟨r2, w2⟩, h2, h⟩ | ⟨rfl, hr⟩
    case inr => exact .inl ⟨fun hx => hr _ hx, rfl⟩
    have f2 := same_disk h2 fun q hq => hq
    have g2 := same_file h2 (p := demoFile) (fun q hq => by cases hq; rfl) g1
    rcases next_cases h with ⟨⟨r3, w3⟩, h3, h⟩ | ⟨rfl, hr⟩
    case inr => exact .inl ⟨fun hx => hr _ hx, f2⟩
    have f3 := (same_disk h3 fun q hq => hq).trans f2
    have g3 := same_file h3 (p := demoFile) (fun q hq => by cases hq) g2
    rcases next_cases h with ⟨⟨r4, w4⟩, h4, h⟩ | ⟨rfl, hr⟩
    case inr => exact .inl ⟨fun hx => hr _ hx, f3⟩
    have f4 := (same_disk h4 fun q hq => hq).trans f3
    have g4 := same_file h4 (p := demoFile) (fun q hq => by cases hq) g3
    rcases next_cases h with ⟨fd, h5, h⟩ | ⟨rfl, hr⟩
    case inr => exact .inl ⟨fun hx => hr _ hx, f4⟩
    rcases finish_cases h g4 with ⟨hn, rfl⟩ | ⟨hsv, -, -, -, -, -, -, -, b, -, rfl⟩
    · exact .inl ⟨hn, f4⟩
    refine .inr ⟨hsv, ?_, _, by rw [f4]⟩
    intro c hc
    -- the data were handed out, so there was a header; so the file was found empty
    have st3 : w3.api.state = .DECRYPTED := by
      obtain ⟨m, b, rfl⟩ := replaced_data h5
      simp only [call] at h4
      split at h4
      · assumption
      · simp [wrongState] at h4
    have st2 : w2.api.state = .EMPTY_FILE_SELECTED ∨ w2.api.state = .DECRYPTED := by
      by_cases hin : w2.api.state ∈ statesFor (.createDataHeader pass demoSettings 0)
      · simpa [statesFor] using hin
      · obtain ⟨r', hw, -⟩ := call_wrong hs rest (e 3) w2 _ hin
        rw [hw] at h3; cases h3
        exact .inr st3
    simp only [call, d1.1] at h2
    obtain ⟨⟨o, w2'⟩, hsel, h2⟩ := Res.bind_eq_ok.mp h2
    cases h2
    rcases selectFile_cases hsel with ⟨-, rfl⟩ | ⟨-, f, hf, hx⟩
    · rw [d1.1] at st2; simp at st2
    rcases hx with ⟨hem, -⟩ | ⟨-, d, -, rfl⟩
    · obtain ⟨-, -, hr, hu, -⟩ := getFileHandler_success hf
      have hc1 : w1.fs demoFile = .file c := by
        rcases d1.2 with hd | ⟨hm, -⟩
        · rw [hd]; exact hc
        · rw [hc] at hm; cases hm
      exact (update_empty hc1 hr hu).1.mp hem
    · simp at st2
  obtain ⟨fs1, hf1, hx⟩ := key
  have same : ∀ q, q ≠ demoFile → fs1 q = fs q := by
    rcases hf1 with rfl | ⟨-, rfl⟩
    · exact fun _ _ => rfl
    · exact fun q hq => by simp [FS.set, hq]
  rcases hx with ⟨hn, rfl⟩ | ⟨hsv, hem, n, rfl⟩
  · refine ⟨same, fun _ => hf1, ?_⟩
    rintro ⟨c, hc, -⟩
    rcases hf1 with rfl | ⟨hm, -⟩
    · exact ⟨hn, rfl⟩
    · rw [hc] at hm; cases hm
  · refine ⟨fun q hq => by simp only [FS.set, if_neg hq]; exact same q hq, fun hn => absurd hsv hn, ?_⟩
    rintro ⟨c, hc, hne⟩
    exact absurd (hem c hc) hne

example : brokeOff (newRun toyHashes noRest (fun _ => openEnv) demoDisk)
    (fun n => n == .file (demoHeader.bytes ++ [9, 9, 9])) = true := by decide +kernel

end Verif.Props
