import Verif.Model.AppRun
import Verif.Props.AppHeader
import Verif.Props.App
import Verif.Props.Content

/- A whole run of the app: C106. -/
namespace Verif.Props
open Spec App

theorem setUpEmpty_never (hs : Hashes) (fuel : Nat) (s : Start) (c : Console) (b : Bool) : setUpEmpty hs fuel s c ≠ .ok b := by
  intro h
  simp only [setUpEmpty, Res.bind_eq_ok] at h
  obtain ⟨⟨a, c'⟩, -, x, hx, -⟩ := h
  exact C105_violated_header hs a (s.data1 a) (s.data2 a) s.rand s.clk x hx

theorem afterPrint_empty (hs : Hashes) (fuel : Nat) (e : Env) (fs : FS) (s : Start) (p : Path) (c : Console) (hf : fs p = .file [])
    (hr : e.canRead p = true) (b : Bool) : afterPrint hs fuel e fs s p c ≠ .ok b := by
  have h := C68_first_bytes_partial e fs ⟨p, 0, 0, true⟩ [] hf hr 1 0 (by decide)
  rw [if_neg (by simp)] at h
  simp only [afterPrint, h]
  exact setUpEmpty_never hs fuel s c b

theorem afterPrint_full (hs : Hashes) (fuel : Nat) (e : Env) (fs : FS) (s : Start) (p : Path) (c : Console) (x : List Byte)
    (hf : fs p = .file x) (hx : x ≠ []) (hr : e.canRead p = true) : afterPrint hs fuel e fs s p c = .ok true := by
  have h := C68_first_bytes_partial e fs ⟨p, 0, 0, true⟩ x hf hr 1 0 (by decide)
  rw [if_pos (by cases x with | nil => exact absurd rfl hx | cons a l => simp)] at h
  obtain ⟨b, h, -⟩ := h
  simp only [afterPrint, h]

theorem set_same {fs : FS} {p : Path} : fs.set p (fs p) = fs := by
  funext q; simp only [FS.set]; split
  · rename_i h; rw [h]
  · rfl

theorem printStart_disk (fuel : Nat) (e : Env) (fs : FS) (cwd stored : Path) (c : Console) (p : Path) (fs' : FS) (c' : Console)
    (h : printStart fuel e fs cwd stored c = .ok (p, fs', c')) : fs' = fs ∨ fs' = fs.set p (afterStart e p (fs p)) := by
  by_cases hs : stored = []
  · subst hs
    rw [start_name, Res.bind_eq_ok] at h
    obtain ⟨⟨name, c1⟩, -, h⟩ := h
    simp only [Res.ok.injEq, Prod.mk.injEq] at h
    obtain ⟨h1, h2, -⟩ := h
    rw [h1] at h2
    cases hp : fs p with
    | missing =>
      cases hw : e.canCreate p <;> simp [FS.opens, FS.openOut, hp, hw] at h2
      · exact .inl h2.symm
      · exact .inr (by simp [afterStart, hw, h2])
    | file content =>
      cases hr : e.canRead p <;> cases hw : e.canWrite p <;> simp [FS.opens, FS.openOut, hp, hr, hw] at h2
      · exact .inl h2.symm
      · exact .inr (by simp [afterStart, hr, hw, h2])
      · exact .inl h2.symm
      · exact .inl h2.symm
    | dir =>
      cases hr : e.canRead p <;> simp [FS.opens, FS.openOut, hp, hr] at h2 <;> exact .inl h2.symm
    | unreachable =>
      simp [FS.opens, FS.openOut, hp] at h2
      exact .inl h2.symm
  · rw [C78_remembered fuel e fs cwd stored c hs] at h
    cases h; exact .inl rfl

/-- C106 is violated: whatever is answered, a run with an empty file from an earlier start never ends well, and the file is as
empty as before. -/
theorem C106_violated (hs : Hashes) (fuel : Nat) (e : Env) (fs : FS) (s : Start) (c : Console) (hp : s.stored ≠ [])
    (hf : fs s.stored = .file []) (hr : e.canRead s.stored = true) :
    (∀ b, (run hs fuel e fs s c).1 ≠ .ok b) ∧ (run hs fuel e fs s c).2 = fs := by
  simp only [run, C78_remembered fuel e fs s.cwd s.stored c hp]
  split
  · exact ⟨by simp, rfl⟩
  · exact ⟨afterPrint_empty hs fuel e fs s _ c hf hr, rfl⟩

/-- C106 is violated: a first run never ends well either, whatever is typed. With a name that does not exist yet, an empty
file is left behind. -/
theorem C106_violated_first (hs : Hashes) (e : Env) (fs : FS) (s : Start) (hcwd : s.cwd ≠ []) (hst : s.stored = []) (c : Console)
    (pre post : List (List Byte)) (name : List Byte) (hl : linesLeft c = pre ++ name :: post) (hpre : ∀ x ∈ pre, x = [])
    (hn : name ≠ []) : ∃ p full, Completed name full ∧ SeenFrom s.cwd full p ∧
      (fs p = .missing → e.canCreate p = true → e.canRead p = true → ∀ fuel, pre.length + 1 < fuel →
        (∀ b, (run hs fuel e fs s c).1 ≠ .ok b) ∧ (run hs fuel e fs s c).2 = fs.set p (.file [])) := by
  obtain ⟨p, full, fs', c', h1, h2, h3, -, h5⟩ := C78_start_partial e fs s.cwd hcwd c pre post name hl hpre hn
  refine ⟨p, full, h1, h2, fun hm hc hr fuel hfuel => ?_⟩
  have hfs : fs' = fs.set p (.file []) := by rw [h3, hm]; simp [afterStart, hc]
  subst hfs
  simp only [run, hst, h5 fuel hfuel]
  split
  · exact ⟨by simp, rfl⟩
  · exact ⟨afterPrint_empty hs fuel e _ s p c' (by simp [FS.set]) hr, rfl⟩

/-- C106, as far as it holds: with a file that has content, remembered from an earlier run, the run ends well without a
question and without a change. -/
theorem C106_full_partial (hs : Hashes) (fuel : Nat) (e : Env) (fs : FS) (s : Start) (c : Console) (hp : s.stored ≠ [])
    (hk : s.kept s.stored = true) (x : List Byte) (hf : fs s.stored = .file x) (hx : x ≠ []) (hr : e.canRead s.stored = true) :
    run hs fuel e fs s c = (.ok true, fs) := by
  simp only [run, C78_remembered fuel e fs s.cwd s.stored c hp, hk, afterPrint_full hs fuel e fs s _ c x hf hx hr]
  rfl

/-- C106, as far as it holds: the same with a file whose name is typed. -/
theorem C106_full_first_partial (hs : Hashes) (e : Env) (fs : FS) (s : Start) (hcwd : s.cwd ≠ []) (hst : s.stored = []) (c : Console)
    (pre post : List (List Byte)) (name : List Byte) (hl : linesLeft c = pre ++ name :: post) (hpre : ∀ x ∈ pre, x = [])
    (hn : name ≠ []) : ∃ p full, Completed name full ∧ SeenFrom s.cwd full p ∧
      ∀ x, fs p = .file x → x ≠ [] → e.canRead p = true → s.kept p = true → ∀ fuel, pre.length + 1 < fuel →
        run hs fuel e fs s c = (.ok true, fs) := by
  obtain ⟨p, full, fs', c', h1, h2, h3, -, h5⟩ := C78_start_partial e fs s.cwd hcwd c pre post name hl hpre hn
  refine ⟨p, full, h1, h2, fun x hf hx hr hk fuel hfuel => ?_⟩
  have hfs : fs' = fs := by
    rw [h3, hf]; simp only [afterStart, hr, Bool.true_eq_false, false_and, if_false]; rw [← hf]; exact set_same
  subst hfs
  simp only [run, hst, h5 fuel hfuel, hk, afterPrint_full hs fuel e fs' s p c' x hf hx hr]
  rfl

/-- C106: if the file from an earlier run cannot be opened, the run ends with an exception, without a question and without a
change. -/
theorem C106_unreadable (hs : Hashes) (fuel : Nat) (e : Env) (fs : FS) (s : Start) (c : Console) (hp : s.stored ≠ [])
    (hk : s.kept s.stored = true) (hf : fs s.stored = .missing ∨ fs s.stored = .unreachable ∨ e.canRead s.stored = false) :
    run hs fuel e fs s c = (.exn .runtimeError, fs) := by
  have ho : fs.opens e s.stored = false := by
    rcases hf with h | h | h
    · simp [FS.opens, h]
    · simp [FS.opens, h]
    · unfold FS.opens; split <;> simp [h]
  have hg : FileHandler.getFirstBytes e fs ⟨s.stored, 0, 0, true⟩ 1 0 = .exn .runtimeError := by
    simp [FileHandler.getFirstBytes, ho]
  simp only [run, C78_remembered fuel e fs s.cwd s.stored c hp, hk, afterPrint, hg]
  rfl

/-- C106: no run, however it ends, changes anything but one file, and that one at most by creating or emptying it. -/
theorem C106_disk (hs : Hashes) (fuel : Nat) (e : Env) (fs : FS) (s : Start) (c : Console) :
    (run hs fuel e fs s c).2 = fs ∨ ∃ p, (run hs fuel e fs s c).2 = fs.set p (.file []) := by
  unfold run
  split
  · exact .inl rfl
  · exact .inl rfl
  · rename_i p fs' c' h
    have hd : fs' = fs ∨ ∃ p, fs' = fs.set p (.file []) := by
      rcases printStart_disk _ _ _ _ _ _ _ _ _ h with h | h
      · exact .inl h
      · cases hp : fs p with
        | missing =>
          rw [hp] at h; simp only [afterStart] at h
          split at h
          · exact .inr ⟨p, h⟩
          · rw [← hp, set_same] at h; exact .inl h
        | file content =>
          rw [hp] at h; simp only [afterStart] at h
          split at h
          · exact .inr ⟨p, h⟩
          · rw [← hp, set_same] at h; exact .inl h
        | dir => rw [hp] at h; simp only [afterStart] at h; rw [← hp, set_same] at h; exact .inl h
        | unreachable => rw [hp] at h; simp only [afterStart] at h; rw [← hp, set_same] at h; exact .inl h
    split <;> exact hd

/-- C106: a file that may be read, or may not be written, keeps its content in every run. -/
theorem C106_kept (hs : Hashes) (fuel : Nat) (e : Env) (fs : FS) (s : Start) (c : Console) (q : Path) (x : List Byte)
    (hf : fs q = .file x) (hq : e.canRead q = true ∨ e.canWrite q = false) : (run hs fuel e fs s c).2 q = .file x := by
  have key : ∀ p fs' c', printStart fuel e fs s.cwd s.stored c = .ok (p, fs', c') → fs' q = .file x := by
    intro p fs' c' h
    rcases printStart_disk _ _ _ _ _ _ _ _ _ h with h | h
    · rw [h, hf]
    · rw [h]
      simp only [FS.set]
      split
      · rename_i hqp
        subst hqp
        rw [hf, C78_unchanged_partial e q x hq]
      · exact hf
  unfold run
  split
  · exact hf
  · exact hf
  · rename_i p fs' c' h
    split <;> exact key _ _ _ h

/-- a run that remembers nothing, in the directory `/home` -/
def firstStart : Start := ⟨ascii "/home", [], fun _ => true, fun _ => some (ChainHashData.new .normal),
  fun _ => some (ChainHashData.new .normal), ⟨true, fun _ => 7⟩, fun _ _ => 0⟩

/-- answers to all questions: SHA-256, one round each, a good password -/
def typed : Console := ⟨ascii "vault\n1\n1\n1\n1\n1\n1\nabcdefgh\n", true⟩

/-- the hypotheses of a first run -/
example : firstStart.cwd ≠ [] ∧ linesLeft typed = [] ++ ascii "vault" :: [ascii "1", ascii "1", ascii "1", ascii "1", ascii "1",
    ascii "1", ascii "abcdefgh"] := by decide

/-- all questions are answered well, and still: an exception, and an empty file -/
example : (run toyHashes 9 openEnv (fun _ => .missing) firstStart typed).1 = .exn .logicError ∧
    (run toyHashes 9 openEnv (fun _ => .missing) firstStart typed).2 (ascii "/home/vault.enc") = .file [] := by decide +kernel

/-- a remembered file, without and with content -/
example : (run toyHashes 9 openEnv (fun _ => .file []) { firstStart with stored := ascii "/home/vault.enc" } typed).1 =
      .exn .logicError ∧
    (run toyHashes 9 openEnv (fun _ => .file [7]) { firstStart with stored := ascii "/home/vault.enc" } ⟨[], true⟩).1 = .ok true := by
  decide +kernel

/-- a remembered file that is gone -/
example : (run toyHashes 9 openEnv (fun _ => .missing) { firstStart with stored := ascii "/home/vault.enc" } typed).1 =
    .exn .runtimeError := by decide +kernel

/-- a typed name of a file with content -/
example : (run toyHashes 9 openEnv (fun _ => .file [7]) firstStart typed).1 = .ok true := by decide +kernel

end Verif.Props
