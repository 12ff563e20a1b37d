import Verif.Lemmas.SessionInv
import Verif.Spec.History

/- What the history of a session must have been. -/
namespace Verif.Api
open Spec PwFunc
variable {hs : Hashes} {rest : Helper → Res Helper} {e : Env} {w0 w w' : World}

/-- the file was selected and is still selected -/
def Selected (hs : Hashes) (rest : Helper → Res Helper) (w0 : World) (hist : List Event) (w : World) (h : Header) : Prop :=
  ∃ pre p e1 mid rs1 w1 data, hist = pre ++ .call (.selectFile p) e1 :: mid ∧ run hs rest w0 pre = .ok (rs1, w1) ∧
    w1.fs p = .file (h.bytes ++ data) ∧ h.Valid ∧
    StaysSelected hs rest w0 (pre ++ [.call (.selectFile p) e1]) mid p ∧
    w.api.dh = some (HeaderParse.mkHeader h) ∧ w.api.selected = some ⟨p, h.length, h.fileSize, false⟩

/-- … and a matching password was given -/
def Verified (hs : Hashes) (rest : Helper → Res Helper) (w0 : World) (hist : List Event) (w : World) (h : Header) : Prop :=
  ∃ pre p e1 mid pw t e2 post rs1 w1 data m, hist = pre ++ .call (.selectFile p) e1 :: (mid ++ .call (.verifyPassword pw t) e2 :: post) ∧
    run hs rest w0 pre = .ok (rs1, w1) ∧ w1.fs p = .file (h.bytes ++ data) ∧ h.Valid ∧
    StaysSelected hs rest w0 (pre ++ [.call (.selectFile p) e1]) (mid ++ .call (.verifyPassword pw t) e2 :: post) p ∧
    w.api.dh = some (HeaderParse.mkHeader h) ∧ w.api.selected = some ⟨p, h.length, h.fileSize, false⟩ ∧
    m.toByte = h.hashMode ∧ w.api.pwHash.data = h.ch1.digest (hs.get m).h pw ∧
    h.ch2.digest (hs.get m).h w.api.pwHash.data = h.validator

structure Ghost (hs : Hashes) (rest : Helper → Res Helper) (w0 : World) (hist : List Event) (w : World) : Prop where
  run : ∃ rs, run hs rest w0 hist = .ok (rs, w)
  sel : w.api.state = .FILE_SELECTED → ∃ h, Selected hs rest w0 hist w h
  ver : w.api.state = .PASSWORD_VERIFIED → ∃ h, Verified hs rest w0 hist w h
  data : ∀ fd, w.api.fileData = some fd → ∀ b, fd.decData = some b → b.data = []

theorem run_snoc {hist : List Event} {ev : Event} {rs : List (Option Ret)} {r : Option Ret}
    (h1 : run hs rest w0 hist = .ok (rs, w)) (h2 : step hs rest w ev = .ok (r, w')) :
    run hs rest w0 (hist ++ [ev]) = .ok (rs ++ [r], w') := by
  rw [run_append]
  refine ⟨rs, w, [r], h1, ?_, rfl⟩
  rw [run, h2]; rfl

theorem stays_snoc {pre mid : List Event} {ev : Event} {p : Path} {rs : List (Option Ret)} {f : FileHandler}
    (h : StaysSelected hs rest w0 pre mid p) (hr : run hs rest w0 (pre ++ (mid ++ [ev])) = .ok (rs, w))
    (hf : w.api.selected = some f) (hp : f.path = p) : StaysSelected hs rest w0 pre (mid ++ [ev]) p := by
  intro a b hab
  rcases List.eq_nil_or_concat b with rfl | ⟨b', x, rfl⟩
  · rw [List.append_nil] at hab
    subst hab
    exact ⟨rs, w, f, hr, hf, hp⟩
  · rw [List.concat_eq_append, ← List.append_assoc] at hab
    have := List.append_inj' hab rfl
    exact h a b' this.1

/-- a step that changes none of the things looked at -/
theorem Ghost.keep {hist : List Event} {ev : Event} {r : Option Ret} (g : Ghost hs rest w0 hist w)
    (hs' : step hs rest w ev = .ok (r, w')) (h1 : w'.api.state = w.api.state) (h2 : w'.api.dh = w.api.dh)
    (h3 : w'.api.selected = w.api.selected) (h4 : w'.api.pwHash = w.api.pwHash)
    (h5 : w'.api.fileData = w.api.fileData) : Ghost hs rest w0 (hist ++ [ev]) w' := by
  obtain ⟨⟨rs, hr⟩, g1, g2, g3⟩ := g
  have hr' := run_snoc hr hs'
  refine ⟨⟨_, hr'⟩, ?_, ?_, ?_⟩
  · intro hst
    obtain ⟨h, pre, p, e1, mid, rs1, w1, data, rfl, k2, k3, k4, k5, k6, k7⟩ := g1 (by rw [← h1]; exact hst)
    refine ⟨h, pre, p, e1, mid ++ [ev], rs1, w1, data, by simp, k2, k3, k4, ?_, by rw [h2]; exact k6, by rw [h3]; exact k7⟩
    exact stays_snoc k5 (by rw [← hr']; simp) (by rw [h3]; exact k7) rfl
  · intro hst
    obtain ⟨h, pre, p, e1, mid, pw, t, e2, post, rs1, w1, data, m, rfl, k2, k3, k4, k5, k6, k7, k8, k9, k10⟩ :=
      g2 (by rw [← h1]; exact hst)
    refine ⟨h, pre, p, e1, mid, pw, t, e2, post ++ [ev], rs1, w1, data, m, by simp, k2, k3, k4, ?_, by rw [h2]; exact k6,
      by rw [h3]; exact k7, k8, by rw [h4]; exact k9, by rw [h4]; exact k10⟩
    have := stays_snoc (w := w') k5 (ev := ev) (rs := rs ++ [r]) (by rw [← hr']; simp) (by rw [h3]; exact k7) rfl
    simpa using this
  · intro fd hfd
    exact g3 fd (by rw [← h5]; exact hfd)

/-- a step into a state not looked at -/
theorem Ghost.other {hist : List Event} {ev : Event} {r : Option Ret} (g : Ghost hs rest w0 hist w)
    (hs' : step hs rest w ev = .ok (r, w')) (h1 : w'.api.state ≠ .FILE_SELECTED)
    (h2 : w'.api.state ≠ .PASSWORD_VERIFIED) (h5 : ∀ fd, w'.api.fileData = some fd → ∀ b, fd.decData = some b → b.data = []) :
    Ghost hs rest w0 (hist ++ [ev]) w' := by
  obtain ⟨rs, hr⟩ := g.run
  exact ⟨⟨_, run_snoc hr hs'⟩, fun h => absurd h h1, fun h => absurd h h2, h5⟩

theorem Ghost.step {hist : List Event} {ev : Event} {r : Option Ret} (g : Ghost hs rest w0 hist w)
    (hst : step hs rest w ev = .ok (r, w')) : Ghost hs rest w0 (hist ++ [ev]) w' := by
  cases ev with
  | outside p n => have h := hst; cases h; exact g.keep hst rfl rfl rfl rfl rfl
  | call c e =>
  obtain ⟨x, rfl, h⟩ := step_call hst
  by_cases hw : w.api.state ∈ statesFor c
  case neg =>
    obtain ⟨r', hr, -⟩ := call_wrong hs rest e w c hw
    rw [hr] at h; cases h
    exact g.keep hst rfl rfl rfl rfl rfl
  cases c with
  | getRelevantFileNames dir =>
    simp only [call] at h
    split at h
    · obtain ⟨o, -, h⟩ := Res.bind_eq_ok.mp h
      cases h; exact g.keep hst rfl rfl rfl rfl rfl
    · cases h; exact g.keep hst rfl rfl rfl rfl rfl
  | createFile p =>
    simp only [call] at h
    split at h
    · obtain ⟨⟨o, fs⟩, hc, h⟩ := Res.bind_eq_ok.mp h
      simp only [Res.ok.injEq, Prod.mk.injEq] at h
      obtain ⟨-, rfl⟩ := h
      exact g.keep hst rfl rfl rfl rfl rfl
    · cases h; exact g.keep hst rfl rfl rfl rfl rfl
  | selectFile p =>
    simp only [call] at h
    split at h
    · obtain ⟨⟨o, w1⟩, hc, h⟩ := Res.bind_eq_ok.mp h
      cases h
      rcases selectFile_cases hc with ⟨-, rfl⟩ | ⟨-, f, hf, ⟨he, rfl⟩ | ⟨he, d, hd, rfl⟩⟩
      · exact g.keep hst rfl rfl rfl rfl rfl
      · exact g.other hst (by simp [selectEmptyFile]) (by simp [selectEmptyFile]) g.data
      · obtain ⟨-, hh, data, hv, -, hfile, -, henc, rfl, rfl⟩ := select_header hf he hd
        obtain ⟨rs, hr⟩ := g.run
        have hr' := run_snoc hr hst
        refine ⟨⟨_, hr'⟩, fun _ => ⟨hh, hist, p, e, [], rs, w, data, rfl, hr, hfile, hv, ?_, rfl, rfl⟩, fun h => (by cases h),
          g.data⟩
        intro a b hab
        obtain ⟨rfl, rfl⟩ := List.append_eq_nil_iff.mp hab.symm
        rw [List.append_nil]
        exact ⟨_, _, _, hr', rfl, rfl⟩
    · cases h; exact g.keep hst rfl rfl rfl rfl rfl
  | isFileEmpty =>
    simp only [call] at h
    split at h <;> cases h <;> exact g.keep hst rfl rfl rfl rfl rfl
  | unselectFile =>
    simp only [call] at h
    split at h <;> cases h
    · exact g.other hst (by simp [unselect]) (by simp [unselect]) g.data
    · exact g.other hst (by simp [unselect]) (by simp [unselect]) g.data
    · exact g.keep hst rfl rfl rfl rfl rfl
  | deleteFile =>
    have key : ∀ o, deleteSelected e w = .ok (o, w') → Ghost hs rest w0 (hist ++ [.call .deleteFile e]) w' := by
      intro o hd
      rcases deleteSelected_cases hd with ⟨rfl, -⟩ | ⟨-, f, hf, hfs, ha, -⟩
      · exact g.keep hst rfl rfl rfl rfl rfl
      · exact g.other hst (by rw [ha]; simp [unselect]) (by rw [ha]; simp [unselect]) (by rw [ha]; exact g.data)
    simp only [call] at h
    split at h
    · obtain ⟨⟨o, w1⟩, hc, h⟩ := Res.bind_eq_ok.mp h
      cases h; exact key o hc
    · obtain ⟨⟨o, w1⟩, hc, h⟩ := Res.bind_eq_ok.mp h
      cases h; exact key o hc
    · cases h; exact g.keep hst rfl rfl rfl rfl rfl
  | getFileContent =>
    simp only [call] at h
    split at h
    · obtain ⟨o, -, h⟩ := Res.bind_eq_ok.mp h
      cases h
      exact g.keep hst rfl rfl rfl rfl rfl
    all_goals cases h; exact g.keep hst rfl rfl rfl rfl rfl
  | verifyPassword pw t =>
    have hst0 : w.api.state = .FILE_SELECTED := by simpa [statesFor] using hw
    simp only [call, hst0] at h
    obtain ⟨⟨o, s⟩, hc, h⟩ := Res.bind_eq_ok.mp h
    cases h
    rcases verifyPassword_cases hc with ⟨-, rfl⟩ | ⟨-, d, m, h1, v, v', hdh, -, hm, p1, p2, hv', hb, rfl⟩
    · exact g.keep hst rfl rfl rfl rfl rfl
    · obtain ⟨rs, hr⟩ := g.run
      have hr' := run_snoc hr hst
      refine ⟨⟨_, hr'⟩, fun h => (by cases h), fun _ => ?_, g.data⟩
      obtain ⟨hh, pre, p, e1, mid, rs1, w1, data, rfl, k2, k3, k4, k5, k6, k7⟩ := g.sel hst0
      rw [k6] at hdh
      simp only [Option.some.injEq] at hdh
      subst hdh
      have ok := mkHeader_ok k4
      obtain ⟨g1, g2, -⟩ := complete_parts ok.inv ok.complete
      have hcont := HeaderParse.contents_mkHeader k4
      have c1 : (HeaderParse.mkHeader hh).dh.ch1.desc = hh.ch1 := congrArg Header.ch1 hcont
      have c2 : (HeaderParse.mkHeader hh).dh.ch2.desc = hh.ch2 := congrArg Header.ch2 hcont
      have c3 : v'.data = hh.validator := by
        have := congrArg Header.validator hcont
        simp only [DataHeader.contents, hv'] at this
        exact this
      have c4 : m.toByte = hh.hashMode := by
        have := congrArg Header.hashMode hcont
        simp only [DataHeader.contents, hm] at this
        exact this
      rcases g1.str (hs.get m) pw t (e.clk 0) with ⟨-, q1⟩ | ⟨-, b1, q1, q2, q3, q4⟩
      · rw [p1] at q1; cases q1
      rw [p1] at q1; cases q1
      rcases g2.bytes (hs.get m) h1 q3 _ (e.clk 1) with ⟨-, l1⟩ | ⟨-, b2, l1, l2, l3, l4⟩
      · rw [p2] at l1; cases l1
      rw [p2] at l1; cases l1
      refine ⟨hh, pre, p, e1, mid, pw, t, e, [], rs1, w1, data, m, by simp, k2, k3, k4, ?_, k6, k7, c4, ?_, ?_⟩
      · refine stays_snoc k5 (rs := _) (w := _) (Eq.trans (congrArg (Api.run hs rest w0) ?_) hr') k7 rfl
        simp
      · rw [← c1]; exact q2
      · rw [← c2, ← c3, ← l2]; exact beq_iff_eq.mp hb
  | createDataHeader pw ds t =>
    simp only [call] at h
    split at h
    · cases h; exact g.keep hst rfl rfl rfl rfl rfl
    split at h
    · rename_i hst0
      obtain ⟨x, -, h⟩ := Res.bind_eq_ok.mp h
      obtain ⟨⟨o, s⟩, hc, h⟩ := Res.bind_eq_ok.mp h
      cases h
      rcases headerForEmpty_cases hc with ⟨-, rfl⟩ | ⟨-, -, d, -, rfl⟩
      · exact g.keep hst rfl rfl rfl rfl rfl
      · refine g.other hst (by simp) (by simp) ?_
        intro fd hfd b hb
        cases hfd; cases hb; rfl
    · rename_i hst0
      obtain ⟨x, -, h⟩ := Res.bind_eq_ok.mp h
      obtain ⟨⟨o, s⟩, hc, h⟩ := Res.bind_eq_ok.mp h
      cases h
      rcases headerForOpen_cases hc with ⟨-, rfl⟩ | ⟨-, d, -, rfl⟩
      · exact g.keep hst rfl rfl rfl rfl rfl
      · exact g.other hst (by simp [hst0]) (by simp [hst0]) g.data
    · cases h; exact g.keep hst rfl rfl rfl rfl rfl
  | createDataHeaderTime pw ds =>
    simp only [call] at h
    split at h
    · cases h; exact g.keep hst rfl rfl rfl rfl rfl
    split at h
    · rename_i hst0
      obtain ⟨x, -, h⟩ := Res.bind_eq_ok.mp h
      obtain ⟨⟨o, s⟩, hc, h⟩ := Res.bind_eq_ok.mp h
      cases h
      rcases headerForEmpty_cases hc with ⟨-, rfl⟩ | ⟨-, -, d, -, rfl⟩
      · exact g.keep hst rfl rfl rfl rfl rfl
      · refine g.other hst (by simp) (by simp) ?_
        intro fd hfd b hb
        cases hfd; cases hb; rfl
    · rename_i hst0
      obtain ⟨x, -, h⟩ := Res.bind_eq_ok.mp h
      obtain ⟨⟨o, s⟩, hc, h⟩ := Res.bind_eq_ok.mp h
      cases h
      rcases headerForOpen_cases hc with ⟨-, rfl⟩ | ⟨-, d, -, rfl⟩
      · exact g.keep hst rfl rfl rfl rfl rfl
      · exact g.other hst (by simp [hst0]) (by simp [hst0]) g.data
    · cases h; exact g.keep hst rfl rfl rfl rfl rfl
  | changeSalt =>
    simp only [call] at h
    split at h
    · rename_i hst0
      obtain ⟨⟨o, s⟩, hc, h⟩ := Res.bind_eq_ok.mp h
      cases h
      rcases changeSalt_cases hc with ⟨-, rfl⟩ | ⟨-, d, old, b, p, d', -, -, -, -, -, -, rfl⟩
      · exact g.keep hst rfl rfl rfl rfl rfl
      · exact g.other hst (by simp [hst0]) (by simp [hst0]) g.data
    · cases h; exact g.keep hst rfl rfl rfl rfl rfl
  | getDecryptedData =>
    simp only [call] at h
    split at h
    · obtain ⟨⟨o, s⟩, hc, h⟩ := Res.bind_eq_ok.mp h
      cases h
      rcases getDecryptedData_cases hc with ⟨-, rfl⟩ | ⟨r, d, f, m, salt, -, -, -, -, -, -, -, -, rfl⟩
      · exact g.keep hst rfl rfl rfl rfl rfl
      · exact g.other hst (by simp) (by simp) (fun fd hfd => by cases hfd)
    · cases h; exact g.keep hst rfl rfl rfl rfl rfl
  | getFileData =>
    have hst0 : w.api.state = .DECRYPTED := by simpa [statesFor] using hw
    simp only [call, hst0] at h
    cases h
    have e1 : (getFileData w.api).2.state = .DECRYPTED := by unfold getFileData; split <;> exact hst0
    refine g.other hst (by rw [e1]; simp) (by rw [e1]; simp) ?_
    intro fd hfd
    unfold getFileData at hfd
    split at hfd
    · exact g.data fd hfd
    · cases hfd
  | encryptData fd =>
    have hst0 : w.api.state = .DECRYPTED := by simpa [statesFor] using hw
    simp only [call, hst0] at h
    obtain ⟨⟨o, s⟩, hc, h⟩ := Res.bind_eq_ok.mp h
    cases h
    obtain ⟨x, -, hx⟩ := encryptData_cases hc
    rcases hx with ⟨-, rfl | ⟨d, data, -, -, rfl⟩⟩ | ⟨-, -, d, data, r, -, -, -, rfl⟩
    · exact g.keep hst rfl rfl rfl rfl rfl
    · exact g.other hst (by simp [hst0]) (by simp [hst0]) g.data
    · refine g.other hst (by simp) (by simp) ?_
      intro fd hfd b hb
      cases hfd; cases hb
  | writeToFile =>
    have hst0 : w.api.state = .ENCRYPTED := by simpa [statesFor] using hw
    simp only [call, hst0] at h
    obtain ⟨⟨o, w1⟩, hc, h⟩ := Res.bind_eq_ok.mp h
    cases h
    obtain ⟨f, hf, hx⟩ := writeToSelected_cases hc
    rcases hx with ⟨-, hfs, ha⟩ | ⟨-, -, -, -, -, b, -, ha, hfs⟩
    · exact g.other hst (by rw [ha]; simp [hst0]) (by rw [ha]; simp [hst0]) (by rw [ha]; exact g.data)
    · exact g.other hst (by rw [ha]; simp) (by rw [ha]; simp) (by rw [ha]; exact g.data)
  | writeToFileAt p =>
    have hst0 : w.api.state = .ENCRYPTED := by simpa [statesFor] using hw
    simp only [call, hst0] at h
    obtain ⟨⟨o, w1⟩, hc, h⟩ := Res.bind_eq_ok.mp h
    cases h
    rcases writeToPath_cases hc with ⟨-, rfl⟩ | ⟨-, -, -, -, -, b, -, ha, hfs⟩
    · exact g.keep hst rfl rfl rfl rfl rfl
    · exact g.other hst (by rw [ha]; simp) (by rw [ha]; simp) (by rw [ha]; exact g.data)
  | logout => cases h; exact g.other hst (by simp [logout]) (by simp [logout]) (fun fd hfd => by cases hfd)
  | logoutMode m => cases h; exact g.other hst (by simp [logout]) (by simp [logout]) (fun fd hfd => by cases hfd)

theorem Ghost.run_all {evs : List Event} : ∀ {hist : List Event} {w w' : World} {rs : List (Option Ret)},
    Ghost hs rest w0 hist w → Api.run hs rest w evs = .ok (rs, w') → Ghost hs rest w0 (hist ++ evs) w' := by
  induction evs with
  | nil =>
    intro hist w w' rs g h
    cases h
    rw [List.append_nil]; exact g
  | cons ev evs ih =>
    intro hist w w' rs g h
    obtain ⟨r, w1, rs', h1, h2, rfl⟩ := run_cons h
    have := ih (g.step h1) h2
    simpa using this

theorem ghost {mode : Byte} {s0 : Session} (hn : Api.new mode = .ok s0) {fs0 : FS} {evs : List Event}
    {rs : List (Option Ret)} (h : Api.run hs rest ⟨s0, fs0⟩ evs = .ok (rs, w)) : Ghost hs rest ⟨s0, fs0⟩ evs w := by
  have hs0 : s0.state = .INIT ∧ s0.fileData = none := by
    unfold Api.new at hn
    split at hn
    · cases hn; exact ⟨rfl, rfl⟩
    · cases hn
  have g0 : Ghost hs rest ⟨s0, fs0⟩ [] ⟨s0, fs0⟩ :=
    ⟨⟨[], rfl⟩, fun h => (by rw [hs0.1] at h; cases h), fun h => (by rw [hs0.1] at h; cases h),
      fun fd hfd => by simp only [hs0.2] at hfd; cases hfd⟩
  simpa using g0.run_all h

theorem run_sinv {evs : List Event} : ∀ {w w' : World} {rs : List (Option Ret)}, SInv hs w.api →
    (∀ c e, Event.call c e ∈ evs → CallOk c) → Api.run hs rest w evs = .ok (rs, w') → SInv hs w'.api := by
  induction evs with
  | nil => intro w w' rs hi _ h; cases h; exact hi
  | cons ev evs ih =>
    intro w w' rs hi hok h
    obtain ⟨r, w1, rs', h1, h2, rfl⟩ := run_cons h
    refine ih ?_ (fun c e hm => hok c e (by simp [hm])) h2
    cases ev with
    | outside p n => cases h1; exact hi
    | call c e =>
      obtain ⟨x, -, hc⟩ := step_call h1
      exact call_sinv hi (hok c e (by simp)) hc

end Verif.Api
