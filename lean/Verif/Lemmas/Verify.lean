import Verif.Lemmas.History

/- The password check, case by case. -/
namespace Verif.Api
open Spec PwFunc
variable {hs : Hashes} {rest : Helper → Res Helper} {e : Env} {w w' : World}

theorem digest_length (H : HashFn) (c : ChainDesc) (h : 1 ≤ c.iters) (x : List Byte) : (c.digest H.h x).length = H.size := by
  unfold ChainDesc.digest chain
  obtain ⟨n, hn⟩ : ∃ n, c.iters = n + 1 := ⟨c.iters - 1, by omega⟩
  rw [hn, List.range_succ, List.foldl_append]
  simp

/-- the time left for the second chain hash, as the code computes it -/
abbrev left (timeout peek : Nat) : Nat := (timeout + (2 ^ 64 - peek % 2 ^ 64)) % 2 ^ 64

/-- the password check reports a timeout -/
def VLate (e : Env) (timeout n1 n2 : Nat) : Prop :=
  Hit timeout (e.clk 0) 1 n1 ∨ (timeout ≠ 0 ∧ left timeout e.peek = 0) ∨ Hit (left timeout e.peek) (e.clk 1) 0 n2

theorem verify_spec {s : Session} {d : DataHeader} (hd : HeaderOk d) (hs' : s.dh = some d) (pw : List Byte) (t : Nat) :
    ∃ m v, d.dh.hashMode = some m ∧ d.dh.validator = some v ∧
      (VLate e t d.dh.ch1.desc.iters d.dh.ch2.desc.iters → verifyPassword hs e s pw t = .ok (.timeout, s)) ∧
      (¬ VLate e t d.dh.ch1.desc.iters d.dh.ch2.desc.iters →
        ∃ k : Bytes, k.WF ∧ k.data.length = m.size ∧ k.data = d.dh.ch1.desc.digest (hs.get m).h pw ∧
          verifyPassword hs e s pw t = if d.dh.ch2.desc.digest (hs.get m).h k.data = v.data then
            .ok (.success true, { s with pwHash := k, state := .PASSWORD_VERIFIED })
            else .ok (.fail .ERR_PASSWORD_INVALID, s)) := by
  obtain ⟨g1, g2, g3, v, g4, g5⟩ := complete_parts hd.inv hd.complete
  obtain ⟨m, hm, hsz⟩ := hd.inv.hm
  have hp : d.getDataHeaderParts = .ok d.dh := by
    unfold DataHeader.getDataHeaderParts
    simp [hd.complete]
  refine ⟨m, v, hm, g4, ?_⟩
  have e1 : ∀ r, verifyTry hs e s pw t = .ok r → verifyPassword hs e s pw t = .ok r := by
    intro r hr
    simp only [verifyPassword, hr, Res.attempt, Res.bind_ok, Res.noexcept_ok]
  rcases g1.str (hs.get m) pw t (e.clk 0) with ⟨q0, q1⟩ | ⟨q0, b1, q1, q2, q3, q4⟩
  · have h1 : verifyTry hs e s pw t = .ok (.timeout, s) := by
      simp only [verifyTry, hs', deref, Res.bind_ok, hp, hm, DataHeaderParts.get, q1]
    exact ⟨fun _ => e1 _ h1, fun h => absurd (.inl q0) h⟩
  by_cases hl : t ≠ 0 ∧ left t e.peek = 0
  · have h1 : verifyTry hs e s pw t = .ok (.timeout, s) := by
      simp only [verifyTry, hs', deref, Res.bind_ok, hp, hm, DataHeaderParts.get, q1]
      rw [if_pos hl]
    exact ⟨fun _ => e1 _ h1, fun h => absurd (.inr (.inl hl)) h⟩
  rcases g2.bytes (hs.get m) b1 q3 (left t e.peek) (e.clk 1) with ⟨l0, l1⟩ | ⟨l0, b2, l1, l2, l3, l4⟩
  · have h1 : verifyTry hs e s pw t = .ok (.timeout, s) := by
      simp only [verifyTry, hs', deref, Res.bind_ok, hp, hm, DataHeaderParts.get, q1]
      rw [if_neg hl, show (t + (2 ^ 64 - e.peek % 2 ^ 64)) % 2 ^ 64 = left t e.peek from rfl, l1]
      rfl
    exact ⟨fun _ => e1 _ h1, fun h => absurd (.inr (.inr l0)) h⟩
  · refine ⟨fun h => ?_, fun _ => ⟨b1, q3, ?_, q2, ?_⟩⟩
    · rcases h with h | h | h
      · exact absurd h q0
      · exact absurd h hl
      · exact absurd h l0
    · rw [q4, hs.get_size]
    · have h1 : verifyTry hs e s pw t = if d.dh.ch2.desc.digest (hs.get m).h b1.data = v.data then
            .ok (.success true, { s with pwHash := b1, state := .PASSWORD_VERIFIED })
            else .ok (.fail .ERR_PASSWORD_INVALID, s) := by
        simp only [verifyTry, hs', deref, Res.bind_ok, hp, hm, DataHeaderParts.get, q1]
        rw [if_neg hl, show (t + (2 ^ 64 - e.peek % 2 ^ 64)) % 2 ^ 64 = left t e.peek from rfl, l1]
        simp only [Res.bind_ok, g4, Bytes.beq, l2, beq_iff_eq]
      split
      · rename_i hc; rw [if_pos hc] at h1; exact e1 _ h1
      · rename_i hc; rw [if_neg hc] at h1; exact e1 _ h1

/-- without timeout, if the whole check takes less than 2^64 ms -/
theorem not_vlate_zero {n1 n2 : Nat} (h : e.peek = 0 ∨ ∀ j, e.peek + e.clk 1 j < 2 ^ 64) : ¬ VLate e 0 n1 n2 := by
  rintro (h1 | ⟨h1, -⟩ | h1)
  · exact h1.1 rfl
  · exact h1 rfl
  · rcases h with h | h
    · rw [h] at h1
      exact h1.1 (by decide)
    · obtain ⟨h2, j, -, -, -, h3⟩ := h1
      have := h j
      unfold left at h2 h3
      rw [Nat.zero_add] at h2 h3
      have hp : e.peek % 2 ^ 64 = e.peek := Nat.mod_eq_of_lt (by omega)
      rw [hp] at h2 h3
      by_cases hz : e.peek = 0
      · rw [hz] at h2; exact h2 (by decide)
      · rw [Nat.mod_eq_of_lt (by omega)] at h3
        omega

theorem create_timeout {mode : Byte} {ds : SettingsIters} (hd : ds.InRange) (hb : BlocksOk ds) {pw : List Byte} {t : Nat}
    {x : Helper} (hx : createDataHeaderIters hs mode pw ds t e = .ok x) (hxe : x.err = .timeout) :
    ∃ hm m1 m2 n1 n2, ds.Are hm m1 m2 n1 n2 ∧ Late e t n1.toNat n2.toNat := by
  cases hc : ds.isComplete with
  | false =>
    simp only [createDataHeaderIters, hc, Bool.not_false, if_true, Res.noexcept_ok, Res.ok.injEq] at hx
    subst hx; cases hxe
  | true =>
    obtain ⟨hm, m1, m2, n1, n2, h⟩ := hd.are hc
    refine ⟨hm, m1, m2, n1, n2, h, ?_⟩
    apply Classical.byContradiction
    intro hl
    rw [create_complete hc 1 h.efm, Res.noexcept_eq_ok] at hx
    split at hx
    · cases hx; cases hxe
    · obtain ⟨a, ha, hx⟩ := Res.bind_eq_ok.mp hx
      cases a with
      | none => cases hx; cases hxe
      | some cc =>
        rw [attempt_some] at ha
        obtain ⟨hr0, hr1⟩ := makeChains_bad ha
        rw [makeChains_good h hr0 hr1] at ha
        cases ha
        simp only at hx
        obtain ⟨k3, k4⟩ := (makeHeader_spec (hs := hs) (e := e) h (newChain_good m1 n1 (e.rand 0) h.r1)
          (newChain_good m2 n2 (e.rand 1) h.r2) hb.1 hb.2 pw t).2 hl
        cases hr2 : (e.rand 2).good with
        | false => rw [k3 (.inl hr2)] at hx; cases hx
        | true =>
          cases hr3 : (e.rand 3).good with
          | false => rw [k3 (.inr hr3)] at hx; cases hx
          | true =>
            have k5 := k4 hr2 hr3
            split at k5
            · obtain ⟨d', h1, k6, k7⟩ := k5
              rw [k6] at hx
              cases hx; cases hxe
            · obtain ⟨h1, k6⟩ := k5
              rw [k6] at hx
              cases hx; cases hxe

theorem built_ok {ds : SettingsIters} (h : BuiltSettings ds) : ds.InRange ∧ BlocksOk ds := by
  obtain ⟨⟨calls, dec, enc, rfl⟩, h2, h3⟩ := h
  exact ⟨SettingsIters.run_inRange calls, fun b hb => (h2 b hb).len, fun b hb => (h3 b hb).len⟩

theorem run_sinv_built {mode : Byte} {s0 : Session} (hn : Api.new mode = .ok s0) {fs0 : FS} {evs : List Event}
    (hb : BuiltArgs evs) {rs : List (Option Ret)} (h : Api.run hs rest ⟨s0, fs0⟩ evs = .ok (rs, w)) : SInv hs w.api := by
  refine run_sinv (new_sinv hn) ?_ h
  intro c e hm
  cases c <;> try exact trivial
  exact built_ok (hb _ _ _ _ hm)

/-- a successful creation of a header, for an empty file or for an open one -/
theorem createHeader_call {pw : List Byte} {ds : SettingsIters} {t : Nat} {r : Ret}
    (h : call hs rest e w (.createDataHeader pw ds t) = .ok (r, w')) :
    (r ≠ .flag (.success true) ∧ w' = w) ∨
    (r = .flag (.success true) ∧ w'.fs = w.fs ∧ ∃ x d, createDataHeaderIters hs w.api.fileMode pw ds t e = .ok x ∧
      x.err = .success d ∧
      ((w.api.state = .EMPTY_FILE_SELECTED ∧ w'.api = { w.api with pwHash := x.pwHash, dh := some d, fileData := some ⟨some w.api.fileMode, some (Bytes.empty 0)⟩, state := .DECRYPTED }) ∨
       (w.api.state = .DECRYPTED ∧ w'.api = { w.api with pwHash := x.pwHash, dh := some d }))) := by
  simp only [call] at h
  split at h
  · cases h; exact .inl ⟨by simp, rfl⟩
  split at h
  · rename_i hst
    obtain ⟨x, hx, h⟩ := Res.bind_eq_ok.mp h
    obtain ⟨⟨o, s⟩, hc, h⟩ := Res.bind_eq_ok.mp h
    cases h
    rcases headerForEmpty_cases hc with ⟨ho, rfl⟩ | ⟨rfl, -, d, hd, rfl⟩
    · exact .inl ⟨by simpa using ho, rfl⟩
    · exact .inr ⟨rfl, rfl, x, d, hx, hd, .inl ⟨hst, rfl⟩⟩
  · rename_i hst
    obtain ⟨x, hx, h⟩ := Res.bind_eq_ok.mp h
    obtain ⟨⟨o, s⟩, hc, h⟩ := Res.bind_eq_ok.mp h
    cases h
    rcases headerForOpen_cases hc with ⟨ho, rfl⟩ | ⟨rfl, d, hd, rfl⟩
    · exact .inl ⟨by simpa using ho, rfl⟩
    · exact .inr ⟨rfl, rfl, x, d, hx, hd, .inr ⟨hst, rfl⟩⟩
  · cases h; exact .inl ⟨by simp [wrongState], rfl⟩

/-- open, with nothing to fetch -/
def NoData (s : Session) : Prop :=
  (s.state = .DECRYPTED ∨ s.state = .ENCRYPTED ∨ s.state = .FINISHED) ∧ (s.state = .DECRYPTED → s.fileData = none)

theorem noData_call {c : Call} {r : Ret} (hi : NoData w.api) (hc : c ≠ .logout ∧ ∀ m, c ≠ .logoutMode m)
    (h : call hs rest e w c = .ok (r, w')) : NoData w'.api := by
  by_cases hw : w.api.state ∈ statesFor c
  case neg =>
    obtain ⟨r', hr, -⟩ := call_wrong hs rest e w c hw
    rw [hr] at h; cases h
    exact hi
  cases c with
  | createDataHeader pw ds t =>
    rcases createHeader_call h with ⟨-, rfl⟩ | ⟨-, -, x, d, -, -, ⟨h1, -⟩ | ⟨h1, h2⟩⟩
    · exact hi
    · rcases hi.1 with h | h | h <;> rw [h1] at h <;> cases h
    · rw [h2]; exact ⟨hi.1, hi.2⟩
  | createDataHeaderTime pw ds =>
    simp only [call] at h
    split at h
    · cases h; exact hi
    split at h
    · rename_i h1
      rcases hi.1 with h | h | h <;> rw [h1] at h <;> cases h
    · rename_i hst0
      obtain ⟨x, -, h⟩ := Res.bind_eq_ok.mp h
      obtain ⟨⟨o, s⟩, hc, h⟩ := Res.bind_eq_ok.mp h
      cases h
      rcases headerForOpen_cases hc with ⟨-, rfl⟩ | ⟨-, d, -, rfl⟩
      · exact hi
      · exact ⟨hi.1, hi.2⟩
    · cases h; exact hi
  | changeSalt =>
    simp only [call] at h
    split at h
    · obtain ⟨⟨o, s⟩, hc, h⟩ := Res.bind_eq_ok.mp h
      cases h
      rcases changeSalt_cases hc with ⟨-, rfl⟩ | ⟨-, d, old, b, p, d', -, -, -, -, -, -, rfl⟩
      · exact hi
      · exact ⟨hi.1, hi.2⟩
    · cases h; exact hi
  | getFileData =>
    have hst0 : w.api.state = .DECRYPTED := by simpa [statesFor] using hw
    simp only [call, hst0, getFileData, hi.2 hst0] at h
    cases h
    exact hi
  | encryptData fd =>
    have hst0 : w.api.state = .DECRYPTED := by simpa [statesFor] using hw
    simp only [call, hst0] at h
    obtain ⟨⟨o, s⟩, hc, h⟩ := Res.bind_eq_ok.mp h
    cases h
    obtain ⟨x, -, hx⟩ := encryptData_cases hc
    rcases hx with ⟨-, rfl | ⟨d, data, -, -, rfl⟩⟩ | ⟨-, -, d, data, r, -, -, -, rfl⟩
    · exact hi
    · exact ⟨hi.1, hi.2⟩
    · exact ⟨.inr (.inl rfl), fun h => by cases h⟩
  | writeToFile =>
    have hst0 : w.api.state = .ENCRYPTED := by simpa [statesFor] using hw
    simp only [call, hst0] at h
    obtain ⟨⟨o, w1⟩, hc, h⟩ := Res.bind_eq_ok.mp h
    cases h
    obtain ⟨f, hf, hx⟩ := writeToSelected_cases hc
    rcases hx with ⟨-, hfs, ha⟩ | ⟨-, -, -, -, -, b, -, ha, hfs⟩
    · rw [ha]; exact ⟨hi.1, hi.2⟩
    · rw [ha]; exact ⟨.inr (.inr rfl), fun h => by cases h⟩
  | writeToFileAt p =>
    have hst0 : w.api.state = .ENCRYPTED := by simpa [statesFor] using hw
    simp only [call, hst0] at h
    obtain ⟨⟨o, w1⟩, hc, h⟩ := Res.bind_eq_ok.mp h
    cases h
    rcases writeToPath_cases hc with ⟨-, rfl⟩ | ⟨-, -, -, -, -, b, -, ha, hfs⟩
    · exact hi
    · rw [ha]; exact ⟨.inr (.inr rfl), fun h => by cases h⟩
  | logout => exact absurd rfl hc.1
  | logoutMode m => exact absurd rfl (hc.2 m)
  | _ =>
    exfalso
    simp only [statesFor, List.mem_cons, List.not_mem_nil, or_false] at hw
    rcases hi.1 with h | h | h <;> simp [h] at hw

theorem noData_run (evs : List Event) :
    ∀ {w w' : World} {rs : List (Option Ret)},
    (∀ ev ∈ evs, ∀ e, ev ≠ .call .logout e ∧ ∀ m, ev ≠ .call (.logoutMode m) e) → NoData w.api →
    Api.run hs rest w evs = .ok (rs, w') → NoData w'.api := by
  induction evs with
  | nil => intro w w' rs _ hi h; cases h; exact hi
  | cons ev evs ih =>
    intro w w' rs hq hi h
    obtain ⟨r, w1, rs', h1, h2, rfl⟩ := run_cons h
    refine ih (fun x hx => hq x (by simp [hx])) ?_ h2
    cases ev with
    | outside p n => cases h1; exact hi
    | call c e =>
      obtain ⟨x, -, hc⟩ := step_call h1
      have := hq (.call c e) (by simp) e
      exact noData_call hi ⟨fun h => this.1 (by rw [h]), fun m h => this.2 m (by rw [h])⟩ hc

end Verif.Api
