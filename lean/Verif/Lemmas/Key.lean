import Verif.Lemmas.Verify

/- The key of a session belongs to the password last accepted or set. -/
namespace Verif.Api
open Spec PwFunc
variable {hs : Hashes} {rest : Helper → Res Helper} {e : Env} {w0 w w' : World}

/-- states in which a session has a key -/
def keyState : WState → Bool
  | .PASSWORD_VERIFIED | .DECRYPTED | .ENCRYPTED | .FINISHED => true
  | _ => false

/-- the key of the session is the one of this password, and the password reproduces the validator -/
def KeyInv (hs : Hashes) (pw : Option (List Byte)) (s : Session) : Prop :=
  keyState s.state = true → ∃ x d m v, pw = some x ∧ s.dh = some d ∧ d.dh.hashMode = some m ∧ d.dh.validator = some v ∧
    s.pwHash.data = d.dh.ch1.desc.digest (hs.get m).h x ∧ v.data = d.dh.ch2.desc.digest (hs.get m).h s.pwHash.data

/-- all data blocks have content -/
def BlockInv (s : Session) : Prop := ∀ d, s.dh = some d → ∀ b ∈ d.dh.dec, b.data.data ≠ []

theorem KeyInv.out {pw : Option (List Byte)} {s : Session} (h : keyState s.state = false) : KeyInv hs pw s := by
  intro h'; rw [h] at h'; cases h'

theorem KeyInv.keep {pw : Option (List Byte)} {s s' : Session} (k : KeyInv hs pw s)
    (h1 : keyState s'.state = true → keyState s.state = true) (h2 : s'.pwHash = s.pwHash)
    (h3 : ∀ d, s.dh = some d → ∃ d', s'.dh = some d' ∧ d'.dh.hashMode = d.dh.hashMode ∧ d'.dh.validator = d.dh.validator ∧
      d'.dh.ch1 = d.dh.ch1 ∧ d'.dh.ch2 = d.dh.ch2) : KeyInv hs pw s' := by
  intro hst
  obtain ⟨x, d, m, v, k0, k1, k2, k3, k4, k5⟩ := k (h1 hst)
  obtain ⟨d', q1, q2, q3, q4, q5⟩ := h3 d k1
  exact ⟨x, d', m, v, k0, q1, by rw [q2, k2], by rw [q3, k3], by rw [h2, q4, k4], by rw [h2, q5, k5]⟩

theorem KeyInv.same {pw : Option (List Byte)} {s s' : Session} (k : KeyInv hs pw s)
    (h1 : keyState s'.state = true → keyState s.state = true) (h2 : s'.pwHash = s.pwHash) (h3 : s'.dh = s.dh) :
    KeyInv hs pw s' :=
  k.keep h1 h2 fun d hd => ⟨d, by rw [h3, hd], rfl, rfl, rfl, rfl⟩

/-- the password known after an event -/
def nextGiven (old : Option (List Byte)) (ev : Event) (r : Option Ret) : Option (List Byte) :=
  match given ev r with
  | some x => some x
  | none => old

theorem changeSalt_dh (hi : SInv hs w.api) (hst : w.api.state = .DECRYPTED) {s' : Session} {o : Out Unit}
    (h : changeSalt e w.api = .ok (o, s')) :
    (o ≠ .success () ∧ s' = w.api) ∨
    (o = .success () ∧ ∃ d m d', w.api.dh = some d ∧ d.dh.hashMode = some m ∧ (e.rand 0).good = true ∧
      s' = { w.api with dh := some d' } ∧ HeaderOk d' ∧
      d'.dh = { d.dh with encSalt := some ⟨(e.rand 0).take m.size, m.size⟩ } ∧ d'.hashSize = d.hashSize ∧
      d'.fileSize = none ∧ d'.headerBytes.data = []) := by
  rcases changeSalt_cases h with ⟨h1, h2⟩ | ⟨h1, d, old, b, p, d', hd1, hcm, hold, hb, hp', hset, rfl⟩
  · exact .inl ⟨h1, h2⟩
  · refine .inr ⟨h1, ?_⟩
    have hd : HeaderOk d := by
      generalize w.api = s at *
      cases hi <;> simp at hst hd1
      subst hd1; assumption
    obtain ⟨m, hdh, hr0, hm, rfl, v0, -, hok⟩ := changeSalt_parts hd hold hb hp'
    have hr : (e.rand 1).good = true := by
      cases hr : (e.rand 1).good with
      | true => rfl
      | false => rw [setHeaderParts_bad hok hr] at hset; cases hset
    have h3 := setHeaderParts_good hok hr
    split at h3
    · obtain ⟨d2, q1, q2, q3, q4, q5, q6, q7⟩ := h3
      rw [q1] at hset; cases hset
      obtain ⟨m', km', ks⟩ := hd.inv.hm
      rw [hm] at km'; cases km'
      exact ⟨d, m, d', hd1, hm, hr0, rfl, ⟨q2, q3⟩, by rw [q4, hdh], by rw [q5, ks], q6, q7⟩
    · rw [h3] at hset; cases hset

theorem call_key (hi : SInv hs w.api) {pw : Option (List Byte)} (hk : KeyInv hs pw w.api) {c : Call} (hc : CallOk c) {r : Ret}
    (h : call hs rest e w c = .ok (r, w')) : KeyInv hs (nextGiven pw (.call c e) (some r)) w'.api := by
  by_cases hw : w.api.state ∈ statesFor c
  case neg =>
    obtain ⟨r', hr, hcode⟩ := call_wrong hs rest e w c hw
    rw [hr] at h; cases h
    have : nextGiven pw (.call c e) (some r) = pw := by
      unfold nextGiven
      have hg : given (.call c e) (some r) = none := by
        unfold given
        split
        · rename_i heq; cases heq; simp [retCode, failCode] at hcode
        · rename_i heq; cases heq; simp [retCode, failCode] at hcode
        · rfl
      rw [hg]
    rw [this]; exact hk
  obtain ⟨s, fs⟩ := w
  simp only at hi hw hk
  cases c with
  | getRelevantFileNames dir =>
    simp only [call] at h
    split at h
    · obtain ⟨o, -, h⟩ := Res.bind_eq_ok.mp h
      cases h; exact hk
    · cases h; exact hk
  | createFile p =>
    simp only [call] at h
    split at h
    · obtain ⟨⟨o, fs⟩, hc, h⟩ := Res.bind_eq_ok.mp h
      simp only [Res.ok.injEq, Prod.mk.injEq] at h
      obtain ⟨-, rfl⟩ := h
      exact hk
    · cases h; exact hk
  | selectFile p =>
    simp only [call] at h
    split at h
    · obtain ⟨⟨o, w1⟩, hc, h⟩ := Res.bind_eq_ok.mp h
      cases h
      rcases selectFile_cases hc with ⟨-, rfl⟩ | ⟨-, f, hf, ⟨he, rfl⟩ | ⟨he, d, hd, rfl⟩⟩
      · exact hk
      · exact .out rfl
      · exact .out rfl
    · cases h; exact hk
  | isFileEmpty =>
    simp only [call] at h
    split at h <;> cases h <;> exact hk
  | unselectFile =>
    simp only [call] at h
    split at h <;> cases h
    · exact .out rfl
    · exact .out rfl
    · exact hk
  | deleteFile =>
    have key : ∀ o w', deleteSelected e ⟨s, fs⟩ = .ok (o, w') → KeyInv hs pw w'.api := by
      intro o w' hd
      rcases deleteSelected_cases hd with ⟨rfl, -⟩ | ⟨-, f, hf, hfs, ha, -⟩
      · exact hk
      · rw [ha]; exact .out rfl
    simp only [call] at h
    split at h
    · obtain ⟨⟨o, w1⟩, hc, h⟩ := Res.bind_eq_ok.mp h
      cases h; exact key _ _ hc
    · obtain ⟨⟨o, w1⟩, hc, h⟩ := Res.bind_eq_ok.mp h
      cases h; exact key _ _ hc
    · cases h; exact hk
  | getFileContent =>
    simp only [call] at h
    split at h
    · obtain ⟨o, -, h⟩ := Res.bind_eq_ok.mp h
      cases h; exact hk
    all_goals cases h; exact hk
  | verifyPassword x t =>
    cases hi <;> simp [statesFor] at hw
    rename_i hd f hv hp hf
    simp only [call] at h
    obtain ⟨⟨o, s⟩, hc, h⟩ := Res.bind_eq_ok.mp h
    cases h
    rcases verifyPassword_cases hc with ⟨-, rfl⟩ | ⟨rfl, d, m, h1, v, v', hdh, -, hm, p1, p2, hv', hb, rfl⟩
    · exact .out rfl
    · simp only [Option.some.injEq] at hdh
      subst hdh
      have ok := mkHeader_ok hv
      obtain ⟨g1, g2, -⟩ := complete_parts ok.inv ok.complete
      rcases g1.str (hs.get m) x t (e.clk 0) with ⟨-, k1⟩ | ⟨-, b1, k1, k2, k3, k4⟩
      · rw [p1] at k1; cases k1
      rw [p1] at k1; cases k1
      rcases g2.bytes (hs.get m) h1 k3 _ (e.clk 1) with ⟨-, l1⟩ | ⟨-, b2, l1, l2, l3, l4⟩
      · rw [p2] at l1; cases l1
      rw [p2] at l1; cases l1
      intro _
      refine ⟨x, _, m, v', rfl, rfl, hm, hv', k2, ?_⟩
      rw [← l2]
      exact (beq_iff_eq.mp hb).symm
  | createDataHeader x ds t =>
    rcases createHeader_call h with ⟨hr, rfl⟩ | ⟨rfl, -, y, d, hy, hd, hcase⟩
    · have : nextGiven pw (.call (.createDataHeader x ds t) e) (some r) = pw := by
        unfold nextGiven
        have hg : given (.call (.createDataHeader x ds t) e) (some r) = none := by
          unfold given
          split
          · rename_i heq; cases heq; exact absurd rfl hr
          · rename_i heq; cases heq; exact absurd rfl hr
          · rfl
        rw [hg]
      rw [this]; exact hk
    · obtain ⟨-, -, hm, m1, m2, n1, n2, -, -, -, -, made⟩ := create_success hc.1 hc.2 hy hd
      obtain ⟨v, hdh, hv⟩ := made.dh
      intro _
      have e1 : w'.api.dh = some d ∧ w'.api.pwHash = y.pwHash := by
        rcases hcase with ⟨-, hw⟩ | ⟨-, hw⟩ <;> rw [hw] <;> exact ⟨rfl, rfl⟩
      refine ⟨x, d, hm, v, rfl, e1.1, by rw [hdh], by rw [hdh], ?_, ?_⟩
      · rw [e1.2, hdh]; exact made.hash
      · rw [e1.2, hdh]; exact hv
  | createDataHeaderTime x ds =>
    simp only [call] at h
    split at h
    · cases h; exact hk
    have never : ∀ x, createDataHeaderTime rest ds ≠ .ok x := by
      intro x hx
      unfold createDataHeaderTime at hx
      rw [Res.noexcept_eq_ok] at hx
      split at hx
      · cases hx
      · cases hx
    split at h
    · obtain ⟨x, hx, h⟩ := Res.bind_eq_ok.mp h
      exact absurd hx (never x)
    · obtain ⟨x, hx, h⟩ := Res.bind_eq_ok.mp h
      exact absurd hx (never x)
    · cases h; exact hk
  | changeSalt =>
    have hst0 : s.state = .DECRYPTED := by simpa [statesFor] using hw
    simp only [call, hst0] at h
    obtain ⟨⟨o, s'⟩, hc, h⟩ := Res.bind_eq_ok.mp h
    cases h
    rcases changeSalt_dh (w := ⟨s, fs⟩) hi hst0 hc with ⟨-, rfl⟩ | ⟨-, d, m, d', h1, -, -, rfl, -, h2, -⟩
    · exact hk
    · refine hk.keep (fun h => h) rfl ?_
      intro d0 hd0
      simp only at h1
      rw [h1] at hd0; cases hd0
      exact ⟨d', rfl, by rw [h2], by rw [h2], by rw [h2], by rw [h2]⟩
  | getDecryptedData =>
    have hst0 : s.state = .PASSWORD_VERIFIED := by simpa [statesFor] using hw
    simp only [call, hst0] at h
    obtain ⟨⟨o, s'⟩, hc, h⟩ := Res.bind_eq_ok.mp h
    cases h
    rcases getDecryptedData_cases hc with ⟨-, rfl⟩ | ⟨r, d, f, m, salt, -, -, -, -, -, -, -, -, rfl⟩
    · exact hk
    · exact hk.same (fun _ => by simp only [hst0]; rfl) rfl rfl
  | getFileData =>
    have hst0 : s.state = .DECRYPTED := by simpa [statesFor] using hw
    simp only [call, hst0] at h
    cases h
    refine hk.same (fun _ => by rw [hst0]; rfl) ?_ ?_ <;> (simp only [getFileData]; split <;> rfl)
  | encryptData fd =>
    cases hi <;> simp [statesFor] at hw
    rename_i fd' k d f hd hkd hp hfd
    simp only [call] at h
    obtain ⟨⟨o, s'⟩, hc, h⟩ := Res.bind_eq_ok.mp h
    cases h
    obtain ⟨x, -, hx⟩ := encryptData_cases hc
    have key : ∀ data, ∀ d0, some d = some d0 → ∃ d', some (encryptTry hs e ⟨.DECRYPTED, 1, fd', k, none, some d, some f⟩ d data).2 = some d' ∧
        d'.dh.hashMode = d0.dh.hashMode ∧ d'.dh.validator = d0.dh.validator ∧ d'.dh.ch1 = d0.dh.ch1 ∧ d'.dh.ch2 = d0.dh.ch2 := by
      intro data d0 hd0
      cases hd0
      obtain ⟨-, q2, -⟩ := encryptTry_header (hs := hs) (e := e) (s := ⟨.DECRYPTED, 1, fd', k, none, some d, some f⟩) hd data
      exact ⟨_, rfl, by rw [q2], by rw [q2], by rw [q2], by rw [q2]⟩
    rcases hx with ⟨-, rfl | ⟨d1, data, hd1, -, rfl⟩⟩ | ⟨-, -, d1, data, r, hd1, -, -, rfl⟩
    · exact hk
    · cases hd1
      exact hk.keep (fun h => h) rfl (key data)
    · cases hd1
      exact hk.keep (fun _ => rfl) rfl (key data)
  | writeToFile =>
    have hst0 : s.state = .ENCRYPTED := by simpa [statesFor] using hw
    simp only [call, hst0] at h
    obtain ⟨⟨o, w1⟩, hc, h⟩ := Res.bind_eq_ok.mp h
    cases h
    obtain ⟨f, hf, hx⟩ := writeToSelected_cases hc
    rcases hx with ⟨-, hfs, ha⟩ | ⟨-, -, -, -, -, b, -, ha, hfs⟩
    · exact hk.same (fun _ => by rw [hst0]; rfl) (by rw [ha]) (by rw [ha])
    · exact hk.same (fun _ => by rw [hst0]; rfl) (by rw [ha]) (by rw [ha])
  | writeToFileAt p =>
    have hst0 : s.state = .ENCRYPTED := by simpa [statesFor] using hw
    simp only [call, hst0] at h
    obtain ⟨⟨o, w1⟩, hc, h⟩ := Res.bind_eq_ok.mp h
    cases h
    rcases writeToPath_cases hc with ⟨-, rfl⟩ | ⟨-, -, -, -, -, b, -, ha, hfs⟩
    · exact hk
    · exact hk.same (fun _ => by rw [hst0]; rfl) (by rw [ha]) (by rw [ha])
  | logout => cases h; exact .out rfl
  | logoutMode m => cases h; exact .out rfl

theorem BlockInv.none {s : Session} (h : s.dh = none) : BlockInv s := by
  intro d hd; rw [h] at hd; cases hd

theorem BlockInv.same {s s' : Session} (k : BlockInv s) (h : s'.dh = s.dh) : BlockInv s' := by
  intro d hd; exact k d (by rw [← h]; exact hd)

theorem call_blocks (hi : SInv hs w.api) (hb : BlockInv w.api) {c : Call} (hc : CallOk c)
    (hne : ∀ pw ds t, c = .createDataHeader pw ds t → ∀ b ∈ ds.dec, b.data.data ≠ []) {r : Ret}
    (h : call hs rest e w c = .ok (r, w')) : BlockInv w'.api := by
  have hi' := call_sinv hi hc h
  by_cases hw : w.api.state ∈ statesFor c
  case neg =>
    obtain ⟨r', hr, hcode⟩ := call_wrong hs rest e w c hw
    rw [hr] at h; cases h
    exact hb
  obtain ⟨s, fs⟩ := w
  simp only at hi hw hb
  cases c with
  | getRelevantFileNames dir =>
    simp only [call] at h
    split at h
    · obtain ⟨o, -, h⟩ := Res.bind_eq_ok.mp h
      cases h; exact hb
    · cases h; exact hb
  | createFile p =>
    simp only [call] at h
    split at h
    · obtain ⟨⟨o, fs⟩, hc, h⟩ := Res.bind_eq_ok.mp h
      simp only [Res.ok.injEq, Prod.mk.injEq] at h
      obtain ⟨-, rfl⟩ := h
      exact hb
    · cases h; exact hb
  | selectFile p =>
    simp only [call] at h
    split at h
    · obtain ⟨⟨o, w1⟩, hc, h⟩ := Res.bind_eq_ok.mp h
      cases h
      rcases selectFile_cases hc with ⟨-, rfl⟩ | ⟨-, f, hf, ⟨he, rfl⟩ | ⟨he, d, hd, rfl⟩⟩
      · exact hb
      · exact hb.same rfl
      · obtain ⟨-, hh, data, hv, -, -, -, henc, rfl, rfl⟩ := select_header hf he hd
        intro d' hd'
        cases hd'
        intro b hbm
        have hcont := HeaderParse.contents_mkHeader hv
        have hmem : (b.type, b.data.data) ∈ hh.blocks := by
          rw [← hcont]
          exact List.mem_map.mpr ⟨b, hbm, rfl⟩
        have := (hv.blockLen _ hmem).1
        intro h0
        simp only [h0, List.length_nil] at this
        omega
    · cases h; exact hb
  | isFileEmpty =>
    simp only [call] at h
    split at h <;> cases h <;> exact hb
  | unselectFile =>
    simp only [call] at h
    split at h <;> cases h
    · exact .none rfl
    · exact .none rfl
    · exact hb
  | deleteFile =>
    have key : ∀ o w', deleteSelected e ⟨s, fs⟩ = .ok (o, w') → BlockInv w'.api := by
      intro o w' hd
      rcases deleteSelected_cases hd with ⟨rfl, -⟩ | ⟨-, f, hf, hfs, ha, -⟩
      · exact hb
      · rw [ha]; exact .none rfl
    simp only [call] at h
    split at h
    · obtain ⟨⟨o, w1⟩, hc, h⟩ := Res.bind_eq_ok.mp h
      cases h; exact key _ _ hc
    · obtain ⟨⟨o, w1⟩, hc, h⟩ := Res.bind_eq_ok.mp h
      cases h; exact key _ _ hc
    · cases h; exact hb
  | getFileContent =>
    simp only [call] at h
    split at h
    · obtain ⟨o, -, h⟩ := Res.bind_eq_ok.mp h
      cases h; exact hb
    all_goals cases h; exact hb
  | verifyPassword x t =>
    simp only [call] at h
    split at h
    · obtain ⟨⟨o, s'⟩, hc, h⟩ := Res.bind_eq_ok.mp h
      cases h
      rcases verifyPassword_cases hc with ⟨-, rfl⟩ | ⟨rfl, d, m, h1, v, v', hdh, -, hm, p1, p2, hv', hb', rfl⟩
      · exact hb
      · exact hb.same rfl
    · cases h; exact hb
  | createDataHeader x ds t =>
    rcases createHeader_call h with ⟨hr, rfl⟩ | ⟨rfl, -, y, d, hy, hd, hcase⟩
    · exact hb
    · obtain ⟨-, -, hm, m1, m2, n1, n2, -, -, -, -, made⟩ := create_success hc.1 hc.2 hy hd
      obtain ⟨v, hdh, hv⟩ := made.dh
      have e1 : w'.api.dh = some d := by
        rcases hcase with ⟨-, hw⟩ | ⟨-, hw⟩ <;> rw [hw]
      intro d' hd'
      rw [e1] at hd'; cases hd'
      rw [hdh]
      exact hne x ds t rfl
  | createDataHeaderTime x ds =>
    simp only [call] at h
    split at h
    · cases h; exact hb
    have never : ∀ x, createDataHeaderTime rest ds ≠ .ok x := by
      intro x hx
      unfold createDataHeaderTime at hx
      rw [Res.noexcept_eq_ok] at hx
      split at hx
      · cases hx
      · cases hx
    split at h
    · obtain ⟨x, hx, h⟩ := Res.bind_eq_ok.mp h
      exact absurd hx (never x)
    · obtain ⟨x, hx, h⟩ := Res.bind_eq_ok.mp h
      exact absurd hx (never x)
    · cases h; exact hb
  | changeSalt =>
    have hst0 : s.state = .DECRYPTED := by simpa [statesFor] using hw
    simp only [call, hst0] at h
    obtain ⟨⟨o, s'⟩, hc, h⟩ := Res.bind_eq_ok.mp h
    cases h
    rcases changeSalt_dh (w := ⟨s, fs⟩) hi hst0 hc with ⟨-, rfl⟩ | ⟨-, d, m, d', h1, -, -, rfl, -, h2, -⟩
    · exact hb
    · intro d0 hd0
      cases hd0
      rw [h2]
      exact hb d h1
  | getDecryptedData =>
    have hst0 : s.state = .PASSWORD_VERIFIED := by simpa [statesFor] using hw
    simp only [call, hst0] at h
    obtain ⟨⟨o, s'⟩, hc, h⟩ := Res.bind_eq_ok.mp h
    cases h
    rcases getDecryptedData_cases hc with ⟨-, rfl⟩ | ⟨r, d, f, m, salt, -, -, -, -, -, -, -, -, rfl⟩
    · exact hb
    · exact hb.same rfl
  | getFileData =>
    have hst0 : s.state = .DECRYPTED := by simpa [statesFor] using hw
    simp only [call, hst0] at h
    cases h
    refine hb.same ?_
    simp only [getFileData]; split <;> rfl
  | encryptData fd =>
    cases hi <;> simp [statesFor] at hw
    rename_i fd' k d f hd hkd hp hfd
    simp only [call] at h
    obtain ⟨⟨o, s'⟩, hc, h⟩ := Res.bind_eq_ok.mp h
    cases h
    obtain ⟨x, -, hx⟩ := encryptData_cases hc
    have key : ∀ data, ∀ b ∈ (encryptTry hs e ⟨.DECRYPTED, 1, fd', k, none, some d, some f⟩ d data).2.dh.dec, b.data.data ≠ [] := by
      intro data
      obtain ⟨-, q2, -⟩ := encryptTry_header (hs := hs) (e := e) (s := ⟨.DECRYPTED, 1, fd', k, none, some d, some f⟩) hd data
      rw [q2]
      exact hb d rfl
    rcases hx with ⟨-, rfl | ⟨d1, data, hd1, -, rfl⟩⟩ | ⟨-, -, d1, data, r, hd1, -, -, rfl⟩
    · exact hb
    · cases hd1
      intro d0 hd0
      cases hd0; exact key data
    · cases hd1
      intro d0 hd0
      cases hd0; exact key data
  | writeToFile =>
    have hst0 : s.state = .ENCRYPTED := by simpa [statesFor] using hw
    simp only [call, hst0] at h
    obtain ⟨⟨o, w1⟩, hc, h⟩ := Res.bind_eq_ok.mp h
    cases h
    obtain ⟨f, hf, hx⟩ := writeToSelected_cases hc
    rcases hx with ⟨-, hfs, ha⟩ | ⟨-, -, -, -, -, b, -, ha, hfs⟩
    · exact hb.same (by rw [ha])
    · exact hb.same (by rw [ha])
  | writeToFileAt p =>
    have hst0 : s.state = .ENCRYPTED := by simpa [statesFor] using hw
    simp only [call, hst0] at h
    obtain ⟨⟨o, w1⟩, hc, h⟩ := Res.bind_eq_ok.mp h
    cases h
    rcases writeToPath_cases hc with ⟨-, rfl⟩ | ⟨-, -, -, -, -, b, -, ha, hfs⟩
    · exact hb
    · exact hb.same (by rw [ha])
  | logout => cases h; exact .none rfl
  | logoutMode m => cases h; exact .none rfl

/-! ### histories -/

theorem lastGiven_nil (evs : List Event) : lastGiven evs [] = none := by
  cases evs <;> rfl

/-- one more event at the front -/
def lastFrom (old : Option (List Byte)) (evs : List Event) (rs : List (Option Ret)) : Option (List Byte) :=
  match lastGiven evs rs with
  | some x => some x
  | none => old

theorem lastFrom_cons (old : Option (List Byte)) (ev : Event) (evs : List Event) (r : Option Ret) (rs : List (Option Ret)) :
    lastFrom old (ev :: evs) (r :: rs) = lastFrom (nextGiven old ev r) evs rs := by
  unfold lastFrom nextGiven lastGiven
  simp only [List.zipWith_cons_cons]
  cases given ev r with
  | none => simp
  | some x =>
    simp only [List.filterMap_cons, id]
    cases hq : (List.filterMap id (List.zipWith given evs rs)) with
    | nil => simp
    | cons a l => simp [List.getLast?_cons_cons, List.getLast?_eq_some_getLast (l := a :: l) (by simp)]

theorem run_key {evs : List Event} : ∀ {w w' : World} {rs : List (Option Ret)} {old : Option (List Byte)}, SInv hs w.api →
    KeyInv hs old w.api → (∀ c e, Event.call c e ∈ evs → CallOk c) → Api.run hs rest w evs = .ok (rs, w') →
    KeyInv hs (lastFrom old evs rs) w'.api := by
  induction evs with
  | nil =>
    intro w w' rs old hi hk _ h
    cases h
    exact hk
  | cons ev evs ih =>
    intro w w' rs old hi hk hok h
    obtain ⟨r, w1, rs', h1, h2, rfl⟩ := run_cons h
    rw [lastFrom_cons]
    cases ev with
    | outside p n => cases h1; exact ih (w := ⟨w.api, w.fs.set p n⟩) hi hk (fun c e hm => hok c e (by simp [hm])) h2
    | call c e =>
      obtain ⟨x, rfl, hc⟩ := step_call h1
      have hcok := hok c e (by simp)
      exact ih (call_sinv hi hcok hc) (call_key hi hk hcok hc) (fun c e hm => hok c e (by simp [hm])) h2

theorem run_blocks {evs : List Event} : ∀ {w w' : World} {rs : List (Option Ret)}, SInv hs w.api →
    BlockInv w.api → (∀ c e, Event.call c e ∈ evs → CallOk c) → FullBlocks evs → Api.run hs rest w evs = .ok (rs, w') →
    BlockInv w'.api := by
  induction evs with
  | nil =>
    intro w w' rs hi hk _ _ h
    cases h
    exact hk
  | cons ev evs ih =>
    intro w w' rs hi hk hok hf h
    obtain ⟨r, w1, rs', h1, h2, rfl⟩ := run_cons h
    have hf' : FullBlocks evs := fun pw ds t e hm => hf pw ds t e (by simp [hm])
    cases ev with
    | outside p n => cases h1; exact ih (w := ⟨w.api, w.fs.set p n⟩) hi hk (fun c e hm => hok c e (by simp [hm])) hf' h2
    | call c e =>
      obtain ⟨x, rfl, hc⟩ := step_call h1
      have hcok := hok c e (by simp)
      refine ih (call_sinv hi hcok hc) (call_blocks hi hk hcok ?_ hc) (fun c e hm => hok c e (by simp [hm])) hf' h2
      rintro pw ds t rfl
      exact hf pw ds t e (by simp)

/-- **the key of a session, from its history** -/
theorem history_key {mode : Byte} {s0 : Session} (hn : Api.new mode = .ok s0) {fs0 : FS} {evs : List Event}
    (hb : BuiltArgs evs) {rs : List (Option Ret)} (h : Api.run hs rest ⟨s0, fs0⟩ evs = .ok (rs, w)) :
    SInv hs w.api ∧ KeyInv hs (lastGiven evs rs) w.api ∧ (FullBlocks evs → BlockInv w.api) := by
  have hs0 : s0.state = .INIT ∧ s0.dh = none := by
    unfold Api.new at hn
    split at hn
    · cases hn; exact ⟨rfl, rfl⟩
    · cases hn
  have hok : ∀ c e, Event.call c e ∈ evs → CallOk c := by
    intro c e hm
    cases c <;> try exact trivial
    exact built_ok (hb _ _ _ _ hm)
  refine ⟨run_sinv_built hn hb h, ?_, fun hf => run_blocks (new_sinv hn) (.none hs0.2) hok hf h⟩
  have := run_key (old := none) (new_sinv hn) (.out (by rw [hs0.1]; rfl)) hok h
  unfold lastFrom at this
  cases hl : lastGiven evs rs with
  | none => rw [hl] at this; exact this
  | some x => rw [hl] at this; exact this

end Verif.Api
