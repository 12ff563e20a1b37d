import Verif.Lemmas.Verify
import Verif.Props.Sample

/- Properties of passwords and headers in a session: C42, C43, C51, C52, C53, C57, C64. -/
namespace Verif.Props
open Spec

variable {hs : Hashes} {rest : Api.Helper → Res Api.Helper}

/-! ## C42 -/

/-- C42: whenever `getDecryptedData` hands something out, the history has a selection of a file `p` starting with a valid
header `h`, `p` stayed selected ever since, and after the selection a password was given whose two chain hashes give the
validator of `h`. -/
theorem C42_password_given (mode : Byte) (s0 : Session) (h0 : Api.new mode = .ok s0) (fs : FS) (evs : List Event)
    (rs : List (Option Ret)) (w w' : World) (h : Api.run hs rest ⟨s0, fs⟩ evs = .ok (rs, w)) (e : Env)
    (fd : FileDataStruct) (hd : Api.call hs rest e w .getDecryptedData = .ok (.data (.success fd), w')) :
    ∃ pre p e1 mid pw t e2 post rs1 w1 h data,
      evs = pre ++ .call (.selectFile p) e1 :: (mid ++ .call (.verifyPassword pw t) e2 :: post) ∧
      Api.run hs rest ⟨s0, fs⟩ pre = .ok (rs1, w1) ∧ w1.fs p = .file (h.bytes ++ data) ∧ h.Valid ∧
      StaysSelected hs rest ⟨s0, fs⟩ (pre ++ [.call (.selectFile p) e1]) (mid ++ .call (.verifyPassword pw t) e2 :: post) p ∧
      Opens hs h pw := by
  have hst : w.api.state = .PASSWORD_VERIFIED := by
    simp only [Api.call] at hd
    split at hd
    · assumption
    · cases hd
  obtain ⟨h, pre, p, e1, mid, pw, t, e2, post, rs1, w1, data, m, k1, k2, k3, k4, k5, -, -, k8, k9, k10⟩ := (Api.ghost h0 h).ver hst
  exact ⟨pre, p, e1, mid, pw, t, e2, post, rs1, w1, h, data, k1, k2, k3, k4, k5, m, k8, by rw [← k9]; exact k10⟩

/-- C42: no other call hands out data: what `getFileData` returns is empty. -/
theorem C42_only_there (mode : Byte) (s0 : Session) (h0 : Api.new mode = .ok s0) (fs : FS) (evs : List Event)
    (rs : List (Option Ret)) (w w' : World) (h : Api.run hs rest ⟨s0, fs⟩ evs = .ok (rs, w)) (e : Env) (c : Call)
    (fd : FileDataStruct) (hd : Api.call hs rest e w c = .ok (.data (.success fd), w')) :
    c = .getDecryptedData ∨ (c = .getFileData ∧ ∀ b, fd.decData = some b → b.data = []) := by
  cases c with
  | getDecryptedData => exact .inl rfl
  | getFileData =>
    refine .inr ⟨rfl, ?_⟩
    simp only [Api.call] at hd
    split at hd
    · simp only [Api.getFileData] at hd
      split at hd
      · cases hd
      · rename_i hf
        cases hd
        exact (Api.ghost h0 h).data fd hf
    · cases hd
  | _ =>
    exfalso
    simp only [Api.call] at hd
    repeat' first
      | cases hd; done
      | (obtain ⟨x, -, hd⟩ := Res.bind_eq_ok.mp hd)
      | split at hd

/-- C42: the data handed out is the decryption of the data part of the selected file with the key the accepted password
gives. (For data of less than 2^31 bytes, of a file that can still be read.) -/
theorem C42_plaintext (mode : Byte) (s0 : Session) (h0 : Api.new mode = .ok s0) (fs : FS) (evs : List Event)
    (rs : List (Option Ret)) (w w' : World) (h : Api.run hs rest ⟨s0, fs⟩ evs = .ok (rs, w)) (e : Env)
    (fd : FileDataStruct) (hd : Api.call hs rest e w .getDecryptedData = .ok (.data (.success fd), w')) :
    ∃ p h key m, (∃ f, w.api.selected = some f ∧ f.path = p) ∧ w.api.dh.map DataHeader.contents = some h ∧ h.Valid ∧
      m.toByte = h.hashMode ∧ (∃ pw, key = h.ch1.digest (hs.get m).h pw) ∧
      h.ch2.digest (hs.get m).h key = h.validator ∧
      (∀ c, w.fs p = .file c → e.canRead p = true → h.fileSize - h.length < 2 ^ 31 →
        ∃ b, fd.decData = some b ∧
          IsEncryption (hs.get m).h m.size key h.salt b.data ((c.drop h.length).take (h.fileSize - h.length))) := by
  have hst : w.api.state = .PASSWORD_VERIFIED := by
    simp only [Api.call] at hd
    split at hd
    · assumption
    · cases hd
  obtain ⟨h, pre, p, e1, mid, pw, t, e2, post, rs1, w1, data, m, k1, k2, k3, k4, k5, k6, k7, k8, k9, k10⟩ := (Api.ghost h0 h).ver hst
  have hcont := HeaderParse.contents_mkHeader k4
  refine ⟨p, h, _, m, ⟨_, k7, rfl⟩, by rw [k6]; simp [hcont], k4, k8, ⟨pw, k9⟩, k10, ?_⟩
  intro c hc hread hlt
  simp only [Api.call, hst] at hd
  obtain ⟨⟨o, w2⟩, hg, hd⟩ := Res.bind_eq_ok.mp hd
  simp only [Res.ok.injEq, Prod.mk.injEq, Ret.data.injEq] at hd
  obtain ⟨rfl, rfl⟩ := hd
  rcases Api.getDecryptedData_cases hg with ⟨ho, -⟩ | ⟨r, d, f, m', salt, ho, -, g1, g2, g3, g4, g5, g6, -⟩
  · cases ho
  · cases ho
    rw [k6] at g1; cases g1
    rw [k7] at g5; cases g5
    have c4 : m'.toByte = h.hashMode := by
      have := congrArg Header.hashMode hcont
      simp only [DataHeader.contents, g3] at this
      exact this
    have : m' = m := by
      have := c4.trans k8.symm
      revert this; cases m' <;> cases m <;> decide
    subst this
    have c5 : salt.data = h.salt := by
      have := congrArg Header.salt hcont
      simp only [DataHeader.contents, g4] at this
      exact this
    have hz : digestSize h.hashMode = m'.size := by rw [← k8]; cases m' <;> rfl
    have hlen1 : w.api.pwHash.data.length = (hs.get m').size := by
      rw [k9]
      exact Api.digest_length _ _ k4.ch1.1 _
    have hlen2 : salt.data.length = (hs.get m').size := by rw [c5, k4.salt, hz, Hashes.get_size]
    have hstr : FileHandler.getDataStream e w.fs ⟨p, h.length, h.fileSize, false⟩ 0 =
        ⟨c.drop h.length, e.sched 0, false, false⟩ := by
      simp [FileHandler.getDataStream, FS.openIn, hc, hread]
    rw [hstr, FileHandler.getDataSize] at g6
    by_cases hshort : h.fileSize - h.length ≤ (c.drop h.length).length
    · rw [cryptStream_eq hlen1 hlen2 hlt rfl hshort] at g6
      injection g6 with g6
      refine ⟨r, rfl, ?_⟩
      rw [← g6, ← c5, ← Hashes.get_size hs m']
      exact cryptOut_dec ..
    · rw [cryptStream_short hlen1 hlen2 hlt rfl (Nat.lt_of_not_le hshort)] at g6
      cases g6

-- a history that ends with decrypted data
example : ∃ rs w, Api.run toyHashes noRest (freshWorld fun _ => .missing) (sampleSave ++ sampleOpen.take 3) = .ok (rs, w) ∧
    (match Api.call toyHashes noRest openEnv w .getDecryptedData with
      | .ok (.data (.success fd), _) => fd.decData == some (Bytes.full (ascii "hello"))
      | _ => false) = true :=
  runIs_ok (p := fun _ w => _) (by decide +kernel)

/-! ## C43 -/

/-- C43: without timeout, for a selected file, exactly the passwords whose two chain hashes give the validator of its header
are accepted; every other one is refused as invalid and changes nothing. The clock may do anything as long as the whole
check takes less than 2^64 ms. -/
theorem C43_accepts_exactly (mode : Byte) (s0 : Session) (h0 : Api.new mode = .ok s0) (fs : FS) (evs : List Event)
    (rs : List (Option Ret)) (w : World) (h : Api.run hs rest ⟨s0, fs⟩ evs = .ok (rs, w))
    (hst : w.api.state = .FILE_SELECTED) :
    ∃ pre p e1 mid rs1 w1 h data, evs = pre ++ .call (.selectFile p) e1 :: mid ∧
      Api.run hs rest ⟨s0, fs⟩ pre = .ok (rs1, w1) ∧ w1.fs p = .file (h.bytes ++ data) ∧ h.Valid ∧
      StaysSelected hs rest ⟨s0, fs⟩ (pre ++ [.call (.selectFile p) e1]) mid p ∧
      ∀ (e : Env) (pw : List Byte), e.peek = 0 ∨ (∀ j, e.peek + e.clk 1 j < 2 ^ 64) →
        (Opens hs h pw → ∃ w', Api.call hs rest e w (.verifyPassword pw 0) = .ok (.flag (.success true), w') ∧
          w'.api.state = .PASSWORD_VERIFIED) ∧
        (¬ Opens hs h pw → Api.call hs rest e w (.verifyPassword pw 0) = .ok (.flag (.fail .ERR_PASSWORD_INVALID), w)) := by
  obtain ⟨h, pre, p, e1, mid, rs1, w1, data, k1, k2, k3, k4, k5, k6, k7⟩ := (Api.ghost h0 h).sel hst
  refine ⟨pre, p, e1, mid, rs1, w1, h, data, k1, k2, k3, k4, k5, ?_⟩
  intro e pw hclk
  obtain ⟨m, v, hm, hv, -, key⟩ := Api.verify_spec (hs := hs) (e := e) (mkHeader_ok k4) k6 pw 0
  obtain ⟨k, -, -, hk, key⟩ := key (Api.not_vlate_zero hclk)
  have hcont := HeaderParse.contents_mkHeader k4
  have c1 : (HeaderParse.mkHeader h).dh.ch1.desc = h.ch1 := congrArg Header.ch1 hcont
  have c2 : (HeaderParse.mkHeader h).dh.ch2.desc = h.ch2 := congrArg Header.ch2 hcont
  have c3 : v.data = h.validator := by
    have := congrArg Header.validator hcont
    simp only [DataHeader.contents, hv] at this
    exact this
  have c4 : m.toByte = h.hashMode := by
    have := congrArg Header.hashMode hcont
    simp only [DataHeader.contents, hm] at this
    exact this
  rw [c1] at hk
  rw [c2, c3, hk] at key
  constructor
  · rintro ⟨m', hm', ho⟩
    have : m' = m := by
      have := hm'.trans c4.symm
      revert this; cases m' <;> cases m <;> decide
    subst this
    rw [if_pos ho] at key
    refine ⟨⟨{ w.api with pwHash := k, state := .PASSWORD_VERIFIED }, w.fs⟩, ?_, rfl⟩
    simp only [Api.call, hst, key, Res.bind_ok]
  · intro ho
    rw [if_neg (fun hc => ho ⟨m, c4, hc⟩)] at key
    simp only [Api.call, hst, key, Res.bind_ok]

/-- C43: the password a header was created with reproduces its validator. -/
theorem C43_creating_password (e : Env) (w w' : World) (pw : List Byte) (ds : SettingsIters) (hds : BuiltSettings ds)
    (t : Nat) (h : Api.call hs rest e w (.createDataHeader pw ds t) = .ok (.flag (.success true), w')) :
    ∃ d, w'.api.dh = some d ∧ Opens hs d.contents pw := by
  rcases Api.createHeader_call h with ⟨hr, -⟩ | ⟨-, -, x, d, hx, hd, hw⟩
  · exact absurd rfl hr
  obtain ⟨-, -, hm, m1, m2, n1, n2, -, -, -, -, made⟩ := Api.create_success (Api.built_ok hds).1 (Api.built_ok hds).2 hx hd
  obtain ⟨v, hdh, hv⟩ := made.dh
  refine ⟨d, ?_, hm, ?_, ?_⟩
  · rcases hw with ⟨-, hw⟩ | ⟨-, hw⟩ <;> rw [hw]
  · simp [DataHeader.contents, hdh]
  · simp only [DataHeader.contents, hdh]
    rw [hv, made.hash]

/-- C43: whatever the timeout and the clock, a password check that does not succeed leaves everything unchanged. -/
theorem C43_refused_unchanged (e : Env) (w w' : World) (pw : List Byte) (t : Nat) (r : Ret)
    (h : Api.call hs rest e w (.verifyPassword pw t) = .ok (r, w')) (hr : r ≠ .flag (.success true)) : w' = w := by
  simp only [Api.call] at h
  split at h
  · obtain ⟨⟨o, s⟩, hc, h⟩ := Res.bind_eq_ok.mp h
    cases h
    rcases Api.verifyPassword_cases hc with ⟨-, rfl⟩ | ⟨rfl, -⟩
    · rfl
    · exact absurd rfl hr
  · cases h; rfl

-- the right password and a wrong one
example : ∃ rs w, Api.run toyHashes noRest (freshWorld fun _ => .missing)
      (sampleSave ++ [.call .logout openEnv, .call (.selectFile samplePath) openEnv]) = .ok (rs, w) ∧
    (w.api.state == .FILE_SELECTED &&
      (match Api.call toyHashes noRest openEnv w (.verifyPassword samplePw 0) with
        | .ok (.flag (.success true), _) => true | _ => false) &&
      (match Api.call toyHashes noRest openEnv w (.verifyPassword (ascii "passw0rd!") 0) with
        | .ok (.flag (.fail .ERR_PASSWORD_INVALID), _) => true | _ => false)) = true :=
  runIs_ok (p := fun _ w => _) (by decide +kernel)

/-! ## C51 (violated) -/

/-- C51, the part that holds: a timeout seen in the first chain hash, or used up exactly when it ends, is reported and
changes nothing; without timeout none is reported (as long as the whole check takes less than 2^64 ms). -/
theorem C51_timeout_partial (mode : Byte) (s0 : Session) (h0 : Api.new mode = .ok s0) (fs : FS) (evs : List Event)
    (rs : List (Option Ret)) (w : World) (h : Api.run hs rest ⟨s0, fs⟩ evs = .ok (rs, w))
    (hst : w.api.state = .FILE_SELECTED) :
    ∃ h, w.api.dh.map DataHeader.contents = some h ∧ ∀ (e : Env) (pw : List Byte) (t : Nat),
      (t ≠ 0 → (∃ j, 1 ≤ j ∧ j < h.ch1.iters ∧ j % 1000 = 0 ∧ t ≤ e.clk 0 j) →
        Api.call hs rest e w (.verifyPassword pw t) = .ok (.flag .timeout, w)) ∧
      (t ≠ 0 → t < 2 ^ 64 → e.peek = t → Api.call hs rest e w (.verifyPassword pw t) = .ok (.flag .timeout, w)) ∧
      (t = 0 → e.peek = 0 ∨ (∀ j, e.peek + e.clk 1 j < 2 ^ 64) →
        ∀ r w', Api.call hs rest e w (.verifyPassword pw t) = .ok (r, w') → r ≠ .flag .timeout) := by
  obtain ⟨h, pre, p, e1, mid, rs1, w1, data, k1, k2, k3, k4, k5, k6, k7⟩ := (Api.ghost h0 h).sel hst
  have hcont := HeaderParse.contents_mkHeader k4
  have c1 : (HeaderParse.mkHeader h).dh.ch1.desc = h.ch1 := congrArg Header.ch1 hcont
  refine ⟨h, by rw [k6]; simp [hcont], ?_⟩
  intro e pw t
  obtain ⟨m, v, hm, hv, late, key⟩ := Api.verify_spec (hs := hs) (e := e) (mkHeader_ok k4) k6 pw t
  refine ⟨?_, ?_, ?_⟩
  · rintro ht ⟨j, h1, h2, h3, h4⟩
    have := late (.inl ⟨ht, j, h1, by rw [c1]; exact h2, h3, h4⟩)
    simp only [Api.call, hst, this, Res.bind_ok]
  · intro ht ht2 hp
    have := late (.inr (.inl ⟨ht, by
      rw [hp]
      show (t + (2 ^ 64 - t % 2 ^ 64)) % 2 ^ 64 = 0
      omega⟩))
    simp only [Api.call, hst, this, Res.bind_ok]
  · rintro rfl hclk r w' hcall hr
    obtain ⟨k, -, -, -, key⟩ := key (Api.not_vlate_zero hclk)
    simp only [Api.call, hst, key] at hcall
    split at hcall <;> (cases hcall; cases hr)

/-- C51, the part that holds, exactly: under a timeout that is not over when the first chain hash ends, the check reports a
timeout (and changes nothing) exactly if the clock reached the limit at one of the checks, the second chain hash having the
remaining time; in time it accepts exactly the passwords that give the validator. -/
theorem C51_exactly_partial (mode : Byte) (s0 : Session) (h0 : Api.new mode = .ok s0) (fs : FS) (evs : List Event)
    (rs : List (Option Ret)) (w : World) (h : Api.run hs rest ⟨s0, fs⟩ evs = .ok (rs, w))
    (hst : w.api.state = .FILE_SELECTED) :
    ∃ h, w.api.dh.map DataHeader.contents = some h ∧ ∀ (e : Env) (pw : List Byte) (t : Nat), t ≠ 0 → t < 2 ^ 64 →
      e.peek ≤ t →
      (¬ InTime e t h.ch1.iters h.ch2.iters → Api.call hs rest e w (.verifyPassword pw t) = .ok (.flag .timeout, w)) ∧
      (InTime e t h.ch1.iters h.ch2.iters →
        (Opens hs h pw → ∃ w', Api.call hs rest e w (.verifyPassword pw t) = .ok (.flag (.success true), w') ∧
          w'.api.state = .PASSWORD_VERIFIED) ∧
        (¬ Opens hs h pw →
          Api.call hs rest e w (.verifyPassword pw t) = .ok (.flag (.fail .ERR_PASSWORD_INVALID), w))) := by
  obtain ⟨h, pre, p, e1, mid, rs1, w1, data, k1, k2, k3, k4, k5, k6, k7⟩ := (Api.ghost h0 h).sel hst
  have hcont := HeaderParse.contents_mkHeader k4
  have c1 : (HeaderParse.mkHeader h).dh.ch1.desc = h.ch1 := congrArg Header.ch1 hcont
  have c2 : (HeaderParse.mkHeader h).dh.ch2.desc = h.ch2 := congrArg Header.ch2 hcont
  refine ⟨h, by rw [k6]; simp [hcont], ?_⟩
  intro e pw t ht ht2 hp
  obtain ⟨m, v, hm, hv, late, key⟩ := Api.verify_spec (hs := hs) (e := e) (mkHeader_ok k4) k6 pw t
  have hleft : Api.left t e.peek = t - e.peek := by
    simp only [Api.left]
    omega
  have hiff : Api.VLate e t h.ch1.iters h.ch2.iters ↔ ¬ InTime e t h.ch1.iters h.ch2.iters := by
    simp only [Api.VLate, hleft, Hit, InTime]
    constructor
    · rintro (⟨-, j, a1, a2, a3, a4⟩ | ⟨-, a⟩ | ⟨a, j, -, a2, a3, a4⟩) ⟨b1, b2, b3⟩
      · have := b1 j a1 a2 a3; omega
      · omega
      · have := b3 j a2 a3; omega
    · intro hn
      by_cases b1 : ∃ j, 1 ≤ j ∧ j < h.ch1.iters ∧ j % 1000 = 0 ∧ t ≤ e.clk 0 j
      · exact .inl ⟨ht, b1⟩
      by_cases b2 : t - e.peek = 0
      · exact .inr (.inl ⟨ht, b2⟩)
      refine .inr (.inr ⟨b2, ?_⟩)
      apply Classical.byContradiction
      intro b3
      refine hn ⟨fun j a1 a2 a3 => ?_, by omega, fun j a1 a2 => ?_⟩
      · exact Nat.lt_of_not_le fun a4 => b1 ⟨j, a1, a2, a3, a4⟩
      · exact Nat.lt_of_not_le fun a4 => b3 ⟨j, Nat.zero_le _, a1, a2, a4⟩
  rw [c1, c2] at late
  rw [c1, c2] at key
  refine ⟨fun hn => ?_, fun hin => ?_⟩
  · simp only [Api.call, hst, late (hiff.mpr hn), Res.bind_ok]
  obtain ⟨k, -, -, hk, key⟩ := key (fun hl => hiff.mp hl hin)
  have c3 : v.data = h.validator := by
    have := congrArg Header.validator hcont
    simp only [DataHeader.contents, hv] at this
    exact this
  have c4 : m.toByte = h.hashMode := by
    have := congrArg Header.hashMode hcont
    simp only [DataHeader.contents, hm] at this
    exact this
  rw [c3, hk] at key
  constructor
  · rintro ⟨m', hm', ho⟩
    have : m' = m := by
      have := hm'.trans c4.symm
      revert this; cases m' <;> cases m <;> decide
    subst this
    rw [if_pos ho] at key
    refine ⟨⟨{ w.api with pwHash := k, state := .PASSWORD_VERIFIED }, w.fs⟩, ?_, rfl⟩
    simp only [Api.call, hst, key, Res.bind_ok]
  · intro ho
    rw [if_neg (fun hc => ho ⟨m, c4, hc⟩)] at key
    simp only [Api.call, hst, key, Res.bind_ok]

-- 2 of 5 ms used when the first chain hash ends; in the second one the clock shows 2 ms, or 3 ms
example : ∃ rs w, Api.run toyHashes noRest (freshWorld fun _ => .missing)
      (sampleSave ++ [.call .logout openEnv, .call (.selectFile samplePath) openEnv]) = .ok (rs, w) ∧
    (w.api.state == .FILE_SELECTED &&
      (match Api.call toyHashes noRest { openEnv with peek := 2, clk := fun _ _ => 2 } w (.verifyPassword samplePw 5) with
        | .ok (.flag (.success true), _) => true | _ => false) &&
      (match Api.call toyHashes noRest { openEnv with peek := 2, clk := fun _ _ => 3 } w (.verifyPassword samplePw 5) with
        | .ok (.flag .timeout, _) => true | _ => false)) = true :=
  runIs_ok (p := fun _ w => _) (by decide +kernel)

/-- C51 violated, for every header and password: when the first chain hash ends later than the timeout (not having noticed
it), the remaining time wraps around and the second chain hash runs with a limit of nearly 2^64 ms; no timeout is
reported. -/
theorem C51_overrun_ignored (mode : Byte) (s0 : Session) (h0 : Api.new mode = .ok s0) (fs : FS) (evs : List Event)
    (rs : List (Option Ret)) (w : World) (h : Api.run hs rest ⟨s0, fs⟩ evs = .ok (rs, w))
    (hst : w.api.state = .FILE_SELECTED) (e : Env) (pw : List Byte) (t : Nat) (ht : t < e.peek)
    (h1 : ∀ j, 1 ≤ j → j % 1000 = 0 → e.clk 0 j < t) (h2 : ∀ j, e.clk 1 j + (e.peek - t) < 2 ^ 64) :
    ∃ r w', Api.call hs rest e w (.verifyPassword pw t) = .ok (r, w') ∧ r ≠ .flag .timeout := by
  obtain ⟨h, pre, p, e1, mid, rs1, w1, data, k1, k2, k3, k4, k5, k6, k7⟩ := (Api.ghost h0 h).sel hst
  obtain ⟨m, v, hm, hv, -, key⟩ := Api.verify_spec (hs := hs) (e := e) (mkHeader_ok k4) k6 pw t
  have := h2 0
  have hl : ∀ n1 n2, ¬ Api.VLate e t n1 n2 := by
    rintro n1 n2 (⟨-, j, a1, -, a2, a3⟩ | ⟨-, h⟩ | ⟨h, j, -, -, -, a⟩)
    · have := h1 j a1 a2; omega
    · simp only [Api.left] at h
      omega
    · have := h2 j
      simp only [Api.left] at a
      omega
  obtain ⟨k, -, -, -, key⟩ := key (hl _ _)
  by_cases hc : (HeaderParse.mkHeader h).dh.ch2.desc.digest (hs.get m).h k.data = v.data
  · rw [if_pos hc] at key
    refine ⟨.flag (.success true), ⟨{ w.api with pwHash := k, state := .PASSWORD_VERIFIED }, w.fs⟩, ?_, by simp⟩
    simp only [Api.call, hst, key, Res.bind_ok]
  · rw [if_neg hc] at key
    refine ⟨.flag (.fail .ERR_PASSWORD_INVALID), w, ?_, by simp⟩
    simp only [Api.call, hst, key, Res.bind_ok]

/-- C51 violated, concrete witness: 5 ms allowed, 7 ms used by the first chain hash, and the password is accepted. -/
theorem C51_violated : ∃ rs w, Api.run toyHashes noRest (freshWorld fun _ => .missing)
      (sampleSave ++ [.call .logout openEnv, .call (.selectFile samplePath) openEnv,
        .call (.verifyPassword samplePw 5) { openEnv with peek := 7 }]) = .ok (rs, w) ∧
    decide (rs.getLast? = some (some (.flag (.success true)))) = true :=
  runIs_ok (p := fun rs _ => _) (by decide +kernel)

-- a timeout used up exactly
example : ∃ rs w, Api.run toyHashes noRest (freshWorld fun _ => .missing)
      (sampleSave ++ [.call .logout openEnv, .call (.selectFile samplePath) openEnv,
        .call (.verifyPassword samplePw 5) { openEnv with peek := 5 }]) = .ok (rs, w) ∧
    decide (rs.getLast? = some (some (.flag .timeout))) = true :=
  runIs_ok (p := fun rs _ => _) (by decide +kernel)

/-! ## C52 -/

/-- C52: a header is created under a timeout only if the clock stayed below the limit in the first chain hash and after it,
and below the remaining time in the second one. -/
theorem C52_success_in_time (e : Env) (w w' : World) (pw : List Byte) (ds : SettingsIters) (hds : BuiltSettings ds)
    (t : Nat) (ht : t ≠ 0) (h : Api.call hs rest e w (.createDataHeader pw ds t) = .ok (.flag (.success true), w')) :
    ∃ n1 n2, ds.ch1Iters = some n1 ∧ ds.ch2Iters = some n2 ∧ InTime e t n1 n2 := by
  rcases Api.createHeader_call h with ⟨hr, -⟩ | ⟨-, -, x, d, hx, hd, -⟩
  · exact absurd rfl hr
  obtain ⟨-, -, hm, m1, m2, n1, n2, are, hl, -⟩ := Api.create_success (Api.built_ok hds).1 (Api.built_ok hds).2 hx hd
  have hp : e.peek < t := Nat.lt_of_not_le fun hc => hl (.inr (.inl ⟨ht, hc⟩))
  refine ⟨_, _, are.en1, are.en2, ?_, hp, ?_⟩
  · intro j a b c
    exact Nat.lt_of_not_le fun hc => hl (.inl ⟨ht, j, a, b, c, hc⟩)
  · intro j b c
    exact Nat.lt_of_not_le fun hc => hl (.inr (.inr ⟨by omega, j, by omega, b, c, hc⟩))

/-- C52: conversely, in every reachable state that allows it, with complete settings of at most 255 blocks of each kind and
working randomness: in time means success, and not in time means that a timeout is reported and nothing changed. -/
theorem C52_exactly (mode : Byte) (s0 : Session) (h0 : Api.new mode = .ok s0) (fs : FS) (evs : List Event)
    (hb : BuiltArgs evs) (rs : List (Option Ret)) (w : World) (h : Api.run hs rest ⟨s0, fs⟩ evs = .ok (rs, w))
    (hst : w.api.state = .EMPTY_FILE_SELECTED ∨ w.api.state = .DECRYPTED) (e : Env) (he : ∀ i, (e.rand i).good = true)
    (pw : List Byte) (ds : SettingsIters) (hds : BuiltSettings ds) (hc : ds.isComplete = true)
    (hlen : ds.dec.length ≤ 255 ∧ ds.enc.length ≤ 255) (t : Nat) (ht : t ≠ 0) :
    ∃ n1 n2, ds.ch1Iters = some n1 ∧ ds.ch2Iters = some n2 ∧
      (InTime e t n1 n2 → ∃ w', Api.call hs rest e w (.createDataHeader pw ds t) = .ok (.flag (.success true), w')) ∧
      (¬ InTime e t n1 n2 → Api.call hs rest e w (.createDataHeader pw ds t) = .ok (.flag .timeout, w)) := by
  have hinv := Api.run_sinv_built h0 hb h
  have hm1 : w.api.fileMode = 1 := by
    generalize w.api = s at hinv
    cases hinv <;> rfl
  obtain ⟨hr, hbl⟩ := Api.built_ok hds
  obtain ⟨hm, m1, m2, n1, n2, are⟩ := hr.are hc
  obtain ⟨k1, k2⟩ := Api.create_spec (hs := hs) are hbl he pw t
  have hiff : InTime e t n1.toNat n2.toNat ↔ ¬ Api.Late e t n1.toNat n2.toNat := by
    constructor
    · rintro ⟨a, b, c⟩ (⟨-, j, d1, d2, d3, d4⟩ | ⟨-, d⟩ | ⟨-, j, -, d2, d3, d4⟩)
      · have := a j d1 d2 d3; omega
      · omega
      · have := c j d2 d3; omega
    · intro hl
      have hp : e.peek < t := Nat.lt_of_not_le fun hc => hl (.inr (.inl ⟨ht, hc⟩))
      refine ⟨?_, hp, ?_⟩
      · intro j a b c
        exact Nat.lt_of_not_le fun hc => hl (.inl ⟨ht, j, a, b, c, hc⟩)
      · intro j b c
        exact Nat.lt_of_not_le fun hc => hl (.inr (.inr ⟨by omega, j, by omega, b, c, hc⟩))
  refine ⟨_, _, are.en1, are.en2, ?_, ?_⟩
  · intro hi
    have k3 := k2 (hiff.mp hi)
    rw [if_pos hlen] at k3
    obtain ⟨d, x, k4, -⟩ := k3
    rcases hst with hst | hst
    · refine ⟨⟨{ w.api with pwHash := x, dh := some d, fileData := some ⟨some 1, some (Bytes.empty 0)⟩, state := .DECRYPTED }, w.fs⟩, ?_⟩
      simp only [Api.call, hc, hst, hm1, k4, Bool.not_true, Bool.false_eq_true, if_false, Res.bind_ok]
      simp only [Api.headerForEmpty, hm1]
      rfl
    · refine ⟨⟨{ w.api with pwHash := x, dh := some d }, w.fs⟩, ?_⟩
      simp only [Api.call, hc, hst, hm1, k4, Bool.not_true, Bool.false_eq_true, if_false, Res.bind_ok, Api.headerForOpen]
  · intro hi
    have k3 := k1 (Classical.byContradiction fun hc => hi (hiff.mpr hc))
    rcases hst with hst | hst
    · simp only [Api.call, hc, hst, hm1, k3, Bool.not_true, Bool.false_eq_true, if_false, Res.bind_ok]
      rfl
    · simp only [Api.call, hc, hst, hm1, k3, Bool.not_true, Bool.false_eq_true, if_false, Res.bind_ok]
      rfl

/-- C52: a header creation that does not succeed (by timeout or otherwise) leaves everything unchanged. -/
theorem C52_failure_unchanged (e : Env) (w w' : World) (pw : List Byte) (ds : SettingsIters) (t : Nat) (r : Ret)
    (h : Api.call hs rest e w (.createDataHeader pw ds t) = .ok (r, w')) (hr : r ≠ .flag (.success true)) : w' = w := by
  rcases Api.createHeader_call h with ⟨-, hw⟩ | ⟨hr', -⟩
  · exact hw
  · exact absurd hr' hr

/-- C52: without timeout none is reported. -/
theorem C52_no_timeout (e : Env) (w w' : World) (pw : List Byte) (ds : SettingsIters) (hds : BuiltSettings ds) (r : Ret)
    (h : Api.call hs rest e w (.createDataHeader pw ds 0) = .ok (r, w')) : r ≠ .flag .timeout := by
  rintro rfl
  have key : ∀ x, Api.createDataHeaderIters hs w.api.fileMode pw ds 0 e = .ok x → x.err ≠ .timeout := by
    intro x hx hxe
    obtain ⟨hm, m1, m2, n1, n2, -, hl⟩ := Api.create_timeout (Api.built_ok hds).1 (Api.built_ok hds).2 hx hxe
    exact Api.not_late_zero _ _ _ hl
  simp only [Api.call] at h
  split at h
  · cases h
  split at h
  · obtain ⟨x, hx, h⟩ := Res.bind_eq_ok.mp h
    obtain ⟨⟨o, s⟩, hc, h⟩ := Res.bind_eq_ok.mp h
    cases h
    have hk := key x hx
    rw [Api.headerForEmpty, Res.noexcept_eq_ok] at hc
    cases hxe : x.err with
    | timeout => exact hk hxe
    | fail c => rw [hxe] at hc; cases hc
    | success d =>
      rw [hxe] at hc
      obtain ⟨fd, -, hc⟩ := Res.bind_eq_ok.mp hc
      cases hc
  · obtain ⟨x, hx, h⟩ := Res.bind_eq_ok.mp h
    obtain ⟨⟨o, s⟩, hc, h⟩ := Res.bind_eq_ok.mp h
    cases h
    have hk := key x hx
    rw [Api.headerForOpen] at hc
    cases hxe : x.err with
    | timeout => exact hk hxe
    | fail c => rw [hxe] at hc; cases hc
    | success d => rw [hxe] at hc; cases hc
  · cases h

example : BuiltSettings sampleSettings :=
  ⟨⟨[(.fileMode, 1), (.hashMode, 1), (.ch1Mode, 1), (.ch2Mode, 4), (.num1, 2), (.num2, 3)], _, [], rfl⟩,
    by
      intro b hb
      simp only [sampleSettings, List.mem_singleton] at hb
      subst hb
      exact .inr (.inr ⟨⟨5, Bytes.empty 0⟩, Bytes.full [1, 2, 3], by decide⟩),
    by intro b hb; cases hb⟩
-- in time, and too late between the chain hashes
example : ∃ rs w, Api.run toyHashes noRest (freshWorld fun _ => .missing) (sampleSave.take 2) = .ok (rs, w) ∧
    (w.api.state == .EMPTY_FILE_SELECTED &&
      (match Api.call toyHashes noRest { openEnv with peek := 6 } w (.createDataHeader samplePw sampleSettings 7) with
        | .ok (.flag (.success true), _) => true | _ => false) &&
      (match Api.call toyHashes noRest { openEnv with peek := 7 } w (.createDataHeader samplePw sampleSettings 7) with
        | .ok (.flag .timeout, _) => true | _ => false)) = true :=
  runIs_ok (p := fun _ w => _) (by decide +kernel)

/-! ## C53 (violated) -/

/-- C53 violated: wherever it is allowed and for all complete settings, creating a header by run time terminates the
process. -/
theorem C53_terminates (e : Env) (w : World) (hst : w.api.state = .EMPTY_FILE_SELECTED ∨ w.api.state = .DECRYPTED)
    (pw : List Byte) (ds : SettingsTime) (hc : ds.isComplete = true) :
    Api.call hs rest e w (.createDataHeaderTime pw ds) = .fatal .terminate := by
  rcases hst with hst | hst <;> simp only [Api.call, hc, hst] <;>
    simp [Api.createDataHeaderTime, hc, Api.Helper.convert, Res.noexcept]

/-- C53, the part that holds: incomplete settings or the wrong state are reported as errors and change nothing. -/
theorem C53_reported_partial (e : Env) (w : World) (pw : List Byte) (ds : SettingsTime)
    (h : ds.isComplete = false ∨ (w.api.state ≠ .EMPTY_FILE_SELECTED ∧ w.api.state ≠ .DECRYPTED)) :
    ∃ c, Api.call hs rest e w (.createDataHeaderTime pw ds) = .ok (.flag (.fail c), w) := by
  by_cases hc : ds.isComplete = true
  · obtain ⟨h1, h2⟩ := h.resolve_left (by simp [hc])
    refine ⟨.ERR_API_STATE_INVALID, ?_⟩
    simp only [Api.call, hc]
    cases hst : w.api.state <;> simp_all [wrongState]
  · refine ⟨.ERR_DATAHEADERSETTINGS_INCOMPLETE, ?_⟩
    simp [Api.call, hc]

example : (({ fileMode := some 1, hashMode := some 1, ch1Mode := some 1, ch2Mode := some 1, ch1Time := some 100, ch2Time := some 100 } : SettingsTime)).isComplete = true ∧
    ∃ rs w, Api.run toyHashes noRest (freshWorld fun _ => .missing) (sampleSave.take 2) = .ok (rs, w) ∧
    (w.api.state == .EMPTY_FILE_SELECTED) = true :=
  ⟨by decide, runIs_ok (p := fun _ w => _) (by decide +kernel)⟩

/-! ## C57 (violated) -/

/-- C57, the part that holds: right after creating a header for an empty file, the fetch hands out an empty file-data
object, and then, as long as nobody logs out, no later fetch hands out anything. -/
theorem C57_once_partial (e : Env) (w w1 : World) (pw : List Byte) (ds : SettingsIters) (t : Nat)
    (hst : w.api.state = .EMPTY_FILE_SELECTED)
    (h : Api.call hs rest e w (.createDataHeader pw ds t) = .ok (.flag (.success true), w1)) (e1 : Env) :
    ∃ w2, Api.call hs rest e1 w1 .getFileData =
        .ok (.data (.success ⟨some w.api.fileMode, some (Bytes.empty 0)⟩), w2) ∧
      ∀ (evs : List Event) (rs : List (Option Ret)) (w3 w4 : World) (e2 : Env) (r : Ret),
        (∀ ev ∈ evs, ∀ e, ev ≠ .call .logout e ∧ ∀ m, ev ≠ .call (.logoutMode m) e) →
        Api.run hs rest w2 evs = .ok (rs, w3) → Api.call hs rest e2 w3 .getFileData = .ok (r, w4) →
        r = .data (.fail (if w3.api.state = .DECRYPTED then .ERR_FILEDATASTRUCT_NULL else .ERR_API_STATE_INVALID)) := by
  rcases Api.createHeader_call h with ⟨hr, -⟩ | ⟨-, -, x, d, -, -, ⟨-, hw⟩ | ⟨hs', -⟩⟩
  · exact absurd rfl hr
  rotate_left
  · rw [hst] at hs'; cases hs'
  refine ⟨⟨{ w1.api with fileData := none }, w1.fs⟩, ?_, ?_⟩
  · simp only [Api.call, Api.getFileData, hw]
  · intro evs rs w3 w4 e2 r hq hrun hfetch
    obtain ⟨hi, hd⟩ := Api.noData_run evs hq ⟨.inl (by simp [hw]), fun _ => rfl⟩ hrun
    rcases hi with hi | hi | hi
    · simp only [Api.call, hi, Api.getFileData, hd hi] at hfetch
      cases hfetch
      simp [hi]
    · simp only [Api.call, hi] at hfetch
      cases hfetch
      simp [hi, wrongState]
    · simp only [Api.call, hi] at hfetch
      cases hfetch
      simp [hi, wrongState]

/-- C57 violated: after decrypting a file the fetch never returns the data. -/
theorem C57_nothing_after_decrypting (e e1 : Env) (w w1 : World) (fd : FileDataStruct)
    (h : Api.call hs rest e w .getDecryptedData = .ok (.data (.success fd), w1)) :
    Api.call hs rest e1 w1 .getFileData = .ok (.data (.fail .ERR_FILEDATASTRUCT_NULL), w1) := by
  simp only [Api.call] at h
  split at h
  · obtain ⟨⟨o, w2⟩, hc, h⟩ := Res.bind_eq_ok.mp h
    simp only [Res.ok.injEq, Prod.mk.injEq, Ret.data.injEq] at h
    obtain ⟨rfl, rfl⟩ := h
    rcases Api.getDecryptedData_cases hc with ⟨ho, -⟩ | ⟨r, d, f, m, salt, -, -, -, -, -, -, -, -, rfl⟩
    · cases ho
    · rfl
  · cases h

/-- C57 violated, concrete witness: data saved, opened and decrypted, then fetched. -/
theorem C57_violated : ∃ rs w, Api.run toyHashes noRest (freshWorld fun _ => .missing)
      (sampleSave ++ sampleOpen ++ [.call .getFileData openEnv]) = .ok (rs, w) ∧
    decide (rs.drop 8 = [some (.data (.success ⟨some 1, some (Bytes.full (ascii "hello"))⟩)),
      some (.data (.fail .ERR_FILEDATASTRUCT_NULL))]) = true :=
  runIs_ok (p := fun rs _ => _) (by decide +kernel)

-- fetched once, then nothing, also after encrypting
example : ∃ rs w, Api.run toyHashes noRest (freshWorld fun _ => .missing)
      (sampleSave.take 3 ++ [.call .getFileData openEnv, .call .getFileData openEnv, .call .changeSalt openEnv,
        .call .getFileData openEnv]) = .ok (rs, w) ∧
    decide (rs.drop 3 = [some (.data (.success ⟨some 1, some (Bytes.empty 0)⟩)),
      some (.data (.fail .ERR_FILEDATASTRUCT_NULL)), some (.plain (.success ())),
      some (.data (.fail .ERR_FILEDATASTRUCT_NULL))]) = true :=
  runIs_ok (p := fun rs _ => _) (by decide +kernel)

/-! ## C64 -/

/-- C64: if any of the four requests for random bytes made while creating a header fails, no header is created and the
session does not change (if the process survives). -/
theorem C64_create (e : Env) (w w' : World) (pw : List Byte) (ds : SettingsIters) (hds : BuiltSettings ds) (t : Nat)
    (r : Ret) (h : Api.call hs rest e w (.createDataHeader pw ds t) = .ok (r, w')) (i : Nat) (hi : i < 4)
    (hbad : (e.rand i).good = false) : r ≠ .flag (.success true) ∧ w' = w := by
  rcases Api.createHeader_call h with hr | ⟨-, -, x, d, hx, hd, -⟩
  · exact hr
  · obtain ⟨-, hg, -⟩ := Api.create_success (Api.built_ok hds).1 (Api.built_ok hds).2 hx hd
    rw [hg i hi] at hbad
    cases hbad

/-- C64: a created header consists of delivered random bytes: its salt is what the generator gave to the third request, the
salts and numbers of the chain hashes what it gave to the first two. -/
theorem C64_bytes (e : Env) (w w' : World) (pw : List Byte) (ds : SettingsIters) (hds : BuiltSettings ds) (t : Nat)
    (h : Api.call hs rest e w (.createDataHeader pw ds t) = .ok (.flag (.success true), w')) :
    ∃ d, w'.api.dh = some d ∧ (∀ i, i < 4 → (e.rand i).good = true) ∧
      d.contents.salt = (e.rand 2).take (digestSize d.contents.hashMode) ∧
      d.contents.ch1.block = (e.rand 0).take d.contents.ch1.block.length ∧
      d.contents.ch2.block = (e.rand 1).take d.contents.ch2.block.length := by
  rcases Api.createHeader_call h with ⟨hr, -⟩ | ⟨-, -, x, d, hx, hd, hw⟩
  · exact absurd rfl hr
  obtain ⟨-, hg, hm, m1, m2, n1, n2, -, -, -, -, made⟩ :=
    Api.create_success (Api.built_ok hds).1 (Api.built_ok hds).2 hx hd
  obtain ⟨v, hdh, hv⟩ := made.dh
  refine ⟨d, ?_, hg, ?_, ?_, ?_⟩
  · rcases hw with ⟨-, hw⟩ | ⟨-, hw⟩ <;> rw [hw]
  · simp only [DataHeader.contents, hdh]
    cases hm <;> rfl
  · simp only [DataHeader.contents, hdh, ChainHash.desc, Api.newChain, mkCH, holding]
    rw [Rand.length_take]
  · simp only [DataHeader.contents, hdh, ChainHash.desc, Api.newChain, mkCH, holding]
    rw [Rand.length_take]

/-- C64: changing the salt: if one of the two requests fails, nothing changes (if the process survives); on success the new
salt is what the generator gave. -/
theorem C64_change_salt (mode : Byte) (s0 : Session) (h0 : Api.new mode = .ok s0) (fs : FS) (evs : List Event)
    (hb : BuiltArgs evs) (rs : List (Option Ret)) (w : World) (h : Api.run hs rest ⟨s0, fs⟩ evs = .ok (rs, w))
    (e : Env) (w' : World) (r : Ret) (hc : Api.call hs rest e w .changeSalt = .ok (r, w')) :
    (r ≠ .plain (.success ()) ∧ w' = w) ∨
    (r = .plain (.success ()) ∧ (e.rand 0).good = true ∧ (e.rand 1).good = true ∧ ∃ d, w'.api.dh = some d ∧
      d.contents.salt = (e.rand 0).take (digestSize d.contents.hashMode)) := by
  have hinv := Api.run_sinv_built h0 hb h
  simp only [Api.call] at hc
  split at hc
  · rename_i hst
    obtain ⟨⟨o, s⟩, hx, hc⟩ := Res.bind_eq_ok.mp hc
    cases hc
    rcases Api.changeSalt_cases hx with ⟨ho, rfl⟩ | ⟨rfl, d, old, b, p, d', h1, h2, h3, h4, h5, h6, rfl⟩
    · exact .inl ⟨by simpa using ho, rfl⟩
    · have hd : HeaderOk d := by
        generalize w.api = s at hinv hst h1
        cases hinv <;> cases hst
        cases h1
        assumption
      obtain ⟨m, rfl, hr0, hm, rfl, v, hv, parts⟩ := Api.changeSalt_parts hd h3 h4 h5
      have hr1 : (e.rand 1).good = true := by
        cases hr : (e.rand 1).good with
        | true => rfl
        | false => rw [setHeaderParts_bad parts hr] at h6; cases h6
      refine .inr ⟨rfl, hr0, hr1, d', rfl, ?_⟩
      have hg := setHeaderParts_good parts hr1
      split at hg
      · obtain ⟨d2, hd2, -, -, hdh, -⟩ := hg
        rw [hd2] at h6
        cases h6
        simp only [DataHeader.contents, hdh, hm]
        cases m <;> rfl
      · rw [hg] at h6; cases h6
  · cases hc; exact .inl ⟨by simp [wrongState], rfl⟩

-- the generator fails at the salt: the process dies; at the first chain hash: an error
example : ∃ rs w, Api.run toyHashes noRest (freshWorld fun _ => .missing) (sampleSave.take 2) = .ok (rs, w) ∧
    ((match Api.call toyHashes noRest { openEnv with rand := fun i => ⟨i != 2, fun _ => 0⟩ } w
        (.createDataHeader samplePw sampleSettings 7) with
        | .fatal .terminate => true | _ => false) &&
      (match Api.call toyHashes noRest { openEnv with rand := fun i => ⟨i != 0, fun _ => 0⟩ } w
        (.createDataHeader samplePw sampleSettings 7) with
        | .ok (.flag (.fail .ERR), _) => true | _ => false)) = true :=
  runIs_ok (p := fun _ w => _) (by decide +kernel)

end Verif.Props
