import Verif.Lemmas.Tamper
import Verif.Lemmas.Crash
import Verif.Spec.Vault

/- A session behaves like the ideal vault: the relation between the two and one lemma for each call. -/
namespace Verif.Api
open Spec PwFunc
variable {hs : Hashes} {rest : Helper → Res Helper} {e : Env} {w w' : World} {v : Vault} {F : Path → Prop}

/-- a box file as the session knows it after selecting it -/
structure Chosen (hs : Hashes) (F : Path → Prop) (v : Vault) (w : World) (p : Path) (h : Header) (enc : List Byte) (m : HMode) (b : Box) : Prop where
  path : EncPath p
  free : ¬ F p
  slot : v.slots p = .box b
  file : w.fs p = .file (h.bytes ++ enc)
  filed : Filed hs h enc m b
  sel : w.api.selected = some ⟨p, h.length, h.fileSize, false⟩
  dh : w.api.dh = some (HeaderParse.mkHeader h)

/-- encrypted data waiting to be written -/
structure Sealed (hs : Hashes) (w : World) (p : Path) (L : List Byte → Prop) (pw data : List Byte) (d : DataHeader) (m : HMode)
    (f : FileHandler) (r : Bytes) : Prop where
  path : EncPath p
  fpath : f.path = p
  state : w.api.state = .ENCRYPTED
  dh : w.api.dh = some d
  ok : HeaderOk d
  bytes : d.headerBytes = ⟨d.contents.bytes, d.contents.length⟩
  enc : w.api.encrypted = some r
  sel : w.api.selected = some f
  valid : d.contents.Valid
  size : d.contents.fileSize = d.contents.length + r.data.length
  mode : m.toByte = d.contents.hashMode
  out : r.data = cryptOut .enc (hs.get m) (d.contents.ch1.digest (hs.get m).h pw) d.contents.salt data
  small : data.length < 2 ^ 31
  lock : ∀ x, L x ↔ Opens hs d.contents x

/-- the phase of the ideal vault and the state of the session -/
def PhaseRel (hs : Hashes) (F : Path → Prop) (v : Vault) (w : World) : Phase → Prop
  | .idle => w.api.state = .INIT
  | .chosen p =>
    (EncPath p ∧ ¬ F p ∧ v.slots p = .empty ∧ w.fs p = .file [] ∧ w.api.state = .EMPTY_FILE_SELECTED ∧
      w.api.selected = some ⟨p, 0, 0, true⟩) ∨
    (w.api.state = .FILE_SELECTED ∧ ∃ h enc m b, Chosen hs F v w p h enc m b)
  | .verified p pw => w.api.state = .PASSWORD_VERIFIED ∧ ∃ h enc m b, Chosen hs F v w p h enc m b ∧
      w.api.pwHash.data = h.ch1.digest (hs.get m).h pw ∧
      h.ch2.digest (hs.get m).h (h.ch1.digest (hs.get m).h pw) = h.validator
  | .opened p L pw fresh => ∃ d m f, f.path = p ∧ Holds hs w.api d m f pw ∧ (∀ x, L x ↔ Opens hs d.contents x) ∧
      w.api.fileData = if fresh then some ⟨some 1, some (Bytes.empty 0)⟩ else none
  | .ready p L pw data => ∃ d m f r, Sealed hs w p L pw data d m f r
  | .done => w.api.state = .FINISHED

/-- the session and the ideal vault; under the paths in `F` there may be something that is no business of the vault -/
structure Linked (hs : Hashes) (F : Path → Prop) (v : Vault) (w : World) : Prop where
  mode : w.api.fileMode = 1
  disk : ∀ p, EncPath p → ¬ F p → InSlot hs (w.fs p) (v.slots p)
  phase : PhaseRel hs F v w v.phase

/-- what one call has to be shown to do -/
def Simulates (hs : Hashes) (rest : Helper → Res Helper) (e : Env) (F : Path → Prop) (v : Vault) (w : World) (c : Call) : Prop :=
  ∃ r w' v', call hs rest e w c = .ok (r, w') ∧ VStep (madeLocks hs) v c r v' ∧ Linked hs F v' w' ∧
    ∀ p, ¬ EncPath p ∨ F p → w'.fs p = w.fs p

theorem opens_iff {h : Header} {m : HMode} {pw : List Byte} (hm : m.toByte = h.hashMode) :
    Opens hs h pw ↔ h.ch2.digest (hs.get m).h (h.ch1.digest (hs.get m).h pw) = h.validator := by
  constructor
  · rintro ⟨m', e1, e2⟩
    have : m' = m := by
      rw [← hm] at e1
      revert e1
      cases m <;> cases m' <;> decide
    subst this
    exact e2
  · intro e2; exact ⟨m, hm, e2⟩

theorem badPath {p : Path} (hp : ¬ EncPath p) : ∃ code, BadPath p code ∧
    (∀ (e : Env) (fs : FS) b, FileHandler.isValidPath e fs p b = .ok (.fail code)) := by
  by_cases h0 : p = []
  · refine ⟨_, .inl ⟨h0, rfl⟩, ?_⟩
    intro e fs b
    cases b
    · rw [isValidPath_false, if_pos h0]
    · rw [isValidPath_true, if_pos h0]
  · refine ⟨_, .inr ⟨h0, hp, rfl⟩, ?_⟩
    have hx : Path.extension p ≠ FileHandler.ext := fun h => hp ((extension_iff p).mp h)
    intro e fs b
    cases b
    · rw [isValidPath_false, if_neg h0, if_pos hx]
    · rw [isValidPath_true, if_neg h0, if_pos hx]

theorem Linked.put {s : Slot} {n : Node} {p : Path} {s' : Session} {ph : Phase} {F' : Path → Prop} (hl : Linked hs F v w)
    (hm : s'.fileMode = 1) (hF : ∀ q, q ≠ p → ¬ F' q → ¬ F q) (hn : InSlot hs n s)
    (hph : PhaseRel hs F' (v.put p s ph) ⟨s', w.fs.set p n⟩ ph) : Linked hs F' (v.put p s ph) ⟨s', w.fs.set p n⟩ := by
  refine ⟨hm, ?_, hph⟩
  intro q hq hf
  simp only [FS.set, Vault.put]
  by_cases h : q = p
  · rw [if_pos h, if_pos h]; exact hn
  · rw [if_neg h, if_neg h]; exact hl.disk q hq (hF q h hf)

theorem Linked.goto {s' : Session} {ph : Phase} (hl : Linked hs F v w) (hm : s'.fileMode = 1)
    (hph : PhaseRel hs F (v.goto ph) ⟨s', w.fs⟩ ph) : Linked hs F (v.goto ph) ⟨s', w.fs⟩ := ⟨hm, hl.disk, hph⟩

theorem set_other {p : Path} {n : Node} (hp : EncPath p) (hF : ¬ F p) (fs : FS) :
    ∀ q, ¬ EncPath q ∨ F q → (fs.set p n) q = fs q := by
  intro q hq
  simp only [FS.set]
  rw [if_neg]
  rintro rfl
  rcases hq with hq | hq
  · exact hq hp
  · exact hF hq

/-- the state of a session in a phase -/
theorem Linked.state (hl : Linked hs F v w) : match v.phase with
    | .idle => w.api.state = .INIT
    | .chosen _ => w.api.state = .EMPTY_FILE_SELECTED ∨ w.api.state = .FILE_SELECTED
    | .verified _ _ => w.api.state = .PASSWORD_VERIFIED
    | .opened _ _ _ _ => w.api.state = .DECRYPTED
    | .ready _ _ _ _ => w.api.state = .ENCRYPTED
    | .done => w.api.state = .FINISHED := by
  have h := hl.phase
  cases hp : v.phase with
  | idle => rw [hp] at h; exact h
  | chosen p =>
    rw [hp] at h
    rcases h with ⟨-, -, -, -, h, -⟩ | ⟨h, -⟩
    · exact .inl h
    · exact .inr h
  | verified p pw => rw [hp] at h; exact h.1
  | opened p L pw b => rw [hp] at h; obtain ⟨d, m, f, -, h, -⟩ := h; exact h.state
  | ready p L pw data => rw [hp] at h; obtain ⟨d, m, f, r, h⟩ := h; exact h.state
  | done => rw [hp] at h; exact h

/-- calls at the wrong time -/
theorem sim_refused {c : Call} (hl : Linked hs F v w) (h : ¬ v.phase.admits c) (hn : ¬ Lacking c) :
    Simulates hs rest e F v w c := by
  refine ⟨_, w, v, ?_, .refused h hn, hl, fun _ _ => rfl⟩
  have hst := hl.state
  cases c <;> cases hp : v.phase <;> rw [hp] at hst h <;> simp only [Phase.admits, not_true, not_false_eq_true] at h hst <;>
    first
      | (simp only [call, hst, refusal, wrongState]; done)
      | (rcases hst with hst | hst <;> simp only [call, hst, refusal, wrongState]; done)
      | (simp only [Lacking, Bool.not_eq_false] at hn; simp only [call, hn, hst, refusal, wrongState, Bool.not_true, Bool.false_eq_true, if_false]; done)

/-- settings that lack something -/
theorem sim_lacking {c : Call} (hl : Linked hs F v w) (h : Lacking c) : Simulates hs rest e F v w c := by
  refine ⟨_, w, v, ?_, .lacking h, hl, fun _ _ => rfl⟩
  cases c <;> simp only [Lacking] at h
  · simp only [call, h, Bool.not_false, if_true, refusal]
  · simp only [call, h, Bool.not_false, if_true, refusal]

theorem sim_logout (hl : Linked hs F v w) : Simulates hs rest e F v w .logout :=
  ⟨.void, ⟨logout w.api, w.fs⟩, v.goto .idle, rfl, .logout v, ⟨hl.mode, hl.disk, rfl⟩, fun _ _ => rfl⟩

theorem sim_logoutMode (hl : Linked hs F v w) (m : Byte) : Simulates hs rest e F v w (.logoutMode m) :=
  ⟨.void, ⟨logout w.api, w.fs⟩, v.goto .idle, rfl, .logoutMode v m, ⟨hl.mode, hl.disk, rfl⟩, fun _ _ => rfl⟩

theorem sim_create (hl : Linked hs F v w) {p : Path} (hF : EncPath p → ¬ F p)
    (hf : EncPath p → e.canCreate p = true) (hp : v.phase = .idle) :
    Simulates hs rest e F v w (.createFile p) := by
  have hst := hl.state
  rw [hp] at hst
  by_cases he : EncPath p
  · have hd := hl.disk p he (hF he)
    cases hx : w.fs p with
    | missing =>
      rw [hx] at hd
      have hs0 : v.slots p = .missing := by
        generalize v.slots p = s at hd
        cases hd; rfl
      refine ⟨.flag (.success true), ⟨w.api, w.fs.set p (.file [])⟩, v.put p .empty .idle, ?_, .create hp he hs0,
        hl.put hl.mode (fun _ _ h => h) .empty hst, set_other he (hF he) _⟩
      simp only [call, hst, createFile_ok he hx (hf he), Res.bind_ok]
    | file c =>
      rw [hx] at hd
      have hs0 : v.slots p ≠ .missing := by intro h; rw [h] at hd; cases hd
      refine ⟨.flag (.fail .ERR_FILE_EXISTS), w, v, ?_, .createExists hp he hs0, hl, fun _ _ => rfl⟩
      simp only [call, hst, FileHandler.createFile, isValidPath_false, if_neg (EncPath.ne_nil he),
        if_neg (Decidable.not_not.mpr ((extension_iff _).mpr he)), hx, Res.bind_ok, Res.noexcept_ok]
    | dir => rw [hx] at hd; cases hd
    | unreachable => rw [hx] at hd; cases hd
  · obtain ⟨code, h1, h2⟩ := badPath he
    refine ⟨.flag (.fail code), w, v, ?_, .createBad hp h1, hl, fun _ _ => rfl⟩
    simp only [call, hst, FileHandler.createFile, h2, Res.bind_ok, Res.noexcept_ok]

theorem sim_select (hl : Linked hs F v w) {p : Path} (hF : EncPath p → ¬ F p) (hr : EncPath p → e.canRead p = true)
    (hg : (e.rand 0).good = true) (hp : v.phase = .idle) :
    Simulates hs rest e F v w (.selectFile p) := by
  have hst := hl.state
  rw [hp] at hst
  by_cases he : EncPath p
  · have hd := hl.disk p he (hF he)
    generalize hx : w.fs p = n at hd
    generalize hy : v.slots p = s at hd
    cases hd with
    | missing =>
      refine ⟨.flag (.fail .ERR_FILE_NOT_FOUND), w, v, ?_, .selectMissing hp he hy, hl, fun _ _ => rfl⟩
      simp only [call, hst, selectFile, getFileHandler, isValidPath_true, if_neg (EncPath.ne_nil he),
        if_neg (Decidable.not_not.mpr ((extension_iff _).mpr he)), hx, Res.bind_ok, Res.noexcept_ok]
    | empty =>
      refine ⟨.flag (.success true), ⟨selectEmptyFile w.api ⟨p, 0, 0, true⟩, w.fs⟩, v.goto (.chosen p), ?_,
        .select hp he (by rw [hy]; simp), hl.goto hl.mode (.inl ⟨he, hF he, hy, hx, rfl, rfl⟩), fun _ _ => rfl⟩
      simp only [call, hst, select_empty_ok he hx (hr he), Res.bind_ok]
    | box hfl =>
      rename_i h enc m b
      refine ⟨.flag (.success true), ⟨{ w.api with
          dh := some (HeaderParse.mkHeader h), selected := some ⟨p, h.length, h.fileSize, false⟩, state := .FILE_SELECTED },
          w.fs⟩, v.goto (.chosen p), ?_,
        .select hp he (by rw [hy]; simp), hl.goto hl.mode (.inr ⟨rfl, h, enc, m, b, he, hF he, hy, hx, hfl, rfl, rfl⟩),
        fun _ _ => rfl⟩
      exact select_run he hfl.valid hfl.size hst hx (hr he) hg
  · obtain ⟨code, h1, h2⟩ := badPath he
    refine ⟨.flag (.fail code), w, v, ?_, .selectBad hp h1, hl, fun _ _ => rfl⟩
    simp only [call, hst, selectFile, getFileHandler, h2, Res.bind_ok, Res.noexcept_ok]

theorem sim_isEmpty (hl : Linked hs F v w) {p : Path} (hp : v.phase = .chosen p) : Simulates hs rest e F v w .isFileEmpty := by
  have hph := hl.phase
  rw [hp] at hph
  rcases hph with ⟨-, -, hs0, -, hst, -⟩ | ⟨hst, h, enc, m, b, hc⟩
  · exact ⟨.flag (.success true), w, v, by simp only [call, hst], .isEmpty hp hs0, hl, fun _ _ => rfl⟩
  · exact ⟨.flag (.success false), w, v, by simp only [call, hst], .isFull hp hc.slot, hl, fun _ _ => rfl⟩

theorem sim_unselect (hl : Linked hs F v w) {p : Path} (hp : v.phase = .chosen p) : Simulates hs rest e F v w .unselectFile := by
  have hst := hl.state
  rw [hp] at hst
  refine ⟨.flag (.success true), ⟨unselect w.api, w.fs⟩, v.goto .idle, ?_, .unselect hp, hl.goto hl.mode rfl, fun _ _ => rfl⟩
  rcases hst with hst | hst <;> simp only [call, hst]

theorem sim_delete (hl : Linked hs F v w) (hf : ∀ p, e.canRemove p = true) {p : Path} (hp : v.phase = .chosen p) :
    Simulates hs rest e F v w .deleteFile := by
  have hph := hl.phase
  rw [hp] at hph
  have key : ∀ f : FileHandler, w.api.selected = some f → f.path = p → ∀ c, w.fs p = .file c → EncPath p → ¬ F p →
      (w.api.state = .EMPTY_FILE_SELECTED ∨ w.api.state = .FILE_SELECTED) → Simulates hs rest e F v w .deleteFile := by
    intro f h1 h2 c h3 h4 h6 h5
    subst h2
    refine ⟨.flag (.success true), ⟨unselect w.api, w.fs.set f.path .missing⟩, v.put f.path .missing .idle, ?_, .delete hp,
      hl.put hl.mode (fun _ _ h => h) .missing rfl, set_other h4 h6 _⟩
    have : deleteSelected e w = .ok (.success true, ⟨unselect w.api, w.fs.set f.path .missing⟩) := by
      simp only [deleteSelected, h1, deref, Res.bind_ok, FS.remove, h3, hf, if_true, Bool.not_true, Bool.false_eq_true,
        if_false, Res.noexcept_ok]
    rcases h5 with hst | hst <;> simp only [call, hst, this, Res.bind_ok]
  rcases hph with ⟨he, hF, hs0, hx, hst, hsel⟩ | ⟨hst, h, enc, m, b, hc⟩
  · exact key _ hsel rfl _ hx he hF (.inl hst)
  · exact key _ hc.sel rfl _ hc.file hc.path hc.free (.inr hst)

theorem sim_content (hl : Linked hs F v w) {p : Path} (hp : v.phase = .chosen p) (hr : e.canRead p = true) :
    Simulates hs rest e F v w .getFileContent := by
  have hph := hl.phase
  rw [hp] at hph
  rcases hph with ⟨-, -, hs0, -, hst, -⟩ | ⟨hst, h, enc, m, b, hc⟩
  · exact ⟨.content (.success (Bytes.empty 0)), w, v, by simp only [call, hst], .contentEmpty hp hs0 rfl, hl, fun _ _ => rfl⟩
  have hlen := HeaderOk.length_le (mkHeader_ok hc.filed.valid)
  rw [HeaderParse.contents_mkHeader hc.filed.valid] at hlen
  have hbl := length_bytes h hc.filed.valid.validator hc.filed.valid.salt hc.filed.valid.encLen
  have hsm := hc.filed.small
  have hl32 : (h.bytes ++ enc).length < 2 ^ 32 := by rw [List.length_append, hbl]; omega
  generalize hcc : h.bytes ++ enc = c at hl32
  have hfile : w.fs p = .file c := by rw [← hcc]; exact hc.file
  have ho : w.fs.openIn e p 0 = ⟨c, e.sched 0, false, false⟩ := by simp only [FS.openIn, hfile, hr, if_true]
  obtain ⟨s', hrd⟩ := readData_spec ⟨c, e.sched 0, false, false⟩ (Bytes.empty c.length) c.length rfl hl32
  rw [if_neg (by simp [Bytes.empty]), if_pos (by simp)] at hrd
  have hg : FileHandler.getAllBytes e w.fs ⟨p, h.length, h.fileSize, false⟩ 0 = .ok ⟨c, c.length⟩ := by
    simp only [FileHandler.getAllBytes, FS.opens, hfile, hr, Bool.not_true, Bool.false_eq_true, if_false, FileHandler.measure,
      if_true, ho, hrd.1, Res.bind_ok]
    simp [Bytes.empty]
  refine ⟨.content (.success ⟨c, c.length⟩), w, v, ?_, .content hp hc.slot (by rw [hc.filed.raw, hcc]), hl, fun _ _ => rfl⟩
  simp only [call, hst, getFileContent, hc.sel, deref, Res.bind_ok, hg, attempt_ok, Res.noexcept_ok]

theorem sim_verify (hl : Linked hs F v w) (hclk : e.peek = 0 ∨ ∀ j, e.peek + e.clk 1 j < 2 ^ 64) {p : Path} (hp : v.phase = .chosen p) (pw : List Byte) (t : Nat) :
    Simulates hs rest e F v w (.verifyPassword pw t) := by
  have hph := hl.phase
  rw [hp] at hph
  rcases hph with ⟨-, -, hs0, -, hst, -⟩ | ⟨hst, h, enc, m, b, hc⟩
  · exact ⟨.flag (.fail .ERR_API_STATE_INVALID), w, v, by simp only [call, hst, wrongState], .verifyEmpty hp hs0, hl,
      fun _ _ => rfl⟩
  have hv := hc.filed.valid
  obtain ⟨m', x, hm', hx, klate, key⟩ := verify_spec (hs := hs) (e := e) (s := w.api) (mkHeader_ok hv) hc.dh pw t
  by_cases hlate : VLate e t (HeaderParse.mkHeader h).dh.ch1.desc.iters (HeaderParse.mkHeader h).dh.ch2.desc.iters
  · have ht : t ≠ 0 := by
      rintro rfl
      exact not_vlate_zero hclk hlate
    refine ⟨.flag .timeout, w, v, ?_, .verifyLate hp hc.slot ht, hl, fun _ _ => rfl⟩
    simp only [call, hst, klate hlate, Res.bind_ok]
  obtain ⟨k, -, hkl, hk, key⟩ := key hlate
  have hcont := HeaderParse.contents_mkHeader hv
  have d1 : (HeaderParse.mkHeader h).dh.ch1.desc = h.ch1 := congrArg Header.ch1 hcont
  have d2 : (HeaderParse.mkHeader h).dh.ch2.desc = h.ch2 := congrArg Header.ch2 hcont
  have d3 : x.data = h.validator := by
    have := congrArg Header.validator hcont
    simp only [DataHeader.contents, hx] at this
    exact this
  have d4 : m' = m := by
    have : m'.toByte = h.hashMode := by rw [← hcont]; simp only [DataHeader.contents, hm']
    rw [← hc.filed.mode] at this
    revert this
    cases m <;> cases m' <;> decide
  subst d4
  rw [d1] at hk
  rw [d2, d3, hk] at key
  have hop := opens_iff (hs := hs) (pw := pw) hc.filed.mode
  by_cases hq : h.ch2.digest (hs.get m').h (h.ch1.digest (hs.get m').h pw) = h.validator
  · rw [if_pos hq] at key
    refine ⟨.flag (.success true), ⟨{ w.api with pwHash := k, state := .PASSWORD_VERIFIED }, w.fs⟩, v.goto (.verified p pw), ?_,
      .verify hp hc.slot ((hc.filed.accepts pw).mpr (hop.mpr hq)), hl.goto hl.mode ?_, fun _ _ => rfl⟩
    · simp only [call, hst, key, Res.bind_ok]
    · exact ⟨rfl, h, enc, m', b, ⟨hc.path, hc.free, hc.slot, hc.file, hc.filed, hc.sel, hc.dh⟩, hk, hq⟩
  · rw [if_neg hq] at key
    refine ⟨.flag (.fail .ERR_PASSWORD_INVALID), w, v, ?_,
      .verifyWrong hp hc.slot (fun h => hq (hop.mp ((hc.filed.accepts pw).mp h))), hl, fun _ _ => rfl⟩
    simp only [call, hst, key, Res.bind_ok]

/-- decrypting gives what it should -/
def Decrypts (hs : Hashes) (e : Env) (w : World) (h : Header) (enc : List Byte) (m : HMode) : Prop :=
  ∃ r, getDecryptedData hs e w = .ok (.success ⟨some 1, some r⟩, { w with api := { w.api with
      fileData := none, state := .DECRYPTED } }) ∧ r.data = cryptOut .dec (hs.get m) w.api.pwHash.data h.salt enc

theorem Chosen.decrypts {p : Path} {h : Header} {enc : List Byte} {m : HMode} {b : Box} (hc : Chosen hs F v w p h enc m b)
    (hm : w.api.fileMode = 1) (hkl : w.api.pwHash.data.length = m.size) (hr : e.canRead p = true) : Decrypts hs e w h enc m :=
  decrypt_ok (f := ⟨p, h.length, h.fileSize, false⟩) hc.filed.valid hc.filed.size hc.filed.mode hm hc.dh hc.sel rfl hkl hc.file
    hr hc.filed.small

theorem sim_decrypt (hl : Linked hs F v w) {p : Path} {pw : List Byte} (hp : v.phase = .verified p pw)
    (hr : ∀ h enc m b, Chosen hs F v w p h enc m b → w.api.pwHash.data.length = m.size → Decrypts hs e w h enc m) :
    Simulates hs rest e F v w .getDecryptedData := by
  have hph := hl.phase
  rw [hp] at hph
  obtain ⟨hst, h, enc, m, b, hc, hk, hval⟩ := hph
  have hv := hc.filed.valid
  have hkl : w.api.pwHash.data.length = m.size := by
    rw [hk, digest_length _ _ hv.ch1.1, Hashes.get_size]
  obtain ⟨r, c3, hr'⟩ := hr h enc m b hc hkl
  have hcont := HeaderParse.contents_mkHeader hv
  have hsh : r.data = b.shows pw := by
    rw [hr', hk]
    exact dec_unique (cryptOut_dec _ _ _ _) (hc.filed.shows pw)
  refine ⟨.data (.success ⟨some 1, some r⟩), ⟨{ w.api with fileData := none, state := .DECRYPTED }, w.fs⟩,
    v.goto (.opened p b.accepts pw false), call_decrypt hst c3, .decrypt hp hc.slot hsh, hl.goto hl.mode ?_, fun _ _ => rfl⟩
  have hmode : (HeaderParse.mkHeader h).dh.hashMode = some m := by
    obtain ⟨m', hm', -⟩ := (HeaderParse.mkHeader_inv hv).1.hm
    have : m'.toByte = h.hashMode := by rw [← hcont]; simp only [DataHeader.contents, hm']
    rw [← hc.filed.mode] at this
    rw [hm']
    revert this
    cases m <;> cases m' <;> decide
  refine ⟨HeaderParse.mkHeader h, m, ⟨p, h.length, h.fileSize, false⟩, rfl, ?_, ?_, rfl⟩
  · refine ⟨rfl, hl.mode, hc.dh, mkHeader_ok hv, hmode, hc.sel, hc.path, ?_, ?_, ?_⟩
    · rw [hcont]; exact hk
    · rw [hcont]; exact (congrArg _ hk).trans hval
    · rw [hcont]
      intro b hb hb0
      have := (hv.blockLen b hb).1
      rw [hb0] at this
      simp at this
  · rw [hcont]; exact hc.filed.accepts

theorem sim_header (hl : Linked hs F v w) (hf : ∀ i, (e.rand i).good = true) {pw : List Byte} {ds : SettingsIters} {t : Nat}
    (hp : (∃ p, v.phase = .chosen p) ∨ ∃ p L pw b, v.phase = .opened p L pw b) (hc : ds.isComplete = true)
    (hbs : BuiltSettings ds) (hfull : ∀ b ∈ ds.dec, b.data.data ≠ []) :
    Simulates hs rest e F v w (.createDataHeader pw ds t) := by
  rcases hp with ⟨p, hp⟩ | ⟨p, L, pw0, b, hp⟩
  · have hph := hl.phase
    rw [hp] at hph
    rcases hph with ⟨he, -, hs0, hx, hst, hsel⟩ | ⟨hst, h, enc, m, b, hch⟩
    · rcases createHeader_at (hs := hs) (rest := rest) hbs hc hfull hf hl.mode (.inl hst) hsel he pw t with
        ⟨ht, h⟩ | ⟨hb, h⟩ | ⟨hb, w', d, m, h, hfs, hh, hmade, -, hfd⟩
      · exact ⟨_, w, v, h, .headerLate (.inl ⟨p, hp, hs0⟩) hc ht, hl, fun _ _ => rfl⟩
      · exact ⟨_, w, v, h, .headerMany (.inl ⟨p, hp, hs0⟩) hc hb, hl, fun _ _ => rfl⟩
      · rw [if_pos hst] at hfd
        refine ⟨_, w', v.goto (.opened p (Opens hs d.contents) pw true), h,
          .header hp hs0 hc hb ⟨d.contents, hmade, hh.opens, fun _ => Iff.rfl⟩, ⟨hh.mode, ?_, ?_⟩, fun _ _ => by rw [hfs]⟩
        · rw [hfs]; exact hl.disk
        · exact ⟨d, m, _, rfl, hh, fun _ => Iff.rfl, hfd⟩
    · refine ⟨.flag (.fail .ERR_API_STATE_INVALID), w, v, ?_, .headerFull hp hch.slot hc, hl, fun _ _ => rfl⟩
      simp only [call, hc, hst, Bool.not_true, Bool.false_eq_true, if_false, wrongState]
  · have hph := hl.phase
    rw [hp] at hph
    obtain ⟨d0, m0, f, hfp, hh0, -, hfd0⟩ := hph
    rcases createHeader_at (hs := hs) (rest := rest) hbs hc hfull hf hl.mode (.inr hh0.state) hh0.sel hh0.path pw t
      with ⟨ht, h⟩ | ⟨hb, h⟩ | ⟨hb, w', d, m, h, hfs, hh, hmade, -, hfd⟩
    · exact ⟨_, w, v, h, .headerLate (.inr ⟨p, L, pw0, b, hp⟩) hc ht, hl, fun _ _ => rfl⟩
    · exact ⟨_, w, v, h, .headerMany (.inr ⟨p, L, pw0, b, hp⟩) hc hb, hl, fun _ _ => rfl⟩
    · rw [if_neg (by rw [hh0.state]; decide)] at hfd
      refine ⟨_, w', v.goto (.opened p (Opens hs d.contents) pw b), h,
        .reheader hp hc hb ⟨d.contents, hmade, hh.opens, fun _ => Iff.rfl⟩, ⟨hh.mode, ?_, ?_⟩, fun _ _ => by rw [hfs]⟩
      · rw [hfs]; exact hl.disk
      · exact ⟨d, m, f, hfp, hh, fun _ => Iff.rfl, by rw [hfd, hfd0]⟩

theorem sim_fileData (hl : Linked hs F v w) {p : Path} {L : List Byte → Prop} {pw : List Byte} {b : Bool}
    (hp : v.phase = .opened p L pw b) : Simulates hs rest e F v w .getFileData := by
  have hph := hl.phase
  rw [hp] at hph
  obtain ⟨d, m, f, hfp, hh, hL, hfd⟩ := hph
  cases b with
  | true =>
    rw [if_pos rfl] at hfd
    refine ⟨.data (.success ⟨some 1, some (Bytes.empty 0)⟩), ⟨{ w.api with fileData := none }, w.fs⟩,
      v.goto (.opened p L pw false), ?_, .fresh hp rfl, hl.goto hl.mode ?_, fun _ _ => rfl⟩
    · simp only [call, hh.state, getFileData, hfd]
    · exact ⟨d, m, f, hfp, ⟨hh.state, hh.mode, hh.dh, hh.ok, hh.hm, hh.sel, hh.path, hh.key, hh.val, hh.full⟩, hL, rfl⟩
  | false =>
    rw [if_neg (by decide)] at hfd
    refine ⟨.data (.fail .ERR_FILEDATASTRUCT_NULL), w, v, ?_, .stale hp, hl, fun _ _ => rfl⟩
    simp only [call, hh.state, getFileData, hfd]

theorem sim_salt (hl : Linked hs F v w) (hf : ∀ i, (e.rand i).good = true) {p : Path} {L : List Byte → Prop} {pw : List Byte} {b : Bool}
    (hp : v.phase = .opened p L pw b) : Simulates hs rest e F v w .changeSalt := by
  have hph := hl.phase
  rw [hp] at hph
  obtain ⟨d, m, f, hfp, hh, hL, hfd⟩ := hph
  obtain ⟨w', d', h1, h2, h3, h4, h5⟩ := changeSalt_at (hs := hs) (rest := rest) hh (hf 0) (hf 1)
  refine ⟨_, w', v, h1, .salt hp, ⟨h3.mode, by rw [h2]; exact hl.disk, ?_⟩, fun _ _ => by rw [h2]⟩
  rw [hp]
  exact ⟨d', m, f, hfp, h3, by rw [h4]; exact hL, by rw [h5, hfd]⟩

theorem sim_encrypt (hl : Linked hs F v w) {p : Path} {L : List Byte → Prop} {pw : List Byte} {b : Bool}
    (hp : v.phase = .opened p L pw b) {mode : Option Byte} {data : Bytes} (hdata : data.data.length < 2 ^ 31) :
    Simulates hs rest e F v w (.encryptData (some ⟨mode, some data⟩)) := by
  have hph := hl.phase
  rw [hp] at hph
  obtain ⟨d, m, f, hfp, hh, hL, hfd⟩ := hph
  cases mode with
  | none =>
    refine ⟨.flag (.fail .ERR_FILEDATASTRUCT_INCOMPLETE), w, v, ?_, .encryptNoMode hp, hl, fun _ _ => rfl⟩
    simp [call, hh.state, encryptData, deref, Res.bind_ok, FileDataStruct.isComplete, Res.noexcept_ok]
  | some md =>
    by_cases hmd : md = 1
    · subst hmd
      obtain ⟨salt, hs1, hs2⟩ := hh.ok.inv.salt
      obtain ⟨m', hm', hsz⟩ := hh.ok.inv.hm
      rw [hh.hm] at hm'; cases hm'
      obtain ⟨g1, g2, -⟩ := complete_parts hh.ok.inv hh.ok.complete
      have hkl : w.api.pwHash.data.length = m.size := by
        rw [hh.key, digest_length _ _ (show 1 ≤ d.contents.ch1.iters from g1.desc_valid.1), Hashes.get_size]
      obtain ⟨r, d', q1, q2, q3, q4, q5, q6, q7⟩ := encryptData_ok (hs := hs) (e := e) hh.ok hh.dh hh.mode hh.hm hs1 hkl hdata
      have hsalt : salt.data = d.contents.salt := by simp only [DataHeader.contents, hs1]
      have hrl : r.data.length = data.data.length := by rw [q7, cryptOut_length]
      have hsv : d'.contents = saved d r.data.length := by rw [q5, saved, hrl]
      have hv := saved_valid (n := r.data.length) hh.ok hh.full (by rw [hrl]; exact hdata)
      refine ⟨_, _, v.goto (.ready p L pw data.data), call_encrypt hh.state q1, .encrypt hp, hl.goto hl.mode ?_, fun _ _ => rfl⟩
      refine ⟨d', m, f, r, ?_, hfp, rfl, rfl, q2, q6, rfl, hh.sel, by rw [hsv]; exact hv, ?_, ?_, ?_, hdata, ?_⟩
      · rw [← hfp]; exact hh.path
      · rw [hsv]; rfl
      · rw [hsv]; simp only [saved, DataHeader.contents, hh.hm]
      · rw [hsv, q7, hsalt, hh.key]; rfl
      · rw [hsv]; exact hL
    · refine ⟨.flag (.fail .ERR_FILEMODE_INVALID), w, v, ?_, .encryptMode hp hmd, hl, fun _ _ => rfl⟩
      simp [call, hh.state, encryptData, deref, Res.bind_ok, FileDataStruct.isComplete, Res.noexcept_ok,
        FileDataStruct.getFileMode, DataHeaderParts.get, hh.mode, hmd]

/-- the box in which sealed data end up -/
def boxOf (hs : Hashes) (h : Header) (m : HMode) (L : List Byte → Prop) (enc : List Byte) : Box :=
  ⟨L, fun x => cryptOut .dec (hs.get m) (h.ch1.digest (hs.get m).h x) h.salt enc, h.bytes ++ enc⟩

theorem Sealed.filed {p : Path} {L : List Byte → Prop} {pw data : List Byte} {d : DataHeader} {m : HMode} {f : FileHandler}
    {r : Bytes} (h : Sealed hs w p L pw data d m f r) : Filed hs d.contents r.data m (boxOf hs d.contents m L r.data) := by
  refine ⟨h.valid, h.size, ?_, h.mode, h.lock, fun x => cryptOut_dec _ _ _ _, rfl⟩
  rw [h.out, cryptOut_length]; exact h.small

theorem Sealed.shows {p : Path} {L : List Byte → Prop} {pw data : List Byte} {d : DataHeader} {m : HMode} {f : FileHandler}
    {r : Bytes} (h : Sealed hs w p L pw data d m f r) : (boxOf hs d.contents m L r.data).shows pw = data := by
  simp only [boxOf, h.out]
  exact cryptOut_dec_enc _ _ _ _

theorem Sealed.room {p : Path} {L : List Byte → Prop} {pw data : List Byte} {d : DataHeader} {m : HMode} {f : FileHandler}
    {r : Bytes} (h : Sealed hs w p L pw data d m f r) (hf : 2 ^ 31 + 200000 ≤ e.stored) :
    (d.contents.bytes ++ r.data).take e.stored = d.contents.bytes ++ r.data := by
  apply List.take_of_length_le
  have h1 := HeaderOk.length_le h.ok
  have h2 : r.data.length < 2 ^ 31 := by rw [h.out, cryptOut_length]; exact h.small
  rw [List.length_append, contents_lengths h.ok.inv h.ok.complete]
  omega

theorem sim_write (hl : Linked hs F v w) (hf : Friendly e) {p : Path} {L : List Byte → Prop} {pw data : List Byte}
    (hp : v.phase = .ready p L pw data) (hF : ¬ F p) (hx : ∃ c, w.fs p = .file c) : Simulates hs rest e F v w .writeToFile := by
  have hph := hl.phase
  rw [hp] at hph
  obtain ⟨d, m, f, r, h⟩ := hph
  obtain ⟨c, hc⟩ := hx
  have hfp := h.fpath
  subst hfp
  have c2 := writeToSelected_ok (e := e) h.ok h.dh h.enc h.bytes h.sel h.path hc (hf.healthy _).read (hf.healthy _).write
  rw [h.room hf.room] at c2
  exact ⟨.plain (.success ()), ⟨{ w.api with
        encrypted := none, state := .FINISHED, selected := some { f with headerSize := 0, fileSize := 0 } },
      w.fs.set f.path (.file (d.contents.bytes ++ r.data))⟩, v.put f.path (.box (boxOf hs d.contents m L r.data)) .done, call_write h.state c2, .save hp rfl h.shows,
    hl.put hl.mode (fun _ _ h => h) (.box h.filed) rfl, set_other h.path hF _⟩

theorem sim_writeAt (hl : Linked hs F v w) {p : Path} {L : List Byte → Prop} {pw data : List Byte}
    (hp : v.phase = .ready p L pw data) {q : Path} (hF : EncPath q → ¬ F q)
    (hrw : EncPath q → e.canRead q = true ∧ e.canWrite q = true) (hf : EncPath q → w.fs q = .file [] → 2 ^ 31 + 200000 ≤ e.stored) :
    Simulates hs rest e F v w (.writeToFileAt q) := by
  have hph := hl.phase
  rw [hp] at hph
  obtain ⟨d, m, f, r, h⟩ := hph
  have hst := h.state
  by_cases he : EncPath q
  · have hd := hl.disk q he (hF he)
    generalize hx : w.fs q = n at hd
    generalize hy : v.slots q = s at hd
    cases hd with
    | missing =>
      refine ⟨.plain (.fail .ERR_FILE_NOT_FOUND), w, v, ?_, .saveAtMissing hp he hy, hl, fun _ _ => rfl⟩
      simp only [call, hst, writeToPath, getFileHandler, isValidPath_true, if_neg (EncPath.ne_nil he),
        if_neg (Decidable.not_not.mpr ((extension_iff _).mpr he)), hx, Res.bind_ok, Res.noexcept_ok]
    | empty =>
      have hu : FileHandler.update e w.fs q 0 = .ok ⟨q, 0, 0, true⟩ := by
        rcases update_file (e := e) hx (hrw he).1 (by simp) 0 with ⟨n, hn, hu⟩ | ⟨hn, -⟩
        · rcases hn with ⟨-, rfl⟩ | ⟨rest, h, -⟩
          · exact hu
          · simp [num8] at h
        · exact absurd ⟨0, .inl ⟨rfl, rfl⟩⟩ hn
      have hv := validPath_ok he hx (hrw he).1
      have ho : w.fs.openOut e q = some (w.fs.set q (.file [])) := by
        simp only [FS.openOut, hx, (hrw he).2, if_true]
      have hg : FileHandler.getWriteStreamIfEmpty e w.fs ⟨q, 0, 0, true⟩ = .ok (.success (), ⟨q, 0, 0, true⟩, w.fs.set q (.file [])) := by
        simp only [FileHandler.getWriteStreamIfEmpty, FileHandler.isEmpty, if_true, FileHandler.getWriteStream, hv, Res.bind_ok, ho,
          Res.noexcept_ok]
      have hfd := fullData_eq h.ok h.dh h.enc h.bytes
      have c2 : writeToPath e w q = .ok (.success (), ⟨{ w.api with encrypted := none, state := .FINISHED },
          w.fs.set q (.file (d.contents.bytes ++ r.data))⟩) := by
        simp only [writeToPath, getFileHandler_ok he hx (hrw he).1 hu, Res.bind_ok, hg, finishWrite, hfd, Res.noexcept_ok,
          set_set, h.room (hf he hx)]
      refine ⟨.plain (.success ()), ⟨{ w.api with encrypted := none, state := .FINISHED },
          w.fs.set q (.file (d.contents.bytes ++ r.data))⟩, v.put q (.box (boxOf hs d.contents m L r.data)) .done, ?_, .saveAt hp he hy rfl h.shows,
        hl.put hl.mode (fun _ _ h => h) (.box h.filed) rfl, set_other he (hF he) _⟩
      simp only [call, hst, c2, Res.bind_ok]
    | box hfl =>
      rename_i h' enc m' b
      refine ⟨.plain (.fail .ERR_FILE_NOT_EMPTY), w, v, ?_, .saveAtFull hp he hy, hl, fun _ _ => rfl⟩
      have hlb : (h'.bytes ++ enc).length = h'.fileSize := by
        rw [List.length_append, length_bytes h' hfl.valid.validator hfl.valid.salt hfl.valid.encLen, hfl.size]
      have hne : (h'.bytes ++ enc).isEmpty = false := by
        cases hx : h'.bytes ++ enc with
        | nil =>
          rw [hx] at hlb
          have := hfl.valid.size
          simp only [List.length_nil, Header.length] at hlb this
          omega
        | cons a b => rfl
      rcases update_file (e := e) hx (hrw he).1 (by rw [hlb]; exact hfl.valid.size64) 0 with ⟨n, hn, hu⟩ | ⟨hn, -⟩
      · rw [hne] at hu
        simp only [call, hst, writeToPath, getFileHandler_ok he hx (hrw he).1 hu, Res.bind_ok,
          FileHandler.getWriteStreamIfEmpty, FileHandler.isEmpty, Bool.false_eq_true, if_false, Res.noexcept_ok]
      · exact absurd ⟨_, plausible_header hfl.valid enc hfl.size⟩ hn
  · obtain ⟨code, h1, h2⟩ := badPath he
    refine ⟨.plain (.fail code), w, v, ?_, .saveAtBad hp h1, hl, fun _ _ => rfl⟩
    simp only [call, hst, writeToPath, getFileHandler, h2, Res.bind_ok, Res.noexcept_ok]

/-- the file of an open box is there -/
def Kept (v : Vault) : Prop := ∀ p, ((∃ L pw b, v.phase = .opened p L pw b) ∨ ∃ L pw data, v.phase = .ready p L pw data) →
  v.slots p ≠ .missing

theorem kept_step {locks : SettingsIters → List Byte → (List Byte → Prop) → Prop} {v v' : Vault} {c : Call} {r : Ret}
    (h : VStep locks v c r v') (hk : Kept v) : Kept v' := by
  intro p hp
  cases h <;> try exact hk p hp
  all_goals simp_all [Vault.goto, Vault.put, Kept]

/-- one call -/
theorem sim_call (hl : Linked hs (fun _ => False) v w) (hk : Kept v) {c : Call} (hs' : Smooth (.call c e)) :
    Simulates hs rest e (fun _ => False) v w c := by
  rcases Classical.em (Lacking c) with hn | hn
  · exact sim_lacking hl hn
  rcases Classical.em (¬ v.phase.admits c) with ha | ha
  · exact sim_refused hl ha hn
  rw [Classical.not_not] at ha
  cases c with
  | logout => exact sim_logout hl
  | logoutMode m => exact sim_logoutMode hl m
  | getRelevantFileNames d => exact hs'.elim
  | createFile p =>
    cases hp : v.phase <;> rw [hp] at ha <;> simp only [Phase.admits] at ha
    exact sim_create hl (fun _ => id) (fun _ => (hs'.1.healthy p).create) hp
  | selectFile p =>
    cases hp : v.phase <;> rw [hp] at ha <;> simp only [Phase.admits] at ha
    exact sim_select hl (fun _ => id) (fun _ => (hs'.1.healthy p).read) ((hs'.1.healthy p).rand 0) hp
  | isFileEmpty =>
    cases hp : v.phase <;> rw [hp] at ha <;> simp only [Phase.admits] at ha
    exact sim_isEmpty hl hp
  | unselectFile =>
    cases hp : v.phase <;> rw [hp] at ha <;> simp only [Phase.admits] at ha
    exact sim_unselect hl hp
  | deleteFile =>
    cases hp : v.phase <;> rw [hp] at ha <;> simp only [Phase.admits] at ha
    exact sim_delete hl hs'.1.remove hp
  | getFileContent =>
    cases hp : v.phase <;> rw [hp] at ha <;> simp only [Phase.admits] at ha
    exact sim_content hl hp (hs'.1.healthy _).read
  | verifyPassword pw t =>
    cases hp : v.phase <;> rw [hp] at ha <;> simp only [Phase.admits] at ha
    exact sim_verify hl (hs'.1.healthy []).clock hp pw t
  | createDataHeader pw ds t =>
    have hc : ds.isComplete = true := by simpa [Lacking] using hn
    cases hp : v.phase <;> rw [hp] at ha <;> simp only [Phase.admits] at ha
    · exact sim_header hl (hs'.1.healthy []).rand (.inl ⟨_, hp⟩) hc hs'.2.1 hs'.2.2
    · exact sim_header hl (hs'.1.healthy []).rand (.inr ⟨_, _, _, _, hp⟩) hc hs'.2.1 hs'.2.2
  | createDataHeaderTime pw ds => exact absurd hs'.2 hn
  | changeSalt =>
    cases hp : v.phase <;> rw [hp] at ha <;> simp only [Phase.admits] at ha
    exact sim_salt hl (hs'.1.healthy []).rand hp
  | getDecryptedData =>
    cases hp : v.phase <;> rw [hp] at ha <;> simp only [Phase.admits] at ha
    exact sim_decrypt hl hp (fun h enc m b hc hk => hc.decrypts hl.mode hk (hs'.1.healthy _).read)
  | getFileData =>
    cases hp : v.phase <;> rw [hp] at ha <;> simp only [Phase.admits] at ha
    exact sim_fileData hl hp
  | encryptData fd =>
    obtain ⟨m, data, rfl, hd⟩ := hs'.2
    cases hp : v.phase <;> rw [hp] at ha <;> simp only [Phase.admits] at ha
    exact sim_encrypt hl hp hd
  | writeToFile =>
    cases hp : v.phase <;> rw [hp] at ha <;> simp only [Phase.admits] at ha
    rename_i p L pw data
    refine sim_write hl hs'.1 hp id ?_
    have hph := hl.phase
    rw [hp] at hph
    obtain ⟨d, m, f, r, h⟩ := hph
    have hd := hl.disk p h.path id
    have hm := hk p (.inr ⟨_, _, _, hp⟩)
    generalize w.fs p = n at hd
    generalize v.slots p = sl at hd hm
    cases hd with
    | missing => exact absurd rfl hm
    | empty => exact ⟨_, rfl⟩
    | box _ => exact ⟨_, rfl⟩
  | writeToFileAt q =>
    cases hp : v.phase <;> rw [hp] at ha <;> simp only [Phase.admits] at ha
    exact sim_writeAt hl hp (fun _ => id) (fun _ => ⟨(hs'.1.healthy q).read, (hs'.1.healthy q).write⟩) (fun _ _ => hs'.1.room)

/-- a whole history -/
theorem sim_run : ∀ {evs : List Event} {v : Vault} {w : World}, Linked hs (fun _ => False) v w → Kept v → (∀ ev ∈ evs, Smooth ev) →
    ∃ rs w' v', run hs rest w evs = .ok (rs, w') ∧ VRun (madeLocks hs) v evs rs v' ∧ Linked hs (fun _ => False) v' w' ∧ Kept v' ∧
      ∀ p, ¬ EncPath p → w'.fs p = w.fs p
  | [], v, w, hl, hk, _ => ⟨[], w, v, rfl, .nil v, hl, hk, fun _ _ => rfl⟩
  | .outside p n :: evs, v, w, hl, hk, he => (he _ (List.mem_cons_self ..)).elim
  | .call c e :: evs, v, w, hl, hk, he => by
    obtain ⟨r, w1, v1, h1, h2, h3, h4⟩ := sim_call (rest := rest) hl hk (he _ (List.mem_cons_self ..))
    obtain ⟨rs, w2, v2, k1, k2, k3, k5, k4⟩ := sim_run (evs := evs) h3 (kept_step h2 hk) (fun ev h => he ev (List.mem_cons_of_mem _ h))
    exact ⟨some r :: rs, w2, v2, call_step h1 k1, .call h2 k2, k3, k5, fun p hp => (k4 p hp).trans (h4 p (.inl hp))⟩

end Verif.Api

/-! ### the ideal vault by itself -/
namespace Verif.Spec
variable {locks : SettingsIters → List Byte → (List Byte → Prop) → Prop} {v v' : Vault} {c : Call} {r : Ret}

theorem VRun.append {v v2 : Vault} {a b : List Event} {rs : List (Option Ret)} :
    VRun locks v (a ++ b) rs v2 → ∃ r1 r2 v1, rs = r1 ++ r2 ∧ VRun locks v a r1 v1 ∧ VRun locks v1 b r2 v2 := by
  intro h
  induction a generalizing v rs with
  | nil => exact ⟨[], rs, v, rfl, .nil v, h⟩
  | cons x a ih =>
    cases h with
    | call h1 h2 =>
      obtain ⟨r1, r2, v1, rfl, h3, h4⟩ := ih h2
      exact ⟨_ :: r1, r2, v1, rfl, .call h1 h3, h4⟩

/-- a box stays where it is as long as its file is not selected -/
theorem VStep.keep_unselected (h : VStep locks v c r v') {p : Path} {b : Box} (hb : v.slots p = .box b)
    (hp : v.phase.path ≠ some p) (hc : c ≠ .selectFile p) : v'.slots p = .box b ∧ v'.phase.path ≠ some p := by
  cases h <;> try exact ⟨hb, hp⟩
  all_goals simp_all [Vault.put, Vault.goto, Phase.path]
  all_goals first
    | (split <;> simp_all; done)
    | grind

/-- a box stays where it is as long as nothing is deleted or saved to the selected file -/
theorem VStep.keep_unsaved (h : VStep locks v c r v') {p : Path} {b : Box} (hb : v.slots p = .box b)
    (hd : c ≠ .deleteFile) (hw : c ≠ .writeToFile) : v'.slots p = .box b := by
  cases h <;> try exact hb
  all_goals simp_all [Vault.put]
  all_goals grind

theorem VRun.keep {evs : List Event} {rs : List (Option Ret)} (h : VRun locks v evs rs v') {p : Path} {b : Box}
    (hb : v.slots p = .box b) (hp : v.phase.path ≠ some p)
    (hev : (∀ e, Event.call (.selectFile p) e ∉ evs) ∨ ∀ e, Event.call .deleteFile e ∉ evs ∧ Event.call .writeToFile e ∉ evs) :
    v'.slots p = .box b := by
  rcases hev with hev | hev
  · induction h with
    | nil => exact hb
    | @call v v1 v2 c e r evs rs h ht ih =>
      obtain ⟨h1, h2⟩ := h.keep_unselected hb hp (fun hc => hev e (by rw [hc]; exact List.mem_cons_self ..))
      exact ih h1 h2 (fun e h => hev e (List.mem_cons_of_mem _ h))
  · clear hp
    induction h with
    | nil => exact hb
    | @call v v1 v2 c e r evs rs h ht ih =>
      have h1 := h.keep_unsaved hb (fun hc => (hev e).1 (by rw [hc]; exact List.mem_cons_self ..))
        (fun hc => (hev e).2 (by rw [hc]; exact List.mem_cons_self ..))
      exact ih h1 (fun e => ⟨fun h => (hev e).1 (List.mem_cons_of_mem _ h), fun h => (hev e).2 (List.mem_cons_of_mem _ h)⟩)

theorem VStep.at_logout (h : VStep locks v .logout r v') : r = .void ∧ v' = v.goto .idle := by
  cases h <;> simp_all [Phase.admits, Lacking]

theorem VStep.at_create {p : Path} (h : VStep locks v (.createFile p) (.flag (.success true)) v') :
    EncPath p ∧ v' = v.put p .empty .idle := by
  cases h <;> simp_all

theorem VStep.at_select {p : Path} (h : VStep locks v (.selectFile p) r v') (hp : v.phase = .idle) (he : EncPath p)
    (hs : v.slots p ≠ .missing) : r = .flag (.success true) ∧ v' = v.goto (.chosen p) := by
  cases h <;> simp_all [Phase.admits, Lacking, BadPath, Api.EncPath.ne_nil]
  all_goals simp_all

theorem VStep.at_header {p : Path} {pw : List Byte} {ds : SettingsIters} (h : VStep locks v (.createDataHeader pw ds 0) r v')
    (hp : v.phase = .chosen p) (hs : v.slots p = .empty) (hc : ds.isComplete = true) (hf : Fits ds) :
    r = .flag (.success true) ∧ ∃ L, locks ds pw L ∧ v' = v.goto (.opened p L pw true) := by
  cases h <;> simp_all [Phase.admits, Lacking]
  all_goals grind

theorem VStep.at_encrypt {p : Path} {L : List Byte → Prop} {pw : List Byte} {b : Bool} {data : Bytes}
    (h : VStep locks v (.encryptData (some ⟨some 1, some data⟩)) r v') (hp : v.phase = .opened p L pw b) :
    r = .flag (.success true) ∧ v' = v.goto (.ready p L pw data.data) := by
  cases h <;> simp_all [Phase.admits, Lacking]

theorem VStep.at_save {p : Path} {L : List Byte → Prop} {pw data : List Byte} (h : VStep locks v .writeToFile r v')
    (hp : v.phase = .ready p L pw data) :
    r = .plain (.success ()) ∧ ∃ b : Box, b.accepts = L ∧ b.shows pw = data ∧ v' = v.put p (.box b) .done := by
  cases h <;> simp_all [Phase.admits, Lacking]
  all_goals grind

theorem VStep.at_verify {p : Path} {b : Box} {pw : List Byte} (h : VStep locks v (.verifyPassword pw 0) r v')
    (hp : v.phase = .chosen p) (hs : v.slots p = .box b) (hb : b.accepts pw) :
    r = .flag (.success true) ∧ v' = v.goto (.verified p pw) := by
  cases h <;> simp_all [Phase.admits, Lacking]

theorem VStep.at_decrypt {p : Path} {b : Box} {pw : List Byte} (h : VStep locks v .getDecryptedData r v')
    (hp : v.phase = .verified p pw) (hs : v.slots p = .box b) :
    ∃ x : Bytes, r = .data (.success ⟨some 1, some x⟩) ∧ x.data = b.shows pw := by
  cases h <;> simp_all [Phase.admits, Lacking]

end Verif.Spec
