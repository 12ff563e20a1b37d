import Verif.Lemmas.LogFacts
import Verif.Lemmas.LogRun
import Verif.Lemmas.Verify
import Verif.Props.Save
import Verif.Props.PwFunc

/- Property of the log: C93. -/
namespace Verif.Props
open Spec

variable {fl : FileLog} {hs : Hashes} {rest : Api.Helper → Res Api.Helper}

/-- C93: writing the log changes nothing: in every history the calls return and do what they do without it. -/
theorem C93_changes_nothing (w : World) (evs : List Event) : (Log.run fl hs rest w evs).res = Api.run hs rest w evs :=
  Log.run_res fl hs rest evs w

/-- C93, the part that holds: take two histories that differ only in secrets (passwords, data, the password hash and the
unsaved encrypted data in memory, with data of the same lengths). If others see the same of them (answers without data, disk
and header in memory after every step), and creating a header is never refused without a reason (see
`C93_violated_refused`), they write the same log. So the log tells nothing about secrets that the rest does not. -/
theorem C93_histories_partial (v w : World) (h : blurWorld v = blurWorld w) (evs evs' : List Event)
    (he : evs.map blurEvent = evs'.map blurEvent) (t : List (Option Ret × FS × Option DataHeader))
    (hv : trace hs rest v evs = .ok t) (hw : trace hs rest w evs' = .ok t)
    (hn : ∀ x ∈ evs.zip t, ∀ c e r, x.1 = .call c e → x.2.1 = some r → ¬ HeaderRefused c r) :
    (Log.run fl hs rest v evs).lines = (Log.run fl hs rest w evs').lines :=
  Log.run_lines evs evs' (blurWorld_eq.1 h) he hv hw hn

/-- encrypting five bytes -/
def fiveBytes (b : List Byte) : Event := .call (.encryptData (some ⟨some 1, some (Bytes.full b)⟩)) openEnv

theorem encrypt_fs {e : Env} {w w' : World} {fd : Option FileDataStruct} {r : Ret}
    (h : Api.call hs rest e w (.encryptData fd) = .ok (r, w')) : w'.fs = w.fs := by
  simp only [Api.call] at h
  split at h
  · obtain ⟨x, -, h⟩ := Res.bind_eq_ok.mp h
    cases h; rfl
  · cases h; rfl

-- histories that meet the hypotheses: after the same creation of a header, different data is encrypted
example : ∃ rs w t, Api.run toyHashes noRest (freshWorld fun _ => .missing) (sampleSave.take 3) = .ok (rs, w) ∧
    [fiveBytes (ascii "hello")].map blurEvent = [fiveBytes (ascii "world")].map blurEvent ∧
    trace toyHashes noRest w [fiveBytes (ascii "hello")] = .ok t ∧ trace toyHashes noRest w [fiveBytes (ascii "world")] = .ok t ∧
    t.map (fun x => x.1) = [some (.flag (.success true))] := by
  obtain ⟨rs, w, h1, h2⟩ := runIs_ok (evs := sampleSave.take 3) (p := fun _ w =>
    match Api.call toyHashes noRest openEnv w (.encryptData (some ⟨some 1, some (Bytes.full (ascii "hello"))⟩)),
      Api.call toyHashes noRest openEnv w (.encryptData (some ⟨some 1, some (Bytes.full (ascii "world"))⟩)) with
    | .ok (r, v), .ok (r', v') => r == .flag (.success true) && r' == .flag (.success true) && v.api.dh == v'.api.dh
    | _, _ => false) (by decide +kernel)
  split at h2
  · rename_i r v r' v' k1 k2
    simp only [Bool.and_eq_true, beq_iff_eq] at h2
    obtain ⟨⟨rfl, rfl⟩, h3⟩ := h2
    refine ⟨rs, w, [(some (.flag (.success true)), w.fs, v.api.dh)], h1, rfl, ?_, ?_, rfl⟩
    · simp only [trace, fiveBytes, Api.step, k1, Res.bind_ok, encrypt_fs k1]; rfl
    · simp only [trace, fiveBytes, Api.step, k2, Res.bind_ok, encrypt_fs k2, h3]; rfl
  · cases h2

/-- C93: a password check logs nothing about the password but whether it was accepted: passwords with the same answer leave
the same lines, even if they differ in length. -/
theorem C93_check (v w : World) (h : blurWorld v = blurWorld w) (e : Env) (pw pw' : List Byte) (t : Nat) (r : Ret) (v' w' : World)
    (hv : Api.call hs rest e v (.verifyPassword pw t) = .ok (r, v'))
    (hw : Api.call hs rest e w (.verifyPassword pw' t) = .ok (r, w')) :
    (Log.call fl hs rest e v (.verifyPassword pw t)).lines = (Log.call fl hs rest e w (.verifyPassword pw' t)).lines := by
  have key : ∀ (z z' : World) (pw : List Byte), Api.call hs rest e z (.verifyPassword pw t) = .ok (r, z') →
      z'.fs = z.fs ∧ z'.api.dh = z.api.dh := by
    intro z z' pw hz
    simp only [Api.call] at hz
    split at hz
    · obtain ⟨⟨o, s⟩, ho, hz⟩ := Res.bind_eq_ok.mp hz
      cases hz
      rcases Api.verifyPassword_cases ho with ⟨-, rfl⟩ | ⟨-, d, m, h1, v, v', -, -, -, -, -, -, -, rfl⟩
      · exact ⟨rfl, rfl⟩
      · exact ⟨rfl, rfl⟩
    · cases hz; exact ⟨rfl, rfl⟩
  have hr := blurWorld_eq.1 h
  obtain ⟨a1, a2⟩ := key _ _ _ hv
  obtain ⟨b1, b2⟩ := key _ _ _ hw
  refine (Log.seen_lines hr (c := .verifyPassword pw t) (c' := .verifyPassword pw' t) rfl hv hw ⟨rfl, ?_, ?_, ?_⟩).1
  · rw [a1, b1, hr.fs]
  · rw [a2, b2, hr.dh]
  · rintro ⟨⟨_, _, _, hc⟩, -⟩
    cases hc

/-- C93: encrypting logs nothing about the data but its length, whatever comes out. -/
theorem C93_encrypt (v w : World) (h : blurWorld v = blurWorld w) (e : Env) (fd fd' : Option FileDataStruct)
    (hd : fd.map blurData = fd'.map blurData) :
    (Log.call fl hs rest e v (.encryptData fd)).lines = (Log.call fl hs rest e w (.encryptData fd')).lines := by
  have hr := blurWorld_eq.1 h
  simp only [Log.call]
  rw [hr.api.state]
  refine (LRel.refl.bind (S := fun _ _ => True) fun _ _ _ => ?_).1
  split
  · exact (Log.encryptData_lrel hs e ⟨hr.api, hr.dh⟩ ((map_eq fun a b => blurData_eq).1 hd)).bind fun a b hab =>
      LRel.pure trivial
  · exact LRel.pure trivial

-- two wrong passwords of different lengths, checked for a saved file
example : runIs (sampleSave ++ sampleOpen.take 2 ++ [.call (.verifyPassword (ascii "wrong") 0) openEnv,
      .call (.verifyPassword (ascii "another wrong one") 0) openEnv]) (fun rs _ =>
    rs.drop 7 == [some (.flag (.fail .ERR_PASSWORD_INVALID)), some (.flag (.fail .ERR_PASSWORD_INVALID))]) = true := by
  decide +kernel

-- different data of the same length, ready to be encrypted
example : (some ⟨some 1, some (Bytes.full (ascii "hello"))⟩ : Option FileDataStruct).map blurData =
    (some ⟨some 1, some (Bytes.full (ascii "world"))⟩ : Option FileDataStruct).map blurData := by decide

/-- a file log that writes nothing -/
def noLines : FileLog where
  create := fun _ _ _ => []
  handler := fun _ _ _ => []
  header := fun _ _ _ => []
  content := fun _ _ _ => []
  write := fun _ _ _ => []
  names := fun _ _ _ _ => []

/-- the lines of the whole history -/
def linesOf (evs : List Event) : List Line := (Log.run noLines toyHashes noRest (freshWorld fun _ => .missing) evs).lines

/-- C93 violated: whenever a header is created, in memory and without touching the disk, the lines written meanwhile suffice to
test passwords: they hold everything the check needs, so that exactly the passwords that will open the file pass. -/
theorem C93_violated_guess (e : Env) (w w' : World) (pw : List Byte) (ds : SettingsIters) (hds : BuiltSettings ds) (t : Nat)
    (h : Api.call hs rest e w (.createDataHeader pw ds t) = .ok (.flag (.success true), w')) :
    w'.fs = w.fs ∧ ∃ d, w'.api.dh = some d ∧ Opens hs d.contents pw ∧
      ∀ pw', guess hs (Log.call fl hs rest e w (.createDataHeader pw ds t)).lines pw' = true ↔ Opens hs d.contents pw' := by
  rcases Api.createHeader_call h with ⟨hr, -⟩ | ⟨-, hfs, x, d, hx, hd, hw⟩
  · exact absurd rfl hr
  obtain ⟨hin, hbl⟩ := Api.built_ok hds
  obtain ⟨hmode, hg, hm, m1, m2, n1, n2, hare, hlate, -, -, made⟩ := Api.create_success hin hbl hx hd
  obtain ⟨v, hdh, hv⟩ := made.dh
  have hst : w.api.state = .EMPTY_FILE_SELECTED ∨ w.api.state = .DECRYPTED := by
    rcases hw with ⟨hw, -⟩ | ⟨hw, -⟩
    · exact .inl hw
    · exact .inr hw
  have told := Log.told_call (fl := fl) (hs := hs) (rest := rest) (e := e) (pw := pw) (t := t) (Api.Are.complete hare) hst
  rw [hmode, Log.told_create hare hbl hg pw t hlate, ← made.hash, ← hv] at told
  have hop : ∀ pw', Opens hs d.contents pw' ↔ (Api.newChain m2 n2 (e.rand 1)).desc.digest (hs.get hm).h
      ((Api.newChain m1 n1 (e.rand 0)).desc.digest (hs.get hm).h pw') = v.data := by
    intro pw'
    simp only [Opens, DataHeader.contents, hdh]
    constructor
    · rintro ⟨m, hmm, hh⟩
      have : m = hm := by
        revert hmm
        cases m <;> cases hm <;> decide
      subst this
      exact hh
    · intro hh
      exact ⟨hm, rfl, hh⟩
  refine ⟨hfs, d, ?_, ?_, ?_⟩
  · rcases hw with ⟨-, hw⟩ | ⟨-, hw⟩ <;> rw [hw]
  · rw [hop, hv, made.hash]
  · intro pw'
    rw [hop]
    have hg : guess hs (Log.call fl hs rest e w (.createDataHeader pw ds t)).lines pw' =
        [HMode.sha256, .sha384, .sha512].any fun h => decide (h.toByte.toNat = hm.toByte.toNat) &&
          decide ((Api.newChain m2 n2 (e.rand 1)).desc.digest (hs.get h).h
            ((Api.newChain m1 n1 (e.rand 0)).desc.digest (hs.get h).h pw') = v.data) := by
      unfold guess
      rw [show List.filterMap tell _ = _ from told]
      rfl
    rw [hg]
    cases hm <;> simp [HMode.toByte]

-- the log of a session that creates a header and is then closed without saving: the password passes the test, others do not
example : runIs (sampleSave.take 3) (fun rs w => rs == [some (.flag (.success true)), some (.flag (.success true)),
      some (.flag (.success true))] && (match w.fs samplePath with | .file c => c == [] | _ => false)) = true ∧
    guess toyHashes (linesOf (sampleSave.take 3)) samplePw = true ∧
    guess toyHashes (linesOf (sampleSave.take 3)) (ascii "Passw0rd?") = false := by
  refine ⟨?_, ?_, ?_⟩ <;> decide +kernel

/-- C93 violated: even if the creation is refused (more than 255 data blocks) and leaves nothing in the session and on the
disk, the log lets passwords be tested against the one that was typed. -/
theorem C93_violated_refused (e : Env) (w : World) (pw : List Byte) (ds : SettingsIters) (hds : BuiltSettings ds)
    (hc : ds.isComplete = true) (hmany : 255 < ds.dec.length ∨ 255 < ds.enc.length) (hr : ∀ i, (e.rand i).good = true)
    (hmode : w.api.fileMode = 1) (hst : w.api.state = .EMPTY_FILE_SELECTED ∨ w.api.state = .DECRYPTED) :
    Api.call hs rest e w (.createDataHeader pw ds 0) = .ok (.flag (.fail .ERR), w) ∧
    ∃ (m : HMode) (c1 c2 : ChainDesc), ds.hashMode = some m.toByte.toNat ∧ c1.Valid ∧ c2.Valid ∧ ds.ch1Iters = some c1.iters ∧ ds.ch2Iters = some c2.iters ∧
      ∀ pw', guess hs (Log.call fl hs rest e w (.createDataHeader pw ds 0)).lines pw' = true ↔
        c2.digest (hs.get m).h (c1.digest (hs.get m).h pw') = c2.digest (hs.get m).h (c1.digest (hs.get m).h pw) := by
  obtain ⟨hin, hbl⟩ := Api.built_ok hds
  obtain ⟨hm, m1, m2, n1, n2, hare⟩ := hin.are hc
  have hlate := Api.not_late_zero e n1.toNat n2.toNat
  have key := (Api.create_spec (hs := hs) hare hbl hr pw 0).2 hlate
  rw [if_neg (by omega)] at key
  obtain ⟨h1, key⟩ := key
  have told := Log.told_call (fl := fl) (hs := hs) (rest := rest) (e := e) (pw := pw) (t := 0) hc hst
  rw [hmode, Log.told_create hare hbl (fun i _ => hr i) pw 0 hlate] at told
  refine ⟨?_, hm, _, _, hare.ehm, (Api.newChain_good m1 n1 (e.rand 0) hare.r1).desc_valid,
    (Api.newChain_good m2 n2 (e.rand 1) hare.r2).desc_valid, hare.en1, hare.en2, fun pw' => ?_⟩
  · obtain ⟨⟨st, fm, fd, ph, en, dh, sel⟩, fs⟩ := w
    simp only at hmode hst
    subst hmode
    rcases hst with rfl | rfl <;>
      simp only [Api.call, hc, Bool.not_true, Bool.false_eq_true, if_false, key, Res.bind_ok] <;> rfl
  · have hg : guess hs (Log.call fl hs rest e w (.createDataHeader pw ds 0)).lines pw' =
        [HMode.sha256, .sha384, .sha512].any fun h => decide (h.toByte.toNat = hm.toByte.toNat) &&
          decide ((Api.newChain m2 n2 (e.rand 1)).desc.digest (hs.get h).h
            ((Api.newChain m1 n1 (e.rand 0)).desc.digest (hs.get h).h pw') =
            (Api.newChain m2 n2 (e.rand 1)).desc.digest (hs.get hm).h
              ((Api.newChain m1 n1 (e.rand 0)).desc.digest (hs.get hm).h pw)) := by
      unfold guess
      rw [show List.filterMap tell _ = _ from told]
      rfl
    rw [hg]
    cases hm <;> simp [HMode.toByte]

-- settings with 256 data blocks
example : BuiltSettings { sampleSettings with dec := List.replicate 256 ⟨5, Bytes.full [1, 2, 3]⟩ } ∧
    SettingsIters.isComplete { sampleSettings with dec := List.replicate 256 ⟨5, Bytes.full [1, 2, 3]⟩ } = true ∧
    255 < (List.replicate 256 (⟨5, Bytes.full [1, 2, 3]⟩ : DataBlock)).length ∧ (∀ i, (openEnv.rand i).good = true) := by
  refine ⟨⟨⟨[(.fileMode, 1), (.hashMode, 1), (.ch1Mode, 1), (.ch2Mode, 4), (.num1, 2), (.num2, 3)], _, _, rfl⟩, ?_, ?_⟩, rfl,
    by rw [List.length_replicate]; decide, fun _ => rfl⟩
  · intro b hb
    rw [List.eq_of_mem_replicate hb]
    exact .inr (.inr ⟨⟨5, Bytes.empty 0⟩, Bytes.full [1, 2, 3], rfl⟩)
  · intro b hb
    simp [sampleSettings] at hb

/-- C93 violated: the check whether a new password is allowed logs a character of it, namely the first one that is not. -/
theorem C93_violated_char (a b : List Byte) (x : Byte) (ha : ∀ c ∈ a, passChar c = true) (hx : passChar x = false) :
    ∃ l ∈ Log.isPasswordValid (a ++ x :: b), Item.char x ∈ l.items := by
  have := (C15_first_bad_char (a ++ x :: b) x).2 ⟨a, b, rfl, ha, hx⟩
  unfold Log.isPasswordValid
  rw [this]
  exact ⟨_, List.mem_singleton.2 rfl, by simp⟩

example : ∃ l ∈ Log.isPasswordValid (ascii "correct horse"), Item.char 32 ∈ l.items :=
  C93_violated_char (ascii "correct") (ascii "horse") 32 (by decide) (by decide)

/-- C93: an allowed password leaves no line there, one that is only too short its length. -/
theorem C93_allowed (pw : List Byte) (h : ∀ c ∈ pw, passChar c = true) :
    ∀ l ∈ Log.isPasswordValid pw, ∀ i ∈ l.items, i = .num pw.length ∨ i = .num 8 ∨ ∃ s, i = .text s := by
  intro l hl i hi
  unfold Log.isPasswordValid at hl
  split at hl
  · cases hl
  · rename_i x hx
    obtain ⟨a, b, rfl, -, hb⟩ := (C15_first_bad_char _ _).1 hx
    rw [h x (by simp)] at hb
    cases hb
  · rw [List.mem_singleton] at hl
    subst hl
    simp only [List.mem_cons, List.not_mem_nil, or_false] at hi
    rcases hi with rfl | rfl | rfl | rfl | rfl <;> simp

example : (∀ c ∈ ascii "short", passChar c = true) ∧ Log.isPasswordValid (ascii "short") =
    [⟨.warning, [.text "password is too short (length: ", .num 5, .text ", min length: ", .num 8, .text ")"]⟩] := by decide

end Verif.Props
