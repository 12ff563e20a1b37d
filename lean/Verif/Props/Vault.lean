import Verif.Lemmas.Vault
import Verif.Props.Select

/- Properties of sessions as a whole: C76. -/
namespace Verif.Props
open Spec Api

variable {hs : Hashes} {rest : Api.Helper → Res Api.Helper}

/-- C76: from a new session, on a disk whose `.enc` files are missing, empty or saved files, every sequence of calls without
accidents (`Smooth`) runs through and gives answers the ideal vault gives; at the end the disk holds what the slots of the
ideal vault hold, and no other file has changed. The locks are those of the program: a password opens a box exactly if it
reproduces the validator. -/
theorem C76_ideal (mode : Byte) (s0 : Session) (h0 : Api.new mode = .ok s0) (fs : FS) (slots : Path → Slot)
    (hfs : ∀ p, EncPath p → InSlot hs (fs p) (slots p)) (evs : List Event) (hevs : ∀ ev ∈ evs, Smooth ev) :
    ∃ rs w v, Api.run hs rest ⟨s0, fs⟩ evs = .ok (rs, w) ∧ VRun (madeLocks hs) ⟨slots, .idle⟩ evs rs v ∧
      (∀ p, EncPath p → InSlot hs (w.fs p) (v.slots p)) ∧ ∀ p, ¬ EncPath p → w.fs p = fs p := by
  obtain ⟨-, rfl⟩ := new_mode h0
  obtain ⟨rs, w, v, h1, h2, h3, -, h4⟩ := sim_run (rest := rest) (hs := hs) (v := ⟨slots, .idle⟩)
    (w := ⟨⟨.INIT, 1, none, Bytes.empty 0, none, none, none⟩, fs⟩) ⟨rfl, fun p hp _ => hfs p hp, rfl⟩ (by simp [Kept]) hevs
  exact ⟨rs, w, v, h1, h2, fun p hp => h3.disk p hp id, h4⟩

/-- two files, a wrong password, a renewed header, calls at the wrong time, saving to another file, deleting -/
def vaultHistory : List Event :=
  sampleSave ++
  [.call (.createFile (ascii "b.enc")) openEnv, .call .logout openEnv, .call (.createFile (ascii "b.enc")) openEnv,
   .call (.createFile (ascii "b.txt")) openEnv, .call (.selectFile samplePath) openEnv, .call .isFileEmpty openEnv,
   .call (.verifyPassword (ascii "wrong") 0) openEnv, .call (.verifyPassword samplePw 5) openEnv,
   .call .getDecryptedData openEnv, .call .getFileData openEnv, .call .changeSalt openEnv,
   .call (.createDataHeader (ascii "new") sampleSettings 0) openEnv,
   .call (.encryptData (some ⟨some 1, some (Bytes.full (ascii "other"))⟩)) openEnv,
   .call (.writeToFileAt samplePath) openEnv, .call (.writeToFileAt (ascii "b.enc")) openEnv] ++ sampleOpen ++
  [.call (.logoutMode 1) openEnv, .call (.selectFile samplePath) openEnv, .call .deleteFile openEnv]

theorem openEnv_friendly : Friendly openEnv := ⟨fun p => healthy_open p, fun _ => rfl, by decide⟩

theorem vaultHistory_smooth : ∀ ev ∈ vaultHistory, Smooth ev := by
  have e0 := openEnv_friendly
  have hd : Careful (.createDataHeader samplePw sampleSettings 0) := ⟨usable_sample.built, usable_sample.full⟩
  simp only [vaultHistory, sampleSave, sampleOpen, List.cons_append, List.nil_append, List.forall_mem_cons]
  exact ⟨⟨e0, trivial⟩, ⟨e0, trivial⟩, ⟨e0, hd⟩, ⟨e0, _, _, rfl, by decide⟩, ⟨e0, trivial⟩, ⟨e0, trivial⟩, ⟨e0, trivial⟩,
    ⟨e0, trivial⟩, ⟨e0, trivial⟩, ⟨e0, trivial⟩, ⟨e0, trivial⟩, ⟨e0, trivial⟩, ⟨e0, trivial⟩, ⟨e0, trivial⟩, ⟨e0, trivial⟩,
    ⟨e0, trivial⟩, ⟨e0, hd⟩, ⟨e0, _, _, rfl, by decide⟩, ⟨e0, trivial⟩, ⟨e0, trivial⟩, ⟨e0, trivial⟩, ⟨e0, trivial⟩,
    ⟨e0, trivial⟩, ⟨e0, trivial⟩, ⟨e0, trivial⟩, ⟨e0, trivial⟩, ⟨e0, trivial⟩, by simp⟩

example : (∀ p, EncPath p → InSlot toyHashes ((fun _ => .missing : FS) p) .missing) ∧ (∀ ev ∈ vaultHistory, Smooth ev) :=
  ⟨fun _ _ => .missing, vaultHistory_smooth⟩

/-- what the calls of the history answer -/
def vaultAnswers : List (Option Ret) :=
  [some (.flag (.success true)), some (.flag (.success true)), some (.flag (.success true)), some (.flag (.success true)),
   some (.plain (.success ())), some (.flag (.fail .ERR_API_STATE_INVALID)), some .void, some (.flag (.success true)),
   some (.flag (.fail .ERR_EXTENSION_INVALID)), some (.flag (.success true)), some (.flag (.success false)),
   some (.flag (.fail .ERR_PASSWORD_INVALID)), some (.flag (.success true)),
   some (.data (.success ⟨some 1, some (Bytes.full (ascii "hello"))⟩)), some (.data (.fail .ERR_FILEDATASTRUCT_NULL)),
   some (.plain (.success ())), some (.flag (.success true)), some (.flag (.success true)),
   some (.plain (.fail .ERR_FILE_NOT_EMPTY)), some (.plain (.success ())), some .void, some (.flag (.success true)),
   some (.flag (.success true)), some (.data (.success ⟨some 1, some (Bytes.full (ascii "hello"))⟩)), some .void,
   some (.flag (.success true)), some (.flag (.success true))]

example : runIs vaultHistory (fun rs w => rs == vaultAnswers && w.fs samplePath == .missing) = true := by decide +kernel

/-- C76: every disk whose `.enc` files are missing, empty or a valid header followed by less than 2 GB of data of the
announced length is described by some slots. -/
theorem C76_described (fs : FS) (hfs : ∀ p, EncPath p → fs p = .missing ∨ fs p = .file [] ∨
      ∃ h : Header, ∃ enc, fs p = .file (h.bytes ++ enc) ∧ h.Valid ∧ h.fileSize = h.length + enc.length ∧ enc.length < 2 ^ 31) :
    ∃ slots : Path → Slot, ∀ p, EncPath p → InSlot hs (fs p) (slots p) := by
  have key : ∀ p, ∃ s : Slot, EncPath p → InSlot hs (fs p) s := by
    intro p
    rcases Classical.em (EncPath p) with hp | hp
    · rcases hfs p hp with h | h | ⟨h, enc, hf, hv, hsz, hl⟩
      · exact ⟨.missing, fun _ => by rw [h]; exact .missing⟩
      · exact ⟨.empty, fun _ => by rw [h]; exact .empty⟩
      · have hm : ∃ m : HMode, m.toByte = h.hashMode := by
          rcases hv.hashMode with h | h | h <;> rw [h]
          · exact ⟨.sha256, rfl⟩
          · exact ⟨.sha384, rfl⟩
          · exact ⟨.sha512, rfl⟩
        obtain ⟨m, hm⟩ := hm
        refine ⟨.box (boxOf hs h m (Opens hs h) enc), fun _ => ?_⟩
        rw [hf]
        exact .box ⟨hv, hsz, hl, hm, fun _ => Iff.rfl, fun _ => cryptOut_dec _ _ _ _, rfl⟩
    · exact ⟨.missing, fun h => absurd h hp⟩
  exact ⟨fun p => (key p).choose, fun p => (key p).choose_spec⟩

example : ∃ slots : Path → Slot, ∀ p, EncPath p → InSlot toyHashes
    ((fun p => if p = ascii "b.enc" then .file [] else if p = samplePath then .file smallVault else .missing : FS) p) (slots p) := by
  apply C76_described
  intro p _
  by_cases h1 : p = ascii "b.enc"
  · exact .inr (.inl (if_pos h1))
  · by_cases h2 : p = samplePath
    · exact .inr (.inr ⟨smallHeader, [9, 9, 9], by rw [if_neg h1, if_pos h2]; rfl, smallHeader_valid, by decide, by decide⟩)
    · exact .inl (by rw [if_neg h1, if_neg h2])

/-- C76: the ideal vault leaves no choice: for a call without time limit there is only one answer. -/
theorem C76_determined {locks : SettingsIters → List Byte → (List Byte → Prop) → Prop} {v v1 v2 : Vault} {c : Call}
    {r1 r2 : Ret} (hc : NoLimit c) (h1 : VStep locks v c r1 v1) (h2 : VStep locks v c r2 v2) : SameAnswer r1 r2 := by
  have hn : ∀ p code, BadPath p code → ¬ EncPath p := by
    rintro p code (⟨rfl, -⟩ | ⟨-, h, -⟩) hp
    · exact EncPath.ne_nil hp rfl
    · exact h hp
  have hb : ∀ p c1 c2, BadPath p c1 → BadPath p c2 → c1 = c2 := by
    rintro p c1 c2 (⟨h1, rfl⟩ | ⟨h1, -, rfl⟩) (⟨h2, rfl⟩ | ⟨h2, -, rfl⟩)
    · rfl
    · exact absurd h1 h2
    · exact absurd h2 h1
    · rfl
  cases h1 <;> cases h2 <;> first
    | rfl
    | (simp_all [Phase.admits, Lacking, NoLimit, SameAnswer, refusal]; done)
    | (simp_all [Phase.admits, Lacking, NoLimit, SameAnswer, refusal]; grind)
    | grind [Phase.admits, Lacking, NoLimit, SameAnswer, refusal]

example : VStep (fun _ _ _ => True) ⟨fun _ => .empty, .chosen samplePath⟩ (.verifyPassword samplePw 0)
    (.flag (.fail .ERR_API_STATE_INVALID)) ⟨fun _ => .empty, .chosen samplePath⟩ := .verifyEmpty rfl rfl

/-- C76: what was saved under a password stays until the file itself is deleted or saved again: a file is created, given a
header and data and saved; then anything may happen to other files (or anything but deleting and saving), and afterwards the
password opens the file and shows the data. -/
theorem C76_durable (mode : Byte) (s0 : Session) (h0 : Api.new mode = .ok s0) (fs : FS) (slots : Path → Slot)
    (hfs : ∀ p, EncPath p → InSlot hs (fs p) (slots p)) (pre mid : List Event) (hpre : ∀ ev ∈ pre, Smooth ev)
    (hmid : ∀ ev ∈ mid, Smooth ev) (e : Nat → Env) (he : ∀ i, Friendly (e i)) (p : Path) (pw : List Byte)
    (ds : SettingsIters) (hds : Usable ds) (data : Bytes) (hdata : data.data.length < 2 ^ 31) (rs : List (Option Ret)) (w : World)
    (hcr : Api.run hs rest ⟨s0, fs⟩ (pre ++ [.call .logout (e 0), .call (.createFile p) (e 1)]) =
      .ok (rs ++ [some .void, some (.flag (.success true))], w))
    (hkeep : (∀ e, Event.call (.selectFile p) e ∉ mid) ∨
      ∀ e, Event.call .deleteFile e ∉ mid ∧ Event.call .writeToFile e ∉ mid) :
    ∃ rs' r w', Api.run hs rest w
      ([.call (.selectFile p) (e 2), .call (.createDataHeader pw ds 0) (e 3),
        .call (.encryptData (some ⟨some 1, some data⟩)) (e 4), .call .writeToFile (e 5)] ++ (mid ++
       [.call .logout (e 6), .call (.selectFile p) (e 7), .call (.verifyPassword pw 0) (e 8), .call .getDecryptedData (e 9)])) =
      .ok ([some (.flag (.success true)), some (.flag (.success true)), some (.flag (.success true)),
        some (.plain (.success ()))] ++ (rs' ++
       [some .void, some (.flag (.success true)), some (.flag (.success true)), some (.data (.success ⟨some 1, some r⟩))]), w') ∧
      r.data = data.data := by
  obtain ⟨-, rfl⟩ := new_mode h0
  have hsm : ∀ (c : Call) (i : Nat), Careful c → (∀ d, c ≠ .getRelevantFileNames d) → Smooth (.call c (e i)) := by
    intro c i hc hd
    cases c <;> first | exact ⟨he i, hc⟩ | exact absurd rfl (hd _)
  obtain ⟨rs1, w1, v1, h1, h2, h3, hk3, -⟩ := sim_run (rest := rest) (hs := hs) (v := ⟨slots, .idle⟩)
    (w := ⟨⟨.INIT, 1, none, Bytes.empty 0, none, none, none⟩, fs⟩) ⟨rfl, fun p hp _ => hfs p hp, rfl⟩ (by simp [Kept])
    (evs := pre ++ [.call .logout (e 0), .call (.createFile p) (e 1)]) (by
      intro ev hev
      simp only [List.mem_append, List.mem_cons, List.not_mem_nil, or_false] at hev
      rcases hev with hev | rfl | rfl
      · exact hpre ev hev
      · exact hsm _ _ trivial (by simp)
      · exact hsm _ _ trivial (by simp))
  rw [hcr] at h1
  cases h1
  obtain ⟨ra, rb, va, hrab, ha, hb⟩ := h2.append
  cases hb with | call k1 hb =>
  cases hb with | call k2 hb =>
  cases hb
  rename_i x1 vb x2
  have hl : ra.length = rs.length := by
    have := congrArg List.length hrab
    simpa using this.symm
  obtain ⟨-, hab⟩ := List.append_inj hrab hl.symm
  simp only [List.cons.injEq, Option.some.injEq, and_true] at hab
  obtain ⟨rfl, rfl⟩ := hab
  obtain ⟨-, rfl⟩ := k1.at_logout
  obtain ⟨hp, rfl⟩ := k2.at_create
  obtain ⟨rs2, w2, v2, q1, q2, -, -, -⟩ := sim_run (rest := rest) (hs := hs) h3 hk3
    (evs := [.call (.selectFile p) (e 2), .call (.createDataHeader pw ds 0) (e 3),
        .call (.encryptData (some ⟨some 1, some data⟩)) (e 4), .call .writeToFile (e 5)] ++ (mid ++
       [.call .logout (e 6), .call (.selectFile p) (e 7), .call (.verifyPassword pw 0) (e 8), .call .getDecryptedData (e 9)])) (by
      intro ev hev
      simp only [List.mem_append, List.mem_cons, List.not_mem_nil, or_false] at hev
      rcases hev with (rfl | rfl | rfl | rfl) | hev | (rfl | rfl | rfl | rfl)
      · exact hsm _ _ trivial (by simp)
      · exact hsm _ _ ⟨hds.built, hds.full⟩ (by simp)
      · exact hsm _ _ ⟨_, _, rfl, hdata⟩ (by simp)
      · exact hsm _ _ trivial (by simp)
      · exact hmid ev hev
      · exact hsm _ _ trivial (by simp)
      · exact hsm _ _ trivial (by simp)
      · exact hsm _ _ trivial (by simp)
      · exact hsm _ _ trivial (by simp))
  have hslot : ((va.goto .idle).put p .empty .idle).slots p = .empty := by simp [Vault.put]
  cases q2 with | call s1 q2 =>
  obtain ⟨rfl, rfl⟩ := s1.at_select rfl hp (by rw [hslot]; simp)
  cases q2 with | call s2 q2 =>
  obtain ⟨rfl, L, ⟨hd, -, hop, hL⟩, rfl⟩ := s2.at_header rfl hslot hds.complete ⟨hds.dec, hds.enc⟩
  cases q2 with | call s3 q2 =>
  obtain ⟨rfl, rfl⟩ := s3.at_encrypt rfl
  cases q2 with | call s4 q2 =>
  obtain ⟨rfl, b, hb1, hb2, rfl⟩ := s4.at_save rfl
  obtain ⟨rm, rt, vm, rfl, hm, ht⟩ := VRun.append (a := mid) q2
  have hbox := hm.keep (p := p) (b := b) (by simp [Vault.put]) (by simp [Vault.put, Phase.path]) hkeep
  cases ht with | call t1 ht =>
  obtain ⟨rfl, rfl⟩ := t1.at_logout
  cases ht with | call t2 ht =>
  obtain ⟨rfl, rfl⟩ := t2.at_select rfl hp (by simp only [Vault.goto, hbox]; simp)
  cases ht with | call t3 ht =>
  obtain ⟨rfl, rfl⟩ := t3.at_verify rfl hbox (by rw [hb1]; exact (hL pw).mpr hop)
  cases ht with | call t4 ht =>
  obtain ⟨r, rfl, hr⟩ := t4.at_decrypt rfl hbox
  cases ht
  exact ⟨rm, r, w2, q1, by rw [hr, hb2]⟩

example : (∀ ev ∈ vaultHistory, Smooth ev) ∧ ascii "c.enc" ≠ samplePath ∧
    (∀ e, Event.call (.selectFile (ascii "c.enc")) e ∉ vaultHistory) ∧ Usable sampleSettings ∧
    runIs (vaultHistory ++ [.call .logout openEnv, .call (.createFile (ascii "c.enc")) openEnv])
      (fun rs _ => rs == vaultAnswers ++ [some .void, some (.flag (.success true))]) = true := by
  refine ⟨vaultHistory_smooth, by decide, ?_, usable_sample, by decide +kernel⟩
  intro e
  have h1 : ascii "c.enc" ≠ samplePath := by decide
  simp [vaultHistory, sampleSave, sampleOpen, h1]

end Verif.Props
