import Verif.Lemmas.Vault
import Verif.Lemmas.NoCrash
import Verif.Props.Select
import Verif.Spec.Faults

/- A session in an imperfect world behaves like the ideal vault with faults: one lemma for each call that opens a file. -/
namespace Verif.Api
open Spec PwFunc
variable {hs : Hashes} {rest : Helper → Res Helper} {e : Env} {w w' : World} {s s' : Store} {c : Call}

/-- the session and the ideal vault with faults -/
structure Stands (hs : Hashes) (s : Store) (w : World) : Prop where
  linked : Linked hs s.foreign s.vault w
  stray : ∀ p, EncPath p → s.foreign p → Stray (w.fs p)

theorem Stands.lies (h : Stands hs s w) {p : Path} (hp : EncPath p) : Lies hs s p (w.fs p) := by
  rcases Classical.em (s.foreign p) with hf | hf
  · exact .inl ⟨hf, h.stray p hp hf⟩
  · exact .inr ⟨hf, h.linked.disk p hp hf⟩

theorem filed_length {h : Header} {enc : List Byte} {m : HMode} {b : Box} (hf : Filed hs h enc m b) :
    h.length < 2 ^ 31 ∧ h.bytes.length = h.length := by
  have hlen := HeaderOk.length_le (mkHeader_ok hf.valid)
  rw [HeaderParse.contents_mkHeader hf.valid] at hlen
  exact ⟨by omega, length_bytes h hf.valid.validator hf.valid.salt hf.valid.encLen⟩

theorem filed_harmless {h : Header} {enc : List Byte} {m : HMode} {b : Box} (hf : Filed hs h enc m b) :
    Harmless (h.bytes ++ enc) := by
  have := harmless_take hf.valid enc hf.size hf.small (by have := (filed_length hf).1; omega) (h.bytes ++ enc).length
  rwa [List.take_length] at this

theorem filed_headed {h : Header} {enc : List Byte} {m : HMode} {b : Box} (hf : Filed hs h enc m b) :
    Headed 1 (h.bytes ++ enc) :=
  ⟨h, enc, hf.valid, rfl, by rw [List.length_append, (filed_length hf).2, hf.size], hf.valid.fileMode⟩

/-- a file with a header in order is a box -/
theorem headed_filed {c : List Byte} (hc : Harmless c) (hh : Headed 1 c) : ∃ b, InSlot hs (.file c) (.box b) := by
  obtain ⟨h, enc, hv, rfl, hsz, -⟩ := hh
  have hbl := length_bytes h hv.validator hv.salt hv.encLen
  rw [List.length_append, hbl] at hsz
  have hsm : enc.length < 2 ^ 31 := by
    rcases hc with hc | ⟨-, hc⟩
    · have := congrArg List.length hc
      simp only [List.length_append, List.length_nil] at this
      omega
    · have := (hc _ (plausible_header hv enc hsz)).1
      rw [List.length_append, hbl] at this
      omega
  have hm : ∃ m : HMode, m.toByte = h.hashMode := by
    rcases hv.hashMode with h | h | h <;> rw [h]
    · exact ⟨.sha256, rfl⟩
    · exact ⟨.sha384, rfl⟩
    · exact ⟨.sha512, rfl⟩
  obtain ⟨m, hm⟩ := hm
  exact ⟨boxOf hs h m (Opens hs h) enc, .box ⟨hv, hsz, hsm, hm, fun _ => Iff.rfl, fun _ => cryptOut_dec _ _ _ _, rfl⟩⟩

theorem inslot_tame {n : Node} {sl : Slot} (h : InSlot hs n sl) : Tame n := by
  cases h with
  | missing => trivial
  | empty => exact .inl rfl
  | box hf => exact filed_harmless hf

theorem stray_tame {n : Node} (h : Stray n) : Tame n := by
  cases n with
  | missing => exact h.elim
  | unreachable => exact h.elim
  | dir => trivial
  | file c => exact h.2.1

theorem Stands.tame (h : Stands hs s w) {p : Path} (hp : EncPath p) : Tame (w.fs p) := by
  rcases h.lies hp with ⟨-, h⟩ | ⟨-, h⟩
  · exact stray_tame h
  · exact inslot_tame h

/-- everything that can be found under a path is one of the four -/
theorem tame_cases {n : Node} (h : Tame n) : Stray n ∨ ∃ sl, InSlot hs n sl := by
  cases n with
  | missing => exact .inr ⟨_, .missing⟩
  | unreachable => exact h.elim
  | dir => exact .inl trivial
  | file c =>
    by_cases h0 : c = []
    · subst h0; exact .inr ⟨_, .empty⟩
    · rcases Classical.em (Headed 1 c) with hh | hh
      · obtain ⟨b, hb⟩ := headed_filed (hs := hs) h hh
        exact .inr ⟨_, hb⟩
      · exact .inl ⟨h0, h, hh⟩

/-- what one call has to be shown to do -/
def FSim (hs : Hashes) (rest : Helper → Res Helper) (e : Env) (s : Store) (w : World) (c : Call) : Prop :=
  ∃ r w' s', call hs rest e w c = .ok (r, w') ∧ FStep (madeLocks hs) e s c r s' ∧ Stands hs s' w' ∧
    ∀ p, ¬ EncPath p → w'.fs p = w.fs p

theorem FSim.ideal (hl : Stands hs s w) (h : Simulates hs rest e s.foreign s.vault w c)
    (hq : s.vault.phase.admits c → ∀ q, Touches s.vault.phase c q →
      ¬ s.foreign q ∧ (c = .writeToFile → s.vault.slots q ≠ .missing)) : FSim hs rest e s w c := by
  obtain ⟨r, w', v', h1, h2, h3, h4⟩ := h
  exact ⟨r, w', ⟨v', s.foreign⟩, h1, .ideal h2 hq, ⟨h3, fun p hp hf => by rw [h4 p (.inr hf)]; exact hl.stray p hp hf⟩,
    fun p hp => h4 p (.inl hp)⟩

theorem FSim.failed (hl : Stands hs s w) {code : ErrorCode} (ha : s.vault.phase.admits c) (hd : UsesDisk c)
    (hx : ¬ Friendly e ∨ ∃ q, Touches s.vault.phase c q ∧ (s.foreign q ∨ c = .writeToFile ∧ s.vault.slots q = .missing))
    (h : call hs rest e w c = .ok (refusal c code, w)) : FSim hs rest e s w c :=
  ⟨_, w, s, h, .failed ha hd hx, hl, fun _ _ => rfl⟩

theorem fault_create (hl : Stands hs s w) (hp : s.vault.phase = .idle) (p : Path) : FSim hs rest e s w (.createFile p) := by
  have hst := hl.linked.state
  rw [hp] at hst
  by_cases he : EncPath p
  · have hn := EncPath.ne_nil he
    have hx := Decidable.not_not.mpr ((extension_iff _).mpr he)
    by_cases hF : s.foreign p
    · have hy := hl.stray p he hF
      refine FSim.failed (code := .ERR_FILE_EXISTS) hl (by rw [hp]; trivial) trivial (.inr ⟨p, ⟨he, rfl⟩, .inl hF⟩) ?_
      cases hz : w.fs p <;> rw [hz] at hy <;> simp only [Stray] at hy
      all_goals simp only [call, hst, FileHandler.createFile, isValidPath_false, if_neg hn, if_neg hx, hz, Res.bind_ok,
        Res.noexcept_ok, refusal]
    · by_cases hc : e.canCreate p = true
      · exact .ideal hl (sim_create hl.linked (fun _ => hF) (fun _ => hc) hp) (by rintro - q ⟨-, rfl⟩; exact ⟨hF, by simp⟩)
      · have hun : ¬ Friendly e := fun h => hc (h.healthy p).create
        have hc : e.canCreate p = false := by simpa using hc
        have hd := hl.linked.disk p he hF
        cases hz : w.fs p with
        | missing =>
          refine FSim.failed (code := .ERR_FILE_NOT_CREATED) hl (by rw [hp]; trivial) trivial (.inl hun) ?_
          simp only [call, hst, FileHandler.createFile, isValidPath_false, if_neg hn, if_neg hx, hz, Res.bind_ok,
            Res.noexcept_ok, refusal, FS.openOut, hc, Bool.false_eq_true, if_false]
        | unreachable => rw [hz] at hd; cases hd
        | dir => rw [hz] at hd; cases hd
        | file c =>
          refine FSim.failed (code := .ERR_FILE_EXISTS) hl (by rw [hp]; trivial) trivial (.inl hun) ?_
          simp only [call, hst, FileHandler.createFile, isValidPath_false, if_neg hn, if_neg hx, hz, Res.bind_ok,
            Res.noexcept_ok, refusal]
  · exact .ideal hl (sim_create hl.linked (fun h => absurd h he) (fun h => absurd h he) hp)
      (by rintro - q ⟨h, rfl⟩; exact absurd h he)

/-- a file that cannot be read is not opened -/
theorem handler_unread {fs : FS} {p : Path} (he : EncPath p) (ht : Tame (fs p)) (hr : e.canRead p = false) (i : Nat) :
    ∃ code, getFileHandler e fs p i = .ok (.fail code) := by
  have hn := EncPath.ne_nil he
  have hx := Decidable.not_not.mpr ((extension_iff _).mpr he)
  cases hz : fs p with
  | unreachable => rw [hz] at ht; exact ht.elim
  | missing =>
    exact ⟨.ERR_FILE_NOT_FOUND, by simp only [getFileHandler, isValidPath_true, if_neg hn, if_neg hx, hz, Res.bind_ok, Res.noexcept_ok]⟩
  | dir =>
    exact ⟨.ERR_FILE_NOT_OPEN, by simp only [getFileHandler, isValidPath_true, if_neg hn, if_neg hx, hz, hr, Bool.false_eq_true,
      if_false, Res.bind_ok, Res.noexcept_ok]⟩
  | file c =>
    exact ⟨.ERR_FILE_NOT_OPEN, by simp only [getFileHandler, isValidPath_true, if_neg hn, if_neg hx, hz, hr, Bool.false_eq_true,
      if_false, Res.bind_ok, Res.noexcept_ok]⟩

/-- a directory is not taken for a file -/
theorem handler_dir {fs : FS} {p : Path} (he : EncPath p) (hd : fs p = .dir) (h0 : e.dirSize p ≠ 0) (hr : e.canRead p = true)
    (i : Nat) : getFileHandler e fs p i = .ok (.fail .ERR_FILEHANDLER_CREATION) := by
  have hn := EncPath.ne_nil he
  have hx := Decidable.not_not.mpr ((extension_iff _).mpr he)
  have hv : FileHandler.isValidPath e fs p true = .ok (.success ()) := by
    simp only [isValidPath_true, if_neg hn, if_neg hx, hd, hr, if_true]
  have hu : FileHandler.new e fs p i = .exn .lengthError := by
    simp only [FileHandler.new, hv, Res.bind_ok, update_dir hd hr, if_neg h0]
  simp only [getFileHandler, hv, Res.bind_ok, hu, Res.attempt, Res.noexcept_ok]

/-- a foreign file is not selected -/
theorem select_stray {p : Path} (he : EncPath p) (hst : w.api.state = .INIT) (hs' : Stray (w.fs p)) (ho : Ordinary e) :
    ∃ code, call hs rest e w (.selectFile p) = .ok (.flag (.fail code), w) := by
  cases hr : e.canRead p with
  | false =>
    obtain ⟨code, h⟩ := handler_unread he (stray_tame hs') hr 0
    exact ⟨code, by simp only [call, hst, selectFile, h, Res.bind_ok, Res.noexcept_ok]⟩
  | true =>
    cases hz : w.fs p with
    | missing => rw [hz] at hs'; exact hs'.elim
    | unreachable => rw [hz] at hs'; exact hs'.elim
    | dir =>
      exact ⟨.ERR_FILEHANDLER_CREATION, by simp only [call, hst, selectFile, handler_dir he hz (ho.folder p) hr, Res.bind_ok, Res.noexcept_ok]⟩
    | file c =>
      rw [hz] at hs'
      obtain ⟨h0, hh, hn⟩ := hs'
      obtain ⟨-, -, h3, h4, -⟩ := Props.C75_answer_partial (hs := hs) (rest := rest) e w p c hst hz (harmless_len hh) he hr (ho.rand 0)
      rcases Classical.em (∃ n, Plausible c n) with ⟨n, hpl⟩ | hpl
      · rcases hh with hh | ⟨-, hh⟩
        · exact absurd hh h0
        · obtain ⟨-, k1, k2, k3⟩ := hh n hpl
          exact h4 h0 ⟨n, hpl⟩ hn (by rintro (h | h | h); exact k1 h; exact k2 h; exact k3 h)
      · exact ⟨_, h3 hpl⟩

theorem fault_select (hl : Stands hs s w) (ho : Ordinary e) (hp : s.vault.phase = .idle) (p : Path) :
    FSim hs rest e s w (.selectFile p) := by
  have hst := hl.linked.state
  rw [hp] at hst
  by_cases he : EncPath p
  · by_cases hF : s.foreign p
    · obtain ⟨code, h⟩ := select_stray (hs := hs) (rest := rest) he hst (hl.stray p he hF) ho
      exact FSim.failed hl (by rw [hp]; trivial) trivial (.inr ⟨p, ⟨he, rfl⟩, .inl hF⟩) h
    · cases hr : e.canRead p with
      | true =>
        exact .ideal hl (sim_select hl.linked (fun _ => hF) (fun _ => hr) (ho.rand 0) hp)
          (by rintro - q ⟨-, rfl⟩; exact ⟨hF, by simp⟩)
      | false =>
        obtain ⟨code, h⟩ := handler_unread he (hl.tame he) hr 0
        refine FSim.failed (code := code) hl (by rw [hp]; trivial) trivial
          (.inl fun h => by have := (h.healthy p).read; rw [hr] at this; cases this) ?_
        simp only [call, hst, selectFile, h, Res.bind_ok, Res.noexcept_ok, refusal]
  · exact .ideal hl (sim_select hl.linked (fun h => absurd h he) (fun h => absurd h he) (ho.rand 0) hp)
      (by rintro - q ⟨h, rfl⟩; exact absurd h he)

theorem fault_content (hl : Stands hs s w) {p : Path} (hp : s.vault.phase = .chosen p) : FSim hs rest e s w .getFileContent := by
  cases hr : e.canRead p with
  | true => exact .ideal hl (sim_content hl.linked hp hr) (fun _ q h => h.elim)
  | false =>
    have hph := hl.linked.phase
    rw [hp] at hph
    rcases hph with ⟨-, -, hs0, -, hst, -⟩ | ⟨hst, h, enc, m, b, hc⟩
    · exact .ideal hl ⟨.content (.success (Bytes.empty 0)), w, s.vault, by simp only [call, hst], .contentEmpty hp hs0 rfl, hl.linked,
        fun _ _ => rfl⟩ (fun _ q h => h.elim)
    · refine FSim.failed (code := .ERR_FILE_READ) hl (by rw [hp]; trivial) trivial
          (.inl fun h => by have := (h.healthy p).read; rw [hr] at this; cases this) ?_
      simp only [call, hst, getFileContent, hc.sel, deref, Res.bind_ok, FileHandler.getAllBytes, FS.opens, hc.file, hr, Bool.not_false,
        if_true, Res.attempt, Res.noexcept_ok, refusal]

/-- decrypting a file that cannot be read: only an empty one can be decrypted -/
theorem Chosen.unread {F : Path → Prop} {v : Vault} {p : Path} {h : Header} {enc : List Byte} {m : HMode} {b : Box}
    (hc : Chosen hs F v w p h enc m b) (hmode : w.api.fileMode = 1) (hkl : w.api.pwHash.data.length = m.size)
    (hr : e.canRead p = false) : Decrypts hs e w h enc m ∨ getDecryptedData hs e w = .ok (.fail .ERR, w) := by
  have hv := hc.filed.valid
  obtain ⟨hi, hcm⟩ := HeaderParse.mkHeader_inv hv
  have hcont := HeaderParse.contents_mkHeader hv
  obtain ⟨m', hm', hsz'⟩ := hi.hm
  obtain ⟨salt, hs1, hs2⟩ := hi.salt
  have hsalt : salt.data = h.salt := by rw [← hcont]; simp only [DataHeader.contents, hs1]
  have hmm : m' = m := by
    have : m'.toByte = h.hashMode := by rw [← hcont]; simp only [DataHeader.contents, hm']
    rw [← hc.filed.mode] at this
    revert this
    cases m <;> cases m' <;> decide
  subst hmm
  have hgs := Hashes.get_size hs m'
  have hsz := hc.filed.size
  have hstr : FileHandler.getDataStream e w.fs ⟨p, h.length, h.fileSize, false⟩ 0 = ⟨[], e.sched 0, false, true⟩ := by
    simp only [FileHandler.getDataStream, FS.openIn, hc.file, hr, Bool.false_eq_true, if_false, List.drop_nil]
  have hds : FileHandler.getDataSize ⟨p, h.length, h.fileSize, false⟩ = enc.length := by
    rw [FileHandler.getDataSize]
    simp only
    omega
  have hcr := cryptStream_eof (dir := .dec) (H := hs.get m') (pw := w.api.pwHash) (salt := salt)
    (s := ⟨[], e.sched 0, false, true⟩) (len := enc.length) (by rw [hkl, hgs]) (by rw [hs2, hsz', hgs]) hc.filed.small rfl
  have hp : (HeaderParse.mkHeader h).getDataHeaderParts = .ok (HeaderParse.mkHeader h).dh := by
    unfold DataHeader.getDataHeaderParts
    simp [hcm]
  by_cases h0 : enc.length = 0
  · left
    rw [if_pos h0] at hcr
    obtain ⟨c, c1, st', b, c2, k1, k2, k3, k4⟩ := cryptStream_inv hcr
    refine ⟨b, ?_, by rw [k4, hsalt, List.length_eq_zero_iff.mp h0]⟩
    have hfm : FileDataStruct.make 1 (some b) = .ok ⟨some 1, some b⟩ := rfl
    simp only [getDecryptedData, decryptTry, hc.dh, deref, Res.bind_ok, hp, hm', DataHeaderParts.get, hs1, k1, hc.sel, hstr, hds, k2,
      k3, hmode, hfm, attempt_ok, Res.noexcept_ok]
  · right
    rw [if_neg h0] at hcr
    have hx : decryptTry hs e w = .exn .runtimeError := by
      unfold cryptStream at hcr
      simp only [decryptTry, hc.dh, deref, Res.bind_ok, hp, hm', DataHeaderParts.get, hs1, hc.sel, hstr, hds]
      rcases Res.bind_eq_exn.mp hcr with h | ⟨c, hc, h⟩
      · rw [h]; rfl
      rcases Res.bind_eq_exn.mp h with h | ⟨⟨c1, s1⟩, hc1, h⟩
      · rw [hc, Res.bind_ok, h]; rfl
      rcases Res.bind_eq_exn.mp h with h | ⟨⟨r, c2⟩, hc2, h⟩
      · rw [hc, Res.bind_ok, hc1, Res.bind_ok]
        simp only
        rw [h]; rfl
      · cases h
    simp only [getDecryptedData, hx, Res.attempt, Res.bind_ok, Res.noexcept_ok]

theorem fault_decrypt (hl : Stands hs s w) {p : Path} {pw : List Byte} (hp : s.vault.phase = .verified p pw) :
    FSim hs rest e s w .getDecryptedData := by
  have hph := hl.linked.phase
  rw [hp] at hph
  obtain ⟨hst, -⟩ := hph
  by_cases hx : getDecryptedData hs e w = .ok (.fail .ERR, w)
  · by_cases hr : e.canRead p = true
    · refine .ideal hl (sim_decrypt hl.linked hp fun h enc m b hc hk => hc.decrypts hl.linked.mode hk hr) (fun _ q h => h.elim)
    · refine FSim.failed (code := .ERR) hl (by rw [hp]; trivial) trivial (.inl fun h => hr (h.healthy p).read) ?_
      simp only [call, hst, hx, Res.bind_ok, refusal]
  · refine .ideal hl (sim_decrypt hl.linked hp fun h enc m b hc hk => ?_) (fun _ q h => h.elim)
    cases hr : e.canRead p with
    | true => exact hc.decrypts hl.linked.mode hk hr
    | false => exact (hc.unread hl.linked.mode hk hr).resolve_right hx

/-- what reaches the disk of a save -/
theorem Sealed.stored {p : Path} {L : List Byte → Prop} {pw data : List Byte} {d : DataHeader} {m : HMode} {f : FileHandler}
    {r : Bytes} (h : Sealed hs w p L pw data d m f r) (k : Nat) :
    (d.contents.bytes ++ r.data).take k = d.contents.bytes ++ r.data ∨
    (k < 2 ^ 31 + 200000 ∧ ((d.contents.bytes ++ r.data).take k = [] ∨ Stray (.file ((d.contents.bytes ++ r.data).take k)))) := by
  have hf := h.filed
  have hlen := HeaderOk.length_le h.ok
  have hbl := (filed_length hf).2
  have hsm : r.data.length < 2 ^ 31 := hf.small
  by_cases hk : (d.contents.bytes ++ r.data).length ≤ k
  · exact .inl (List.take_of_length_le hk)
  · have hl : (d.contents.bytes ++ r.data).length = d.contents.length + r.data.length := by rw [List.length_append, hbl]
    refine .inr ⟨by omega, ?_⟩
    by_cases h0 : k = 0
    · left; simp [h0]
    · right
      refine ⟨?_, harmless_take hf.valid r.data hf.size hsm (by omega) k, ?_⟩
      · intro h
        have := congrArg List.length h
        simp only [List.length_take, List.length_nil] at this
        omega
      · intro hh
        exact torn_not_plausible (size := d.contents.fileSize) (rest := num8 d.contents.length ++ d.contents.content ++ r.data)
          (by simp [Header.bytes]) (by rw [hf.size, hl]) (by omega) (by omega) (by omega) (Props.headed_plausible hh)

/-- after a save -/
theorem fault_saved (hl : Stands hs s w) {p q : Path} {L : List Byte → Prop} {pw data : List Byte} {d : DataHeader} {m : HMode}
    {f : FileHandler} {r : Bytes} (h : Sealed hs w p L pw data d m f r) (hp : s.vault.phase = .ready p L pw data)
    (hq : SavesTo s c q) (he : EncPath q) {s' : Session} (hst : s'.state = .FINISHED) (hm : s'.fileMode = 1)
    (hc : call hs rest e w c = .ok (.plain (.success ()),
      ⟨s', w.fs.set q (.file ((d.contents.bytes ++ r.data).take e.stored))⟩)) : FSim hs rest e s w c := by
  have hother : ∀ x, ¬ EncPath x → (w.fs.set q (.file ((d.contents.bytes ++ r.data).take e.stored))) x = w.fs x := by
    intro x hx
    simp only [FS.set]
    rw [if_neg]
    rintro rfl
    exact hx he
  have hset : ∀ n x, x ≠ q → (w.fs.set q n) x = w.fs x := fun n x hx => by simp only [FS.set, if_neg hx]
  rcases h.stored e.stored with hall | ⟨hk, hnone | hpart⟩
  · refine ⟨_, _, s.put q (.box (boxOf hs d.contents m L r.data)) .done, hc, .savedAll hp hq rfl h.shows, ⟨?_, ?_⟩, hother⟩
    · rw [hall]
      exact hl.linked.put hm (fun x hx hf hF => hf ⟨hx, hF⟩) (.box h.filed) hst
    · intro x hx hf
      simp only
      rw [hset _ x hf.1]
      exact hl.stray x hx hf.2
  · refine ⟨_, _, s.put q .empty .done, hc, .savedNothing hp hq (fun h => by have := h.room; omega), ⟨?_, ?_⟩, hother⟩
    · rw [hnone]
      exact hl.linked.put hm (fun x hx hf hF => hf ⟨hx, hF⟩) .empty hst
    · intro x hx hf
      simp only
      rw [hset _ x hf.1]
      exact hl.stray x hx hf.2
  · refine ⟨_, _, s.spoil q .done, hc, .savedPart hp hq (fun h => by have := h.room; omega), ⟨⟨hm, ?_, hst⟩, ?_⟩, hother⟩
    · intro x hx hf
      have hxq : x ≠ q := fun h => hf (.inl h)
      simp only [Store.spoil, Vault.put, if_neg hxq]
      rw [hset _ x hxq]
      exact hl.linked.disk x hx (fun h => hf (.inr h))
    · intro x hx hf
      by_cases hxq : x = q
      · subst hxq
        simp only [FS.set, if_true]
        exact hpart
      · simp only
        rw [hset _ x hxq]
        exact hl.stray x hx (hf.resolve_left hxq)

theorem fault_write (hl : Stands hs s w) {p : Path} {L : List Byte → Prop} {pw data : List Byte}
    (hp : s.vault.phase = .ready p L pw data) : FSim hs rest e s w .writeToFile := by
  have hph := hl.linked.phase
  rw [hp] at hph
  obtain ⟨d, m, f, r, h⟩ := hph
  have hfp := h.fpath
  subst hfp
  have hn := EncPath.ne_nil h.path
  have hx := Decidable.not_not.mpr ((extension_iff _).mpr h.path)
  have fails : ∀ code, writeToSelected e w =
      .ok (.fail code, ⟨{ w.api with selected := some { f with headerSize := 0, fileSize := 0 } }, w.fs⟩) →
      (¬ Friendly e ∨ s.foreign f.path ∨ s.vault.slots f.path = .missing) → FSim hs rest e s w .writeToFile := by
    intro code hc hx
    refine ⟨_, _, s, call_write h.state hc, .failed (code := code) (by rw [hp]; trivial) trivial ?_, ⟨⟨hl.linked.mode, hl.linked.disk, ?_⟩,
      hl.stray⟩, fun _ _ => rfl⟩
    · rcases hx with hx | hx | hx
      · exact .inl hx
      · exact .inr ⟨f.path, ⟨_, _, _, hp⟩, .inl hx⟩
      · exact .inr ⟨f.path, ⟨_, _, _, hp⟩, .inr ⟨rfl, hx⟩⟩
    · rw [hp]
      exact ⟨d, m, { f with headerSize := 0, fileSize := 0 }, r, h.path, rfl, h.state, h.dh, h.ok, h.bytes, h.enc, rfl, h.valid,
        h.size, h.mode, h.out, h.small, h.lock⟩
  cases hz : w.fs f.path with
  | unreachable =>
    have := hl.tame h.path
    rw [hz] at this
    exact this.elim
  | missing =>
    refine fails .ERR_FILE_NOT_FOUND ?_ ?_
    · simp only [writeToSelected, h.sel, deref, Res.bind_ok, FileHandler.getWriteStream, isValidPath_true, if_neg hn, if_neg hx, hz,
        Res.noexcept_ok]
    · rcases hl.lies h.path with ⟨h1, -⟩ | ⟨-, h1⟩
      · exact .inr (.inl h1)
      · rw [hz] at h1
        generalize s.vault.slots f.path = sl at h1
        cases h1
        exact .inr (.inr rfl)
  | dir =>
    have hF : s.foreign f.path := by
      rcases hl.lies h.path with ⟨h1, -⟩ | ⟨-, h1⟩
      · exact h1
      · rw [hz] at h1; cases h1
    cases hr : e.canRead f.path with
    | false =>
      refine fails .ERR_FILE_NOT_OPEN ?_ (.inr (.inl hF))
      simp only [writeToSelected, h.sel, deref, Res.bind_ok, FileHandler.getWriteStream, isValidPath_true, if_neg hn, if_neg hx, hz, hr,
        Bool.false_eq_true, if_false, Res.noexcept_ok]
    | true =>
      refine fails .ERR_FILE_NOT_OPEN ?_ (.inr (.inl hF))
      simp only [writeToSelected, h.sel, deref, Res.bind_ok, FileHandler.getWriteStream, isValidPath_true, if_neg hn, if_neg hx, hz, hr,
        if_true, FS.openOut, Res.noexcept_ok]
  | file c =>
    cases hr : e.canRead f.path with
    | false =>
      refine fails .ERR_FILE_NOT_OPEN ?_ (.inl fun h => by have := (h.healthy f.path).read; rw [hr] at this; cases this)
      simp only [writeToSelected, h.sel, deref, Res.bind_ok, FileHandler.getWriteStream, isValidPath_true, if_neg hn, if_neg hx, hz, hr,
        Bool.false_eq_true, if_false, Res.noexcept_ok]
    | true =>
      cases hw : e.canWrite f.path with
      | false =>
        refine fails .ERR_FILE_NOT_OPEN ?_ (.inl fun h => by have := (h.healthy f.path).write; rw [hw] at this; cases this)
        simp only [writeToSelected, h.sel, deref, Res.bind_ok, FileHandler.getWriteStream, isValidPath_true, if_neg hn, if_neg hx, hz,
          hr, hw, Bool.false_eq_true, if_false, if_true, FS.openOut, Res.noexcept_ok]
      | true =>
        have c2 := writeToSelected_ok (e := e) h.ok h.dh h.enc h.bytes h.sel h.path hz hr hw
        refine fault_saved hl h hp (.inl ⟨rfl, by rw [hp]; rfl, ?_⟩) h.path ?_ ?_ (call_write h.state c2)
        · rcases hl.lies h.path with ⟨h1, -⟩ | ⟨-, h1⟩
          · exact .inl h1
          · rw [hz] at h1
            refine .inr fun h2 => ?_
            rw [h2] at h1
            cases h1
        · rfl
        · exact hl.linked.mode

/-- saving to another file goes wrong without effect unless the file is empty -/
theorem writeAt_refused {q : Path} (he : EncPath q) (ht : Tame (w.fs q)) (ho : Ordinary e)
    (hq : w.fs q ≠ .file [] ∨ e.canRead q = false ∨ e.canWrite q = false) :
    ∃ code, writeToPath e w q = .ok (.fail code, w) := by
  cases hr : e.canRead q with
  | false =>
    obtain ⟨code, h⟩ := handler_unread he ht hr 0
    exact ⟨code, by simp only [writeToPath, h, Res.bind_ok, Res.noexcept_ok]⟩
  | true =>
    have hn := EncPath.ne_nil he
    have hx := Decidable.not_not.mpr ((extension_iff _).mpr he)
    cases hz : w.fs q with
    | unreachable => rw [hz] at ht; exact ht.elim
    | missing =>
      exact ⟨.ERR_FILE_NOT_FOUND, by simp only [writeToPath, getFileHandler, isValidPath_true, if_neg hn, if_neg hx, hz, Res.bind_ok,
        Res.noexcept_ok]⟩
    | dir =>
      exact ⟨.ERR_FILEHANDLER_CREATION, by simp only [writeToPath, handler_dir he hz (ho.folder q) hr, Res.bind_ok, Res.noexcept_ok]⟩
    | file c =>
      rw [hz] at ht
      have h63 := harmless_len ht
      have hv := validPath_ok he hz hr
      rcases update_file (e := e) hz hr (by omega) 0 with ⟨n, hpl, hu⟩ | ⟨-, x, hx', hu⟩
      · have hg := getFileHandler_ok he hz hr hu
        cases c with
        | nil =>
          have hw : e.canWrite q = false := by
            rcases hq with hq | hq | hq
            · exact absurd hz hq
            · rw [hr] at hq; cases hq
            · exact hq
          refine ⟨.ERR_FILE_NOT_OPEN, ?_⟩
          simp only [writeToPath, hg, Res.bind_ok, FileHandler.getWriteStreamIfEmpty, FileHandler.isEmpty, List.isEmpty_nil, if_true,
            FileHandler.getWriteStream, hv, FS.openOut, hz, hw, Bool.false_eq_true, if_false, Res.noexcept_ok]
        | cons a b =>
          refine ⟨.ERR_FILE_NOT_EMPTY, ?_⟩
          simp only [writeToPath, hg, Res.bind_ok, FileHandler.getWriteStreamIfEmpty, FileHandler.isEmpty, List.isEmpty_cons,
            Bool.false_eq_true, if_false, Res.noexcept_ok]
      · refine ⟨.ERR_FILEHANDLER_CREATION, ?_⟩
        have hnw : FileHandler.new e w.fs q 0 = .exn x := by simp only [FileHandler.new, hv, Res.bind_ok, hu]
        rcases hx' with rfl | rfl <;>
          simp only [writeToPath, getFileHandler, hv, Res.bind_ok, hnw, Res.attempt, Res.noexcept_ok]

theorem fault_writeAt (hl : Stands hs s w) (ho : Ordinary e) {p : Path} {L : List Byte → Prop} {pw data : List Byte}
    (hp : s.vault.phase = .ready p L pw data) (q : Path) : FSim hs rest e s w (.writeToFileAt q) := by
  have hph := hl.linked.phase
  rw [hp] at hph
  obtain ⟨d, m, f, r, h⟩ := hph
  have hst := h.state
  by_cases he : EncPath q
  · have fails : (w.fs q ≠ .file [] ∨ e.canRead q = false ∨ e.canWrite q = false) → (¬ Friendly e ∨ s.foreign q) →
        FSim hs rest e s w (.writeToFileAt q) := by
      intro h1 h2
      obtain ⟨code, hc⟩ := writeAt_refused he (hl.tame he) ho h1
      refine FSim.failed (code := code) hl (by rw [hp]; trivial) trivial ?_ ?_
      · rcases h2 with h2 | h2
        · exact .inl h2
        · exact .inr ⟨q, ⟨he, rfl⟩, .inl h2⟩
      · simp only [call, hst, hc, Res.bind_ok, refusal]
    by_cases hF : s.foreign q
    · refine fails (.inl fun h0 => ?_) (.inr hF)
      have := hl.stray q he hF
      rw [h0] at this
      exact this.1 rfl
    · cases hr : e.canRead q with
      | false => exact fails (.inr (.inl hr)) (.inl fun h => by have := (h.healthy q).read; rw [hr] at this; cases this)
      | true =>
        cases hw : e.canWrite q with
        | false => exact fails (.inr (.inr hw)) (.inl fun h => by have := (h.healthy q).write; rw [hw] at this; cases this)
        | true =>
          by_cases hz : w.fs q = .file []
          · have hslot : s.vault.slots q = .empty := by
              have hd := hl.linked.disk q he hF
              rw [hz] at hd
              generalize s.vault.slots q = sl at hd
              generalize hn : Node.file [] = n at hd
              cases hd with
              | missing => cases hn
              | empty => rfl
              | box hf =>
                have hbl := (filed_length hf).2
                have hsz := hf.valid.size
                simp only [Node.file.injEq] at hn
                have := congrArg List.length hn
                simp only [List.length_append, List.length_nil, hbl, Header.length] at this hsz
                omega
            have hu : FileHandler.update e w.fs q 0 = .ok ⟨q, 0, 0, true⟩ := by
              rcases update_file (e := e) hz hr (by simp) 0 with ⟨n, hn, hu⟩ | ⟨hn, -⟩
              · rcases hn with ⟨-, rfl⟩ | ⟨rest, h, -⟩
                · exact hu
                · simp [num8] at h
              · exact absurd ⟨0, .inl ⟨rfl, rfl⟩⟩ hn
            have hv := validPath_ok he hz hr
            have ho' : w.fs.openOut e q = some (w.fs.set q (.file [])) := by simp only [FS.openOut, hz, hw, if_true]
            have hg : FileHandler.getWriteStreamIfEmpty e w.fs ⟨q, 0, 0, true⟩ =
                .ok (.success (), ⟨q, 0, 0, true⟩, w.fs.set q (.file [])) := by
              simp only [FileHandler.getWriteStreamIfEmpty, FileHandler.isEmpty, if_true, FileHandler.getWriteStream, hv, Res.bind_ok,
                ho', Res.noexcept_ok]
            have hfd := fullData_eq h.ok h.dh h.enc h.bytes
            have c2 : writeToPath e w q = .ok (.success (), ⟨{ w.api with encrypted := none, state := .FINISHED },
                w.fs.set q (.file ((d.contents.bytes ++ r.data).take e.stored))⟩) := by
              simp only [writeToPath, getFileHandler_ok he hz hr hu, Res.bind_ok, hg, finishWrite, hfd, Res.noexcept_ok, set_set]
            refine fault_saved (s' := { w.api with encrypted := none, state := .FINISHED }) hl h hp
              (.inr ⟨rfl, he, hF, hslot⟩) he rfl hl.linked.mode ?_
            simp only [call, hst, c2, Res.bind_ok]
          · exact .ideal hl (sim_writeAt hl.linked hp (fun _ => hF) (fun _ => ⟨hr, hw⟩) (fun _ h => absurd h hz))
              (by rintro - x ⟨-, rfl⟩; exact ⟨hF, by simp⟩)
  · refine .ideal hl (sim_writeAt hl.linked hp (fun h => absurd h he) (fun h => absurd h he) (fun h => absurd h he))
      (by rintro - x ⟨h, rfl⟩; exact absurd h he)

/-- one call -/
theorem fault_call (hl : Stands hs s w) (hs' : Fair (.call c e)) : FSim hs rest e s w c := by
  have nothing : ∀ {c}, (∀ q, ¬ Touches s.vault.phase c q) → Simulates hs rest e s.foreign s.vault w c → FSim hs rest e s w c :=
    fun hn h => .ideal hl h (fun _ q hq => absurd hq (hn q))
  have lacking : ∀ {c}, Lacking c → ∀ q, ¬ Touches s.vault.phase c q := by
    intro c h q
    cases c <;> first | exact h.elim | exact id
  rcases Classical.em (Lacking c) with hn | hn
  · exact nothing (lacking hn) (sim_lacking hl.linked hn)
  rcases Classical.em (¬ s.vault.phase.admits c) with ha | ha
  · exact .ideal hl (sim_refused hl.linked ha hn) (fun h => absurd h ha)
  rw [Classical.not_not] at ha
  cases c with
  | logout => exact nothing (fun _ => id) (sim_logout hl.linked)
  | logoutMode m => exact nothing (fun _ => id) (sim_logoutMode hl.linked m)
  | getRelevantFileNames d => exact hs'.elim
  | createFile p =>
    cases hp : s.vault.phase <;> rw [hp] at ha <;> simp only [Phase.admits] at ha
    exact fault_create hl hp p
  | selectFile p =>
    cases hp : s.vault.phase <;> rw [hp] at ha <;> simp only [Phase.admits] at ha
    exact fault_select hl hs'.1 hp p
  | isFileEmpty =>
    cases hp : s.vault.phase <;> rw [hp] at ha <;> simp only [Phase.admits] at ha
    exact nothing (fun _ => id) (sim_isEmpty hl.linked hp)
  | unselectFile =>
    cases hp : s.vault.phase <;> rw [hp] at ha <;> simp only [Phase.admits] at ha
    exact nothing (fun _ => id) (sim_unselect hl.linked hp)
  | deleteFile =>
    cases hp : s.vault.phase <;> rw [hp] at ha <;> simp only [Phase.admits] at ha
    exact nothing (fun _ => id) (sim_delete hl.linked hs'.1.remove hp)
  | getFileContent =>
    cases hp : s.vault.phase <;> rw [hp] at ha <;> simp only [Phase.admits] at ha
    exact fault_content hl hp
  | verifyPassword pw t =>
    cases hp : s.vault.phase <;> rw [hp] at ha <;> simp only [Phase.admits] at ha
    exact nothing (fun _ => id) (sim_verify hl.linked hs'.1.clock hp pw t)
  | createDataHeader pw ds t =>
    have hc : ds.isComplete = true := by simpa [Lacking] using hn
    cases hp : s.vault.phase <;> rw [hp] at ha <;> simp only [Phase.admits] at ha
    · exact nothing (fun _ => id) (sim_header hl.linked hs'.1.rand (.inl ⟨_, hp⟩) hc hs'.2.1 hs'.2.2)
    · exact nothing (fun _ => id) (sim_header hl.linked hs'.1.rand (.inr ⟨_, _, _, _, hp⟩) hc hs'.2.1 hs'.2.2)
  | createDataHeaderTime pw ds => exact absurd hs'.2 hn
  | changeSalt =>
    cases hp : s.vault.phase <;> rw [hp] at ha <;> simp only [Phase.admits] at ha
    exact nothing (fun _ => id) (sim_salt hl.linked hs'.1.rand hp)
  | getDecryptedData =>
    cases hp : s.vault.phase <;> rw [hp] at ha <;> simp only [Phase.admits] at ha
    exact fault_decrypt hl hp
  | getFileData =>
    cases hp : s.vault.phase <;> rw [hp] at ha <;> simp only [Phase.admits] at ha
    exact nothing (fun _ => id) (sim_fileData hl.linked hp)
  | encryptData fd =>
    obtain ⟨m, data, rfl, hd⟩ := hs'.2
    cases hp : s.vault.phase <;> rw [hp] at ha <;> simp only [Phase.admits] at ha
    exact nothing (fun _ => id) (sim_encrypt hl.linked hp hd)
  | writeToFile =>
    cases hp : s.vault.phase <;> rw [hp] at ha <;> simp only [Phase.admits] at ha
    exact fault_write hl hp
  | writeToFileAt q =>
    cases hp : s.vault.phase <;> rw [hp] at ha <;> simp only [Phase.admits] at ha
    exact fault_writeAt hl hs'.1 hp q

/-! ### changes by other programs -/

theorem PhaseRel.move {F F' : Path → Prop} {v v' : Vault} {fs' : FS} {ph : Phase} (h : PhaseRel hs F v w ph)
    (hq : ∀ q, EncPath q → ph.reads = some q → v'.slots q = v.slots q ∧ (F' q → F q) ∧ fs' q = w.fs q) :
    PhaseRel hs F' v' ⟨w.api, fs'⟩ ph := by
  cases ph with
  | idle => exact h
  | done => exact h
  | opened p L pw b => exact h
  | ready p L pw data =>
    obtain ⟨d, m, f, r, h⟩ := h
    exact ⟨d, m, f, r, h.path, h.fpath, h.state, h.dh, h.ok, h.bytes, h.enc, h.sel, h.valid, h.size, h.mode, h.out, h.small, h.lock⟩
  | chosen p =>
    rcases h with ⟨h1, h2, h3, h4, h5, h6⟩ | ⟨h1, h, enc, m, b, hc⟩
    · obtain ⟨k1, k2, k3⟩ := hq p h1 rfl
      exact .inl ⟨h1, fun h => h2 (k2 h), by rw [k1, h3], k3.trans h4, h5, h6⟩
    · obtain ⟨k1, k2, k3⟩ := hq p hc.path rfl
      exact .inr ⟨h1, h, enc, m, b, hc.path, fun h => hc.free (k2 h), by rw [k1, hc.slot], k3.trans hc.file, hc.filed, hc.sel, hc.dh⟩
  | verified p pw =>
    obtain ⟨h1, h, enc, m, b, hc, h2, h3⟩ := h
    obtain ⟨k1, k2, k3⟩ := hq p hc.path rfl
    exact ⟨h1, h, enc, m, b, ⟨hc.path, fun h => hc.free (k2 h), by rw [k1, hc.slot], k3.trans hc.file, hc.filed, hc.sel, hc.dh⟩,
      h2, h3⟩

/-- the file that is being read, on both sides -/
theorem reads_of {p : Path} (hl : Stands hs s w) (h : s.vault.phase.reads = some p) : Reads w.api p := by
  have hph := hl.linked.phase
  cases hp : s.vault.phase with
  | idle => rw [hp] at h; cases h
  | done => rw [hp] at h; cases h
  | opened p L pw b => rw [hp] at h; cases h
  | ready p L pw data => rw [hp] at h; cases h
  | chosen q =>
    rw [hp] at h hph
    cases h
    rcases hph with ⟨h1, h2, h3, h4, h5, h6⟩ | ⟨h1, h, enc, m, b, hc⟩
    · exact ⟨.inl h5, _, h6, rfl⟩
    · exact ⟨.inr (.inl h1), _, hc.sel, rfl⟩
  | verified q pw =>
    rw [hp] at h hph
    cases h
    obtain ⟨h1, h, enc, m, b, hc, h2, h3⟩ := hph
    exact ⟨.inr (.inr h1), _, hc.sel, rfl⟩

/-- the file in hand, on both sides -/
theorem path_of {p : Path} (hl : Stands hs s w) (h : s.vault.phase.path = some p) : ∃ f, w.api.selected = some f ∧ f.path = p := by
  have hph := hl.linked.phase
  cases hp : s.vault.phase with
  | idle => rw [hp] at h; cases h
  | done => rw [hp] at h; cases h
  | opened q L pw b =>
    rw [hp] at h hph
    cases h
    obtain ⟨d, m, f, h1, h2, -⟩ := hph
    exact ⟨f, h2.sel, h1⟩
  | ready q L pw data =>
    rw [hp] at h hph
    cases h
    obtain ⟨d, m, f, r, h⟩ := hph
    exact ⟨f, h.sel, h.fpath⟩
  | chosen q => rw [hp] at h; exact (reads_of hl (by rw [hp]; exact h)).2
  | verified q pw => rw [hp] at h; exact (reads_of hl (by rw [hp]; exact h)).2

/-- a change by another program -/
theorem fault_outside (hl : Stands hs s w) {p : Path} {n : Node} (ht : EncPath p → Tame n) (hr : EncPath p → ¬ Reads w.api p) :
    ∃ s1 : Store, (EncPath p → Lies hs s1 p n) ∧ s1.vault.phase = s.vault.phase ∧
      (∀ q, q ≠ p → s1.vault.slots q = s.vault.slots q ∧ (s1.foreign q ↔ s.foreign q)) ∧ Stands hs s1 ⟨w.api, w.fs.set p n⟩ := by
  have key : ∀ s1 : Store, (EncPath p → Lies hs s1 p n) → s1.vault.phase = s.vault.phase →
      (∀ q, q ≠ p → s1.vault.slots q = s.vault.slots q ∧ (s1.foreign q ↔ s.foreign q)) → Stands hs s1 ⟨w.api, w.fs.set p n⟩ := by
    intro s1 h1 h2 h3
    refine ⟨⟨hl.linked.mode, ?_, ?_⟩, ?_⟩
    · intro q hq hf
      simp only [FS.set]
      by_cases hx : q = p
      · subst hx
        rw [if_pos rfl]
        exact (h1 hq).elim (fun h => absurd h.1 hf) (·.2)
      · rw [if_neg hx, (h3 q hx).1]
        exact hl.linked.disk q hq (fun h => hf ((h3 q hx).2.mpr h))
    · rw [h2]
      refine hl.linked.phase.move fun q hq hx => ?_
      have hne : q ≠ p := by
        rintro rfl
        exact hr hq (reads_of hl hx)
      exact ⟨(h3 q hne).1, (h3 q hne).2.mp, by simp only [FS.set, if_neg hne]⟩
    · intro q hq hf
      simp only [FS.set]
      by_cases hx : q = p
      · subst hx
        rw [if_pos rfl]
        exact (h1 hq).elim (·.2) (fun h => absurd hf h.1)
      · rw [if_neg hx]
        exact hl.stray q hq ((h3 q hx).2.mp hf)
  have given : ∀ s1 : Store, (EncPath p → Lies hs s1 p n) → s1.vault.phase = s.vault.phase →
      (∀ q, q ≠ p → s1.vault.slots q = s.vault.slots q ∧ (s1.foreign q ↔ s.foreign q)) → _ := fun s1 h1 h2 h3 =>
    (⟨s1, h1, h2, h3, key s1 h1 h2 h3⟩ : ∃ s1 : Store, (EncPath p → Lies hs s1 p n) ∧ s1.vault.phase = s.vault.phase ∧
      (∀ q, q ≠ p → s1.vault.slots q = s.vault.slots q ∧ (s1.foreign q ↔ s.foreign q)) ∧ Stands hs s1 ⟨w.api, w.fs.set p n⟩)
  rcases Classical.em (EncPath p) with he | he
  · rcases tame_cases (hs := hs) (ht he) with h | ⟨sl, h⟩
    · refine given (s.spoil p s.vault.phase) (fun _ => .inl ⟨.inl rfl, h⟩) rfl fun q hq => ⟨?_, ?_⟩
      · simp only [Store.spoil, Vault.put, if_neg hq]
      · simp only [Store.spoil, hq, false_or]
    · refine given (s.put p sl s.vault.phase) (fun _ => .inr ⟨fun h => h.1 rfl, ?_⟩) rfl fun q hq => ⟨?_, ?_⟩
      · simp only [Store.put, Vault.put, if_true]; exact h
      · simp only [Store.put, Vault.put, if_neg hq]
      · simp only [Store.put, ne_eq, hq, not_false_eq_true, true_and]
  · exact given s (fun h => absurd h he) rfl fun q _ => ⟨rfl, Iff.rfl⟩

theorem outsideOnly_congr {p : Path} : ∀ (evs : List Event) {fs fs' : FS}, fs p = fs' p → outsideOnly fs evs p = outsideOnly fs' evs p
  | [], _, _, h => h
  | .call _ _ :: evs, _, _, h => outsideOnly_congr evs h
  | .outside q n :: evs, _, _, h => outsideOnly_congr evs (by simp only [FS.set, h])

/-- a whole history -/
theorem fault_run : ∀ {evs : List Event} {s : Store} {w : World}, Stands hs s w → (∀ ev ∈ evs, Fair ev) →
    Undisturbed hs rest w evs → ∃ rs w' s', run hs rest w evs = .ok (rs, w') ∧ FRun hs (madeLocks hs) s evs rs s' ∧ Stands hs s' w' ∧
      ∀ p, ¬ EncPath p → w'.fs p = outsideOnly w.fs evs p
  | [], s, w, hl, _, _ => ⟨[], w, s, rfl, .nil s, hl, fun _ _ => rfl⟩
  | .outside p n :: evs, s, w, hl, he, hu => by
    obtain ⟨s1, h1, h2, h3, h4⟩ := fault_outside hl (he _ (List.mem_cons_self ..)) (hu [] p n evs [] w rfl rfl)
    obtain ⟨rs, w2, s2, k1, k2, k3, k4⟩ := fault_run (evs := evs) h4 (fun ev h => he ev (List.mem_cons_of_mem _ h)) (by
      intro pre q m post rs w' hev hrun
      refine hu (.outside p n :: pre) q m post (none :: rs) w' (by rw [hev]; rfl) ?_
      simp only [run, step, Res.bind_ok, hrun])
    refine ⟨none :: rs, w2, s2, ?_, .outside ?_ h1 h2 h3 k2, k3, k4⟩
    · simp only [run, step, Res.bind_ok, k1]
    · intro hp hx
      exact hu [] p n evs [] w rfl rfl hp (reads_of hl hx)
  | .call c e :: evs, s, w, hl, he, hu => by
    obtain ⟨r, w1, s1, h1, h2, h3, h4⟩ := fault_call (rest := rest) hl (he _ (List.mem_cons_self ..))
    obtain ⟨rs, w2, s2, k1, k2, k3, k4⟩ := fault_run (evs := evs) h3 (fun ev h => he ev (List.mem_cons_of_mem _ h)) (by
      intro pre q m post rs w' hev hrun
      exact hu (.call c e :: pre) q m post (some r :: rs) w' (by rw [hev]; rfl) (call_step h1 hrun))
    refine ⟨some r :: rs, w2, s2, call_step h1 k1, .call h2 k2, k3, fun p hp => (k4 p hp).trans ?_⟩
    exact outsideOnly_congr evs (h4 p hp)

end Verif.Api

/-! ### the ideal vault with faults by itself -/
namespace Verif.Spec
variable {hs : Hashes} {locks : SettingsIters → List Byte → (List Byte → Prop) → Prop} {e : Env} {s s' : Store} {c : Call} {r : Ret}

/-- without reason for a fault there is none -/
theorem FStep.friendly (h : FStep locks e s c r s') (he : Friendly e)
    (hq : ∀ q, Touches s.vault.phase c q → ¬ s.foreign q ∧ (c = .writeToFile → s.vault.slots q ≠ .missing)) :
    VStep locks s.vault c r s'.vault ∧ ∀ q, s'.foreign q ↔ s.foreign q := by
  have hput : ∀ {q : Path}, ¬ s.foreign q → ∀ x, (x ≠ q ∧ s.foreign x) ↔ s.foreign x := by
    intro q hf x
    constructor
    · exact And.right
    · intro h
      refine ⟨?_, h⟩
      rintro rfl
      exact hf h
  cases h with
  | ideal h _ => exact ⟨h, fun _ => Iff.rfl⟩
  | failed ha hd hx =>
    rcases hx with hx | ⟨q, h1, h2 | ⟨h2, h3⟩⟩
    · exact absurd he hx
    · exact absurd h2 (hq q h1).1
    · exact absurd h3 ((hq q h1).2 h2)
  | savedNothing _ _ h => exact absurd he h
  | savedPart _ _ h => exact absurd he h
  | @savedAll p q L pw data b h h1 ha hb =>
    rcases h1 with ⟨rfl, h1, -⟩ | ⟨rfl, h1, h2, h3⟩
    · rw [h] at h1
      cases h1
      obtain ⟨k1, k2⟩ := hq p ⟨_, _, _, h⟩
      exact ⟨.save h ha hb, hput k1⟩
    · exact ⟨.saveAt h h1 h3 ha hb, hput h2⟩

/-- a box stays where it is as long as its file is not selected -/
theorem FStep.keep_unselected (h : FStep locks e s c r s') {p : Path} {b : Box} (hb : s.vault.slots p = .box b)
    (hf : ¬ s.foreign p) (hp : s.vault.phase.path ≠ some p) (hc : c ≠ .selectFile p) :
    s'.vault.slots p = .box b ∧ ¬ s'.foreign p ∧ s'.vault.phase.path ≠ some p := by
  have saves : ∀ {q : Path}, SavesTo s c q → q ≠ p := by
    rintro q (⟨-, h, -⟩ | ⟨-, -, -, h⟩) rfl
    · exact hp h
    · rw [hb] at h; cases h
  cases h with
  | ideal h _ =>
    obtain ⟨h1, h2⟩ := h.keep_unselected hb hp hc
    exact ⟨h1, hf, h2⟩
  | failed ha hd hx => exact ⟨hb, hf, hp⟩
  | savedNothing _ h1 _ =>
    have := saves h1
    exact ⟨by simp only [Store.put, Vault.put, if_neg (Ne.symm this), hb], fun h => hf h.2, by simp [Store.put, Vault.put, Phase.path]⟩
  | savedPart _ h1 _ =>
    have := saves h1
    exact ⟨by simp only [Store.spoil, Vault.put, if_neg (Ne.symm this), hb], fun h => h.elim (fun h => this h.symm) hf,
      by simp [Store.spoil, Vault.put, Phase.path]⟩
  | savedAll _ h1 _ _ =>
    have := saves h1
    exact ⟨by simp only [Store.put, Vault.put, if_neg (Ne.symm this), hb], fun h => hf h.2, by simp [Store.put, Vault.put, Phase.path]⟩

/-- a box stays where it is as long as nothing is deleted or saved to the selected file -/
theorem FStep.keep_unsaved (h : FStep locks e s c r s') {p : Path} {b : Box} (hb : s.vault.slots p = .box b)
    (hf : ¬ s.foreign p) (hd : c ≠ .deleteFile) (hw : c ≠ .writeToFile) : s'.vault.slots p = .box b ∧ ¬ s'.foreign p := by
  have saves : ∀ {q : Path}, SavesTo s c q → q ≠ p := by
    rintro q (⟨h, -, -⟩ | ⟨-, -, -, h⟩) rfl
    · exact hw h
    · rw [hb] at h; cases h
  cases h with
  | ideal h _ => exact ⟨h.keep_unsaved hb hd hw, hf⟩
  | failed ha hd hx => exact ⟨hb, hf⟩
  | savedNothing _ h1 _ =>
    have := saves h1
    exact ⟨by simp only [Store.put, Vault.put, if_neg (Ne.symm this), hb], fun h => hf h.2⟩
  | savedPart _ h1 _ =>
    have := saves h1
    exact ⟨by simp only [Store.spoil, Vault.put, if_neg (Ne.symm this), hb], fun h => h.elim (fun h => this h.symm) hf⟩
  | savedAll _ h1 _ _ =>
    have := saves h1
    exact ⟨by simp only [Store.put, Vault.put, if_neg (Ne.symm this), hb], fun h => hf h.2⟩

theorem FRun.keep {evs : List Event} {rs : List (Option Ret)} (h : FRun hs locks s evs rs s') {p : Path} {b : Box}
    (hb : s.vault.slots p = .box b) (hf : ¬ s.foreign p) (ho : ∀ n, Event.outside p n ∉ evs)
    (hev : (s.vault.phase.path ≠ some p ∧ ∀ e, Event.call (.selectFile p) e ∉ evs) ∨ ∀ e, Event.call .deleteFile e ∉ evs ∧ Event.call .writeToFile e ∉ evs) :
    s'.vault.slots p = .box b ∧ ¬ s'.foreign p := by
  rcases hev with ⟨hp, hev⟩ | hev
  · induction h with
    | nil => exact ⟨hb, hf⟩
    | @call s s1 s2 c e r evs rs h ht ih =>
      obtain ⟨h1, h2, h3⟩ := h.keep_unselected hb hf hp (fun hc => hev e (by rw [hc]; exact List.mem_cons_self ..))
      exact ih h1 h2 (fun n h => ho n (List.mem_cons_of_mem _ h)) h3 (fun e h => hev e (List.mem_cons_of_mem _ h))
    | @outside s s1 s2 q n evs rs hr hp' hph hq ht ih =>
      have hne : p ≠ q := by
        rintro rfl
        exact ho n (List.mem_cons_self ..)
      obtain ⟨h1, h2⟩ := hq p hne
      exact ih (by rw [h1, hb]) (fun h => hf (h2.mp h)) (fun n h => ho n (List.mem_cons_of_mem _ h)) (by rw [hph]; exact hp)
        (fun e h => hev e (List.mem_cons_of_mem _ h))
  · induction h with
    | nil => exact ⟨hb, hf⟩
    | @call s s1 s2 c e r evs rs h ht ih =>
      obtain ⟨h1, h2⟩ := h.keep_unsaved hb hf (fun hc => (hev e).1 (by rw [hc]; exact List.mem_cons_self ..))
        (fun hc => (hev e).2 (by rw [hc]; exact List.mem_cons_self ..))
      exact ih h1 h2 (fun n h => ho n (List.mem_cons_of_mem _ h))
        (fun e => ⟨fun h => (hev e).1 (List.mem_cons_of_mem _ h), fun h => (hev e).2 (List.mem_cons_of_mem _ h)⟩)
    | @outside s s1 s2 q n evs rs hr hp' hph hq ht ih =>
      have hne : p ≠ q := by
        rintro rfl
        exact ho n (List.mem_cons_self ..)
      obtain ⟨h1, h2⟩ := hq p hne
      exact ih (by rw [h1, hb]) (fun h => hf (h2.mp h)) (fun n h => ho n (List.mem_cons_of_mem _ h))
        (fun e => ⟨fun h => (hev e).1 (List.mem_cons_of_mem _ h), fun h => (hev e).2 (List.mem_cons_of_mem _ h)⟩)

theorem FRun.append {s2 : Store} {a b : List Event} {rs : List (Option Ret)} :
    FRun hs locks s (a ++ b) rs s2 → ∃ r1 r2 s1, rs = r1 ++ r2 ∧ FRun hs locks s a r1 s1 ∧ FRun hs locks s1 b r2 s2 := by
  intro h
  induction a generalizing s rs with
  | nil => exact ⟨[], rs, s, rfl, .nil s, h⟩
  | cons x a ih =>
    cases h with
    | call h1 h2 =>
      obtain ⟨r1, r2, v1, rfl, h3, h4⟩ := ih h2
      exact ⟨_ :: r1, r2, v1, rfl, .call h1 h3, h4⟩
    | outside k1 k2 k3 k4 h2 =>
      obtain ⟨r1, r2, v1, rfl, h3, h4⟩ := ih h2
      exact ⟨_ :: r1, r2, v1, rfl, .outside k1 k2 k3 k4 h3, h4⟩

end Verif.Spec
