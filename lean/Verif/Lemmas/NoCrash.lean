import Verif.Lemmas.Crash
import Verif.Lemmas.Listing
import Verif.Spec.NoCrash

/- Calls that do not kill the process. -/
namespace Verif
open Spec PwFunc

theorem readLoop_eof {fuel size : Nat} {s : IStream} {acc : List Byte} (he : s.eof = true) :
    ∃ s', readLoop (fuel + 1) s acc size = .ok (if acc.length = size then some acc else none, s') ∧ s'.eof = true := by
  have hr : s.readsome (size - acc.length) = ([], s) := by simp [IStream.readsome, he]
  simp only [readLoop, hr, List.append_nil]
  by_cases h : acc.length = size
  · exact ⟨s, by simp [h], he⟩
  · exact ⟨s, by simp [h, he], he⟩

theorem readData_eof {s : IStream} {b : Bytes} {size : Nat} (he : s.eof = true) :
    ∃ s', readData s b size = .ok (if size % 2 ^ 32 = 0 then some b else none, s') ∧ s'.eof = true := by
  obtain ⟨s', h1, h2⟩ := readLoop_eof (fuel := size % 2 ^ 32 + 1) (size := size % 2 ^ 32) (acc := []) he
  unfold readData
  dsimp only
  by_cases h0 : size % 2 ^ 32 = 0
  · refine ⟨s', ?_, h2⟩
    rw [if_neg (by omega), h1, Res.bind_ok, if_pos (by simp [h0]), if_pos h0]
    simp only [List.append_nil]
    rfl
  · split
    · exact ⟨s, rfl, he⟩
    · refine ⟨s', ?_, h2⟩
      rw [h1, Res.bind_ok]
      have : ¬ ([] : List Byte).length = size % 2 ^ 32 := by simp; omega
      simp only [this, if_false]
      rfl

theorem readData_total (s : IStream) (b : Bytes) (size : Nat) : ∃ r s', readData s b size = .ok (r, s') := by
  cases he : s.eof with
  | true =>
    obtain ⟨s', h, -⟩ := readData_eof (b := b) (size := size) he
    exact ⟨_, _, h⟩
  | false =>
    have hm : readData s b size = readData s b (size % 2 ^ 32) := by simp only [readData, Nat.mod_mod]
    obtain ⟨s', h⟩ := readData_spec s b (size % 2 ^ 32) he (Nat.mod_lt _ (by omega))
    rw [hm]
    split at h
    · exact ⟨_, _, h.1⟩
    · split at h
      · exact ⟨_, _, h.1⟩
      · exact ⟨_, _, h.1⟩

/-- a stream that was not opened -/
theorem cryptStream_eof {dir : Dir} {H : HashFn} {pw salt : Bytes} {s : IStream} {len : Nat}
    (h1 : pw.data.length = H.size) (h2 : salt.data.length = H.size) (hl : len < 2 ^ 31) (he : s.eof = true) :
    cryptStream dir H pw salt s len = if len = 0 then .ok (cryptOut dir H pw.data salt.data []) else .exn .runtimeError := by
  obtain ⟨c, hc, rc⟩ := fresh_new h1 h2
  obtain ⟨c1, hc1, r1⟩ := start_fresh (dir := dir) rc len
  rw [cryptStream, hc, Res.bind_ok, Chain.addStream, hc1, Res.bind_ok]
  have hpos := H.pos
  have hsm := H.small
  have hp := r1.p_le
  rw [show len + 2 = (len + 1) + 1 by rfl, Chain.streamLoop, r1.free, minInt_small (by omega)]
  generalize hk : min (H.size - (ASt.init H pw.data salt.data).p.length) (len - 0) = k
  have hnew : Bytes.new (k : Int) = .ok ⟨[], k⟩ := by
    rw [Bytes.new, if_neg (by omega)]; simp
  rw [hnew, Res.bind_ok]
  obtain ⟨s', h3, h4⟩ := readData_eof (s := s) (b := ⟨[], k⟩) (size := k) he
  have hp0 : (ASt.init H pw.data salt.data).p.length = 0 := rfl
  by_cases h0 : len = 0
  · rw [if_pos h0]
    subst h0
    have hk0 : k = 0 := by omega
    rw [if_pos (by subst hk0; rfl)] at h3
    subst hk0
    rw [h3, Res.bind_ok]
    obtain ⟨c2, hc2, r2⟩ := r1.curAdd ⟨[], 0⟩ (by simpa using hp) (by simp)
    simp only
    rw [hc2, Res.bind_ok]
    rw [if_neg (by simp [Bytes.len]), Res.bind_ok]
    dsimp only
    rw [getResult_eq r2]
    rw [cryptOut, ASt.feed.eq_def, dif_pos (by simpa using hp)]
    rfl
  · rw [if_neg (by rw [Nat.mod_eq_of_lt (by omega)]; omega)] at h3
    rw [h3, if_neg h0, Res.bind_ok, Res.bind_exn]

namespace Api
variable {hs : Hashes} {rest : Helper → Res Helper} {e : Env} {w w' : World} {fs : FS}

theorem harmless_len {c : List Byte} (h : Harmless c) : c.length < 2 ^ 63 := by
  rcases h with rfl | h
  · simp
  · exact h.1

theorem isValidPath_total (ht : ∀ p, Tame (fs p)) (p : Path) (b : Bool) : ∃ o, FileHandler.isValidPath e fs p b = .ok o := by
  have hp := ht p
  cases b with
  | true =>
    rw [isValidPath_true]
    split
    · exact ⟨_, rfl⟩
    split
    · exact ⟨_, rfl⟩
    split
    · exact ⟨_, rfl⟩
    · rename_i hx; rw [hx] at hp; exact hp.elim
    · split <;> exact ⟨_, rfl⟩
  | false =>
    rw [isValidPath_false]
    split
    · exact ⟨_, rfl⟩
    split
    · exact ⟨_, rfl⟩
    split
    · exact ⟨_, rfl⟩
    · rename_i hx; rw [hx] at hp; exact hp.elim
    · exact ⟨_, rfl⟩

theorem isValidPath_success {p : Path} (h : FileHandler.isValidPath e fs p true = .ok (.success ())) :
    e.canRead p = true ∧ ((∃ c, fs p = .file c) ∨ fs p = .dir) := by
  rw [isValidPath_true] at h
  split at h
  · cases h
  split at h
  · cases h
  cases hp : fs p with
  | missing => rw [hp] at h; cases h
  | unreachable => rw [hp] at h; cases h
  | file c =>
    rw [hp] at h
    simp only at h
    split at h
    · rename_i hc; exact ⟨hc, .inl ⟨c, rfl⟩⟩
    · cases h
  | dir =>
    rw [hp] at h
    simp only at h
    split at h
    · rename_i hc; exact ⟨hc, .inr rfl⟩
    · cases h

theorem getFileHandler_total (ht : ∀ p, Tame (fs p)) (p : Path) (i : Nat) : ∃ o, getFileHandler e fs p i = .ok o := by
  obtain ⟨o, ho⟩ := isValidPath_total (e := e) ht p true
  have key : ∀ x, (do
      match ← FileHandler.isValidPath e fs p true with
      | .success () => do
        match ← Res.attempt (FileHandler.new e fs p i) with
        | some f => .ok (.success f)
        | none => .ok (.fail .ERR_FILEHANDLER_CREATION)
      | .fail c => .ok (.fail c)
      | .timeout => .ok .timeout) = Res.ok x → getFileHandler e fs p i = .ok x := by
    intro x hx
    unfold getFileHandler
    rw [Res.noexcept_eq_ok]
    exact hx
  cases o with
  | fail c => exact ⟨_, key _ (by rw [ho]; rfl)⟩
  | timeout => exact ⟨_, key _ (by rw [ho]; rfl)⟩
  | success u =>
    obtain ⟨hr, hp⟩ := isValidPath_success ho
    have hn : FileHandler.new e fs p i = FileHandler.update e fs p i := by
      unfold FileHandler.new; rw [ho]; rfl
    have hu : (∃ f, FileHandler.update e fs p i = .ok f) ∨ ∃ x, x ≠ .pointer ∧ FileHandler.update e fs p i = .exn x := by
      rcases hp with ⟨c, hc⟩ | hd
      · have hl := ht p
        rw [hc] at hl
        have := harmless_len hl
        rcases update_file hc hr (by omega) i with ⟨n, -, h⟩ | ⟨-, x, hx, h⟩
        · exact .inl ⟨_, h⟩
        · exact .inr ⟨x, by rcases hx with rfl | rfl <;> simp, h⟩
      · rw [update_dir hd hr]
        split
        · exact .inl ⟨_, rfl⟩
        · exact .inr ⟨_, by simp, rfl⟩
    rcases hu with ⟨f, hf⟩ | ⟨x, hx, hf⟩
    · exact ⟨_, key (.success f) (by rw [ho, Res.bind_ok]; simp only; rw [hn, hf]; rfl)⟩
    · refine ⟨_, key (.fail .ERR_FILEHANDLER_CREATION) (by rw [ho, Res.bind_ok]; simp only; rw [hn, hf]; cases x <;> first | rfl | exact absurd rfl hx)⟩

/-- reading the header of a file found by the file handler -/
theorem getDataHeader_total (ht : ∀ p, Tame (fs p)) (hr : ∀ i, (e.rand i).good = true) {p : Path} {i j k : Nat} {f : FileHandler}
    (hf : getFileHandler e fs p i = .ok (.success f)) (hne : f.empty = false) :
    f.getDataSize < 2 ^ 31 ∧ ((∃ c, f.getDataHeader hs e fs j (e.rand k) = .ok (.fail c)) ∨
      ∃ h : Header, h.Valid ∧ f.getDataHeader hs e fs j (e.rand k) = .ok (.success (HeaderParse.mkHeader h))) := by
  obtain ⟨rfl, -, hcr, hu, ⟨c, hc⟩ | hd⟩ := getFileHandler_success hf
  · have hl := ht f.path
    rw [hc] at hl
    have hlen := harmless_len hl
    rcases update_file hc hcr (by omega) i with ⟨n, hpl, h⟩ | ⟨-, x, hx, h⟩
    · rw [hu] at h
      injection h with h
      rcases hl with rfl | ⟨-, hl⟩
      · rw [h] at hne; cases hne
      obtain ⟨l1, l2, l3, l4⟩ := hl n hpl
      refine ⟨by rw [h]; exact l1, ?_⟩
      have ho : fs.openIn e f.path j = ⟨c, e.sched j, false, false⟩ := by simp [FS.openIn, hc, hcr]
      rcases setHeaderStream_cases (hs := hs) (hr k) (fs.openIn e f.path j) (by rw [ho]) with ⟨x, h⟩ | ⟨hh, s', hv, -, -, -, h⟩ | ⟨hz, -⟩ | ⟨hz, -⟩
      · refine .inl ⟨x, ?_⟩
        unfold FileHandler.getDataHeader
        rw [h]; rfl
      · refine .inr ⟨hh, hv, ?_⟩
        unfold FileHandler.getDataHeader
        rw [h]; rfl
      · rw [ho] at hz; exact absurd hz l2
      · rw [ho] at hz
        rcases hz with hz | hz
        · exact absurd hz l3
        · exact absurd hz l4
    · rw [hu] at h; cases h
  · rw [update_dir hd hcr] at hu
    split at hu
    · injection hu with hu; rw [← hu] at hne; cases hne
    · cases hu

theorem isDataHeader_total (ht : ∀ p, Tame (fs p)) (hr : ∀ i, (e.rand i).good = true) {p : Path} {i j k : Nat} {f : FileHandler}
    (hf : getFileHandler e fs p i = .ok (.success f)) (hne : f.empty = false) (mode : Byte) :
    ∃ o, f.isDataHeader hs e fs mode j (e.rand k) = .ok o := by
  rcases (getDataHeader_total (hs := hs) (j := j) (k := k) ht hr hf hne).2 with ⟨c, h⟩ | ⟨hd, hv, h⟩
  · unfold FileHandler.isDataHeader
    rw [h]; exact ⟨_, rfl⟩
  · have ok := mkHeader_ok hv
    obtain ⟨-, -, g3, -⟩ := complete_parts ok.inv ok.complete
    unfold FileHandler.isDataHeader
    rw [h, Res.bind_ok]
    simp only [DataHeader.getDataHeaderParts, ok.complete, Bool.not_true, Bool.false_eq_true, if_false, Res.bind_ok, g3,
      DataHeaderParts.get]
    split <;> exact ⟨_, rfl⟩

theorem scan_total (ht : ∀ p, Tame (fs p)) (hr : ∀ i, (e.rand i).good = true) (mode : Byte) (dir : Path) (l : List (List Byte)) :
    ∀ i ret, ∃ r, getRelevantFileNames.scan hs e fs mode dir l i ret = .ok r := by
  induction l with
  | nil => intro i ret; exact ⟨_, rfl⟩
  | cons n ns ih =>
    intro i ret
    obtain ⟨o, ho⟩ := getFileHandler_total (e := e) ht (Path.join dir n) (2 * i)
    rw [getRelevantFileNames.scan, ho, Res.bind_ok]
    cases o with
    | fail c => exact ih _ _
    | timeout => exact ih _ _
    | success f =>
      simp only
      cases he : f.isEmpty with
      | true =>
        simp only [if_true]
        exact ih _ _
      | false =>
        obtain ⟨o, h⟩ := isDataHeader_total (hs := hs) (j := 2 * i + 1) (k := i) ht hr ho he mode
        simp only [h, Bool.false_eq_true, if_false, Res.bind_ok]
        cases o <;> exact ih _ _

theorem pick_total (ht : ∀ p, Tame (fs p)) (dir : Path) (l : List (List Byte)) :
    ∃ r, getAllEncFileNames.pick fs dir l = .ok r := by
  induction l with
  | nil => exact ⟨_, rfl⟩
  | cons n ns ih =>
    obtain ⟨r, hr⟩ := ih
    have hn := ht (Path.join dir n)
    rw [getAllEncFileNames.pick]
    split
    · rename_i hx; rw [hx] at hn; exact hn.elim
    · rw [hr]; exact ⟨_, rfl⟩
    · exact ⟨_, hr⟩

theorem getRelevantFileNames_total (ht : ∀ p, Tame (fs p)) (hr : ∀ i, (e.rand i).good = true) (hl : ∀ p, e.canList p = true)
    (mode : Byte) {dir : Path} (hd : ∀ c, fs dir ≠ .file c) : ∃ o, getRelevantFileNames hs e fs mode dir = .ok o := by
  have hn := ht dir
  have ha : ∃ o, getAllEncFileNames e fs dir = .ok o := by
    unfold getAllEncFileNames
    split
    · exact ⟨_, rfl⟩
    · cases hx : fs dir with
      | missing => simp only [FS.existsAt, hx, Res.bind_ok]; exact ⟨_, rfl⟩
      | unreachable => rw [hx] at hn; exact hn.elim
      | file c => exact absurd hx (hd c)
      | dir =>
        obtain ⟨r, h⟩ := pick_total ht dir (e.list dir)
        refine ⟨.success r, ?_⟩
        simp [FS.existsAt, hx, Res.bind_ok, hl dir, h]
  obtain ⟨o, ho⟩ := ha
  unfold getRelevantFileNames
  rw [ho, Res.bind_ok]
  cases o with
  | fail c => exact ⟨_, rfl⟩
  | timeout => exact ⟨_, rfl⟩
  | success names =>
    obtain ⟨r, h⟩ := scan_total (hs := hs) ht hr mode dir names 0 []
    simp only
    rw [h, Res.bind_ok]
    exact ⟨_, rfl⟩

theorem createFile_total (ht : ∀ p, Tame (fs p)) (p : Path) : ∃ o fs', FileHandler.createFile e fs p = .ok (o, fs') := by
  obtain ⟨o, ho⟩ := isValidPath_total (e := e) ht p false
  unfold FileHandler.createFile
  rw [ho, Res.bind_ok]
  cases o with
  | fail c => exact ⟨_, _, rfl⟩
  | timeout => exact ⟨_, _, rfl⟩
  | success u =>
    simp only
    split <;> exact ⟨_, _, rfl⟩

theorem getWriteStream_total (ht : ∀ p, Tame (fs p)) (f : FileHandler) :
    ∃ o f' fs', f.getWriteStream e fs = .ok (o, f', fs') := by
  obtain ⟨o, ho⟩ := isValidPath_total (e := e) ht f.path true
  unfold FileHandler.getWriteStream
  simp only
  rw [ho, Res.bind_ok]
  cases o with
  | fail c => exact ⟨_, _, _, rfl⟩
  | timeout => exact ⟨_, _, _, rfl⟩
  | success u =>
    simp only
    split <;> exact ⟨_, _, _, rfl⟩

theorem selectFile_total (ht : ∀ p, Tame (w.fs p)) (hr : ∀ i, (e.rand i).good = true) (p : Path) :
    ∃ o w', selectFile hs e w p = .ok (o, w') := by
  obtain ⟨o, ho⟩ := getFileHandler_total (e := e) ht p 0
  unfold selectFile
  rw [ho, Res.bind_ok]
  cases o with
  | fail c => exact ⟨_, _, rfl⟩
  | timeout => exact ⟨_, _, rfl⟩
  | success f =>
    simp only
    cases he : f.isEmpty with
    | true => exact ⟨_, _, rfl⟩
    | false =>
      unfold selectNonEmptyFile
      rcases (getDataHeader_total (hs := hs) (j := 1) (k := 0) ht hr ho he).2 with ⟨c, h⟩ | ⟨hd, hv, h⟩ <;>
      · rw [h]; exact ⟨_, _, rfl⟩

theorem deleteSelected_total (ht : ∀ p, Tame (w.fs p)) (hr : ∀ p, e.canRemove p = true) {f : FileHandler}
    (hf : w.api.selected = some f) : ∃ o w', deleteSelected e w = .ok (o, w') := by
  have hp := ht f.path
  unfold deleteSelected
  simp only [hf, deref, Res.bind_ok]
  unfold FS.remove
  cases hx : w.fs f.path with
  | missing => exact ⟨_, _, rfl⟩
  | unreachable => rw [hx] at hp; exact hp.elim
  | file c => simp only [hr, if_true]; exact ⟨_, _, rfl⟩
  | dir => simp only [hr, if_true]; exact ⟨_, _, rfl⟩

theorem getFileContent_total {f : FileHandler} (hf : w.api.selected = some f) : ∃ o, getFileContent e w = .ok o := by
  unfold getFileContent
  simp only [hf, deref, Res.bind_ok]
  unfold FileHandler.getAllBytes
  split
  · exact ⟨_, rfl⟩
  · obtain ⟨r, s', h⟩ := readData_total (w.fs.openIn e f.path 0) (Bytes.empty (FileHandler.measure e w.fs f.path))
      (FileHandler.measure e w.fs f.path)
    simp only [h, Res.bind_ok]
    cases r <;> exact ⟨_, rfl⟩

/-- how a decryption from a stream can end -/
theorem decrypt_total {d : DataHeader} (hd : HeaderOk d) (hdh : w.api.dh = some d) {f : FileHandler} (hf : w.api.selected = some f)
    (hsz : f.getDataSize < 2 ^ 31) (hk : w.api.pwHash.data.length = d.hashSize) (hm1 : w.api.fileMode = 1) :
    ∃ o w', getDecryptedData hs e w = .ok (o, w') := by
  obtain ⟨m, hm, hms⟩ := hd.inv.hm
  obtain ⟨salt, hs1, hs2⟩ := hd.inv.salt
  have h1 : w.api.pwHash.data.length = (hs.get m).size := by rw [hk, hms, Hashes.get_size]
  have h2 : salt.data.length = (hs.get m).size := by rw [hs2, hms, Hashes.get_size]
  have key : (∃ x, cryptStream .dec (hs.get m) w.api.pwHash salt (f.getDataStream e w.fs 0) f.getDataSize = .ok x) ∨
      cryptStream .dec (hs.get m) w.api.pwHash salt (f.getDataStream e w.fs 0) f.getDataSize = .exn .runtimeError := by
    cases he : (f.getDataStream e w.fs 0).eof with
    | true =>
      rw [cryptStream_eof h1 h2 hsz he]
      split
      · exact .inl ⟨_, rfl⟩
      · exact .inr rfl
    | false =>
      by_cases hle : f.getDataSize ≤ (f.getDataStream e w.fs 0).rest.length
      · exact .inl ⟨_, cryptStream_eq h1 h2 hsz he hle⟩
      · exact .inr (cryptStream_short h1 h2 hsz he (by omega))
  have hdec : (∃ x, decryptTry hs e w = .ok x) ∨ decryptTry hs e w = .exn .runtimeError := by
    unfold decryptTry
    simp only [hdh, hf, deref, Res.bind_ok, DataHeader.getDataHeaderParts, hd.complete, Bool.not_true, Bool.false_eq_true,
      if_false, hm, hs1, DataHeaderParts.get]
    unfold cryptStream at key
    rcases key with ⟨x, h⟩ | h
    · left
      obtain ⟨c, hc, h⟩ := Res.bind_eq_ok.mp h
      obtain ⟨⟨c1, s1⟩, hc1, h⟩ := Res.bind_eq_ok.mp h
      obtain ⟨⟨r, c2⟩, hc2, h⟩ := Res.bind_eq_ok.mp h
      rw [hc, Res.bind_ok, hc1, Res.bind_ok]
      simp only
      rw [hc2, Res.bind_ok]
      have hv : fileModeValid w.api.fileMode = true := (fileModeValid_iff _).mpr hm1
      simp only [FileDataStruct.make, hv, if_true, Res.bind_ok]
      exact ⟨_, rfl⟩
    · right
      rcases Res.bind_eq_exn.mp h with h | ⟨c, hc, h⟩
      · rw [h]; rfl
      rcases Res.bind_eq_exn.mp h with h | ⟨⟨c1, s1⟩, hc1, h⟩
      · rw [hc, Res.bind_ok, h]; rfl
      rcases Res.bind_eq_exn.mp h with h | ⟨⟨r, c2⟩, hc2, h⟩
      · rw [hc, Res.bind_ok, hc1, Res.bind_ok]
        simp only
        rw [h]; rfl
      · cases h
  unfold getDecryptedData
  rcases hdec with ⟨⟨a, b⟩, h⟩ | h
  · rw [h]; exact ⟨_, _, rfl⟩
  · rw [h]; exact ⟨_, _, rfl⟩

theorem changeSalt_total {s : Session} {d : DataHeader} (hd : HeaderOk d) (hdh : s.dh = some d) (hr : ∀ i, (e.rand i).good = true) :
    ∃ o s', changeSalt e s = .ok (o, s') := by
  obtain ⟨m, hm, hms⟩ := hd.inv.hm
  obtain ⟨salt, hs1, hs2⟩ := hd.inv.salt
  have hsm : m.size ≤ 64 := by cases m <;> decide
  have hf := fillrandom_good salt.len (e.rand 0) (hr 0) (by rw [Bytes.len, hs2, hms]; omega)
  have hp : d.dh.setEncSalt ⟨(e.rand 0).take salt.len, salt.len⟩ = .ok { d.dh with encSalt := some ⟨(e.rand 0).take salt.len, salt.len⟩ } := by
    simp only [DataHeaderParts.setEncSalt, DataHeaderParts.getHashSize, DataHeaderParts.get, Res.bind_ok, hm, Bytes.len, Rand.length_take, hs2, hms, if_true]
  obtain ⟨m', -, -, -, -, v, -, hparts⟩ := changeSalt_parts (e := e) hd hs1 hf hp
  have hg := setHeaderParts_good hparts (hr 1)
  unfold changeSalt
  simp only [hdh, deref, Res.bind_ok, DataHeader.getDataHeaderParts, hd.complete, Bool.not_true, Bool.false_eq_true,
      if_false, hs1, DataHeaderParts.get, hf, hp]
  split at hg
  · obtain ⟨d', hg, -⟩ := hg
    rw [hg]; exact ⟨_, _, rfl⟩
  · rw [hg]; exact ⟨_, _, rfl⟩

theorem encryptData_total {s : Session} {d : DataHeader} (hd : HeaderOk d) (hdh : s.dh = some d) (hmode : s.fileMode = 1)
    (hk : s.pwHash.data.length = d.hashSize) {data : Bytes} (hdata : data.data.length < 2 ^ 31) (m : Option Byte) :
    ∃ o s', encryptData hs e s (some ⟨m, some data⟩) = .ok (o, s') := by
  obtain ⟨hm, h1, hms⟩ := hd.inv.hm
  obtain ⟨salt, hs1, hs2⟩ := hd.inv.salt
  cases m with
  | none => exact ⟨_, _, rfl⟩
  | some b =>
    by_cases hb : b = 1
    · subst hb
      obtain ⟨r, d', h, -⟩ := encryptData_ok (hs := hs) (e := e) hd hdh hmode h1 hs1 (by rw [hk, hms]) hdata
      exact ⟨_, _, h⟩
    · refine ⟨.fail .ERR_FILEMODE_INVALID, s, ?_⟩
      unfold encryptData
      simp [deref, Res.bind_ok, FileDataStruct.isComplete, FileDataStruct.getFileMode, DataHeaderParts.get, hmode, hb, Res.noexcept]

theorem create_total {ds : SettingsIters} (hb : BuiltSettings ds) (hc : ds.isComplete = true) (hr : ∀ i, (e.rand i).good = true)
    (pw : List Byte) (t : Nat) : ∃ x, createDataHeaderIters hs 1 pw ds t e = .ok x := by
  obtain ⟨hi, hbl⟩ := built_ok hb
  obtain ⟨hm, m1, m2, n1, n2, h⟩ := hi.are hc
  have := create_spec (hs := hs) h hbl hr pw t
  by_cases hl : Late e t n1.toNat n2.toNat
  · exact ⟨_, this.1 hl⟩
  · have := this.2 hl
    split at this
    · obtain ⟨d, h1, h, -⟩ := this; exact ⟨_, h⟩
    · obtain ⟨h1, h⟩ := this; exact ⟨_, h⟩

theorem writeToSelected_total (hi : SInv hs w.api) (hst : w.api.state = .ENCRYPTED) (ht : ∀ p, Tame (w.fs p)) {f : FileHandler}
    (hf : w.api.selected = some f) : ∃ o w', writeToSelected e w = .ok (o, w') := by
  obtain ⟨d, enc, h1, h2, -, h4⟩ := fullData_inv hi hst
  obtain ⟨o, f', fs', hg⟩ := getWriteStream_total (e := e) ht f
  unfold writeToSelected
  simp only [hf, deref, Res.bind_ok, hg]
  cases o with
  | fail c => exact ⟨_, _, rfl⟩
  | timeout => exact ⟨_, _, rfl⟩
  | success u =>
    simp only [finishWrite]
    rw [h4 { w.api with selected := some f' } h1 h2]
    exact ⟨_, _, rfl⟩

theorem writeToPath_total (hi : SInv hs w.api) (hst : w.api.state = .ENCRYPTED) (ht : ∀ p, Tame (w.fs p)) (p : Path) :
    ∃ o w', writeToPath e w p = .ok (o, w') := by
  obtain ⟨d, enc, h1, h2, -, h4⟩ := fullData_inv hi hst
  obtain ⟨o, ho⟩ := getFileHandler_total (e := e) ht p 0
  unfold writeToPath
  rw [ho, Res.bind_ok]
  cases o with
  | fail c => exact ⟨_, _, rfl⟩
  | timeout => exact ⟨_, _, rfl⟩
  | success f =>
    simp only [FileHandler.getWriteStreamIfEmpty]
    split
    · obtain ⟨o, f', fs', hg⟩ := getWriteStream_total (e := e) ht f
      rw [hg]
      simp only [Res.noexcept_ok, Res.bind_ok]
      cases o with
      | fail c => exact ⟨_, _, rfl⟩
      | timeout => exact ⟨_, _, rfl⟩
      | success u =>
        simp only [finishWrite]
        rw [h4 _ h1 h2]
        exact ⟨_, _, rfl⟩
    · exact ⟨_, _, rfl⟩

/-- the selected file is small -/
def SmallInv (s : Session) : Prop := ∀ f, s.selected = some f → f.getDataSize < 2 ^ 31

/-- **a careful call returns** -/
theorem call_total (hi : SInv hs w.api) (ht : ∀ p, Tame (w.fs p)) (hsm : SmallInv w.api) (he : Calm e) {c : Call}
    (hc : Careful c) (hl : ∀ dir, c = .getRelevantFileNames dir → ∀ x, w.fs dir ≠ .file x) :
    ∃ r w', call hs rest e w c = .ok (r, w') := by
  by_cases hw : w.api.state ∈ statesFor c
  case neg =>
    obtain ⟨r', hr, -⟩ := call_wrong hs rest e w c hw
    exact ⟨_, _, hr⟩
  obtain ⟨s, fs⟩ := w
  simp only at hi hw ht hsm hl
  have hmode : s.fileMode = 1 := by cases hi <;> rfl
  cases c with
  | getRelevantFileNames dir =>
    cases hi <;> simp [statesFor] at hw
    obtain ⟨o, h⟩ := getRelevantFileNames_total (hs := hs) ht he.rand he.list 1 (hl dir rfl)
    simp only [call, h]
    exact ⟨_, _, rfl⟩
  | createFile p =>
    cases hi <;> simp [statesFor] at hw
    obtain ⟨o, fs', h⟩ := createFile_total (e := e) ht p
    simp only [call, h]
    exact ⟨_, _, rfl⟩
  | selectFile p =>
    cases hi <;> simp [statesFor] at hw
    obtain ⟨o, w1, h⟩ := selectFile_total (hs := hs) (w := ⟨⟨.INIT, 1, none, Bytes.empty 0, none, none, none⟩, fs⟩) ht he.rand p
    simp only [call, h]
    exact ⟨_, _, rfl⟩
  | isFileEmpty => simp only [call]; split <;> exact ⟨_, _, rfl⟩
  | unselectFile => simp only [call]; split <;> exact ⟨_, _, rfl⟩
  | deleteFile =>
    cases hi <;> simp [statesFor] at hw
    · rename_i f _ _
      obtain ⟨o, w1, h⟩ := deleteSelected_total (e := e) (w := ⟨⟨.EMPTY_FILE_SELECTED, 1, none, Bytes.empty 0, none, none, some f⟩, fs⟩)
        ht he.remove rfl
      simp only [call, h]
      exact ⟨_, _, rfl⟩
    · rename_i hd f _ _ _
      obtain ⟨o, w1, h⟩ := deleteSelected_total (e := e)
        (w := ⟨⟨.FILE_SELECTED, 1, none, Bytes.empty 0, none, some (HeaderParse.mkHeader hd), some f⟩, fs⟩) ht he.remove rfl
      simp only [call, h]
      exact ⟨_, _, rfl⟩
  | getFileContent =>
    cases hi <;> simp [statesFor] at hw
    · exact ⟨_, _, rfl⟩
    · rename_i hd f _ _ _
      obtain ⟨o, h⟩ := getFileContent_total (e := e)
        (w := ⟨⟨.FILE_SELECTED, 1, none, Bytes.empty 0, none, some (HeaderParse.mkHeader hd), some f⟩, fs⟩) rfl
      simp only [call, h]
      exact ⟨_, _, rfl⟩
  | verifyPassword pw t =>
    cases hi <;> simp [statesFor] at hw
    rename_i hd f hv _ _
    obtain ⟨m, v, -, -, h1, h2⟩ := verify_spec (hs := hs) (e := e)
      (s := ⟨.FILE_SELECTED, 1, none, Bytes.empty 0, none, some (HeaderParse.mkHeader hd), some f⟩) (mkHeader_ok hv) rfl pw t
    simp only [call]
    by_cases hlate : VLate e t (HeaderParse.mkHeader hd).dh.ch1.desc.iters (HeaderParse.mkHeader hd).dh.ch2.desc.iters
    · rw [h1 hlate]; exact ⟨_, _, rfl⟩
    · obtain ⟨k, -, -, -, h⟩ := h2 hlate
      rw [h]
      split <;> exact ⟨_, _, rfl⟩
  | createDataHeader pw ds t =>
    simp only [call]
    cases hcomp : ds.isComplete with
    | false => exact ⟨_, _, rfl⟩
    | true =>
      obtain ⟨x, hx⟩ := create_total (hs := hs) hc.1 hcomp he.rand pw t
      cases hi <;> simp [statesFor] at hw
      · simp only [Bool.not_true, Bool.false_eq_true, if_false, hx, Res.bind_ok, headerForEmpty]
        cases x.err with
        | success d => exact ⟨_, _, rfl⟩
        | fail c => exact ⟨_, _, rfl⟩
        | timeout => exact ⟨_, _, rfl⟩
      · simp only [Bool.not_true, Bool.false_eq_true, if_false, hx, Res.bind_ok, headerForOpen]
        cases x.err with
        | success d => exact ⟨_, _, rfl⟩
        | fail c => exact ⟨_, _, rfl⟩
        | timeout => exact ⟨_, _, rfl⟩
  | createDataHeaderTime pw ds =>
    simp only [Careful] at hc
    simp only [call, hc]
    exact ⟨_, _, rfl⟩
  | changeSalt =>
    cases hi <;> simp [statesFor] at hw
    rename_i fd k d f hd _ _ _
    obtain ⟨o, s', h⟩ := changeSalt_total (e := e) (s := ⟨.DECRYPTED, 1, fd, k, none, some d, some f⟩) hd rfl he.rand
    simp only [call, h]
    exact ⟨_, _, rfl⟩
  | getDecryptedData =>
    cases hi <;> simp [statesFor] at hw
    rename_i hd f k hv _ _ hk
    obtain ⟨o, w1, h⟩ := decrypt_total (hs := hs) (e := e)
      (w := ⟨⟨.PASSWORD_VERIFIED, 1, none, k, none, some (HeaderParse.mkHeader hd), some f⟩, fs⟩) (mkHeader_ok hv) rfl rfl
      (hsm f rfl) hk.len rfl
    simp only [call, h]
    exact ⟨_, _, rfl⟩
  | getFileData => simp only [call]; split <;> exact ⟨_, _, rfl⟩
  | encryptData fd =>
    obtain ⟨m, data, rfl, hdata⟩ := hc
    cases hi <;> simp [statesFor] at hw
    rename_i fd k d f hd hk _ _
    obtain ⟨o, s', h⟩ := encryptData_total (hs := hs) (e := e) (s := ⟨.DECRYPTED, 1, fd, k, none, some d, some f⟩) hd rfl rfl
      hk.len hdata m
    simp only [call, h]
    exact ⟨_, _, rfl⟩
  | writeToFile =>
    have hst : s.state = .ENCRYPTED := by simpa [statesFor] using hw
    have hsel : ∃ f, s.selected = some f := by
      cases hi <;> simp at hst
      exact ⟨_, rfl⟩
    obtain ⟨f, hf⟩ := hsel
    obtain ⟨o, w1, h⟩ := writeToSelected_total (hs := hs) (e := e) (w := ⟨s, fs⟩) hi hst ht hf
    simp only [call, hst, h]
    exact ⟨_, _, rfl⟩
  | writeToFileAt p =>
    have hst : s.state = .ENCRYPTED := by simpa [statesFor] using hw
    obtain ⟨o, w1, h⟩ := writeToPath_total (hs := hs) (e := e) (w := ⟨s, fs⟩) hi hst ht p
    simp only [call, hst, h]
    exact ⟨_, _, rfl⟩
  | logout => exact ⟨_, _, rfl⟩
  | logoutMode m => exact ⟨_, _, rfl⟩

theorem SmallInv.same {s s' : Session} (h : SmallInv s) (hs' : s'.selected = s.selected) : SmallInv s' := by
  intro f hf; exact h f (by rw [← hs']; exact hf)

theorem SmallInv.none {s : Session} (h : s.selected = none) : SmallInv s := by
  intro f hf; rw [h] at hf; cases hf

theorem empty_small {p : Path} {i : Nat} {f : FileHandler} (h : getFileHandler e fs p i = .ok (.success f)) (he : f.empty = true) :
    f.getDataSize < 2 ^ 31 := by
  obtain ⟨rfl, -, -, hu, -⟩ := getFileHandler_success h
  unfold FileHandler.update at hu
  obtain ⟨x, -, hu⟩ := Res.bind_eq_ok.mp hu
  split at hu
  · cases hu
  split at hu
  · cases hu
  · injection hu with hu
    rw [← hu] at he
    simp only [beq_iff_eq] at he
    rw [← hu]
    simp only [FileHandler.getDataSize, he]
    omega

/-- calls keep the selected file small -/
theorem call_small (hi : SInv hs w.api) (ht : ∀ p, Tame (w.fs p)) (hr : ∀ i, (e.rand i).good = true) (hsm : SmallInv w.api)
    {c : Call} {r : Ret} (h : call hs rest e w c = .ok (r, w')) : SmallInv w'.api := by
  by_cases hw : w.api.state ∈ statesFor c
  case neg =>
    obtain ⟨r', hr, -⟩ := call_wrong hs rest e w c hw
    rw [hr] at h; cases h
    exact hsm
  cases c with
  | getRelevantFileNames dir =>
    simp only [call] at h
    split at h
    · obtain ⟨o, -, h⟩ := Res.bind_eq_ok.mp h
      cases h; exact hsm
    · cases h; exact hsm
  | createFile p =>
    simp only [call] at h
    split at h
    · obtain ⟨⟨o, fs⟩, hc, h⟩ := Res.bind_eq_ok.mp h
      simp only [Res.ok.injEq, Prod.mk.injEq] at h
      obtain ⟨-, rfl⟩ := h
      exact hsm
    · cases h; exact hsm
  | selectFile p =>
    simp only [call] at h
    split at h
    · obtain ⟨⟨o, w1⟩, hc, h⟩ := Res.bind_eq_ok.mp h
      cases h
      rcases selectFile_cases hc with ⟨-, rfl⟩ | ⟨-, f, hf, ⟨he, rfl⟩ | ⟨he, d, hd, rfl⟩⟩
      · exact hsm
      · intro f' hf'
        simp only [selectEmptyFile, Option.some.injEq] at hf'
        subst hf'
        exact empty_small hf he
      · intro f' hf'
        simp only [Option.some.injEq] at hf'
        subst hf'
        exact (getDataHeader_total (hs := hs) (j := 1) (k := 0) ht hr hf he).1
    · cases h; exact hsm
  | isFileEmpty =>
    simp only [call] at h
    split at h <;> cases h <;> exact hsm
  | unselectFile =>
    simp only [call] at h
    split at h <;> cases h
    · exact .none rfl
    · exact .none rfl
    · exact hsm
  | deleteFile =>
    simp only [call] at h
    split at h
    · obtain ⟨⟨o, w1⟩, hc, h⟩ := Res.bind_eq_ok.mp h
      cases h
      rcases deleteSelected_cases hc with ⟨rfl, -⟩ | ⟨-, f, hf, hfs, ha, -⟩
      · exact hsm
      · rw [ha]; exact .none rfl
    · obtain ⟨⟨o, w1⟩, hc, h⟩ := Res.bind_eq_ok.mp h
      cases h
      rcases deleteSelected_cases hc with ⟨rfl, -⟩ | ⟨-, f, hf, hfs, ha, -⟩
      · exact hsm
      · rw [ha]; exact .none rfl
    · cases h; exact hsm
  | getFileContent =>
    simp only [call] at h
    split at h
    · obtain ⟨o, -, h⟩ := Res.bind_eq_ok.mp h
      cases h; exact hsm
    all_goals cases h; exact hsm
  | verifyPassword pw t =>
    simp only [call] at h
    split at h
    · obtain ⟨⟨o, s⟩, hc, h⟩ := Res.bind_eq_ok.mp h
      cases h
      rcases verifyPassword_cases hc with ⟨-, rfl⟩ | ⟨-, d, m, h1, v, v', hdh, -, hm, p1, p2, hv', hb, rfl⟩
      · exact hsm
      · exact hsm.same rfl
    · cases h; exact hsm
  | createDataHeader pw ds t =>
    rcases createHeader_call h with ⟨-, rfl⟩ | ⟨-, -, x, d, -, -, ⟨h1, h2⟩ | ⟨h1, h2⟩⟩
    · exact hsm
    · rw [h2]; exact hsm.same rfl
    · rw [h2]; exact hsm.same rfl
  | createDataHeaderTime pw ds =>
    simp only [call] at h
    split at h
    · cases h; exact hsm
    split at h
    · obtain ⟨x, -, h⟩ := Res.bind_eq_ok.mp h
      obtain ⟨⟨o, s⟩, hc, h⟩ := Res.bind_eq_ok.mp h
      cases h
      rcases headerForEmpty_cases hc with ⟨-, rfl⟩ | ⟨-, -, d, hxe, rfl⟩
      · exact hsm
      · exact hsm.same rfl
    · obtain ⟨x, -, h⟩ := Res.bind_eq_ok.mp h
      obtain ⟨⟨o, s⟩, hc, h⟩ := Res.bind_eq_ok.mp h
      cases h
      rcases headerForOpen_cases hc with ⟨-, rfl⟩ | ⟨-, d, -, rfl⟩
      · exact hsm
      · exact hsm.same rfl
    · cases h; exact hsm
  | changeSalt =>
    simp only [call] at h
    split at h
    · obtain ⟨⟨o, s⟩, hc, h⟩ := Res.bind_eq_ok.mp h
      cases h
      rcases changeSalt_cases hc with ⟨-, rfl⟩ | ⟨-, d, old, b, p, d', -, -, -, -, -, -, rfl⟩
      · exact hsm
      · exact hsm.same rfl
    · cases h; exact hsm
  | getDecryptedData =>
    simp only [call] at h
    split at h
    · obtain ⟨⟨o, s⟩, hc, h⟩ := Res.bind_eq_ok.mp h
      cases h
      rcases getDecryptedData_cases hc with ⟨-, rfl⟩ | ⟨r, d, f, m, salt, -, -, -, -, -, -, -, -, rfl⟩
      · exact hsm
      · exact hsm.same rfl
    · cases h; exact hsm
  | getFileData =>
    simp only [call] at h
    split at h
    · cases h
      unfold getFileData
      split <;> exact hsm.same rfl
    · cases h; exact hsm
  | encryptData fd =>
    simp only [call] at h
    split at h
    · obtain ⟨⟨o, s⟩, hc, h⟩ := Res.bind_eq_ok.mp h
      cases h
      obtain ⟨x, -, hx⟩ := encryptData_cases hc
      rcases hx with ⟨-, rfl | ⟨d, data, -, -, rfl⟩⟩ | ⟨-, -, d, data, r, -, -, -, rfl⟩ <;> exact hsm.same rfl
    · cases h; exact hsm
  | writeToFile =>
    simp only [call] at h
    split at h
    · obtain ⟨⟨o, w1⟩, hc, h⟩ := Res.bind_eq_ok.mp h
      cases h
      obtain ⟨f, hf, hx⟩ := writeToSelected_cases hc
      have : FileHandler.getDataSize { f with headerSize := 0, fileSize := 0 } < 2 ^ 31 := by
        simp [FileHandler.getDataSize]
      rcases hx with ⟨-, hfs, ha⟩ | ⟨-, -, -, -, -, b, -, ha, hfs⟩ <;>
      · intro f' hf'
        rw [ha] at hf'
        simp only [Option.some.injEq] at hf'
        subst hf'
        exact this
    · cases h; exact hsm
  | writeToFileAt p =>
    simp only [call] at h
    split at h
    · obtain ⟨⟨o, w1⟩, hc, h⟩ := Res.bind_eq_ok.mp h
      cases h
      rcases writeToPath_cases hc with ⟨-, rfl⟩ | ⟨-, -, -, -, -, b, -, ha, hfs⟩
      · exact hsm
      · rw [ha]; exact hsm.same rfl
    · cases h; exact hsm
  | logout => cases h; exact .none rfl
  | logoutMode m => cases h; exact .none rfl

/-- what a call does to the disk -/
theorem call_disk (hi : SInv hs w.api) {c : Call} {r : Ret} (h : call hs rest e w c = .ok (r, w')) :
    w'.fs = w.fs ∨ ∃ p n, EncPath p ∧ w'.fs = w.fs.set p n ∧ (n = .missing ∨ n = .file [] ∨
      (w.api.state = .ENCRYPTED ∧ ∃ b k, fullData w.api = .ok b ∧ n = .file (b.data.take k))) := by
  have hsel : ∀ f, w.api.selected = some f → EncPath f.path := by
    intro f hf
    generalize w.api = s at *
    cases hi <;> simp at hf
    all_goals subst hf; assumption
  have frame : (∀ q, ¬ mayTouch w.api q (.call c e)) → w'.fs = w.fs := by
    intro hq
    funext q
    exact (call_frame h).1 q (hq q)
  cases c with
  | createFile p =>
    simp only [call] at h
    split at h
    · obtain ⟨⟨o, fs⟩, hc, h⟩ := Res.bind_eq_ok.mp h
      simp only [Res.ok.injEq, Prod.mk.injEq] at h
      obtain ⟨-, rfl⟩ := h
      rcases createFile_cases hc with ⟨rfl, -⟩ | ⟨-, hp, -, -, rfl⟩
      · exact .inl rfl
      · exact .inr ⟨p, _, hp, rfl, .inr (.inl rfl)⟩
    · cases h; exact .inl rfl
  | deleteFile =>
    simp only [call] at h
    split at h
    · obtain ⟨⟨o, w1⟩, hc, h⟩ := Res.bind_eq_ok.mp h
      cases h
      rcases deleteSelected_cases hc with ⟨rfl, -⟩ | ⟨-, f, hf, hfs, ha, -⟩
      · exact .inl rfl
      · exact .inr ⟨f.path, _, hsel f hf, hfs, .inl rfl⟩
    · obtain ⟨⟨o, w1⟩, hc, h⟩ := Res.bind_eq_ok.mp h
      cases h
      rcases deleteSelected_cases hc with ⟨rfl, -⟩ | ⟨-, f, hf, hfs, ha, -⟩
      · exact .inl rfl
      · exact .inr ⟨f.path, _, hsel f hf, hfs, .inl rfl⟩
    · cases h; exact .inl rfl
  | writeToFile =>
    simp only [call] at h
    split at h
    · rename_i hst
      obtain ⟨⟨o, w1⟩, hc, h⟩ := Res.bind_eq_ok.mp h
      cases h
      obtain ⟨f, hf, hx⟩ := writeToSelected_cases hc
      rcases hx with ⟨-, hfs, ha⟩ | ⟨-, hp, -, -, -, b, hb, ha, hfs⟩
      · exact .inl hfs
      · exact .inr ⟨f.path, _, hp, hfs, .inr (.inr ⟨hst, b, e.stored, hb, rfl⟩)⟩
    · cases h; exact .inl rfl
  | writeToFileAt p =>
    simp only [call] at h
    split at h
    · rename_i hst
      obtain ⟨⟨o, w1⟩, hc, h⟩ := Res.bind_eq_ok.mp h
      cases h
      rcases writeToPath_cases hc with ⟨-, rfl⟩ | ⟨-, hp, -, -, -, b, hb, ha, hfs⟩
      · exact .inl rfl
      · exact .inr ⟨p, _, hp, hfs, .inr (.inr ⟨hst, b, e.stored, hb, rfl⟩)⟩
    · cases h; exact .inl rfl
  | _ => exact .inl (frame fun q hq => hq)

/-- a file with a valid header can be read without harm, and so can every first part of it -/
theorem harmless_take {h : Header} (hv : h.Valid) (data : List Byte) (hsz : h.fileSize = h.length + data.length)
    (hd : data.length < 2 ^ 31) (hl : h.length < 2 ^ 32) (k : Nat) : Harmless ((h.bytes ++ data).take k) := by
  have hbl : h.bytes.length = h.length := by
    have := HeaderParse.valid_length hv
    have h8 : ∀ k, (num8 k).length = 8 := fun _ => rfl
    simp only [Header.bytes, List.length_append, h8]
    omega
  have hlen : (h.bytes ++ data).length = h.length + data.length := by simp [hbl]
  have h64 : (h.bytes ++ data).length < 2 ^ 64 := by omega
  by_cases hk0 : k = 0
  · left; simp [hk0]
  by_cases hk : k < (h.bytes ++ data).length
  · right
    refine ⟨by rw [List.length_take]; omega, fun n hn => ?_⟩
    exact absurd ⟨n, hn⟩ (torn_not_plausible (size := h.fileSize) (rest := num8 h.length ++ h.content ++ data)
      (by simp [Header.bytes]) (by rw [hsz, hlen]) h64 (by omega) hk)
  · rw [List.take_of_length_le (by omega)]
    right
    refine ⟨by omega, fun n hn => ?_⟩
    have hn' := plausible_unique h64 hn (plausible_header hv data hsz)
    have hp := HeaderParse.rdHeader_append (hs := toyHashes) (r := ⟨true, fun _ => 0⟩) rfl hv data hsz
    refine ⟨by rw [hlen, hn']; omega, fun hz => ?_, fun hz => ?_, fun hz => ?_⟩
    · rw [HeaderParse.rdHeader_zero rfl h64 hz] at hp; cases hp
    · rw [HeaderParse.rdHeader_chain rfl h64 hz] at hp; cases hp
    · rw [HeaderParse.rdHeader_size rfl h64 hz] at hp; cases hp

/-- everything a session has under control -/
structure Sound (hs : Hashes) (w : World) : Prop where
  inv : SInv hs w.api
  blocks : BlockInv w.api
  enc : ∃ data, EncInv hs data w.api ∧ ∀ x, data = some x → x.length < 2 ^ 31
  small : SmallInv w.api
  tame : ∀ p, Tame (w.fs p)

theorem Sound.written (hw : Sound hs w) (hst : w.api.state = .ENCRYPTED) {b : Bytes} (hb : fullData w.api = .ok b) (k : Nat) :
    Harmless (b.data.take k) := by
  obtain ⟨d, enc, h1, h2, h3, h4⟩ := fullData_inv hw.inv hst
  obtain ⟨data, he, hx⟩ := hw.enc
  obtain ⟨x, d', m, enc', rfl, g1, -, g2, g3⟩ := he hst
  rw [h1] at g1; cases g1
  rw [h2] at g2; cases g2
  have hxl := hx x rfl
  obtain ⟨g3, g4⟩ := g3 hxl
  rw [h4 _ h1 h2] at hb
  cases hb
  have hl := HeaderOk.length_le h3
  have hel : enc.data.length = x.length := by rw [g3, cryptOut_length]
  have hs : d.contents = saved d x.length := by
    show d.contents = { d.contents with fileSize := d.contents.length + x.length }
    rw [← g4]
  have hv := saved_valid h3 (n := x.length) (by
    intro b hb
    simp only [DataHeader.contents, List.mem_map] at hb
    obtain ⟨b', hb', rfl⟩ := hb
    exact hw.blocks d h1 b' hb') hxl
  rw [← hs] at hv
  exact harmless_take hv enc.data (by rw [g4, hel]) (by omega) (by omega) k

theorem Sound.call (hw : Sound hs w) (he : Calm e) {c : Call} (hc : Careful c) {r : Ret}
    (h : Api.call hs rest e w c = .ok (r, w')) : Sound hs w' := by
  have hok : CallOk c := by
    cases c <;> try exact trivial
    exact built_ok hc.1
  obtain ⟨data, hd, hx⟩ := hw.enc
  refine ⟨call_sinv hw.inv hok h, call_blocks hw.inv hw.blocks hok ?_ h, ⟨nextData data (.call c e) (some r), call_data hw.inv hd h, ?_⟩,
    call_small hw.inv hw.tame he.rand hw.small h, ?_⟩
  · rintro pw ds t rfl
    exact hc.2
  · intro x hxx
    unfold nextData at hxx
    split at hxx
    · rename_i y hy
      cases hxx
      unfold givenData at hy
      split at hy
      · rename_i heq _
        cases heq
        obtain ⟨m, data, heq, hl⟩ := hc
        cases heq; cases hy
        exact hl
      · cases hy
    · exact hx x hxx
  · intro q
    rcases call_disk hw.inv h with h | ⟨p, n, -, h, hn⟩
    · rw [h]; exact hw.tame q
    · rw [h]
      unfold FS.set
      split
      · rcases hn with rfl | rfl | ⟨hst, b, k, hb, rfl⟩
        · trivial
        · exact .inl rfl
        · exact hw.written hst hb k
      · exact hw.tame q

/-- **a session survives everything bearable** -/
theorem run_total {evs : List Event} : ∀ {w : World}, Sound hs w → (∀ ev ∈ evs, Bearable ev) → ListsDirs w.fs evs →
    ∃ rs w', Api.run hs rest w evs = .ok (rs, w') ∧ Sound hs w' := by
  induction evs with
  | nil => intro w hw _ _; exact ⟨[], w, rfl, hw⟩
  | cons ev evs ih =>
    intro w hw hb hl
    have hbe := hb ev (by simp)
    have hb' : ∀ ev ∈ evs, Bearable ev := fun ev h => hb ev (by simp [h])
    cases ev with
    | outside p n =>
      have hl' : ListsDirs (w.fs.set p n) evs := by
        intro dir e hm
        obtain ⟨h1, h2, h3⟩ := hl dir e (by simp [hm])
        refine ⟨h1, fun c hc => ?_, fun c hc => h3 c (by simp [hc])⟩
        unfold FS.set at hc
        split at hc
        · rename_i hp
          exact h3 c (by simp [hp, hc])
        · exact h2 c hc
      have hw' : Sound hs ⟨w.api, w.fs.set p n⟩ := by
        refine ⟨hw.inv, hw.blocks, hw.enc, hw.small, fun q => ?_⟩
        simp only [FS.set]
        split
        · exact hbe
        · exact hw.tame q
      obtain ⟨rs, w', h, hs'⟩ := ih hw' hb' hl'
      refine ⟨none :: rs, w', ?_, hs'⟩
      simp only [run, step, Res.bind_ok]
      rw [h]; rfl
    | call c e =>
      obtain ⟨he, hc⟩ := hbe
      obtain ⟨r, w1, h1⟩ := call_total (hs := hs) (rest := rest) hw.inv hw.tame hw.small he hc
        (fun dir hd => (hl dir e (by simp [hd])).2.1)
      have hl' : ListsDirs w1.fs evs := by
        intro dir e' hm
        obtain ⟨g1, g2, g3⟩ := hl dir e' (by simp [hm])
        refine ⟨g1, fun c' hc' => ?_, fun c hc => g3 c (by simp [hc])⟩
        rcases call_disk hw.inv h1 with h | ⟨p, n, hp, h, -⟩
        · rw [h] at hc'; exact g2 c' hc'
        · rw [h] at hc'
          unfold FS.set at hc'
          split at hc'
          · rename_i heq
            exact g1 (by rw [heq]; exact hp)
          · exact g2 c' hc'
      obtain ⟨rs, w', h, hs'⟩ := ih (hw.call he hc h1) hb' hl'
      exact ⟨_, w', call_step h1 h, hs'⟩

end Api
end Verif
