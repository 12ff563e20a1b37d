import Verif.Lemmas.Verify
import Verif.Lemmas.Crypt

/- Saving and opening again. -/
namespace Verif.Api
open Spec PwFunc
variable {hs : Hashes} {rest : Helper → Res Helper} {e : Env} {w w' : World}

theorem call_step {c : Call} {r : Ret} (h : call hs rest e w c = .ok (r, w')) {evs : List Event} {rs : List (Option Ret)}
    {w2 : World} (h2 : run hs rest w' evs = .ok (rs, w2)) :
    run hs rest w (.call c e :: evs) = .ok (some r :: rs, w2) := by
  simp only [run, step, h, Res.bind_ok, h2]

/-! ### what is written -/

theorem HeaderOk.length_le {d : DataHeader} (hd : HeaderOk d) : d.contents.length ≤ 200000 := by
  obtain ⟨g1, g2, -⟩ := complete_parts hd.inv hd.complete
  exact (headerLength_good hd.inv g1 g2).2

theorem fullData_eq {s : Session} {d : DataHeader} {enc : Bytes} (hd : HeaderOk d) (h1 : s.dh = some d)
    (h2 : s.encrypted = some enc) (hb : d.headerBytes = ⟨d.contents.bytes, d.contents.length⟩) :
    fullData s = .ok ⟨d.contents.bytes ++ enc.data, d.contents.bytes.length + enc.len⟩ := by
  obtain ⟨g1, g2, -⟩ := complete_parts hd.inv hd.complete
  have hg := (headerLength_good hd.inv g1 g2).1
  have hl := contents_lengths hd.inv hd.complete
  have h0 : d.contents.length ≠ 0 := by unfold Header.length; omega
  have hb' : d.getHeaderBytes = .ok ⟨d.contents.bytes, d.contents.length⟩ := by
    simp only [DataHeader.getHeaderBytes, hg, Res.bind_ok, hb, Bytes.len, hl, ne_eq, not_true, if_false, h0]
  simp only [fullData, h1, h2, deref, Res.bind_ok, hb', Bytes.empty]
  rw [Bytes.addcopy_room _ _ _ (by simp [Bytes.len]), Res.bind_ok, Bytes.addcopy_room _ _ _ (by simp [Bytes.len])]
  rfl

theorem EncPath.ne_nil {p : Path} (hp : EncPath p) : p ≠ [] := by
  rintro h0
  obtain ⟨dir, stem, h, -⟩ := hp
  rw [h0] at h
  simp at h

theorem validPath_ok {fs : FS} {p : Path} {c : List Byte} (hp : EncPath p) (hf : fs p = .file c)
    (hr : e.canRead p = true) : FileHandler.isValidPath e fs p true = .ok (.success ()) := by
  rw [isValidPath_true, if_neg (EncPath.ne_nil hp), if_neg (Decidable.not_not.mpr ((extension_iff _).mpr hp)), hf]
  simp only [hr, if_true]

theorem createFile_ok {fs : FS} {p : Path} (hp : EncPath p) (hf : fs p = .missing) (hc : e.canCreate p = true) :
    FileHandler.createFile e fs p = .ok (.success (), fs.set p (.file [])) := by
  have hv : FileHandler.isValidPath e fs p false = .ok (.success ()) := by
    rw [isValidPath_false, if_neg (EncPath.ne_nil hp), if_neg (Decidable.not_not.mpr ((extension_iff _).mpr hp)), hf]
  simp only [FileHandler.createFile, hv, Res.bind_ok, FS.openOut, hf, hc, if_true, Res.noexcept_ok]

/-- saving to the selected file -/
theorem writeToSelected_ok {d : DataHeader} {enc : Bytes} {f : FileHandler} {c : List Byte} (hd : HeaderOk d)
    (h1 : w.api.dh = some d) (h2 : w.api.encrypted = some enc)
    (hb : d.headerBytes = ⟨d.contents.bytes, d.contents.length⟩) (h3 : w.api.selected = some f) (hp : EncPath f.path)
    (hf : w.fs f.path = .file c) (hr : e.canRead f.path = true) (hw : e.canWrite f.path = true) :
    writeToSelected e w = .ok (.success (), ⟨{ w.api with
        encrypted := none, state := .FINISHED, selected := some { f with headerSize := 0, fileSize := 0 } },
      w.fs.set f.path (.file ((d.contents.bytes ++ enc.data).take e.stored))⟩) := by
  have hv := validPath_ok hp hf hr
  have ho : w.fs.openOut e f.path = some (w.fs.set f.path (.file [])) := by
    simp only [FS.openOut, hf, hw, if_true]
  have hg : f.getWriteStream e w.fs =
      .ok (.success (), { f with headerSize := 0, fileSize := 0 }, w.fs.set f.path (.file [])) := by
    simp only [FileHandler.getWriteStream, hv, Res.bind_ok, ho, Res.noexcept_ok]
  have hfd := fullData_eq (s := { w.api with selected := some { f with headerSize := 0, fileSize := 0 } }) hd h1 h2 hb
  simp only [writeToSelected, h3, deref, Res.bind_ok, hg, finishWrite, hfd, Res.noexcept_ok, set_set]

/-! ### encrypting -/

theorem encryptWith_ok {s : Session} {d : DataHeader} (hc : d.isComplete = true) {m : HMode} {salt : Bytes}
    (hm : d.dh.hashMode = some m) (hsalt : d.dh.encSalt = some salt) (hk : s.pwHash.data.length = m.size)
    (hl : salt.data.length = m.size) {data : Bytes} (hdata : data.data.length < 2 ^ 31) :
    ∃ r, encryptWith hs s d data = .ok r ∧ r.data = cryptOut .enc (hs.get m) s.pwHash.data salt.data data.data := by
  have hsz := Hashes.get_size hs m
  obtain ⟨c, hc1, rc⟩ := fresh_new (H := hs.get m) (pw := s.pwHash) (salt := salt) (by rw [hk, hsz]) (by rw [hl, hsz])
  obtain ⟨c2, hc2, r2⟩ := addData_fresh (dir := .enc) data hdata rc
  have hp : d.getDataHeaderParts = .ok d.dh := by
    unfold DataHeader.getDataHeaderParts
    simp [hc]
  refine ⟨⟨cryptOut .enc (hs.get m) s.pwHash.data salt.data data.data,
    (cryptOut .enc (hs.get m) s.pwHash.data salt.data data.data).length⟩, ?_, rfl⟩
  simp only [encryptWith, hp, Res.bind_ok, hm, hsalt, DataHeaderParts.get, hc1, hc2, getResult_eq r2]
  rfl

theorem encryptTry_ok {s : Session} {d : DataHeader} (hd : HeaderOk d) {m : HMode} {salt : Bytes}
    (hm : d.dh.hashMode = some m) (hsalt : d.dh.encSalt = some salt) (hk : s.pwHash.data.length = m.size) {data : Bytes}
    (hdata : data.data.length < 2 ^ 31) :
    ∃ r d', encryptTry hs e s d data = (.ok r, d') ∧ HeaderOk d' ∧ d'.dh = d.dh ∧ d'.hashSize = d.hashSize ∧
      d'.contents = { d.contents with fileSize := d.contents.length + data.data.length } ∧
      d'.headerBytes = ⟨d'.contents.bytes, d'.contents.length⟩ ∧
      r.data = cryptOut .enc (hs.get m) s.pwHash.data salt.data data.data := by
  have hle := HeaderOk.length_le hd
  obtain ⟨q1, q2, q3⟩ := encryptTry_header (hs := hs) (e := e) (s := s) hd data
  obtain ⟨m', hm', hsz⟩ := hd.inv.hm
  obtain ⟨salt', hs1, hs2⟩ := hd.inv.salt
  rw [hm] at hm'; cases hm'
  rw [hsalt] at hs1; cases hs1
  have hmod : (data.data.length + d.contents.length) % 2 ^ 32 = data.data.length + d.contents.length :=
    Nat.mod_eq_of_lt (by omega)
  have e1 := setDataSize_eq hd.inv (UInt32.ofNat data.len)
  rw [if_pos hd.complete] at e1
  have i1 := call_inv (hs := hs) hd.inv (.setDataSize (UInt32.ofNat data.len)) trivial
  rw [keep_ok rfl e1] at i1
  have hn : ((UInt32.ofNat data.len).toNat + d.contents.length) % 2 ^ 32 = data.data.length + d.contents.length := by
    rw [UInt32.toNat_ofNat', Nat.mod_add_mod]; exact hmod
  rw [hn] at e1 i1
  have h64 : (UInt64.ofNat (data.data.length + d.contents.length)).toNat = data.data.length + d.contents.length := by
    rw [UInt64.toNat_ofNat', Nat.mod_eq_of_lt (by omega)]
  have hcalc := calcHeaderBytes_ok (hs := hs) (pw := Bytes.empty 0) (clk := e.clk 0) i1 (by exact hd.complete) rfl
    (by rw [h64]; exact Nat.le_add_left _ _) rfl
  obtain ⟨r, hr, hr2⟩ := encryptWith_ok (hs := hs) (s := s) (d := (encryptTry hs e s d data).2) (salt := salt) (data := data)
    (m := m) q1.complete (by rw [q2]; exact hm) (by rw [q2]; exact hsalt) hk (by rw [hs2, hsz]) hdata
  have hfst : (encryptTry hs e s d data).1 = .ok r := by
    rw [← hr]
    simp only [encryptTry, e1, hcalc]
  obtain ⟨k1, k2, -⟩ := encryptTry_bytes hd hfst
  refine ⟨r, (encryptTry hs e s d data).2, ?_, q1, q2, q3, ?_, k2, hr2⟩
  · rw [← hfst]
  · rw [k1]
    simp only [Bytes.len, hmod]
    rw [Nat.add_comm]

/-- encrypting in a session that has a header and a key -/
theorem encryptData_ok {s : Session} {d : DataHeader} (hd : HeaderOk d) (hs' : s.dh = some d) (hmode : s.fileMode = 1)
    {m : HMode} {salt : Bytes} (hm : d.dh.hashMode = some m) (hsalt : d.dh.encSalt = some salt)
    (hk : s.pwHash.data.length = m.size) {data : Bytes} (hdata : data.data.length < 2 ^ 31) :
    ∃ r d', encryptData hs e s (some ⟨some 1, some data⟩) = .ok (.success true, { s with
          dh := some d', encrypted := some r, fileData := some ⟨some 1, none⟩, state := .ENCRYPTED }) ∧
      HeaderOk d' ∧ d'.dh = d.dh ∧ d'.hashSize = d.hashSize ∧
      d'.contents = { d.contents with fileSize := d.contents.length + data.data.length } ∧
      d'.headerBytes = ⟨d'.contents.bytes, d'.contents.length⟩ ∧
      r.data = cryptOut .enc (hs.get m) s.pwHash.data salt.data data.data := by
  obtain ⟨r, d', h1, h2⟩ := encryptTry_ok (hs := hs) (e := e) (s := s) hd hm hsalt hk hdata
  refine ⟨r, d', ?_, h2⟩
  simp only [encryptData, deref, Res.bind_ok, FileDataStruct.isComplete, Option.isSome_some, Bool.not_true,
    Bool.false_eq_true, if_false, FileDataStruct.getFileMode, DataHeaderParts.get, hmode, ne_eq, not_true, hs', h1, attempt_ok,
    Res.noexcept_ok]

/-! ### selecting -/

theorem getFileHandler_ok {fs : FS} {p : Path} {c : List Byte} {f : FileHandler} {i : Nat} (hp : EncPath p)
    (hf : fs p = .file c) (hr : e.canRead p = true) (hu : FileHandler.update e fs p i = .ok f) :
    getFileHandler e fs p i = .ok (.success f) := by
  have hv := validPath_ok hp hf hr
  simp only [getFileHandler, hv, Res.bind_ok, FileHandler.new, hu, attempt_ok, Res.noexcept_ok]

theorem select_empty_ok {p : Path} (hp : EncPath p) (hf : w.fs p = .file []) (hr : e.canRead p = true) :
    selectFile hs e w p = .ok (.success true, { w with api := selectEmptyFile w.api ⟨p, 0, 0, true⟩ }) := by
  rcases update_file (e := e) hf hr (by simp) 0 with ⟨n, hn, hu⟩ | ⟨hn, -⟩
  · rcases hn with ⟨-, rfl⟩ | ⟨rest, h, -⟩
    · simp only [selectFile, getFileHandler_ok hp hf hr hu, Res.bind_ok, FileHandler.isEmpty, List.isEmpty_nil, if_true,
        Res.noexcept_ok, List.length_nil]
    · simp [num8] at h
  · exact absurd ⟨0, .inl ⟨rfl, rfl⟩⟩ hn

theorem plausible_header {h : Header} (hv : h.Valid) (data : List Byte) (hsz : h.fileSize = h.length + data.length) :
    Plausible (h.bytes ++ data) h.length := by
  have hl : (h.bytes ++ data).length = h.fileSize := by
    rw [List.length_append, length_bytes h hv.validator hv.salt hv.encLen, hsz]
  refine .inr ⟨h.content ++ data, ?_, ?_, ?_⟩
  · rw [hl, Header.bytes]; simp
  · unfold Header.length
    rcases hv.hashMode with e | e | e <;> rw [e] <;> simp [digestSize] <;> omega
  · rw [hl]; exact hv.size

theorem select_ok {p : Path} {h : Header} {data : List Byte} (hp : EncPath p) (hv : h.Valid)
    (hsz : h.fileSize = h.length + data.length) (hf : w.fs p = .file (h.bytes ++ data)) (hr : e.canRead p = true)
    (hg : (e.rand 0).good = true) :
    selectFile hs e w p = .ok (.success true, { w with api := { w.api with
      dh := some (HeaderParse.mkHeader h), selected := some ⟨p, h.length, h.fileSize, false⟩, state := .FILE_SELECTED } }) := by
  have hl : (h.bytes ++ data).length = h.fileSize := by
    rw [List.length_append, length_bytes h hv.validator hv.salt hv.encLen, hsz]
  have h64 := hv.size64
  have hpl := plausible_header hv data hsz
  rcases update_file (e := e) hf hr (by rw [hl]; exact h64) 0 with ⟨n, hn, hu⟩ | ⟨hn, -⟩
  · rw [plausible_unique (by rw [hl]; exact h64) hn hpl, hl] at hu
    have hne : (h.bytes ++ data).isEmpty = false := by
      cases hx : h.bytes ++ data with
      | nil =>
        rw [hx] at hl
        have := hv.size
        simp only [List.length_nil, Header.length] at hl this
        omega
      | cons a b => rfl
    rw [hne] at hu
    have ho : w.fs.openIn e p 1 = ⟨h.bytes ++ data, e.sched 1, false, false⟩ := by simp [FS.openIn, hf, hr]
    have hst := HeaderParse.setHeaderStream_eq hs (e.rand 0) (w.fs.openIn e p 1) (by rw [ho])
    rw [ho, HeaderParse.rdHeader_append hg hv data hsz] at hst
    obtain ⟨s', hst, -⟩ := hst
    have hd : FileHandler.getDataHeader hs e w.fs ⟨p, h.length, h.fileSize, false⟩ 1 (e.rand 0) =
        .ok (.success (HeaderParse.mkHeader h)) := by
      simp only [FileHandler.getDataHeader, ho, hst, Res.bind_ok, Res.noexcept_ok]
    simp only [selectFile, getFileHandler_ok hp hf hr hu, Res.bind_ok, FileHandler.isEmpty, Bool.false_eq_true, if_false,
      selectNonEmptyFile, hd, Res.noexcept_ok]
  · exact absurd ⟨_, hpl⟩ hn

/-! ### decrypting -/

theorem cryptStream_inv {H : HashFn} {k salt : Bytes} {st : IStream} {n : Nat} {r : List Byte}
    (h : cryptStream .dec H k salt st n = .ok r) :
    ∃ c c1 st' b c2, Chain.new H k salt = .ok c ∧ c.addStream .dec H st n = .ok (c1, st') ∧
      c1.getResult .dec H = .ok (b, c2) ∧ b.data = r := by
  unfold cryptStream at h
  obtain ⟨c, h1, h⟩ := Res.bind_eq_ok.mp h
  obtain ⟨⟨c1, st'⟩, h2, h⟩ := Res.bind_eq_ok.mp h
  obtain ⟨⟨b, c2⟩, h3, h⟩ := Res.bind_eq_ok.mp h
  cases h
  exact ⟨c, c1, st', b, c2, h1, h2, h3, rfl⟩

theorem decrypt_ok {h : Header} {f : FileHandler} {m : HMode} {enc : List Byte} (hv : h.Valid)
    (hsz : h.fileSize = h.length + enc.length) (hm : m.toByte = h.hashMode) (hmode : w.api.fileMode = 1)
    (hd : w.api.dh = some (HeaderParse.mkHeader h)) (hs' : w.api.selected = some f)
    (hf' : f = ⟨f.path, h.length, h.fileSize, false⟩) (hk : w.api.pwHash.data.length = m.size)
    (hf : w.fs f.path = .file (h.bytes ++ enc)) (hr : e.canRead f.path = true) (hl : enc.length < 2 ^ 31) :
    ∃ r, getDecryptedData hs e w = .ok (.success ⟨some 1, some r⟩, { w with api := { w.api with
        fileData := none, state := .DECRYPTED } }) ∧
      r.data = cryptOut .dec (hs.get m) w.api.pwHash.data h.salt enc := by
  obtain ⟨hi, hc⟩ := HeaderParse.mkHeader_inv hv
  have hcont := HeaderParse.contents_mkHeader hv
  obtain ⟨m', hm', hsz'⟩ := hi.hm
  obtain ⟨salt, hs1, hs2⟩ := hi.salt
  have hsalt : salt.data = h.salt := by rw [← hcont]; simp only [DataHeader.contents, hs1]
  have hmm : m' = m := by
    have : m'.toByte = h.hashMode := by rw [← hcont]; simp only [DataHeader.contents, hm']
    rw [← hm] at this
    revert this
    cases m <;> cases m' <;> decide
  subst hmm
  have hbl := length_bytes h hv.validator hv.salt hv.encLen
  have hstr : f.getDataStream e w.fs 0 = ⟨enc, e.sched 0, false, false⟩ := by
    have h1 : f.headerSize = h.bytes.length := by rw [hf', hbl]
    simp only [FileHandler.getDataStream, FS.openIn, hf, hr, if_true, h1, List.drop_left]
  have hds : f.getDataSize = enc.length := by
    rw [FileHandler.getDataSize, hf']
    simp only
    omega
  have hgs := Hashes.get_size hs m'
  have hcr := cryptStream_eq (dir := .dec) (H := hs.get m') (pw := w.api.pwHash) (salt := salt)
    (s := f.getDataStream e w.fs 0) (len := enc.length) (by rw [hk, hgs]) (by rw [hs2, hsz', hgs]) hl (by rw [hstr])
    (by rw [hstr]; exact Nat.le_refl _)
  rw [hstr] at hcr
  simp only [List.take_length] at hcr
  obtain ⟨c, c1, st', b, c2, k1, k2, k3, k4⟩ := cryptStream_inv hcr
  have hp : (HeaderParse.mkHeader h).getDataHeaderParts = .ok (HeaderParse.mkHeader h).dh := by
    unfold DataHeader.getDataHeaderParts
    simp [hc]
  refine ⟨b, ?_, by rw [k4, hsalt]⟩
  have hfm : FileDataStruct.make 1 (some b) = .ok ⟨some 1, some b⟩ := rfl
  simp only [getDecryptedData, decryptTry, hd, deref, Res.bind_ok, hp, hm', DataHeaderParts.get, hs1, k1, hs', hstr, hds, k2, k3,
    hmode, hfm, attempt_ok, Res.noexcept_ok]

end Verif.Api
