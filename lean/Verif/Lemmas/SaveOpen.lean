import Verif.Lemmas.Save
import Verif.Lemmas.Key

/- Saving a session and opening the file again. -/
namespace Verif.Api
open Spec PwFunc
variable {hs : Hashes} {rest : Helper → Res Helper} {e : Env} {w w' : World}

/-- a session holding decrypted data: its header, its key and its file -/
structure Holds (hs : Hashes) (s : Session) (d : DataHeader) (m : HMode) (f : FileHandler) (pw : List Byte) : Prop where
  state : s.state = .DECRYPTED
  mode : s.fileMode = 1
  dh : s.dh = some d
  ok : HeaderOk d
  hm : d.dh.hashMode = some m
  sel : s.selected = some f
  path : EncPath f.path
  key : s.pwHash.data = d.contents.ch1.digest (hs.get m).h pw
  val : d.contents.ch2.digest (hs.get m).h s.pwHash.data = d.contents.validator
  full : ∀ b ∈ d.contents.blocks, b.2 ≠ []

theorem Holds.of_inv {s : Session} (hi : SInv hs s) {pw : List Byte} (hk : KeyInv hs (some pw) s) (hb : BlockInv s)
    (hst : s.state = .DECRYPTED) : ∃ d m f, Holds hs s d m f pw := by
  obtain ⟨x, d, m, v, k0, k1, k2, k3, k4, k5⟩ := hk (by rw [hst]; rfl)
  cases k0
  cases hi <;> simp at hst
  rename_i fd k d' f hd hkd hp hfd
  cases k1
  refine ⟨d, m, f, rfl, rfl, rfl, hd, k2, rfl, hp, k4, ?_, ?_⟩
  · simp only [DataHeader.contents, k3]; exact k5.symm
  · intro b hb'
    simp only [DataHeader.contents, List.mem_map] at hb'
    obtain ⟨b', hb', rfl⟩ := hb'
    exact hb d rfl b' hb'

theorem Holds.opens {s : Session} {d : DataHeader} {m : HMode} {f : FileHandler} {pw : List Byte}
    (h : Holds hs s d m f pw) : Opens hs d.contents pw := by
  refine ⟨m, ?_, ?_⟩
  · simp only [DataHeader.contents, h.hm]
  · rw [← h.key]; exact h.val

/-- the header that will be written for data of a given length -/
def saved (d : DataHeader) (n : Nat) : Header := { d.contents with fileSize := d.contents.length + n }

theorem saved_length (d : DataHeader) (n : Nat) : (saved d n).length = d.contents.length := rfl

theorem saved_valid {d : DataHeader} (hd : HeaderOk d) (hf : ∀ b ∈ d.contents.blocks, b.2 ≠ []) {n : Nat} (hn : n < 2 ^ 31) :
    (saved d n).Valid := by
  have hl := HeaderOk.length_le hd
  have e1 := setDataSize_eq hd.inv (UInt32.ofNat n)
  rw [if_pos hd.complete] at e1
  have i1 := call_inv (hs := toyHashes) hd.inv (.setDataSize (UInt32.ofNat n)) trivial
  rw [keep_ok rfl e1] at i1
  have hn' : ((UInt32.ofNat n).toNat + d.contents.length) % 2 ^ 32 = d.contents.length + n := by
    rw [UInt32.toNat_ofNat', Nat.mod_add_mod, Nat.mod_eq_of_lt (by omega), Nat.add_comm]
  rw [hn'] at i1
  have h64 : (UInt64.ofNat (d.contents.length + n)).toNat = d.contents.length + n := by
    rw [UInt64.toNat_ofNat', Nat.mod_eq_of_lt (by omega)]
  have hcont : ∀ n, DataHeader.contents { d.clear with fileSize := some n } = { d.contents with fileSize := n.toNat } :=
    fun _ => rfl
  have key := complete_valid i1 (by exact hd.complete) (by rw [hcont]; exact hf)
    (by rw [hcont, h64]; exact Nat.le_add_right _ _)
  rw [hcont, h64] at key
  exact key

theorem call_encrypt {fd : Option FileDataStruct} {o : Out Bool} {s : Session} (hst : w.api.state = .DECRYPTED)
    (h : encryptData hs e w.api fd = .ok (o, s)) :
    call hs rest e w (.encryptData fd) = .ok (.flag o, { w with api := s }) := by
  simp only [call, hst, h, Res.bind_ok]

theorem call_write {o : Out Unit} (hst : w.api.state = .ENCRYPTED) (h : writeToSelected e w = .ok (o, w')) :
    call hs rest e w .writeToFile = .ok (.plain o, w') := by
  simp only [call, hst, h, Res.bind_ok]

theorem call_decrypt {o : Out FileDataStruct} (hst : w.api.state = .PASSWORD_VERIFIED)
    (h : getDecryptedData hs e w = .ok (o, w')) : call hs rest e w .getDecryptedData = .ok (.data o, w') := by
  simp only [call, hst, h, Res.bind_ok]

/-- saving -/
theorem save_ok {d : DataHeader} {m : HMode} {f : FileHandler} {pw c : List Byte} (h : Holds hs w.api d m f pw)
    {data : Bytes} (hdata : data.data.length < 2 ^ 31) (e1 : Env) {e2 : Env} (hf : w.fs f.path = .file c)
    (hr : e2.canRead f.path = true) (hw : e2.canWrite f.path = true)
    (hst : data.data.length + 200000 ≤ e2.stored) :
    ∃ w' enc, run hs rest w [.call (.encryptData (some ⟨some 1, some data⟩)) e1, .call .writeToFile e2] =
        .ok ([some (.flag (.success true)), some (.plain (.success ()))], w') ∧
      w'.fs = w.fs.set f.path (.file ((saved d enc.length).bytes ++ enc)) ∧
      enc = cryptOut .enc (hs.get m) w.api.pwHash.data d.contents.salt data.data ∧
      w'.api.fileMode = 1 := by
  obtain ⟨salt, hs1, hs2⟩ := h.ok.inv.salt
  obtain ⟨m', hm', hsz⟩ := h.ok.inv.hm
  rw [h.hm] at hm'; cases hm'
  have hl := HeaderOk.length_le h.ok
  obtain ⟨g1, g2, -⟩ := complete_parts h.ok.inv h.ok.complete
  have hkl : w.api.pwHash.data.length = m.size := by
    rw [h.key, digest_length _ _ (show 1 ≤ d.contents.ch1.iters from g1.desc_valid.1), Hashes.get_size]
  obtain ⟨r, d', q1, q2, q3, q4, q5, q6, q7⟩ := encryptData_ok (hs := hs) (e := e1) h.ok h.dh h.mode h.hm hs1 hkl hdata
  have hsalt : salt.data = d.contents.salt := by simp only [DataHeader.contents, hs1]
  have hrl : r.data.length = data.data.length := by rw [q7, cryptOut_length]
  have c1 := call_encrypt (rest := rest) h.state q1
  have hbl := contents_lengths q2.inv q2.complete
  have hdl : d'.contents.length = d.contents.length := by rw [q5]; rfl
  have hfull : (d'.contents.bytes ++ r.data).take e2.stored = d'.contents.bytes ++ r.data := by
    apply List.take_of_length_le
    rw [List.length_append, hbl, hdl, hrl]
    omega
  have c2 := writeToSelected_ok (e := e2) (w := ⟨{ w.api with
          dh := some d', encrypted := some r, fileData := some ⟨some 1, none⟩, state := .ENCRYPTED }, w.fs⟩)
    q2 rfl rfl q6 h.sel h.path hf hr hw
  rw [hfull] at c2
  refine ⟨_, r.data, call_step c1 (call_step (call_write rfl c2) rfl), ?_, by rw [q7, hsalt], h.mode⟩
  have : d'.contents = saved d r.data.length := by rw [q5, saved, hrl]
  rw [this]

/-- opening: the password is accepted exactly if it reproduces the validator -/
theorem select_run {p : Path} {h : Header} {enc : List Byte} (hp : EncPath p) (hv : h.Valid)
    (hsz : h.fileSize = h.length + enc.length) (hst : w.api.state = .INIT) (hf : w.fs p = .file (h.bytes ++ enc))
    (hr : e.canRead p = true) (hg : (e.rand 0).good = true) :
    call hs rest e w (.selectFile p) = .ok (.flag (.success true), { w with api := { w.api with
      dh := some (HeaderParse.mkHeader h), selected := some ⟨p, h.length, h.fileSize, false⟩, state := .FILE_SELECTED } }) := by
  simp only [call, hst, select_ok (hs := hs) hp hv hsz hf hr hg, Res.bind_ok]

theorem open_ok {p : Path} {h : Header} {enc : List Byte} {m : HMode} {pw : List Byte} (hp : EncPath p) (hv : h.Valid)
    (hsz : h.fileSize = h.length + enc.length) (hst : w.api.state = .INIT) (hmode : w.api.fileMode = 1)
    (hf : w.fs p = .file (h.bytes ++ enc)) (hm : m.toByte = h.hashMode)
    (hval : h.ch2.digest (hs.get m).h (h.ch1.digest (hs.get m).h pw) = h.validator) (hl : enc.length < 2 ^ 31)
    {e1 e2 e3 : Env} (hr : e1.canRead p = true) (hg : (e1.rand 0).good = true)
    (hclk : e2.peek = 0 ∨ ∀ j, e2.peek + e2.clk 1 j < 2 ^ 64) (hr3 : e3.canRead p = true) :
    ∃ w' r, run hs rest w [.call (.selectFile p) e1, .call (.verifyPassword pw 0) e2, .call .getDecryptedData e3] =
        .ok ([some (.flag (.success true)), some (.flag (.success true)), some (.data (.success ⟨some 1, some r⟩))], w') ∧
      r.data = cryptOut .dec (hs.get m) (h.ch1.digest (hs.get m).h pw) h.salt enc ∧ w'.fs = w.fs ∧ w'.api.state = .DECRYPTED := by
  have c1 := select_run (rest := rest) (hs := hs) hp hv hsz hst hf hr hg
  generalize hw1 : ({ w with api := { w.api with dh := some (HeaderParse.mkHeader h), selected := some ⟨p, h.length, h.fileSize, false⟩, state := .FILE_SELECTED } } : World) = w1 at c1
  have a1 : w1.api.dh = some (HeaderParse.mkHeader h) := by rw [← hw1]
  obtain ⟨m', v, hm', hv', -, key⟩ := verify_spec (hs := hs) (e := e2) (s := w1.api) (mkHeader_ok hv) a1 pw 0
  obtain ⟨k, -, hkl, hk, key⟩ := key (not_vlate_zero hclk)
  have hcont := HeaderParse.contents_mkHeader hv
  have d1 : (HeaderParse.mkHeader h).dh.ch1.desc = h.ch1 := congrArg Header.ch1 hcont
  have d2 : (HeaderParse.mkHeader h).dh.ch2.desc = h.ch2 := congrArg Header.ch2 hcont
  have d3 : v.data = h.validator := by
    have := congrArg Header.validator hcont
    simp only [DataHeader.contents, hv'] at this
    exact this
  have d4 : m' = m := by
    have : m'.toByte = h.hashMode := by rw [← hcont]; simp only [DataHeader.contents, hm']
    rw [← hm] at this
    revert this
    cases m <;> cases m' <;> decide
  subst d4
  rw [d1] at hk
  rw [d2, d3, hk, if_pos hval] at key
  have c2 : call hs rest e2 w1 (.verifyPassword pw 0) = .ok (.flag (.success true), ⟨{ w1.api with pwHash := k, state := .PASSWORD_VERIFIED }, w1.fs⟩) := by
    have : w1.api.state = .FILE_SELECTED := by rw [← hw1]
    simp only [call, this, key, Res.bind_ok]
  obtain ⟨r, c3, hr'⟩ := decrypt_ok (hs := hs) (e := e3) (w := ⟨{ w1.api with pwHash := k, state := .PASSWORD_VERIFIED }, w1.fs⟩)
    (h := h) (f := ⟨p, h.length, h.fileSize, false⟩) (m := m') (enc := enc) hv hsz hm (by rw [← hw1]; exact hmode) (by rw [← hw1])
    (by rw [← hw1]) rfl hkl (by rw [← hw1]; exact hf) hr3 hl
  refine ⟨_, r, call_step c1 (call_step c2 (call_step (call_decrypt rfl c3) rfl)), by rw [hr', hk], ?_, rfl⟩
  rw [← hw1]

end Verif.Api
