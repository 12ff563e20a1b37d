import Verif.Lemmas.SaveOpen
import Verif.Spec.Save

/- Creating a header, changing the salt, and the whole way from a session to a saved and reopened file. -/
namespace Verif.Api
open Spec PwFunc
variable {hs : Hashes} {rest : Helper → Res Helper} {e : Env} {w w' : World}

theorem toByte_num (m : CHMode) : m.toByte.toNat = m.num := by cases m <;> rfl

/-- what header creation answers for an empty or an open file: it may run out of time if there is a limit, it refuses more than
255 data blocks, and otherwise there is a new header -/
theorem createHeader_at {ds : SettingsIters} (hbs : BuiltSettings ds) (hcp : ds.isComplete = true)
    (hfull : ∀ b ∈ ds.dec, b.data.data ≠ []) (hr : ∀ i, (e.rand i).good = true) (hmode : w.api.fileMode = 1)
    (hst : w.api.state = .EMPTY_FILE_SELECTED ∨ w.api.state = .DECRYPTED) {f : FileHandler}
    (hsel : w.api.selected = some f) (hp : EncPath f.path) (pw : List Byte) (t : Nat) :
    (t ≠ 0 ∧ call hs rest e w (.createDataHeader pw ds t) = .ok (.flag .timeout, w)) ∨
    (¬ (ds.dec.length ≤ 255 ∧ ds.enc.length ≤ 255) ∧
      call hs rest e w (.createDataHeader pw ds t) = .ok (.flag (.fail .ERR), w)) ∨
    ((ds.dec.length ≤ 255 ∧ ds.enc.length ≤ 255) ∧
      ∃ w' d m, call hs rest e w (.createDataHeader pw ds t) = .ok (.flag (.success true), w') ∧ w'.fs = w.fs ∧
        Holds hs w'.api d m f pw ∧ MadeFrom ds d.contents ∧ d.contents.salt = (e.rand 2).take m.size ∧
        w'.api.fileData =
          if w.api.state = .EMPTY_FILE_SELECTED then some ⟨some 1, some (Bytes.empty 0)⟩ else w.api.fileData) := by
  obtain ⟨hin, hbl⟩ := built_ok hbs
  obtain ⟨hm, m1, m2, n1, n2, hare⟩ := hin.are hcp
  obtain ⟨klate, key⟩ := create_spec (hs := hs) hare hbl hr pw t
  by_cases hlate : Late e t n1.toNat n2.toNat
  · refine .inl ⟨fun h => by subst h; exact not_late_zero _ _ _ hlate, ?_⟩
    rcases hst with hst | hst <;>
      simp only [call, hcp, Bool.not_true, Bool.false_eq_true, if_false, hst, hmode, klate hlate, Res.bind_ok, headerForEmpty,
        headerForOpen, Helper.createMove, failed, Res.noexcept_ok]
  replace key := key hlate
  refine .inr ?_
  rcases Decidable.em (¬ (ds.dec.length ≤ 255 ∧ ds.enc.length ≤ 255)) with hfit | hfit
  · rw [if_neg hfit] at key
    obtain ⟨h1, key⟩ := key
    refine .inl ⟨hfit, ?_⟩
    rcases hst with hst | hst <;>
      simp only [call, hcp, Bool.not_true, Bool.false_eq_true, if_false, hst, hmode, key, Res.bind_ok, headerForEmpty,
        headerForOpen, failed, Res.noexcept_ok]
  rw [Decidable.not_not] at hfit
  refine .inr ⟨hfit, ?_⟩
  rw [if_pos hfit] at key
  obtain ⟨d, h1, k1, k2⟩ := key
  obtain ⟨v, kd, kv⟩ := k2.dh
  have c1 : d.contents.ch1 = (newChain m1 n1 (e.rand 0)).desc := by simp only [DataHeader.contents, kd]
  have c2 : d.contents.ch2 = (newChain m2 n2 (e.rand 1)).desc := by simp only [DataHeader.contents, kd]
  have holds : ∀ s : Session, s.state = .DECRYPTED → s.fileMode = 1 → s.dh = some d → s.selected = some f → s.pwHash = h1 →
      Holds hs s d hm f pw := by
    intro s s1 s2 s3 s4 s5
    refine ⟨s1, s2, s3, ⟨k2.inv, k2.complete⟩, by rw [kd], s4, hp, ?_, ?_, ?_⟩
    · rw [s5, k2.hash, c1]
    · rw [s5, c2, ← kv]; simp only [DataHeader.contents, kd]
    · intro b hb
      simp only [DataHeader.contents, kd, List.mem_map] at hb
      obtain ⟨b', hb', rfl⟩ := hb
      exact hfull b' hb'
  have made : MadeFrom ds d.contents := by
    refine ⟨?_, ?_, ?_, ?_, ?_, ?_, ?_⟩
    · rw [hare.ehm]; simp only [DataHeader.contents, kd]
    · rw [hare.em1, c1, ← toByte_num]; rfl
    · rw [hare.en1, c1]; rfl
    · rw [hare.em2, c2, ← toByte_num]; rfl
    · rw [hare.en2, c2]; rfl
    · simp only [DataHeader.contents, kd]
    · simp only [DataHeader.contents, kd]
  have salt : d.contents.salt = (e.rand 2).take hm.size := by simp only [DataHeader.contents, kd]
  rcases hst with hst | hst
  · refine ⟨⟨{ w.api with pwHash := h1, dh := some d, fileData := some ⟨some 1, some (Bytes.empty 0)⟩, state := .DECRYPTED }, w.fs⟩,
      d, hm, ?_, rfl, holds _ rfl hmode rfl hsel rfl, made, salt, by rw [if_pos hst]⟩
    have hf : FileDataStruct.make 1 (some (Bytes.empty 0)) = .ok ⟨some 1, some (Bytes.empty 0)⟩ := rfl
    simp only [call, hcp, Bool.not_true, Bool.false_eq_true, if_false, hst, hmode, k1, Res.bind_ok, headerForEmpty, hf,
      Res.noexcept_ok]
  · refine ⟨⟨{ w.api with pwHash := h1, dh := some d }, w.fs⟩, d, hm, ?_, rfl, holds _ hst hmode rfl hsel rfl, made, salt,
      by rw [if_neg (by rw [hst]; decide)]⟩
    simp only [call, hcp, Bool.not_true, Bool.false_eq_true, if_false, hst, hmode, k1, Res.bind_ok, headerForOpen]

/-- a header can be created for an empty or an open file -/
theorem createHeader_ok {ds : SettingsIters} (hu : Usable ds) (hr : ∀ i, (e.rand i).good = true)
    (hmode : w.api.fileMode = 1) (hst : w.api.state = .EMPTY_FILE_SELECTED ∨ w.api.state = .DECRYPTED) {f : FileHandler}
    (hsel : w.api.selected = some f) (hp : EncPath f.path) (pw : List Byte) :
    ∃ w' d m, call hs rest e w (.createDataHeader pw ds 0) = .ok (.flag (.success true), w') ∧ w'.fs = w.fs ∧
      Holds hs w'.api d m f pw ∧ MadeFrom ds d.contents ∧ d.contents.salt = (e.rand 2).take m.size := by
  rcases createHeader_at (hs := hs) (rest := rest) hu.built hu.complete hu.full hr hmode hst hsel hp pw 0 with ⟨h, -⟩ | ⟨h, -⟩ | ⟨-, w', d, m, h1, h2, h3, h4, h5, -⟩
  · exact absurd rfl h
  · exact absurd ⟨hu.dec, hu.enc⟩ h
  · exact ⟨w', d, m, h1, h2, h3, h4, h5⟩

/-- the salt of an open file can be changed -/
theorem changeSalt_at {d : DataHeader} {m : HMode} {f : FileHandler} {pw : List Byte} (h : Holds hs w.api d m f pw)
    (h0 : (e.rand 0).good = true) (h1 : (e.rand 1).good = true) :
    ∃ w' d', call hs rest e w .changeSalt = .ok (.plain (.success ()), w') ∧ w'.fs = w.fs ∧ Holds hs w'.api d' m f pw ∧
      d'.contents = { d.contents with salt := (e.rand 0).take m.size, fileSize := 0 } ∧
      w'.api.fileData = w.api.fileData := by
  obtain ⟨salt, hs1, hs2⟩ := h.ok.inv.salt
  obtain ⟨m', hm', hsz⟩ := h.ok.inv.hm
  rw [h.hm] at hm'; cases hm'
  have hlen : salt.len = m.size := by rw [Bytes.len, hs2, hsz]
  have hle := m.size_le
  have hb : (Bytes.empty salt.len).fillrandom (e.rand 0) = .ok ⟨(e.rand 0).take m.size, m.size⟩ := by
    rw [hlen, fillrandom_good _ _ h0 (by omega)]
  have hp : d.dh.setEncSalt ⟨(e.rand 0).take m.size, m.size⟩ =
      .ok { d.dh with encSalt := some ⟨(e.rand 0).take m.size, m.size⟩ } := by
    simp only [DataHeaderParts.setEncSalt, DataHeaderParts.getHashSize, h.hm, DataHeaderParts.get, Res.bind_ok]
    rw [if_pos (show m.size = Bytes.len ⟨(e.rand 0).take m.size, m.size⟩ from (Rand.length_take _ _).symm)]
  obtain ⟨m', -, -, hm', -, v, -, hok⟩ := changeSalt_parts (e := e) h.ok hs1 hb hp
  rw [h.hm] at hm'; cases hm'
  have h3 := setHeaderParts_good hok h1
  rw [if_pos ⟨h.ok.inv.decCount, h.ok.inv.encCount⟩] at h3
  obtain ⟨d', q1, q2, q3, q4, q5, q6, q7⟩ := h3
  have hg : d.getDataHeaderParts = .ok d.dh := by
    unfold DataHeader.getDataHeaderParts
    simp [h.ok.complete]
  have hcont : d'.contents = { d.contents with salt := (e.rand 0).take m.size, fileSize := 0 } := by
    simp only [DataHeader.contents, q4, q6]
  refine ⟨⟨{ w.api with dh := some d' }, w.fs⟩, d', ?_, rfl, ?_, hcont, rfl⟩
  · simp only [call, h.state, changeSalt, h.dh, deref, hg, Res.bind_ok, hs1, DataHeaderParts.get, hb, hp, q1, Res.noexcept_ok]
  · refine ⟨h.state, h.mode, rfl, ⟨q2, q3⟩, by rw [q4]; exact h.hm, h.sel, h.path, ?_, ?_, ?_⟩
    · rw [hcont]; exact h.key
    · rw [hcont]; exact h.val
    · rw [hcont]; exact h.full

theorem changeSalt_ok {d : DataHeader} {m : HMode} {f : FileHandler} {pw : List Byte} (h : Holds hs w.api d m f pw)
    (h0 : (e.rand 0).good = true) (h1 : (e.rand 1).good = true) :
    ∃ w' d', call hs rest e w .changeSalt = .ok (.plain (.success ()), w') ∧ w'.fs = w.fs ∧ Holds hs w'.api d' m f pw ∧
      d'.contents = { d.contents with salt := (e.rand 0).take m.size, fileSize := 0 } := by
  obtain ⟨w', d', a, b, c, d, -⟩ := changeSalt_at (rest := rest) h h0 h1
  exact ⟨w', d', a, b, c, d⟩

/-- the password check without time limit, for a file with this header -/
theorem check_iff {h : Header} (hv : h.Valid) (hst : w.api.state = .FILE_SELECTED)
    (hd : w.api.dh = some (HeaderParse.mkHeader h)) (pw : List Byte)
    (hclk : e.peek = 0 ∨ ∀ j, e.peek + e.clk 1 j < 2 ^ 64) :
    ∃ b w', call hs rest e w (.verifyPassword pw 0) = .ok (.flag b, w') ∧
      (b = .success true ∨ b = .fail .ERR_PASSWORD_INVALID) ∧ (b = .success true ↔ Opens hs h pw) := by
  obtain ⟨m, v, hm, hv', -, key⟩ := verify_spec (hs := hs) (e := e) (s := w.api) (mkHeader_ok hv) hd pw 0
  obtain ⟨k, -, hkl, hk, key⟩ := key (not_vlate_zero hclk)
  have hcont := HeaderParse.contents_mkHeader hv
  have d1 : (HeaderParse.mkHeader h).dh.ch1.desc = h.ch1 := congrArg Header.ch1 hcont
  have d2 : (HeaderParse.mkHeader h).dh.ch2.desc = h.ch2 := congrArg Header.ch2 hcont
  have d3 : v.data = h.validator := by
    have := congrArg Header.validator hcont
    simp only [DataHeader.contents, hv'] at this
    exact this
  have d4 : m.toByte = h.hashMode := by rw [← hcont]; simp only [DataHeader.contents, hm]
  rw [d1] at hk
  rw [d2, d3, hk] at key
  have hop : Opens hs h pw ↔ h.ch2.digest (hs.get m).h (h.ch1.digest (hs.get m).h pw) = h.validator := by
    constructor
    · rintro ⟨m', e1, e2⟩
      have : m' = m := by
        rw [← d4] at e1
        revert e1
        cases m <;> cases m' <;> decide
      subst this
      exact e2
    · intro e2; exact ⟨m, d4, e2⟩
  by_cases hq : h.ch2.digest (hs.get m).h (h.ch1.digest (hs.get m).h pw) = h.validator
  · rw [if_pos hq] at key
    refine ⟨.success true, ⟨{ w.api with pwHash := k, state := .PASSWORD_VERIFIED }, w.fs⟩, ?_, .inl rfl, fun _ => hop.mpr hq, fun _ => rfl⟩
    simp only [call, hst, key, Res.bind_ok]
  · rw [if_neg hq] at key
    refine ⟨.fail .ERR_PASSWORD_INVALID, w, ?_, .inr rfl, fun h => (by cases h), fun h => absurd (hop.mp h) hq⟩
    simp only [call, hst, key, Res.bind_ok]

/-- log out and open the file again -/
def reopen (p : Path) (pw : List Byte) (e1 e2 e3 e4 : Env) : List Event :=
  [.call .logout e1, .call (.selectFile p) e2, .call (.verifyPassword pw 0) e3, .call .getDecryptedData e4]

/-- saving and opening again -/
theorem save_reopen {d : DataHeader} {m : HMode} {f : FileHandler} {pw c : List Byte} (h : Holds hs w.api d m f pw)
    {data : Bytes} (hdata : data.data.length < 2 ^ 31) (hf : w.fs f.path = .file c) (e1 : Env) {e2 : Env} (e3 : Env)
    {e4 e5 e6 : Env} (h2 : Healthy e2 f.path) (h4 : Healthy e4 f.path) (h5 : Healthy e5 f.path) (h6 : Healthy e6 f.path)
    (hst : data.data.length + 200000 ≤ e2.stored) :
    ∃ w' enc r, run hs rest w ([.call (.encryptData (some ⟨some 1, some data⟩)) e1, .call .writeToFile e2] ++
          reopen f.path pw e3 e4 e5 e6) =
        .ok ([some (.flag (.success true)), some (.plain (.success ())), some .void, some (.flag (.success true)),
          some (.flag (.success true)), some (.data (.success ⟨some 1, some r⟩))], w') ∧
      r.data = data.data ∧ w'.fs = w.fs.set f.path (.file ((saved d enc.length).bytes ++ enc)) ∧
      (saved d enc.length).Valid ∧ enc = cryptOut .enc (hs.get m) w.api.pwHash.data d.contents.salt data.data ∧
      w'.api.state = .DECRYPTED := by
  obtain ⟨w1, enc, a1, a2, a3, a4⟩ := save_ok (rest := rest) h hdata e1 hf h2.read h2.write hst
  have hl : enc.length = data.data.length := by rw [a3, cryptOut_length]
  have hv := saved_valid (n := enc.length) h.ok h.full (by rw [hl]; exact hdata)
  have hval : (saved d enc.length).ch2.digest (hs.get m).h ((saved d enc.length).ch1.digest (hs.get m).h pw) =
      (saved d enc.length).validator := by
    have := h.val
    rw [h.key] at this
    exact this
  obtain ⟨w2, r, b1, b2, b3, b4⟩ := open_ok (rest := rest) (hs := hs) (w := ⟨logout w1.api, w1.fs⟩) (h := saved d enc.length)
    (enc := enc) (m := m) (pw := pw) (p := f.path) h.path hv rfl rfl a4 (by rw [a2]; simp [FS.set])
    (by simp only [saved, DataHeader.contents, h.hm]) hval (by rw [hl]; exact hdata) h4.read (h4.rand 0) h5.clock h6.read
  have hc : call hs rest e3 w1 .logout = .ok (.void, ⟨logout w1.api, w1.fs⟩) := rfl
  refine ⟨w2, enc, r, ?_, ?_, by rw [b3]; exact a2, hv, a3, b4⟩
  · exact run_append.mpr ⟨_, w1, _, a1, call_step hc b1, rfl⟩
  · rw [b2, show (saved d enc.length).ch1 = d.contents.ch1 from rfl, show (saved d enc.length).salt = d.contents.salt from rfl,
      ← h.key]
    conv => lhs; rw [a3]
    exact cryptOut_dec_enc _ _ _ _

end Verif.Api
