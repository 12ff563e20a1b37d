import Verif.Lemmas.NewHeader

/- The invariant of sessions. -/
namespace Verif
open Spec PwFunc

/-- header objects a session holds -/
structure HeaderOk (d : DataHeader) : Prop where
  inv : DHInv d
  complete : d.isComplete = true

/-- the password hash belongs to the header: it is the first chain hash of some password, and its second chain hash is the
validator -/
structure Keyed (hs : Hashes) (d : DataHeader) (k : Bytes) : Prop where
  wf : k.WF
  len : k.data.length = d.hashSize
  key : ∃ pw m v, d.dh.hashMode = some m ∧ d.dh.validator = some v ∧ k.data = d.dh.ch1.desc.digest (hs.get m).h pw ∧
    v.data = d.dh.ch2.desc.digest (hs.get m).h k.data

inductive SInv (hs : Hashes) : Session → Prop
  | init : SInv hs ⟨.INIT, 1, none, Bytes.empty 0, none, none, none⟩
  | empty (f : FileHandler) (he : f.empty = true) (hp : EncPath f.path) :
      SInv hs ⟨.EMPTY_FILE_SELECTED, 1, none, Bytes.empty 0, none, none, some f⟩
  | file (h : Header) (f : FileHandler) (hv : h.Valid) (hp : EncPath f.path)
      (hf : f = ⟨f.path, h.length, h.fileSize, false⟩) :
      SInv hs ⟨.FILE_SELECTED, 1, none, Bytes.empty 0, none, some (HeaderParse.mkHeader h), some f⟩
  | verified (h : Header) (f : FileHandler) (k : Bytes) (hv : h.Valid) (hp : EncPath f.path)
      (hf : f = ⟨f.path, h.length, h.fileSize, false⟩) (hk : Keyed hs (HeaderParse.mkHeader h) k) :
      SInv hs ⟨.PASSWORD_VERIFIED, 1, none, k, none, some (HeaderParse.mkHeader h), some f⟩
  | decrypted (fd : Option FileDataStruct) (k : Bytes) (d : DataHeader) (f : FileHandler) (hd : HeaderOk d)
      (hk : Keyed hs d k) (hp : EncPath f.path) (hfd : fd = none ∨ fd = some ⟨some 1, some (Bytes.empty 0)⟩) :
      SInv hs ⟨.DECRYPTED, 1, fd, k, none, some d, some f⟩
  | encrypted (fd : Option FileDataStruct) (k enc : Bytes) (d : DataHeader) (f : FileHandler) (hd : HeaderOk d)
      (hk : Keyed hs d k) (hp : EncPath f.path) (hfd : fd = some ⟨some 1, none⟩)
      (hb : d.headerBytes = ⟨d.contents.bytes, d.contents.length⟩) (hs' : d.contents.length ≤ d.contents.fileSize) :
      SInv hs ⟨.ENCRYPTED, 1, fd, k, some enc, some d, some f⟩
  | finished (fd : Option FileDataStruct) (k : Bytes) (d : DataHeader) (f : FileHandler) (hd : HeaderOk d)
      (hk : Keyed hs d k) (hp : EncPath f.path) (hfd : fd = some ⟨some 1, none⟩) :
      SInv hs ⟨.FINISHED, 1, fd, k, none, some d, some f⟩

/-- arguments the public operations can build -/
def CallOk : Call → Prop
  | .createDataHeader _ ds _ => ds.InRange ∧ Api.BlocksOk ds
  | _ => True

theorem fileModeValid_iff (m : Byte) : fileModeValid m = true ↔ m = 1 := by
  simp only [fileModeValid, Bool.and_eq_true, decide_eq_true_eq]
  constructor
  · rintro ⟨h1, h2⟩
    rw [gt_iff_lt, UInt8.lt_iff_toNat_lt] at h1
    rw [UInt8.le_iff_toNat_le] at h2
    apply UInt8.toNat_inj.mp
    simp only [UInt8.reduceToNat] at *
    omega
  · rintro rfl; decide

theorem mkHeader_ok {h : Header} (hv : h.Valid) : HeaderOk (HeaderParse.mkHeader h) :=
  ⟨(HeaderParse.mkHeader_inv hv).1, (HeaderParse.mkHeader_inv hv).2⟩

namespace Api
variable {hs : Hashes} {rest : Helper → Res Helper} {e : Env} {w w' : World}

theorem new_sinv {mode : Byte} {s : Session} (h : Api.new mode = .ok s) : SInv hs s := by
  unfold Api.new at h
  split at h
  · rename_i hm
    cases h
    rw [fileModeValid_iff] at hm
    subst hm
    exact .init
  · cases h

/-- the header object after trying to encrypt: only sizes and bytes changed -/
theorem encryptTry_header {s : Session} {d : DataHeader} (hd : HeaderOk d) (data : Bytes) :
    HeaderOk (encryptTry hs e s d data).2 ∧ (encryptTry hs e s d data).2.dh = d.dh ∧
      (encryptTry hs e s d data).2.hashSize = d.hashSize := by
  obtain ⟨hi, hc⟩ := hd
  have e1 := setDataSize_eq hi (UInt32.ofNat data.len)
  rw [if_pos hc] at e1
  have i1 := call_inv (hs := hs) hi (.setDataSize (UInt32.ofNat data.len)) trivial
  rw [keep_ok rfl e1] at i1
  simp only [encryptTry, e1]
  have key := calc_state (hs := hs) (pw := Bytes.empty 0) (clk := e.clk 0) i1
  generalize hr : DataHeader.calcHeaderBytes hs _ (Bytes.empty 0) (e.clk 0) = r at key ⊢
  have i2 := call_inv (hs := hs) i1 (.calcBytes (Bytes.empty 0) (e.clk 0)) trivial
  simp only [HOp.call, hr] at i2
  obtain ⟨a, b⟩ := r
  have hb : b.dh = d.dh ∧ b.hashSize = d.hashSize := by
    rcases key with ⟨-, -, -, -, hb⟩ | ⟨-, hb⟩
    · simp only at hb; subst hb; exact ⟨rfl, rfl⟩
    · simp only at hb; subst hb; exact ⟨rfl, rfl⟩
  have hcb : b.isComplete = true := by
    simp only [DataHeader.isComplete, hb.1, hb.2] at hc ⊢
    exact hc
  cases a <;> exact ⟨⟨i2, hcb⟩, hb⟩

theorem encryptTry_bytes {s : Session} {d : DataHeader} (hd : HeaderOk d) {data r : Bytes}
    (hr : (encryptTry hs e s d data).1 = .ok r) :
    (encryptTry hs e s d data).2.contents = { d.contents with fileSize := (data.len + d.contents.length) % 2 ^ 32 } ∧
    (encryptTry hs e s d data).2.headerBytes =
      ⟨(encryptTry hs e s d data).2.contents.bytes, (encryptTry hs e s d data).2.contents.length⟩ ∧
    d.contents.length ≤ (data.len + d.contents.length) % 2 ^ 32 ∧
    encryptWith hs s (encryptTry hs e s d data).2 data = .ok r := by
  obtain ⟨hi, hc⟩ := hd
  obtain ⟨d1, h1, h2, h3⟩ := encryptTry_cases (d' := (encryptTry hs e s d data).2) (by rw [← hr])
  have e1 := setDataSize_eq hi (UInt32.ofNat data.len)
  rw [if_pos hc] at e1
  have i1 := call_inv (hs := hs) hi (.setDataSize (UInt32.ofNat data.len)) trivial
  rw [keep_ok rfl e1] at i1
  have hn : ((UInt32.ofNat data.len).toNat + d.contents.length) % 2 ^ 32 = (data.len + d.contents.length) % 2 ^ 32 := by
    rw [UInt32.toNat_ofNat', Nat.mod_add_mod]
  rw [hn] at e1 i1
  rw [e1] at h1
  cases h1
  have hmod : (UInt64.ofNat ((data.len + d.contents.length) % 2 ^ 32)).toNat = (data.len + d.contents.length) % 2 ^ 32 := by
    rw [UInt64.toNat_ofNat', Nat.mod_eq_of_lt (by omega)]
  rcases calc_state (hs := hs) (pw := Bytes.empty 0) (clk := e.clk 0) i1 with ⟨-, -, ⟨n, hn1, hn2⟩, -, hb⟩ | ⟨hb, -⟩
  · rw [h2] at hb
    simp only [Option.some.injEq] at hn1 hb
    subst hn1
    rw [hmod] at hn2
    have hcont : ∀ n, DataHeader.contents { d.clear with fileSize := some n } = { d.contents with fileSize := n.toNat } :=
      fun _ => rfl
    refine ⟨?_, ?_, hn2, h3⟩
    · rw [hb]
      exact (hcont _).trans (by rw [hmod])
    · rw [hb]
      rfl
  · rw [h2] at hb; exact absurd rfl hb

/-- the parts with a new salt -/
theorem changeSalt_parts {d : DataHeader} (hd : HeaderOk d) {old b : Bytes} {p : DataHeaderParts}
    (hold : d.dh.encSalt = some old) (hb : (Bytes.empty old.len).fillrandom (e.rand 0) = .ok b)
    (hp : d.dh.setEncSalt b = .ok p) :
    ∃ m, p = { d.dh with encSalt := some b } ∧ (e.rand 0).good = true ∧ d.dh.hashMode = some m ∧
      b = ⟨(e.rand 0).take m.size, m.size⟩ ∧ ∃ v, d.dh.validator = some v ∧ PartsOk p m v b := by
  obtain ⟨g1, g2, g3, v, g4, g5⟩ := complete_parts hd.inv hd.complete
  obtain ⟨m, hm, hsz⟩ := hd.inv.hm
  obtain ⟨s, hs1, hs2⟩ := hd.inv.salt
  rw [hold] at hs1; cases hs1
  have hlen : old.len = m.size := by rw [Bytes.len, hs2, hsz]
  have hr : (e.rand 0).good = true := by
    cases hr : (e.rand 0).good with
    | true => rfl
    | false => rw [fillrandom_bad _ _ hr] at hb; cases hb
  have hle := m.size_le
  rw [hlen, fillrandom_good _ _ hr (by omega)] at hb
  cases hb
  simp only [DataHeaderParts.setEncSalt, DataHeaderParts.getHashSize, hm, DataHeaderParts.get, Res.bind_ok] at hp
  rw [if_pos (show m.size = Bytes.len ⟨(e.rand 0).take m.size, m.size⟩ from (Rand.length_take _ _).symm)] at hp
  cases hp
  exact ⟨m, by simp only [hm], hr, hm, rfl, v, g4,
    ⟨rfl, g3, ⟨g4, by rw [g5, hsz]⟩, ⟨rfl, Rand.length_take _ _⟩, g1, g2, hd.inv.decLen, hd.inv.encLen⟩⟩

/-- **every call keeps the invariant** -/
theorem call_sinv (hi : SInv hs w.api) {c : Call} (hc : CallOk c) {r : Ret} (h : call hs rest e w c = .ok (r, w')) :
    SInv hs w'.api := by
  by_cases hw : w.api.state ∈ statesFor c
  case neg =>
    obtain ⟨r', hr, -⟩ := call_wrong hs rest e w c hw
    rw [hr] at h; cases h
    exact hi
  obtain ⟨s, fs⟩ := w
  simp only at hi hw
  cases c with
  | getRelevantFileNames dir =>
    simp only [call] at h
    split at h
    · obtain ⟨o, -, h⟩ := Res.bind_eq_ok.mp h
      cases h; exact hi
    · cases h; exact hi
  | createFile p =>
    simp only [call] at h
    split at h
    · obtain ⟨⟨o, fs⟩, hc, h⟩ := Res.bind_eq_ok.mp h
      simp only [Res.ok.injEq, Prod.mk.injEq] at h
      obtain ⟨-, rfl⟩ := h
      exact hi
    · cases h; exact hi
  | selectFile p =>
    cases hi <;> simp [statesFor] at hw
    simp only [call] at h
    obtain ⟨⟨o, w1⟩, hc, h⟩ := Res.bind_eq_ok.mp h
    cases h
    rcases selectFile_cases hc with ⟨-, rfl⟩ | ⟨-, f, hf, ⟨he, rfl⟩ | ⟨he, d, hd, rfl⟩⟩
    · exact .init
    · obtain ⟨hp, henc, -⟩ := getFileHandler_success hf
      exact .empty f he (by rw [hp]; exact henc)
    · obtain ⟨-, hh, data, hv, -, -, -, henc, rfl, rfl⟩ := select_header hf he hd
      exact .file hh _ hv henc rfl
  | isFileEmpty =>
    simp only [call] at h
    split at h <;> cases h <;> exact hi
  | unselectFile =>
    cases hi <;> simp [statesFor] at hw <;> (cases h; exact .init)
  | deleteFile =>
    cases hi <;> simp [statesFor] at hw
    all_goals
      simp only [call] at h
      obtain ⟨⟨o, w1⟩, hc, h⟩ := Res.bind_eq_ok.mp h
      cases h
      rcases deleteSelected_cases hc with ⟨rfl, -⟩ | ⟨-, f, hf, hfs, ha, -⟩
    · exact .empty _ (by assumption) (by assumption)
    · rw [ha]; exact .init
    · exact .file _ _ (by assumption) (by assumption) (by assumption)
    · rw [ha]; exact .init
  | getFileContent =>
    simp only [call] at h
    split at h
    · obtain ⟨o, -, h⟩ := Res.bind_eq_ok.mp h
      cases h; exact hi
    all_goals cases h; exact hi
  | verifyPassword pw t =>
    cases hi <;> simp [statesFor] at hw
    rename_i hd f hv hp hf
    simp only [call] at h
    obtain ⟨⟨o, s⟩, hc, h⟩ := Res.bind_eq_ok.mp h
    cases h
    rcases verifyPassword_cases hc with ⟨-, rfl⟩ | ⟨-, d, m, h1, v, v', hdh, -, hm, p1, p2, hv', hb, rfl⟩
    · exact .file _ _ hv hp hf
    · simp only [Option.some.injEq] at hdh
      subst hdh
      refine .verified _ _ _ hv hp hf ?_
      have ok := mkHeader_ok hv
      obtain ⟨g1, g2, -⟩ := complete_parts ok.inv ok.complete
      rcases g1.str (hs.get m) pw t (e.clk 0) with ⟨-, k1⟩ | ⟨-, b1, k1, k2, k3, k4⟩
      · rw [p1] at k1; cases k1
      rw [p1] at k1; cases k1
      rcases g2.bytes (hs.get m) h1 k3 _ (e.clk 1) with ⟨-, l1⟩ | ⟨-, b2, l1, l2, l3, l4⟩
      · rw [p2] at l1; cases l1
      rw [p2] at l1; cases l1
      obtain ⟨m', hm', hsz⟩ := ok.inv.hm
      rw [hm] at hm'; cases hm'
      refine ⟨k3, by rw [k4, hsz, Hashes.get_size], pw, m, v', hm, hv', k2, ?_⟩
      rw [← l2]
      exact (beq_iff_eq.mp hb).symm
  | createDataHeader pw ds t =>
    have made : ∀ {d x}, createDataHeaderIters hs 1 pw ds t e = .ok x → x.err = .success d → HeaderOk d ∧ Keyed hs d x.pwHash := by
      intro d x hx hxe
      obtain ⟨-, -, hm, m1, m2, n1, n2, -, -, -, -, hmade⟩ := create_success hc.1 hc.2 hx hxe
      obtain ⟨v, hv1, hv2⟩ := hmade.dh
      refine ⟨⟨hmade.inv, hmade.complete⟩, hmade.wf, by rw [hmade.len, hmade.size], pw, hm, v, by rw [hv1], by rw [hv1], ?_, ?_⟩
      · rw [hv1]; exact hmade.hash
      · rw [hv1]; exact hv2
    simp only [call] at h
    split at h
    · cases h; exact hi
    cases hi <;> simp [statesFor] at hw
    · obtain ⟨x, hx, h⟩ := Res.bind_eq_ok.mp h
      obtain ⟨⟨o, s⟩, hc', h⟩ := Res.bind_eq_ok.mp h
      cases h
      rcases headerForEmpty_cases hc' with ⟨-, rfl⟩ | ⟨-, -, d, hxe, rfl⟩
      · exact .empty _ (by assumption) (by assumption)
      · obtain ⟨k1, k2⟩ := made hx hxe
        exact .decrypted _ _ _ _ k1 k2 (by assumption) (.inr rfl)
    · obtain ⟨x, hx, h⟩ := Res.bind_eq_ok.mp h
      obtain ⟨⟨o, s⟩, hc', h⟩ := Res.bind_eq_ok.mp h
      cases h
      rcases headerForOpen_cases hc' with ⟨-, rfl⟩ | ⟨-, d, hxe, rfl⟩
      · exact .decrypted _ _ _ _ (by assumption) (by assumption) (by assumption) (by assumption)
      · obtain ⟨k1, k2⟩ := made hx hxe
        exact .decrypted _ _ _ _ k1 k2 (by assumption) (by assumption)
  | createDataHeaderTime pw ds =>
    simp only [call] at h
    split at h
    · cases h; exact hi
    have never : ∀ x, createDataHeaderTime rest ds ≠ .ok x := by
      intro x hx
      unfold createDataHeaderTime at hx
      rw [Res.noexcept_eq_ok] at hx
      split at hx
      · cases hx
      · cases hx
    cases hi <;> simp [statesFor] at hw
    all_goals
      obtain ⟨x, hx, h⟩ := Res.bind_eq_ok.mp h
      exact absurd hx (never x)
  | changeSalt =>
    cases hi <;> simp [statesFor] at hw
    rename_i fd k d f hd hk hp hfd
    simp only [call] at h
    obtain ⟨⟨o, s⟩, hc, h⟩ := Res.bind_eq_ok.mp h
    cases h
    rcases changeSalt_cases hc with ⟨-, rfl⟩ | ⟨-, d1, old, b, p, d', hd1, hcm, hold, hb, hp', hset, rfl⟩
    · exact .decrypted _ _ _ _ hd hk hp hfd
    · simp only [Option.some.injEq] at hd1
      subst hd1
      obtain ⟨hm, hdh, -, -, -, v0, -, hok⟩ := changeSalt_parts hd hold hb hp'
      have hr : (e.rand 1).good = true := by
        cases hr : (e.rand 1).good with
        | true => rfl
        | false => rw [setHeaderParts_bad hok hr] at hset; cases hset
      have h3 := setHeaderParts_good hok hr
      split at h3
      · obtain ⟨d2, q1, q2, q3, q4, q5, -⟩ := h3
        rw [q1] at hset; cases hset
        obtain ⟨kw, kl, pw, m, v, km, kv, k1, k2⟩ := hk
        obtain ⟨m', km', ks⟩ := hd.inv.hm
        rw [km] at km'; cases km'
        rw [hdh] at hok q4
        have hmm : m = hm := by have := hok.hm; simp only [km, Option.some.injEq] at this; exact this
        subst hmm
        refine .decrypted _ _ _ _ ⟨q2, q3⟩ ⟨kw, by rw [kl, q5, ks], pw, m, v, ?_, ?_, ?_, ?_⟩ hp hfd
        · rw [q4]; exact km
        · rw [q4]; exact kv
        · rw [q4]; exact k1
        · rw [q4]; exact k2
      · rw [h3] at hset; cases hset
  | getDecryptedData =>
    cases hi <;> simp [statesFor] at hw
    rename_i hd f k hv hp hf hk
    simp only [call] at h
    obtain ⟨⟨o, s⟩, hc, h⟩ := Res.bind_eq_ok.mp h
    cases h
    rcases getDecryptedData_cases hc with ⟨-, rfl⟩ | ⟨r, d, f, m, salt, -, -, -, -, -, -, -, -, rfl⟩
    · exact .verified _ _ _ hv hp hf hk
    · exact .decrypted _ _ _ _ (mkHeader_ok hv) hk hp (.inl rfl)
  | getFileData =>
    cases hi <;> simp [statesFor] at hw
    rename_i fd k d f hd hk hp hfd
    cases h
    rcases hfd with rfl | rfl
    · exact .decrypted _ _ _ _ hd hk hp (.inl rfl)
    · exact .decrypted _ _ _ _ hd hk hp (.inl rfl)
  | encryptData fd =>
    cases hi <;> simp [statesFor] at hw
    rename_i fd' k d f hd hk hp hfd
    simp only [call] at h
    obtain ⟨⟨o, s⟩, hc, h⟩ := Res.bind_eq_ok.mp h
    cases h
    obtain ⟨x, hx, hcase⟩ := encryptData_cases hc
    have keep : ∀ (s : Session) data, Keyed hs (encryptTry hs e s d data).2 k := by
      intro s data
      obtain ⟨-, h1, h2⟩ := encryptTry_header (hs := hs) (e := e) (s := s) hd data
      obtain ⟨kw, kl, pw, m, v, km, kv, k1, k2⟩ := hk
      exact ⟨kw, by rw [h2, kl], pw, m, v, by rw [h1]; exact km, by rw [h1]; exact kv, by rw [h1]; exact k1,
        by rw [h1]; exact k2⟩
    rcases hcase with ⟨-, rfl | ⟨d1, data, hd1, hdata, rfl⟩⟩ | ⟨-, hfm, d1, data, r, hd1, hdata, hr, rfl⟩
    · exact .decrypted _ _ _ _ hd hk hp hfd
    · simp only [Option.some.injEq] at hd1
      subst hd1
      exact .decrypted _ _ _ _ (encryptTry_header hd data).1 (keep _ _) hp hfd
    · simp only [Option.some.injEq] at hd1
      subst hd1
      obtain ⟨h1, h2, h3, -⟩ := encryptTry_bytes hd hr
      refine .encrypted _ _ _ _ _ (encryptTry_header hd data).1 (keep _ _) hp ?_ ?_ ?_
      · simp only at hfm; rw [hfm]
      · exact h2
      · rw [h1]; exact h3
  | writeToFile =>
    cases hi <;> simp [statesFor] at hw
    simp only [call] at h
    obtain ⟨⟨o, w1⟩, hc, h⟩ := Res.bind_eq_ok.mp h
    cases h
    obtain ⟨f, hf, hx⟩ := writeToSelected_cases hc
    simp only [Option.some.injEq] at hf
    subst hf
    rcases hx with ⟨-, hfs, ha⟩ | ⟨-, -, -, -, -, b, -, ha, hfs⟩
    · rw [ha]
      exact .encrypted _ _ _ _ _ (by assumption) (by assumption) (by assumption) (by assumption) (by assumption) (by assumption)
    · rw [ha]
      exact .finished _ _ _ _ (by assumption) (by assumption) (by assumption) (by assumption)
  | writeToFileAt p =>
    cases hi <;> simp [statesFor] at hw
    simp only [call] at h
    obtain ⟨⟨o, w1⟩, hc, h⟩ := Res.bind_eq_ok.mp h
    cases h
    rcases writeToPath_cases hc with ⟨-, rfl⟩ | ⟨-, -, -, -, -, b, -, ha, hfs⟩
    · exact .encrypted _ _ _ _ _ (by assumption) (by assumption) (by assumption) (by assumption) (by assumption) (by assumption)
    · rw [ha]
      exact .finished _ _ _ _ (by assumption) (by assumption) (by assumption) (by assumption)
  | logout => cases h; cases hi <;> exact .init
  | logoutMode m => cases h; cases hi <;> exact .init

end Api
end Verif
