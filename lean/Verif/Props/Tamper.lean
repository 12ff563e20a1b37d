import Verif.Lemmas.Tamper
import Verif.Props.Save

/- Properties of the secrecy and the integrity of saved files: C72, C73. -/
namespace Verif.Props
open Spec

variable {hs : Hashes} {rest : Api.Helper → Res Api.Helper}

/-! ## C72 -/

/-- C72 violated: open a file, save `x1`, open it again, save `x2`. As long as the salt is not changed explicitly, both
versions of the file are encrypted with the same key stream: wherever the blocks before a byte agree (so in the whole
first block, whatever the data), the bytes of the two files differ by exactly the difference of the two plain bytes. This
holds in every history that leaves a session with decrypted data. -/
theorem C72_violated_key_stream (mode : Byte) (s0 : Session) (h0 : Api.new mode = .ok s0) (fs : FS) (evs : List Event)
    (hb : BuiltArgs evs) (hf : FullBlocks evs) (rs : List (Option Ret)) (w : World)
    (h : Api.run hs rest ⟨s0, fs⟩ evs = .ok (rs, w)) (hst : w.api.state = .DECRYPTED) :
    ∃ f pw, w.api.selected = some f ∧ lastGiven evs rs = some pw ∧
      ∀ (c : List Byte) (x1 x2 : Bytes) (e : Nat → Env), w.fs f.path = .file c → x1.data.length < 2 ^ 31 →
        x2.data.length < 2 ^ 31 → (∀ i, Healthy (e i) f.path) → x1.data.length + 200000 ≤ (e 1).stored →
        x2.data.length + 200000 ≤ (e 7).stored →
        ∃ w1 w2 r c1 c2, Api.run hs rest w [.call (.encryptData (some ⟨some mode, some x1⟩)) (e 0), .call .writeToFile (e 1)] =
            .ok ([some (.flag (.success true)), some (.plain (.success ()))], w1) ∧
          Api.run hs rest w1 [.call .logout (e 2), .call (.selectFile f.path) (e 3), .call (.verifyPassword pw 0) (e 4),
              .call .getDecryptedData (e 5), .call (.encryptData (some ⟨some mode, some x2⟩)) (e 6), .call .writeToFile (e 7)] =
            .ok ([some .void, some (.flag (.success true)), some (.flag (.success true)),
              some (.data (.success ⟨some mode, some r⟩)), some (.flag (.success true)), some (.plain (.success ()))], w2) ∧
          w1.fs f.path = .file c1 ∧ w2.fs f.path = .file c2 ∧ 32 ≤ cipherBlock c1 ∧
          (dataPart c1).length = x1.data.length ∧ (dataPart c2).length = x2.data.length ∧
          ∀ k p q, x1.data[k]? = some p → x2.data[k]? = some q →
            x1.data.take (k / cipherBlock c1 * cipherBlock c1) = x2.data.take (k / cipherBlock c1 * cipherBlock c1) →
            ∃ a b, (dataPart c1)[k]? = some a ∧ (dataPart c2)[k]? = some b ∧ a - b = p - q := by
  obtain ⟨rfl, -⟩ := new_mode h0
  obtain ⟨hi, hk, hbl⟩ := Api.history_key h0 hb h
  obtain ⟨x, d, m, v, k0, -⟩ := hk (by rw [hst]; rfl)
  rw [k0] at hk
  obtain ⟨d, m, f, hh⟩ := Api.Holds.of_inv hi hk (hbl hf) hst
  refine ⟨f, x, hh.sel, k0, ?_⟩
  intro c x1 x2 e hc hx1 hx2 he hr1 hr2
  obtain ⟨w1, enc, a1, a2, a3, a4⟩ := Api.save_ok (rest := rest) hh hx1 (e 0) hc (he 1).read (he 1).write hr1
  have hl : enc.length = x1.data.length := by rw [a3, cryptOut_length]
  have hv := Api.saved_valid (n := enc.length) hh.ok hh.full (by rw [hl]; exact hx1)
  have hm : m.toByte = d.contents.hashMode := by simp only [DataHeader.contents, hh.hm]
  have hval : (Api.saved d enc.length).ch2.digest (hs.get m).h ((Api.saved d enc.length).ch1.digest (hs.get m).h x) =
      (Api.saved d enc.length).validator := by
    have := hh.val
    rw [hh.key] at this
    exact this
  have hfile : w1.fs f.path = .file ((Api.saved d enc.length).bytes ++ enc) := by rw [a2]; simp [FS.set]
  obtain ⟨w2, r, d2, f2, b1, -, b3, h2, hd2, hf2⟩ := Api.open_holds (rest := rest) (hs := hs) (w := ⟨Api.logout w1.api, w1.fs⟩)
    (h := Api.saved d enc.length) (enc := enc) (m := m) (pw := x) (p := f.path) hh.path hv rfl rfl a4 hfile hm hval
    (by rw [hl]; exact hx1) (he 3).read ((he 3).rand 0) (he 4).clock (he 5).read
  obtain ⟨w3, enc2, g1, g2, g3, g4⟩ := Api.save_ok (rest := rest) h2 hx2 (e 6) (e2 := e 7) (by rw [b3, hf2]; exact hfile)
    (by rw [hf2]; exact (he 7).read) (by rw [hf2]; exact (he 7).write) hr2
  have hl2 : enc2.length = x2.data.length := by rw [g3, cryptOut_length]
  have hv2 := Api.saved_valid (n := enc2.length) h2.ok h2.full (by rw [hl2]; exact hx2)
  have hc2 : Api.call hs rest (e 2) w1 .logout = .ok (.void, ⟨Api.logout w1.api, w1.fs⟩) := rfl
  obtain ⟨-, p2, p3, -⟩ := parts_of_bytes hv enc
  obtain ⟨-, -, q3, -⟩ := parts_of_bytes hv2 enc2
  have hds : cipherBlock ((Api.saved d enc.length).bytes ++ enc) = (hs.get m).size := by
    rw [p2, Hashes.get_size]; exact size_eq_digest hm
  refine ⟨w1, w3, r, _, (Api.saved d2 enc2.length).bytes ++ enc2, a1, ?_, hfile, by rw [g2, hf2]; simp [FS.set], ?_,
    by rw [p3, hl], by rw [q3, hl2], ?_⟩
  · exact Api.call_step hc2 (Api.run_append (evs := [_, _, _]).mpr ⟨_, w2, _, b1, g1, rfl⟩)
  · rw [hds, Hashes.get_size]; cases m <;> decide
  · rw [hds, p3, q3]
    intro k p q hp hq hpre
    have e1 := cryptOut_enc (hs.get m) w.api.pwHash.data d.contents.salt x1.data
    have e2 := cryptOut_enc (hs.get m) w2.api.pwHash.data d2.contents.salt x2.data
    rw [← a3] at e1
    rw [← g3, h2.key, hd2] at e2
    rw [hh.key] at e1
    exact enc_diff e1 e2 hpre hp hq

/-- the sample session meets the hypotheses; two concrete versions of its file differ in the data section by exactly the
differences of the plain bytes -/
def fileOf (w : World) : List Byte := match w.fs samplePath with | .file c => c | _ => []

example : BuiltArgs (sampleSave ++ sampleOpen) ∧ FullBlocks (sampleSave ++ sampleOpen) ∧ Healthy openEnv samplePath ∧
    runIs (sampleSave ++ sampleOpen) (fun _ w1 => w1.api.state == .DECRYPTED &&
      (match Api.run toyHashes noRest w1 [.call (.encryptData (some ⟨some 1, some (Bytes.full (ascii "Xy"))⟩)) openEnv,
          .call .writeToFile openEnv] with
        | .ok (_, w2) => List.zipWith (· - ·) (dataPart (fileOf w1)) (dataPart (fileOf w2)) ==
            List.zipWith (· - ·) (ascii "hello") (ascii "Xy")
        | _ => false)) = true :=
  ⟨built_save, full_save, healthy_open _, by decide +kernel⟩

/-- C72, the part that holds: after `changeSalt` the data is encrypted under a salt that consists of the random bytes drawn
by that call, whatever the salt was before. -/
theorem C72_fresh_salt_partial (mode : Byte) (s0 : Session) (h0 : Api.new mode = .ok s0) (fs : FS) (evs : List Event)
    (hb : BuiltArgs evs) (hf : FullBlocks evs) (rs : List (Option Ret)) (w : World)
    (h : Api.run hs rest ⟨s0, fs⟩ evs = .ok (rs, w)) (hst : w.api.state = .DECRYPTED) :
    ∃ f pw, w.api.selected = some f ∧ lastGiven evs rs = some pw ∧
      ∀ (c : List Byte) (x : Bytes) (e : Nat → Env), w.fs f.path = .file c → x.data.length < 2 ^ 31 →
        (∀ i, Healthy (e i) f.path) → x.data.length + 200000 ≤ (e 2).stored →
        ∃ (w' : World) (hd : Header) (m : HMode) (enc : List Byte), Api.run hs rest w [.call .changeSalt (e 0), .call (.encryptData (some ⟨some mode, some x⟩)) (e 1),
              .call .writeToFile (e 2)] =
            .ok ([some (.plain (.success ())), some (.flag (.success true)), some (.plain (.success ()))], w') ∧
          w'.fs f.path = .file (hd.bytes ++ enc) ∧ hd.Valid ∧ m.toByte = hd.hashMode ∧
          hd.salt = ((e 0).rand 0).take m.size ∧
          IsEncryption (hs.get m).h m.size (hd.ch1.digest (hs.get m).h pw) hd.salt x.data enc := by
  obtain ⟨rfl, -⟩ := new_mode h0
  obtain ⟨hi, hk, hbl⟩ := Api.history_key h0 hb h
  obtain ⟨pw, d, m, v, k0, -⟩ := hk (by rw [hst]; rfl)
  rw [k0] at hk
  obtain ⟨d, m, f, hh⟩ := Api.Holds.of_inv hi hk (hbl hf) hst
  refine ⟨f, pw, hh.sel, k0, ?_⟩
  intro c x e hc hx he hroom
  obtain ⟨w1, d1, c1, f1, h1, hcont⟩ := Api.changeSalt_ok (rest := rest) (e := e 0) hh ((he 0).rand 0) ((he 0).rand 1)
  obtain ⟨w2, enc, a1, a2, a3, a4⟩ := Api.save_ok (rest := rest) h1 hx (e 1) (by rw [f1]; exact hc) (he 2).read (he 2).write hroom
  have hl : enc.length = x.data.length := by rw [a3, cryptOut_length]
  have hv := Api.saved_valid (n := enc.length) h1.ok h1.full (by rw [hl]; exact hx)
  refine ⟨w2, Api.saved d1 enc.length, m, enc, Api.call_step c1 a1, by rw [a2]; simp [FS.set], hv, ?_, ?_, ?_⟩
  · simp only [Api.saved, DataHeader.contents, h1.hm]
  · show d1.contents.salt = _
    rw [hcont]
  · have e1 := cryptOut_enc (hs.get m) w1.api.pwHash.data d1.contents.salt x.data
    rw [← a3, h1.key, Hashes.get_size] at e1
    exact e1

/-- the hypotheses are those of the case above; a concrete call draws the salt 9, 9, 9, … -/
example : runIs (sampleSave ++ sampleOpen) (fun _ w => w.api.state == .DECRYPTED &&
    (match Api.run toyHashes noRest w [.call .changeSalt { openEnv with rand := fun _ => ⟨true, fun _ => 9⟩ },
        .call (.encryptData (some ⟨some 1, some (Bytes.full (ascii "Xy"))⟩)) openEnv, .call .writeToFile openEnv] with
      | .ok (_, w') => fileOf w' != fileOf w && (fileOf w').length == 366
      | _ => false)) = true := by decide +kernel

/-! ## C73 -/

/-- C73 violated: take a file that opens with a password. Replace its data section by any other bytes of the same length.
The result opens with the same password without any error, and what is returned differs from the original data exactly
if the data section does. Moreover a byte changes by exactly the amount its encrypted byte was changed by, as long as the
blocks before it were left alone. -/
theorem C73_violated_data (mode : Byte) (s0 : Session) (h0 : Api.new mode = .ok s0) (fs : FS) (p : Path) (c c' : List Byte)
    (hf : fs p = .file c) (hsmall : c.length < 2 ^ 31) (pw : List Byte) (e e' : Nat → Env) (he : ∀ i, Healthy (e i) p)
    (he' : ∀ i, Healthy (e' i) p) (r : Bytes) (w : World)
    (h : Api.run hs rest ⟨s0, fs⟩ [.call (.selectFile p) (e 0), .call (.verifyPassword pw 0) (e 1), .call .getDecryptedData (e 2)] =
      .ok ([some (.flag (.success true)), some (.flag (.success true)), some (.data (.success ⟨some mode, some r⟩))], w))
    (hlen : c'.length = c.length) (hhead : c'.take (headerLen c) = c.take (headerLen c)) :
    ∃ r' w', Api.run hs rest ⟨s0, fs.set p (.file c')⟩ [.call (.selectFile p) (e' 0), .call (.verifyPassword pw 0) (e' 1),
        .call .getDecryptedData (e' 2)] =
      .ok ([some (.flag (.success true)), some (.flag (.success true)), some (.data (.success ⟨some mode, some r'⟩))], w') ∧
      (r'.data = r.data ↔ c' = c) ∧
      ∀ k a b, (dataPart c')[k]? = some a → (dataPart c)[k]? = some b →
        (dataPart c').take (k / cipherBlock c * cipherBlock c) = (dataPart c).take (k / cipherBlock c * cipherBlock c) →
        ∃ x y, r'.data[k]? = some x ∧ r.data[k]? = some y ∧ x - y = a - b := by
  obtain ⟨rfl, rfl⟩ := new_mode h0
  generalize hs0 : (⟨.INIT, 1, none, Bytes.empty 0, none, none, none⟩ : Session) = s0 at *
  have hst0 : s0.state = .INIT := by rw [← hs0]
  have hm0 : s0.fileMode = 1 := by rw [← hs0]
  obtain ⟨r1, w1, r2, k1, k2, k3⟩ := Api.run_append (evs := [_, _]).mp h
  have k2' := k2
  simp only [Api.run, Api.step, Res.bind_eq_ok] at k2'
  obtain ⟨⟨v1, u1⟩, ⟨⟨b1, b2⟩, -, q1⟩, ⟨⟨v2, u2⟩, q2, q3⟩⟩ := k2'
  cases q1; cases q2; cases q3
  have hr1 : r1 = [some (.flag (.success true)), some (.flag (.success true))] := by
    exact (List.append_inj' (s₁ := [_, _]) (t₁ := [_]) k3 rfl).1.symm
  subst hr1
  obtain ⟨hd, enc, m, rfl, hv, hsz, hp, hm, hval, -⟩ := Api.opened_inv (w := ⟨s0, fs⟩) hst0 hf (he 1).clock k1
  obtain ⟨p1, p2, p3, p4⟩ := parts_of_bytes hv enc
  have hl := length_bytes hd hv.validator hv.salt hv.encLen
  rw [p1, p4] at hhead
  have hc' : c' = hd.bytes ++ c'.drop hd.length := by
    conv => lhs; rw [← List.take_append_drop hd.length c', hhead]
  generalize c'.drop hd.length = enc' at hc'
  subst hc'
  rw [List.length_append, List.length_append] at hlen
  have hlen' : enc'.length = enc.length := by omega
  rw [List.length_append] at hsmall
  obtain ⟨wa, ra, -, -, c1, c2, -⟩ := Api.open_holds (rest := rest) (hs := hs) (w := ⟨s0, fs⟩) hp hv hsz hst0 hm0 hf hm hval
    (by omega) (he 0).read ((he 0).rand 0) (he 1).clock (he 2).read
  obtain ⟨wb, rb, -, -, d1, d2, -⟩ := Api.open_holds (rest := rest) (hs := hs) (w := ⟨s0, fs.set p (.file (hd.bytes ++ enc'))⟩)
    (enc := enc') hp hv (by rw [hlen']; exact hsz) hst0 hm0 (by simp [FS.set]) hm hval (by omega) (he' 0).read
    ((he' 0).rand 0) (he' 1).clock (he' 2).read
  rw [c1] at h
  cases h
  have e1 := cryptOut_dec (hs.get m) (hd.ch1.digest (hs.get m).h pw) hd.salt enc
  have e2 := cryptOut_dec (hs.get m) (hd.ch1.digest (hs.get m).h pw) hd.salt enc'
  rw [← c2] at e1
  rw [← d2] at e2
  refine ⟨rb, wb, d1, ?_, ?_⟩
  · constructor
    · intro hr
      rw [hr] at e2
      rw [enc_unique e2 e1]
    · intro hc
      have := List.append_cancel_left hc
      subst this
      rw [c2, d2]
  · obtain ⟨-, -, p3', -⟩ := parts_of_bytes hv enc'
    have hds : cipherBlock (hd.bytes ++ enc) = (hs.get m).size := by rw [p2, Hashes.get_size]; exact size_eq_digest hm
    rw [p3, p3', hds]
    intro k a b ha hb hpre
    exact dec_diff e2 e1 hpre ha hb

/-- a concrete file, and the same file with the last byte raised by 5: it opens, and the last letter has become a "t" -/
def tampered (c : List Byte) : List Byte := c.dropLast ++ [c.getLastD 0 + 5]

def openFile : List Event :=
  [.call (.selectFile samplePath) openEnv, .call (.verifyPassword samplePw 0) openEnv, .call .getDecryptedData openEnv]

example : runIs sampleSave (fun _ w =>
    (match Api.run toyHashes noRest (freshWorld w.fs) openFile,
        Api.run toyHashes noRest (freshWorld (w.fs.set samplePath (.file (tampered (fileOf w))))) openFile with
      | .ok (rs, _), .ok (rs', _) =>
        rs == [some (.flag (.success true)), some (.flag (.success true)),
          some (.data (.success ⟨some 1, some (Bytes.full (ascii "hello"))⟩))] &&
        rs' == [some (.flag (.success true)), some (.flag (.success true)),
          some (.data (.success ⟨some 1, some (Bytes.full (ascii "hellt"))⟩))]
      | _, _ => false) &&
    ((tampered (fileOf w)).take (headerLen (fileOf w)) == (fileOf w).take (headerLen (fileOf w))) &&
    ((tampered (fileOf w)).length == (fileOf w).length)) = true := by decide +kernel

/-- C73 violated for the header too: of the header only the hash mode, the two chain hashes and the password validator take
part in the check. A file with any other salt, data blocks and encrypted data blocks opens with the same password; the salt
decides what comes out. -/
theorem C73_violated_header (mode : Byte) (s0 : Session) (h0 : Api.new mode = .ok s0) (fs : FS) (p : Path) (hp : EncPath p)
    (h h' : Header) (hv' : h'.Valid) (pw : List Byte) (hopen : Opens hs h pw)
    (hm : h'.hashMode = h.hashMode) (h1 : h'.ch1 = h.ch1) (h2 : h'.ch2 = h.ch2) (hval : h'.validator = h.validator)
    (enc : List Byte) (hsz : h'.fileSize = h'.length + enc.length) (hl : enc.length < 2 ^ 31)
    (hf : fs p = .file (h'.bytes ++ enc)) (e : Nat → Env) (he : ∀ i, Healthy (e i) p) :
    ∃ (r : Bytes) (w : World) (m : HMode), Api.run hs rest ⟨s0, fs⟩ [.call (.selectFile p) (e 0), .call (.verifyPassword pw 0) (e 1),
        .call .getDecryptedData (e 2)] =
      .ok ([some (.flag (.success true)), some (.flag (.success true)), some (.data (.success ⟨some mode, some r⟩))], w) ∧
      m.toByte = h.hashMode ∧
      IsEncryption (hs.get m).h m.size (h.ch1.digest (hs.get m).h pw) h'.salt r.data enc := by
  obtain ⟨rfl, rfl⟩ := new_mode h0
  obtain ⟨m, k1, k2⟩ := hopen
  obtain ⟨w, r, -, -, c1, c2, -⟩ := Api.open_holds (rest := rest) (hs := hs)
    (w := ⟨⟨.INIT, 1, none, Bytes.empty 0, none, none, none⟩, fs⟩) (h := h') hp hv' hsz rfl rfl hf (m := m) (by rw [hm]; exact k1)
    (by rw [h1, h2, hval]; exact k2) hl (he 0).read ((he 0).rand 0) (he 1).clock (he 2).read
  refine ⟨r, w, m, c1, k1, ?_⟩
  have := cryptOut_dec (hs.get m) (h'.ch1.digest (hs.get m).h pw) h'.salt enc
  rw [← c2, Hashes.get_size, h1] at this
  exact this

/-- a concrete header, and one with another salt and without its data block -/
example : ∃ h h' : Header, h'.Valid ∧ Opens toyHashes h [] ∧ h'.hashMode = h.hashMode ∧ h'.ch1 = h.ch1 ∧ h'.ch2 = h.ch2 ∧
    h'.validator = h.validator ∧ h'.salt ≠ h.salt ∧ h'.blocks ≠ h.blocks ∧ h'.fileSize = h'.length + 3 := by
  refine ⟨⟨150, 1, 1, [(5, [1, 2])], ⟨1, 2, []⟩, ⟨1, 3, []⟩, ChainDesc.digest ⟨1, 3, []⟩ (toyHashes.get .sha256).h
      (ChainDesc.digest ⟨1, 2, []⟩ (toyHashes.get .sha256).h []), List.replicate 32 7, []⟩,
    ⟨107, 1, 1, [], ⟨1, 2, []⟩, ⟨1, 3, []⟩, ChainDesc.digest ⟨1, 3, []⟩ (toyHashes.get .sha256).h
      (ChainDesc.digest ⟨1, 2, []⟩ (toyHashes.get .sha256).h []), List.replicate 32 8, []⟩, ?_, ⟨.sha256, rfl, by decide +kernel⟩, rfl, rfl, rfl, rfl,
    by decide, by decide, by decide⟩
  constructor <;> decide +kernel

/-- C73, the part that holds: a file whose length differs from the first number it stores (cut short or extended) is refused
when it is selected, and the session does not change. -/
theorem C73_length_partial (e : Env) (w w' : World) (p : Path) (c : List Byte) (hf : w.fs p = .file c) (hne : c ≠ [])
    (hlen : beValue (c.take 8) ≠ c.length) (hst : w.api.state = .INIT) (r : Ret)
    (h : Api.call hs rest e w (.selectFile p) = .ok (r, w')) : r ≠ .flag (.success true) ∧ w' = w := by
  simp only [Api.call, hst] at h
  obtain ⟨⟨o, w1⟩, hsel, h⟩ := Res.bind_eq_ok.mp h
  cases h
  rcases Api.selectFile_cases hsel with ⟨h1, h2⟩ | ⟨rfl, f, hg, h1⟩
  · exact ⟨by simpa using h1, h2⟩
  · exfalso
    rcases h1 with ⟨he, -⟩ | ⟨he, d, hd, -⟩
    · obtain ⟨hpath, henc, hread, hu, -⟩ := Api.getFileHandler_success hg
      have hbig := Api.update_big hf hread hu
      rcases update_file hf hread hbig 0 with ⟨n, hn, hu'⟩ | ⟨-, x, -, hu'⟩
      · rw [hu] at hu'
        cases hu'
        simp at he
        exact hne he
      · rw [hu] at hu'; cases hu'
    · obtain ⟨-, hd, enc, hv, hsz, hfile, -⟩ := Api.select_header hg he hd
      rw [hf] at hfile
      cases hfile
      apply hlen
      have : (hd.bytes ++ enc).take 8 = num8 hd.fileSize := rfl
      rw [this, beValue_num8 hv.size64, hsz]

/-- a saved file with one byte appended is refused -/
example : runIs (sampleSave ++ [.call .logout openEnv]) (fun _ w => w.api.state == .INIT &&
    (let c := fileOf w ++ [0]
     beValue (c.take 8) != c.length &&
     match Api.call toyHashes noRest openEnv ⟨w.api, w.fs.set samplePath (.file c)⟩ (.selectFile samplePath) with
      | .ok (r, _) => r != .flag (.success true)
      | _ => false)) = true := by decide +kernel

end Verif.Props
