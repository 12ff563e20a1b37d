import Verif.Props.Tamper

/- Old versions of a file: C73. -/
namespace Verif.Props
open Spec

variable {hs : Hashes} {rest : Api.Helper → Res Api.Helper}

/-- C73 is violated by old versions: a session saves `x1`, later `x2`. Somebody puts the file of the first saving back. Every
new session opens it with the password, without any error, and gets `x1`. -/
theorem C73_violated_rollback (mode : Byte) (s0 : Session) (h0 : Api.new mode = .ok s0) (fs : FS) (evs : List Event)
    (hb : BuiltArgs evs) (hf : FullBlocks evs) (rs : List (Option Ret)) (w : World)
    (h : Api.run hs rest ⟨s0, fs⟩ evs = .ok (rs, w)) (hst : w.api.state = .DECRYPTED) :
    ∃ f pw, w.api.selected = some f ∧ lastGiven evs rs = some pw ∧
      ∀ (c : List Byte) (x1 x2 : Bytes) (e : Nat → Env), w.fs f.path = .file c → x1.data.length < 2 ^ 31 →
        x2.data.length < 2 ^ 31 → (∀ i, Healthy (e i) f.path) → x1.data.length + 200000 ≤ (e 1).stored →
        x2.data.length + 200000 ≤ (e 7).stored →
        ∃ w1 w2 w3 r r' c1 c2, Api.run hs rest w [.call (.encryptData (some ⟨some mode, some x1⟩)) (e 0), .call .writeToFile (e 1)] =
            .ok ([some (.flag (.success true)), some (.plain (.success ()))], w1) ∧
          Api.run hs rest w1 [.call .logout (e 2), .call (.selectFile f.path) (e 3), .call (.verifyPassword pw 0) (e 4),
              .call .getDecryptedData (e 5), .call (.encryptData (some ⟨some mode, some x2⟩)) (e 6), .call .writeToFile (e 7)] =
            .ok ([some .void, some (.flag (.success true)), some (.flag (.success true)),
              some (.data (.success ⟨some mode, some r⟩)), some (.flag (.success true)), some (.plain (.success ()))], w2) ∧
          w1.fs f.path = .file c1 ∧ w2.fs f.path = .file c2 ∧ (x1.data ≠ x2.data → c1 ≠ c2) ∧
          Api.run hs rest ⟨s0, w2.fs.set f.path (.file c1)⟩ [.call (.selectFile f.path) (e 8), .call (.verifyPassword pw 0) (e 9),
              .call .getDecryptedData (e 10)] =
            .ok ([some (.flag (.success true)), some (.flag (.success true)), some (.data (.success ⟨some mode, some r'⟩))], w3) ∧
          r'.data = x1.data := by
  obtain ⟨rfl, rfl⟩ := new_mode h0
  obtain ⟨hi, hk, hbl⟩ := Api.history_key h0 hb h
  obtain ⟨x, d, m, v, k0, -⟩ := hk (by rw [hst]; rfl)
  rw [k0] at hk
  obtain ⟨d, m, f, hh⟩ := Api.Holds.of_inv hi hk (hbl hf) hst
  refine ⟨f, x, hh.sel, k0, ?_⟩
  intro c x1 x2 e hc hx1 hx2 he hr1 hr2
  obtain ⟨w1, enc, a1, a2, a3, a4⟩ := Api.save_ok (rest := rest) hh hx1 (e 0) hc (he 1).read (he 1).write hr1
  have hl : enc.length = x1.data.length := by rw [a3, cryptOut_length]
  have hv := Api.saved_valid (n := enc.length) hh.ok hh.full (by rw [hl]; exact hx1)
  have hm : m.toByte = d.contents.hashMode := by simp only [DataHeader.contents, hh.hm]
  have hval : (Api.saved d enc.length).ch2.digest (hs.get m).h ((Api.saved d enc.length).ch1.digest (hs.get m).h x) =
      (Api.saved d enc.length).validator := by
    have := hh.val
    rw [hh.key] at this
    exact this
  have hfile : w1.fs f.path = .file ((Api.saved d enc.length).bytes ++ enc) := by rw [a2]; simp [FS.set]
  obtain ⟨w2, r, d2, f2, b1, b2, b3, h2, hd2, hf2⟩ := Api.open_holds (rest := rest) (hs := hs) (w := ⟨Api.logout w1.api, w1.fs⟩)
    (h := Api.saved d enc.length) (enc := enc) (m := m) (pw := x) (p := f.path) hh.path hv rfl rfl a4 hfile hm hval
    (by rw [hl]; exact hx1) (he 3).read ((he 3).rand 0) (he 4).clock (he 5).read
  obtain ⟨w3, enc2, g1, g2, g3, g4⟩ := Api.save_ok (rest := rest) h2 hx2 (e 6) (e2 := e 7) (by rw [b3, hf2]; exact hfile)
    (by rw [hf2]; exact (he 7).read) (by rw [hf2]; exact (he 7).write) hr2
  have hl2 : enc2.length = x2.data.length := by rw [g3, cryptOut_length]
  have hv2 := Api.saved_valid (n := enc2.length) h2.ok h2.full (by rw [hl2]; exact hx2)
  have hc2 : Api.call hs rest (e 2) w1 .logout = .ok (.void, ⟨Api.logout w1.api, w1.fs⟩) := rfl
  obtain ⟨w4, r', d4, f4, q1, q2, -⟩ := Api.open_holds (rest := rest) (hs := hs)
    (w := ⟨⟨.INIT, 1, none, Bytes.empty 0, none, none, none⟩, w3.fs.set f.path (.file ((Api.saved d enc.length).bytes ++ enc))⟩)
    (h := Api.saved d enc.length) (enc := enc) (m := m) (pw := x) (p := f.path) hh.path hv rfl rfl rfl (by simp [FS.set]) hm hval
    (by rw [hl]; exact hx1) (he 8).read ((he 8).rand 0) (he 9).clock (he 10).read
  have e1 := cryptOut_enc (hs.get m) w.api.pwHash.data d.contents.salt x1.data
  have e2 := cryptOut_enc (hs.get m) w2.api.pwHash.data d2.contents.salt x2.data
  rw [← a3, hh.key] at e1
  rw [← g3, h2.key, hd2] at e2
  obtain ⟨-, -, p3, -⟩ := parts_of_bytes hv enc
  obtain ⟨-, -, q3, -⟩ := parts_of_bytes hv2 enc2
  refine ⟨w1, w3, w4, r, r', _, (Api.saved d2 enc2.length).bytes ++ enc2, a1, ?_, hfile, by rw [g2, hf2]; simp [FS.set], ?_, q1, ?_⟩
  · exact Api.call_step hc2 (Api.run_append (evs := [_, _, _]).mpr ⟨_, w2, _, b1, g1, rfl⟩)
  · intro hne heq
    have := congrArg dataPart heq
    rw [p3, q3] at this
    rw [this] at e1
    exact hne (dec_unique e1 e2)
  · rw [q2]
    exact dec_unique (cryptOut_dec _ _ _ _) e1

/-- the sample session meets the hypotheses: it saved `hello`; after saving `Xy` the old file is put back and opens as before -/
example : BuiltArgs (sampleSave ++ sampleOpen) ∧ FullBlocks (sampleSave ++ sampleOpen) ∧ Healthy openEnv samplePath ∧
    runIs (sampleSave ++ sampleOpen) (fun _ w1 => w1.api.state == .DECRYPTED &&
      (match Api.run toyHashes noRest w1 [.call (.encryptData (some ⟨some 1, some (Bytes.full (ascii "Xy"))⟩)) openEnv,
          .call .writeToFile openEnv] with
        | .ok (_, w2) => fileOf w2 != fileOf w1 &&
          (match Api.run toyHashes noRest (freshWorld (w2.fs.set samplePath (.file (fileOf w1)))) sampleOpen.tail with
            | .ok (r, _) => r.getLast? == some (some (.data (.success ⟨some 1, some (Bytes.full (ascii "hello"))⟩)))
            | _ => false)
        | _ => false)) = true :=
  ⟨built_save, full_save, healthy_open _, by decide +kernel⟩

end Verif.Props
