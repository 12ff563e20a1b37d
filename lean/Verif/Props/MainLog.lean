import Verif.Model.MainLog
import Verif.Props.Main
import Verif.Props.Bytes

/- C93 for the demonstration program: its own log lines. -/
namespace Verif.Props
open Spec Api PwFunc Demo
variable {hs : Hashes} {rest : Helper → Res Helper}

/-- C93 is violated by the demonstration program: whenever it can open its file, it writes the whole content to its log, in
hexadecimal. -/
theorem C93_violated_demo (e : Nat → Env) (fs : FS) (b : Box) (hl : Listable (e 0) fs) (he : ∀ i, Healthy (e i) demoFile)
    (hb : InSlot hs (fs demoFile) (.box b)) (ha : b.accepts demoPass) :
    ∃ t, appendLog hs rest e fs = .ok ("Got decrypted data successfully: ".toList ++ t) ∧ hexDecode t = some (b.shows demoPass) := by
  obtain ⟨r1, w1, r2, w2, c1, c2, f1, f2, ⟨v2, l2, p2, s2⟩, g2⟩ := opened_box (rest := rest) (e1 := e 1) (e2 := e 2) file_path hb
    ha (he 1).read ((he 1).rand 0) (he 2).clock
  obtain ⟨r3, w3, v3, c3, s3, l3, -⟩ := sim_decrypt (rest := rest) (e := e 3) l2 p2 fun h enc m b hc hk =>
    hc.decrypts l2.mode hk (he 3).read
  have hlog : appendLog hs rest e fs = decryptedLine r3 := by
    unfold appendLog
    rw [settings_eq, Res.bind_ok, new_eq, Res.bind_ok, start_ok hl, Res.bind_ok, file_eq, c1, Res.bind_ok]
    simp only
    rw [show pass = demoPass from rfl, c2, Res.bind_ok]
    simp only
    rw [c3, Res.bind_ok]
  rw [hlog]
  cases s3 with
  | refused h => rw [p2] at h; exact absurd trivial h
  | lacking h => exact h.elim
  | decrypt hp hb' hr =>
    rename_i p' pw' b'' x
    rw [p2] at hp; cases hp
    rw [s2] at hb'; cases hb'
    refine ⟨x.toHex, rfl, ?_⟩
    rw [C05_hex_decode, hr]

/-- the sample disk of C87 meets the hypotheses -/
example : Listable openEnv demoDisk ∧ InSlot toyHashes (demoDisk demoFile) (.box demoBox) ∧ demoBox.accepts demoPass :=
  ⟨demoDisk_listable, demoDisk_box, demoBox_accepts⟩

/-- with them, the line is the content of its file -/
example : appendLog toyHashes noRest (fun _ => openEnv) demoDisk =
    .ok ("Got decrypted data successfully: ".toList ++ (Bytes.full (demoBox.shows demoPass)).toHex) := by decide +kernel

end Verif.Props
