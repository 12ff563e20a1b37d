import Verif.Lemmas.Reopen
import Verif.Spec.Tamper

/- Two encryptions under the same key and salt, and sessions opened on a given file. -/
namespace Verif
open Spec

/-- under the same key and salt, and with the blocks before it unchanged, a byte of the plain text and the byte of the
ciphertext differ by the same amount -/
theorem enc_diff {h : List Byte → List Byte} {n : Nat} {a b x x' y y' : List Byte} (hx : IsEncryption h n a b x y)
    (hx' : IsEncryption h n a b x' y') {k : Nat} (e : x.take (k / n * n) = x'.take (k / n * n)) {p p' : Byte}
    (hp : x[k]? = some p) (hp' : x'[k]? = some p') :
    ∃ q q', y[k]? = some q ∧ y'[k]? = some q' ∧ q - q' = p - p' := by
  obtain ⟨s, h1, h2⟩ := hx.2 k p hp
  obtain ⟨s', h1', h2'⟩ := hx'.2 k p' hp'
  rw [blockSalt_congr h n a b x x' (k / n + 1) (by simpa using e), h1'] at h1
  cases h1
  refine ⟨_, _, h2, h2', ?_⟩
  rw [UInt8.sub_eq_iff_eq_add]
  grind

/-- the same for decryption -/
theorem dec_diff {h : List Byte → List Byte} {n : Nat} {a b x x' y y' : List Byte} (hx : IsEncryption h n a b x y)
    (hx' : IsEncryption h n a b x' y') {k : Nat} (e : y.take (k / n * n) = y'.take (k / n * n)) {q q' : Byte}
    (hq : y[k]? = some q) (hq' : y'[k]? = some q') :
    ∃ p p', x[k]? = some p ∧ x'[k]? = some p' ∧ p - p' = q - q' := by
  have l1 : k < x.length := by rw [← hx.1]; exact (List.getElem?_eq_some_iff.mp hq).1
  have l2 : k < x'.length := by rw [← hx'.1]; exact (List.getElem?_eq_some_iff.mp hq').1
  have e1 := List.getElem?_eq_getElem l1
  have e2 := List.getElem?_eq_getElem l2
  obtain ⟨r, r', h1, h2, h3⟩ := enc_diff hx hx' (dec_prefix _ hx hx' e) e1 e2
  rw [hq] at h1; rw [hq'] at h2
  cases h1; cases h2
  exact ⟨_, _, e1, e2, h3.symm⟩

namespace Api
open PwFunc
variable {hs : Hashes} {rest : Helper → Res Helper} {e : Env} {w w' : World}

/-- the session after opening a file: it holds the header of the file -/
theorem open_holds {p : Path} {h : Header} {enc : List Byte} {m : HMode} {pw : List Byte} (hp : EncPath p) (hv : h.Valid)
    (hsz : h.fileSize = h.length + enc.length) (hst : w.api.state = .INIT) (hmode : w.api.fileMode = 1)
    (hf : w.fs p = .file (h.bytes ++ enc)) (hm : m.toByte = h.hashMode)
    (hval : h.ch2.digest (hs.get m).h (h.ch1.digest (hs.get m).h pw) = h.validator) (hl : enc.length < 2 ^ 31)
    {e1 e2 e3 : Env} (hr : e1.canRead p = true) (hg : (e1.rand 0).good = true)
    (hclk : e2.peek = 0 ∨ ∀ j, e2.peek + e2.clk 1 j < 2 ^ 64) (hr3 : e3.canRead p = true) :
    ∃ w' r d f, run hs rest w [.call (.selectFile p) e1, .call (.verifyPassword pw 0) e2, .call .getDecryptedData e3] =
        .ok ([some (.flag (.success true)), some (.flag (.success true)), some (.data (.success ⟨some 1, some r⟩))], w') ∧
      r.data = cryptOut .dec (hs.get m) (h.ch1.digest (hs.get m).h pw) h.salt enc ∧ w'.fs = w.fs ∧
      Holds hs w'.api d m f pw ∧ d.contents = h ∧ f.path = p := by
  have c1 := select_run (rest := rest) (hs := hs) hp hv hsz hst hf hr hg
  generalize hw1 : ({ w with api := { w.api with dh := some (HeaderParse.mkHeader h), selected := some ⟨p, h.length, h.fileSize, false⟩, state := .FILE_SELECTED } } : World) = w1 at c1
  have a1 : w1.api.dh = some (HeaderParse.mkHeader h) := by rw [← hw1]
  obtain ⟨m', v, hm', hv', -, key⟩ := verify_spec (hs := hs) (e := e2) (s := w1.api) (mkHeader_ok hv) a1 pw 0
  obtain ⟨k, -, hkl, hk, key⟩ := key (not_vlate_zero hclk)
  have hcont := HeaderParse.contents_mkHeader hv
  have d1 : (HeaderParse.mkHeader h).dh.ch1.desc = h.ch1 := congrArg Header.ch1 hcont
  have d2 : (HeaderParse.mkHeader h).dh.ch2.desc = h.ch2 := congrArg Header.ch2 hcont
  have d3 : v.data = h.validator := by
    have := congrArg Header.validator hcont
    simp only [DataHeader.contents, hv'] at this
    exact this
  have d4 : m' = m := by
    have : m'.toByte = h.hashMode := by rw [← hcont]; simp only [DataHeader.contents, hm']
    rw [← hm] at this
    revert this
    cases m <;> cases m' <;> decide
  subst d4
  rw [d1] at hk
  rw [d2, d3, hk, if_pos hval] at key
  have c2 : call hs rest e2 w1 (.verifyPassword pw 0) = .ok (.flag (.success true), ⟨{ w1.api with pwHash := k, state := .PASSWORD_VERIFIED }, w1.fs⟩) := by
    have : w1.api.state = .FILE_SELECTED := by rw [← hw1]
    simp only [call, this, key, Res.bind_ok]
  obtain ⟨r, c3, hr'⟩ := decrypt_ok (hs := hs) (e := e3) (w := ⟨{ w1.api with pwHash := k, state := .PASSWORD_VERIFIED }, w1.fs⟩)
    (h := h) (f := ⟨p, h.length, h.fileSize, false⟩) (m := m') (enc := enc) hv hsz hm (by rw [← hw1]; exact hmode) (by rw [← hw1])
    (by rw [← hw1]) rfl hkl (by rw [← hw1]; exact hf) hr3 hl
  refine ⟨_, r, HeaderParse.mkHeader h, ⟨p, h.length, h.fileSize, false⟩,
    call_step c1 (call_step c2 (call_step (call_decrypt rfl c3) rfl)), by rw [hr', hk], ?_, ?_, hcont, rfl⟩
  · rw [← hw1]
  · refine ⟨rfl, by rw [← hw1]; exact hmode, by rw [← hw1], mkHeader_ok hv, hm', by rw [← hw1], hp, ?_, ?_, ?_⟩
    · rw [hcont]; exact hk
    · rw [hcont, hk]; exact hval
    · rw [hcont]
      intro b hb hb0
      have := (hv.blockLen b hb).1
      rw [hb0] at this
      simp at this

end Api
end Verif

namespace Verif
open Spec

/-- the parts of a file with a valid header -/
theorem parts_of_bytes {h : Header} (hv : h.Valid) (enc : List Byte) :
    headerLen (h.bytes ++ enc) = h.length ∧ cipherBlock (h.bytes ++ enc) = digestSize h.hashMode ∧
    dataPart (h.bytes ++ enc) = enc ∧ (h.bytes ++ enc).take h.length = h.bytes := by
  have hl := length_bytes h hv.validator hv.salt hv.encLen
  have h64 := hv.size64
  have hsz := hv.size
  have e1 : headerLen (h.bytes ++ enc) = h.length := by
    have : ((h.bytes ++ enc).drop 8).take 8 = num8 h.length := rfl
    rw [headerLen, this, beValue_num8 (by omega)]
  refine ⟨e1, rfl, ?_, ?_⟩
  · rw [dataPart, e1, ← hl, List.drop_left]
  · rw [← hl, List.take_left]

theorem size_eq_digest {m : HMode} {b : Byte} (h : m.toByte = b) : digestSize b = m.size := by
  subst h; cases m <;> rfl

namespace Api
variable {hs : Hashes} {rest : Helper → Res Helper} {e : Env} {w w' : World}

/-- a file that was selected and whose password was accepted -/
theorem opened_inv {p : Path} {pw c : List Byte} {e1 e2 : Env} {w2 : World} (hst : w.api.state = .INIT)
    (hf : w.fs p = .file c) (hclk : e2.peek = 0 ∨ ∀ j, e2.peek + e2.clk 1 j < 2 ^ 64)
    (hrun : run hs rest w [.call (.selectFile p) e1, .call (.verifyPassword pw 0) e2] =
      .ok ([some (.flag (.success true)), some (.flag (.success true))], w2)) :
    ∃ (h : Header) (enc : List Byte) (m : HMode), c = h.bytes ++ enc ∧ h.Valid ∧ h.fileSize = h.length + enc.length ∧ EncPath p ∧ m.toByte = h.hashMode ∧
      h.ch2.digest (hs.get m).h (h.ch1.digest (hs.get m).h pw) = h.validator ∧ e1.canRead p = true ∧
      (e1.rand 0).good = true := by
  obtain ⟨r1, w1, r2, hr1, hr2, hrs⟩ := run_append (evs := [.call (.selectFile p) e1]).mp hrun
  simp only [run, step, Res.bind_eq_ok] at hr1 hr2
  obtain ⟨⟨v1, u1⟩, ⟨⟨a1, b1⟩, hc1, q1⟩, ⟨⟨v1', u1'⟩, q1', q1''⟩⟩ := hr1
  cases q1; cases q1'; cases q1''
  obtain ⟨⟨v2, u2⟩, ⟨⟨a2, b2⟩, hc2, q2⟩, ⟨⟨v2', u2'⟩, q2', q2''⟩⟩ := hr2
  cases q2; cases q2'; cases q2''
  simp only [List.cons_append, List.nil_append, List.cons.injEq, Option.some.injEq, and_true] at hrs
  obtain ⟨rfl, rfl⟩ := hrs
  have hc1' := hc1
  simp only [call, hst] at hc1'
  obtain ⟨⟨o, w1⟩, hsel, hc1'⟩ := Res.bind_eq_ok.mp hc1'
  simp only [Res.ok.injEq, Prod.mk.injEq, Ret.flag.injEq] at hc1'
  obtain ⟨rfl, rfl⟩ := hc1'
  rcases selectFile_cases hsel with ⟨h, -⟩ | ⟨-, f, hg, h⟩
  · exact absurd rfl h
  · rcases h with ⟨-, hw⟩ | ⟨hne, d, hd, hw⟩
    · rw [hw] at hc2
      simp only [call, selectEmptyFile] at hc2
      cases hc2
    · obtain ⟨hgood, h, enc, hv, hsz, hfile, hread, hp, rfl, rfl⟩ := select_header hg hne hd
      rw [hf] at hfile
      cases hfile
      rw [List.length_append, length_bytes h hv.validator hv.salt hv.encLen] at hsz
      obtain ⟨b, w3, k1, k2, k3⟩ := check_iff (hs := hs) (rest := rest) (e := e2) (w := w1) hv (by rw [hw]) (by rw [hw]) pw hclk
      rw [hc2] at k1
      cases k1
      obtain ⟨m, hm, hval⟩ := k3.mp rfl
      exact ⟨h, enc, m, rfl, hv, hsz, hp, hm, hval, hread, hgood⟩

end Api
end Verif
