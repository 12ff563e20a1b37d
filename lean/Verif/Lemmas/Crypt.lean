import Verif.Lemmas.BlockChain
import Verif.Model.BlockChainStream

/- What clients of the block chain compute. -/
namespace Verif
open Spec

def cryptOut (dir : Dir) (H : HashFn) (a b x : List Byte) : List Byte :=
  ((ASt.init H a b).feed dir H x).out dir H

theorem cryptPieces_eq {dir : Dir} {H : HashFn} {pw salt : Bytes} {ps : List Bytes}
    (h1 : pw.data.length = H.size) (h2 : salt.data.length = H.size) (hne : ps ≠ [])
    (hl : ∀ p ∈ ps, p.data.length < 2 ^ 31) :
    cryptPieces dir H pw salt ps = .ok (cryptOut dir H pw.data salt.data (ps.flatMap (·.data))) := by
  obtain ⟨c, hc, rc⟩ := fresh_new h1 h2
  obtain ⟨c1, hc1, r1⟩ := addPieces_fresh (dir := dir) ps hne hl rc
  rw [cryptPieces, hc, Res.bind_ok, hc1, Res.bind_ok, getResult_eq r1]
  rfl

theorem crypt_eq {dir : Dir} {H : HashFn} {pw salt : Bytes} {x : List Byte}
    (h1 : pw.data.length = H.size) (h2 : salt.data.length = H.size) (hl : x.length < 2 ^ 31) :
    crypt dir H pw salt x = .ok (cryptOut dir H pw.data salt.data x) := by
  rw [crypt, cryptPieces_eq h1 h2 (by simp) (by simpa [Bytes.full] using hl)]
  simp [Bytes.full]

theorem cryptOut_enc (H : HashFn) (a b x : List Byte) : IsEncryption H.h H.size a b x (cryptOut .enc H a b x) :=
  ASt.feed_spec .enc H a b x

theorem cryptOut_dec (H : HashFn) (a b x : List Byte) : IsEncryption H.h H.size a b (cryptOut .dec H a b x) x :=
  ASt.feed_spec .dec H a b x

theorem cryptOut_length (dir : Dir) (H : HashFn) (a b x : List Byte) : (cryptOut dir H a b x).length = x.length := by
  cases dir
  · exact (cryptOut_enc H a b x).1
  · exact (cryptOut_dec H a b x).1.symm

theorem cryptOut_dec_enc (H : HashFn) (a b x : List Byte) : cryptOut .dec H a b (cryptOut .enc H a b x) = x :=
  dec_unique (cryptOut_dec H a b (cryptOut .enc H a b x)) (cryptOut_enc H a b x)

theorem cryptOut_enc_dec (H : HashFn) (a b x : List Byte) : cryptOut .enc H a b (cryptOut .dec H a b x) = x :=
  enc_unique (cryptOut_enc H a b (cryptOut .dec H a b x)) (cryptOut_dec H a b x)

theorem cryptStream_eq {dir : Dir} {H : HashFn} {pw salt : Bytes} {s : IStream} {len : Nat}
    (h1 : pw.data.length = H.size) (h2 : salt.data.length = H.size) (hl : len < 2 ^ 31)
    (he : s.eof = false) (hr : len ≤ s.rest.length) :
    cryptStream dir H pw salt s len = .ok (cryptOut dir H pw.data salt.data (s.rest.take len)) := by
  obtain ⟨c, hc, rc⟩ := fresh_new h1 h2
  obtain ⟨c1, hc1, r1⟩ := start_fresh (dir := dir) rc len
  obtain ⟨c2, s2, hc2, r2, -, -⟩ := streamLoop_eq len hl (len + 2) 0 s c1 _ 0 r1 (by omega) he (by omega)
    (by split <;> omega)
  rw [cryptStream, hc, Res.bind_ok, Chain.addStream, hc1, Res.bind_ok, hc2, Res.bind_ok]
  dsimp only
  rw [getResult_eq r2]
  rfl

theorem cryptStream_short {dir : Dir} {H : HashFn} {pw salt : Bytes} {s : IStream} {len : Nat}
    (h1 : pw.data.length = H.size) (h2 : salt.data.length = H.size) (hl : len < 2 ^ 31)
    (he : s.eof = false) (hr : s.rest.length < len) :
    cryptStream dir H pw salt s len = .exn .runtimeError := by
  obtain ⟨c, hc, rc⟩ := fresh_new h1 h2
  obtain ⟨c1, hc1, r1⟩ := start_fresh (dir := dir) rc len
  have hc2 := streamLoop_short len hl (len + 2) 0 s c1 _ 0 r1 (by omega) he (by omega) (by split <;> omega)
  rw [cryptStream, hc, Res.bind_ok, Chain.addStream, hc1, Res.bind_ok, hc2, Res.bind_exn]

theorem height_zero {dir : Dir} {H : HashFn} {ps : List Bytes} :
    ∀ (c c' : Chain), c.height = 0 → c.addPieces dir H ps = .ok c' → c'.height = 0 := by
  have hblock : ∀ c c' : Chain, c.height = 0 → c.addBlock dir H = .ok c' → c'.height = 0 := by
    intro c c' h0 h
    rw [Chain.addBlock] at h
    split at h
    · injection h with h; subst h; exact h0
    · split at h
      · obtain ⟨g, hg, h⟩ := Res.bind_eq_ok.1 h
        obtain ⟨⟨salt, it⟩, hn, h⟩ := Res.bind_eq_ok.1 h
        obtain ⟨r, hr, h⟩ := Res.bind_eq_ok.1 h
        split at h
        · cases h
        · obtain ⟨r2, hr2, h⟩ := Res.bind_eq_ok.1 h
          obtain ⟨nb, hnb, h⟩ := Res.bind_eq_ok.1 h
          injection h with h; subst h; exact h0
      · obtain ⟨⟨salt, it⟩, hn, h⟩ := Res.bind_eq_ok.1 h
        obtain ⟨nb, hnb, h⟩ := Res.bind_eq_ok.1 h
        injection h with h; subst h; exact h0
  have hcur : ∀ (c c' : Chain) (p : Bytes), c.height = 0 → c.curAdd dir H p = .ok c' → c'.height = 0 := by
    intro c c' p h0 h
    rw [Chain.curAdd] at h
    split at h
    · cases h
    · obtain ⟨b, hb, h⟩ := Res.bind_eq_ok.1 h
      injection h with h; subst h; exact h0
  have hloop : ∀ (d : Bytes) (fuel w : Nat) (c c' : Chain), c.height = 0 →
      Chain.addLoop dir H d fuel w c = .ok c' → c'.height = 0 := by
    intro d fuel
    induction fuel with
    | zero => intro w c c' _ h; simp [Chain.addLoop] at h
    | succ fuel ih =>
      intro w c c' h0 h
      rw [Chain.addLoop] at h
      obtain ⟨part, hp, h⟩ := Res.bind_eq_ok.1 h
      obtain ⟨c1, hc1, h⟩ := Res.bind_eq_ok.1 h
      have h1 := hcur _ _ _ h0 hc1
      split at h
      · obtain ⟨c2, hc2, h⟩ := Res.bind_eq_ok.1 h
        exact ih _ _ _ (hblock _ _ h1 hc2) h
      · injection h with h; subst h; exact h1
  induction ps with
  | nil => intro c c' h0 h; injection h with h; subst h; exact h0
  | cons p ps ih =>
    intro c c' h0 h
    rw [Chain.addPieces] at h
    obtain ⟨c1, hc1, h⟩ := Res.bind_eq_ok.1 h
    refine ih c1 c' ?_ h
    rw [Chain.addData, Chain.addDataFuel] at hc1
    obtain ⟨c2, hc2, hc1⟩ := Res.bind_eq_ok.1 hc1
    refine hloop _ _ _ _ _ ?_ hc1
    rw [Chain.start] at hc2
    split at hc2
    · cases hc2
    · dsimp only at hc2
      split at hc2
      · exact hblock _ _ (by exact h0) hc2
      · injection hc2 with hc2; subst hc2; exact h0

end Verif
