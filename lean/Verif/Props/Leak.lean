import Verif.Model.Settings
import Verif.Spec.Leak
import Verif.Props.DataHeader

/- C88: what encrypted data blocks give away without the password. -/
namespace Verif.Props
open Spec

/-- a made block, from outside -/
theorem made_form (H : HashFn) (b : DataBlock) (pw salt : Bytes) (hs : salt.data.length = H.size) (r : Rand) {e : EncDataBlock}
    (he : EncDataBlock.make b H pw salt r = .ok e) (hr : r.good = true) (hb : b.data.data.length ≤ 255) :
    b.data.data.length = 255 ∧ e.getEnc.data = addB b.data.data (encStream H.h (H.h pw.data) 257 salt.data) ∧
      e.getEncLen = 255 + (H.h pw.data).getD 1 0 := by
  rw [EncDataBlock.make_eq b H pw salt r hr hb hs] at he
  split at he
  · rename_i h
    cases he
    exact ⟨h, zipWith_add _ _, rfl⟩
  · cases he

theorem addB_sub (a : List Byte) : ∀ k : List Byte, a.length ≤ k.length → subB (addB a k) k = a := by
  induction a with
  | nil => intro k _; cases k <;> rfl
  | cons x a ih =>
    intro k hk
    cases k with
    | nil => simp at hk
    | cons y k =>
      simp only [addB, subB, UInt8.add_sub_cancel, List.cons.injEq, true_and]
      exact ih k (by simpa using hk)

theorem addB_shift (a b : List Byte) : ∀ k : List Byte, a.length = b.length → a.length ≤ k.length →
    addB a (subB (addB b k) (addB a k)) = b := by
  induction a generalizing b with
  | nil => intro k h _; cases b with | nil => rfl | cons => simp at h
  | cons x a ih =>
    intro k h hk
    cases k with
    | nil => simp at hk
    | cons y k =>
      cases b with
      | nil => simp at h
      | cons z b =>
        simp only [addB, subB, List.cons.injEq]
        refine ⟨?_, ih b k (by simpa using h) (by simpa using hk)⟩
        grind

theorem addB_diff (a b : List Byte) : ∀ k : List Byte, subB (addB a k) (addB b k) = (subB a b).take k.length := by
  induction a generalizing b with
  | nil => intro k; cases k <;> simp [addB, subB]
  | cons x a ih =>
    intro k
    cases k with
    | nil => cases b <;> simp [addB, subB]
    | cons y k =>
      cases b with
      | nil => simp [addB, subB]
      | cons z b =>
        simp only [addB, subB, List.length_cons, List.take_succ_cons, List.cons.injEq]
        exact ⟨by grind, ih b k⟩

theorem addB_fit (a : List Byte) : ∀ c : List Byte, a.length = c.length → ∃ k : List Byte, k.length = c.length ∧ addB a k = c := by
  induction a with
  | nil => intro c h; cases c with | nil => exact ⟨[], rfl, rfl⟩ | cons => simp at h
  | cons x a ih =>
    intro c h
    cases c with
    | nil => simp at h
    | cons y c =>
      obtain ⟨k, h1, h2⟩ := ih c (by simpa using h)
      exact ⟨(y - x) :: k, by simp [h1], by simp only [addB, h2, List.cons.injEq, and_true]; grind⟩

/-! ## C88 -/

/-- C88, for a single encrypted data block whose key stream is not known in any way: it is its contents plus the key stream
that password hash and salt give, and any other contents would give the same stored bytes with another key stream; also the
stored length byte is the same for all contents.

Missing: the key stream of the other blocks of the header is the same (`C88_violated_difference`, `C88_violated_known`), and the
header may contain its key (`C88_violated_validator`). -/
theorem C88_one_block_partial (H : HashFn) (b : DataBlock) (pw salt : Bytes) (hs : salt.data.length = H.size)
    (hb : b.data.data.length ≤ 255) (r : Rand) (hr : r.good = true) (e : EncDataBlock)
    (he : EncDataBlock.make b H pw salt r = .ok e) :
    e.getEnc.data = addB b.data.data (encStream H.h (H.h pw.data) 257 salt.data) ∧ e.getEnc.data.length = 255 ∧
    e.getEncLen = 255 + (H.h pw.data).getD 1 0 ∧
    ∀ other : List Byte, other.length = 255 → ∃ k : List Byte, k.length = 255 ∧ e.getEnc.data = addB other k := by
  obtain ⟨l1, c1, c2⟩ := made_form H b pw salt hs r he hr hb
  have hl := EncDataBlock.length_encStream H.h H.size H.len (H.h pw.data) 257 salt.data
  have h2 := H.pos
  have hle : 255 ≤ 257 * H.size := by omega
  have h255 : e.getEnc.data.length = 255 := by rw [c1, length_addB, l1, hl]; omega
  refine ⟨c1, h255, c2, fun other ho => ?_⟩
  obtain ⟨k, k1, k2⟩ := addB_fit other e.getEnc.data (by rw [ho, h255])
  exact ⟨k, by rw [k1, h255], k2.symm⟩

/-! Two blocks with the same password hash and salt, and a header for them. -/

def leakPw : Bytes := Bytes.full (List.replicate 32 3)
def leakSalt : Bytes := Bytes.full (List.replicate 32 5)
def leakBlock (x : Byte) : DataBlock := ⟨7, Bytes.full ((List.range 255).map fun i => UInt8.ofNat (i * i) + x)⟩
def leakEnc (x : Byte) : EncDataBlock :=
  match EncDataBlock.make (leakBlock x) (toyHashes.get .sha256) leakPw leakSalt sampleRand with
  | .ok e => e
  | _ => ⟨DataBlock.default, 0⟩
/-- how a block is stored -/
def stored (e : EncDataBlock) : Byte × Byte × List Byte := (e.getEncType, e.getEncLen, e.getEnc.data)
def leakDesc : ChainDesc := ⟨1, 1, []⟩
/-- modes of the least expensive settings -/
def leakHeader : Header :=
  ⟨1000, 1, 1, [], ⟨1, 1, []⟩, leakDesc, leakDesc.digest (toyHashes.get .sha256).h leakPw.data, leakSalt.data,
    [stored (leakEnc 1), stored (leakEnc 2)]⟩

example : EncDataBlock.make (leakBlock 1) (toyHashes.get .sha256) leakPw leakSalt sampleRand = .ok (leakEnc 1) ∧
    EncDataBlock.make (leakBlock 2) (toyHashes.get .sha256) leakPw leakSalt sampleRand = .ok (leakEnc 2) ∧
    leakSalt.data.length = (toyHashes.get .sha256).size ∧ sampleRand.good = true ∧ (leakEnc 1).getEnc ≠ (leakBlock 1).data ∧
    leakEnc 1 ≠ leakEnc 2 := by decide +kernel

/-- C88 violated: two encrypted data blocks of one header differ byte by byte exactly as their contents do, whatever the hash
function, the password and the salt are. -/
theorem C88_violated_difference (H : HashFn) (b1 b2 : DataBlock) (pw salt : Bytes) (hs : salt.data.length = H.size)
    (hb1 : b1.data.data.length ≤ 255) (hb2 : b2.data.data.length ≤ 255)
    (r1 r2 : Rand) (hr1 : r1.good = true) (hr2 : r2.good = true) (e1 e2 : EncDataBlock)
    (h1 : EncDataBlock.make b1 H pw salt r1 = .ok e1) (h2 : EncDataBlock.make b2 H pw salt r2 = .ok e2) :
    subB e1.getEnc.data e2.getEnc.data = subB b1.data.data b2.data.data := by
  obtain ⟨l1, c1, -⟩ := made_form H b1 pw salt hs r1 h1 hr1 hb1
  obtain ⟨-, c2, -⟩ := made_form H b2 pw salt hs r2 h2 hr2 hb2
  have hl := EncDataBlock.length_encStream H.h H.size H.len (H.h pw.data) 257 salt.data
  have h2 := H.pos
  have hle : 255 ≤ 257 * H.size := by omega
  rw [c1, c2, addB_diff, List.take_of_length_le]
  rw [hl, length_subB, l1]
  omega

/-- C88 violated: whoever knows the contents of one encrypted data block reads all others of the header without the
password. -/
theorem C88_violated_known (H : HashFn) (b1 b2 : DataBlock) (pw salt : Bytes) (hs : salt.data.length = H.size)
    (hb1 : b1.data.data.length ≤ 255) (hb2 : b2.data.data.length ≤ 255)
    (r1 r2 : Rand) (hr1 : r1.good = true) (hr2 : r2.good = true) (e1 e2 : EncDataBlock)
    (h1 : EncDataBlock.make b1 H pw salt r1 = .ok e1) (h2 : EncDataBlock.make b2 H pw salt r2 = .ok e2) :
    readBeside b1.data.data e1.getEnc.data e2.getEnc.data = b2.data.data := by
  obtain ⟨l1, c1, -⟩ := made_form H b1 pw salt hs r1 h1 hr1 hb1
  obtain ⟨l2, c2, -⟩ := made_form H b2 pw salt hs r2 h2 hr2 hb2
  have hl := EncDataBlock.length_encStream H.h H.size H.len (H.h pw.data) 257 salt.data
  have h2 := H.pos
  have hle : 255 ≤ 257 * H.size := by omega
  rw [readBeside, c1, c2]
  exact addB_shift _ _ _ (by rw [l1, l2]) (by rw [l1, hl]; omega)

theorem digest_plain (h : List Byte → List Byte) (x : List Byte) : (⟨1, 1, []⟩ : ChainDesc).digest h x = h x := by
  show h (x ++ []) = h x
  rw [List.append_nil]

/-- C88 violated: if the second chain hash is the plain one with one iteration, which the settings allow, the validator in the
header is the very key of the encrypted data blocks. Everybody who has the file reads them, without a password. -/
theorem C88_violated_validator (H : HashFn) (b : DataBlock) (pw salt : Bytes) (hd : Header) (hs : hd.salt = salt.data)
    (hl : salt.data.length = H.size) (hc : hd.ch2 = ⟨1, 1, []⟩) (hv : hd.validator = hd.ch2.digest H.h pw.data)
    (hb : b.data.data.length ≤ 255) (r : Rand) (hr : r.good = true) (e : EncDataBlock)
    (he : EncDataBlock.make b H pw salt r = .ok e) :
    readBlock H.h hd (e.getEncType, e.getEncLen, e.getEnc.data) = b.data.data := by
  obtain ⟨l1, c1, c2⟩ := made_form H b pw salt hl r he hr hb
  have hlen := EncDataBlock.length_encStream H.h H.size H.len (H.h pw.data) 257 salt.data
  have h2 := H.pos
  have hle : 255 ≤ 257 * H.size := by omega
  rw [hc, digest_plain] at hv
  have e255 : ((255 : Byte) + (H.h pw.data).getD 1 0 - (H.h pw.data).getD 1 0).toNat = 255 := by
    rw [UInt8.add_sub_cancel]; rfl
  simp only [readBlock, c1, c2, hv, hs, e255]
  rw [List.take_of_length_le (by rw [length_addB, l1]; omega)]
  exact addB_sub _ _ (by rw [l1, hlen]; omega)

/-- the settings are accepted, the header is valid, and its blocks are read from it -/
example : leakHeader.Valid ∧ leakHeader.ch2 = ⟨1, 1, []⟩ ∧
    leakHeader.validator = leakHeader.ch2.digest (toyHashes.get .sha256).h leakPw.data ∧
    leakHeader.encBlocks.map (readBlock (toyHashes.get .sha256).h leakHeader) = [(leakBlock 1).data.data, (leakBlock 2).data.data] ∧
    ((SettingsIters.setChainHash2Mode {} 1).bind fun s => s.setChainHash2Iters 1) = .ok { ch2Mode := some 1, ch2Iters := some 1 } :=
  ⟨⟨by decide +kernel, by decide +kernel, rfl, .inl rfl, by decide +kernel, by simp [leakHeader], by decide +kernel,
    by decide +kernel, by decide +kernel, by decide +kernel, by decide +kernel, by decide +kernel⟩, rfl, rfl, by decide +kernel,
    by decide +kernel⟩

end Verif.Props
