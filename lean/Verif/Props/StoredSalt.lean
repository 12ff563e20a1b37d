import Verif.Props.Secrecy

/- The salt in the header: C97. -/
namespace Verif.Props
open Spec Sha2

/-- the salt as documented in docs/doc.md: the stored salt minus the password hash, byte by byte modulo 256 -/
def minusKey (stored key : List Byte) : List Byte := subB stored key

/-- the salt as documented in docs/dataheader.md: the stored salt xor the password hash -/
def xorKey (stored key : List Byte) : List Byte := List.zipWith (· ^^^ ·) stored key

/-- C97, what holds instead: the content that the program shows for a file goes with the encrypted data when the salt is the
stored one as it is. Missing: the decryption of the stored salt, which the program does not do (`C97_violated`). -/
theorem C97_stored_partial {hs : Hashes} {rest : Api.Helper → Res Api.Helper} (mode : Byte) (s0 : Session)
    (h0 : Api.new mode = .ok s0) (fs : FS) (p : Path) (hp : EncPath p) (hd : Header) (hv : hd.Valid) (m : HMode)
    (hm : m.toByte = hd.hashMode) (pw enc : List Byte) (hopen : Opens hs hd pw) (hsz : hd.fileSize = hd.length + enc.length)
    (hl : enc.length < 2 ^ 31) (hf : fs p = .file (hd.bytes ++ enc)) (e : Nat → Env) (he : ∀ i, Healthy (e i) p) :
    ∃ (r : Bytes) (w : World), Api.run hs rest ⟨s0, fs⟩ [.call (.selectFile p) (e 0), .call (.verifyPassword pw 0) (e 1),
        .call .getDecryptedData (e 2)] =
        .ok ([some (.flag (.success true)), some (.flag (.success true)), some (.data (.success ⟨some mode, some r⟩))], w) ∧
      IsEncryption (hs.get m).h m.size (hd.ch1.digest (hs.get m).h pw) hd.salt r.data enc := by
  obtain ⟨rfl, rfl⟩ := new_mode h0
  obtain ⟨m0, k1, k2⟩ := hopen
  have : m0 = m := by
    have := k1.trans hm.symm
    revert this; cases m0 <;> cases m <;> decide
  subst this
  obtain ⟨w, r, -, -, d1, d2, -⟩ := Api.open_holds (rest := rest) (hs := hs)
    (w := ⟨⟨.INIT, 1, none, Bytes.empty 0, none, none, none⟩, fs⟩) (h := hd) hp hv hsz rfl rfl hf (m := m0) hm
    k2 hl (he 0).read ((he 0).rand 0) (he 1).clock (he 2).read
  refine ⟨r, w, d1, ?_⟩
  have := cryptOut_dec (hs.get m0) (hd.ch1.digest (hs.get m0).h pw) hd.salt enc
  rw [Hashes.get_size, ← d2] at this
  exact this

/-- the sample file made with SHA-256, opened again -/
example : runWith sha2 sampleSave (fun _ w =>
    (match Api.run sha2 noRest (freshWorld w.fs) [.call (.selectFile samplePath) openEnv, .call (.verifyPassword samplePw 0) openEnv,
        .call .getDecryptedData openEnv] with
      | .ok ([some (.flag (.success true)), some (.flag (.success true)), some (.data (.success ⟨some 1, some r⟩))], _) =>
        r.data == ascii "hello"
      | _ => false)) = true := by decide +kernel

/-- byte `k` of the encryption of `x` with the given salt, if it is in the first block -/
def firstBlockByte (key salt x : List Byte) (k : Nat) : Option Byte := do
  (← x[k]?) + (← (blockSalt sha256 32 key salt x 1)[k]?)

theorem not_encryption {key salt x c : List Byte} {k : Nat} (hk : k < 32) (hx : k < x.length)
    (h : firstBlockByte key salt x k ≠ c[k]?) : ¬ IsEncryption sha256 32 key salt x c := by
  intro he
  obtain ⟨s, h1, h2⟩ := he.2 k x[k] (List.getElem?_eq_getElem hx)
  rw [Nat.div_eq_of_lt hk, Nat.mod_eq_of_lt hk] at h1
  refine h ?_
  rw [h2, firstBlockByte, List.getElem?_eq_getElem hx]
  simp [h1]

/-- C97 is violated: with SHA-256, what the program makes of a text, a password hash and a stored salt is not the encryption with the
decrypted salt, neither with the one of docs/doc.md nor with the one of docs/dataheader.md. -/
theorem C97_violated : ∃ (key stored : Bytes) (x c : List Byte), key.data.length = 32 ∧ stored.data.length = 32 ∧
    crypt .enc (sha2.get .sha256) key stored x = .ok c ∧ IsEncryption sha256 32 key.data stored.data x c ∧
    ¬ IsEncryption sha256 32 key.data (minusKey stored.data key.data) x c ∧
    ¬ IsEncryption sha256 32 key.data (xorKey stored.data key.data) x c := by
  have l1 : secretKey.data.length = 32 := by decide +kernel
  have l2 : secretSalt.data.length = 32 := by decide +kernel
  obtain ⟨c, hc, -⟩ := C20_decrypt_encrypt (sha2.get .sha256) secretKey secretSalt secretText l1 l2 (by decide +kernel)
  have he := C26_encryption _ _ _ _ _ l1 l2 (by decide +kernel) hc
  have hb : c[0]? = firstBlockByte secretKey.data secretSalt.data secretText 0 := by
    have := not_encryption (key := secretKey.data) (salt := secretSalt.data) (x := secretText) (c := c) (k := 0) (by decide)
      (by decide +kernel)
    exact Classical.byContradiction fun h => this (fun h' => h h'.symm) he
  refine ⟨secretKey, secretSalt, secretText, c, l1, l2, hc, he, ?_, ?_⟩
  · refine not_encryption (k := 0) (by decide) (by decide +kernel) ?_
    rw [hb]
    decide +kernel
  · refine not_encryption (k := 0) (by decide) (by decide +kernel) ?_
    rw [hb]
    decide +kernel

end Verif.Props
