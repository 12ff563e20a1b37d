import Verif.Lemmas.Stream

/-
C20–C29: the block cipher (`BlockChain`, `EncryptBlockChain`, `DecryptBlockChain`, streaming variants).
`crypt`, `cryptPieces`, `cryptStream` (Verif/Model/BlockChain.lean) are the calling sequence construct – feed – fetch.
The specification of the cipher is `IsEncryption` (Verif/Spec/Cipher.lean).
-/
namespace Verif.Props
open Verif Spec

/-- hash function, password hash and salt of the examples -/
def exCH : HashFn := toyHashes.get .sha256
def exPw : Bytes := Bytes.full (List.replicate 32 5)
def exSalt : Bytes := ⟨List.replicate 31 9 ++ [200], 40⟩
/-- 70 bytes: two full blocks and a partial one -/
def exData : List Byte := (List.range 70).map fun i => UInt8.ofNat (11 * i)

example : exPw.data.length = exCH.size ∧ exSalt.data.length = exCH.size ∧ exData.length < 2 ^ 31 := by decide
example : ∃ c, crypt .enc exCH exPw exSalt exData = .ok c ∧ c ≠ exData ∧ crypt .dec exCH exPw exSalt c = .ok exData := by
  refine ⟨_, rfl, ?_, ?_⟩ <;> decide +kernel

/-! ### C20 -/

/-- C20: decrypting what was encrypted with the same password hash and salt gives the data back. -/
theorem C20_decrypt_encrypt (H : HashFn) (pw salt : Bytes) (x : List Byte) (h1 : pw.data.length = H.size)
    (h2 : salt.data.length = H.size) (hx : x.length < 2 ^ 31) :
    ∃ c, crypt .enc H pw salt x = .ok c ∧ crypt .dec H pw salt c = .ok x := by
  refine ⟨_, crypt_eq h1 h2 hx, ?_⟩
  rw [crypt_eq h1 h2 (by rwa [cryptOut_length]), cryptOut_dec_enc]

/-- C20, other direction: every byte string is the encryption of what it decrypts to. -/
theorem C20_encrypt_decrypt (H : HashFn) (pw salt : Bytes) (c : List Byte) (h1 : pw.data.length = H.size)
    (h2 : salt.data.length = H.size) (hc : c.length < 2 ^ 31) :
    ∃ x, crypt .dec H pw salt c = .ok x ∧ crypt .enc H pw salt x = .ok c := by
  refine ⟨_, crypt_eq h1 h2 hc, ?_⟩
  rw [crypt_eq h1 h2 (by rwa [cryptOut_length]), cryptOut_enc_dec]

/-! ### C21 -/

/-- C21: encryption and decryption preserve the length. -/
theorem C21_length (dir : Dir) (H : HashFn) (pw salt : Bytes) (x y : List Byte) (h1 : pw.data.length = H.size)
    (h2 : salt.data.length = H.size) (hx : x.length < 2 ^ 31) (h : crypt dir H pw salt x = .ok y) :
    y.length = x.length := by
  rw [crypt_eq h1 h2 hx] at h
  injection h with h
  rw [← h, cryptOut_length]

example : ∃ y, crypt .enc exCH exPw exSalt exData = .ok y ∧ y.length = 70 := ⟨_, rfl, by decide +kernel⟩

/-! ### C22 -/

/-- C22: feeding the data in pieces (any number ≥ 1, any sizes, empty pieces included) gives the result of feeding it
at once. -/
theorem C22_pieces (dir : Dir) (H : HashFn) (pw salt : Bytes) (pieces : List Bytes) (h1 : pw.data.length = H.size)
    (h2 : salt.data.length = H.size) (hne : pieces ≠ []) (hx : (pieces.flatMap (·.data)).length < 2 ^ 31) :
    ∃ y, cryptPieces dir H pw salt pieces = .ok y ∧ crypt dir H pw salt (pieces.flatMap (·.data)) = .ok y := by
  refine ⟨_, cryptPieces_eq h1 h2 hne ?_, crypt_eq h1 h2 hx⟩
  intro p hp
  obtain ⟨u, v, rfl⟩ := List.append_of_mem hp
  simp only [List.flatMap_append, List.flatMap_cons, List.length_append] at hx
  omega

example : cryptPieces .enc exCH exPw exSalt
      [Bytes.empty 3, Bytes.full (exData.take 32), Bytes.empty 0, ⟨(exData.drop 32).take 1, 9⟩, Bytes.full (exData.drop 33)]
    = crypt .enc exCH exPw exSalt exData := by decide +kernel

/-- Fetching the result before anything was added dereferences a null pointer, so "at least one piece" is needed. -/
theorem C22_no_piece_undefined (dir : Dir) (H : HashFn) (pw salt : Bytes) (h1 : pw.data.length = H.size)
    (h2 : salt.data.length = H.size) : cryptPieces dir H pw salt [] = .fatal .ub := by
  simp [cryptPieces, Chain.new, SaltIter.init, Bytes.len, h1, h2, Chain.addPieces, Chain.getResult]

/-! ### C23 -/

/-- C23: feeding from a file stream equals feeding the same bytes from memory, however the stream delivers them. -/
theorem C23_stream (dir : Dir) (H : HashFn) (pw salt : Bytes) (s : IStream) (n : Nat) (h1 : pw.data.length = H.size)
    (h2 : salt.data.length = H.size) (hn : n < 2 ^ 31) (he : s.eof = false) (hlen : n ≤ s.rest.length) :
    ∃ y, cryptStream dir H pw salt s n = .ok y ∧ crypt dir H pw salt (s.rest.take n) = .ok y :=
  ⟨_, cryptStream_eq h1 h2 hn he hlen, crypt_eq h1 h2 (by simp; omega)⟩

/-- C23: a stream shorter than announced gives an error. -/
theorem C23_short_stream (dir : Dir) (H : HashFn) (pw salt : Bytes) (s : IStream) (n : Nat)
    (h1 : pw.data.length = H.size) (h2 : salt.data.length = H.size) (hn : n < 2 ^ 31) (he : s.eof = false)
    (hlen : s.rest.length < n) : cryptStream dir H pw salt s n = .exn .runtimeError :=
  cryptStream_short h1 h2 hn he hlen

example : cryptStream .dec exCH exPw exSalt ⟨exData, fun i => [3, 0, 40, 1].getD (i % 4) 2, false, false⟩ 70
    = crypt .dec exCH exPw exSalt exData ∧
    cryptStream .dec exCH exPw exSalt ⟨exData, fun _ => 5, false, false⟩ 71 = .exn .runtimeError := by decide +kernel

/-! ### C24 (violated for 2^31 bytes and more) -/

/-- C24, the part that holds: adding data of less than 2^31 bytes terminates and succeeds, on a fresh chain and after
any earlier additions, and the result can be fetched. -/
theorem C24_succeeds_partial (dir : Dir) (H : HashFn) (pw salt : Bytes) (pieces : List Bytes) (h1 : pw.data.length = H.size)
    (h2 : salt.data.length = H.size) (hne : pieces ≠ []) (hx : ∀ p ∈ pieces, p.data.length < 2 ^ 31) :
    ∃ y, cryptPieces dir H pw salt pieces = .ok y := ⟨_, cryptPieces_eq h1 h2 hne hx⟩

example : ∃ y, cryptPieces .enc exCH exPw exSalt [Bytes.full exData, Bytes.full exData] = .ok y ∧ y.length = 140 :=
  ⟨_, rfl, by decide +kernel⟩

/-- C24 violated: adding 2^31 bytes or more in one call never completes normally, whatever the number of loop rounds
allowed and whatever the state of the chain (`int` overflow in `std::min<int>`). -/
theorem C24_big_never_succeeds (dir : Dir) (H : HashFn) (c : Chain) (data : Bytes) (hb : 2 ^ 31 ≤ data.data.length)
    (hm : data.data.length < 2 ^ 63) (rounds : Nat) (c' : Chain) : c.addDataFuel dir H data rounds ≠ .ok c' := by
  intro h
  rw [Chain.addDataFuel] at h
  obtain ⟨c1, -, h⟩ := Res.bind_eq_ok.1 h
  exact addLoop_big data hm rounds 0 c1 (by simpa using hb) c' h

example : 2 ^ 31 ≤ (Bytes.full (List.replicate (2 ^ 31) 0)).data.length ∧
    (Bytes.full (List.replicate (2 ^ 31) 0)).data.length < 2 ^ 63 := by
  simp only [Bytes.full, List.length_replicate]; omega

/-! ### C25 -/

/-- C25: data strings agreeing on their first `k` bytes have encryptions (decryptions) agreeing there. -/
theorem C25_prefix (dir : Dir) (H : HashFn) (pw salt : Bytes) (x y cx cy : List Byte) (k : Nat)
    (h1 : pw.data.length = H.size) (h2 : salt.data.length = H.size) (hx : x.length < 2 ^ 31) (hy : y.length < 2 ^ 31)
    (e : x.take k = y.take k) (ex : crypt dir H pw salt x = .ok cx) (ey : crypt dir H pw salt y = .ok cy) :
    cx.take k = cy.take k := by
  rw [crypt_eq h1 h2 hx] at ex
  rw [crypt_eq h1 h2 hy] at ey
  injection ex with ex
  injection ey with ey
  subst ex ey
  cases dir
  · exact enc_prefix k (cryptOut_enc ..) (cryptOut_enc ..) e
  · exact dec_prefix k (cryptOut_dec ..) (cryptOut_dec ..) e

example : exData.take 40 = (exData.take 40 ++ [1, 2, 3]).take 40 ∧ exData ≠ exData.take 40 ++ [1, 2, 3] := by decide

/-! ### C26 -/

/-- C26: the ciphertext is the plain text plus, block by block, the salts of the documented recurrence. -/
theorem C26_encryption (H : HashFn) (pw salt : Bytes) (x c : List Byte) (h1 : pw.data.length = H.size)
    (h2 : salt.data.length = H.size) (hx : x.length < 2 ^ 31) (h : crypt .enc H pw salt x = .ok c) :
    IsEncryption H.h H.size pw.data salt.data x c := by
  rw [crypt_eq h1 h2 hx] at h
  injection h with h
  subst h
  exact cryptOut_enc ..

/-- C26: decryption subtracts the salts of the same recurrence (over the plain text it produces). -/
theorem C26_decryption (H : HashFn) (pw salt : Bytes) (c x : List Byte) (h1 : pw.data.length = H.size)
    (h2 : salt.data.length = H.size) (hc : c.length < 2 ^ 31) (h : crypt .dec H pw salt c = .ok x) :
    IsEncryption H.h H.size pw.data salt.data x c := by
  rw [crypt_eq h1 h2 hc] at h
  injection h with h
  subst h
  exact cryptOut_dec ..

/-- byte 40 (block 2, position 8) of a concrete encryption -/
example : ∃ c, crypt .enc exCH exPw exSalt exData = .ok c ∧
    c[40]? = some (exData[40] + (blockSalt exCH.h 32 exPw.data exSalt.data exData 2)[8]!) :=
  ⟨_, rfl, by decide +kernel⟩

/-! ### C27 -/

/-- C27: a chain can be constructed exactly when password hash and salt have the digest size. -/
theorem C27_construction (H : HashFn) (pw salt : Bytes) :
    (∃ c, Chain.new H pw salt = .ok c) ↔ pw.data.length = H.size ∧ salt.data.length = H.size := by
  constructor
  · rintro ⟨c, h⟩
    rw [Chain.new] at h
    obtain ⟨it, h, -⟩ := Res.bind_eq_ok.1 h
    rw [SaltIter.init] at h
    split at h
    · cases h
    · split at h
      · cases h
      · simp only [Bytes.len] at *; constructor <;> omega
  · rintro ⟨h1, h2⟩
    obtain ⟨c, hc, -⟩ := fresh_new h1 h2
    exact ⟨c, hc⟩

/-- C27: otherwise the constructor throws an invalid-argument error. -/
theorem C27_refused (H : HashFn) (pw salt : Bytes) (h : ¬ (pw.data.length = H.size ∧ salt.data.length = H.size)) :
    Chain.new H pw salt = .exn .invalidArgument := by
  have : SaltIter.init H pw salt = .exn .invalidArgument := by
    rw [SaltIter.init]
    split
    · rfl
    · split
      · rfl
      · simp only [Bytes.len] at *; omega
  rw [Chain.new, this, Res.bind_exn]

example : Chain.new exCH exPw (Bytes.full [1, 2]) = .exn .invalidArgument ∧
    ∃ c, Chain.new exCH exPw exSalt = .ok c := ⟨by decide, _, rfl⟩

/-! ### C28 (violated) -/

/-- number of blocks the documentation promises after `n ≥ 1` bytes were added -/
def blocksFor (n size : Nat) : Nat := (n + size - 1) / size

/-- C28 violated: the reported height is 0 after every history of additions. -/
theorem C28_height_always_zero (dir : Dir) (H : HashFn) (pw salt : Bytes) (pieces : List Bytes) (c c' : Chain)
    (hc : Chain.new H pw salt = .ok c) (h : c.addPieces dir H pieces = .ok c') : c'.getHeight = 0 := by
  refine height_zero c c' ?_ h
  rw [Chain.new] at hc
  obtain ⟨it, -, hc⟩ := Res.bind_eq_ok.1 hc
  injection hc with hc
  rw [← hc]

/-- C28 violated, concrete witness: after 70 bytes (three blocks of 32) the chain reports height 0 and a size near
2^64. -/
theorem C28_violated : ∃ c c', Chain.new exCH exPw exSalt = .ok c ∧
    c.addPieces .enc exCH [Bytes.full exData] = .ok c' ∧ exData.length = 70 ∧ blocksFor 70 32 = 3 ∧
    c'.getHeight = 0 ∧ c'.getDataSize exCH = 2 ^ 64 - 26 :=
  ⟨_, _, rfl, rfl, by decide, by decide, by decide, by decide +kernel⟩

/-- C28, the part that holds: a chain to which nothing was added reports height 0 and size 0. -/
theorem C28_fresh_partial (H : HashFn) (pw salt : Bytes) (c : Chain) (hc : Chain.new H pw salt = .ok c) :
    c.getHeight = 0 ∧ c.getDataSize H = 0 := by
  rw [Chain.new] at hc
  obtain ⟨it, -, hc⟩ := Res.bind_eq_ok.1 hc
  injection hc with hc
  subst hc
  simp [Chain.getHeight, Chain.getDataSize, Chain.freeSpace]

/-! ### C29 (violated) -/

/-- C29 violated: the streaming chain never writes anything: every first use, with any valid key material, any stream
content and delivery, ends in `std::terminate`. -/
theorem C29_streaming_terminates (dir : Dir) (H : HashFn) (pw salt : Bytes) (s : IStream) (c : SChain)
    (hc : SChain.new H pw salt = .ok c) : c.encStream dir H SChain.codeSeedCap s = .fatal .terminate := by
  rw [SChain.new] at hc
  obtain ⟨it, hit, hc⟩ := Res.bind_eq_ok.1 hc
  injection hc with hc
  subst hc
  have hfirst : it.first = true := by
    rw [SaltIter.init] at hit
    split at hit
    · cases hit
    · split at hit
      · cases hit
      · injection hit with hit; rw [← hit]
  have hpos := H.pos
  have hseed : it.seed H (Bytes.empty SChain.codeSeedCap) = .exn .lengthError := by
    rw [SaltIter.seed, if_pos hfirst, Bytes.setBytes, if_pos (by simp [Bytes.empty, SChain.codeSeedCap]; omega)]
  have hb : (⟨none, it⟩ : SChain).setBlock H SChain.codeSeedCap = .fatal .terminate := by
    rw [SChain.setBlock]
    simp [SChain.freeSpace, SaltIter.next, hseed]
  rw [SChain.encStream]
  simp [hb]

/-- C29, the part that holds: the streaming chain accepts exactly the key material the in-memory chain accepts. -/
theorem C29_construction_partial (H : HashFn) (pw salt : Bytes) :
    (∃ c, SChain.new H pw salt = .ok c) ↔ ∃ c, Chain.new H pw salt = .ok c := by
  simp only [SChain.new, Chain.new]
  cases SaltIter.init H pw salt <;> simp

example : ∃ c, SChain.new exCH exPw exSalt = .ok c := ⟨_, rfl⟩

theorem schain_new {H : HashFn} {pw salt : Bytes} (h1 : pw.data.length = H.size) (h2 : salt.data.length = H.size) :
    SChain.new H pw salt = .ok ⟨none, ⟨true, pw, salt⟩⟩ := by
  simp [SChain.new, SaltIter.init, Bytes.len, h1, h2]

/-- C29, what would hold if the seed of the first salt had the room the chain in memory gives it: data that fill a positive
number of whole blocks and arrive in whole blocks are encrypted (decrypted) as documented. -/
theorem C29_repaired_partial (dir : Dir) (H : HashFn) (pw salt : Bytes) (n : Nat) (hn : H.size ≤ n) (s : IStream) (m : Nat)
    (h1 : pw.data.length = H.size) (h2 : salt.data.length = H.size) (he : s.eof = false) (hl : s.rest.length = (m + 1) * H.size)
    (hs : ∀ i, H.size ≤ s.sched i) :
    ∃ c c' out, SChain.new H pw salt = .ok c ∧ c.encStream dir H n s = .ok (c', out) ∧
      match dir with
      | .enc => IsEncryption H.h H.size pw.data salt.data s.rest out
      | .dec => IsEncryption H.h H.size pw.data salt.data out s.rest := by
  obtain ⟨c1, hc1, r1⟩ := SChain.first_block (dir := dir) h1 h2 hn
  have hpos := H.pos
  have hm : m ≤ s.rest.length := by
    rw [hl]
    exact Nat.le_trans (Nat.le_succ m) (Nat.le_mul_of_pos_right _ (by omega))
  obtain ⟨c2, x, hc2, hx, -, -⟩ := encLoop_blocks (n := n) m (s.rest.length + 2) c1 _ s r1 rfl he hl hs (by omega)
  refine ⟨_, c2, cryptOut dir H pw.data salt.data s.rest, schain_new h1 h2, ?_, ?_⟩
  · rw [SChain.encStream]
    simp only [hc1, Res.bind_ok]
    rw [hc2, List.nil_append, show x = cryptOut dir H pw.data salt.data s.rest from hx]
    rfl
  · cases dir
    · exact cryptOut_enc ..
    · exact cryptOut_dec ..

/-- C29, with the same repair: several calls on one chain, each with data that fill a positive number of whole blocks and
arrive in whole blocks, write together what one call would write for all the data. -/
theorem C29_repaired_calls_partial (dir : Dir) (H : HashFn) (pw salt : Bytes) (n : Nat) (hn : H.size ≤ n) (ss : List IStream)
    (hne : ss ≠ []) (h1 : pw.data.length = H.size) (h2 : salt.data.length = H.size)
    (hs : ∀ s ∈ ss, s.eof = false ∧ (∃ m, s.rest.length = (m + 1) * H.size) ∧ ∀ i, H.size ≤ s.sched i) :
    ∃ c c' out, SChain.new H pw salt = .ok c ∧ c.encStreams dir H n ss = .ok (c', out) ∧
      match dir with
      | .enc => IsEncryption H.h H.size pw.data salt.data (ss.flatMap (·.rest)) out
      | .dec => IsEncryption H.h H.size pw.data salt.data out (ss.flatMap (·.rest)) := by
  obtain ⟨s, ss, rfl⟩ := List.exists_cons_of_ne_nil hne
  obtain ⟨c1, hc1, r1⟩ := SChain.first_block (dir := dir) h1 h2 hn
  obtain ⟨he, ⟨m, hl⟩, hd⟩ := hs s List.mem_cons_self
  have hpos := H.pos
  have hm : m ≤ s.rest.length := by
    rw [hl]
    exact Nat.le_trans (Nat.le_succ m) (Nat.le_mul_of_pos_right _ (by omega))
  obtain ⟨c2, x, hc2, hx, r2, hf⟩ := encLoop_blocks (n := n) m (s.rest.length + 2) c1 _ s r1 rfl he hl hd (by omega)
  obtain ⟨c3, y, hc3, hy⟩ := encStreams_again (n := n) ss c2 _ r2 hf fun t ht => hs t (List.mem_cons_of_mem _ ht)
  refine ⟨_, c3, cryptOut dir H pw.data salt.data ((s :: ss).flatMap (·.rest)), schain_new h1 h2, ?_, ?_⟩
  · rw [SChain.encStreams, SChain.encStream]
    simp only [hc1, Res.bind_ok]
    rw [hc2, List.nil_append]
    simp only [Res.noexcept, Res.bind_ok, hc3]
    rw [← hx, ASt.feed_append] at hy
    rw [show x ++ y = cryptOut dir H pw.data salt.data ((s :: ss).flatMap (·.rest)) from hy]
  · cases dir
    · exact cryptOut_enc ..
    · exact cryptOut_dec ..

/-- one block, then two more -/
example : ∃ c c' out, SChain.new exCH exPw exSalt = .ok c ∧
    c.encStreams .enc exCH 255 [⟨exData.take 32, fun i => 32 + 5 * i, false, false⟩,
      ⟨(exData.drop 32).take 32, fun _ => 32, false, false⟩] = .ok (c', out) ∧
    crypt .enc exCH exPw exSalt (exData.take 64) = .ok out := ⟨_, _, _, rfl, rfl, by decide +kernel⟩

/-- C29 violated also apart from the seed: data that are empty or do not end at the end of a block end in `std::terminate`, for
every room the seed might have and every way in which the data arrive. -/
theorem C29_violated_ragged (dir : Dir) (H : HashFn) (pw salt : Bytes) (n : Nat) (s : IStream) (c : SChain)
    (hc : SChain.new H pw salt = .ok c) (hs : s.rest = [] ∨ s.rest.length % H.size ≠ 0) :
    c.encStream dir H n s = .fatal .terminate := by
  obtain ⟨h1, h2⟩ := (C27_construction H pw salt).mp ((C29_construction_partial H pw salt).mp ⟨c, hc⟩)
  rw [schain_new h1 h2] at hc
  cases hc
  rw [SChain.encStream]
  by_cases hn : H.size ≤ n
  · obtain ⟨c1, hc1, r1⟩ := SChain.first_block (dir := dir) h1 h2 hn
    simp only [hc1, Res.bind_ok]
    rw [encLoop_ragged _ c1 _ s _ r1 rfl (.inr hs) (by omega)]
    rfl
  · have hseed : (⟨true, pw, salt⟩ : SaltIter).seed H (Bytes.empty n) = .exn .lengthError := by
      rw [SaltIter.seed, if_pos rfl, Bytes.setBytes, if_pos (by simp [Bytes.empty]; omega)]
    have hb : (⟨none, ⟨true, pw, salt⟩⟩ : SChain).setBlock H n = .fatal .terminate := by
      rw [SChain.setBlock]
      simp [SChain.freeSpace, SaltIter.next, hseed]
    simp [hb]

/-- two blocks, delivered as one block and more; and one byte less -/
example : ∃ c c' out, SChain.new exCH exPw exSalt = .ok c ∧
    c.encStream .enc exCH 255 ⟨exData.take 64, fun i => 32 + 5 * i, false, false⟩ = .ok (c', out) ∧
    crypt .enc exCH exPw exSalt (exData.take 64) = .ok out ∧
    c.encStream .enc exCH 255 ⟨exData.take 63, fun i => 32 + 5 * i, false, false⟩ = .fatal .terminate :=
  ⟨_, _, _, rfl, rfl, by decide +kernel, by decide +kernel⟩

example : (exData.take 64).length = (1 + 1) * exCH.size ∧ (∀ i, exCH.size ≤ 32 + 5 * i) ∧ exCH.size ≤ 255 ∧
    (exData.take 63).length % exCH.size ≠ 0 := by
  refine ⟨by decide, fun i => ?_, by decide, by decide⟩
  show 32 ≤ _
  omega

end Verif.Props
