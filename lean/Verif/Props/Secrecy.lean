import Verif.Spec.Secrecy
import Verif.Lemmas.Secrecy
import Verif.Props.BlockChain
import Verif.Props.Tamper
import Verif.Props.Collision
import Verif.Props.Sha2

/- What a file tells about its content to somebody who does not have the password: C95. -/
namespace Verif.Props
open Spec Sha2

variable {hs : Hashes} {rest : Api.Helper → Res Api.Helper}

/-- C95: the encrypted data is the data plus the hashes of the key inputs, block by block, and which inputs these are depends on
the hashes of other inputs only: `keyInputs` is computed with `H`, and `H'` may have any values there. So whoever does not know these
hashes faces a one-time pad: exactly one pad of the length of the data fits each ciphertext, whatever the data. -/
theorem C95_pad (H H' : HashFn) (pw salt : Bytes) (x : List Byte) (h1 : pw.data.length = H.size) (h2 : salt.data.length = H.size)
    (hx : x.length < 2 ^ 31) (hsize : H'.size = H.size)
    (hout : ∀ z, z ∉ keyInputs H.h H.size pw.data salt.data x → H'.h z = H.h z)
    (hd : ∀ z ∈ keyInputs H.h H.size pw.data salt.data x, z ∉ pathInputs H.h H.size pw.data salt.data x) :
    crypt .enc H' pw salt x = .ok (addB x ((keyInputs H.h H.size pw.data salt.data x).flatMap H'.h)) ∧
    ∀ c, crypt .enc H' pw salt x = .ok c ↔
      c.length = x.length ∧ ((keyInputs H.h H.size pw.data salt.data x).flatMap H'.h).take x.length = subB c x := by
  have hp := pad_encryption (a := pw.data) (b := salt.data) hsize hout hd
  generalize (keyInputs H.h H.size pw.data salt.data x).flatMap H'.h = pad at hp ⊢
  have hc : crypt .enc H' pw salt x = .ok (addB x pad) := by
    rw [crypt_eq (by omega) (by omega) hx, enc_unique (cryptOut_enc H' pw.data salt.data x) hp]
  refine ⟨hc, fun c => ?_⟩
  have hlen : x.length ≤ pad.length := by have := hp.1; rw [length_addB] at this; omega
  rw [hc]
  constructor
  · intro h
    cases h
    refine ⟨hp.1, ?_⟩
    apply List.ext_getElem?
    intro k
    rw [getElem?_subB, getElem?_addB, List.getElem?_take]
    by_cases hk : k < x.length
    · rw [if_pos hk, List.getElem?_eq_getElem hk, List.getElem?_eq_getElem (show k < pad.length by omega)]
      simp only [UInt8.add_comm x[k], UInt8.add_sub_cancel]
    · rw [if_neg hk, List.getElem?_eq_none (show x.length ≤ k by omega)]
  · rintro ⟨h3, h4⟩
    congr 1
    apply List.ext_getElem?
    intro k
    have h5 := congrArg (·[k]?) h4
    simp only [getElem?_subB, List.getElem?_take] at h5
    rw [getElem?_addB]
    by_cases hk : k < x.length
    · rw [if_pos hk, List.getElem?_eq_getElem hk, List.getElem?_eq_getElem (show k < pad.length by omega),
        List.getElem?_eq_getElem (show k < c.length by omega)] at h5
      rw [List.getElem?_eq_getElem hk, List.getElem?_eq_getElem (show k < pad.length by omega),
        List.getElem?_eq_getElem (show k < c.length by omega)]
      simp only [Option.some.injEq] at h5
      simp only [h5, UInt8.add_comm x[k], UInt8.sub_add_cancel]
    · rw [List.getElem?_eq_none (show x.length ≤ k by omega), List.getElem?_eq_none (show c.length ≤ k by omega)]

/-- a hash function with chosen values at the listed inputs -/
theorem chosen_hash (H : HashFn) (l : List (List Byte)) (hl : l.Nodup) (v : Nat → List Byte) (hv : ∀ i, (v i).length = H.size) :
    ∃ H' : HashFn, H'.size = H.size ∧ (∀ z, z ∉ l → H'.h z = H.h z) ∧ ∀ i z, l[i]? = some z → H'.h z = v i := by
  refine ⟨⟨H.size, fun z => if z ∈ l then v (l.idxOf z) else H.h z, ?_, H.pos, H.small⟩, rfl, ?_, ?_⟩
  · intro z
    split
    · exact hv _
    · exact H.len z
  · intro z hz
    exact if_neg hz
  · intro i z hz
    obtain ⟨hi, rfl⟩ := List.getElem?_eq_some_iff.mp hz
    have : l.idxOf l[i] = i := hl.idxOf_getElem i hi
    show (if l[i] ∈ l then v (l.idxOf l[i]) else H.h l[i]) = v i
    rw [if_pos (List.getElem_mem hi), this]

/-- the pad that turns one byte string into another, cut into blocks -/
theorem cut_pad {n : Nat} (hn : 0 < n) (d : List Byte) : ∃ v : Nat → List Byte, (∀ i, (v i).length = n) ∧
    ∀ k, k < d.length → (v (k / n))[k % n]? = d[k]? := by
  refine ⟨fun i => ((d.drop (i * n)) ++ List.replicate n 0).take n, ?_, ?_⟩
  · intro i
    simp
  · intro k hk
    have h1 := Nat.mod_lt k hn
    have h2 : k / n * n + k % n = k := by rw [Nat.mul_comm]; exact Nat.div_add_mod k n
    rw [List.getElem?_take, if_pos h1, List.getElem?_append_left (by simp; omega), List.getElem?_drop, h2]

/-- C95: whatever was encrypted, the result may be the encryption of any data of the same length: for every ciphertext and all
data of its length there is a hash function that differs from the given one only at the key inputs of the data and with which the data is
encrypted to the ciphertext. Needed: no coincidences among the inputs. -/
theorem C95_any (H : HashFn) (pw salt : Bytes) (x c : List Byte) (h1 : pw.data.length = H.size) (h2 : salt.data.length = H.size)
    (hx : x.length < 2 ^ 31) (hc : c.length = x.length) (hap : DistinctInputs H.h H.size pw.data salt.data x) :
    ∃ H' : HashFn, H'.size = H.size ∧ (∀ z, z ∉ keyInputs H.h H.size pw.data salt.data x → H'.h z = H.h z) ∧
      crypt .enc H' pw salt x = .ok c ∧ crypt .dec H' pw salt c = .ok x := by
  have hn : 0 < H.size := by have := H.pos; omega
  obtain ⟨v, v1, v2⟩ := cut_pad hn (subB c x)
  obtain ⟨H', k1, k2, k3⟩ := chosen_hash H _ hap.1 v v1
  have hlen : (subB c x).length = x.length := by simp [hc]
  refine ⟨H', k1, k2, ?_⟩
  have henc : crypt .enc H' pw salt x = .ok c := by
    refine ((C95_pad H H' pw salt x h1 h2 hx k1 k2 hap.2).2 c).mpr ⟨hc, ?_⟩
    apply List.ext_getElem?
    intro k
    rw [List.getElem?_take]
    by_cases hk : k < x.length
    · have hb := lt_blockCount (x := x) hn hk
      rw [if_pos hk, get_flatMap hn _ k (fun z _ => by rw [H'.len, k1]) _ (key_get hb), k3 _ _ (key_get hb), v2 k (by omega)]
    · rw [if_neg hk, List.getElem?_eq_none (by omega)]
  refine ⟨henc, ?_⟩
  obtain ⟨c', g1, g2⟩ := C20_decrypt_encrypt H' pw salt x (by omega) (by omega) hx
  rw [henc] at g1
  cases g1
  exact g2

/-- two contents of a block and a piece, for the real hash function: no coincidences -/
def secretKey : Bytes := Bytes.full (sha256 (ascii "Passw0rd!"))
def secretSalt : Bytes := Bytes.full (List.replicate 32 9)
def secretText : List Byte := ascii "The key to the shed is under the third flower pot."
def otherText : List Byte := ascii "There is nothing to be found in this file, really."
theorem secret_apart : DistinctInputs sha256 32 secretKey.data secretSalt.data otherText := by
  have h : decide ((keyInputs sha256 32 secretKey.data secretSalt.data otherText).Nodup) = true ∧
      (keyInputs sha256 32 secretKey.data secretSalt.data otherText).all
        (fun x => !(pathInputs sha256 32 secretKey.data secretSalt.data otherText).contains x) = true := by decide +kernel
  refine ⟨of_decide_eq_true h.1, fun x hx => ?_⟩
  have := List.all_eq_true.mp h.2 x hx
  simpa using this
example : secretKey.data.length = 32 ∧ secretSalt.data.length = 32 ∧ secretText.length = otherText.length ∧
    (keyInputs sha256 32 secretKey.data secretSalt.data otherText).length = 2 := by decide +kernel

/-- hash functions with one of them exchanged -/
theorem exchange (hs : Hashes) (m : HMode) (H : HashFn) (hsz : H.size = m.size) :
    ∃ hs' : Hashes, (hs'.get m).h = H.h ∧ ∀ m', m' ≠ m → hs'.get m' = hs.get m' := by
  cases m
  · refine ⟨{ hs with sha256 := H.h, len256 := fun x => by rw [H.len, hsz]; rfl }, rfl, ?_⟩
    intro m' hm'; cases m' <;> first | rfl | exact absurd rfl hm'
  · refine ⟨{ hs with sha384 := H.h, len384 := fun x => by rw [H.len, hsz]; rfl }, rfl, ?_⟩
    intro m' hm'; cases m' <;> first | rfl | exact absurd rfl hm'
  · refine ⟨{ hs with sha512 := H.h, len512 := fun x => by rw [H.len, hsz]; rfl }, rfl, ?_⟩
    intro m' hm'; cases m' <;> first | rfl | exact absurd rfl hm'

/-- C95 for whole files: take a file that opens with a password, and any other content `y` of the same length. There are hash
functions that differ from the given ones only at the key inputs of `y` and with which the same password opens the very same file and
the program shows `y`. So neither the file nor any hashing that avoids these inputs tells the content from `y`. Needed: no
coincidences among the inputs, those of the password check included. -/
theorem C95_file (mode : Byte) (s0 : Session) (h0 : Api.new mode = .ok s0) (fs : FS) (p : Path) (hp : EncPath p)
    (h : Header) (hv : h.Valid) (m : HMode) (hm : m.toByte = h.hashMode) (pw : List Byte) (hopen : Opens hs h pw)
    (enc : List Byte) (hsz : h.fileSize = h.length + enc.length) (hl : enc.length < 2 ^ 31)
    (hf : fs p = .file (h.bytes ++ enc)) (e : Nat → Env) (he : ∀ i, Healthy (e i) p) (y : List Byte) (hy : y.length = enc.length)
    (hap : DistinctInputs (hs.get m).h m.size (h.ch1.digest (hs.get m).h pw) h.salt y)
    (hck : ∀ z ∈ keyInputs (hs.get m).h m.size (h.ch1.digest (hs.get m).h pw) h.salt y, z ∉ checkInputs (hs.get m).h h pw) :
    ∃ hs' : Hashes, (∀ m', m' ≠ m → hs'.get m' = hs.get m') ∧
      (∀ z, z ∉ keyInputs (hs.get m).h m.size (h.ch1.digest (hs.get m).h pw) h.salt y → (hs'.get m).h z = (hs.get m).h z) ∧
      ∃ (r : Bytes) (w : World), Api.run hs' rest ⟨s0, fs⟩ [.call (.selectFile p) (e 0), .call (.verifyPassword pw 0) (e 1),
          .call .getDecryptedData (e 2)] =
        .ok ([some (.flag (.success true)), some (.flag (.success true)), some (.data (.success ⟨some mode, some r⟩))], w) ∧
        r.data = y := by
  obtain ⟨rfl, rfl⟩ := new_mode h0
  obtain ⟨m0, k1, k2⟩ := hopen
  have : m0 = m := by
    have := k1.trans hm.symm
    revert this; cases m0 <;> cases m <;> decide
  subst this
  have hit : 1 ≤ h.ch1.iters := hv.ch1.1
  have hkl : (h.ch1.digest (hs.get m0).h pw).length = m0.size := by
    have := Api.digest_length (hs.get m0) h.ch1 hit pw
    rw [this, Hashes.get_size]
  have hsl : h.salt.length = m0.size := by rw [hv.salt]; exact size_eq_digest hm
  obtain ⟨H', g1, g2, g3, g4⟩ := C95_any (hs.get m0) ⟨h.ch1.digest (hs.get m0).h pw, 0⟩ ⟨h.salt, 0⟩ y enc (by simpa using hkl) (by simpa using hsl)
    (by omega) hy.symm (by simpa using hap)
  simp only [Hashes.get_size] at g1 g2
  obtain ⟨hs', q1, q2⟩ := exchange hs m0 H' g1
  have agree : ∀ z, z ∉ keyInputs (hs.get m0).h m0.size (h.ch1.digest (hs.get m0).h pw) h.salt y → (hs'.get m0).h z = (hs.get m0).h z := by
    intro z hz; rw [q1]; exact g2 z hz
  refine ⟨hs', q2, agree, ?_⟩
  obtain ⟨c1, c2⟩ := check_congr (h := (hs.get m0).h) (h' := (hs'.get m0).h) (hd := h) (pw := pw)
    fun z hz => agree z fun hk => hck z hk hz
  obtain ⟨w, r, -, -, d1, d2, -⟩ := Api.open_holds (rest := rest) (hs := hs')
    (w := ⟨⟨.INIT, 1, none, Bytes.empty 0, none, none, none⟩, fs⟩) (h := h) hp hv hsz rfl rfl hf (m := m0) hm
    (by rw [c2]; exact k2) hl (he 0).read ((he 0).rand 0) (he 1).clock (he 2).read
  refine ⟨r, w, d1, ?_⟩
  rw [d2, c1]
  have hH : hs'.get m0 = H' := by
    have e1 : (hs'.get m0).size = H'.size := by rw [Hashes.get_size, g1]
    generalize hs'.get m0 = X at q1 e1
    obtain ⟨a1, a2, a3, a4, a5⟩ := X
    obtain ⟨b1, b2, b3, b4, b5⟩ := H'
    simp only at q1 e1
    subst q1; subst e1; rfl
  rw [hH]
  rw [crypt_eq (by simpa [g1] using hkl) (by simpa [g1] using hsl) (by omega)] at g4
  exact Res.ok.inj g4

/-- the sample file made with SHA-256, its content "hello", and "peace" as the other content: no coincidences -/
example : runWith sha2 sampleSave (fun _ w =>
    (match Api.run sha2 noRest (freshWorld w.fs) [.call (.selectFile samplePath) openEnv] with
      | .ok (_, w') => (match w'.api.dh.map DataHeader.contents with
        | some h => h.hashMode == 1 && decide (fileOf w = h.bytes ++ (fileOf w).drop h.length) && (fileOf w).length == h.length + 5 &&
          decide (h.ch2.digest sha256 (h.ch1.digest sha256 samplePw) = h.validator) &&
          decide ((keyInputs sha256 32 (h.ch1.digest sha256 samplePw) h.salt (ascii "peace")).Nodup) &&
          (keyInputs sha256 32 (h.ch1.digest sha256 samplePw) h.salt (ascii "peace")).all fun z =>
            !(pathInputs sha256 32 (h.ch1.digest sha256 samplePw) h.salt (ascii "peace")).contains z &&
            !(checkInputs sha256 h samplePw).contains z
        | none => false)
      | _ => false)) = true := by decide +kernel

theorem versions_aux (n : Nat) (c : Version → List Byte) : ∀ (vs : List Version) (H : HashFn), H.size = n →
    (∀ v ∈ vs, v.pwhash.length = n ∧ v.salt.length = n ∧ v.data.length < 2 ^ 31 ∧ (c v).length = v.data.length) →
    AllDistinctInputs H.h n vs →
    ∃ H' : HashFn, H'.size = n ∧
      (∀ z, z ∉ vs.flatMap (fun v => keyInputs H.h n v.pwhash v.salt v.data) → H'.h z = H.h z) ∧
      ∀ v ∈ vs, IsEncryption H'.h H'.size v.pwhash v.salt v.data (c v)
  | [], H, hn, _, _ => ⟨H, hn, fun _ _ => rfl, fun _ h => absurd h List.not_mem_nil⟩
  | v :: vs, H, hn, hl, hap => by
    obtain ⟨hnd, hd⟩ := hap
    rw [List.flatMap_cons, List.nodup_append] at hnd
    obtain ⟨nd1, nd2, nd3⟩ := hnd
    obtain ⟨H1, k1, k2, k3⟩ := versions_aux n c vs H hn (fun u hu => hl u (List.mem_cons_of_mem _ hu))
      ⟨nd2, fun u hu u' hu' => hd u (List.mem_cons_of_mem _ hu) u' (List.mem_cons_of_mem _ hu')⟩
    obtain ⟨l1, l2, l3, l4⟩ := hl v (List.mem_cons_self ..)
    -- on the way to the inputs of any version nothing was changed
    have path : ∀ u ∈ v :: vs, ∀ z ∈ pathInputs H.h n u.pwhash u.salt u.data, H1.h z = H.h z := by
      intro u hu z hz
      refine k2 z fun hk => ?_
      obtain ⟨u', hu', hk⟩ := List.mem_flatMap.mp hk
      exact hd u' (List.mem_cons_of_mem _ hu') u hu z hk hz
    have same : ∀ u ∈ v :: vs, keyInputs H1.h n u.pwhash u.salt u.data = keyInputs H.h n u.pwhash u.salt u.data ∧
        pathInputs H1.h n u.pwhash u.salt u.data = pathInputs H.h n u.pwhash u.salt u.data :=
      fun u hu => ⟨keyInputs_agree (path u hu), pathInputs_agree (path u hu)⟩
    obtain ⟨s1, s2⟩ := same v (List.mem_cons_self ..)
    subst hn
    obtain ⟨H', g1, g2, g3, -⟩ := C95_any H1 (Bytes.full v.pwhash) (Bytes.full v.salt) v.data (c v) (by rw [k1]; exact l1)
      (by rw [k1]; exact l2) l3 l4 (by
        rw [k1]
        show DistinctInputs H1.h H.size v.pwhash v.salt v.data
        exact ⟨by rw [s1]; exact nd1, by rw [s1, s2]; exact hd v (List.mem_cons_self ..) v (List.mem_cons_self ..)⟩)
    simp only [k1, Bytes.full] at g1 g2
    rw [s1] at g2
    refine ⟨H', g1, ?_, ?_⟩
    · intro z hz
      rw [List.flatMap_cons, List.mem_append, not_or] at hz
      rw [g2 z hz.1, k2 z hz.2]
    · intro u hu
      rcases List.mem_cons.mp hu with rfl | hu'
      · exact C26_encryption H' _ _ _ _ (by rw [g1]; exact l1) (by rw [g1]; exact l2) l3 g3
      · obtain ⟨q1, q2⟩ := same u hu
        refine encryption_agree (H := H1) (by omega) ?_ ?_ (k3 u hu')
        · intro z hz
          rw [k1, q2] at hz
          exact g2 z fun hk => hd v (List.mem_cons_self ..) u hu z hk hz
        · intro z hz
          rw [k1, q1] at hz
          exact g2 z fun hk => nd3 z hk z (List.mem_flatMap.mpr ⟨u, hu', hz⟩) rfl

/-- C95 for several versions of data, encrypted with any password hashes and salts: if no inputs coincide, any ciphertexts at all may
be the encryptions of the versions, with a hash function that differs from the given one at the key inputs only. So the versions do not tell
about each other. Missing: versions with the same salt, see `C95_violated_versions`. -/
theorem C95_versions_partial (H : HashFn) (vs : List Version) (c : Version → List Byte)
    (hl : ∀ v ∈ vs, v.pwhash.length = H.size ∧ v.salt.length = H.size ∧ v.data.length < 2 ^ 31 ∧ (c v).length = v.data.length)
    (hap : AllDistinctInputs H.h H.size vs) :
    ∃ H' : HashFn, H'.size = H.size ∧
      (∀ z, z ∉ vs.flatMap (fun v => keyInputs H.h H.size v.pwhash v.salt v.data) → H'.h z = H.h z) ∧
      ∀ v ∈ vs, crypt .enc H' (Bytes.full v.pwhash) (Bytes.full v.salt) v.data = .ok (c v) := by
  obtain ⟨H', g1, g2, g3⟩ := versions_aux H.size c vs H rfl hl hap
  refine ⟨H', g1, g2, fun v hv => ?_⟩
  obtain ⟨l1, l2, l3, -⟩ := hl v hv
  rw [crypt_eq (by rw [g1]; exact l1) (by rw [g1]; exact l2) l3]
  exact congrArg _ (enc_unique (cryptOut_enc H' _ _ _) (g3 v hv))

/-- the two texts with different salts -/
example : (let vs : List Version := [⟨secretKey.data, secretSalt.data, secretText⟩, ⟨secretKey.data, List.replicate 32 8, otherText⟩]
    let ks := vs.flatMap fun v => keyInputs sha256 32 v.pwhash v.salt v.data
    let ps := vs.flatMap fun v => pathInputs sha256 32 v.pwhash v.salt v.data
    decide ks.Nodup && ks.all (fun z => !ps.contains z)) = true := by decide +kernel

/-- C95 is violated for versions with the same password hash and salt, which is how the program saves a file again (C72): as far as the
first block goes, the encrypted versions differ exactly as the versions do, whatever the hash function; and their inputs always coincide. -/
theorem C95_violated_versions (H : HashFn) (pw salt : Bytes) (x x' c c' : List Byte) (h1 : pw.data.length = H.size)
    (h2 : salt.data.length = H.size) (hx : x.length < 2 ^ 31) (hx' : x'.length < 2 ^ 31) (h : crypt .enc H pw salt x = .ok c)
    (h' : crypt .enc H pw salt x' = .ok c') :
    (∀ k a a', k < H.size → x[k]? = some a → x'[k]? = some a' → ∃ b b', c[k]? = some b ∧ c'[k]? = some b' ∧ b - b' = a - a') ∧
    (x ≠ [] → x' ≠ [] → ¬ AllDistinctInputs H.h H.size [⟨pw.data, salt.data, x⟩, ⟨pw.data, salt.data, x'⟩]) := by
  have hn : 0 < H.size := by have := H.pos; omega
  constructor
  · intro k a a' hk ha ha'
    exact enc_diff (C26_encryption H pw salt x c h1 h2 hx h) (C26_encryption H pw salt x' c' h1 h2 hx' h')
      (by rw [Nat.div_eq_of_lt hk]; simp) ha ha'
  · intro hne hne' hap
    have pos : ∀ l : List Byte, l ≠ [] → 0 < blockCount H.size l.length := by
      intro l hl
      have h0 : 0 < l.length := List.length_pos_iff.mpr hl
      have := lt_blockCount (x := l) hn h0
      rwa [Nat.zero_div] at this
    have hnd := hap.1
    simp only [List.flatMap_cons, List.flatMap_nil, List.append_nil] at hnd
    rw [List.nodup_append] at hnd
    refine hnd.2.2 _ (List.mem_of_getElem? (key_get (pos x hne))) _ (List.mem_of_getElem? (key_get (pos x' hne'))) ?_
    simp only [keyInput, keyPair_congr H.h H.size pw.data salt.data x x' (0 + 1) (by simp)]

/-- two versions of a text -/
example : ∃ c c', crypt .enc (sha2.get .sha256) secretKey secretSalt secretText = .ok c ∧
    crypt .enc (sha2.get .sha256) secretKey secretSalt otherText = .ok c' ∧
    (c[7]! - c'[7]!) = secretText[7]! - otherText[7]! ∧ c[7]! ≠ c'[7]! := ⟨_, _, rfl, rfl, by decide +kernel, by decide +kernel⟩

/-- C95: without the condition it fails: if two blocks are encrypted with the hash of the same input, the encrypted blocks differ
exactly as the blocks do. -/
theorem C95_coincidence (H : HashFn) (pw salt : Bytes) (x c : List Byte) (h1 : pw.data.length = H.size)
    (h2 : salt.data.length = H.size) (hx : x.length < 2 ^ 31) (h : crypt .enc H pw salt x = .ok c) (k k' : Nat) (a a' : Byte)
    (hk : x[k]? = some a) (hk' : x[k']? = some a') (hmod : k % H.size = k' % H.size)
    (hin : keyInput H.h H.size pw.data salt.data x (k / H.size + 1) = keyInput H.h H.size pw.data salt.data x (k' / H.size + 1)) :
    ∃ b b', c[k]? = some b ∧ c[k']? = some b' ∧ b - b' = a - a' := by
  have henc := C26_encryption H pw salt x c h1 h2 hx h
  obtain ⟨s, s1, s2⟩ := henc.2 k a hk
  obtain ⟨s', t1, t2⟩ := henc.2 k' a' hk'
  refine ⟨_, _, s2, t2, ?_⟩
  have : blockSalt H.h H.size pw.data salt.data x (k / H.size + 1) = blockSalt H.h H.size pw.data salt.data x (k' / H.size + 1) :=
    congrArg H.h hin
  rw [this, hmod, t1] at s1
  cases s1
  rw [UInt8.sub_eq_iff_eq_add, ← UInt8.add_assoc, UInt8.sub_add_cancel]

/-- a hash function without variation encrypts all blocks alike -/
example : keyInput (fun _ => List.replicate 32 4) 32 secretKey.data secretSalt.data otherText 1 =
    keyInput (fun _ => List.replicate 32 4) 32 secretKey.data secretSalt.data otherText 2 := by decide +kernel

end Verif.Props
