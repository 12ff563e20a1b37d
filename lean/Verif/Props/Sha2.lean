import Verif.Lemmas.Sha2
import Verif.Props.Collision

/- C90: the hash functions are the SHA-2 family. -/
namespace Verif.Props
open Spec Sha2

variable {rest : Api.Helper → Res Api.Helper}

theorem decText_length {n : Nat} (h : n < 2 ^ 64) : (decText n).length ≤ 20 := by
  rw [decText, List.length_map]
  exact (Nat.length_toDigits_le_iff (by decide) (by decide)).mpr (by omega)

/-- the salt of a round is at most a data block and a 64-bit number -/
theorem salt_length (m : Nat) (b : List Byte) (i : Nat) : ((ruleOf m b).at i).length ≤ b.length + 20 := by
  have hd (n : Nat) : (decText (n % 2 ^ 64)).length ≤ 20 := decText_length (Nat.mod_lt _ (by decide))
  unfold ruleOf
  split <;> simp only [SaltRule.at, List.length_append, List.length_nil]
  · omega
  · have := hd (beValue b + i); omega
  · have := hd (beValue (b.take 8) + i); rw [List.length_drop]; omega
  · exact Nat.le_trans (hd _) (by omega)
  · omega

theorem chain_length (H : HashFn) (rule : SaltRule) (x : List Byte) : ∀ k, (chain H.h rule k x).length ≤ x.length + 64
  | 0 => by simp [chain]
  | k + 1 => by
    rw [chain_succ, H.len]
    have := H.small; omega

/-- what is hashed in a password check is at most 403 bytes longer than the password -/
theorem check_length (H : HashFn) {hd : Header} (hv : hd.Valid) (pw : List Byte) :
    ∀ z ∈ checkInputs H.h hd pw, z.length ≤ pw.length + 403 := by
  have part (c : ChainDesc) (hc : c.Valid) (x : List Byte) :
      ∀ z ∈ chainInputs H.h (ruleOf c.mode.toNat c.block) c.iters x, z.length ≤ x.length + 339 := by
    intro z hz
    simp only [chainInputs, List.mem_map] at hz
    obtain ⟨i, -, rfl⟩ := hz
    have h1 := salt_length c.mode.toNat c.block i
    have h2 := chain_length H (ruleOf c.mode.toNat c.block) x i
    have h3 := blockLenOk_le hc.2.2
    rw [List.length_append]; omega
  intro z hz
  rcases List.mem_append.mp hz with hz | hz
  · have := part _ hv.ch1 _ z hz; omega
  · have := part _ hv.ch2 _ z hz
    have h2 : (hd.ch1.digest H.h pw).length ≤ pw.length + 64 := chain_length H _ pw _
    omega

/-- bytes written as hexadecimal digits -/
def hexBytes (s : String) : List Byte :=
  let d (c : Char) : Nat := if c.toNat < 58 then c.toNat - 48 else (c.toNat % 32) + 9
  go (s.toList.map d)
where go : List Nat → List Byte
  | a :: b :: r => UInt8.ofNat (16 * a + b) :: go r
  | _ => []

/-! ## C90 -/

/-- C90: digests have the size of their hash mode, whatever is hashed. -/
theorem C90_lengths (m : List Byte) :
    (sha256 m).length = 32 ∧ (sha384 m).length = 48 ∧ (sha512 m).length = 64 :=
  ⟨length256 m, length384 m, length512 m⟩

/-- "abc", FIPS 180-4 examples -/
example : sha256 (ascii "abc") = hexBytes "ba7816bf8f01cfea414140de5dae2223b00361a396177a9cb410ff61f20015ad" ∧
    sha384 (ascii "abc") = hexBytes ("cb00753f45a35e8bb5a03d699ac65007272c32ab0eded1631a8b605a43ff5bed" ++
      "8086072ba1e7cc2358baeca134c825a7") ∧
    sha512 (ascii "abc") = hexBytes ("ddaf35a193617abacc417349ae20413112e6fa4e89a97ea20a9eeee64b55d39a" ++
      "2192992a274fc1a836ba3c23a3feebbd454d4423643ce80e2a9ac94fa54ca49f") := by
  decide +kernel

/-- C90: two different inputs with the same digest give away a collision of the compression function among the steps of the
two computations. -/
theorem C90_compression (m : HMode) (a b : List Byte) (ha : a.length < 2 ^ 60) (hb : b.length < 2 ^ 60) (hne : a ≠ b)
    (hfree : ¬ (variantOf m).Collide (wordsUsed m) (hashSteps m a) (hashSteps m b)) :
    (sha2.get m).h a ≠ (sha2.get m).h b :=
  fun h => hfree (sha2_collide m ha hb hne h)

example : ascii "abc" ≠ List.replicate 130 7 ∧ ∀ m ∈ [HMode.sha256, .sha384, .sha512],
    ¬ (variantOf m).Collide (wordsUsed m) (hashSteps m (ascii "abc")) (hashSteps m (List.replicate 130 7)) := by
  decide +kernel

/-- C90: with the SHA-2 functions a session that has selected a file made with `pw` refuses every other password (shorter than
2^59 bytes), unless the compression function collides on two of the blocks processed in the two checks. It answers "wrong
password" or, when the time limit is reached, a timeout, and leaves everything as it is. -/
theorem C90_refused (mode : Byte) (s0 : Session) (h0 : Api.new mode = .ok s0) (fs : FS) (evs : List Event)
    (rs : List (Option Ret)) (w : World) (h : Api.run sha2 rest ⟨s0, fs⟩ evs = .ok (rs, w)) (hst : w.api.state = .FILE_SELECTED)
    (hd : Header) (hdh : w.api.dh.map DataHeader.contents = some hd) (m : HMode) (hm : m.toByte = hd.hashMode)
    (pw pw' : List Byte) (hpw : Opens sha2 hd pw) (hne : pw ≠ pw') (hl : pw.length < 2 ^ 59) (hl' : pw'.length < 2 ^ 59)
    (hfree : ¬ (variantOf m).Collide (wordsUsed m) ((checkInputs (sha2.get m).h hd pw).flatMap (hashSteps m))
      ((checkInputs (sha2.get m).h hd pw').flatMap (hashSteps m))) (e : Env) (t : Nat) :
    Api.call sha2 rest e w (.verifyPassword pw' t) = .ok (.flag (.fail .ERR_PASSWORD_INVALID), w) ∨
      Api.call sha2 rest e w (.verifyPassword pw' t) = .ok (.flag .timeout, w) := by
  obtain ⟨hd', -, -, -, -, -, -, -, -, -, -, k4, -, k6, -⟩ := (Api.ghost h0 h).sel hst
  have heq := hdh
  rw [k6] at heq
  simp only [Option.map_some, Option.some.injEq, HeaderParse.contents_mkHeader k4] at heq
  subst heq
  rcases verify_outcome (hs := sha2) (rest := rest) k4 hst k6 m hm e pw' t with ⟨-, g⟩ | ⟨-, k, -, g⟩
  · exact .inr g
  · split at g
    · refine absurd ?_ hfree
      obtain ⟨i, a, b, ha, hb, hab, he⟩ :=
        C89_other_password mode s0 h0 fs evs rs w h hst hd' hdh m hm pw pw' hpw hne e t _ g
      have ha' := List.mem_of_getElem? ha
      have hb' := List.mem_of_getElem? hb
      have h1 := check_length (sha2.get m) k4 pw a ha'
      have h2 := check_length (sha2.get m) k4 pw' b hb'
      obtain ⟨x, hx, y, hy, hxy⟩ := sha2_collide m (by omega) (by omega) hab he
      exact ⟨x, List.mem_flatMap.mpr ⟨a, ha', hx⟩, y, List.mem_flatMap.mpr ⟨b, hb', hy⟩, hxy⟩
    · exact .inl g

/-- does the history run through with these hash functions, with this outcome? -/
def runWith (hs : Hashes) (evs : List Event) (p : List (Option Ret) → World → Bool) : Bool :=
  match Api.run hs noRest (freshWorld fun _ => .missing) evs with
  | .ok (rs, w) => p rs w
  | _ => false

theorem runWith_ok {hs : Hashes} {evs : List Event} {p : List (Option Ret) → World → Bool} (h : runWith hs evs p = true) :
    ∃ rs w, Api.run hs noRest (freshWorld fun _ => .missing) evs = .ok (rs, w) ∧ p rs w = true := by
  unfold runWith at h
  split at h
  · exact ⟨_, _, by assumption, h⟩
  · cases h

/-- a file is created and saved with SHA-256 and selected again: it opens with the right password, and with another one the
check shows no collision -/
example : ∃ rs w, Api.run sha2 noRest (freshWorld fun _ => .missing)
      (sampleSave ++ [.call .logout openEnv, .call (.selectFile samplePath) openEnv]) = .ok (rs, w) ∧
    (w.api.state == .FILE_SELECTED && samplePw != ascii "Passw0rd?" &&
      (match Api.call sha2 noRest openEnv w (.verifyPassword samplePw 0) with
        | .ok (.flag (.success true), _) => true | _ => false) &&
      (match w.api.dh.map DataHeader.contents with
        | some hd => hd.hashMode == 1 &&
          decide (hd.ch2.digest sha256 (hd.ch1.digest sha256 samplePw) = hd.validator) &&
          decide (¬ (variantOf .sha256).Collide (wordsUsed .sha256) ((checkInputs sha256 hd samplePw).flatMap (hashSteps .sha256))
            ((checkInputs sha256 hd (ascii "Passw0rd?")).flatMap (hashSteps .sha256)))
        | none => false)) = true :=
  runWith_ok (p := fun _ w => _) (by decide +kernel)

end Verif.Props
