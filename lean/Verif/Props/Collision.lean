import Verif.Spec.Collision
import Verif.Props.Password

/- C89: another password than the right one. -/
namespace Verif.Props
open Spec

variable {hs : Hashes} {rest : Api.Helper → Res Api.Helper}

theorem chain_succ (h : List Byte → List Byte) (rule : SaltRule) (n : Nat) (x : List Byte) :
    chain h rule (n + 1) x = h (chain h rule n x ++ rule.at n) := by
  simp [chain, List.range_succ]

theorem chainInputs_get (h : List Byte → List Byte) (rule : SaltRule) {n k : Nat} (hk : k < n) (x : List Byte) :
    (chainInputs h rule n x)[k]? = some (chain h rule k x ++ rule.at k) := by
  simp [chainInputs, hk]

theorem chain_collision (h : List Byte → List Byte) (rule : SaltRule) {x y : List Byte} (hne : x ≠ y) (n : Nat)
    (he : chain h rule n x = chain h rule n y) :
    ∃ k, k < n ∧ chain h rule k x ++ rule.at k ≠ chain h rule k y ++ rule.at k ∧
      h (chain h rule k x ++ rule.at k) = h (chain h rule k y ++ rule.at k) := by
  induction n with
  | zero => exact absurd he hne
  | succ n ih =>
    by_cases hc : chain h rule n x = chain h rule n y
    · obtain ⟨k, h1, h2⟩ := ih hc
      exact ⟨k, by omega, h2⟩
    · rw [chain_succ, chain_succ] at he
      exact ⟨n, by omega, fun hk => hc (List.append_cancel_right hk), he⟩

theorem check_collision (h : List Byte → List Byte) (hd : Header) {x y : List Byte} (hne : x ≠ y)
    (he : hd.ch2.digest h (hd.ch1.digest h x) = hd.ch2.digest h (hd.ch1.digest h y)) :
    ShowCollision h (checkInputs h hd x) (checkInputs h hd y) := by
  by_cases h1 : hd.ch1.digest h x = hd.ch1.digest h y
  · obtain ⟨k, k1, k2, k3⟩ := chain_collision h _ hne _ h1
    refine ⟨k, _, _, ?_, ?_, k2, k3⟩
    · rw [checkInputs, List.getElem?_append_left (by simpa [chainInputs] using k1), chainInputs_get _ _ k1]
    · rw [checkInputs, List.getElem?_append_left (by simpa [chainInputs] using k1), chainInputs_get _ _ k1]
  · obtain ⟨k, k1, k2, k3⟩ := chain_collision h _ h1 _ he
    refine ⟨hd.ch1.iters + k, _, _, ?_, ?_, k2, k3⟩
    · rw [checkInputs, List.getElem?_append_right (by simp [chainInputs])]
      simp only [chainInputs, List.length_map, List.length_range, Nat.add_sub_cancel_left]
      exact chainInputs_get _ _ k1 _
    · rw [checkInputs, List.getElem?_append_right (by simp [chainInputs])]
      simp only [chainInputs, List.length_map, List.length_range, Nat.add_sub_cancel_left]
      exact chainInputs_get _ _ k1 _

theorem chain_congr {h h' : List Byte → List Byte} {rule : SaltRule} {x : List Byte} (n : Nat)
    (ha : ∀ z ∈ chainInputs h rule n x, h' z = h z) (k : Nat) (hk : k ≤ n) : chain h' rule k x = chain h rule k x := by
  induction k with
  | zero => rfl
  | succ k ih =>
    rw [chain_succ, chain_succ, ih (by omega)]
    refine ha _ ?_
    simp only [chainInputs, List.mem_map, List.mem_range]
    exact ⟨k, by omega, rfl⟩

theorem check_congr {h h' : List Byte → List Byte} {hd : Header} {pw : List Byte}
    (ha : ∀ z ∈ checkInputs h hd pw, h' z = h z) :
    hd.ch1.digest h' pw = hd.ch1.digest h pw ∧
      hd.ch2.digest h' (hd.ch1.digest h' pw) = hd.ch2.digest h (hd.ch1.digest h pw) := by
  have h1 : hd.ch1.digest h' pw = hd.ch1.digest h pw :=
    chain_congr _ (fun z hz => ha z (List.mem_append_left _ hz)) _ (Nat.le_refl _)
  refine ⟨h1, ?_⟩
  rw [h1]
  exact chain_congr _ (fun z hz => ha z (List.mem_append_right _ hz)) _ (Nat.le_refl _)

/-! ## C89 -/

/-- the outcome of a password check on a selected file, from the header of the file -/
theorem verify_outcome {w : World} {hd : Header} (hv : hd.Valid) (hst : w.api.state = .FILE_SELECTED)
    (hdh : w.api.dh = some (HeaderParse.mkHeader hd)) (m : HMode) (hm : m.toByte = hd.hashMode) (e : Env) (pw : List Byte) (t : Nat) :
    (Api.VLate e t hd.ch1.iters hd.ch2.iters ∧ Api.call hs rest e w (.verifyPassword pw t) = .ok (.flag .timeout, w)) ∨
    (¬ Api.VLate e t hd.ch1.iters hd.ch2.iters ∧ ∃ k : Bytes, k.data = hd.ch1.digest (hs.get m).h pw ∧
      Api.call hs rest e w (.verifyPassword pw t) =
        if hd.ch2.digest (hs.get m).h (hd.ch1.digest (hs.get m).h pw) = hd.validator then
          .ok (.flag (.success true), ⟨{ w.api with pwHash := k, state := .PASSWORD_VERIFIED }, w.fs⟩)
        else .ok (.flag (.fail .ERR_PASSWORD_INVALID), w)) := by
  obtain ⟨m', v, hm', hvv, late, key⟩ := Api.verify_spec (hs := hs) (e := e) (mkHeader_ok hv) hdh pw t
  have hcont := HeaderParse.contents_mkHeader hv
  have c1 : (HeaderParse.mkHeader hd).dh.ch1.desc = hd.ch1 := congrArg Header.ch1 hcont
  have c2 : (HeaderParse.mkHeader hd).dh.ch2.desc = hd.ch2 := congrArg Header.ch2 hcont
  have c3 : v.data = hd.validator := by
    have := congrArg Header.validator hcont
    simp only [DataHeader.contents, hvv] at this
    exact this
  have c4 : m'.toByte = hd.hashMode := by
    have := congrArg Header.hashMode hcont
    simp only [DataHeader.contents, hm'] at this
    exact this
  have : m' = m := by
    have := c4.trans hm.symm
    revert this; cases m' <;> cases m <;> decide
  subst this
  rw [c1, c2] at late key
  by_cases hl : Api.VLate e t hd.ch1.iters hd.ch2.iters
  · refine .inl ⟨hl, ?_⟩
    simp only [Api.call, hst, late hl, Res.bind_ok]
  · obtain ⟨k, -, -, hk, key⟩ := key hl
    refine .inr ⟨hl, k, hk, ?_⟩
    rw [c3, hk] at key
    simp only [Api.call, hst, key]
    split <;> simp only [Res.bind_ok]

/-- C89: if a session accepts two different passwords for the file it has selected, whatever the time limits and clocks, then
the hashing done for the two shows a collision of the hash function: in some round different inputs are hashed to the same
value. -/
theorem C89_collision (mode : Byte) (s0 : Session) (h0 : Api.new mode = .ok s0) (fs : FS) (evs : List Event)
    (rs : List (Option Ret)) (w : World) (h : Api.run hs rest ⟨s0, fs⟩ evs = .ok (rs, w))
    (hst : w.api.state = .FILE_SELECTED) :
    ∃ pre p e1 mid rs1 w1 hd data m, evs = pre ++ .call (.selectFile p) e1 :: mid ∧
      Api.run hs rest ⟨s0, fs⟩ pre = .ok (rs1, w1) ∧ w1.fs p = .file (hd.bytes ++ data) ∧ hd.Valid ∧
      StaysSelected hs rest ⟨s0, fs⟩ (pre ++ [.call (.selectFile p) e1]) mid p ∧ m.toByte = hd.hashMode ∧
      ∀ (e e' : Env) (pw pw' : List Byte) (t t' : Nat) (v v' : World), pw ≠ pw' →
        Api.call hs rest e w (.verifyPassword pw t) = .ok (.flag (.success true), v) →
        Api.call hs rest e' w (.verifyPassword pw' t') = .ok (.flag (.success true), v') →
        ShowCollision (hs.get m).h (checkInputs (hs.get m).h hd pw) (checkInputs (hs.get m).h hd pw') := by
  obtain ⟨hd, pre, p, e1, mid, rs1, w1, data, k1, k2, k3, k4, k5, k6, k7⟩ := (Api.ghost h0 h).sel hst
  obtain ⟨m, hm⟩ : ∃ m : HMode, m.toByte = hd.hashMode := by
    rcases k4.hashMode with h | h | h <;> rw [h]
    · exact ⟨.sha256, rfl⟩
    · exact ⟨.sha384, rfl⟩
    · exact ⟨.sha512, rfl⟩
  refine ⟨pre, p, e1, mid, rs1, w1, hd, data, m, k1, k2, k3, k4, k5, hm, ?_⟩
  intro e e' pw pw' t t' v v' hne hc hc'
  have main : ∀ e pw t v, Api.call hs rest e w (.verifyPassword pw t) = .ok (.flag (.success true), v) →
      hd.ch2.digest (hs.get m).h (hd.ch1.digest (hs.get m).h pw) = hd.validator := by
    intro e pw t v hc
    rcases verify_outcome (hs := hs) (rest := rest) k4 hst k6 m hm e pw t with ⟨-, g⟩ | ⟨-, k, -, g⟩
    · rw [g] at hc; cases hc
    · rw [g] at hc
      split at hc
      · assumption
      · cases hc
  exact check_collision _ _ hne ((main _ _ _ _ hc).trans (main _ _ _ _ hc').symm)

/-- C89: so nobody but the owner gets in without a collision: if the file was made with `pw` (`pw` reproduces its validator) and
another password is accepted, the hashing shows a collision. -/
theorem C89_other_password (mode : Byte) (s0 : Session) (h0 : Api.new mode = .ok s0) (fs : FS) (evs : List Event)
    (rs : List (Option Ret)) (w : World) (h : Api.run hs rest ⟨s0, fs⟩ evs = .ok (rs, w)) (hst : w.api.state = .FILE_SELECTED)
    (hd : Header) (hdh : w.api.dh.map DataHeader.contents = some hd) (m : HMode) (hm : m.toByte = hd.hashMode)
    (pw pw' : List Byte) (hpw : Opens hs hd pw) (hne : pw ≠ pw') (e : Env) (t : Nat) (v : World)
    (hc : Api.call hs rest e w (.verifyPassword pw' t) = .ok (.flag (.success true), v)) :
    ShowCollision (hs.get m).h (checkInputs (hs.get m).h hd pw) (checkInputs (hs.get m).h hd pw') := by
  obtain ⟨hd', -, -, -, -, -, -, -, -, -, -, k4, -, k6, -⟩ := (Api.ghost h0 h).sel hst
  rw [k6] at hdh
  simp only [Option.map_some, Option.some.injEq, HeaderParse.contents_mkHeader k4] at hdh
  subst hdh
  obtain ⟨m', hm', ho⟩ := hpw
  have : m' = m := by
    have := hm'.trans hm.symm
    revert this; cases m' <;> cases m <;> decide
  subst this
  refine check_collision _ _ hne (ho.trans ?_)
  rcases verify_outcome (hs := hs) (rest := rest) k4 hst k6 m' hm e pw' t with ⟨-, g⟩ | ⟨-, k, -, g⟩
  · rw [g] at hc; cases hc
  · rw [g] at hc
    split at hc
    · rename_i h; exact h.symm
    · cases hc

/-- C89: a password check hashes as often as the two iteration numbers say, and nothing but the listed inputs matters: with any
other hash functions that agree on them, it answers the same and leaves the same state and the same password hash. -/
theorem C89_nothing_else (mode : Byte) (s0 : Session) (h0 : Api.new mode = .ok s0) (fs : FS) (evs : List Event)
    (rs : List (Option Ret)) (w : World) (h : Api.run hs rest ⟨s0, fs⟩ evs = .ok (rs, w)) (hst : w.api.state = .FILE_SELECTED)
    (hd : Header) (hdh : w.api.dh.map DataHeader.contents = some hd) (m : HMode) (hm : m.toByte = hd.hashMode) (pw : List Byte) :
    (checkInputs (hs.get m).h hd pw).length = hd.ch1.iters + hd.ch2.iters ∧
    ∀ (hs' : Hashes) (e : Env) (t : Nat), (∀ x ∈ checkInputs (hs.get m).h hd pw, (hs'.get m).h x = (hs.get m).h x) →
      ∃ r v v', Api.call hs rest e w (.verifyPassword pw t) = .ok (r, v) ∧ Api.call hs' rest e w (.verifyPassword pw t) = .ok (r, v') ∧
        v'.api.state = v.api.state ∧ v'.api.pwHash.data = v.api.pwHash.data := by
  obtain ⟨hd', -, -, -, -, -, -, -, -, -, -, k4, -, k6, -⟩ := (Api.ghost h0 h).sel hst
  rw [k6] at hdh
  simp only [Option.map_some, Option.some.injEq, HeaderParse.contents_mkHeader k4] at hdh
  subst hdh
  refine ⟨by simp [checkInputs, chainInputs], ?_⟩
  intro hs' e t ha
  obtain ⟨q1, q2⟩ := check_congr ha
  rcases verify_outcome (hs := hs) (rest := rest) k4 hst k6 m hm e pw t with ⟨l, g⟩ | ⟨l, k, hk, g⟩
  · rcases verify_outcome (hs := hs') (rest := rest) k4 hst k6 m hm e pw t with ⟨-, g'⟩ | ⟨l', -⟩
    · exact ⟨_, _, _, g, g', rfl, rfl⟩
    · exact absurd l l'
  · rcases verify_outcome (hs := hs') (rest := rest) k4 hst k6 m hm e pw t with ⟨l', -⟩ | ⟨-, k', hk', g'⟩
    · exact absurd l' l
    · rw [q2] at g'
      by_cases hc : hd'.ch2.digest (hs.get m).h (hd'.ch1.digest (hs.get m).h pw) = hd'.validator
      · rw [if_pos hc] at g g'
        exact ⟨_, _, _, g, g', rfl, by rw [hk', hk, q1]⟩
      · rw [if_neg hc] at g g'
        exact ⟨_, _, _, g, g', rfl, rfl⟩

/-- a hash function with many collisions: the sample file opens with a second password, and the collision shows in round 0 -/
example : ∃ rs w, Api.run toyHashes noRest (freshWorld fun _ => .missing)
      (sampleSave ++ [.call .logout openEnv, .call (.selectFile samplePath) openEnv]) = .ok (rs, w) ∧
    (w.api.state == .FILE_SELECTED && samplePw != ascii "Passw0rcB" &&
      (match Api.call toyHashes noRest openEnv w (.verifyPassword samplePw 0),
          Api.call toyHashes noRest openEnv w (.verifyPassword (ascii "Passw0rcB") 0) with
        | .ok (.flag (.success true), _), .ok (.flag (.success true), _) => true | _, _ => false) &&
      (match w.api.dh.map DataHeader.contents with
        | some hd => hd.hashMode == 1 &&
          (match (checkInputs (toyDigest 32) hd samplePw)[0]?, (checkInputs (toyDigest 32) hd (ascii "Passw0rcB"))[0]? with
            | some a, some b => a != b && toyDigest 32 a == toyDigest 32 b
            | _, _ => false)
        | none => false)) = true :=
  runIs_ok (p := fun _ w => _) (by decide +kernel)

end Verif.Props
