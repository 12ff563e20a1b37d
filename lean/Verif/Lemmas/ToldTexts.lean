import Verif.Lemmas.Told
import Verif.Spec.Told

/- The texts that come with errors, one function of Model/Told after the other. -/
namespace Verif.Tell
open Spec
variable {σ α β : Type}

/-- whenever `p` stops, `P` holds of the error and its text -/
def Stops (P : ErrorCode → List Byte → Prop) (p : Say σ α) : Prop := ∀ s c i, p s = .ok (.stop c i) → P c i

variable {P : ErrorCode → List Byte → Prop}

theorem stops_pure (a : α) : Stops P (pure a : Say σ α) := fun _ _ _ h => by cases h

theorem stops_bind {p : Say σ α} {f : α → Say σ β} (h : Stops P p) (hf : ∀ a, Stops P (f a)) : Stops P (p >>= f) := by
  intro s c i hs
  replace hs : (match p s with
    | .ok (.val a s) => f a s
    | .ok (.stop c i) => .ok (.stop c i)
    | .exn e => .exn e
    | .fatal f => .fatal f) = Res.ok (Said.stop c i) := hs
  rcases hp : p s with (⟨a, s'⟩ | ⟨c', i'⟩) | e | x
  · rw [hp] at hs
    exact hf a s' c i hs
  · rw [hp] at hs
    cases hs
    exact h s c i hp
  · rw [hp] at hs
    cases hs
  · rw [hp] at hs
    cases hs

theorem stops_fail {c : ErrorCode} {i : List Byte} (h : P c i) : Stops P (Say.fail c i : Say σ α) := fun _ _ _ hs => by
  cases hs
  exact h

theorem stops_lift (x : Res α) : Stops P (Say.lift x : Say σ α) := fun _ c i hs => by
  cases x <;> cases hs

theorem stops_catch {x : Res α} {h : Exn → Option (ErrorCode × List Byte)} (hh : ∀ e c i, x = .exn e → h e = some (c, i) → P c i) :
    Stops P (Say.onExn (Say.lift x) h : Say σ α) := by
  intro s c i hs
  cases x with
  | ok a => cases hs
  | fatal f => cases hs
  | exn e =>
    replace hs : (match h e with
      | some (c, i) => (Res.ok (Said.stop c i) : Res (Said σ α))
      | none => .exn e) = .ok (.stop c i) := hs
    cases he : h e with
    | none => rw [he] at hs; cases hs
    | some r =>
      rw [he] at hs
      obtain ⟨c', i'⟩ := r
      cases hs
      exact hh e c i rfl he

/-- what the parser may say: about the header, or one of the errors that do not happen -/
def Says (c : ErrorCode) (i : List Byte) : Prop :=
  HeaderText c i ∨ c ∈ [ErrorCode.ERR, .ERR_CHAINHASH_DATAPART_INVALID, .ERR_CHAINHASH_DATABLOCK_ALREADY_COMPLETED]

theorem says_name {i : List Byte} (name : String) (hi : i = ascii name) (h : name ∈ fieldNames) : Says .ERR_NOT_ENOUGH_DATA i :=
  .inl (hi ▸ .missing name h)

theorem setHashMode_exn {p : DataHeaderParts} {m : Byte} {e : Exn} (h : p.setHashMode m = .exn e) : ¬ (m = 1 ∨ m = 2 ∨ m = 3) := by
  rintro (rfl | rfl | rfl) <;> cases h

theorem new_invalid {m : Byte} {r : Rand} (h : DataHeader.new m r = .exn .invalidArgument) : ¬ (m = 1 ∨ m = 2 ∨ m = 3) := by
  intro hm
  rcases r with ⟨g, f⟩
  rcases hm with rfl | rfl | rfl <;> cases g <;> cases h

theorem fileMode_invalid {d : DataHeader} {m : Byte} {e : Exn} (h : d.setFileDataMode m = .exn e) : m ≠ 1 := by
  rintro rfl
  cases h

theorem chain_unknown {m : Byte} (h : CHMode.ofByte m = none) : ¬ knownChain m := by
  rintro (rfl | rfl | rfl | rfl | rfl) <;> cases h

section stream
variable {rd : List Byte → (cap n : Nat) → Say σ (List Byte)}
  (hrd : ∀ (name : String), name ∈ fieldNames → ∀ i, i = ascii name → ∀ cap n, Stops Says (rd i cap n))
include hrd

theorem stops_rdByte (name : String) (hn : name ∈ fieldNames) (i : List Byte) (hi : i = ascii name) : Stops Says (rdByte rd i) := by
  refine stops_bind (hrd name hn i hi _ _) fun l => ?_
  cases l with
  | nil => exact stops_lift _
  | cons x l => exact stops_pure x

theorem stops_rdLong (name : String) (hn : name ∈ fieldNames) (i : List Byte) (hi : i = ascii name) : Stops Says (rdLong rd i) :=
  stops_bind (hrd name hn i hi _ _) fun _ => stops_lift _

theorem stops_rdBlocks (k : Nat) : ∀ d, Stops Says (rdBlocks rd k d) := by
  induction k with
  | zero => exact fun d => stops_pure d
  | succ k ih =>
    exact fun d => stops_bind (stops_rdByte hrd "Data block type" (by decide) _ rfl) fun _ =>
      stops_bind (stops_rdByte hrd "Data block len" (by decide) _ rfl) fun _ =>
      stops_bind (hrd "Data block data" (by decide) _ rfl _ _) fun _ => stops_bind (stops_lift _) fun d => ih d

theorem stops_rdEncBlocks (k : Nat) : ∀ d, Stops Says (rdEncBlocks rd k d) := by
  induction k with
  | zero => exact fun d => stops_pure d
  | succ k ih =>
    exact fun d => stops_bind (stops_rdByte hrd "Enc datablock type" (by decide) _ rfl) fun _ =>
      stops_bind (stops_rdByte hrd "Enc datablock len" (by decide) _ rfl) fun _ =>
      stops_bind (hrd "Enc datablock data" (by decide) _ rfl _ _) fun _ => stops_bind (stops_lift _) fun d => ih d

omit hrd in
theorem stops_part (num : List Byte) (name : String) (hn : name ∈ fieldNames) (hi : ascii "Chainhash data block " ++ num = ascii name)
    (c : ChainHashData) (b : Bytes) : Stops Says (Say.onExn (Say.lift (c.addBytes b)) (partHandler num b) : Say σ ChainHashData) := by
  refine stops_catch fun e c i _ h => ?_
  cases e with
  | lengthError => cases h; exact says_name name hi hn
  | pointer => cases h
  | _ => cases h; exact .inr (by decide)

theorem stops_rdParts (num : List Byte) (name : String) (hn : name ∈ fieldNames) (hi : ascii "Chainhash data block " ++ num = ascii name)
    (dblen : Nat) : ∀ (nls : List NameLen) (c : ChainHashData) (n : Nat), Stops Says (rdParts rd num dblen nls c n) := by
  intro nls
  induction nls with
  | nil => exact fun c n => stops_pure (c, n)
  | cons nl nls ih =>
    intro c n
    unfold rdParts
    by_cases h : nl.len ≠ 0
    · rw [if_pos h]
      exact stops_bind (hrd name hn _ hi _ _) fun l => stops_bind (stops_part num name hn hi _ _) fun c => ih c _
    · rw [if_neg h]
      exact stops_bind (hrd name hn _ hi _ _) fun l => stops_bind (stops_part num name hn hi _ _) fun c => stops_pure (c, dblen)

theorem stops_rdChainHash (num : List Byte) (a b c d : String) (ha : a ∈ fieldNames) (hb : b ∈ fieldNames) (hc : c ∈ fieldNames)
    (hd : d ∈ fieldNames) (ia : ascii "Chainhash" ++ num ++ ascii " mode" = ascii a)
    (ib : ascii "Chainhash" ++ num ++ ascii " iters" = ascii b) (ic : ascii "Chainhash" ++ num ++ ascii " blocklen" = ascii c)
    (id : ascii "Chainhash data block " ++ num = ascii d) : Stops Says (rdChainHash rd num) := by
  refine stops_bind (stops_rdByte hrd a ha _ ia) fun mode => ?_
  cases hm : CHMode.ofByte mode with
  | none => exact stops_fail (.inl (.chainMode mode (chain_unknown hm)))
  | some m =>
    exact stops_bind (stops_rdLong hrd b hb _ ib) fun _ => stops_bind (stops_rdByte hrd c hc _ ic) fun _ =>
      stops_bind (stops_rdParts hrd num d hd id _ _ _ _) fun _ => stops_bind (stops_lift _) fun _ =>
      stops_bind (stops_lift _) fun _ => stops_pure _

omit hrd in
theorem stops_any (x : Res α) (i : List Byte) : Stops Says (Say.onExn (Say.lift x) (any i) : Say σ α) := by
  refine stops_catch fun e c i _ h => ?_
  cases e <;> cases h <;> exact .inr (by decide)

omit hrd in
theorem stops_setChain (x : Res α) (code : ErrorCode) (num : List Byte) (h : HeaderText code initial) :
    Stops Says (Say.onExn (Say.lift x) (chainHandler code num) : Say σ α) := by
  refine stops_catch fun e c i _ hh => ?_
  cases e with
  | invalidArgument => cases hh; exact .inl h
  | pointer => cases hh
  | _ => cases hh; exact .inr (by decide)

theorem stops_rdContent (hs : Hashes) (r : Rand) (fileSize : UInt64) : Stops Says (rdContent rd hs r fileSize) := by
  refine stops_bind (stops_rdByte hrd "File mode" (by decide) _ rfl) fun fmode =>
    stops_bind (stops_rdByte hrd "Hash mode" (by decide) _ rfl) fun hmode =>
    stops_bind (stops_catch fun e c i hx h => ?_) fun d => stops_bind (stops_catch fun e c i hx h => ?_) fun d =>
    stops_bind (stops_rdByte hrd "Data block count" (by decide) _ rfl) fun count => stops_bind (stops_rdBlocks hrd _ _) fun d =>
    stops_bind (stops_rdChainHash hrd _ "Chainhash1 mode" "Chainhash1 iters" "Chainhash1 blocklen" "Chainhash data block 1" (by decide)
      (by decide) (by decide) (by decide) rfl rfl rfl rfl) fun c1 =>
    stops_bind (stops_setChain _ _ _ .iters1) fun d =>
    stops_bind (stops_rdChainHash hrd _ "Chainhash2 mode" "Chainhash2 iters" "Chainhash2 blocklen" "Chainhash data block 2" (by decide)
      (by decide) (by decide) (by decide) rfl rfl rfl rfl) fun c2 =>
    stops_bind (stops_setChain _ _ _ .iters2) fun d =>
    stops_bind (hrd "Password validator hash" (by decide) _ rfl _ _) fun v => stops_bind (stops_any _ _) fun d =>
    stops_bind (hrd "Encrypted salt" (by decide) _ rfl _ _) fun s => stops_bind (stops_any _ _) fun d =>
    stops_bind (stops_catch fun e c i hx h => ?_) fun d =>
    stops_bind (stops_rdByte hrd "Encrypted block count" (by decide) _ rfl) fun ecount => stops_bind (stops_rdEncBlocks hrd _ _) fun d =>
    stops_any _ _
  · cases e <;> cases h
    exact .inl (.hashMode hmode (new_invalid hx))
  · cases e <;> cases h
    exact .inl (.fileMode fmode (fileMode_invalid hx))
  · cases e <;> cases h
    exact .inl (.content _)

theorem stops_rdHeader (remaining : σ → Nat) (hs : Hashes) (r : Rand) (start : σ) (hl : remaining start < 2 ^ 64) (c : ErrorCode)
    (i : List Byte) (h : rdHeader rd remaining hs r start = .ok (.stop c i)) : Says c i := by
  refine (stops_bind (stops_rdLong hrd "File size" (by decide) _ rfl) fun fileSize =>
    stops_bind (stops_rdLong hrd "Header size" (by decide) _ rfl) fun headerSize => ?_) start c i h
  by_cases h1 : remaining start ≠ fileSize.toNat
  · rw [if_pos h1]
    refine stops_fail (.inl (.fileSize fileSize (UInt64.ofNat (remaining start)) ?_))
    intro he
    rw [he, UInt64.toNat_ofNat_of_lt' hl] at h1
    exact h1 rfl
  · rw [if_neg h1]
    by_cases h2 : headerSize > fileSize
    · rw [if_pos h2]
      exact stops_fail (.inl (.headerSize _ _ h2))
    · rw [if_neg h2]
      exact stops_bind (stops_rdContent hrd _ _ _) fun d => fun s => stops_lift _ s

end stream

theorem stops_rdStream (name : String) (hn : name ∈ fieldNames) (i : List Byte) (hi : i = ascii name) (cap n : Nat) :
    Stops Says (rdStream i cap n) := by
  intro s c j h
  unfold rdStream at h
  rcases hr : readData s (Bytes.empty cap) n with ⟨_ | b, s'⟩ | e | x <;> rw [hr] at h <;> cases h
  exact says_name name hi hn

end Verif.Tell
