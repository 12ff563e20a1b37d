import Verif.Spec.Secrecy
import Verif.Lemmas.Crypt

/- Encrypting with a hash function that is changed at the inputs for the key stream. -/
namespace Verif
open Spec

variable {h h' : List Byte → List Byte} {n : Nat} {a b x : List Byte}

theorem mem_path {i : Nat} {z : List Byte} (hi : i < blockCount n x.length)
    (hz : z = addB (addB (keyPair h n a b x i).1 (keyPair h n a b x i).2) (blockDigest h n x i) ∨
      z = addB (addB (keyPair h n a b x (i + 1)).1 (keyPair h n a b x i).2) (blockDigest h n x i) ∨
      (i ≠ 0 ∧ z = blockNo n i x)) : z ∈ pathInputs h n a b x := by
  simp only [pathInputs, List.mem_flatMap, List.mem_range]
  refine ⟨i, hi, ?_⟩
  rcases hz with rfl | rfl | ⟨h0, rfl⟩
  · simp
  · simp
  · simp [h0]

theorem keyPair_agree (hp : ∀ z ∈ pathInputs h n a b x, h' z = h z) (i : Nat) (hi : i ≤ blockCount n x.length) :
    keyPair h' n a b x i = keyPair h n a b x i ∧ (i < blockCount n x.length → blockDigest h' n x i = blockDigest h n x i) := by
  have dig : ∀ i, i < blockCount n x.length → blockDigest h' n x i = blockDigest h n x i := by
    intro i hi
    cases i with
    | zero => rfl
    | succ j => exact hp _ (mem_path (i := j + 1) (by omega) (.inr (.inr ⟨by omega, rfl⟩)))
  refine ⟨?_, dig i⟩
  induction i with
  | zero => rfl
  | succ i ih =>
    have ih := ih (by omega)
    have e2 := hp _ (mem_path (a := a) (b := b) (i := i) (by omega) (.inl rfl))
    have e3 := hp _ (mem_path (a := a) (b := b) (i := i) (by omega) (.inr (.inl rfl)))
    simp only [keyPair] at e3 ⊢
    rw [ih, dig i (by omega), e2, e3]

theorem keyInputs_agree (hp : ∀ z ∈ pathInputs h n a b x, h' z = h z) : keyInputs h' n a b x = keyInputs h n a b x := by
  unfold keyInputs
  refine List.map_congr_left fun i hi => ?_
  rw [List.mem_range] at hi
  simp only [keyInput, (keyPair_agree hp (i + 1) (by omega)).1]

theorem flatMap_congr' {α β : Type} {l : List α} {f g : α → List β} (h : ∀ x ∈ l, f x = g x) : l.flatMap f = l.flatMap g := by
  induction l with
  | nil => rfl
  | cons y l ih =>
    rw [List.flatMap_cons, List.flatMap_cons, h y (List.mem_cons_self ..), ih fun x hx => h x (List.mem_cons_of_mem _ hx)]

theorem pathInputs_agree (hp : ∀ z ∈ pathInputs h n a b x, h' z = h z) : pathInputs h' n a b x = pathInputs h n a b x := by
  unfold pathInputs
  refine flatMap_congr' fun i hi => ?_
  rw [List.mem_range] at hi
  have h1 := keyPair_agree hp i (by omega)
  simp only [h1.1, h1.2 hi, (keyPair_agree hp (i + 1) (by omega)).1]

theorem key_get {i : Nat} (hi : i < blockCount n x.length) :
    (keyInputs h n a b x)[i]? = some (keyInput h n a b x (i + 1)) := by
  simp [keyInputs, hi]

theorem lt_blockCount {k : Nat} (hn : 0 < n) (hk : k < x.length) : k / n < blockCount n x.length := by
  unfold blockCount
  rw [Nat.div_lt_iff_lt_mul hn]
  have h1 := Nat.div_add_mod (x.length + n - 1) n
  have h2 := Nat.mod_lt (x.length + n - 1) hn
  rw [Nat.mul_comm] at h1
  omega

theorem get_flatMap {f : List Byte → List Byte} (hn : 0 < n) : ∀ (l : List (List Byte)) (k : Nat),
    (∀ z ∈ l, (f z).length = n) → ∀ z, l[k / n]? = some z → (l.flatMap f)[k]? = (f z)[k % n]?
  | [], _, _, _, hz => by simp at hz
  | y :: l, k, hl, z, hz => by
    have hy := hl y (List.mem_cons_self ..)
    rw [List.flatMap_cons]
    by_cases hk : k < n
    · rw [Nat.div_eq_of_lt hk] at hz
      simp only [List.getElem?_cons_zero, Option.some.injEq] at hz
      subst hz
      rw [List.getElem?_append_left (by omega), Nat.mod_eq_of_lt hk]
    · have hk' : n ≤ k := Nat.le_of_not_lt hk
      rw [List.getElem?_append_right (by omega), hy]
      have e1 : k / n = (k - n) / n + 1 := by rw [Nat.div_eq_sub_div hn hk']
      rw [e1, List.getElem?_cons_succ] at hz
      rw [get_flatMap hn l (k - n) (fun z hz => hl z (List.mem_cons_of_mem _ hz)) z hz, Nat.mod_eq_sub_mod hk']

/-- the encryption with the changed hash function -/
theorem pad_encryption {H H' : HashFn} {a b x : List Byte} (hs : H'.size = H.size)
    (ha : ∀ z, z ∉ keyInputs H.h H.size a b x → H'.h z = H.h z)
    (hd : ∀ z ∈ keyInputs H.h H.size a b x, z ∉ pathInputs H.h H.size a b x) :
    IsEncryption H'.h H'.size a b x (addB x ((keyInputs H.h H.size a b x).flatMap H'.h)) := by
  have hn : 0 < H.size := by have := H.pos; omega
  have hp : ∀ z ∈ pathInputs H.h H.size a b x, H'.h z = H.h z := fun z hz => ha z fun hk => hd z hk hz
  have key : ∀ k, k < x.length → ((keyInputs H.h H.size a b x).flatMap H'.h)[k]? =
      (blockSalt H'.h H'.size a b x (k / H'.size + 1))[k % H'.size]? := by
    intro k hk
    have hc := lt_blockCount hn hk
    rw [get_flatMap hn _ k (fun z _ => by rw [H'.len, hs]) _ (key_get hc), hs, blockSalt,
      (keyPair_agree hp _ (by omega)).1]
    rfl
  have hlt : ∀ k, k < x.length → ∃ s, (blockSalt H'.h H'.size a b x (k / H'.size + 1))[k % H'.size]? = some s := by
    intro k hk
    have : k % H'.size < (blockSalt H'.h H'.size a b x (k / H'.size + 1)).length := by
      rw [blockSalt_length]; exact Nat.mod_lt _ (by omega)
    exact ⟨_, List.getElem?_eq_getElem this⟩
  have hlen : x.length ≤ ((keyInputs H.h H.size a b x).flatMap H'.h).length := by
    cases hx : x.length with
    | zero => omega
    | succ k =>
      obtain ⟨s, h1⟩ := hlt k (by omega)
      rw [← key k (by omega)] at h1
      have := (List.getElem?_eq_some_iff.mp h1).1
      omega
  refine ⟨by rw [length_addB]; omega, ?_⟩
  intro k p hp
  have hk := (List.getElem?_eq_some_iff.mp hp).1
  obtain ⟨s, h1⟩ := hlt k hk
  refine ⟨s, h1, ?_⟩
  rw [getElem?_addB, hp, key k hk, h1]

/-- the same encryption with two hash functions that agree on everything hashed -/
theorem encryption_agree {H H' : HashFn} {a b x c : List Byte} (hs : H'.size = H.size)
    (hp : ∀ z ∈ pathInputs H.h H.size a b x, H'.h z = H.h z) (hk : ∀ z ∈ keyInputs H.h H.size a b x, H'.h z = H.h z)
    (h : IsEncryption H.h H.size a b x c) : IsEncryption H'.h H'.size a b x c := by
  have hn : 0 < H.size := by have := H.pos; omega
  refine ⟨h.1, fun k p hkp => ?_⟩
  obtain ⟨s, h1, h2⟩ := h.2 k p hkp
  refine ⟨s, ?_, h2⟩
  have hc := lt_blockCount hn (List.getElem?_eq_some_iff.mp hkp).1
  have e := hk _ (List.mem_of_getElem? (key_get (h := H.h) (a := a) (b := b) hc))
  rw [hs, blockSalt, (keyPair_agree hp _ (by omega)).1]
  exact e ▸ h1

end Verif
