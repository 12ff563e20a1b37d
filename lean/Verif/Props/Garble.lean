import Verif.Spec.Garble
import Verif.Lemmas.Cost
import Verif.Props.Secrecy

/- A change of the key, the salt or a block changes the keys of everything behind it: C107. -/
namespace Verif.Props
open Spec Sha2

variable {hs : Hashes} {rest : Api.Helper → Res Api.Helper}

theorem addB_assoc (a b c : List Byte) : addB (addB a b) c = addB a (addB b c) := by
  apply List.ext_getElem?
  intro k
  simp only [getElem?_addB]
  cases a[k]? <;> cases b[k]? <;> cases c[k]? <;> simp [UInt8.add_assoc]

/-- the two strings of a round have the length of a digest -/
theorem keyPair_len (H : HashFn) {a b : List Byte} (x : List Byte) (ha : a.length = H.size) (hb : b.length = H.size) :
    ∀ i, (keyPair H.h H.size a b x i).1.length = H.size ∧ (keyPair H.h H.size a b x i).2.length = H.size
  | 0 => ⟨ha, hb⟩
  | i + 1 => by simp [keyPair]

theorem blockDigest_len (H : HashFn) (x : List Byte) : ∀ i, (blockDigest H.h H.size x i).length = H.size
  | 0 => by simp [blockDigest]
  | i + 1 => by simp [blockDigest]

/-- versions whose two strings differ in one round do so in the next, or something meets -/
theorem apart_step (H : HashFn) {v v' : Version} (h1 : v.pwhash.length = H.size) (h2 : v.salt.length = H.size)
    (h1' : v'.pwhash.length = H.size) (h2' : v'.salt.length = H.size) (i : Nat)
    (hne : keyPair H.h H.size v.pwhash v.salt v.data i ≠ keyPair H.h H.size v'.pwhash v'.salt v'.data i) :
    keyPair H.h H.size v.pwhash v.salt v.data (i + 1) ≠ keyPair H.h H.size v'.pwhash v'.salt v'.data (i + 1) ∨
    ShowCollision H.h (roundInputs H.h H.size v i) (roundInputs H.h H.size v' i) ∨
    SameSum (keyPair H.h H.size v.pwhash v.salt v.data i).2 (blockDigest H.h H.size v.data i)
      (keyPair H.h H.size v'.pwhash v'.salt v'.data i).2 (blockDigest H.h H.size v'.data i) := by
  obtain ⟨l1, l2⟩ := keyPair_len H v.data h1 h2 i
  obtain ⟨l1', l2'⟩ := keyPair_len H v'.data h1' h2' i
  have l3 := blockDigest_len H v.data i
  have l3' := blockDigest_len H v'.data i
  by_cases he : keyPair H.h H.size v.pwhash v.salt v.data (i + 1) = keyPair H.h H.size v'.pwhash v'.salt v'.data (i + 1)
  · right
    have e1 := congrArg Prod.fst he
    have e2 := congrArg Prod.snd he
    simp only [keyPair] at e1 e2
    by_cases c1 : addB (addB (keyPair H.h H.size v.pwhash v.salt v.data i).1 (keyPair H.h H.size v.pwhash v.salt v.data i).2)
        (blockDigest H.h H.size v.data i) =
      addB (addB (keyPair H.h H.size v'.pwhash v'.salt v'.data i).1 (keyPair H.h H.size v'.pwhash v'.salt v'.data i).2)
        (blockDigest H.h H.size v'.data i)
    · rw [← e1] at e2
      generalize hz : H.h (addB (addB (keyPair H.h H.size v.pwhash v.salt v.data i).1 (keyPair H.h H.size v.pwhash v.salt v.data i).2)
        (blockDigest H.h H.size v.data i)) = z at e1 e2
      have lz : z.length = H.size := by rw [← hz]; simp
      by_cases c2 : addB (addB z (keyPair H.h H.size v.pwhash v.salt v.data i).2) (blockDigest H.h H.size v.data i) =
        addB (addB z (keyPair H.h H.size v'.pwhash v'.salt v'.data i).2) (blockDigest H.h H.size v'.data i)
      · right
        have hsum : addB (keyPair H.h H.size v.pwhash v.salt v.data i).2 (blockDigest H.h H.size v.data i) =
            addB (keyPair H.h H.size v'.pwhash v'.salt v'.data i).2 (blockDigest H.h H.size v'.data i) := by
          rw [addB_assoc, addB_assoc, addB_comm z, addB_comm z] at c2
          exact addB_inj (by simp [l2, l3, lz]) (by simp [l2', l3', lz]) c2
        refine ⟨fun hp => hne ?_, hsum⟩
        have q1 := congrArg Prod.fst hp
        rw [addB_assoc, addB_assoc, hsum] at c1
        exact Prod.ext (addB_inj (by simp [l1, l2', l3']) (by simp [l1', l2', l3']) c1) q1
      · left
        refine ⟨2, _, _, ?_, ?_, c2, e2⟩
        · simp [roundInputs, keyPair, hz]
        · simp [roundInputs, keyPair, ← e1]
    · left
      exact ⟨1, _, _, rfl, rfl, c1, e1⟩
  · exact .inl he

/-- so they do for ever -/
theorem apart_from (H : HashFn) {v v' : Version} (h1 : v.pwhash.length = H.size) (h2 : v.salt.length = H.size)
    (h1' : v'.pwhash.length = H.size) (h2' : v'.salt.length = H.size) (i : Nat)
    (hne : keyPair H.h H.size v.pwhash v.salt v.data i ≠ keyPair H.h H.size v'.pwhash v'.salt v'.data i) (m : Nat) :
    keyPair H.h H.size v.pwhash v.salt v.data (i + m) ≠ keyPair H.h H.size v'.pwhash v'.salt v'.data (i + m) ∨
    HashesMeet H.h H.size v v' (i + m) ∨ SumsMeet H.h H.size v v' (i + m) := by
  induction m with
  | zero => exact .inl hne
  | succ m ih =>
    by_cases he : keyPair H.h H.size v.pwhash v.salt v.data (i + m) = keyPair H.h H.size v'.pwhash v'.salt v'.data (i + m)
    · -- they have met before, and it shows how
      have main : ∀ k, keyPair H.h H.size v.pwhash v.salt v.data (i + k) = keyPair H.h H.size v'.pwhash v'.salt v'.data (i + k) →
          ∃ j, j < i + k ∧ (ShowCollision H.h (roundInputs H.h H.size v j) (roundInputs H.h H.size v' j) ∨
            SameSum (keyPair H.h H.size v.pwhash v.salt v.data j).2 (blockDigest H.h H.size v.data j)
              (keyPair H.h H.size v'.pwhash v'.salt v'.data j).2 (blockDigest H.h H.size v'.data j)) := by
        intro k
        induction k with
        | zero => exact fun h => absurd h hne
        | succ k ihk =>
          intro h
          by_cases hk : keyPair H.h H.size v.pwhash v.salt v.data (i + k) = keyPair H.h H.size v'.pwhash v'.salt v'.data (i + k)
          · obtain ⟨j, hj, hs⟩ := ihk hk
            exact ⟨j, by omega, hs⟩
          · rcases apart_step H h1 h2 h1' h2' (i + k) hk with g | g
            · exact absurd h g
            · exact ⟨i + k, by omega, g⟩
      obtain ⟨j, hj, hs | hs⟩ := main m he
      · exact .inr (.inl (.inl ⟨j, by omega, hs⟩))
      · exact .inr (.inr (.inl ⟨j, by omega, hs⟩))
    · rcases apart_step H h1 h2 h1' h2' (i + m) he with g | g | g
      · exact .inl g
      · exact .inr (.inl (.inl ⟨i + m, by omega, g⟩))
      · exact .inr (.inr (.inl ⟨i + m, by omega, g⟩))

/-- and then the keys differ, too -/
theorem keys_differ (H : HashFn) {v v' : Version} (h1 : v.pwhash.length = H.size) (h2 : v.salt.length = H.size)
    (h1' : v'.pwhash.length = H.size) (h2' : v'.salt.length = H.size) (i : Nat)
    (hne : keyPair H.h H.size v.pwhash v.salt v.data i ≠ keyPair H.h H.size v'.pwhash v'.salt v'.data i) (k : Nat) (hk : i ≤ k) :
    blockSalt H.h H.size v.pwhash v.salt v.data k ≠ blockSalt H.h H.size v'.pwhash v'.salt v'.data k ∨
    HashesMeet H.h H.size v v' k ∨ SumsMeet H.h H.size v v' k := by
  obtain ⟨m, rfl⟩ := Nat.exists_eq_add_of_le hk
  rcases apart_from H h1 h2 h1' h2' i hne m with g | g
  · by_cases hb : blockSalt H.h H.size v.pwhash v.salt v.data (i + m) = blockSalt H.h H.size v'.pwhash v'.salt v'.data (i + m)
    · right
      by_cases hi : keyInput H.h H.size v.pwhash v.salt v.data (i + m) = keyInput H.h H.size v'.pwhash v'.salt v'.data (i + m)
      · exact .inr (.inr ⟨g, hi⟩)
      · exact .inl (.inr ⟨0, _, _, rfl, rfl, hi, hb⟩)
    · exact .inl hb
  · exact .inr g

/-- different keys show in every whole block -/
theorem garbled_of_keys (H : HashFn) {a b a' b' x x' c c' : List Byte} (hx : IsEncryption H.h H.size a b x c)
    (hx' : IsEncryption H.h H.size a' b' x' c') {k : Nat} (hk : 1 ≤ k) (hl : k * H.size ≤ x.length) (hl' : k * H.size ≤ x'.length)
    (hne : blockSalt H.h H.size a b x k ≠ blockSalt H.h H.size a' b' x' k) : Garbled H.size x x' c c' k := by
  have hn : 0 < H.size := by have := H.pos; omega
  obtain ⟨q, hq⟩ : ∃ q, (blockSalt H.h H.size a b x k)[q]? ≠ (blockSalt H.h H.size a' b' x' k)[q]? := by
    apply Classical.byContradiction
    intro hc
    exact hne (List.ext_getElem? fun q => Classical.byContradiction fun h => hc ⟨q, h⟩)
  have hqn : q < H.size := by
    apply Classical.byContradiction
    intro hc
    exact hq (by rw [List.getElem?_eq_none (by rw [blockSalt_length]; omega), List.getElem?_eq_none (by rw [blockSalt_length]; omega)])
  obtain ⟨k, rfl⟩ := Nat.exists_eq_add_of_le' hk
  rw [Nat.succ_mul] at hl hl'
  have hp : k * H.size + q < x.length := by omega
  have hp' : k * H.size + q < x'.length := by omega
  have hdiv : (k * H.size + q) / H.size = k := by
    rw [Nat.mul_comm, Nat.mul_add_div hn, Nat.div_eq_of_lt hqn, Nat.add_zero]
  have hmod : (k * H.size + q) % H.size = q := by
    rw [Nat.mul_comm, Nat.mul_add_mod, Nat.mod_eq_of_lt hqn]
  obtain ⟨s, s1, s2⟩ := hx.2 _ _ (List.getElem?_eq_getElem hp)
  obtain ⟨s', s1', s2'⟩ := hx'.2 _ _ (List.getElem?_eq_getElem hp')
  rw [hdiv, hmod] at s1 s1'
  refine ⟨k * H.size + q, _, _, _, _, by simp, by rw [Nat.succ_mul]; omega, List.getElem?_eq_getElem hp,
    List.getElem?_eq_getElem hp', s2, s2', fun he => hq ?_⟩
  rw [s1, s1']
  have : s = s' := by
    rw [UInt8.sub_eq_iff_eq_add] at he
    grind
  rw [this]

/-- strings with the same blocks begin alike -/
theorem take_of_blocks {n : Nat} {x y : List Byte} : ∀ j, (∀ i, 1 ≤ i → i ≤ j → blockNo n i x = blockNo n i y) →
    x.take (j * n) = y.take (j * n)
  | 0, _ => by simp
  | j + 1, h => by
    rw [Nat.succ_mul, List.take_add, List.take_add, take_of_blocks j fun i h1 h2 => h i h1 (by omega)]
    have := h (j + 1) (by omega) (by omega)
    simp only [blockNo, Nat.add_sub_cancel] at this
    rw [this]

/-- the first block in which two strings differ -/
theorem first_diff {n : Nat} {x y : List Byte} (j : Nat) : 1 ≤ j → blockNo n j x ≠ blockNo n j y →
    ∃ i, i ≤ j ∧ 1 ≤ i ∧ blockNo n i x ≠ blockNo n i y ∧ ∀ k, 1 ≤ k → k < i → blockNo n k x = blockNo n k y := by
  induction j using Nat.strongRecOn with
  | ind j ih =>
    intro hj hb
    by_cases hc : ∃ i, i < j ∧ 1 ≤ i ∧ blockNo n i x ≠ blockNo n i y
    · obtain ⟨i, i1, i2, i3⟩ := hc
      obtain ⟨i', g1, g⟩ := ih i i1 i2 i3
      exact ⟨i', by omega, g⟩
    · exact ⟨j, Nat.le_refl _, hj, hb, fun k k1 k2 => Classical.byContradiction fun h => hc ⟨k, k2, k1, h⟩⟩

/-- a different block makes a difference from the next block on -/
theorem apart_after (H : HashFn) {a b : List Byte} (h1 : a.length = H.size) (h2 : b.length = H.size) (x y : List Byte) {j : Nat}
    (hj : 1 ≤ j) (hb : blockNo H.size j x ≠ blockNo H.size j y) :
    ∃ i, i ≤ j ∧ (keyPair H.h H.size a b x (i + 1) ≠ keyPair H.h H.size a b y (i + 1) ∨
      ShowCollision H.h (roundInputs H.h H.size ⟨a, b, x⟩ i) (roundInputs H.h H.size ⟨a, b, y⟩ i)) := by
  obtain ⟨i, hle, i1, i2, hmin⟩ := first_diff j hj hb
  refine ⟨i, hle, ?_⟩
  have hpre := keyPair_congr H.h H.size a b x y i (take_of_blocks (i - 1) fun k h1 h2 => hmin k h1 (by omega))
  obtain ⟨l1, l2⟩ := keyPair_len H y h1 h2 i
  have l3 := blockDigest_len H x i
  have l3' := blockDigest_len H y i
  by_cases hd : blockDigest H.h H.size x i = blockDigest H.h H.size y i
  · right
    refine ⟨0, blockNo H.size i x, blockNo H.size i y, ?_, ?_, i2, ?_⟩
    · simp only [roundInputs]; rw [if_neg (by omega)]; rfl
    · simp only [roundInputs]; rw [if_neg (by omega)]; rfl
    · obtain ⟨k, rfl⟩ := Nat.exists_eq_add_of_le' i1
      exact hd
  · by_cases hs : addB (addB (keyPair H.h H.size a b x i).1 (keyPair H.h H.size a b x i).2) (blockDigest H.h H.size x i) =
        addB (addB (keyPair H.h H.size a b y i).1 (keyPair H.h H.size a b y i).2) (blockDigest H.h H.size y i)
    · rw [hpre, addB_comm, addB_comm _ (blockDigest H.h H.size y i)] at hs
      exact absurd (addB_inj (by simp [l1, l2, l3]) (by simp [l1, l2, l3']) hs) hd
    · by_cases he : keyPair H.h H.size a b x (i + 1) = keyPair H.h H.size a b y (i + 1)
      · exact .inr ⟨1, _, _, rfl, rfl, hs, congrArg Prod.fst he⟩
      · exact .inl he

/-- both together -/
theorem garbled_after (H : HashFn) {a b x y c c' : List Byte} (h1 : a.length = H.size) (h2 : b.length = H.size)
    (hx : IsEncryption H.h H.size a b x c) (hy : IsEncryption H.h H.size a b y c') {j k : Nat} (hj : 1 ≤ j) (hjk : j < k)
    (hb : blockNo H.size j x ≠ blockNo H.size j y) (hl : k * H.size ≤ x.length) (hl' : k * H.size ≤ y.length) :
    Garbled H.size x y c c' k ∨ HashesMeet H.h H.size ⟨a, b, x⟩ ⟨a, b, y⟩ k ∨ SumsMeet H.h H.size ⟨a, b, x⟩ ⟨a, b, y⟩ k := by
  obtain ⟨i, hi, g | g⟩ := apart_after H h1 h2 x y hj hb
  · rcases keys_differ H (v := ⟨a, b, x⟩) (v' := ⟨a, b, y⟩) h1 h2 h1 h2 (i + 1) g k (by omega) with q | q
    · exact .inl (garbled_of_keys H hx hy (by omega) hl hl' q)
    · exact .inr q
  · exact .inr (.inl (.inl ⟨i, by omega, g⟩))

/-- C107: data that differ in a block are encrypted with different bytes in every whole block behind it: the encrypted blocks do not
differ as the blocks do. Otherwise the hash function has the same value for different inputs on the way, or two different pairs of
hashes have the same sum. -/
theorem C107_encryption (H : HashFn) (pw salt : Bytes) (x y c c' : List Byte) (h1 : pw.data.length = H.size)
    (h2 : salt.data.length = H.size) (hx : x.length < 2 ^ 31) (hy : y.length < 2 ^ 31) (h : crypt .enc H pw salt x = .ok c)
    (h' : crypt .enc H pw salt y = .ok c') (j k : Nat) (hj : 1 ≤ j) (hjk : j < k) (hb : blockNo H.size j x ≠ blockNo H.size j y)
    (hl : k * H.size ≤ x.length) (hl' : k * H.size ≤ y.length) :
    Garbled H.size x y c c' k ∨ HashesMeet H.h H.size ⟨pw.data, salt.data, x⟩ ⟨pw.data, salt.data, y⟩ k ∨
      SumsMeet H.h H.size ⟨pw.data, salt.data, x⟩ ⟨pw.data, salt.data, y⟩ k :=
  garbled_after H h1 h2 (C26_encryption H pw salt x c h1 h2 hx h) (C26_encryption H pw salt y c' h1 h2 hy h') hj hjk hb hl hl'

/-- blocks of the encrypted data that differ come from blocks of the data that do, there or before -/
theorem blocks_of_cipher {h : List Byte → List Byte} {n : Nat} {a b x y c c' : List Byte} (hx : IsEncryption h n a b x c)
    (hy : IsEncryption h n a b y c') {j : Nat} (hj : 1 ≤ j) (hb : blockNo n j c ≠ blockNo n j c') :
    ∃ i, 1 ≤ i ∧ i ≤ j ∧ blockNo n i x ≠ blockNo n i y := by
  apply Classical.byContradiction
  intro hc
  refine hb ?_
  have e := enc_prefix (j * n) hx hy (take_of_blocks j fun i h1 h2 => Classical.byContradiction fun h => hc ⟨i, h1, h2, h⟩)
  obtain ⟨j, rfl⟩ := Nat.exists_eq_add_of_le' hj
  have := congrArg (List.drop (j * n)) e
  rw [List.drop_take, List.drop_take, Nat.succ_mul, Nat.add_sub_cancel_left] at this
  simpa [blockNo] using this

/-- C107: and the other way round: whoever changes a block of the encrypted data garbles every whole block behind it. -/
theorem C107_decryption (H : HashFn) (pw salt : Bytes) (c c' x y : List Byte) (h1 : pw.data.length = H.size)
    (h2 : salt.data.length = H.size) (hc : c.length < 2 ^ 31) (hc' : c'.length < 2 ^ 31) (h : crypt .dec H pw salt c = .ok x)
    (h' : crypt .dec H pw salt c' = .ok y) (j k : Nat) (hj : 1 ≤ j) (hjk : j < k) (hb : blockNo H.size j c ≠ blockNo H.size j c')
    (hl : k * H.size ≤ c.length) (hl' : k * H.size ≤ c'.length) :
    Garbled H.size x y c c' k ∨ HashesMeet H.h H.size ⟨pw.data, salt.data, x⟩ ⟨pw.data, salt.data, y⟩ k ∨
      SumsMeet H.h H.size ⟨pw.data, salt.data, x⟩ ⟨pw.data, salt.data, y⟩ k := by
  have e := C26_decryption H pw salt c x h1 h2 hc h
  have e' := C26_decryption H pw salt c' y h1 h2 hc' h'
  obtain ⟨i, i1, i2, i3⟩ := blocks_of_cipher e e' hj hb
  exact garbled_after H h1 h2 e e' i1 (by omega) i3 (by rw [← e.1]; exact hl) (by rw [← e'.1]; exact hl')

/-- C107: another password hash, another salt or both mean other keys for every block, the first included, whatever the data. -/
theorem C107_key (H : HashFn) (pw salt pw' salt' : Bytes) (x y c c' : List Byte) (h1 : pw.data.length = H.size)
    (h2 : salt.data.length = H.size) (h1' : pw'.data.length = H.size) (h2' : salt'.data.length = H.size) (hx : x.length < 2 ^ 31)
    (hy : y.length < 2 ^ 31) (h : crypt .enc H pw salt x = .ok c) (h' : crypt .enc H pw' salt' y = .ok c')
    (hne : (pw.data, salt.data) ≠ (pw'.data, salt'.data)) (k : Nat) (hk : 1 ≤ k) (hl : k * H.size ≤ x.length)
    (hl' : k * H.size ≤ y.length) :
    Garbled H.size x y c c' k ∨ HashesMeet H.h H.size ⟨pw.data, salt.data, x⟩ ⟨pw'.data, salt'.data, y⟩ k ∨
      SumsMeet H.h H.size ⟨pw.data, salt.data, x⟩ ⟨pw'.data, salt'.data, y⟩ k := by
  rcases keys_differ H (v := ⟨pw.data, salt.data, x⟩) (v' := ⟨pw'.data, salt'.data, y⟩) h1 h2 h1' h2' 0 hne k (by omega) with q | q
  · exact .inl (garbled_of_keys H (C26_encryption H pw salt x c h1 h2 hx h) (C26_encryption H pw' salt' y c' h1' h2' hy h') hk hl hl' q)
  · exact .inr q

/-- three blocks of text and the same with one letter changed in the first block, for the real hash function -/
def paleText : List Byte := ascii "Pay Alice 100 crowns a month out of the money in the iron chest; pay Bob and the others nothing."
def paleOther : List Byte := ascii "Pay Alice 900 crowns a month out of the money in the iron chest; pay Bob and the others nothing."

/-- nothing meets if the inputs at the same place are equal or have different hashes, and the pairs are equal or have different sums -/
def apartB (h : List Byte → List Byte) (n : Nat) (v v' : Version) (k : Nat) : Bool :=
  let sum := fun a b a' b' : List Byte => ((a, b) == (a', b')) || (addB a b != addB a' b')
  let key := fun (v : Version) i => keyPair h n v.pwhash v.salt v.data i
  (List.range k).all (fun i => ((roundInputs h n v i).zip (roundInputs h n v' i)).all (fun q => q.1 == q.2 || h q.1 != h q.2)) &&
  (keyInput h n v.pwhash v.salt v.data k == keyInput h n v'.pwhash v'.salt v'.data k ||
    h (keyInput h n v.pwhash v.salt v.data k) != h (keyInput h n v'.pwhash v'.salt v'.data k)) &&
  (List.range k).all (fun i => sum (key v i).2 (blockDigest h n v.data i) (key v' i).2 (blockDigest h n v'.data i)) &&
  sum (key v k).1 (key v k).2 (key v' k).1 (key v' k).2

theorem not_show {h : List Byte → List Byte} {xs ys : List (List Byte)}
    (hb : (xs.zip ys).all (fun q => q.1 == q.2 || h q.1 != h q.2) = true) : ¬ ShowCollision h xs ys := by
  rintro ⟨k, a, b, h1, h2, h3, h4⟩
  have := List.all_eq_true.mp hb (a, b) (List.mem_of_getElem? (i := k) (by rw [List.getElem?_zip_eq_some]; exact ⟨h1, h2⟩))
  simp [h3, h4] at this

theorem apart_of_check {h : List Byte → List Byte} {n : Nat} {v v' : Version} {k : Nat} (hb : apartB h n v v' k = true) :
    ¬ HashesMeet h n v v' k ∧ ¬ SumsMeet h n v v' k := by
  simp only [apartB, Bool.and_eq_true] at hb
  obtain ⟨⟨⟨b1, b2⟩, b3⟩, b4⟩ := hb
  constructor
  · rintro (⟨i, hi, hs⟩ | hs)
    · exact not_show (List.all_eq_true.mp b1 i (List.mem_range.mpr hi)) hs
    · exact not_show (by simpa using b2) hs
  · rintro (⟨i, hi, h1, h2⟩ | ⟨h1, h2⟩)
    · have := List.all_eq_true.mp b3 i (List.mem_range.mpr hi)
      simp only [Bool.or_eq_true, beq_iff_eq, bne_iff_ne] at this
      exact this.elim h1 fun h => h h2
    · simp only [Bool.or_eq_true, beq_iff_eq, bne_iff_ne] at b4
      exact b4.elim h1 fun h => h h2

/-- nothing meets, so blocks 2 and 3 are garbled (C107_encryption) -/
example : ∃ c c', crypt .enc (sha2.get .sha256) secretKey secretSalt paleText = .ok c ∧
    crypt .enc (sha2.get .sha256) secretKey secretSalt paleOther = .ok c' ∧
    blockNo 32 1 paleText ≠ blockNo 32 1 paleOther ∧ 3 * 32 ≤ paleText.length ∧ 3 * 32 ≤ paleOther.length ∧
    (¬ HashesMeet sha256 32 ⟨secretKey.data, secretSalt.data, paleText⟩ ⟨secretKey.data, secretSalt.data, paleOther⟩ 3 ∧
      ¬ SumsMeet sha256 32 ⟨secretKey.data, secretSalt.data, paleText⟩ ⟨secretKey.data, secretSalt.data, paleOther⟩ 3) ∧
    c[10]! - c'[10]! = paleText[10]! - paleOther[10]! ∧ c[64]! - c'[64]! ≠ paleText[64]! - paleOther[64]! :=
  ⟨_, _, rfl, rfl, by decide +kernel, by decide +kernel, by decide +kernel, apart_of_check (by decide +kernel), by decide +kernel,
    by decide +kernel⟩

/-- the same for another salt (C107_key): the first block is garbled already -/
example : ∃ c c', crypt .enc (sha2.get .sha256) secretKey secretSalt paleText = .ok c ∧
    crypt .enc (sha2.get .sha256) secretKey (Bytes.full (List.replicate 32 8)) paleText = .ok c' ∧
    (¬ HashesMeet sha256 32 ⟨secretKey.data, secretSalt.data, paleText⟩ ⟨secretKey.data, List.replicate 32 8, paleText⟩ 1 ∧
      ¬ SumsMeet sha256 32 ⟨secretKey.data, secretSalt.data, paleText⟩ ⟨secretKey.data, List.replicate 32 8, paleText⟩ 1) ∧
    c[5]! ≠ c'[5]! :=
  ⟨_, _, rfl, rfl, apart_of_check (by decide +kernel), by decide +kernel⟩

/-- the encryption of the text with byte 12 (in block 1) raised by 8, decrypted: the amount has gone up, blocks 2 and 3 are garbled
(C107_decryption) -/
def raised (c : List Byte) : List Byte := c.set 12 (c[12]! + 8)
example : (match crypt .enc (sha2.get .sha256) secretKey secretSalt paleText with
    | .ok c => (match crypt .dec (sha2.get .sha256) secretKey secretSalt (raised c) with
      | .ok y => blockNo 32 1 c != blockNo 32 1 (raised c) && y.take 17 == ascii "Pay Alice 108 cro" &&
        apartB sha256 32 ⟨secretKey.data, secretSalt.data, paleText⟩ ⟨secretKey.data, secretSalt.data, y⟩ 2 &&
        y[40]! != paleText[40]!
      | _ => false)
    | _ => false) = true := by decide +kernel

/-- C107 for files: take two files that open with the same password, as in C73_violated_header, with different salts or with
data sections that differ in a block before block `k`. Both open, but what comes out of block `k` differs otherwise than the data sections
do: whoever changes the salt or a block garbles all that follows. Otherwise something meets on the way. -/
theorem C107_file (mode : Byte) (s0 : Session) (h0 : Api.new mode = .ok s0) (fs fs' : FS) (p : Path) (hp : EncPath p)
    (h h' : Header) (hv : h.Valid) (hv' : h'.Valid) (m : HMode) (hm : m.toByte = h.hashMode) (pw : List Byte) (hopen : Opens hs h pw)
    (g1 : h'.hashMode = h.hashMode) (g2 : h'.ch1 = h.ch1) (g3 : h'.ch2 = h.ch2) (g4 : h'.validator = h.validator)
    (enc enc' : List Byte) (hsz : h.fileSize = h.length + enc.length) (hsz' : h'.fileSize = h'.length + enc'.length)
    (hl : enc.length < 2 ^ 31) (hl' : enc'.length < 2 ^ 31) (hf : fs p = .file (h.bytes ++ enc)) (hf' : fs' p = .file (h'.bytes ++ enc'))
    (e e' : Nat → Env) (he : ∀ i, Healthy (e i) p) (he' : ∀ i, Healthy (e' i) p) (k : Nat) (hk : 1 ≤ k)
    (hne : h.salt ≠ h'.salt ∨ ∃ j, 1 ≤ j ∧ j < k ∧ blockNo m.size j enc ≠ blockNo m.size j enc')
    (hw : k * m.size ≤ enc.length) (hw' : k * m.size ≤ enc'.length) :
    ∃ (r r' : Bytes) (w w' : World),
      Api.run hs rest ⟨s0, fs⟩ [.call (.selectFile p) (e 0), .call (.verifyPassword pw 0) (e 1), .call .getDecryptedData (e 2)] =
        .ok ([some (.flag (.success true)), some (.flag (.success true)), some (.data (.success ⟨some mode, some r⟩))], w) ∧
      Api.run hs rest ⟨s0, fs'⟩ [.call (.selectFile p) (e' 0), .call (.verifyPassword pw 0) (e' 1), .call .getDecryptedData (e' 2)] =
        .ok ([some (.flag (.success true)), some (.flag (.success true)), some (.data (.success ⟨some mode, some r'⟩))], w') ∧
      (Garbled m.size r.data r'.data enc enc' k ∨
        HashesMeet (hs.get m).h m.size ⟨h.ch1.digest (hs.get m).h pw, h.salt, r.data⟩ ⟨h.ch1.digest (hs.get m).h pw, h'.salt, r'.data⟩ k ∨
        SumsMeet (hs.get m).h m.size ⟨h.ch1.digest (hs.get m).h pw, h.salt, r.data⟩ ⟨h.ch1.digest (hs.get m).h pw, h'.salt, r'.data⟩ k) := by
  obtain ⟨r, w, m1, c1, c2, c3⟩ := C73_violated_header (rest := rest) mode s0 h0 fs p hp h h hv pw hopen rfl rfl rfl rfl enc hsz hl hf e he
  obtain ⟨r', w', m2, d1, d2, d3⟩ := C73_violated_header (rest := rest) mode s0 h0 fs' p hp h h' hv' pw hopen g1 g2 g3 g4 enc' hsz' hl' hf' e' he'
  have inj : ∀ m' : HMode, m'.toByte = h.hashMode → m' = m := by
    intro m' hm'
    have := hm'.trans hm.symm
    revert this; cases m' <;> cases m <;> decide
  cases inj m1 c2
  cases inj m2 d2
  refine ⟨r, r', w, w', c1, d1, ?_⟩
  have hkl : (h.ch1.digest (hs.get m).h pw).length = (hs.get m).size := Api.digest_length (hs.get m) h.ch1 hv.ch1.1 pw
  have hsl : h.salt.length = (hs.get m).size := by rw [hv.salt, Hashes.get_size]; exact size_eq_digest hm
  have hsl' : h'.salt.length = (hs.get m).size := by rw [hv'.salt, g1, Hashes.get_size]; exact size_eq_digest hm
  rw [← Hashes.get_size hs m] at c3 d3 hne hw hw' ⊢
  have l : k * (hs.get m).size ≤ r.data.length := by rw [← c3.1]; exact hw
  have l' : k * (hs.get m).size ≤ r'.data.length := by rw [← d3.1]; exact hw'
  by_cases hs' : h.salt = h'.salt
  · rw [← hs'] at d3 ⊢
    obtain ⟨j, j1, j2, j3⟩ := hne.resolve_left fun hc => hc hs'
    obtain ⟨i, i1, i2, i3⟩ := blocks_of_cipher c3 d3 j1 j3
    exact garbled_after (hs.get m) hkl hsl c3 d3 i1 (by omega) i3 l l'
  · rcases keys_differ (hs.get m) (v := ⟨h.ch1.digest (hs.get m).h pw, h.salt, r.data⟩)
      (v' := ⟨h.ch1.digest (hs.get m).h pw, h'.salt, r'.data⟩) hkl hsl hkl hsl' 0
      (fun hc => hs' (congrArg Prod.snd hc)) k (by omega) with q | q
    · exact .inl (garbled_of_keys (hs.get m) c3 d3 hk l l' q)
    · exact .inr q

/-- two files with the same header (made with SHA-256, no data blocks) and 64 bytes of data that differ in the first block, and the
same with another salt -/
def plainHeader (salt : Byte) : Header :=
  ⟨168, 1, 1, [], ⟨1, 2, []⟩, ⟨1, 3, []⟩, ChainDesc.digest ⟨1, 3, []⟩ sha256 (ChainDesc.digest ⟨1, 2, []⟩ sha256 samplePw), List.replicate 32 salt, []⟩

example : (plainHeader 7).Valid ∧ (plainHeader 8).Valid ∧ Opens sha2 (plainHeader 7) samplePw ∧
    (plainHeader 7).fileSize = (plainHeader 7).length + 64 ∧ (plainHeader 7).salt ≠ (plainHeader 8).salt ∧
    blockNo 32 1 (List.replicate 64 5) ≠ blockNo 32 1 (6 :: List.replicate 63 5) := by
  refine ⟨?_, ?_, ⟨.sha256, rfl, by decide +kernel⟩, by decide +kernel, by decide +kernel, by decide⟩ <;> constructor <;> decide +kernel

/-- a hash function that works on the first byte and keeps the second -/
def sumTable (a : Byte) : Byte :=
  if a = 0 then 0 else if a = 1 then 5 else if a = 2 then 6 else if a = 5 then 10 else if a = 6 then 20 else if a = 15 then 40
  else if a = 26 then 30 else a + 100
def sumHash : HashFn where
  size := 2
  h l := [sumTable (l.headD 0), l.getD 1 0]
  len _ := rfl
  pos := by decide
  small := by decide

/-- a hash function without variation -/
def toyConst : HashFn where
  size := 2
  h _ := [7, 7]
  len _ := rfl
  pos := by decide
  small := by decide

theorem not_garbled {n : Nat} {x x' c c' : List Byte} {k : Nat}
    (hb : (List.range (k * n)).all (fun p => decide (p < (k - 1) * n) || (c[p]! - c'[p]! == x[p]! - x'[p]!)) = true) :
    ¬ Garbled n x x' c c' k := by
  rintro ⟨p, a, a', b, b', h1, h2, h3, h4, h5, h6, h7⟩
  have := List.all_eq_true.mp hb p (List.mem_range.mpr h2)
  simp only [Bool.or_eq_true, decide_eq_true_eq, beq_iff_eq, getElem!_def, h3, h4, h5, h6] at this
  exact this.elim (by omega) h7

/-- C107: the sums cannot be left out. There is a hash function with different values for different inputs all the way, and still two
texts that differ in the first block are encrypted with the same bytes in the second, as `h_2 + s_2` is the same for both. -/
theorem C107_sums : ∃ (H : HashFn) (pw salt : Bytes) (x y c c' : List Byte), pw.data.length = H.size ∧ salt.data.length = H.size ∧
    crypt .enc H pw salt x = .ok c ∧ crypt .enc H pw salt y = .ok c' ∧ blockNo H.size 1 x ≠ blockNo H.size 1 y ∧
    2 * H.size ≤ x.length ∧ 2 * H.size ≤ y.length ∧ ¬ Garbled H.size x y c c' 2 ∧
    ¬ HashesMeet H.h H.size ⟨pw.data, salt.data, x⟩ ⟨pw.data, salt.data, y⟩ 2 := by
  refine ⟨sumHash, Bytes.full [0, 0], Bytes.full [0, 0], [1, 0, 3, 4], [2, 0, 3, 4], _, _, rfl, rfl, rfl, rfl, by decide, by decide, by decide,
    not_garbled (by decide +kernel), ?_⟩
  rintro (⟨i, hi, hs⟩ | hs)
  · have : ((roundInputs sumHash.h 2 ⟨[0, 0], [0, 0], [1, 0, 3, 4]⟩ i).zip (roundInputs sumHash.h 2 ⟨[0, 0], [0, 0], [2, 0, 3, 4]⟩ i)).all
        (fun q => q.1 == q.2 || sumHash.h q.1 != sumHash.h q.2) = true := by
      have h01 : i = 0 ∨ i = 1 := by omega
      rcases h01 with rfl | rfl <;> decide +kernel
    exact not_show this hs
  · exact not_show (by decide +kernel) hs

/-- nor the hashes: a hash function without variation encrypts everything alike -/
example : ∃ c c', crypt .enc toyConst (Bytes.full [0, 0]) (Bytes.full [0, 0]) [1, 0, 3, 4] = .ok c ∧
    crypt .enc toyConst (Bytes.full [0, 0]) (Bytes.full [0, 0]) [2, 0, 3, 4] = .ok c' ∧ ¬ Garbled 2 [1, 0, 3, 4] [2, 0, 3, 4] c c' 2 :=
  ⟨_, _, rfl, rfl, not_garbled (by decide +kernel)⟩

end Verif.Props
