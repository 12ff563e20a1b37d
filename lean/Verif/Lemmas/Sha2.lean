import Verif.Spec.Sha2

namespace Verif.Sha2.Variant
open Verif
variable {v : Variant}

theorem length_toBytes : ∀ (n x : Nat), (toBytes n x).length = n
  | 0, _ => rfl
  | n + 1, x => by rw [toBytes, List.length_append, length_toBytes n]; rfl

theorem toBytes_inj : ∀ (n x y : Nat), toBytes n x = toBytes n y → x % 256 ^ n = y % 256 ^ n
  | 0, x, y, _ => by rw [Nat.pow_zero, Nat.mod_one, Nat.mod_one]
  | n + 1, x, y, h => by
    rw [toBytes, toBytes] at h
    obtain ⟨h1, h2⟩ := List.append_inj h (by rw [length_toBytes, length_toBytes])
    have i := toBytes_inj n _ _ h1
    have j : x % 256 = y % 256 := by
      have := congrArg (fun l => (l.headD (0 : Byte)).toNat) h2
      simpa using this
    rw [Nat.pow_succ, Nat.mul_comm, Nat.mod_mul, Nat.mod_mul, i, j]

theorem round_length {st : List Nat} (h : st.length = 8) (k w : Nat) : (v.round st k w).length = 8 := by
  match st, h with
  | [a, b, c, d, e, f, g, i], _ => rfl

theorem rounds_length : ∀ (ks ws st : List Nat), st.length = 8 → (v.rounds ks ws st).length = 8
  | [], _, _, h => h
  | k :: ks, ws, st, h => by
    rw [rounds]
    exact rounds_length ks _ _ (round_length h _ _)

theorem zip_plus : ∀ (xs ys : List Nat), ∀ w ∈ List.zipWith v.plus xs ys, w < 2 ^ v.bits
  | [], _, w, h => by simp at h
  | _ :: _, [], w, h => by simp at h
  | x :: xs, y :: ys, w, h => by
    rw [List.zipWith_cons_cons, List.mem_cons] at h
    rcases h with rfl | h
    · exact Nat.mod_lt _ (Nat.pow_pos (by decide))
    · exact zip_plus xs ys w h

theorem compress_state {st : List Nat} (h : v.State st) (b : List Byte) : v.State (v.compress st b) := by
  refine ⟨?_, zip_plus _ _⟩
  rw [compress, List.length_zipWith, h.1, rounds_length _ _ _ h.1]
  rfl

theorem blocks_state : ∀ (n : Nat) (m : List Byte) (st : List Nat), v.State st → v.State (v.blocks n m st)
  | 0, _, _, h => h
  | n + 1, m, st, h => by
    rw [blocks]
    exact blocks_state n _ _ (compress_state h _)

theorem flat_length : ∀ (st : List Nat) (n : Nat), (st.flatMap (toBytes n)).length = n * st.length
  | [], _ => rfl
  | a :: st, n => by
    rw [List.flatMap_cons, List.length_append, length_toBytes, flat_length, List.length_cons, Nat.mul_succ, Nat.add_comm]

theorem flat_take (n : Nat) : ∀ (st : List Nat) (k : Nat), (st.flatMap (toBytes n)).take (n * k) = (st.take k).flatMap (toBytes n)
  | [], _ => by simp
  | a :: st, 0 => by simp
  | a :: st, k + 1 => by
    rw [List.flatMap_cons, Nat.mul_succ, Nat.add_comm, List.take_append, length_toBytes, Nat.add_sub_cancel_left,
      flat_take n st k, List.take_of_length_le (by rw [length_toBytes]; omega), List.take_succ_cons, List.flatMap_cons]

theorem flat_inj (n : Nat) : ∀ (xs ys : List Nat), (∀ w ∈ xs, w < 256 ^ n) → (∀ w ∈ ys, w < 256 ^ n) →
    xs.length = ys.length → xs.flatMap (toBytes n) = ys.flatMap (toBytes n) → xs = ys
  | [], [], _, _, _, _ => rfl
  | [], _ :: _, _, _, h, _ => by simp at h
  | _ :: _, [], _, _, h, _ => by simp at h
  | x :: xs, y :: ys, hx, hy, hl, h => by
    rw [List.flatMap_cons, List.flatMap_cons] at h
    obtain ⟨h1, h2⟩ := List.append_inj h (by rw [length_toBytes, length_toBytes])
    have e := toBytes_inj n _ _ h1
    rw [Nat.mod_eq_of_lt (hx x (List.mem_cons_self ..)), Nat.mod_eq_of_lt (hy y (List.mem_cons_self ..))] at e
    rw [e, flat_inj n xs ys (fun w hw => hx w (List.mem_cons_of_mem _ hw)) (fun w hw => hy w (List.mem_cons_of_mem _ hw))
      (by simpa using hl) h2]

theorem digest_length {iv : List Nat} (h : v.State iv) (m : List Byte) : (v.digest iv m).length = 8 * v.wordBytes := by
  rw [digest, flat_length, (blocks_state _ _ _ h).1, Nat.mul_comm]

/-- the padded message consists of whole blocks, at least one -/
theorem pad_length (hw : 0 < v.wordBytes) (m : List Byte) : ∃ n, (v.pad m).length = (n + 1) * v.blockBytes := by
  have hb : 0 < v.blockBytes := by unfold blockBytes; omega
  have hl : (v.pad m).length = m.length + 1 + 2 * v.wordBytes +
      (v.blockBytes - (m.length + 1 + 2 * v.wordBytes) % v.blockBytes) % v.blockBytes := by
    simp only [pad, List.length_append, List.length_cons, List.length_replicate, length_toBytes]
    omega
  have hx : 0 < m.length + 1 + 2 * v.wordBytes := by omega
  generalize m.length + 1 + 2 * v.wordBytes = x at hl hx
  have hlt := Nat.mod_lt x hb
  have hdiv := Nat.div_add_mod x v.blockBytes
  rw [Nat.mul_comm] at hdiv
  by_cases h0 : x % v.blockBytes = 0
  · rw [h0, Nat.sub_zero, Nat.mod_self, Nat.add_zero] at hl
    rw [h0, Nat.add_zero] at hdiv
    cases hq : x / v.blockBytes with
    | zero => rw [hq, Nat.zero_mul] at hdiv; omega
    | succ n => exact ⟨n, by rw [hl, ← hdiv, hq]⟩
  · refine ⟨x / v.blockBytes, ?_⟩
    rw [hl, Nat.mod_eq_of_lt (by omega), Nat.add_mul, Nat.one_mul]
    omega

/-- the last block ends with the number of bits -/
theorem pad_last (m : List Byte) : ∃ p, v.pad m = p ++ toBytes (2 * v.wordBytes) (8 * m.length) :=
  ⟨m ++ 128 :: List.replicate ((v.blockBytes - (m.length + 1 + 2 * v.wordBytes) % v.blockBytes) % v.blockBytes) 0, by
    rw [pad, List.append_assoc, List.cons_append]⟩

theorem pad_inj {a b : List Byte} (hl : a.length = b.length) (h : v.pad a = v.pad b) : a = b :=
  (List.append_inj h hl).1

theorem blocks_last (m : List Byte) : ∀ (n : Nat) (st : List Nat), m.length = (n + 1) * v.blockBytes →
    v.blocks (n + 1) m st = v.compress (v.blocks n m st) (m.drop (n * v.blockBytes)) := by
  intro n
  induction n generalizing m with
  | zero =>
    intro st h
    rw [blocks, blocks, blocks, Nat.zero_mul, List.drop_zero, List.take_of_length_le (by omega)]
  | succ n ih =>
    intro st h
    rw [blocks, ih (m.drop v.blockBytes) _ (by rw [List.length_drop, h, Nat.succ_mul (n + 1)]; omega), List.drop_drop, blocks,
      Nat.succ_mul, Nat.add_comm]

theorem steps_last (m : List Byte) : ∀ (n : Nat) (st : List Nat), m.length = (n + 1) * v.blockBytes →
    (v.blocks n m st, m.drop (n * v.blockBytes)) ∈ v.steps (n + 1) m st := by
  intro n
  induction n generalizing m with
  | zero =>
    intro st h
    rw [steps, blocks, Nat.zero_mul, List.drop_zero, List.take_of_length_le (by omega)]
    exact List.mem_cons_self ..
  | succ n ih =>
    intro st h
    have := ih (m.drop v.blockBytes) (v.compress st (m.take v.blockBytes))
      (by rw [List.length_drop, h, Nat.succ_mul (n + 1)]; omega)
    rw [List.drop_drop, Nat.add_comm v.blockBytes, ← Nat.succ_mul] at this
    rw [steps, blocks]
    exact List.mem_cons_of_mem _ this

theorem blocks_collide {n : Nat} : ∀ {a b : List Byte} {s t : List Nat},
    a.length = n * v.blockBytes → b.length = n * v.blockBytes → v.blocks n a s = v.blocks n b t → (s, a) ≠ (t, b) →
    v.Collide 8 (v.steps n a s) (v.steps n b t) := by
  induction n with
  | zero =>
    intro a b s t ha hb h hne
    rw [Nat.zero_mul, List.length_eq_zero_iff] at ha hb
    exact absurd (by rw [ha, hb]; exact congrArg (·, _) h) hne
  | succ n ih =>
    intro a b s t ha hb h hne
    rw [blocks, blocks] at h
    rw [steps, steps]
    by_cases e : (v.compress s (a.take v.blockBytes), a.drop v.blockBytes) = (v.compress t (b.take v.blockBytes), b.drop v.blockBytes)
    · obtain ⟨e1, e2⟩ := Prod.mk.inj e
      refine ⟨_, List.mem_cons_self .., _, List.mem_cons_self .., fun e' => hne ?_, by rw [e1]⟩
      obtain ⟨e3, e4⟩ := Prod.mk.inj e'
      rw [e3, ← List.take_append_drop v.blockBytes a, ← List.take_append_drop v.blockBytes b, e2, e4]
    · rw [Nat.succ_mul] at ha hb
      obtain ⟨x, hx, y, hy, h⟩ := ih (by rw [List.length_drop]; omega) (by rw [List.length_drop]; omega) h e
      exact ⟨x, List.mem_cons_of_mem _ hx, y, List.mem_cons_of_mem _ hy, h⟩

theorem Collide.mono {k j : Nat} {xs ys : List (List Nat × List Byte)} (h : v.Collide k xs ys) (hj : j ≤ k) : v.Collide j xs ys := by
  obtain ⟨x, hx, y, hy, h5, h6⟩ := h
  refine ⟨x, hx, y, hy, h5, ?_⟩
  rw [← Nat.min_eq_left hj, ← List.take_take, h6, List.take_take]

/-- a collision of the digests, or of their first words, is one of the compression function -/
theorem digest_collide {iv : List Nat} (hiv : v.State iv) (hbits : 2 ^ v.bits = 256 ^ v.wordBytes) (hw : 0 < v.wordBytes) {k : Nat}
    (hk : k ≤ 8) {a b : List Byte} (ha : 8 * a.length < 256 ^ (2 * v.wordBytes)) (hb : 8 * b.length < 256 ^ (2 * v.wordBytes))
    (hne : a ≠ b) (h : (v.digest iv a).take (v.wordBytes * k) = (v.digest iv b).take (v.wordBytes * k)) :
    v.Collide k (v.digestSteps iv a) (v.digestSteps iv b) := by
  obtain ⟨n, hn⟩ := pad_length hw a
  obtain ⟨n', hn'⟩ := pad_length hw b
  have hpos : 0 < v.blockBytes := by unfold blockBytes; omega
  have hwb : 2 * v.wordBytes ≤ v.blockBytes := by unfold blockBytes; omega
  simp only [digest, flat_take] at h
  simp only [digestSteps]
  rw [hn, hn', Nat.mul_div_cancel _ hpos, Nat.mul_div_cancel _ hpos] at h ⊢
  have sa := blocks_state (n + 1) (v.pad a) iv hiv
  have sb := blocks_state (n' + 1) (v.pad b) iv hiv
  have e := flat_inj v.wordBytes _ _ (fun w hw => hbits ▸ sa.2 w (List.mem_of_mem_take hw))
    (fun w hw => hbits ▸ sb.2 w (List.mem_of_mem_take hw)) (by rw [List.length_take, List.length_take, sa.1, sb.1]) h
  rw [blocks_last _ _ _ hn, blocks_last _ _ _ hn'] at e
  by_cases hq : (v.blocks n (v.pad a) iv, (v.pad a).drop (n * v.blockBytes)) = (v.blocks n' (v.pad b) iv, (v.pad b).drop (n' * v.blockBytes))
  · obtain ⟨q1, q2⟩ := Prod.mk.inj hq
    have hl : a.length = b.length := by
      obtain ⟨p, hp⟩ := pad_last (v := v) a
      obtain ⟨p', hp'⟩ := pad_last (v := v) b
      have r1 : p.length + 2 * v.wordBytes = (n + 1) * v.blockBytes := by
        rw [← hn, hp, List.length_append, length_toBytes]
      have r2 : p'.length + 2 * v.wordBytes = (n' + 1) * v.blockBytes := by
        rw [← hn', hp', List.length_append, length_toBytes]
      have r3 : n * v.blockBytes ≤ p.length := by rw [Nat.add_mul, Nat.one_mul] at r1; omega
      have r4 : n' * v.blockBytes ≤ p'.length := by rw [Nat.add_mul, Nat.one_mul] at r2; omega
      rw [hp, hp', List.drop_append_of_le_length r3, List.drop_append_of_le_length r4] at q2
      have q3 := toBytes_inj _ _ _ (List.append_inj' q2 (by rw [length_toBytes, length_toBytes])).2
      rw [Nat.mod_eq_of_lt ha, Nat.mod_eq_of_lt hb] at q3
      omega
    have hnn : n = n' := by
      have : (v.pad a).length = (v.pad b).length := by simp only [pad, List.length_append, List.length_cons, List.length_replicate, length_toBytes, hl]
      rw [hn, hn'] at this
      have := Nat.eq_of_mul_eq_mul_right hpos this
      omega
    subst hnn
    refine (blocks_collide hn hn' ?_ fun e => hne (pad_inj hl (Prod.mk.inj e).2)).mono hk
    rw [blocks_last _ _ _ hn, blocks_last _ _ _ hn', q1, q2]
  · exact ⟨_, steps_last _ _ _ hn, _, steps_last _ _ _ hn', hq, e⟩

end Verif.Sha2.Variant

namespace Verif.Sha2
open Variant

theorem state256 : v256.State iv256 := ⟨by decide, by decide⟩
theorem state384 : v512.State iv384 := ⟨by decide, by decide⟩
theorem state512 : v512.State iv512 := ⟨by decide, by decide⟩

theorem length256 (m : List Byte) : (sha256 m).length = 32 := digest_length state256 m
theorem length384 (m : List Byte) : (sha384 m).length = 48 := by
  rw [sha384, List.length_take, digest_length state384]; decide
theorem length512 (m : List Byte) : (sha512 m).length = 64 := digest_length state512 m

end Verif.Sha2

namespace Verif

/-- the three hash functions the program uses, `HashModes::getHash`, /repo/src/hash_modes.cpp l.17-31 with
/repo/src/sha256.cpp l.9, sha384.cpp l.9, sha512.cpp l.9 -/
def sha2 : Hashes := ⟨Sha2.sha256, Sha2.sha384, Sha2.sha512, Sha2.length256, Sha2.length384, Sha2.length512⟩

theorem sha2_collide (m : HMode) {a b : List Byte} (ha : a.length < 2 ^ 60) (hb : b.length < 2 ^ 60) (hne : a ≠ b)
    (h : (sha2.get m).h a = (sha2.get m).h b) :
    (Sha2.variantOf m).Collide (Sha2.wordsUsed m) (Sha2.hashSteps m a) (Sha2.hashSteps m b) := by
  have h63 : 8 * 2 ^ 60 ≤ 256 ^ 8 := by decide
  have h127 : 8 * 2 ^ 60 ≤ 256 ^ 16 := by decide
  cases m with
  | sha256 =>
    refine Sha2.Variant.digest_collide (v := Sha2.v256) Sha2.state256 (by decide) (by decide) (k := 8) (by decide)
      (by show _ < 256 ^ 8; omega) (by show _ < 256 ^ 8; omega) hne ?_
    exact congrArg (List.take _) h
  | sha384 =>
    exact Sha2.Variant.digest_collide (v := Sha2.v512) Sha2.state384 (by decide) (by decide) (k := 6) (by decide)
      (by show _ < 256 ^ 16; omega) (by show _ < 256 ^ 16; omega) hne h
  | sha512 =>
    refine Sha2.Variant.digest_collide (v := Sha2.v512) Sha2.state512 (by decide) (by decide) (k := 8) (by decide)
      (by show _ < 256 ^ 16; omega) (by show _ < 256 ^ 16; omega) hne ?_
    exact congrArg (List.take _) h

end Verif
