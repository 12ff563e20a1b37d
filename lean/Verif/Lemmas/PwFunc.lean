import Verif.Model.PwFunc
import Verif.Spec.ChainHash
import Verif.Lemmas.Bytes

namespace Verif
open Spec

/-- some check at a round `j` with `lo ≤ j < hi` finds the time limit reached -/
def Hit (timeout : Nat) (clk : Nat → Nat) (lo hi : Nat) : Prop :=
  timeout ≠ 0 ∧ ∃ j, lo ≤ j ∧ j < hi ∧ j % 1000 = 0 ∧ timeout ≤ clk j

theorem chLoop_spec {σ : Type} (timeout : Nat) (clk : Nat → Nat) (body : σ → Res σ) (Inv : Nat → σ → Prop)
    (hbody : ∀ i s, Inv i s → ∃ s', body s = .ok s' ∧ Inv (i + 1) s') (n i : Nat) (s : σ) (hs : Inv i s) :
    (Hit timeout clk i (i + n) ∧ chLoop timeout clk body n i s = .ok none) ∨
    (¬ Hit timeout clk i (i + n) ∧ ∃ s', chLoop timeout clk body n i s = .ok (some s') ∧ Inv (i + n) s') := by
  induction n generalizing i s with
  | zero =>
    right
    refine ⟨?_, s, rfl, hs⟩
    rintro ⟨-, j, h1, h2, -⟩; omega
  | succ n ih =>
    obtain ⟨s', hb, hs'⟩ := hbody i s hs
    simp only [chLoop, hb, Res.bind_ok, timeoutIterations]
    have hrec := ih (i + 1) s' hs'
    have e : i + 1 + n = i + (n + 1) := by omega
    rw [e] at hrec
    by_cases hc : timeout ≠ 0 ∧ i % 1000 = 0
    · rw [if_pos hc]
      by_cases ht : timeout ≤ clk i
      · left
        exact ⟨⟨hc.1, i, by omega, by omega, hc.2, ht⟩, by simp [ht]⟩
      · rw [if_neg ht]
        have heq : Hit timeout clk i (i + (n + 1)) ↔ Hit timeout clk (i + 1) (i + (n + 1)) := by
          constructor
          · rintro ⟨h0, j, h1, h2, h3, h4⟩
            refine ⟨h0, j, ?_, h2, h3, h4⟩
            rcases Nat.eq_or_lt_of_le h1 with h | h
            · subst h; exact absurd h4 ht
            · exact h
          · rintro ⟨h0, j, h1, h2, h3, h4⟩; exact ⟨h0, j, by omega, h2, h3, h4⟩
        rw [heq]; exact hrec
    · rw [if_neg hc]
      have heq : Hit timeout clk i (i + (n + 1)) ↔ Hit timeout clk (i + 1) (i + (n + 1)) := by
        constructor
        · rintro ⟨h0, j, h1, h2, h3, h4⟩
          refine ⟨h0, j, ?_, h2, h3, h4⟩
          rcases Nat.eq_or_lt_of_le h1 with h | h
          · subst h; exact absurd ⟨h0, h3⟩ hc
          · exact h
        · rintro ⟨h0, j, h1, h2, h3, h4⟩; exact ⟨h0, j, by omega, h2, h3, h4⟩
      rw [heq]; exact hrec

theorem timedLoop_spec {σ : Type} (timeout : Nat) (clk : Nat → Nat) (body : σ → Res σ) (Inv : Nat → σ → Prop)
    (hbody : ∀ i s, Inv i s → ∃ s', body s = .ok s' ∧ Inv (i + 1) s') (fuel i : Nat) (s : σ) (hs : Inv i s) :
    timedLoop timeout clk body fuel i s = .fatal .diverge ∨
    ∃ n s', timedLoop timeout clk body fuel i s = .ok (n, s') ∧ i < n ∧ n % 1000 = 0 ∧ timeout ≤ clk n ∧ Inv n s' ∧
      ∀ j, i < j → j < n → j % 1000 = 0 → clk j < timeout := by
  induction fuel generalizing i s with
  | zero => left; rfl
  | succ fuel ih =>
    obtain ⟨s', hb, hs'⟩ := hbody i s hs
    simp only [timedLoop, hb, Res.bind_ok, timeoutIterations]
    by_cases h1 : (i + 1) % 1000 = 0
    · rw [if_pos h1]
      by_cases h2 : timeout ≤ clk (i + 1)
      · rw [if_pos h2]
        right; refine ⟨i + 1, s', rfl, by omega, h1, h2, hs', ?_⟩
        intro j _ _; omega
      · rw [if_neg h2]
        rcases ih (i + 1) s' hs' with h | ⟨n, t, h, h3, h4, h5, h6, h7⟩
        · exact .inl h
        · refine .inr ⟨n, t, h, by omega, h4, h5, h6, ?_⟩
          intro j hj1 hj2 hj3
          by_cases hj : j = i + 1
          · subst hj; omega
          · exact h7 j (by omega) hj2 hj3
    · rw [if_neg h1]
      rcases ih (i + 1) s' hs' with h | ⟨n, t, h, h3, h4, h5, h6, h7⟩
      · exact .inl h
      · refine .inr ⟨n, t, h, by omega, h4, h5, h6, ?_⟩
        intro j hj1 hj2 hj3
        by_cases hj : j = i + 1
        · subst hj; omega
        · exact h7 j (by omega) hj2 hj3

/-- the timed loop ends as soon as the clock reaches the limit at a check -/
theorem timedLoop_terminates {σ : Type} (timeout : Nat) (clk : Nat → Nat) (body : σ → Res σ) (Inv : Nat → σ → Prop)
    (hbody : ∀ i s, Inv i s → ∃ s', body s = .ok s' ∧ Inv (i + 1) s') (m : Nat) (hm : m % 1000 = 0)
    (hc : timeout ≤ clk m) (fuel i : Nat) (s : σ) (hs : Inv i s) (h1 : i < m) (h2 : m - i ≤ fuel) :
    ∃ r, timedLoop timeout clk body fuel i s = .ok r := by
  induction fuel generalizing i s with
  | zero => omega
  | succ fuel ih =>
    obtain ⟨s', hb, hs'⟩ := hbody i s hs
    simp only [timedLoop, hb, Res.bind_ok, timeoutIterations]
    by_cases he : i + 1 = m
    · subst he; simp [hm, hc]
    · split
      · split
        · exact ⟨_, rfl⟩
        · exact ih _ _ hs' (by omega) (by omega)
      · exact ih _ _ hs' (by omega) (by omega)

theorem chain_succ (h : List Byte → List Byte) (r : SaltRule) (n : Nat) (x : List Byte) :
    chain h r (n + 1) x = h (chain h r n x ++ r.at n) := by
  simp [chain, List.range_succ]

@[simp] theorem chain_zero (h : List Byte → List Byte) (r : SaltRule) (x : List Byte) : chain h r 0 x = x := rfl

theorem toDec_length (n : UInt64) : (toDec n).length ≤ 20 := by
  simp only [toDec, List.length_map]
  refine (Nat.length_toDigits_le_iff (by decide) (by decide)).mpr ?_
  have := n.toNat_lt
  omega

theorem toDec_add (s : UInt64) (i : Nat) : toDec (s + UInt64.ofNat i) = decText ((s.toNat + i) % 2 ^ 64) := by
  simp only [toDec, decText]
  congr 2
  simp [UInt64.toNat_add]

theorem quad_nat (a b c s i : Nat) :
    (((a * ((s + i % 2 ^ 64) % 2 ^ 64) % 2 ^ 64) * ((s + i % 2 ^ 64) % 2 ^ 64) % 2 ^ 64
      + b * ((s + i % 2 ^ 64) % 2 ^ 64) % 2 ^ 64) % 2 ^ 64 + c) % 2 ^ 64
      = (a * (s + i) ^ 2 + b * (s + i) + c) % 2 ^ 64 := by
  have : (s + i % 2 ^ 64) % 2 ^ 64 = (s + i) % 2 ^ 64 := by omega
  rw [this]
  generalize s + i = t
  generalize 2 ^ 64 = m
  have e1 : (a * (t % m) % m) * (t % m) % m = a * (t * t) % m := by
    rw [Nat.mul_mod_mod, Nat.mod_mul_mod, Nat.mul_assoc, Nat.mul_mod, Nat.mod_mul_mod, Nat.mod_mul_mod, Nat.mul_mod_mod]
  have e2 : b * (t % m) % m = b * t % m := by rw [Nat.mul_mod_mod]
  rw [e1, e2, Nat.pow_two, Nat.add_mod (a * (t * t) + b * t) c, Nat.add_mod (a * (t * t)) (b * t), ← Nat.add_mod, Nat.add_mod _ c, Nat.mod_mod]

theorem toDec_quad (s a b c : UInt64) (i : Nat) :
    toDec (quadValue (s + UInt64.ofNat i) a b c) =
      decText ((a.toNat * (s.toNat + i) ^ 2 + b.toNat * (s.toNat + i) + c.toNat) % 2 ^ 64) := by
  simp only [toDec, decText, quadValue]
  congr 2
  simp only [UInt64.toNat_add, UInt64.toNat_mul, UInt64.toNat_ofNat']
  rw [quad_nat]

theorem add_ofNat_succ (s : UInt64) (i : Nat) : s + UInt64.ofNat i + 1 = s + UInt64.ofNat (i + 1) := by
  apply UInt64.toNat_inj.mp
  simp [UInt64.toNat_add]
  omega

theorem hash_ok (H : HashFn) (b : Bytes) (e : Nat) (he : e + 64 < 2 ^ 32) :
    H.hash b e = .ok ⟨H.h b.data, H.size + e⟩ := by
  have := H.small
  have e1 : (H.size + e % 2 ^ 32) % 2 ^ 32 = H.size + e := by omega
  simp only [HashFn.hash, e1]
  simp

theorem hashStr_ok (H : HashFn) (b : List Byte) (e : Nat) (he : e + 64 < 2 ^ 32) :
    H.hashStr b e = .ok ⟨H.h b, H.size + e⟩ := by
  have := H.small
  have e1 : (H.size + e % 2 ^ 32) % 2 ^ 32 = H.size + e := by omega
  simp only [HashFn.hashStr, e1]
  simp

theorem addString_ok (s : List Byte) (b : Bytes) (h : b.data.length + s.length ≤ b.cap) :
    addStringToBytes s b = .ok ⟨b.data ++ s, b.cap⟩ := by
  have h1 : ¬ (s.length > b.cap - b.data.length) := by omega
  have h2 : ¬ (b.data.length + s.length > b.cap) := by omega
  simp [addStringToBytes, Bytes.addBytes, h1, h2]

namespace PwFunc

/-- invariant of all loops: after `i` rounds the buffer holds the specified value with `extra` bytes of room -/
def InvB (H : HashFn) (r : SaltRule) (x : List Byte) (extra : Nat) (i : Nat) (b : Bytes) : Prop :=
  b.data = chain H.h r i x ∧ b.data.length + extra ≤ b.cap ∧ (0 < i → b.cap = H.size + extra)

theorem InvB.step {H : HashFn} {r : SaltRule} {x : List Byte} {extra i : Nat} {b : Bytes} (s : List Byte)
    (hb : InvB H r x extra i b) (hr : r.at i = s) (hs : s.length ≤ extra) (he : extra + 64 < 2 ^ 32) :
    ∃ b1 b2, addStringToBytes s b = .ok b1 ∧ H.hash b1 extra = .ok b2 ∧ InvB H r x extra (i + 1) b2 := by
  obtain ⟨h1, h2, h3⟩ := hb
  refine ⟨_, _, addString_ok s b (by omega), hash_ok H _ extra he, ?_, ?_, fun _ => rfl⟩
  · simp [chain_succ, h1, hr]
  · simp

theorem bodyNormal_inv (H : HashFn) (x : List Byte) (i : Nat) (b : Bytes) (hb : InvB H .none x 0 i b) :
    ∃ b', bodyNormal H b = .ok b' ∧ InvB H .none x 0 (i + 1) b' := by
  refine ⟨_, hash_ok H b 0 (by decide), ?_, ?_, fun _ => rfl⟩
  · simp [chain_succ, hb.1, SaltRule.at]
  · simp

theorem bodyConst_inv (H : HashFn) (x salt : List Byte) (hs : salt.length + 64 < 2 ^ 32) (i : Nat) (b : Bytes)
    (hb : InvB H (.const salt) x salt.length i b) :
    ∃ b', bodyConst H salt b = .ok b' ∧ InvB H (.const salt) x salt.length (i + 1) b' := by
  obtain ⟨b1, b2, h1, h2, h3⟩ := hb.step salt rfl (Nat.le_refl _) hs
  exact ⟨b2, by simp [bodyConst, h1, h2], h3⟩

/-- invariant of counting loops on strings: the salt counter has been advanced to the last used value -/
def InvS (H : HashFn) (r : SaltRule) (x : List Byte) (extra : Nat) (start : UInt64) (i : Nat) (p : Bytes × UInt64) :
    Prop := InvB H r x extra i p.1 ∧ p.2 + 1 = start + UInt64.ofNat i

/-- invariant of counting loops on bytes: the salt counter is the next value to use -/
def InvC (H : HashFn) (r : SaltRule) (x : List Byte) (extra : Nat) (start : UInt64) (i : Nat) (p : Bytes × UInt64) :
    Prop := InvB H r x extra i p.1 ∧ p.2 = start + UInt64.ofNat i

theorem bodyCountStr_inv (H : HashFn) (x : List Byte) (start : UInt64) (i : Nat) (p : Bytes × UInt64)
    (hp : InvS H (.count start.toNat) x 20 start i p) :
    ∃ p', bodyCountStr H p = .ok p' ∧ InvS H (.count start.toNat) x 20 start (i + 1) p' := by
  obtain ⟨b1, b2, h1, h2, h3⟩ := hp.1.step (toDec (p.2 + 1)) (by rw [hp.2, toDec_add]; rfl) (toDec_length _) (by decide)
  refine ⟨(b2, p.2 + 1), by simp [bodyCountStr, h1, h2], h3, ?_⟩
  simp only [hp.2, add_ofNat_succ]

theorem bodyCountBytes_inv (H : HashFn) (x : List Byte) (start : UInt64) (i : Nat) (p : Bytes × UInt64)
    (hp : InvC H (.count start.toNat) x 20 start i p) :
    ∃ p', bodyCountBytes H p = .ok p' ∧ InvC H (.count start.toNat) x 20 start (i + 1) p' := by
  obtain ⟨b1, b2, h1, h2, h3⟩ := hp.1.step (toDec p.2) (by rw [hp.2, toDec_add]; rfl) (toDec_length _) (by decide)
  refine ⟨(b2, p.2 + 1), by simp [bodyCountBytes, h1, h2], h3, ?_⟩
  simp only [hp.2, add_ofNat_succ]

theorem bodyConstCountStr_inv (H : HashFn) (x salt : List Byte) (hs : salt.length + 84 < 2 ^ 32) (start : UInt64)
    (i : Nat) (p : Bytes × UInt64)
    (hp : InvS H (.constCount salt start.toNat) x (salt.length + 20) start i p) :
    ∃ p', bodyConstCountStr H salt p = .ok p' ∧
      InvS H (.constCount salt start.toNat) x (salt.length + 20) start (i + 1) p' := by
  obtain ⟨b1, b2, h1, h2, h3⟩ := hp.1.step (salt ++ toDec (p.2 + 1)) (by rw [hp.2, toDec_add]; rfl)
    (by have := toDec_length (p.2 + 1); simp only [List.length_append]; omega) (by omega)
  refine ⟨(b2, p.2 + 1), by simp [bodyConstCountStr, h1, h2], h3, ?_⟩
  simp only [hp.2, add_ofNat_succ]

theorem bodyConstCountBytes_inv (H : HashFn) (x salt : List Byte) (hs : salt.length + 84 < 2 ^ 32) (start : UInt64)
    (i : Nat) (p : Bytes × UInt64)
    (hp : InvC H (.constCount salt start.toNat) x (salt.length + 20) start i p) :
    ∃ p', bodyConstCountBytes H salt p = .ok p' ∧
      InvC H (.constCount salt start.toNat) x (salt.length + 20) start (i + 1) p' := by
  obtain ⟨b1, b2, h1, h2, h3⟩ := hp.1.step (salt ++ toDec p.2) (by rw [hp.2, toDec_add]; rfl)
    (by have := toDec_length p.2; simp only [List.length_append]; omega) (by omega)
  refine ⟨(b2, p.2 + 1), by simp [bodyConstCountBytes, h1, h2], h3, ?_⟩
  simp only [hp.2, add_ofNat_succ]

theorem bodyQuadStr_inv (H : HashFn) (x : List Byte) (start a b c : UInt64) (i : Nat) (p : Bytes × UInt64)
    (hp : InvS H (.quad start.toNat a.toNat b.toNat c.toNat) x 20 start i p) :
    ∃ p', bodyQuadStr H a b c p = .ok p' ∧ InvS H (.quad start.toNat a.toNat b.toNat c.toNat) x 20 start (i + 1) p' := by
  obtain ⟨b1, b2, h1, h2, h3⟩ := hp.1.step (toDec (quadValue (p.2 + 1) a b c)) (by rw [hp.2, toDec_quad]; rfl)
    (toDec_length _) (by decide)
  refine ⟨(b2, p.2 + 1), by simp [bodyQuadStr, h1, h2], h3, ?_⟩
  simp only [hp.2, add_ofNat_succ]

theorem bodyQuadBytes_inv (H : HashFn) (x : List Byte) (start a b c : UInt64) (i : Nat) (p : Bytes × UInt64)
    (hp : InvC H (.quad start.toNat a.toNat b.toNat c.toNat) x 20 start i p) :
    ∃ p', bodyQuadBytes H a b c p = .ok p' ∧
      InvC H (.quad start.toNat a.toNat b.toNat c.toNat) x 20 start (i + 1) p' := by
  obtain ⟨b1, b2, h1, h2, h3⟩ := hp.1.step (toDec (quadValue p.2 a b c)) (by rw [hp.2, toDec_quad]; rfl)
    (toDec_length _) (by decide)
  refine ⟨(b2, p.2 + 1), by simp [bodyQuadBytes, h1, h2], h3, ?_⟩
  simp only [hp.2, add_ofNat_succ]

/-- what the routines return: timeout if a check hits, otherwise the specified value -/
def IsResult (H : HashFn) (r : SaltRule) (x : List Byte) (extra n lo hi timeout : Nat) (clk : Nat → Nat)
    (res : Res (Out Bytes)) : Prop :=
  (Hit timeout clk lo hi ∧ res = .ok .timeout) ∨
  (¬ Hit timeout clk lo hi ∧ ∃ b, res = .ok (.success b) ∧ b.data = chain H.h r n x ∧ b.data.length ≤ b.cap ∧
    (0 < n → b.cap = H.size + extra))

theorem hit_str (timeout : Nat) (clk : Nat → Nat) (n : Nat) :
    Hit timeout clk 1 (1 + (n - 1)) ↔ Hit timeout clk 1 n := by
  constructor
  · rintro ⟨h0, j, h1, h2, h3⟩; exact ⟨h0, j, h1, by omega, h3⟩
  · rintro ⟨h0, j, h1, h2, h3⟩; exact ⟨h0, j, h1, by omega, h3⟩

theorem inv_init (H : HashFn) (r : SaltRule) (x s : List Byte) (extra : Nat) (hr : r.at 0 = s) :
    InvB H r x extra 1 ⟨H.h (x ++ s), H.size + extra⟩ := by
  refine ⟨?_, by simp, fun _ => rfl⟩
  rw [show (1 : Nat) = 0 + 1 from rfl, chain_succ, hr]; rfl

theorem finishB {H : HashFn} {r : SaltRule} {x : List Byte} {extra n lo hi hi' timeout : Nat} {clk : Nat → Nat}
    {L : Res (Option Bytes)} (hh : Hit timeout clk lo hi' ↔ Hit timeout clk lo hi)
    (h : (Hit timeout clk lo hi' ∧ L = .ok none) ∨
      (¬ Hit timeout clk lo hi' ∧ ∃ s', L = .ok (some s') ∧ InvB H r x extra n s')) :
    IsResult H r x extra n lo hi timeout clk (Res.noexcept (L >>= fun r => pure (chOut id r))) := by
  rcases h with ⟨h1, h2⟩ | ⟨h1, b, h2, h3⟩
  · exact .inl ⟨hh.mp h1, by simp [h2, chOut]⟩
  · exact .inr ⟨fun hc => h1 (hh.mpr hc), b, by simp [h2, chOut], h3.1, by have := h3.2.1; omega, h3.2.2⟩

theorem finishP {H : HashFn} {r : SaltRule} {x : List Byte} {extra n lo hi hi' timeout : Nat} {clk : Nat → Nat}
    {P : Bytes × UInt64 → Prop}
    {L : Res (Option (Bytes × UInt64))} (hh : Hit timeout clk lo hi' ↔ Hit timeout clk lo hi)
    (h : (Hit timeout clk lo hi' ∧ L = .ok none) ∨
      (¬ Hit timeout clk lo hi' ∧ ∃ s', L = .ok (some s') ∧ InvB H r x extra n s'.1 ∧ P s')) :
    IsResult H r x extra n lo hi timeout clk (Res.noexcept (L >>= fun r => pure (chOut Prod.fst r))) := by
  rcases h with ⟨h1, h2⟩ | ⟨h1, b, h2, h3, -⟩
  · exact .inl ⟨hh.mp h1, by simp [h2, chOut]⟩
  · exact .inr ⟨fun hc => h1 (hh.mpr hc), b.1, by simp [h2, chOut], h3.1, by have := h3.2.1; omega, h3.2.2⟩

variable (H : HashFn)

theorem chainhashStr_result (pw : List Byte) (n timeout : Nat) (clk : Nat → Nat) (hn : 1 ≤ n) :
    IsResult H .none pw 0 n 1 n timeout clk (chainhashStr H pw n timeout clk) := by
  simp only [chainhashStr, hashStr_ok H pw 0 (by decide), Res.bind_ok]
  have hi := inv_init H .none pw [] 0 rfl
  simp only [List.append_nil] at hi
  have := chLoop_spec timeout clk (bodyNormal H) _ (bodyNormal_inv H pw) (n - 1) 1 _ hi
  refine finishB (hit_str timeout clk n) ?_
  rwa [show 1 + (n - 1) = n by omega] at this ⊢

theorem chainhashConstStr_result (pw salt : List Byte) (n timeout : Nat) (clk : Nat → Nat) (hn : 1 ≤ n)
    (hs : salt.length + 64 < 2 ^ 32) :
    IsResult H (.const salt) pw salt.length n 1 n timeout clk (chainhashConstStr H pw n salt timeout clk) := by
  simp only [chainhashConstStr, hashStr_ok H _ salt.length hs, Res.bind_ok]
  have := chLoop_spec timeout clk (bodyConst H salt) _ (bodyConst_inv H pw salt hs) (n - 1) 1 _
    (inv_init H (.const salt) pw salt salt.length rfl)
  refine finishB (hit_str timeout clk n) ?_
  rwa [show 1 + (n - 1) = n by omega] at this ⊢

theorem at_zero_count (start : UInt64) : decText ((start.toNat + 0) % 2 ^ 64) = toDec start := by
  have := toDec_add start 0
  simpa using this.symm

theorem chainhashCountStr_result (pw : List Byte) (start : UInt64) (n timeout : Nat) (clk : Nat → Nat) (hn : 1 ≤ n) :
    IsResult H (.count start.toNat) pw 20 n 1 n timeout clk (chainhashCountStr H pw n start timeout clk) := by
  simp only [chainhashCountStr, hashStr_ok H _ 20 (by decide), Res.bind_ok]
  have := chLoop_spec timeout clk (bodyCountStr H) _ (bodyCountStr_inv H pw start) (n - 1) 1
    (⟨H.h (pw ++ toDec start), H.size + 20⟩, start)
    ⟨inv_init H (.count start.toNat) pw (toDec start) 20 (at_zero_count start), by rfl⟩
  refine finishP (hit_str timeout clk n) ?_ (P := fun p => p.2 + 1 = start + UInt64.ofNat n)
  rwa [show 1 + (n - 1) = n by omega] at this ⊢

theorem chainhashConstCountStr_result (pw salt : List Byte) (start : UInt64) (n timeout : Nat) (clk : Nat → Nat)
    (hn : 1 ≤ n) (hs : salt.length + 84 < 2 ^ 32) :
    IsResult H (.constCount salt start.toNat) pw (salt.length + 20) n 1 n timeout clk
      (chainhashConstCountStr H pw n start salt timeout clk) := by
  simp only [chainhashConstCountStr, hashStr_ok H _ (salt.length + 20) (by omega), Res.bind_ok]
  have := chLoop_spec timeout clk (bodyConstCountStr H salt) _ (bodyConstCountStr_inv H pw salt hs start) (n - 1) 1
    (⟨H.h (pw ++ salt ++ toDec start), H.size + (salt.length + 20)⟩, start)
    ⟨by
      have := inv_init H (.constCount salt start.toNat) pw (salt ++ toDec start) (salt.length + 20)
        (by rw [← at_zero_count]; rfl)
      simpa [List.append_assoc] using this, by rfl⟩
  refine finishP (hit_str timeout clk n) ?_ (P := fun p => p.2 + 1 = start + UInt64.ofNat n)
  rwa [show 1 + (n - 1) = n by omega] at this ⊢

theorem at_zero_quad (s a b c : UInt64) :
    decText ((a.toNat * (s.toNat + 0) ^ 2 + b.toNat * (s.toNat + 0) + c.toNat) % 2 ^ 64) =
      toDec (quadValue s a b c) := by
  have := toDec_quad s a b c 0
  simpa using this.symm

theorem chainhashQuadStr_result (pw : List Byte) (start a b c : UInt64) (n timeout : Nat) (clk : Nat → Nat)
    (hn : 1 ≤ n) :
    IsResult H (.quad start.toNat a.toNat b.toNat c.toNat) pw 20 n 1 n timeout clk
      (chainhashQuadStr H pw n start a b c timeout clk) := by
  simp only [chainhashQuadStr, hashStr_ok H _ 20 (by decide), Res.bind_ok]
  have := chLoop_spec timeout clk (bodyQuadStr H a b c) _ (bodyQuadStr_inv H pw start a b c) (n - 1) 1
    (⟨H.h (pw ++ toDec (quadValue start a b c)), H.size + 20⟩, start)
    ⟨inv_init H (.quad start.toNat a.toNat b.toNat c.toNat) pw _ 20 (at_zero_quad start a b c), by rfl⟩
  refine finishP (hit_str timeout clk n) ?_ (P := fun p => p.2 + 1 = start + UInt64.ofNat n)
  rwa [show 1 + (n - 1) = n by omega] at this ⊢

theorem inv_init_bytes (r : SaltRule) (d : Bytes) (extra : Nat) (hd : d.WF) :
    InvB H r d.data extra 0 (d.copyExtra extra) := by
  refine ⟨rfl, ?_, by omega⟩
  simp only [Bytes.WF, Bytes.copyExtra] at *; omega

theorem chainhashBytes_result (d : Bytes) (hd : d.WF) (n timeout : Nat) (clk : Nat → Nat) :
    IsResult H .none d.data 0 n 0 n timeout clk (chainhashBytes H d n timeout clk) := by
  simp only [chainhashBytes]
  have := chLoop_spec timeout clk (bodyNormal H) _ (bodyNormal_inv H d.data) n 0 _ (inv_init_bytes H .none d 0 hd)
  rw [Nat.zero_add] at this
  exact finishB Iff.rfl this

theorem chainhashConstBytes_result (d : Bytes) (hd : d.WF) (salt : List Byte) (n timeout : Nat) (clk : Nat → Nat)
    (hs : salt.length + 64 < 2 ^ 32) :
    IsResult H (.const salt) d.data salt.length n 0 n timeout clk (chainhashConstBytes H d n salt timeout clk) := by
  simp only [chainhashConstBytes]
  have := chLoop_spec timeout clk (bodyConst H salt) _ (bodyConst_inv H d.data salt hs) n 0 _
    (inv_init_bytes H (.const salt) d salt.length hd)
  rw [Nat.zero_add] at this
  exact finishB Iff.rfl this

theorem chainhashCountBytes_result (d : Bytes) (hd : d.WF) (start : UInt64) (n timeout : Nat) (clk : Nat → Nat) :
    IsResult H (.count start.toNat) d.data 20 n 0 n timeout clk (chainhashCountBytes H d n start timeout clk) := by
  simp only [chainhashCountBytes]
  have := chLoop_spec timeout clk (bodyCountBytes H) _ (bodyCountBytes_inv H d.data start) n 0
    (d.copyExtra 20, start) ⟨inv_init_bytes H (.count start.toNat) d 20 hd, by simp⟩
  rw [Nat.zero_add] at this
  exact finishP Iff.rfl this

theorem chainhashConstCountBytes_result (d : Bytes) (hd : d.WF) (salt : List Byte) (start : UInt64) (n timeout : Nat)
    (clk : Nat → Nat) (hs : salt.length + 84 < 2 ^ 32) :
    IsResult H (.constCount salt start.toNat) d.data (salt.length + 20) n 0 n timeout clk
      (chainhashConstCountBytes H d n start salt timeout clk) := by
  simp only [chainhashConstCountBytes]
  have := chLoop_spec timeout clk (bodyConstCountBytes H salt) _ (bodyConstCountBytes_inv H d.data salt hs start) n 0
    (d.copyExtra (salt.length + 20), start) ⟨inv_init_bytes H (.constCount salt start.toNat) d _ hd, by simp⟩
  rw [Nat.zero_add] at this
  exact finishP Iff.rfl this

theorem chainhashQuadBytes_result (d : Bytes) (hd : d.WF) (start a b c : UInt64) (n timeout : Nat)
    (clk : Nat → Nat) :
    IsResult H (.quad start.toNat a.toNat b.toNat c.toNat) d.data 20 n 0 n timeout clk
      (chainhashQuadBytes H d n start a b c timeout clk) := by
  simp only [chainhashQuadBytes]
  have := chLoop_spec timeout clk (bodyQuadBytes H a b c) _ (bodyQuadBytes_inv H d.data start a b c) n 0
    (d.copyExtra 20, start) ⟨inv_init_bytes H (.quad start.toNat a.toNat b.toNat c.toNat) d 20 hd, by simp⟩
  rw [Nat.zero_add] at this
  exact finishP Iff.rfl this

end PwFunc
end Verif
