import Verif.Spec.Cost
import Verif.Model.Hash
import Verif.Lemmas.HeaderFlaw
import Verif.Lemmas.Crypt

/- The lower bound on the number of questions, for C96. -/
namespace Verif
open Spec

variable {α : Type}

theorem Asker.congr {h h' : List Byte → List Byte} (a : Asker α) (hq : ∀ z ∈ a.asked h, h' z = h z) :
    a.run h' = a.run h ∧ a.asked h' = a.asked h := by
  induction a with
  | answer _ => exact ⟨rfl, rfl⟩
  | ask x next ih =>
    have hx : h' x = h x := hq x (List.mem_cons_self ..)
    obtain ⟨h1, h2⟩ := ih (h x) (fun z hz => hq z (List.mem_cons_of_mem _ hz))
    simp only [Asker.run, Asker.asked, hx]
    exact ⟨h1, by rw [h2]⟩

/-- what is still open after the hashes of the inputs in `K` are known: the next input, or the answer is as wanted -/
def StillOpen (T : α → Prop) (K : List (List Byte)) : Asker α → Prop
  | .answer a => T a
  | .ask x _ => x ∉ K

/-- each question has an answer after which the next question is new, and in the end the wanted answer is possible; at most `d` questions -/
def Free (T : α → Prop) (n : Nat) : Nat → Asker α → Prop
  | _, .answer _ => True
  | 0, .ask _ _ => False
  | d + 1, .ask _ next => (∀ K : List (List Byte), K.length + d < 2 ^ 64 → ∃ y, y.length = n ∧ StillOpen T K (next y)) ∧
      ∀ y, y.length = n → Free T n d (next y)

/-- a hash function with one value changed -/
theorem change (H : HashFn) (x y : List Byte) (hy : y.length = H.size) :
    ∃ H' : HashFn, H'.size = H.size ∧ H'.h x = y ∧ ∀ z, z ≠ x → H'.h z = H.h z := by
  refine ⟨⟨H.size, fun z => if z = x then y else H.h z, ?_, H.pos, H.small⟩, rfl, if_pos rfl, fun z hz => if_neg hz⟩
  intro z
  split
  · exact hy
  · exact H.len z

/-- from a new question on, the wanted answer can be reached without touching what is known -/
theorem detour {T : α → Prop} (p : Asker α) : ∀ (d : Nat) (H : HashFn) (K : List (List Byte)), Free T H.size d p →
    StillOpen T K p → K.length + d < 2 ^ 64 → ∃ H' : HashFn, H'.size = H.size ∧ (∀ z ∈ K, H'.h z = H.h z) ∧ T (p.run H'.h) := by
  induction p with
  | answer a => exact fun d H K _ ho _ => ⟨H, rfl, fun _ _ => rfl, ho⟩
  | ask x next ih =>
    intro d H K hf ho hb
    match d, hf with
    | d + 1, hf =>
      obtain ⟨y, hy, hn⟩ := hf.1 (x :: K) (by simp only [List.length_cons]; omega)
      obtain ⟨H1, k1, k2, k3⟩ := change H x y hy
      obtain ⟨H', g1, g2, g3⟩ := ih y d H1 (x :: K) (by rw [k1]; exact hf.2 y hy) hn (by simp only [List.length_cons]; omega)
      refine ⟨H', by omega, ?_, ?_⟩
      · intro z hz
        rw [g2 z (List.mem_cons_of_mem _ hz)]
        refine k3 z ?_
        rintro rfl
        exact ho hz
      · simp only [Asker.run, g2 x (List.mem_cons_self ..), k2]
        exact g3

/-- as soon as one of its inputs is not known, the wanted answer is possible -/
theorem unknown_input {T : α → Prop} (p : Asker α) : ∀ (d : Nat) (H : HashFn) (K : List (List Byte)), Free T H.size d p →
    K.length + d < 2 ^ 64 → (∃ z ∈ p.asked H.h, z ∉ K) →
    ∃ H' : HashFn, H'.size = H.size ∧ (∀ z ∈ K, H'.h z = H.h z) ∧ T (p.run H'.h) := by
  induction p with
  | answer a => rintro d H K - - ⟨z, hz, -⟩; exact absurd hz List.not_mem_nil
  | ask x next ih =>
    intro d H K hf hb hz
    by_cases hx : x ∈ K
    · match d, hf with
      | d + 1, hf =>
        obtain ⟨H', k1, k2, k3⟩ := ih (H.h x) d H K (hf.2 _ (H.len x)) (by omega) (by
          obtain ⟨z, h1, h2⟩ := hz
          simp only [Asker.asked, List.mem_cons] at h1
          rcases h1 with rfl | h1
          · exact absurd hx h2
          · exact ⟨z, h1, h2⟩)
        refine ⟨H', k1, k2, ?_⟩
        simp only [Asker.run, k2 x hx]
        exact k3
    · exact detour _ d H K hf hx hb

theorem nodup_length {β : Type} [BEq β] [LawfulBEq β] : ∀ (l K : List β), l.Nodup → (∀ x ∈ l, x ∈ K) → l.length ≤ K.length
  | [], _, _, _ => Nat.zero_le _
  | x :: l, K, hl, hs => by
    obtain ⟨h1, h2⟩ := List.nodup_cons.mp hl
    have hx := hs x (List.mem_cons_self ..)
    have := nodup_length l (K.erase x) h2 fun y hy => by
      refine (List.mem_erase_of_ne ?_).mpr (hs y (List.mem_cons_of_mem _ hy))
      rintro rfl
      exact h1 hy
    rw [List.length_erase_of_mem hx] at this
    have := List.length_pos_of_mem hx
    simp only [List.length_cons]
    omega

/-- among many values there is one that a function without collisions takes out of a list -/
theorem fresh_value {n : Nat} (hn : 8 ≤ n) (g : List Byte → List Byte)
    (hg : ∀ y y', y.length = n → y'.length = n → g y = g y' → y = y') (K : List (List Byte)) (hK : K.length + 1 < 2 ^ 64) :
    ∃ y, y.length = n ∧ g y ∉ K := by
  refine Classical.byContradiction fun hc => ?_
  let y : Nat → List Byte := fun k => num8 k ++ List.replicate (n - 8) 0
  have hy : ∀ k, (y k).length = n := fun k => by simp [y]; omega
  have hall : ∀ k, g (y k) ∈ K := fun k => Classical.byContradiction fun h => hc ⟨y k, hy k, h⟩
  have hnd : ((List.range (K.length + 1)).map fun k => g (y k)).Nodup := by
    refine List.pairwise_map.mpr (List.Pairwise.imp_of_mem ?_ (List.nodup_range (n := K.length + 1)))
    intro a b ha hb hab he
    rw [List.mem_range] at ha hb
    exact hab (HeaderParse.num8_inj (by omega) (by omega) (List.append_cancel_right (hg _ _ (hy a) (hy b) he)))
  have := nodup_length _ K hnd (by
    intro x hx
    obtain ⟨k, -, rfl⟩ := List.mem_map.mp hx
    exact hall k)
  simp at this
  omega

/-- rounds of a chain hash with given values appended, then something else -/
def rounds (next : List Byte → Asker α) : List (List Byte) → List Byte → Asker α
  | [], x => next x
  | s :: ss, x => .ask (x ++ s) fun y => rounds next ss y

/-- the result of the rounds -/
def endOf (h : List Byte → List Byte) : List (List Byte) → List Byte → List Byte
  | [], x => x
  | s :: ss, x => endOf h ss (h (x ++ s))

/-- the inputs of the rounds -/
def walk (h : List Byte → List Byte) : List (List Byte) → List Byte → List (List Byte)
  | [], _ => []
  | s :: ss, x => (x ++ s) :: walk h ss (h (x ++ s))

theorem rounds_run (h : List Byte → List Byte) (next : List Byte → Asker α) (ss : List (List Byte)) (x : List Byte) :
    (rounds next ss x).run h = (next (endOf h ss x)).run h ∧
      (rounds next ss x).asked h = walk h ss x ++ (next (endOf h ss x)).asked h := by
  induction ss generalizing x with
  | nil => exact ⟨rfl, rfl⟩
  | cons s ss ih =>
    obtain ⟨h1, h2⟩ := ih (h (x ++ s))
    exact ⟨h1, congrArg (List.cons _) h2⟩

theorem walk_append (h : List Byte → List Byte) (ss ss' : List (List Byte)) (x : List Byte) :
    walk h (ss ++ ss') x = walk h ss x ++ walk h ss' (endOf h ss x) ∧ endOf h (ss ++ ss') x = endOf h ss' (endOf h ss x) := by
  induction ss generalizing x with
  | nil => exact ⟨rfl, rfl⟩
  | cons s ss ih => exact ⟨congrArg (List.cons _) (ih _).1, (ih _).2⟩

theorem rounds_free {T : α → Prop} {n d : Nat} (hn : 8 ≤ n) (next : List Byte → Asker α)
    (h1 : ∀ K : List (List Byte), K.length + d < 2 ^ 64 → ∃ y, y.length = n ∧ StillOpen T K (next y))
    (h2 : ∀ y, y.length = n → Free T n d (next y)) (ss : List (List Byte)) (x : List Byte) (hx : ss ≠ [] ∨ x.length = n) :
    Free T n (ss.length + d) (rounds next ss x) := by
  induction ss generalizing x with
  | nil =>
    rw [List.length_nil, Nat.zero_add]
    exact h2 x (hx.resolve_left fun h => h rfl)
  | cons s ss ih =>
    rw [List.length_cons, show ss.length + 1 + d = (ss.length + d) + 1 by omega]
    refine ⟨fun K hK => ?_, fun y hy => ih y (.inr hy)⟩
    rcases ss with _ | ⟨s', ss⟩
    · exact h1 K (by rw [List.length_nil] at hK; omega)
    · rw [List.length_cons] at hK
      exact fresh_value hn (fun y => y ++ s') (fun y y' _ _ h => List.append_cancel_right h) K (by omega)

theorem ask_open {T : α → Prop} {n d : Nat} (hn : 8 ≤ n) (g : List Byte → List Byte)
    (hg : ∀ y y', y.length = n → y'.length = n → g y = g y' → y = y') (next : List Byte → List Byte → Asker α) (hd : 1 ≤ d) :
    ∀ K : List (List Byte), K.length + d < 2 ^ 64 → ∃ y, y.length = n ∧ StillOpen T K (.ask (g y) (next y)) :=
  fun K hK => fresh_value hn g hg K (by omega)

/-! ### in terms of the specification -/

/-- the values appended in the rounds of a chain hash -/
def tails (rule : SaltRule) (n : Nat) : List (List Byte) := (List.range n).map rule.at

theorem walk_tails (h : List Byte → List Byte) (rule : SaltRule) (n : Nat) (x : List Byte) :
    walk h (tails rule n) x = chainInputs h rule n x ∧ endOf h (tails rule n) x = chain h rule n x := by
  induction n with
  | zero => exact ⟨rfl, rfl⟩
  | succ n ih =>
    have e : tails rule (n + 1) = tails rule n ++ [rule.at n] := by simp [tails, List.range_succ]
    obtain ⟨h1, h2⟩ := walk_append h (tails rule n) [rule.at n] x
    rw [e, h1, h2, ih.1, ih.2]
    refine ⟨?_, ?_⟩
    · simp [walk, chainInputs, List.range_succ]
    · simp [endOf, chain, List.range_succ]

/-- the values appended in the check of a password -/
def checkTails (hd : Header) : List (List Byte) :=
  tails (ruleOf hd.ch1.mode.toNat hd.ch1.block) hd.ch1.iters ++ tails (ruleOf hd.ch2.mode.toNat hd.ch2.block) hd.ch2.iters

theorem check_walk (h : List Byte → List Byte) (hd : Header) (pw : List Byte) :
    walk h (checkTails hd) pw = checkInputs h hd pw ∧ endOf h (checkTails hd) pw = hd.ch2.digest h (hd.ch1.digest h pw) := by
  obtain ⟨h1, h2⟩ := walk_append h (tails (ruleOf hd.ch1.mode.toNat hd.ch1.block) hd.ch1.iters)
    (tails (ruleOf hd.ch2.mode.toNat hd.ch2.block) hd.ch2.iters) pw
  obtain ⟨a1, a2⟩ := walk_tails h (ruleOf hd.ch1.mode.toNat hd.ch1.block) hd.ch1.iters pw
  unfold checkTails
  rw [h1, h2, a1, a2]
  obtain ⟨b1, b2⟩ := walk_tails h (ruleOf hd.ch2.mode.toNat hd.ch2.block) hd.ch2.iters
    (chain h (ruleOf hd.ch1.mode.toNat hd.ch1.block) hd.ch1.iters pw)
  rw [b1, b2]
  exact ⟨rfl, rfl⟩

/-- the check of a password -/
def checker (hd : Header) (pw : List Byte) : Asker Bool := rounds (fun y => .answer (y == hd.validator)) (checkTails hd) pw

theorem checker_run (h : List Byte → List Byte) (hd : Header) (pw : List Byte) :
    ((checker hd pw).run h = true ↔ hd.ch2.digest h (hd.ch1.digest h pw) = hd.validator) ∧
      (checker hd pw).asked h = checkInputs h hd pw := by
  obtain ⟨h1, h2⟩ := rounds_run h (fun y => Asker.answer (y == hd.validator)) (checkTails hd) pw
  obtain ⟨h3, h4⟩ := check_walk h hd pw
  rw [h4] at h1
  refine ⟨?_, ?_⟩
  · unfold checker; rw [h1]; simp [Asker.run]
  · unfold checker; rw [h2, h3]; simp [Asker.asked]

theorem length_checkTails (hd : Header) : (checkTails hd).length = hd.ch1.iters + hd.ch2.iters := by simp [checkTails, tails]

theorem checker_free {hd : Header} (hv : hd.Valid) (b : Bool) (pw : List Byte) :
    Free (· = b) (digestSize hd.hashMode) (hd.ch1.iters + hd.ch2.iters) (checker hd pw) := by
  have h8 : 8 ≤ digestSize hd.hashMode := by
    rcases hv.hashMode with h | h | h <;> rw [h] <;> decide
  have hi := hv.ch1.1
  have := rounds_free (T := (· = b)) (d := 0) h8 (fun y => Asker.answer (y == hd.validator)) (by
    intro K _
    cases b with
    | true => exact ⟨hd.validator, hv.validator, beq_self_eq_true _⟩
    | false =>
      obtain ⟨y, h1, h2⟩ := fresh_value h8 id (fun _ _ _ _ h => h) [hd.validator] (by simp)
      refine ⟨y, h1, ?_⟩
      simp only [id, List.mem_singleton] at h2
      exact beq_eq_false_iff_ne.mpr h2) (fun y _ => trivial) (checkTails hd) pw (by
      left
      intro h
      have := congrArg List.length h
      rw [length_checkTails] at this
      simp at this
      omega)
  rwa [length_checkTails] at this

/-- from the password to the bytes added to the first block -/
def firstAsker (hd : Header) (pw : List Byte) (f : List Byte → α) : Asker α :=
  let zero := List.replicate (digestSize hd.hashMode) 0
  rounds (fun k => .ask (addB (addB k hd.salt) zero) fun k' => .ask (addB (addB k' hd.salt) zero) fun s' =>
    .ask (addB k' s') fun out => .answer (f out)) (tails (ruleOf hd.ch1.mode.toNat hd.ch1.block) hd.ch1.iters) pw

theorem firstAsker_run (h : List Byte → List Byte) (hd : Header) (pw : List Byte) (f : List Byte → α) (plain : List Byte) :
    (firstAsker hd pw f).run h = f (blockSalt h (digestSize hd.hashMode) (hd.ch1.digest h pw) hd.salt plain 1) ∧
      (firstAsker hd pw f).asked h = firstInputs h hd pw := by
  obtain ⟨h1, h2⟩ := rounds_run h (fun k => Asker.ask (addB (addB k hd.salt) (List.replicate (digestSize hd.hashMode) 0)) fun k' =>
    .ask (addB (addB k' hd.salt) (List.replicate (digestSize hd.hashMode) 0)) fun s' =>
    .ask (addB k' s') fun out => .answer (f out)) (tails (ruleOf hd.ch1.mode.toNat hd.ch1.block) hd.ch1.iters) pw
  obtain ⟨h3, h4⟩ := walk_tails h (ruleOf hd.ch1.mode.toNat hd.ch1.block) hd.ch1.iters pw
  rw [h4] at h1 h2
  rw [h3] at h2
  exact ⟨h1, h2⟩

theorem addB_inj {a a' b : List Byte} (h : a.length ≤ b.length) (h' : a'.length ≤ b.length) (he : addB a b = addB a' b) : a = a' := by
  rw [← subB_addB a b h, he, subB_addB a' b h']

theorem addB_comm (a b : List Byte) : addB a b = addB b a := by
  apply List.ext_getElem?
  intro k
  rw [getElem?_addB, getElem?_addB]
  cases a[k]? <;> cases b[k]? <;> simp [UInt8.add_comm]

theorem firstAsker_free {hd : Header} (hv : hd.Valid) {T : α → Prop} (f : List Byte → α)
    (hT : ∃ y, y.length = digestSize hd.hashMode ∧ T (f y)) (pw : List Byte) :
    Free T (digestSize hd.hashMode) (hd.ch1.iters + 3) (firstAsker hd pw f) := by
  have h8 : 8 ≤ digestSize hd.hashMode := by
    rcases hv.hashMode with h | h | h <;> rw [h] <;> decide
  have hi := hv.ch1.1
  have hs := hv.salt
  have inj : ∀ y y' : List Byte, y.length = digestSize hd.hashMode → y'.length = digestSize hd.hashMode →
      addB (addB y hd.salt) (List.replicate (digestSize hd.hashMode) 0) =
        addB (addB y' hd.salt) (List.replicate (digestSize hd.hashMode) 0) → y = y' := by
    intro y y' hy hy' he
    exact addB_inj (by omega) (by omega) (addB_inj (by simp; omega) (by simp; omega) he)
  have hlen : (tails (ruleOf hd.ch1.mode.toNat hd.ch1.block) hd.ch1.iters).length = hd.ch1.iters := by simp [tails]
  have := rounds_free (T := T) (d := 3) h8 (fun k => Asker.ask (addB (addB k hd.salt) (List.replicate (digestSize hd.hashMode) 0)) fun k' =>
    .ask (addB (addB k' hd.salt) (List.replicate (digestSize hd.hashMode) 0)) fun s' =>
    .ask (addB k' s') fun out => .answer (f out)) (ask_open h8 _ inj _ (by decide)) (by
      intro k hk
      refine ⟨ask_open h8 _ inj _ (by decide), fun k' hk' => ⟨ask_open h8 _ (fun y y' hy hy' he => ?_) (fun _ _ => _) (by decide), fun s' _ =>
        ⟨fun K _ => ?_, fun _ _ => trivial⟩⟩⟩
      · rw [addB_comm k', addB_comm k'] at he
        exact addB_inj (by omega) (by omega) he
      · obtain ⟨y, h1, h2⟩ := hT
        exact ⟨y, h1, h2⟩) (tails (ruleOf hd.ch1.mode.toNat hd.ch1.block) hd.ch1.iters) pw (by
      left
      intro h
      rw [h] at hlen
      simp at hlen
      omega)
  rwa [hlen] at this

end Verif
