import Verif.Lemmas.ChainHash

namespace Verif
open Spec

theorem part_outcome {d : ChainHashData} (hd : d.Reach) (name : String) :
    (∃ p : List Byte, d.getPart name = .ok (Bytes.full p) ∧ p.length ≤ 255 ∧ (name ≠ "S" → p.length = 8)) ∨
    d.getPart name = .exn .invalidArgument := by
  obtain ⟨acc, h1, h2⟩ := hd.holding
  by_cases hn : ∀ nl ∈ d.mode.nameLens, nl.name ≠ name
  · exact .inr (getPartLoop_absent _ _ _ _ _ hn)
  · simp only [Classical.not_forall, ne_eq, Classical.not_not, exists_prop, nameLens_eq, List.mem_map] at hn
    obtain ⟨nl, ⟨p, hp, rfl⟩, rfl⟩ := hn
    obtain ⟨i, hi⟩ := List.getElem?_of_mem hp
    have := getPart_holding h1 i p.1 p.2 hi
    rw [← h2] at this
    simp only at this ⊢
    rw [this]
    cases ha : acc[i]? with
    | none => exact .inr rfl
    | some q =>
      refine .inl ⟨q, rfl, ?_, ?_⟩
      · have hmem := List.mem_of_getElem? ha
        have : q.length ≤ acc.flatten.length := by
          obtain ⟨l1, l2, rfl⟩ := List.append_of_mem hmem
          simp
          omega
        have := h1.2.2
        omega
      · intro hS
        have hs : ∀ m : CHMode, ∀ p ∈ modeParts m.num, p.1 ≠ "S" → p.2.isSome = true := by
          intro m; cases m <;> decide
        have := Option.isSome_iff_exists.mp (hs _ p hp hS)
        obtain ⟨k, hk⟩ := this
        have hi' : (modeParts d.mode.num)[i]? = some (p.1, some k) := by rw [hi, ← hk]
        rw [h1.2.1 i q p.1 k ha hi']
        exact modeParts_pos _ _ _ _ hi'

/-- throws `invalid_argument`, or (where `q` allows) does not return -/
def Throws (q : Prop) {α : Type} (x : Res α) : Prop := x = .exn .invalidArgument ∨ (q ∧ x = .fatal .diverge)

theorem Throws.numPart {q : Prop} {α : Type} {d : ChainHashData} (hd : d.Reach) (name : String) (hn : name ≠ "S")
    {K : UInt64 → Res α} (hK : ∀ x, Throws q (K x)) :
    Throws q (d.getPart name >>= fun b => b.toLong >>= K) := by
  rcases part_outcome hd name with ⟨p, h1, -, h2⟩ | h
  · rw [h1, Res.bind_ok, toLong_full p (h2 hn), Res.bind_ok]; exact hK _
  · rw [h]; exact .inl rfl

theorem Throws.saltPart {q : Prop} {α : Type} {d : ChainHashData} (hd : d.Reach)
    {K : Bytes → Res α} (hK : ∀ p : List Byte, p.length ≤ 255 → Throws q (K (Bytes.full p))) :
    Throws q (d.getPart "S" >>= K) := by
  rcases part_outcome hd "S" with ⟨p, h1, h2, -⟩ | h
  · rw [h1, Res.bind_ok]; exact hK p h2
  · rw [h]; exact .inl rfl

theorem Throws.run {q : Prop} {α β : Type} {x : Res β} (hx : (∃ r, x = .ok r) ∨ (q ∧ x = .fatal .diverge))
    {K : β → Res α} (hK : ∀ r, Throws q (K r)) : Throws q (x >>= K) := by
  rcases hx with ⟨r, rfl⟩ | ⟨h, rfl⟩
  · exact hK r
  · exact .inr ⟨h, rfl⟩

theorem timedSwitch_throws {q : Prop} {m : CHMode} {t : UInt64} {d : ChainHashData} (hd : d.Reach)
    (hv : (ChainHashTimed.make m t (some d)).val = true) (f : ChainHashModes.TimedFns)
    (R : ModeArgs → Nat → Res (Nat × Bytes))
    (e1 : ∀ i, f.normal t.toNat i = R .normal i)
    (e2 : ∀ s i, f.const t.toNat s i = R (.const s) i)
    (e3 : ∀ n i, f.count t.toNat n i = R (.count n) i)
    (e4 : ∀ n s i, f.constCount t.toNat n s i = R (.constCount n s) i)
    (e5 : ∀ n a b c i, f.quad t.toNat n a b c i = R (.quad n a b c) i)
    (hR : ∀ a, a.SaltFits → ∀ i, (∃ r, R a i = .ok r) ∨ (q ∧ R a i = .fatal .diverge)) :
    Throws q (ChainHashModes.timedSwitch f (ChainHashTimed.make m t (some d))) := by
  have hg1 : (ChainHashTimed.make m t (some d)).getMode = .ok m := by
    simp only [ChainHashTimed.getMode, hv]; rfl
  have hg2 : (ChainHashTimed.make m t (some d)).getRunTime = .ok t := by
    simp only [ChainHashTimed.getRunTime, hv]; rfl
  have hg3 : (ChainHashTimed.make m t (some d)).getData = .ok d := by
    simp only [ChainHashTimed.getData, hv]; rfl
  unfold ChainHashModes.timedSwitch
  simp only [hg1, hg2, hg3, Res.bind_ok, e1, e2, e3, e4, e5]
  have c5 : Throws q (do
      let sn ← (← d.getPart "SN").toLong
      let a ← (← d.getPart "A").toLong
      let b ← (← d.getPart "B").toLong
      let c ← (← d.getPart "C").toLong
      let _ ← R (.quad sn a b c) 4
      (.exn .invalidArgument : Res (Nat × Bytes))) :=
    .numPart hd _ (by decide) fun _ => .numPart hd _ (by decide) fun _ => .numPart hd _ (by decide) fun _ =>
      .numPart hd _ (by decide) fun _ => .run (hR _ (by trivial) _) fun _ => .inl rfl
  revert c5
  generalize (do
      let sn ← (← d.getPart "SN").toLong
      let a ← (← d.getPart "A").toLong
      let b ← (← d.getPart "B").toLong
      let c ← (← d.getPart "C").toLong
      let _ ← R (.quad sn a b c) 4
      (.exn .invalidArgument : Res (Nat × Bytes))) = X5
  intro c5
  have c4 : Throws q (do
      let sn ← (← d.getPart "SN").toLong
      let s ← d.getPart "S"
      let _ ← R (.constCount sn (bytesToString s)) 3
      X5) :=
    .numPart hd _ (by decide) fun _ => .saltPart hd fun p hp =>
      .run (hR _ (by simp [ModeArgs.SaltFits]; omega) _) fun _ => c5
  revert c4
  generalize (do
      let sn ← (← d.getPart "SN").toLong
      let s ← d.getPart "S"
      let _ ← R (.constCount sn (bytesToString s)) 3
      X5) = X4
  intro c4
  have c3 : Throws q (do
      let sn ← (← d.getPart "SN").toLong
      let _ ← R (.count sn) 2
      X4) := .numPart hd _ (by decide) fun _ => .run (hR _ (by trivial) _) fun _ => c4
  revert c3
  generalize (do
      let sn ← (← d.getPart "SN").toLong
      let _ ← R (.count sn) 2
      X4) = X3
  intro c3
  have c2 : Throws q (do
      let s ← d.getPart "S"
      let _ ← R (.const (bytesToString s)) 1
      X3) := .saltPart hd fun p hp => .run (hR _ (by simp [ModeArgs.SaltFits]; omega) _) fun _ => c3
  cases m
  · exact .run (hR _ (by trivial) _) fun _ => c2
  · exact c2
  · exact c3
  · exact c4
  · exact c5

end Verif
