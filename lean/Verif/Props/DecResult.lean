import Verif.Spec.DecResult

/-!
Property C85: the result of decoding a file (`WorkflowDecStruct`).
-/
namespace Verif.Props
open Spec
variable {α δ : Type}

/-- how the struct stands to the shelf as long as the two hypotheses of `C85_shelf_partial` hold -/
private def Stands (r : DecResult α δ) (s : Shelf α δ) : Prop :=
  s.open' = (r.success == .SUCCESS) ∧ s.header = r.header ∧ s.content = r.data ∧ (r.moved = true → r.data = none)

private theorem stands_step {r : DecResult α δ} {s : Shelf α δ} (h : Stands r s) (o : DecOp α δ)
    (hd : ∀ d, o = .setData d → r.moved = false) (hh : o = .header → r.header ≠ none) :
    (r.step o).1 = (s.use o).1 ∧ Stands (r.step o).2 (s.use o).2 := by
  obtain ⟨a, b, c, d⟩ := r
  obtain ⟨x, y, z⟩ := s
  obtain ⟨h1, h2, h3, h4⟩ := h
  simp only at h1 h2 h3 h4
  subst h1 h2 h3
  cases o with
  | mark m => exact ⟨rfl, rfl, rfl, rfl, h4⟩
  | setData q =>
    have := hd q rfl
    simp only at this
    exact ⟨rfl, rfl, rfl, rfl, by simp [DecResult.step, this]⟩
  | setHeader q => exact ⟨rfl, rfl, rfl, rfl, h4⟩
  | ref => cases a <;> cases y <;> cases d <;> simp_all [DecResult.step, DecResult.content, Shelf.use, Stands]
  | edit q => cases a <;> cases y <;> cases d <;> simp_all [DecResult.step, DecResult.content, Shelf.use, Stands]
  | take => cases a <;> cases y <;> cases d <;> simp_all [DecResult.step, DecResult.content, Shelf.use, Stands]
  | header =>
    have := hh rfl
    cases a <;> cases z <;> simp_all [DecResult.step, Shelf.use, Stands]

private theorem header_same (r : DecResult α δ) : (r.step .header).2 = r := by
  simp only [DecResult.step]
  split
  · rfl
  · cases r.header <;> rfl

/-- C85 (partial: no content is set after the first attempt to take it, and the header is asked for only after one was
set): whatever the caller does, the struct answers like the shelf. -/
theorem C85_shelf_partial (os : List (DecOp α δ)) (hf : filledBeforeTaken os = true) (hh : headerFirst os = true) :
    DecResult.answers .new os = Shelf.answers .new os := by
  suffices H : ∀ (os : List (DecOp α δ)) (r : DecResult α δ) (s : Shelf α δ), Stands r s →
      (os.any fills = false ∨ (r.moved = false ∧ filledBeforeTaken os = true)) →
      (r.header ≠ none ∨ headerFirst os = true) →
      DecResult.answers r os = Shelf.answers s os from
    H os .new .new ⟨rfl, rfl, rfl, by simp [DecResult.new]⟩ (.inr ⟨rfl, hf⟩) (.inr hh)
  intro os
  induction os with
  | nil => intros; rfl
  | cons o os ih =>
    intro r s hst hm hk
    obtain ⟨h1, h2⟩ := stands_step hst o
      (fun d ed => by
        rcases hm with hm | hm
        · simp [ed, fills] at hm
        · exact hm.1)
      (fun eo => by
        rcases hk with hk | hk
        · exact hk
        · simp [eo, headerFirst] at hk)
    rw [DecResult.answers, Shelf.answers, h1]
    congr 1
    refine ih _ _ h2 ?_ ?_
    · rcases hm with hm | ⟨hm, hg⟩
      · exact .inl (by simp only [List.any_cons, Bool.or_eq_false_iff] at hm; exact hm.2)
      · cases o with
        | take => exact .inl (by simpa [filledBeforeTaken] using hg)
        | ref => exact .inr ⟨by simp only [DecResult.step]; cases r.content <;> exact hm, hg⟩
        | edit q => exact .inr ⟨by simp only [DecResult.step]; cases r.content <;> exact hm, hg⟩
        | header => exact .inr ⟨by rw [header_same]; exact hm, hg⟩
        | _ => exact .inr ⟨hm, hg⟩
    · rcases hk with hk | hk
      · left
        cases o with
        | setHeader q => simp [DecResult.step]
        | take => simp only [DecResult.step]; cases r.content <;> exact hk
        | ref => simp only [DecResult.step]; cases r.content <;> exact hk
        | edit q => simp only [DecResult.step]; cases r.content <;> exact hk
        | header => rw [header_same]; exact hk
        | _ => exact hk
      · cases o with
        | setHeader q => exact .inl (by simp [DecResult.step])
        | header => simp [headerFirst] at hk
        | _ => exact .inr hk

private theorem tookAway_moved (os : List (DecOp α δ)) : ∀ r : DecResult α δ, r.moved = true →
    tookAway os (r.answers os) = 0 := by
  induction os with
  | nil => intros; rfl
  | cons o os ih =>
    intro r hr
    have hc : r.content = none := by simp [DecResult.content, hr]
    have h2 : (r.step o).2.moved = true := by
      cases o with
      | header => rw [header_same]; exact hr
      | _ => simp_all [DecResult.step]
    have := ih _ h2
    simp only [tookAway] at this ⊢
    simp only [DecResult.answers, List.zip_cons_cons, List.countP_cons, this]
    cases o <;> simp [DecResult.step, hc]

/-- C85: whatever the caller does, the content is handed over at most once. -/
theorem C85_once (os : List (DecOp α δ)) (r : DecResult α δ) : tookAway os (r.answers os) ≤ 1 := by
  induction os generalizing r with
  | nil => simp [tookAway]
  | cons o os ih =>
    have hi := ih (r.step o).2
    simp only [tookAway] at hi ⊢
    simp only [DecResult.answers, List.zip_cons_cons, List.countP_cons]
    cases o with
    | take =>
      cases hc : r.content with
      | none => simp only [DecResult.step, hc] at hi ⊢; simpa using hi
      | some a =>
        have := tookAway_moved os { r with moved := true, data := none } rfl
        simp only [tookAway] at this
        simp [DecResult.step, hc, this]
    | _ => simpa using hi

/-- C85: while the decoding does not count as a success, nothing is handed out and nothing is lost. -/
theorem C85_closed (r : DecResult α δ) (h : r.success ≠ .SUCCESS) (o : DecOp α δ)
    (ho : o = .ref ∨ o = .take ∨ o = .header ∨ ∃ a, o = .edit a) : r.step o = (.refused, r) := by
  rcases ho with rfl | rfl | rfl | ⟨a, rfl⟩ <;> simp [DecResult.step, DecResult.content, h]

/-- a caller who sets everything, looks, changes and takes the content, and looks again -/
def exDec : List (DecOp Nat String) :=
  [.ref, .setData (some 4), .ref, .mark .SUCCESS, .ref, .edit 5, .setHeader "h", .take, .take, .header, .ref]

example : DecResult.answers .new exDec =
    [.refused, .none, .refused, .none, .data 4, .data 5, .none, .data 5, .refused, .header "h", .refused] := by
  decide
example : DecResult.answers .new exDec = Shelf.answers .new exDec := by decide
example : filledBeforeTaken exDec = true ∧ headerFirst exDec = true := by decide
example : tookAway exDec (DecResult.answers .new exDec) = 1 := by decide

/-- C85 violated: content which is set after the first content was taken can never be fetched. -/
theorem C85_violated_refill :
    let os : List (DecOp Nat String) := [.mark .SUCCESS, .setData (some 1), .take, .setData (some 2), .take]
    DecResult.answers .new os = [.none, .none, .data 1, .none, .refused] ∧
    Shelf.answers .new os = [.none, .none, .data 1, .none, .data 2] := by decide

/-- C85 violated: a success without a header is not refused with the `std::logic_error` of all other refusals. -/
theorem C85_violated_header :
    let os : List (DecOp Nat String) := [.mark .SUCCESS, .header]
    DecResult.answers .new os = [.none, .noValue] ∧ Shelf.answers .new os = [.none, .refused] := by decide

end Verif.Props
