import Verif.Model.ErrorMessage
import Verif.Spec.ErrorMessage

/- Properties of error messages: C70. -/
namespace Verif.Props
open Spec

attribute [local irreducible] ascii

theorem mem_allCodes (c : ErrorCode) : c ∈ allCodes := by cases c <;> decide

theorem texts_distinct : allCodes.all (fun c => errorText [] c != ascii "Unknown error" &&
    allCodes.all fun d => c == d || errorText [] c != errorText [] d) = true := by decide +kernel

/-- C70: without additional information, two failed results have the same message only if they have the same error code; no
code gives the message for unknown codes. -/
theorem C70_distinct (s : SuccessType) (hs : s ≠ .SUCCESS) (c d : Option ErrorCode) (what : List Byte) (v : Bool) :
    getErrorMessage s c [] what v = getErrorMessage s d [] what v ↔ c = d := by
  have key := texts_distinct
  simp only [List.all_eq_true, Bool.and_eq_true, Bool.or_eq_true, beq_iff_eq, bne_iff_ne] at key
  constructor
  · intro h
    simp only [getErrorMessage, hs, if_false] at h
    cases c with
    | none =>
      cases d with
      | none => rfl
      | some d => exact absurd (List.append_cancel_right h).symm (key d (mem_allCodes d)).1
    | some c =>
      cases d with
      | none => exact absurd (List.append_cancel_right h) (key c (mem_allCodes c)).1
      | some d =>
        rcases (key c (mem_allCodes c)).2 d (mem_allCodes d) with h1 | h1
        · rw [h1]
        · exact absurd (List.append_cancel_right h) h1
  · rintro rfl; rfl

example : getErrorMessage .FAIL (some .ERR_FILE_READ) [] (ascii "x") true = ascii "File could not be read: \nException message: x" ∧
    getErrorMessage .FAIL (some .ERR_FILE_EXISTS) [] (ascii "x") true = ascii "File already exists\nException message: x" := by
  decide +kernel

/-- the fixed beginning of a message -/
def fixedStart (c : ErrorCode) : List Byte :=
  match c with
  | .ERR_PASSWD_CHAR_INVALID => ascii "Password contains illegal character: '"
  | .ERR_PASSWD_TOO_SHORT => ascii "Password is too short, it has to be at least "
  | c => errorText [] c

theorem fixedStart_prefix (c : ErrorCode) (info : List Byte) (h : c ∉ infoFirst) : fixedStart c <+: errorText info c := by
  have app : ∀ t : List Byte, t ++ [] <+: t ++ info := fun t => by rw [List.append_nil]; exact List.prefix_append _ _
  have mid : ∀ t u : List Byte, t <+: t ++ info ++ u := fun t u => by rw [List.append_assoc]; exact List.prefix_append _ _
  cases c
  all_goals first
    | exact absurd (by decide) h
    | exact app _
    | exact mid _ _
    | exact List.prefix_rfl

theorem starts_distinct : allCodes.all (fun c => allCodes.all fun d => infoFirst.contains c || infoFirst.contains d || c == d ||
    !((fixedStart c).isPrefixOf (fixedStart d))) = true := by decide +kernel

/-- C70, the part that holds with additional information: codes whose message does not begin with that information never
have the same message, whatever information and exception texts are attached. -/
theorem C70_identify_partial (s t : SuccessType) (hs : s ≠ .SUCCESS) (ht : t ≠ .SUCCESS) (c d : ErrorCode) (hc : c ∉ infoFirst)
    (hd : d ∉ infoFirst) (hcd : c ≠ d) (info info' what what' : List Byte) (v v' : Bool) :
    getErrorMessage s (some c) info what v ≠ getErrorMessage t (some d) info' what' v' := by
  intro h
  simp only [getErrorMessage, hs, ht, if_false] at h
  have p1 : fixedStart c <+: errorText info c ++ exceptionText what v :=
    (fixedStart_prefix c info hc).trans (List.prefix_append _ _)
  have p2 : fixedStart d <+: errorText info c ++ exceptionText what v := by
    rw [h]; exact (fixedStart_prefix d info' hd).trans (List.prefix_append _ _)
  have key := starts_distinct
  simp only [List.all_eq_true, Bool.or_eq_true, beq_iff_eq, List.contains_iff_mem, Bool.not_eq_true'] at key
  have fin : ∀ a b, a ∉ infoFirst → b ∉ infoFirst → a ≠ b → ¬ fixedStart a <+: fixedStart b := by
    intro a b ha hb hab hp
    rcases key a (mem_allCodes a) b (mem_allCodes b) with ((h1 | h1) | h1) | h1
    · exact ha h1
    · exact hb h1
    · exact hab h1
    · rw [← List.isPrefixOf_iff_prefix] at hp
      rw [hp] at h1; cases h1
  rcases List.prefix_or_prefix_of_prefix p1 p2 with h1 | h1
  · exact fin c d hc hd hcd h1
  · exact fin d c hd hc (Ne.symm hcd) h1

example : ErrorCode.ERR_FILE_READ ∉ infoFirst ∧ ErrorCode.ERR_PASSWD_CHAR_INVALID ∉ infoFirst ∧
    getErrorMessage .FAIL (some .ERR_PASSWD_CHAR_INVALID) (ascii "ä") [] false ≠
      getErrorMessage .TIMEOUT (some .ERR_FILE_READ) (ascii "x") (ascii "y") true := by decide +kernel

/-- C70 violated: with additional information the code cannot be read off the message; two different codes give the same one. -/
theorem C70_violated_ambiguous : ∃ c d info info', c ≠ d ∧ c ≠ .ERR ∧ d ≠ .ERR ∧
    getErrorMessage .FAIL (some c) info [] true = getErrorMessage .FAIL (some d) info' [] true :=
  ⟨.ERR_FILE_EXISTS, .ERR_FILEPATH_INVALID, ascii "Filepath is invalid: a", ascii "a file already exists", by decide +kernel⟩

/-- C70 violated: the general error shows whatever it is given, also the text of another error or of none. -/
theorem C70_violated_echo (d : ErrorCode) (info what : List Byte) (v : Bool) (h : errorText info d ≠ []) :
    getErrorMessage .FAIL (some .ERR) (errorText info d) what v = getErrorMessage .FAIL (some d) info what v := by
  show (if errorText info d = [] then _ else errorText info d) ++ _ = errorText info d ++ _
  rw [if_neg h]

example : errorText (ascii "x") .ERR_FILE_READ ≠ [] := by decide +kernel

/-- C70: the verbose message is the short one followed by the text of the exception. -/
theorem C70_verbose (s : SuccessType) (hs : s ≠ .SUCCESS) (c : Option ErrorCode) (info what : List Byte) :
    getErrorMessage s c info what true =
      getErrorMessage s c info what false ++ ascii "\nException message: " ++ what := by
  cases c <;> simp [getErrorMessage, hs, exceptionText]

example : getErrorMessage .FAIL (some .ERR) (ascii "oops") (ascii "why") true = ascii "oops\nException message: why" := by
  decide +kernel

/-- C70: a successful result has no error message; a fixed text says so. -/
theorem C70_success (c d : Option ErrorCode) (i j x y : List Byte) (v v' : Bool) :
    getErrorMessage .SUCCESS c i x v = getErrorMessage .SUCCESS d j y v' ∧
    ∀ s k z u, s ≠ .SUCCESS → getErrorMessage s (some k) [] z u ≠ getErrorMessage .SUCCESS c i x v := by
  refine ⟨rfl, ?_⟩
  intro s k z u hs h
  have h1 : ∀ k, (errorText [] k).take 3 ≠ ascii "get" ∧ 3 ≤ (errorText [] k).length := by
    intro k; cases k <;> decide +kernel
  simp only [getErrorMessage, hs, if_false, if_true] at h
  have := congrArg (List.take 3) h
  rw [List.take_append_of_le_length (h1 k).2] at this
  exact (h1 k).1 (this.trans (by decide +kernel))

example : getErrorMessage .SUCCESS none [] [] true = ascii "getErrorMessage was called on a succeeded ErrorStruct" := by
  decide +kernel

theorem append_ne_of_longer {a b t : List Byte} (h : t.length < b.length) : a ++ b ≠ t := by
  intro e
  have := congrArg List.length e
  rw [List.length_append] at this
  omega

/-- C70, the part that holds: for the other codes different information gives different messages. -/
theorem C70_info_partial (s : SuccessType) (hs : s ≠ .SUCCESS) (c : ErrorCode) (hc : c ∉ infoHidden) (hne : c ≠ .ERR)
    (info info' what : List Byte) (v : Bool)
    (h : getErrorMessage s (some c) info what v = getErrorMessage s (some c) info' what v) : info = info' := by
  simp only [getErrorMessage, hs, if_false] at h
  have h := List.append_cancel_right h
  have two : ∀ (t u : List Byte), t.length < u.length →
      (if info = [] then t else info ++ u) = (if info' = [] then t else info' ++ u) → info = info' := by
    intro t u hl h
    split at h <;> split at h
    · simp_all
    · exact absurd h.symm (append_ne_of_longer hl)
    · exact absurd h (append_ne_of_longer hl)
    · exact List.append_cancel_right h
  cases c
  all_goals first
    | exact absurd (by decide) hc
    | exact absurd rfl hne
    | exact List.append_cancel_left h
    | exact List.append_cancel_left (List.append_cancel_right h)
    | exact two _ _ (by decide +kernel) h

example : ErrorCode.ERR_EMPTY_FILEPATH ∉ infoHidden ∧ ErrorCode.ERR_PASSWD_CHAR_INVALID ∉ infoHidden ∧
    errorText (ascii "Save") .ERR_EMPTY_FILEPATH = ascii "Save filepath is empty" := by decide +kernel

/-- C70 violated: fifteen codes, among them the timeout, whose text ends in a colon, never show the information attached. -/
theorem C70_violated_hidden (s : SuccessType) (c : ErrorCode) (hc : c ∈ infoHidden) (info info' what : List Byte) (v : Bool) :
    getErrorMessage s (some c) info what v = getErrorMessage s (some c) info' what v := by
  cases c
  all_goals first
    | rfl
    | exact absurd hc (by decide)

example : ErrorCode.ERR_TIMEOUT ∈ infoHidden ∧ infoHidden.length = 15 ∧
    getErrorMessage .TIMEOUT (some .ERR_TIMEOUT) (ascii "after 5 ms") [] false = ascii "A timeout occurred: " := by decide +kernel

end Verif.Props
