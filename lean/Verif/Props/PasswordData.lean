import Verif.Lemmas.PasswordData

/-!
Properties C65 and C66: the password list. The file is not part of the build; see the remarks in
Verif/Model/PasswordData.lean on how it is read.
-/
namespace Verif.Props
open Spec Pw

/-! ### C65 -/

/-- C65 (violated): no list with an entry survives saving and loading, whatever history of calls it comes from, whatever
the iteration order of the map and whatever the undefined construction of the texts (`mixed`) happens to give: either
saving throws or dies, or loading what was saved does not succeed. -/
theorem C65_never (mixed : Text → Res Text) (cs : List Pw.Call) (m it m0 m1 : SiteMap) (f : FileDataStruct)
    (h : calls [] cs = .ok m) (hne : ledger [] cs ≠ []) (hit : it.Perm m) (hs : getFileData mixed it = .ok f) :
    constructFileData m0 f ≠ .ok (m1, .success ()) := by
  have hm := calls_mirrors mirrors_nil h
  have hmne : it ≠ [] := by
    rintro rfl
    rw [List.nil_perm.mp hit] at hm
    exact hne (List.nil_perm.mp hm.perm)
  obtain ⟨b, h1, h2⟩ := Res.bind_eq_ok.mp hs
  have hb := addSites_ne h1 (.inr hmne)
  cases h2
  intro hl
  rcases load_returns hl with ⟨-, -, h3⟩ | ⟨-, -, h3⟩
  · cases h3
  · obtain ⟨b', h4, h5⟩ := h3 rfl
    cases h4
    exact hb h5

/-- C65: what loading does, exactly. Only an empty file loads; a file that begins with a complete name of a site and a
complete user name is undefined behaviour (the last set of a site without sets is accessed); all others are reported. -/
theorem C65_load_exactly (m : SiteMap) (b : Bytes) :
    ((∃ m', constructFileData m ⟨some 1, some b⟩ = .ok (m', .success ())) ↔ b.data = []) ∧
    (constructFileData m ⟨some 1, some b⟩ = .fatal .ub ↔
      ∃ site user rest, site.length ≤ 255 ∧ user.length ≤ 255 ∧ b.data = framed site ++ framed user ++ rest) ∧
    (b.data ≠ [] → constructFileData m ⟨some 1, some b⟩ ≠ .fatal .ub →
      ∃ m', constructFileData m ⟨some 1, some b⟩ = .ok (m', .fail .ERR_FILEDATA_INVALID)) := by
  have hf : ∀ {site user rest}, site.length ≤ 255 → user.length ≤ 255 → b.data = framed site ++ framed user ++ rest →
      readField b.data = some (site, framed user ++ rest) ∧ readField (framed user ++ rest) = some (user, rest) := by
    intro site user rest h1 h2 h3
    exact ⟨by rw [h3, List.append_assoc, readField_framed _ _ h1], readField_framed _ _ h2⟩
  rw [load_eq]
  by_cases hb : b.data = []
  · rw [if_pos hb]
    refine ⟨⟨fun _ => hb, fun _ => ⟨_, rfl⟩⟩, ⟨nofun, ?_⟩, fun h => absurd hb h⟩
    rintro ⟨site, user, rest, -, -, h3⟩
    rw [hb] at h3
    cases h3
  · rw [if_neg hb]
    cases h1 : readField b.data with
    | none =>
      refine ⟨⟨nofun, fun h => absurd h hb⟩, ⟨nofun, ?_⟩, fun _ _ => ⟨_, rfl⟩⟩
      rintro ⟨site, user, rest, h2, h3, h4⟩
      rw [(hf h2 h3 h4).1] at h1
      cases h1
    | some x =>
      obtain ⟨site, r⟩ := x
      simp only
      cases h2 : readField r with
      | none =>
        refine ⟨⟨nofun, fun h => absurd h hb⟩, ⟨nofun, ?_⟩, fun _ _ => ⟨_, rfl⟩⟩
        rintro ⟨site', user, rest, h3, h4, h5⟩
        have := hf h3 h4 h5
        rw [h1] at this
        cases this.1
        rw [h2] at this
        cases this.2
      | some y =>
        obtain ⟨user, rest⟩ := y
        refine ⟨⟨nofun, fun h => absurd h hb⟩, ⟨fun _ => ?_, fun _ => rfl⟩, fun _ h => absurd rfl h⟩
        have h3 := readField_some h1
        have h4 := readField_some h2
        exact ⟨site, user, rest, h3.1, h4.1, by rw [h3.2, h4.2, List.append_assoc]⟩

/-- C65: the empty list survives. Partial: it is the only one (C65_never). -/
theorem C65_empty_partial (mixed : Text → Res Text) (m : SiteMap) :
    ∃ f, getFileData mixed [] = .ok f ∧ constructFileData m f = .ok ([], .success ()) :=
  ⟨⟨some 1, some (Bytes.full [])⟩, rfl, by rw [load_eq]; rfl⟩

/-- C65: a site whose number of entries is not a multiple of three stops saving with an exception. -/
theorem C65_not_three (mixed : Text → Res Text) (x : Text × List SiteSet) (it : SiteMap) (h : x.2.length % 3 ≠ 0) :
    getFileData mixed (x :: it) = .exn .runtimeError := by
  unfold getFileData getBytes addSites
  rw [if_pos h]
  rfl

def shop (n : Byte) : Entry := ⟨ascii "Shop", [n], ascii "a@b", ascii "secret"⟩

def shopCalls : List Pw.Call := [.add (shop 1), .add (shop 2), .add (shop 3)]

/-- C65 (violated): three entries of one site, saved and loaded: undefined behaviour already in saving, and, were the texts
there just empty, in loading; one entry cannot be saved at all. -/
theorem C65_violated : ∃ m, calls [] shopCalls = .ok m ∧ ledger [] shopCalls = [shop 1, shop 2, shop 3] ∧
    getFileData (fun _ => .fatal .ub) m = .fatal .ub ∧
    (∃ f, getFileData (fun _ => .ok []) m = .ok f ∧ constructFileData [] f = .fatal .ub) ∧
    ∃ m1, calls [] [.add (shop 1)] = .ok m1 ∧ getFileData (fun _ => .ok []) m1 = .exn .runtimeError :=
  ⟨_, rfl, by decide +kernel, rfl, ⟨_, rfl, rfl⟩, _, rfl, rfl⟩

/-- C65 (violated): after loading a cut-off file, which is reported, saving is undefined behaviour. -/
theorem C65_failed_load_kills : ∃ m, constructFileData [] ⟨some 1, some (Bytes.full [1, 65])⟩ =
    .ok (m, .fail .ERR_FILEDATA_INVALID) ∧ ∀ mixed, getFileData mixed m = .fatal .ub :=
  ⟨_, rfl, fun _ => rfl⟩

example : constructFileData [] ⟨some 1, some (Bytes.full (framed [65] ++ framed [66, 67] ++ [9]))⟩ = .fatal .ub :=
  (C65_load_exactly [] _).2.1.mpr ⟨[65], [66, 67], [9], by decide, by decide, rfl⟩

/-! ### C66 -/

open Classical in
/-- C66: after any history of calls that returned, a search finds exactly the entries whose site contains the text
ignoring case, each as often as it was added; the order of iteration and sorting do not matter. -/
theorem C66_search (cs : List Pw.Call) (m it : SiteMap) (srt : List Entry → List Entry) (text : Text) (sorted : Bool)
    (h : calls [] cs = .ok m) (hit : it.Perm m) (hsrt : SortsBySite srt) :
    (getSets it srt text sorted).Perm ((ledger [] cs).filter fun p => decide (Matches text p)) := by
  have hm := calls_mirrors mirrors_nil h
  have hall : (all it).Perm (ledger [] cs) := (List.Perm.flatMap_right _ hit).trans hm.perm
  have key : (if text.isEmpty then it.flatMap entriesOf
      else (it.filter fun x => contains (text.map lower) (x.1.map lower)).flatMap entriesOf) =
      (all it).filter fun p => decide (Matches text p) := by
    have hM : (fun p : Entry => decide (Matches text p)) = fun p => contains (text.map lower) (p.site.map lower) := by
      funext p
      apply Bool.eq_iff_iff.mpr
      rw [decide_eq_true_eq, matches_iff]
    rw [hM]
    by_cases ht : text.isEmpty = true
    · rw [if_pos ht]
      rw [List.isEmpty_iff] at ht
      subst ht
      symm
      apply List.filter_eq_self.mpr
      intro p _
      rw [contains_iff]
      exact ⟨[], p.site.map lower, rfl⟩
    · rw [if_neg ht]
      exact all_filter (fun k => contains (text.map lower) (k.map lower)) it
  unfold getSets
  simp only [key]
  cases sorted with
  | false => exact hall.filter _
  | true => exact (hsrt _).1.trans (hall.filter _)

/-- C66: a sorted result is in the order of the site names, an empty text finds everything. -/
theorem C66_sorted_and_empty (cs : List Pw.Call) (m it : SiteMap) (srt : List Entry → List Entry) (text : Text)
    (sorted : Bool) (h : calls [] cs = .ok m) (hit : it.Perm m) (hsrt : SortsBySite srt) :
    ((getSets it srt text true).Pairwise fun a b => ¬ b.site < a.site) ∧
    (getSets it srt [] sorted).Perm (ledger [] cs) := by
  classical
  refine ⟨(hsrt _).2, ?_⟩
  have h1 := C66_search cs m it srt [] sorted h hit hsrt
  rwa [List.filter_eq_self.mpr] at h1
  intro p _
  rw [decide_eq_true_eq]
  exact ⟨[], [], p.site, rfl, trivial⟩

/-- C66: without sorting, the entries of each site come in the order in which they were added. -/
theorem C66_order (cs : List Pw.Call) (m it : SiteMap) (srt : List Entry → List Entry) (site : Text)
    (h : calls [] cs = .ok m) (hit : it.Perm m) :
    (getSets it srt [] false).filter (fun p => p.site = site) = (ledger [] cs).filter fun p => p.site = site := by
  have hm := calls_mirrors mirrors_nil h
  have hn : (it.map (·.1)).Nodup := ((hit.map _).nodup_iff).mpr hm.nodup
  have : getSets it srt [] false = all it := rfl
  rw [this, all_site it hn, at_perm hit hm.nodup, hm.site]

/-- C66: adding is refused exactly when a part does not fit the format, and then changes nothing. -/
theorem C66_add_refused (m : SiteMap) (p : Entry) :
    ((∃ m', addPw m p = .ok m') ↔ Storable p) ∧ (¬ Storable p → addPw m p = .exn .invalidArgument) := by
  refine ⟨⟨fun ⟨m', h⟩ => ?_, fun h => ?_⟩, addPw_refused m p⟩
  · by_cases hp : Storable p
    · exact hp
    · rw [addPw_refused m p hp] at h
      cases h
  · have hv := (isValid_iff p).mpr h
    unfold addPw
    rw [if_neg (by rw [hv]; simp), make_ok h.2.1 h.2.2.1 h.2.2.2]
    exact ⟨_, rfl⟩

def mixedCalls : List Pw.Call :=
  [.load ⟨some 1, some (Bytes.full [1, 65])⟩, .add (shop 1), .add ⟨ascii "bank", [7], [], []⟩, .add (shop 2),
    .add ⟨List.replicate 256 65, [], [], []⟩, .rem (shop 1)]

example : ∃ m, calls [] mixedCalls = .ok m ∧ ledger [] mixedCalls = [shop 1, ⟨ascii "bank", [7], [], []⟩, shop 2] ∧
    getSets m id (ascii "HO") false = [shop 1, shop 2] ∧
    getSets m.reverse id [] false = [⟨ascii "bank", [7], [], []⟩, shop 1, shop 2] ∧
    Matches (ascii "HO") (shop 2) ∧ ¬ Storable ⟨List.replicate 256 65, [], [], []⟩ :=
  ⟨[([65], []), (ascii "Shop", [⟨[1], ascii "a@b", ascii "secret"⟩, ⟨[2], ascii "a@b", ascii "secret"⟩]),
      (ascii "bank", [⟨[7], [], []⟩])],
    by decide +kernel, by decide +kernel, by decide +kernel, by decide +kernel,
    ⟨ascii "S", ascii "ho", ascii "p", by decide +kernel, .inr (.inr (by decide +kernel)), .inr (.inr (by decide +kernel)),
      trivial⟩,
    by decide +kernel⟩

/-- there are such sorting functions -/
example : SortsBySite fun l => l.mergeSort fun a b => decide (¬ b.site < a.site) := by
  intro l
  refine ⟨List.mergeSort_perm _ _, ?_⟩
  have := List.pairwise_mergeSort (le := fun a b : Entry => decide (¬ b.site < a.site))
    (fun a b c h1 h2 => by
      simp only [decide_eq_true_eq, List.not_lt] at *
      exact List.le_trans h1 h2)
    (fun a b => by
      simp only [Bool.or_eq_true, decide_eq_true_eq, List.not_lt]
      exact List.le_total _ _) l
  exact this.imp fun h => by simpa using h

end Verif.Props
