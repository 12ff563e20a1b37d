import Verif.Lemmas.LogCall

/-
Histories of a session and their log.
-/
namespace Verif
namespace Log
open Logged

theorem seen_lines {fl : FileLog} {hs : Hashes} {rest : Api.Helper → Res Api.Helper} {e : Env} {v w : World} (h : WRel v w)
    {c c' : Call} (hc : Spec.blurCall c = Spec.blurCall c') {a b : Ret × World} (ha : Api.call hs rest e v c = .ok a)
    (hb : Api.call hs rest e w c' = .ok b) (g : Seen c a b) :
    (call fl hs rest e v c).lines = (call fl hs rest e w c').lines ∧ WRel a.2 b.2 := by
  have := call_xrel fl hs rest e h hc
  unfold XRel at this
  rw [call_res, call_res, ha, hb] at this
  exact this g

theorem run_lines {fl : FileLog} {hs : Hashes} {rest : Api.Helper → Res Api.Helper} (evs evs' : List Event) {v w : World}
    (h : WRel v w) (he : evs.map Spec.blurEvent = evs'.map Spec.blurEvent) {t : List (Option Ret × FS × Option DataHeader)}
    (hv : Spec.trace hs rest v evs = .ok t) (hw : Spec.trace hs rest w evs' = .ok t)
    (hn : ∀ x ∈ evs.zip t, ∀ c e r, x.1 = .call c e → x.2.1 = some r → ¬ Spec.HeaderRefused c r) :
    (run fl hs rest v evs).lines = (run fl hs rest w evs').lines := by
  induction evs generalizing evs' v w t with
  | nil =>
    cases evs' with
    | nil => rfl
    | cons _ _ => cases he
  | cons ev evs ih =>
    cases evs' with
    | nil => cases he
    | cons ev' evs' =>
      rw [List.map_cons, List.map_cons, List.cons.injEq] at he
      obtain ⟨h1, h2⟩ := he
      unfold Spec.trace at hv hw
      obtain ⟨a, ha, hv⟩ := Res.bind_eq_ok.mp hv
      obtain ⟨b, hb, hw⟩ := Res.bind_eq_ok.mp hw
      obtain ⟨s, hs1, hv⟩ := Res.bind_eq_ok.mp hv
      obtain ⟨s', hs2, hw⟩ := Res.bind_eq_ok.mp hw
      cases hv
      simp only [Res.ok.injEq, List.cons.injEq, Prod.mk.injEq] at hw
      obtain ⟨⟨w1, w2, w3⟩, rfl⟩ := hw
      cases ev with
      | outside p n =>
        cases ev' with
        | call c e => cases h1
        | outside p' n' =>
          cases h1
          cases ha; cases hb
          have hr : WRel { v with fs := v.fs.set p n } { w with fs := w.fs.set p n } := ⟨h.api, h.dh, by rw [h.fs]⟩
          have := ih evs' hr h2 hs1 hs2 fun x hx => hn x (by simp [hx])
          have k : ∀ (z : World) (es : List Event), (run fl hs rest z (.outside p n :: es)).lines =
              (run fl hs rest { z with fs := z.fs.set p n } es).lines := by
            intro z es
            simp only [run]
            show (Logged.bind _ _).lines = _
            unfold Logged.bind
            split
            · exact List.append_nil _
            · rfl
            · rfl
          rw [k, k, this]
      | call c e =>
        cases ev' with
        | outside p' n' => cases h1
        | call c' e' =>
          rw [Spec.blurEvent, Spec.blurEvent, Event.call.injEq] at h1
          obtain ⟨hc, rfl⟩ := h1
          obtain ⟨⟨r, v1⟩, ha2, hx⟩ := Res.bind_eq_ok.mp ha
          cases hx
          obtain ⟨⟨r', v1'⟩, hb2, hx⟩ := Res.bind_eq_ok.mp hb
          cases hx
          simp only [Option.map, Option.some.injEq] at w1
          have hnr : ¬ Spec.HeaderRefused c r := by
            intro hh
            have := hn (.call c e, (some (Spec.blurRet r), v1.fs, v1.api.dh)) (by simp) c e _ rfl rfl
            obtain ⟨h1, rfl⟩ := hh
            exact this ⟨h1, rfl⟩
          obtain ⟨k1, k2⟩ := seen_lines (fl := fl) h hc ha2 hb2 ⟨w1.symm, w2.symm, w3.symm, hnr⟩
          have := ih evs' k2 h2 hs1 hs2 fun x hx => hn x (by simp [hx])
          have k : ∀ (z : World) (c : Call) (r : Ret) (y : World) (es : List Event), Api.call hs rest e z c = .ok (r, y) →
              (run fl hs rest z (.call c e :: es)).lines = (call fl hs rest e z c).lines ++ (run fl hs rest y es).lines := by
            intro z c r y es hz
            rw [← call_res fl] at hz
            simp only [run]
            show (Logged.bind _ _).lines = _
            unfold Logged.bind
            rw [hz]
            dsimp only
            congr 1
            show (Logged.bind _ _).lines = _
            unfold Logged.bind
            split
            · exact List.append_nil _
            · rfl
            · rfl
          rw [k _ _ _ _ _ ha2, k _ _ _ _ _ hb2, k1, this]

end Log
end Verif
