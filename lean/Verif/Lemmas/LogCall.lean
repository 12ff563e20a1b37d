import Verif.Lemmas.LogRel
import Verif.Lemmas.HeaderObj
import Verif.Spec.Log

/-
The lines of two calls that differ in secrets only.
-/
namespace Verif

/-- the same lines, and the same way to end -/
structure LRel {α β : Type} (R : α → β → Prop) (x : Logged α) (y : Logged β) : Prop where
  lines : x.lines = y.lines
  res : RRel R x.res y.res

namespace LRel
variable {α β γ δ : Type} {R : α → β → Prop} {S : γ → δ → Prop}

theorem bind {x : Logged α} {y : Logged β} {f : α → Logged γ} {g : β → Logged δ} (h : LRel R x y)
    (hf : ∀ a b, R a b → LRel S (f a) (g b)) : LRel S (x >>= f) (y >>= g) := by
  obtain ⟨xl, xr⟩ := x
  obtain ⟨yl, yr⟩ := y
  obtain ⟨hl, hr⟩ := h
  cases xr <;> cases yr <;> first
    | exact hr.elim
    | exact ⟨hl, hr⟩
    | skip
  have := hf _ _ hr
  refine ⟨?_, this.res⟩
  show xl ++ _ = yl ++ _
  rw [show xl = yl from hl, this.lines]

theorem quiet {x : Res α} {y : Res β} (h : RRel R x y) : LRel R (Log.quiet x) (Log.quiet y) := ⟨rfl, h⟩

theorem refl {x : Logged α} : LRel (fun a b => a = b) x x := ⟨rfl, RRel.refl⟩

theorem pure {a : α} {b : β} (h : R a b) : LRel R (Pure.pure a) (Pure.pure b) := ⟨rfl, h⟩

theorem noexcept {x : Logged α} {y : Logged β} (h : LRel R x y) : LRel R x.noexcept y.noexcept := ⟨h.lines, h.res.noexcept⟩

theorem mono {x : Logged α} {y : Logged β} {R' : α → β → Prop} (h : LRel R x y) (hr : ∀ a b, R a b → R' a b) : LRel R' x y :=
  ⟨h.lines, h.res.mono hr⟩

theorem ite {p q : Prop} [Decidable p] [Decidable q] {x x' : Logged α} {y y' : Logged β} (hp : p ↔ q) (h : LRel R x y)
    (h' : LRel R x' y') : LRel R (if p then x else x') (if q then y else y') := by
  by_cases hq : q
  · rw [if_pos hq, if_pos (hp.2 hq)]; exact h
  · rw [if_neg hq, if_neg (fun a => hq (hp.1 a))]; exact h'

theorem attempt {x : Logged α} {y : Logged β} (h : LRel R x y) (l : Exn → Line) : LRel (ORel R) (x.attempt l) (y.attempt l) := by
  obtain ⟨xl, xr⟩ := x
  obtain ⟨yl, yr⟩ := y
  obtain ⟨hl, hr⟩ := h
  cases (show xl = yl from hl)
  cases xr <;> cases yr <;> first
    | exact hr.elim
    | skip
  · exact ⟨rfl, hr⟩
  · rename_i a b
    cases (show a = b from hr)
    cases a <;> exact ⟨rfl, by first | exact True.intro | rfl⟩
  · exact ⟨rfl, hr⟩

end LRel

/-- when both return and `G` holds of what they return, the lines are the same and `P` holds -/
def XRel {α β : Type} (G P : α → β → Prop) (x : Logged α) (y : Logged β) : Prop :=
  match x.res, y.res with
  | .ok a, .ok b => G a b → x.lines = y.lines ∧ P a b
  | .exn a, .exn b => x.lines = y.lines ∧ a = b
  | _, _ => True

namespace XRel
variable {α β γ δ : Type} {G P : α → β → Prop} {G' P' : γ → δ → Prop}

theorem of_l {x : Logged α} {y : Logged β} (h : LRel P x y) : XRel G P x y := by
  obtain ⟨xl, xr⟩ := x
  obtain ⟨yl, yr⟩ := y
  obtain ⟨hl, hr⟩ := h
  cases xr <;> cases yr <;> first
    | exact hr.elim
    | trivial
    | exact fun _ => ⟨hl, hr⟩
    | exact ⟨hl, hr⟩

theorem of_eq {x : Logged α} {G : α → α → Prop} {P : α → α → Prop} (h : ∀ a, G a a → P a a) :
    XRel G P x x := by
  obtain ⟨xl, xr⟩ := x
  cases xr
  · exact fun g => ⟨rfl, h _ g⟩
  · exact ⟨rfl, rfl⟩
  · trivial

theorem bind {R : γ → δ → Prop} {x : Logged γ} {y : Logged δ} {f : γ → Logged α} {g : δ → Logged β} (h : LRel R x y)
    (hf : ∀ a b, R a b → XRel G P (f a) (g b)) : XRel G P (x >>= f) (y >>= g) := by
  obtain ⟨xl, xr⟩ := x
  obtain ⟨yl, yr⟩ := y
  obtain ⟨hl, hr⟩ := h
  cases (show xl = yl from hl)
  cases xr <;> cases yr <;> first
    | exact hr.elim
    | trivial
    | exact ⟨hl, hr⟩
    | skip
  rename_i a b
  have := hf a b hr
  have e1 : ((⟨xl, .ok a⟩ : Logged γ) >>= f) = ⟨xl ++ (f a).lines, (f a).res⟩ := rfl
  have e2 : ((⟨xl, .ok b⟩ : Logged δ) >>= g) = ⟨xl ++ (g b).lines, (g b).res⟩ := rfl
  rw [e1, e2]
  generalize f a = u at *
  generalize g b = v at *
  obtain ⟨ul, ur⟩ := u
  obtain ⟨vl, vr⟩ := v
  cases ur <;> cases vr <;> first
    | trivial
    | exact fun g => ⟨by show xl ++ ul = xl ++ vl; rw [show ul = vl from (this g).1], (this g).2⟩
    | exact ⟨by show xl ++ ul = xl ++ vl; rw [show ul = vl from this.1], this.2⟩

theorem ite {p q : Prop} [Decidable p] [Decidable q] {x x' : Logged α} {y y' : Logged β} (hp : p ↔ q) (h : XRel G P x y)
    (h' : XRel G P x' y') : XRel G P (if p then x else x') (if q then y else y') := by
  by_cases hq : q
  · rw [if_pos hq, if_pos (hp.2 hq)]; exact h
  · rw [if_neg hq, if_neg (fun a => hq (hp.1 a))]; exact h'

theorem bad {x : Logged α} {y : Logged β} {a : α} {b : β} (hx : x.res = .ok a) (hy : y.res = .ok b) (h : ¬ G a b) : XRel G P x y := by
  unfold XRel
  rw [hx, hy]
  exact fun g => (h g).elim

theorem noexcept {x : Logged α} {y : Logged β} (h : XRel G P x y) : XRel G P x.noexcept y.noexcept := by
  obtain ⟨xl, xr⟩ := x
  obtain ⟨yl, yr⟩ := y
  cases xr <;> cases yr <;> first
    | trivial
    | exact h

theorem attempt {x : Logged α} {y : Logged β} (h : XRel G P x y) (l : Exn → Line) :
    XRel (ORel G) (ORel P) (x.attempt l) (y.attempt l) := by
  obtain ⟨xl, xr⟩ := x
  obtain ⟨yl, yr⟩ := y
  cases xr <;> cases yr <;> try trivial
  · intro g
    obtain ⟨h1, h2⟩ := h g
    exact ⟨by show xl ++ [] = yl ++ []; rw [show xl = yl from h1], h2⟩
  · rename_i a b
    cases b <;> first | trivial | exact fun g => g.elim
  · rename_i a b
    cases a <;> first | trivial | exact fun g => g.elim
  · rename_i a b
    obtain ⟨h1, h2⟩ := h
    cases h2
    cases (show xl = yl from h1)
    cases a <;> first | exact ⟨rfl, rfl⟩ | exact fun _ => ⟨rfl, True.intro⟩
  · rename_i a b
    cases a <;> trivial

/-- a `try` block with the same default value afterwards -/
theorem rescue {x : Logged α} {y : Logged β} (k : RRel (fun _ _ => True) x.res y.res) (h : XRel G P x y) (l : Exn → Line) {d : α} {d' : β}
    (hd : P d d') {f : Option α → Logged α} {g : Option β → Logged β} (f1 : ∀ a, f (some a) = pure a) (f2 : f none = pure d)
    (g1 : ∀ b, g (some b) = pure b) (g2 : g none = pure d') : XRel G P (x.attempt l >>= f) (y.attempt l >>= g) := by
  have ef : f = fun o => match o with | some r => pure r | none => pure d := by funext o; cases o <;> simp [f1, f2]
  have eg : g = fun o => match o with | some r => pure r | none => pure d' := by funext o; cases o <;> simp [g1, g2]
  rw [ef, eg]
  obtain ⟨xl, xr⟩ := x
  obtain ⟨yl, yr⟩ := y
  cases xr <;> cases yr <;> try exact k.elim
  · intro g
    obtain ⟨h1, h2⟩ := h g
    exact ⟨by show (xl ++ []) ++ [] = (yl ++ []) ++ []; rw [show xl = yl from h1], h2⟩
  · rename_i a b
    obtain ⟨h1, h2⟩ := h
    cases h2
    cases (show xl = yl from h1)
    cases a <;> first | exact ⟨rfl, rfl⟩ | exact fun _ => ⟨rfl, hd⟩
  · trivial

/-- continuing a run of which only `XRel` is known -/
theorem chain {x : Logged γ} {y : Logged δ} {f : γ → Logged α} {g : δ → Logged β} (h : XRel G' P' x y)
    (hx : ∀ a z, (f a).res ≠ .exn z) (hy : ∀ b z, (g b).res ≠ .exn z)
    (hg : ∀ a b c d, (f a).res = .ok c → (g b).res = .ok d → G c d → G' a b)
    (hf : ∀ a b, G' a b → P' a b → XRel G P (f a) (g b)) : XRel G P (x >>= f) (y >>= g) := by
  obtain ⟨xl, xr⟩ := x
  obtain ⟨yl, yr⟩ := y
  have ok1 : ∀ a, xr = .ok a → ((⟨xl, xr⟩ : Logged γ) >>= f) = ⟨xl ++ (f a).lines, (f a).res⟩ := fun a e => by rw [e]; rfl
  have ok2 : ∀ b, yr = .ok b → ((⟨yl, yr⟩ : Logged δ) >>= g) = ⟨yl ++ (g b).lines, (g b).res⟩ := fun b e => by rw [e]; rfl
  cases xr with
  | fatal z => trivial
  | exn z =>
    cases yr with
    | exn z' => exact h
    | fatal z' => trivial
    | ok b =>
      rw [ok2 b rfl]
      have := hy b
      revert this
      generalize g b = v
      obtain ⟨vl, vr⟩ := v
      intro this
      cases vr <;> first | trivial | exact (this _ rfl).elim
  | ok a =>
    rw [ok1 a rfl]
    cases yr with
    | fatal z => 
      generalize f a = v
      obtain ⟨vl, vr⟩ := v
      cases vr <;> trivial
    | exn z =>
      have := hx a
      revert this
      generalize f a = v
      obtain ⟨vl, vr⟩ := v
      intro this
      cases vr <;> first | trivial | exact (this _ rfl).elim
    | ok b =>
      rw [ok2 b rfl]
      have h1 := hg a b
      have h2 := hf a b
      have h3 := hx a
      revert h1 h2 h3
      generalize f a = u
      generalize g b = v
      obtain ⟨ul, ur⟩ := u
      obtain ⟨vl, vr⟩ := v
      intro h1 h2 h3
      cases ur <;> cases vr <;> first
        | trivial
        | exact (h3 _ rfl).elim
        | skip
      intro k
      have k1 := h1 _ _ rfl rfl k
      have k2 := h k1
      have k3 := h2 k1 k2.2 k
      exact ⟨by show xl ++ ul = yl ++ vl; rw [show xl = yl from k2.1, show ul = vl from k3.1], k3.2⟩

end XRel
/-! ### Sessions -/

structure FDRel (a b : FileDataStruct) : Prop where
  mode : a.fileMode = b.fileMode
  data : ORel BLen a.decData b.decData

/-- sessions that differ in secrets only, apart from the header object -/
structure SRel (s t : Session) : Prop where
  state : s.state = t.state
  mode : s.fileMode = t.fileMode
  fileData : ORel FDRel s.fileData t.fileData
  pwHash : BLen s.pwHash t.pwHash
  encrypted : ORel BLen s.encrypted t.encrypted
  selected : s.selected = t.selected

structure WRel (v w : World) : Prop where
  api : SRel v.api w.api
  dh : v.api.dh = w.api.dh
  fs : v.fs = w.fs

theorem zeros_eq {a b : Bytes} : Spec.zeros a = Spec.zeros b ↔ BLen a b := by
  obtain ⟨a, n⟩ := a
  obtain ⟨b, k⟩ := b
  constructor
  · intro h
    have h1 := congrArg (fun x : Bytes => x.data.length) h
    have h2 := congrArg Bytes.cap h
    simp [Spec.zeros] at h1
    exact ⟨h1, h2⟩
  · rintro ⟨h1, h2⟩
    simp only at h1 h2
    simp [Spec.zeros, h1, h2]

theorem map_eq {α β : Type} {f : α → β} {R : α → α → Prop} (h : ∀ a b, f a = f b ↔ R a b) {x y : Option α} :
    x.map f = y.map f ↔ ORel R x y := by
  cases x <;> cases y <;> simp [ORel, h]

theorem blurData_eq {a b : FileDataStruct} : Spec.blurData a = Spec.blurData b ↔ FDRel a b := by
  obtain ⟨m, x⟩ := a
  obtain ⟨n, y⟩ := b
  simp only [Spec.blurData, FileDataStruct.mk.injEq, map_eq (fun a b => zeros_eq)]
  exact ⟨fun h => ⟨h.1, h.2⟩, fun h => ⟨h.1, h.2⟩⟩

theorem blurWorld_eq {v w : World} : Spec.blurWorld v = Spec.blurWorld w ↔ WRel v w := by
  obtain ⟨⟨a1, a2, a3, a4, a5, a6, a7⟩, a8⟩ := v
  obtain ⟨⟨b1, b2, b3, b4, b5, b6, b7⟩, b8⟩ := w
  simp only [Spec.blurWorld, World.mk.injEq, Session.mk.injEq, map_eq (fun a b => zeros_eq), map_eq (fun a b => blurData_eq),
    zeros_eq]
  constructor
  · rintro ⟨⟨h1, h2, h3, h4, h5, h6, h7⟩, h8⟩
    exact ⟨⟨h1, h2, h3, h4, h5, h7⟩, h6, h8⟩
  · rintro ⟨⟨h1, h2, h3, h4, h5, h7⟩, h6, h8⟩
    exact ⟨⟨h1, h2, h3, h4, h5, h6, h7⟩, h8⟩

namespace Log
open Logged

theorem performLine_eq (ch : ChainHash) (timeout : Nat) : LRel (fun a b => a = b) (performLine ch timeout) (performLine ch timeout) :=
  LRel.refl

theorem timeoutLine_eq {x y : Out Bytes} (h : OutRel BLen x y) (t : Nat) (r : Option Nat) : timeoutLine t r x = timeoutLine t r y := by
  cases x <;> cases y <;> first
    | exact h.elim
    | rfl

theorem performStr_lrel (ch : ChainHash) (H : HashFn) (pw pw' : List Byte) (timeout : Nat) (clk : Nat → Nat) :
    LRel (OutRel BLen) (performStr ch H pw timeout clk) (performStr ch H pw' timeout clk) := by
  unfold performStr
  refine LRel.refl.bind fun n _ e => ?_
  subst e
  refine (LRel.quiet (performStr_rel ch H pw pw' timeout clk)).bind fun a b h => ?_
  rw [timeoutLine_eq h]
  exact LRel.refl.bind fun _ _ _ => LRel.pure h

theorem performBytes_lrel (ch : ChainHash) (H : HashFn) {x y : Bytes} (h : BLen x y) (timeout : Nat) (clk : Nat → Nat) :
    LRel (OutRel BLen) (performBytes ch H x timeout clk) (performBytes ch H y timeout clk) := by
  unfold performBytes
  refine LRel.refl.bind fun n _ e => ?_
  subst e
  refine (LRel.quiet (performBytes_rel ch H h timeout clk)).bind fun a b h => ?_
  rw [timeoutLine_eq h]
  exact LRel.refl.bind fun _ _ _ => LRel.pure h

/-! #### Creating a header -/

/-- the same header, or the same error, other than the one that says nothing -/
def SameHeader (a b : Api.Helper) : Prop := a.err = b.err ∧ a.err ≠ .fail .ERR

theorem addBlocks_validator (bs : List DataBlock) : ∀ {d d' : DataHeader}, DataHeader.addBlocks bs d = .ok d' →
    d'.dh.validator = d.dh.validator := by
  induction bs with
  | nil => intro d d' h; cases h; rfl
  | cons b bs ih =>
    intro d d' h
    rw [DataHeader.addBlocks] at h
    obtain ⟨d1, h1, h2⟩ := Res.bind_eq_ok.mp h
    rw [ih h2]
    unfold DataHeader.addDataBlock at h1
    split at h1
    · cases h1
    · cases h1; rfl

theorem addEncBlocks_validator (bs : List EncDataBlock) : ∀ {d d' : DataHeader}, DataHeader.addEncBlocks bs d = .ok d' →
    d'.dh.validator = d.dh.validator := by
  induction bs with
  | nil => intro d d' h; cases h; rfl
  | cons b bs ih =>
    intro d d' h
    rw [DataHeader.addEncBlocks] at h
    obtain ⟨d1, h1, h2⟩ := Res.bind_eq_ok.mp h
    rw [ih h2]
    unfold DataHeader.addEncDataBlock at h1
    split at h1
    · cases h1
    · cases h1; rfl

theorem setHeaderParts_validator {p : DataHeaderParts} {r : Rand} {d : DataHeader}
    (h : DataHeader.setHeaderParts p r = .ok (.success d)) : d.dh.validator = p.validator := by
  obtain ⟨hm, fm, v, s, d0, d1, d2, d3, d4, d5, d6, -, -, hv, -, -, -, -, -, e4, e5, e6, e7⟩ := setHeaderParts_success h
  rw [addEncBlocks_validator _ e7, addBlocks_validator _ e6, hv]
  have h5 : d5.dh.validator = d4.dh.validator := by
    obtain ⟨p5, hp, hx⟩ := Res.bind_eq_ok.mp e5
    cases hx
    obtain ⟨n, -, hx⟩ := Res.bind_eq_ok.mp hp
    split at hx
    · cases hx; rfl
    · cases hx
  have h4 : d4.dh.validator = some v := by
    obtain ⟨p5, hp, hx⟩ := Res.bind_eq_ok.mp e4
    cases hx
    unfold DataHeaderParts.setValidPasswordHash at hp
    obtain ⟨n, -, hx⟩ := Res.bind_eq_ok.mp hp
    split at hx
    · cases hx; rfl
    · cases hx
  rw [h5, h4]

theorem setHeaderParts_answers {p : DataHeaderParts} {r : Rand} {o : Out DataHeader}
    (h : DataHeader.setHeaderParts p r = .ok o) : o = .fail .ERR ∨ ∃ d, o = .success d := by
  unfold DataHeader.setHeaderParts at h
  generalize hx : (do
    let d ← DataHeader.new (← DataHeaderParts.get p.hashMode).toByte r
    let d ← d.setFileDataMode (← DataHeaderParts.get p.fileMode)
    let d ← d.setChainHash1 p.ch1
    let d ← d.setChainHash2 p.ch2
    let d ← d.setValidPasswordHashBytes (← DataHeaderParts.get p.validator)
    let d ← d.setEncSalt (← DataHeaderParts.get p.encSalt)
    let d ← DataHeader.addBlocks p.dec d
    let d ← DataHeader.addEncBlocks p.enc d
    .ok (.success d) : Res (Out DataHeader)) = x at h
  cases x with
  | fatal f => simp at h
  | exn e => cases e <;> simp [Res.catchStd] at h <;> exact .inl h.symm
  | ok o =>
    simp only [Res.catchStd_ok, Res.noexcept_ok, Res.ok.injEq] at h
    subst h
    obtain ⟨hm, -, hx⟩ := Res.bind_eq_ok.mp hx
    obtain ⟨d0, -, hx⟩ := Res.bind_eq_ok.mp hx
    obtain ⟨fm, -, hx⟩ := Res.bind_eq_ok.mp hx
    obtain ⟨d1, -, hx⟩ := Res.bind_eq_ok.mp hx
    obtain ⟨d2, -, hx⟩ := Res.bind_eq_ok.mp hx
    obtain ⟨d3, -, hx⟩ := Res.bind_eq_ok.mp hx
    obtain ⟨v, -, hx⟩ := Res.bind_eq_ok.mp hx
    obtain ⟨d4, -, hx⟩ := Res.bind_eq_ok.mp hx
    obtain ⟨s, -, hx⟩ := Res.bind_eq_ok.mp hx
    obtain ⟨d5, -, hx⟩ := Res.bind_eq_ok.mp hx
    obtain ⟨d6, -, hx⟩ := Res.bind_eq_ok.mp hx
    obtain ⟨d7, -, hx⟩ := Res.bind_eq_ok.mp hx
    cases hx
    exact .inr ⟨_, rfl⟩

theorem setEncSalt_validator {p p' : DataHeaderParts} {b : Bytes} (h : p.setEncSalt b = .ok p') : p'.validator = p.validator := by
  obtain ⟨n, -, hx⟩ := Res.bind_eq_ok.mp h
  split at hx
  · cases hx; rfl
  · cases hx

theorem setValidator {p p' : DataHeaderParts} {b : Bytes} (h : p.setValidPasswordHash b = .ok p') : p'.validator = some b := by
  unfold DataHeaderParts.setValidPasswordHash at h
  obtain ⟨n, -, hx⟩ := Res.bind_eq_ok.mp h
  split at hx
  · cases hx; rfl
  · cases hx

theorem setHeaderParts_nothrow (p : DataHeaderParts) (r : Rand) (z : Exn) : (setHeaderParts p r).res ≠ .exn z := by
  rw [setHeaderParts_res]
  unfold DataHeader.setHeaderParts
  exact fun h => by
    revert h
    generalize Res.catchStd _ _ = x
    cases x <;> simp

theorem setValidator_rel {p : DataHeaderParts} {v v' : Bytes} (h : BLen v v') :
    RRel (fun a b => a = { p with validator := some v } ∧ b = { p with validator := some v' }) (p.setValidPasswordHash v) (p.setValidPasswordHash v') := by
  unfold DataHeaderParts.setValidPasswordHash
  refine RRel.refl.bind fun n _ e => ?_
  subst e
  rw [h.len']
  exact RRel.ite Iff.rfl ⟨rfl, rfl⟩ rfl

theorem setEncSalt_rel {p : DataHeaderParts} {v v' : Bytes} (s : Bytes) :
    RRel (fun a b => a = { p with validator := some v, encSalt := some s } ∧ b = { p with validator := some v', encSalt := some s })
      (DataHeaderParts.setEncSalt { p with validator := some v } s) (DataHeaderParts.setEncSalt { p with validator := some v' } s) := by
  unfold DataHeaderParts.setEncSalt
  refine RRel.bind (RRel.refl (x := p.getHashSize)) fun n _ e => ?_
  subst e
  exact RRel.ite Iff.rfl ⟨rfl, rfl⟩ rfl

theorem lastSteps_xrel (hs : Hashes) (e : Env) (p : DataHeaderParts) (m : HMode) {h1 h1' v v' : Bytes} (h : BLen h1 h1') (hv : BLen v v') :
    XRel SameHeader (fun a b => BLen a.pwHash b.pwHash) (lastSteps hs e p m h1 v) (lastSteps hs e p m h1' v') := by
  unfold lastSteps
  refine XRel.bind (LRel.quiet (setValidator_rel hv)) fun p1 p1' hp1 => ?_
  obtain ⟨rfl, rfl⟩ := hp1
  refine XRel.bind LRel.refl fun s _ e => ?_
  subst e
  refine XRel.bind (LRel.quiet (setEncSalt_rel s)) fun p2 p2' hp2 => ?_
  obtain ⟨rfl, rfl⟩ := hp2
  by_cases hvv : v = v'
  · subst hvv
    refine XRel.bind LRel.refl fun o _ e => ?_
    subst e
    exact XRel.of_l (LRel.pure h)
  · refine XRel.chain (G' := fun a b => a = b ∧ a ≠ .fail .ERR) (P' := fun _ _ => True) ?_ (fun _ _ h => nomatch h)
      (fun _ _ h => nomatch h) ?_ ?_
    · have n1 := setHeaderParts_nothrow { p with validator := some v, encSalt := some s } (e.rand 3)
      have a1 := @setHeaderParts_answers { p with validator := some v, encSalt := some s } (e.rand 3)
      have d1 := @setHeaderParts_validator { p with validator := some v, encSalt := some s } (e.rand 3)
      have d2 := @setHeaderParts_validator { p with validator := some v', encSalt := some s } (e.rand 3)
      rw [← setHeaderParts_res] at a1 d1 d2
      revert n1 a1 d1 d2
      generalize setHeaderParts { p with validator := some v, encSalt := some s } (e.rand 3) = x
      generalize setHeaderParts { p with validator := some v', encSalt := some s } (e.rand 3) = y
      obtain ⟨xl, xr⟩ := x
      obtain ⟨yl, yr⟩ := y
      intro n1 a1 d1 d2
      cases xr <;> cases yr <;> first
        | trivial
        | exact (n1 _ rfl).elim
        | skip
      rintro ⟨g1, g2⟩
      cases g1
      rcases a1 rfl with a1 | ⟨d, rfl⟩
      · exact (g2 a1).elim
      · have := (d1 rfl).symm.trans (d2 rfl)
        exact (hvv (by injection this)).elim
    · rintro a b _ _ ⟨⟩ ⟨⟩ ⟨h1, h2⟩
      exact ⟨h1, h2⟩
    · exact fun a b _ _ => XRel.of_l ⟨rfl, h⟩

theorem makeHeader_xrel (hs : Hashes) (pw pw' : List Byte) (ds : SettingsIters) (timeout : Nat) (e : Env) (c1 c2 : ChainHash) :
    XRel SameHeader (fun a b => BLen a.pwHash b.pwHash) (makeHeader hs pw ds timeout e c1 c2) (makeHeader hs pw' ds timeout e c1 c2) := by
  unfold makeHeader
  refine XRel.bind LRel.refl fun f _ e => ?_
  subst e
  refine XRel.bind LRel.refl fun p _ e => ?_
  subst e
  refine XRel.bind LRel.refl fun hm _ e => ?_
  subst e
  refine XRel.bind LRel.refl fun p _ e => ?_
  subst e
  refine XRel.bind LRel.refl fun m _ e => ?_
  subst e
  refine XRel.bind LRel.refl fun _ _ _ => XRel.bind LRel.refl fun _ _ _ => ?_
  refine XRel.bind (performStr_lrel _ _ pw pw' _ _) fun o o' ho => ?_
  cases o <;> cases o' <;> first | exact ho.elim | skip
  · refine XRel.ite Iff.rfl (XRel.of_eq fun a _ => BLen.refl _) ?_
    refine XRel.bind (performBytes_lrel _ _ ho _ _) fun o o' ho' => ?_
    cases o <;> cases o' <;> first | exact ho'.elim | skip
    · exact lastSteps_xrel hs e p m ho ho'
    · cases (show _ = _ from ho')
      exact XRel.of_eq fun a _ => BLen.refl _
    · exact XRel.of_eq fun a _ => BLen.refl _
  · cases (show _ = _ from ho)
    exact XRel.of_eq fun a _ => BLen.refl _
  · exact XRel.of_eq fun a _ => BLen.refl _

theorem createDataHeaderIters_xrel (hs : Hashes) (mode : Byte) (pw pw' : List Byte) (ds : SettingsIters) (timeout : Nat) (e : Env) :
    XRel SameHeader (fun a b => BLen a.pwHash b.pwHash) (createDataHeaderIters hs mode pw ds timeout e)
      (createDataHeaderIters hs mode pw' ds timeout e) := by
  unfold createDataHeaderIters
  refine XRel.noexcept (XRel.bind LRel.refl fun b _ e => ?_)
  subst e
  refine XRel.ite Iff.rfl (XRel.of_eq fun a _ => BLen.refl _) ?_
  refine XRel.bind LRel.refl fun _ _ _ => XRel.bind LRel.refl fun f _ e => ?_
  subst e
  refine XRel.ite Iff.rfl (XRel.of_eq fun a _ => BLen.refl _) ?_
  refine XRel.bind LRel.refl fun o _ e => ?_
  subst e
  cases o with
  | none => exact XRel.of_eq fun a _ => BLen.refl _
  | some c => exact makeHeader_xrel hs pw pw' ds timeout e c.1 c.2

/-- the same answer and the same header object, the answer not being the error that says nothing -/
def HG (a b : Out Bool × Session) : Prop := a.1 = b.1 ∧ a.2.dh = b.2.dh ∧ a.1 ≠ .fail .ERR

/-- related sessions with the same header object -/
def SD (s t : Session) : Prop := SRel s t ∧ s.dh = t.dh

theorem headerForOpen_ok {s t : Session} (hst : SD s t) {h h' : Api.Helper} (he : h.err = h'.err) (hp : BLen h.pwHash h'.pwHash) :
    RRel (fun a b => a.1 = b.1 ∧ SD a.2 b.2) (Api.headerForOpen s h) (Api.headerForOpen t h') := by
  unfold Api.headerForOpen
  rw [← he]
  cases h.err with
  | success d => exact ⟨rfl, ⟨hst.1.state, hst.1.mode, hst.1.fileData, hp, hst.1.encrypted, hst.1.selected⟩, rfl⟩
  | fail c => exact ⟨rfl, hst⟩
  | timeout => exact ⟨rfl, hst⟩

theorem headerForEmpty_ok {s t : Session} (hst : SD s t) {h h' : Api.Helper} (he : h.err = h'.err) (hp : BLen h.pwHash h'.pwHash) :
    RRel (fun a b => a.1 = b.1 ∧ SD a.2 b.2) (Api.headerForEmpty s h) (Api.headerForEmpty t h') := by
  unfold Api.headerForEmpty
  rw [← he, hst.1.mode]
  refine RRel.noexcept ?_
  cases h.err with
  | success d =>
    refine RRel.refl.bind fun fd _ e => ?_
    subst e
    refine ⟨rfl, ⟨rfl, rfl, ⟨rfl, ?_⟩, hp, hst.1.encrypted, hst.1.selected⟩, rfl⟩
    cases fd.decData <;> first | trivial | exact BLen.refl _
  | fail c => exact ⟨rfl, hst⟩
  | timeout => exact ⟨rfl, hst⟩

theorem noexcept_ne {α : Type} (x : Res α) (z : Exn) : x.noexcept ≠ .exn z := by
  cases x <;> simp

theorem headerForOpen_nothrow (s : Session) (h : Api.Helper) (z : Exn) : Api.headerForOpen s h ≠ .exn z := by
  unfold Api.headerForOpen
  cases h.err <;> simp

/-- what `createDataHeader` answers and keeps, for the outcome of the helper -/
def Answers (h : Api.Helper) (c : Out Bool × Session) : Prop :=
  (∃ d, h.err = .success d ∧ c.1 = .success true ∧ c.2.dh = some d) ∨ (∃ k, h.err = .fail k ∧ c.1 = .fail k) ∨
    (h.err = .timeout ∧ c.1 = .timeout)

theorem Answers.same {h h' : Api.Helper} {c c' : Out Bool × Session} (a : Answers h c) (a' : Answers h' c') (g : HG c c') :
    SameHeader h h' := by
  obtain ⟨g1, g2, g3⟩ := g
  rcases a with ⟨d, e1, e2, e3⟩ | ⟨k, e1, e2⟩ | ⟨e1, e2⟩ <;> rcases a' with ⟨d', e1', e2', e3'⟩ | ⟨k', e1', e2'⟩ | ⟨e1', e2'⟩ <;>
    rw [e2, e2'] at g1 <;> cases g1
  · rw [e3, e3'] at g2
    cases g2
    exact ⟨by rw [e1, e1'], by rw [e1]; exact fun h => nomatch h⟩
  · refine ⟨by rw [e1, e1'], ?_⟩
    rw [e1]
    rw [e2] at g3
    intro h
    cases h
    exact g3 rfl
  · exact ⟨by rw [e1, e1'], by rw [e1]; exact fun h => nomatch h⟩

theorem headerForOpen_answers {s : Session} {h : Api.Helper} {c : Out Bool × Session} (hc : Api.headerForOpen s h = .ok c) :
    Answers h c := by
  unfold Api.headerForOpen at hc
  unfold Answers
  revert hc
  cases h.err <;> intro hc <;> cases hc
  · exact .inl ⟨_, rfl, rfl, rfl⟩
  · exact .inr (.inl ⟨_, rfl, rfl⟩)
  · exact .inr (.inr ⟨rfl, rfl⟩)

theorem headerForEmpty_answers {s : Session} {h : Api.Helper} {c : Out Bool × Session} (hc : Api.headerForEmpty s h = .ok c) :
    Answers h c := by
  unfold Api.headerForEmpty at hc
  unfold Answers
  revert hc
  cases h.err <;> intro hc
  · cases hm : FileDataStruct.make s.fileMode (some (Bytes.empty 0)) <;> simp only [hm] at hc <;> cases hc
    exact .inl ⟨_, rfl, rfl, rfl⟩
  · cases hc
    exact .inr (.inl ⟨_, rfl, rfl⟩)
  · cases hc
    exact .inr (.inr ⟨rfl, rfl⟩)

theorem headerLine_eq {h h' : Api.Helper} (he : h.err = h'.err) : headerLine h = headerLine h' := by
  unfold headerLine
  rw [he]

theorem createForOpen_xrel (hs : Hashes) {s t : Session} (hst : SD s t) (pw pw' : List Byte) (ds : SettingsIters) (timeout : Nat) (e : Env) :
    XRel HG (fun a b => SD a.2 b.2) (createForOpen hs s pw ds timeout e) (createForOpen hs t pw' ds timeout e) := by
  unfold createForOpen
  rw [hst.1.mode]
  refine XRel.bind LRel.refl fun _ _ _ => ?_
  refine XRel.chain (createDataHeaderIters_xrel hs _ pw pw' ds timeout e) ?_ ?_ ?_ ?_
  · intro a z
    simp only [bind_res, emit_res, ok_bind, quiet_res]
    exact headerForOpen_nothrow _ _ _
  · intro a z
    simp only [bind_res, emit_res, ok_bind, quiet_res]
    exact headerForOpen_nothrow _ _ _
  · intro a b c d hc hd
    simp only [bind_res, emit_res, ok_bind, quiet_res] at hc hd
    exact (headerForOpen_answers hc).same (headerForOpen_answers hd)
  · intro a b hab hp
    rw [headerLine_eq hab.1]
    refine XRel.bind LRel.refl fun _ _ _ => ?_
    exact XRel.of_l (LRel.quiet ((headerForOpen_ok hst hab.1 hp).mono fun _ _ h => h.2))

theorem createForEmpty_xrel (hs : Hashes) {s t : Session} (hst : SD s t) (pw pw' : List Byte) (ds : SettingsIters) (timeout : Nat) (e : Env) :
    XRel HG (fun a b => SD a.2 b.2) (createForEmpty hs s pw ds timeout e) (createForEmpty hs t pw' ds timeout e) := by
  unfold createForEmpty
  rw [hst.1.mode]
  have tail : ∀ (s : Session) (h : Api.Helper) (ls : List Line), (do
      emit (headerLine h)
      let r ← quiet (Api.headerForEmpty s h)
      emit ls
      pure r : Logged (Out Bool × Session)).res = Api.headerForEmpty s h := fun s h ls => by
    simp only [bind_res, emit_res, ok_bind, quiet_res, pure_res, bind_ok]
  refine XRel.chain (createDataHeaderIters_xrel hs _ pw pw' ds timeout e) ?_ ?_ ?_ ?_
  · intro a z
    rw [tail]
    exact noexcept_ne _ _
  · intro a z
    rw [tail]
    exact noexcept_ne _ _
  · intro a b c d hc hd
    rw [tail] at hc hd
    exact (headerForEmpty_answers hc).same (headerForEmpty_answers hd)
  · intro a b hab hp
    rw [headerLine_eq hab.1]
    refine XRel.bind LRel.refl fun _ _ _ => ?_
    refine XRel.bind (LRel.quiet (headerForEmpty_ok hst hab.1 hp)) fun r r' hr => ?_
    rw [hab.1]
    exact XRel.bind LRel.refl fun _ _ _ => XRel.of_l (LRel.pure hr.2)

/-! #### Checking a password -/

theorem verifyTry_xrel (hs : Hashes) (e : Env) {s t : Session} (hst : SD s t) (pw pw' : List Byte) (timeout : Nat) :
    XRel (fun a b => a.1 = b.1) (fun a b => SD a.2 b.2) (verifyTry hs e s pw timeout) (verifyTry hs e t pw' timeout) := by
  unfold verifyTry
  rw [hst.2]
  refine XRel.bind LRel.refl fun d _ e => ?_
  subst e
  refine XRel.bind LRel.refl fun p _ e => ?_
  subst e
  refine XRel.bind LRel.refl fun m _ e => ?_
  subst e
  refine XRel.bind LRel.refl fun _ _ _ => ?_
  refine XRel.bind (performStr_lrel _ _ pw pw' _ _) fun o o' ho => ?_
  cases o <;> cases o' <;> first | exact ho.elim | skip
  · refine XRel.ite Iff.rfl (XRel.bind LRel.refl fun _ _ _ => XRel.of_l (LRel.pure hst)) ?_
    refine XRel.bind (performBytes_lrel _ _ ho _ _) fun o o' ho' => ?_
    cases o <;> cases o' <;> first | exact ho'.elim | skip
    · refine XRel.bind LRel.refl fun v _ e => ?_
      subst e
      rename_i x y
      have ho' : BLen x y := ho'
      cases x.beq v <;> cases y.beq v
      · exact XRel.bind LRel.refl fun _ _ _ => XRel.of_l (LRel.pure hst)
      · exact XRel.bad rfl rfl fun h => nomatch h
      · exact XRel.bad rfl rfl fun h => nomatch h
      · refine XRel.bind LRel.refl fun _ _ _ => XRel.bind LRel.refl fun _ _ _ => XRel.of_l (LRel.pure ?_)
        exact ⟨⟨rfl, hst.1.mode, hst.1.fileData, ho, hst.1.encrypted, hst.1.selected⟩, rfl⟩
    · cases (show _ = _ from ho')
      exact XRel.bind LRel.refl fun _ _ _ => XRel.of_l (LRel.pure hst)
    · exact XRel.bind LRel.refl fun _ _ _ => XRel.of_l (LRel.pure hst)
  · cases (show _ = _ from ho)
    exact XRel.bind LRel.refl fun _ _ _ => XRel.of_l (LRel.pure hst)
  · exact XRel.bind LRel.refl fun _ _ _ => XRel.of_l (LRel.pure hst)

theorem verifyTry_kind (hs : Hashes) (e : Env) {s t : Session} (hst : s.dh = t.dh) (pw pw' : List Byte) (timeout : Nat) :
    RRel (fun _ _ => True) (verifyTry hs e s pw timeout).res (verifyTry hs e t pw' timeout).res := by
  rw [verifyTry_res, verifyTry_res]
  unfold Api.verifyTry
  rw [hst]
  refine RRel.refl.bind fun d _ e => ?_
  subst e
  refine RRel.refl.bind fun p _ e => ?_
  subst e
  refine RRel.refl.bind fun m _ e => ?_
  subst e
  refine (performStr_rel _ _ pw pw' _ _).bind fun o o' ho => ?_
  cases o <;> cases o' <;> first | exact ho.elim | exact True.intro | skip
  refine RRel.ite Iff.rfl trivial ?_
  refine (performBytes_rel _ _ ho _ _).bind fun o o' ho' => ?_
  cases o <;> cases o' <;> first | exact ho'.elim | exact True.intro | skip
  refine RRel.refl.bind fun v _ e => ?_
  subst e
  split <;> split <;> trivial

theorem verifyPassword_xrel (hs : Hashes) (e : Env) {s t : Session} (hst : SD s t) (pw pw' : List Byte) (timeout : Nat) :
    XRel (fun a b => a.1 = b.1) (fun a b => SD a.2 b.2) (verifyPassword hs e s pw timeout) (verifyPassword hs e t pw' timeout) := by
  unfold verifyPassword
  refine XRel.noexcept (XRel.bind LRel.refl fun _ _ _ => ?_)
  exact XRel.rescue (d := (.fail .ERR, s)) (d' := (.fail .ERR, t)) (verifyTry_kind hs e hst.2 pw pw' timeout)
    (verifyTry_xrel hs e hst pw pw' timeout) _ hst (fun _ => rfl) rfl (fun _ => rfl) rfl

/-! #### Decrypting and encrypting -/

theorem chainState_eq (H : HashFn) {c d : Chain} (h : LChainRel c d) : chainState H c = chainState H d := by
  unfold chainState Chain.getHeight
  rw [h.height, h.dataSize H]

theorem newChain'_lrel (dir : Dir) (H : HashFn) {s t : Bytes} (h : BLen s t) (salt : Bytes) :
    LRel LChainRel (newChain' dir H s salt) (newChain' dir H t salt) := by
  unfold newChain' chainLine
  rw [h.len']
  exact LRel.refl.bind fun _ _ _ => LRel.quiet (LChainRel.new H h salt)

theorem addData_lrel (dir : Dir) (H : HashFn) {c d : Chain} (h : LChainRel c d) {s t : Bytes} (k : BLen s t) :
    LRel LChainRel (addData dir H c s) (addData dir H d t) := by
  unfold addData
  refine (LRel.quiet (h.addData dir H k)).bind fun c d h => ?_
  rw [chainState_eq H h]
  exact LRel.refl.bind fun _ _ _ => LRel.pure h

theorem addStream_lrel (dir : Dir) (H : HashFn) {c d : Chain} (h : LChainRel c d) (s : IStream) (len : Nat) :
    LRel (fun p q => LChainRel p.1 q.1) (addStream dir H c s len) (addStream dir H d s len) := by
  unfold addStream
  have hr := h.addStream dir H s len
  refine LRel.bind (R := fun _ _ => True) ⟨?_, trivial⟩ fun _ _ _ => ?_
  · show (match c.addStream dir H s len with | _ => _) = (match d.addStream dir H s len with | _ => _)
    revert hr
    generalize c.addStream dir H s len = x
    generalize d.addStream dir H s len = y
    intro hr
    cases x <;> cases y <;> first
      | exact hr.elim
      | rfl
      | (cases (show _ = _ from hr); rfl)
  · refine (LRel.quiet hr).bind fun c d h => ?_
    rw [chainState_eq H h]
    exact LRel.refl.bind fun _ _ _ => LRel.pure h

theorem getResult_lrel (dir : Dir) (H : HashFn) {c d : Chain} (h : LChainRel c d) :
    LRel (fun p q => BLen p.1 q.1) (getResult dir H c) (getResult dir H d) := by
  unfold getResult
  rw [chainState_eq H h]
  exact LRel.refl.bind fun _ _ _ => LRel.quiet (h.getResult dir H)

theorem make_rel (m : Byte) {x y : Bytes} (h : BLen x y) :
    RRel FDRel (FileDataStruct.make m (some x)) (FileDataStruct.make m (some y)) := by
  unfold FileDataStruct.make
  exact RRel.ite Iff.rfl ⟨rfl, h⟩ rfl

theorem decryptTry_lrel (hs : Hashes) (e : Env) {v w : World} (h : WRel v w) :
    LRel (fun p q => FDRel p.1 q.1 ∧ SD p.2 q.2) (decryptTry hs e v) (decryptTry hs e w) := by
  unfold decryptTry
  rw [h.dh, h.fs, h.api.selected, h.api.mode]
  refine LRel.refl.bind fun d _ e => ?_
  subst e
  refine LRel.refl.bind fun p _ e => ?_
  subst e
  refine LRel.refl.bind fun m _ e => ?_
  subst e
  refine LRel.refl.bind fun _ _ _ => LRel.refl.bind fun salt _ e => ?_
  subst e
  refine (newChain'_lrel .dec _ h.api.pwHash salt).bind fun c c' hc => ?_
  refine LRel.refl.bind fun f _ e => ?_
  subst e
  refine (addStream_lrel .dec _ hc _ _).bind fun r r' hr => (getResult_lrel .dec _ hr).bind fun q q' hq => ?_
  refine (LRel.quiet (make_rel _ hq)).bind fun fd fd' hfd => LRel.refl.bind fun _ _ _ => LRel.pure ?_
  exact ⟨hfd, ⟨rfl, h.api.mode, trivial, h.api.pwHash, h.api.encrypted, h.api.selected⟩, h.dh⟩

/-- related outcomes of `getDecryptedData` -/
def DataRel (a b : Out FileDataStruct × World) : Prop := WRel a.2 b.2

theorem getDecryptedData_lrel (hs : Hashes) (e : Env) {v w : World} (h : WRel v w) :
    LRel DataRel (getDecryptedData hs e v) (getDecryptedData hs e w) := by
  unfold getDecryptedData
  refine LRel.noexcept (LRel.refl.bind fun _ _ _ => ?_)
  refine ((decryptTry_lrel hs e h).attempt _).bind fun o o' ho => ?_
  cases o <;> cases o' <;> first | exact ho.elim | skip
  · exact LRel.pure h
  · exact LRel.pure ⟨ho.2.1, ho.2.2, h.fs⟩

theorem encryptWith_lrel (hs : Hashes) {s t : Session} (h : BLen s.pwHash t.pwHash) (d : DataHeader) {x y : Bytes} (k : BLen x y) :
    LRel BLen (encryptWith hs s d x) (encryptWith hs t d y) := by
  unfold encryptWith
  refine LRel.refl.bind fun p _ e => ?_
  subst e
  refine LRel.refl.bind fun m _ e => ?_
  subst e
  refine LRel.refl.bind fun _ _ _ => LRel.refl.bind fun salt _ e => ?_
  subst e
  refine (newChain'_lrel .enc _ h salt).bind fun c c' hc => (addData_lrel .enc _ hc k).bind fun c c' hc => ?_
  exact (getResult_lrel .enc _ hc).bind fun q q' hq => LRel.refl.bind fun _ _ _ => LRel.pure hq

theorem encryptTry_lrel (hs : Hashes) (e : Env) {s t : Session} (h : BLen s.pwHash t.pwHash) (d : DataHeader) {x y : Bytes} (k : BLen x y) :
    LRel BLen (encryptTry hs e s d x) (encryptTry hs e t d y) := by
  unfold encryptTry
  rw [k.len']
  refine LRel.refl.bind fun d1 _ e => ?_
  subst e
  exact LRel.refl.bind fun _ _ _ => encryptWith_lrel hs h _ k

theorem encryptTry_header (hs : Hashes) (e : Env) (s t : Session) (d : DataHeader) {x y : Bytes} (k : BLen x y) :
    (Api.encryptTry hs e s d x).2 = (Api.encryptTry hs e t d y).2 := by
  unfold Api.encryptTry
  rw [k.len']
  cases d.setDataSize (UInt32.ofNat y.len) with
  | exn z => rfl
  | fatal z => rfl
  | ok d1 =>
    cases hc : d1.calcHeaderBytes hs (Bytes.empty 0) (e.clk 0) with
    | mk r d2 => cases r <;> simp only [hc]

theorem encryptData_lrel (hs : Hashes) (e : Env) {s t : Session} (h : SD s t) {f g : Option FileDataStruct} (k : ORel FDRel f g) :
    LRel (fun p q => SD p.2 q.2) (encryptData hs e s f) (encryptData hs e t g) := by
  unfold encryptData
  refine LRel.noexcept (LRel.refl.bind fun _ _ _ => ?_)
  have hd : RRel FDRel (deref f) (deref g) := by
    cases f <;> cases g <;> first | exact k.elim | exact k | rfl
  refine (LRel.quiet hd).bind fun a b hab => ?_
  have hc : a.isComplete = b.isComplete := by unfold FileDataStruct.isComplete; rw [hab.mode]
  have hm : a.getFileMode = b.getFileMode := by unfold FileDataStruct.getFileMode; rw [hab.mode]
  rw [hc, hm, h.2, h.1.mode]
  refine LRel.ite Iff.rfl (LRel.refl.bind fun _ _ _ => LRel.refl.bind fun _ _ _ => LRel.pure h) ?_
  refine LRel.refl.bind fun m _ e => ?_
  subst e
  refine LRel.ite Iff.rfl (LRel.refl.bind fun _ _ _ => LRel.pure h) ?_
  refine LRel.refl.bind fun d _ e => ?_
  subst e
  have hx : RRel BLen (deref a.decData) (deref b.decData) := by
    have := hab.data
    revert this
    cases a.decData <;> cases b.decData <;> intro this <;> first | exact this.elim | exact this | rfl
  refine (LRel.quiet hx).bind fun x y hxy => ?_
  refine ((encryptTry_lrel hs _ h.1.pwHash d hxy).attempt _).bind fun o o' ho => ?_
  rw [encryptTry_header hs _ s t d hxy]
  cases o <;> cases o' <;> first | exact ho.elim | skip
  · exact LRel.pure ⟨⟨h.1.state, rfl, h.1.fileData, h.1.pwHash, h.1.encrypted, h.1.selected⟩, rfl⟩
  · exact LRel.pure ⟨⟨rfl, rfl, ⟨hab.mode, trivial⟩, h.1.pwHash, ho, h.1.selected⟩, rfl⟩

/-! #### The other calls -/

theorem changeSalt_lrel (e : Env) {s t : Session} (h : SD s t) : LRel (fun p q => SD p.2 q.2) (changeSalt e s) (changeSalt e t) := by
  unfold changeSalt
  rw [h.2]
  refine LRel.noexcept (LRel.refl.bind fun _ _ _ => ?_)
  refine LRel.refl.bind fun d _ e => ?_
  subst e
  refine LRel.refl.bind fun p _ e => ?_
  subst e
  refine LRel.refl.bind fun old _ e => ?_
  subst e
  refine LRel.refl.bind fun b _ e => ?_
  subst e
  refine LRel.refl.bind fun p _ e => ?_
  subst e
  refine LRel.refl.bind fun o _ e => ?_
  subst e
  cases o with
  | success d => exact LRel.pure ⟨⟨h.1.state, h.1.mode, h.1.fileData, h.1.pwHash, h.1.encrypted, h.1.selected⟩, rfl⟩
  | fail c => exact LRel.refl.bind fun _ _ _ => LRel.pure h
  | timeout => exact LRel.refl.bind fun _ _ _ => LRel.pure h

theorem selectFile_lrel (fl : FileLog) (hs : Hashes) (e : Env) {v w : World} (h : WRel v w) (p : Path) :
    LRel (fun a b => a.1 = b.1 ∧ WRel a.2 b.2) (selectFile fl hs e v p) (selectFile fl hs e w p) := by
  have key : RRel (fun a b => a.1 = b.1 ∧ WRel a.2 b.2) (Api.selectFile hs e v p) (Api.selectFile hs e w p) := by
    unfold Api.selectFile
    rw [h.fs]
    refine RRel.noexcept (RRel.refl.bind fun o _ e => ?_)
    subst e
    cases o with
    | success f =>
      refine RRel.ite Iff.rfl ⟨rfl, ⟨rfl, h.api.mode, h.api.fileData, h.api.pwHash, h.api.encrypted, rfl⟩, h.dh, rfl⟩ ?_
      refine RRel.bind (R := fun a b => a.1 = b.1 ∧ SD a.2 b.2) ?_ fun a b hab => ⟨hab.1, hab.2.1, hab.2.2, rfl⟩
      unfold Api.selectNonEmptyFile
      refine RRel.noexcept (RRel.refl.bind fun o _ e => ?_)
      subst e
      cases o with
      | success d => exact ⟨rfl, ⟨rfl, h.api.mode, h.api.fileData, h.api.pwHash, h.api.encrypted, rfl⟩, rfl⟩
      | fail c => exact ⟨rfl, h.api, h.dh⟩
      | timeout => exact ⟨rfl, h.api, h.dh⟩
    | fail c => exact ⟨rfl, h⟩
    | timeout => exact ⟨rfl, h⟩
  unfold selectFile
  rw [h.fs]
  refine LRel.refl.bind fun _ _ _ => LRel.refl.bind fun _ _ _ => LRel.refl.bind fun _ _ _ => ?_
  refine (LRel.quiet key).bind fun a b hab => ?_
  rw [hab.1, hab.2.api.state]
  exact LRel.refl.bind fun _ _ _ => LRel.pure hab

theorem deleteFile_lrel (e : Env) {v w : World} (h : WRel v w) :
    LRel (fun a b => a.1 = b.1 ∧ WRel a.2 b.2) (deleteFile e v) (deleteFile e w) := by
  have key : RRel (fun a b => a.1 = b.1 ∧ WRel a.2 b.2) (Api.deleteSelected e v) (Api.deleteSelected e w) := by
    unfold Api.deleteSelected
    rw [h.fs, h.api.selected]
    refine RRel.noexcept (RRel.refl.bind fun f _ e => ?_)
    subst e
    refine RRel.refl.bind fun r _ e => ?_
    subst e
    exact RRel.ite Iff.rfl ⟨rfl, h⟩ ⟨rfl, ⟨rfl, h.api.mode, h.api.fileData, h.api.pwHash, h.api.encrypted, rfl⟩, rfl, rfl⟩
  unfold deleteFile
  rw [h.api.selected]
  refine LRel.refl.bind fun f _ e => ?_
  subst e
  refine LRel.refl.bind fun _ _ _ => (LRel.quiet key).bind fun a b hab => ?_
  rw [hab.1]
  exact LRel.refl.bind fun _ _ _ => LRel.pure hab

theorem getFileContent_eq (fl : FileLog) (e : Env) {v w : World} (h : WRel v w) : getFileContent fl e v = getFileContent fl e w := by
  unfold getFileContent Api.getFileContent
  rw [h.fs, h.api.selected]

/-- related outcomes of a save, apart from the file -/
def SaveRel (a b : Out Unit × World) : Prop := a.1 = b.1 ∧ SD a.2.api b.2.api

theorem fullData_kind {s t : Session} (h : SD s t) : RRel BLen (Api.fullData s) (Api.fullData t) := by
  unfold Api.fullData
  rw [h.2]
  refine RRel.refl.bind fun d _ e => ?_
  subst e
  refine RRel.refl.bind fun hb _ e => ?_
  subst e
  have hx : RRel BLen (deref s.encrypted) (deref t.encrypted) := by
    have := h.1.encrypted
    revert this
    cases s.encrypted <;> cases t.encrypted <;> intro this <;> first | exact this.elim | exact this | rfl
  refine hx.bind fun x y hxy => ?_
  rw [hxy.len']
  refine RRel.refl.bind fun b _ e => ?_
  subst e
  exact hxy.addcopyToBytes (BLen.refl _)

theorem finishWrite_rel (e : Env) {s t : Session} (h : SD s t) (fs : FS) (p : Path) :
    RRel SaveRel (Api.finishWrite e s fs p) (Api.finishWrite e t fs p) := by
  unfold Api.finishWrite
  refine (fullData_kind h).bind fun a b _ => ?_
  exact ⟨rfl, ⟨rfl, h.1.mode, h.1.fileData, h.1.pwHash, trivial, h.1.selected⟩, h.2⟩

theorem writeToSelected_lrel (fl : FileLog) (e : Env) {v w : World} (h : WRel v w) :
    LRel SaveRel (writeToSelected fl e v) (writeToSelected fl e w) := by
  have key : RRel SaveRel (Api.writeToSelected e v) (Api.writeToSelected e w) := by
    unfold Api.writeToSelected
    rw [h.fs, h.api.selected]
    refine RRel.noexcept (RRel.refl.bind fun f _ e => ?_)
    subst e
    refine RRel.refl.bind fun r _ e => ?_
    subst e
    obtain ⟨o, f, fs⟩ := r
    have hs : SD { v.api with selected := some f } { w.api with selected := some f } :=
      ⟨⟨h.api.state, h.api.mode, h.api.fileData, h.api.pwHash, h.api.encrypted, rfl⟩, h.dh⟩
    cases o with
    | success u => exact finishWrite_rel _ hs fs f.path
    | fail c => exact ⟨rfl, hs⟩
    | timeout => exact ⟨rfl, hs⟩
  unfold writeToSelected
  rw [h.fs, h.api.selected]
  refine LRel.refl.bind fun f _ e => ?_
  subst e
  refine LRel.refl.bind fun _ _ _ => LRel.refl.bind fun _ _ _ => (LRel.quiet key).bind fun a b hab => ?_
  rw [hab.1]
  exact LRel.refl.bind fun _ _ _ => LRel.pure hab

theorem writeToPath_lrel (fl : FileLog) (e : Env) {v w : World} (h : WRel v w) (p : Path) :
    LRel SaveRel (writeToPath fl e v p) (writeToPath fl e w p) := by
  have key : RRel SaveRel (Api.writeToPath e v p) (Api.writeToPath e w p) := by
    unfold Api.writeToPath
    rw [h.fs]
    refine RRel.noexcept (RRel.refl.bind fun o _ e => ?_)
    subst e
    cases o with
    | success f =>
      refine RRel.refl.bind fun r _ e => ?_
      subst e
      obtain ⟨o, f, fs⟩ := r
      cases o with
      | success u => exact finishWrite_rel _ ⟨h.api, h.dh⟩ fs f.path
      | fail c => exact ⟨rfl, h.api, h.dh⟩
      | timeout => exact ⟨rfl, h.api, h.dh⟩
    | fail c => exact ⟨rfl, h.api, h.dh⟩
    | timeout => exact ⟨rfl, h.api, h.dh⟩
  unfold writeToPath
  rw [h.fs]
  refine LRel.refl.bind fun _ _ _ => LRel.refl.bind fun _ _ _ => LRel.refl.bind fun _ _ _ => (LRel.quiet key).bind fun a b hab => ?_
  rw [hab.1]
  exact LRel.refl.bind fun _ _ _ => LRel.pure hab

/-- what is seen of a call from outside is the same: the answer up to data, the disk, the header object; and if it makes a header,
it does not fail with the error that says nothing -/
def Seen (c : Call) (a b : Ret × World) : Prop :=
  Spec.blurRet a.1 = Spec.blurRet b.1 ∧ a.2.fs = b.2.fs ∧ a.2.api.dh = b.2.api.dh ∧ ¬ Spec.HeaderRefused c a.1

theorem blur_plain {c c' : Call} (h : Spec.blurCall c = Spec.blurCall c') (hp : Spec.blurCall c = c)
    (hv : ∀ t, c ≠ .verifyPassword [] t) (hc : ∀ ds t, c ≠ .createDataHeader [] ds t) (ht : ∀ ds, c ≠ .createDataHeaderTime [] ds)
    (he : ∀ fd, c ≠ .encryptData fd) : c' = c := by
  rw [hp] at h
  cases c' <;> simp only [Spec.blurCall] at h <;> first
    | exact h.symm
    | exact (hv _ h).elim
    | exact (hc _ _ h).elim
    | exact (ht _ h).elim
    | exact (he _ h).elim

theorem flag_inj {a b : Out Bool} (h : Spec.blurRet (.flag a) = Spec.blurRet (.flag b)) : a = b := by
  simpa [Spec.blurRet] using h

/-- wrapping the outcome of a step of the session -/
theorem wrap {α : Type} {x y : Logged (α × Session)} {G : α × Session → α × Session → Prop} {c : Call} {v w : World} (hw : v.fs = w.fs)
    {k : α → Ret} (h : XRel G (fun a b => SD a.2 b.2) x y)
    (hg : ∀ a b : α × Session, Spec.blurRet (k a.1) = Spec.blurRet (k b.1) → a.2.dh = b.2.dh → ¬ Spec.HeaderRefused c (k a.1) → G a b) :
    XRel (Seen c) (fun a b => WRel a.2 b.2) (x >>= fun r => (pure (k r.1, { v with api := r.2 }) : Logged (Ret × World)))
      (y >>= fun r => (pure (k r.1, { w with api := r.2 }) : Logged (Ret × World))) := by
  refine XRel.chain h (fun _ _ h => nomatch h) (fun _ _ h => nomatch h) ?_ ?_
  · rintro a b _ _ ⟨⟩ ⟨⟩ ⟨h1, -, h3, h4⟩
    exact hg a b h1 h3 h4
  · exact fun a b _ hp => XRel.of_l (LRel.pure ⟨hp.1, hp.2, hw⟩)

theorem call_xrel (fl : FileLog) (hs : Hashes) (rest : Api.Helper → Res Api.Helper) (e : Env) {v w : World} (h : WRel v w) {c c' : Call}
    (hc : Spec.blurCall c = Spec.blurCall c') :
    XRel (Seen c) (fun a b => WRel a.2 b.2) (call fl hs rest e v c) (call fl hs rest e w c') := by
  have hsd : SD v.api w.api := ⟨h.api, h.dh⟩
  cases c with
  | getRelevantFileNames dir =>
    cases blur_plain hc rfl (by simp) (by simp) (by simp) (by simp)
    simp only [call, Api.call]
    rw [h.api.state, h.fs, h.api.mode]
    refine XRel.bind LRel.refl fun _ _ _ => XRel.of_l ?_
    split
    · rename_i hst
      simp only [hst]
      refine LRel.refl.bind fun _ _ _ => LRel.quiet (RRel.refl.bind fun o _ e => ?_)
      subst e
      exact h
    · exact LRel.pure h
  | createFile p =>
    cases blur_plain hc rfl (by simp) (by simp) (by simp) (by simp)
    simp only [call, Api.call]
    rw [h.api.state, h.fs]
    refine XRel.bind LRel.refl fun _ _ _ => XRel.of_l ?_
    split
    · rename_i hst
      simp only [hst]
      refine LRel.refl.bind fun _ _ _ => LRel.quiet (RRel.refl.bind fun o _ e => ?_)
      subst e
      exact ⟨h.api, h.dh, rfl⟩
    · exact LRel.pure h
  | selectFile p =>
    cases blur_plain hc rfl (by simp) (by simp) (by simp) (by simp)
    simp only [call]
    rw [h.api.state]
    refine XRel.bind LRel.refl fun _ _ _ => XRel.of_l ?_
    split
    · exact (selectFile_lrel fl hs e h p).bind fun a b hab => LRel.pure hab.2
    · exact LRel.pure h
  | isFileEmpty =>
    cases blur_plain hc rfl (by simp) (by simp) (by simp) (by simp)
    simp only [call, Api.call]
    rw [h.api.state]
    refine XRel.bind LRel.refl fun _ _ _ => XRel.of_l (LRel.quiet ?_)
    split <;> exact h
  | unselectFile =>
    cases blur_plain hc rfl (by simp) (by simp) (by simp) (by simp)
    simp only [call, Api.call, unselect]
    rw [h.api.state, h.api.selected]
    refine XRel.bind LRel.refl fun _ _ _ => XRel.of_l ?_
    split
    · rename_i hst
      simp only [hst]
      exact LRel.refl.bind fun _ _ _ => LRel.quiet
        ⟨⟨rfl, h.api.mode, h.api.fileData, h.api.pwHash, h.api.encrypted, rfl⟩, rfl, h.fs⟩
    · rename_i hst
      simp only [hst]
      exact LRel.refl.bind fun _ _ _ => LRel.quiet
        ⟨⟨rfl, h.api.mode, h.api.fileData, h.api.pwHash, h.api.encrypted, rfl⟩, rfl, h.fs⟩
    · exact LRel.pure h
  | deleteFile =>
    cases blur_plain hc rfl (by simp) (by simp) (by simp) (by simp)
    simp only [call]
    rw [h.api.state]
    refine XRel.bind LRel.refl fun _ _ _ => XRel.of_l ?_
    split
    · exact (deleteFile_lrel e h).bind fun a b hab => LRel.pure hab.2
    · exact (deleteFile_lrel e h).bind fun a b hab => LRel.pure hab.2
    · exact LRel.pure h
  | getFileContent =>
    cases blur_plain hc rfl (by simp) (by simp) (by simp) (by simp)
    simp only [call]
    rw [h.api.state, getFileContent_eq fl e h]
    refine XRel.bind LRel.refl fun _ _ _ => XRel.of_l ?_
    split
    · exact LRel.refl.bind fun a b hab => LRel.pure h
    · exact LRel.pure h
    · exact LRel.pure h
  | verifyPassword pw t =>
    obtain ⟨pw', rfl⟩ : ∃ pw', c' = .verifyPassword pw' t := by
      cases c' <;> simp only [Spec.blurCall] at hc <;> cases hc
      exact ⟨_, rfl⟩
    simp only [call]
    rw [h.api.state]
    refine XRel.bind LRel.refl fun _ _ _ => ?_
    split
    · exact wrap h.fs (verifyPassword_xrel hs e hsd pw pw' t) fun a b h1 _ _ => flag_inj h1
    · exact XRel.of_l (LRel.pure h)
  | createDataHeader pw ds t =>
    obtain ⟨pw', rfl⟩ : ∃ pw', c' = .createDataHeader pw' ds t := by
      cases c' <;> simp only [Spec.blurCall] at hc <;> cases hc
      exact ⟨_, rfl⟩
    have hg : ∀ a b : Out Bool × Session, Spec.blurRet (.flag a.1) = Spec.blurRet (.flag b.1) → a.2.dh = b.2.dh →
        ¬ Spec.HeaderRefused (.createDataHeader pw ds t) (.flag a.1) → HG a b :=
      fun a b h1 h2 h3 => ⟨flag_inj h1, h2, fun hf => h3 ⟨⟨pw, ds, t, rfl⟩, by rw [hf]⟩⟩
    simp only [call]
    rw [h.api.state]
    refine XRel.bind LRel.refl fun b _ e => ?_
    subst e
    refine XRel.ite Iff.rfl (XRel.bind LRel.refl fun _ _ _ => XRel.of_l (LRel.pure h)) (XRel.bind LRel.refl fun _ _ _ => ?_)
    split
    · exact wrap h.fs (createForEmpty_xrel hs hsd pw pw' ds t _) hg
    · exact wrap h.fs (createForOpen_xrel hs hsd pw pw' ds t _) hg
    · exact XRel.of_l (LRel.pure h)
  | createDataHeaderTime pw ds =>
    obtain ⟨pw', rfl⟩ : ∃ pw', c' = .createDataHeaderTime pw' ds := by
      cases c' <;> simp only [Spec.blurCall] at hc <;> cases hc
      exact ⟨_, rfl⟩
    simp only [call, Api.call]
    rw [h.api.state]
    refine XRel.bind LRel.refl fun _ _ _ => XRel.of_l (LRel.quiet ?_)
    refine RRel.ite Iff.rfl h ?_
    split
    · refine RRel.refl.bind fun x _ e => ?_
      subst e
      exact (headerForEmpty_ok hsd rfl (BLen.refl _)).bind fun a b hab => ⟨hab.2.1, hab.2.2, h.fs⟩
    · refine RRel.refl.bind fun x _ e => ?_
      subst e
      exact (headerForOpen_ok hsd rfl (BLen.refl _)).bind fun a b hab => ⟨hab.2.1, hab.2.2, h.fs⟩
    · exact h
  | changeSalt =>
    cases blur_plain hc rfl (by simp) (by simp) (by simp) (by simp)
    simp only [call]
    rw [h.api.state]
    refine XRel.bind LRel.refl fun _ _ _ => XRel.of_l ?_
    split
    · exact (changeSalt_lrel e hsd).bind fun a b hab => LRel.pure ⟨hab.1, hab.2, h.fs⟩
    · exact LRel.pure h
  | getDecryptedData =>
    cases blur_plain hc rfl (by simp) (by simp) (by simp) (by simp)
    simp only [call]
    rw [h.api.state]
    refine XRel.bind LRel.refl fun _ _ _ => XRel.of_l ?_
    split
    · exact (getDecryptedData_lrel hs e h).bind fun a b hab => LRel.pure hab
    · exact LRel.pure h
  | getFileData =>
    cases blur_plain hc rfl (by simp) (by simp) (by simp) (by simp)
    simp only [call, Api.call]
    rw [h.api.state]
    refine XRel.bind LRel.refl fun _ _ _ => XRel.of_l ?_
    split
    · rename_i hst
      simp only [hst]
      have hn : v.api.fileData.isNone = w.api.fileData.isNone := by
        have := h.api.fileData
        revert this
        cases v.api.fileData <;> cases w.api.fileData <;> intro this <;> first | exact this.elim | rfl
      rw [hn]
      refine LRel.refl.bind fun _ _ _ => LRel.quiet ?_
      have := h.api.fileData
      unfold Api.getFileData
      show WRel _ _
      revert this
      dsimp only
      cases hv : v.api.fileData <;> cases hw : w.api.fileData <;> intro this <;> first
        | exact this.elim
        | exact ⟨h.api, h.dh, h.fs⟩
        | exact ⟨⟨h.api.state, h.api.mode, trivial, h.api.pwHash, h.api.encrypted, h.api.selected⟩, h.dh, h.fs⟩
    · exact LRel.pure h
  | encryptData fd =>
    obtain ⟨fd', rfl, hf⟩ : ∃ fd', c' = .encryptData fd' ∧ fd.map Spec.blurData = fd'.map Spec.blurData := by
      cases c' <;> simp only [Spec.blurCall] at hc <;> first | (injection hc; done) | skip
      · injection hc with hc
        exact ⟨_, rfl, hc⟩
    simp only [call]
    rw [h.api.state]
    refine XRel.bind LRel.refl fun _ _ _ => XRel.of_l ?_
    split
    · exact (encryptData_lrel hs e hsd ((map_eq fun a b => blurData_eq).1 hf)).bind fun a b hab => LRel.pure ⟨hab.1, hab.2, h.fs⟩
    · exact LRel.pure h
  | writeToFile =>
    cases blur_plain hc rfl (by simp) (by simp) (by simp) (by simp)
    simp only [call]
    rw [h.api.state]
    refine XRel.bind LRel.refl fun _ _ _ => ?_
    split
    · refine XRel.bind (writeToSelected_lrel fl e h) fun a b hab => ?_
      exact fun g => ⟨rfl, hab.2.1, hab.2.2, g.2.1⟩
    · exact XRel.of_l (LRel.pure h)
  | writeToFileAt p =>
    cases blur_plain hc rfl (by simp) (by simp) (by simp) (by simp)
    simp only [call]
    rw [h.api.state]
    refine XRel.bind LRel.refl fun _ _ _ => ?_
    split
    · refine XRel.bind (writeToPath_lrel fl e h p) fun a b hab => ?_
      exact fun g => ⟨rfl, hab.2.1, hab.2.2, g.2.1⟩
    · exact XRel.of_l (LRel.pure h)
  | logout =>
    cases blur_plain hc rfl (by simp) (by simp) (by simp) (by simp)
    refine XRel.bind LRel.refl fun _ _ _ => XRel.bind LRel.refl fun _ _ _ => XRel.of_l (LRel.pure ?_)
    exact ⟨⟨rfl, h.api.mode, trivial, BLen.refl _, trivial, rfl⟩, rfl, h.fs⟩
  | logoutMode m =>
    cases blur_plain hc rfl (by simp) (by simp) (by simp) (by simp)
    refine XRel.bind LRel.refl fun _ _ _ => XRel.bind LRel.refl fun _ _ _ => XRel.of_l (LRel.pure ?_)
    exact ⟨⟨rfl, h.api.mode, trivial, BLen.refl _, trivial, rfl⟩, rfl, h.fs⟩

end Log
end Verif
