import Verif.Spec.HeaderGen
import Verif.Lemmas.HeaderObj

namespace Verif.HeaderGen
open Spec

/-- if `T` the code returns, and whenever it returns the result satisfies `P` -/
def Draw.Good {α : Type} (T : Prop) (x : Draw α) (P : α → Prop) : Prop :=
  ∀ i, (T → ∃ a j, x i = .ok (a, j)) ∧ ∀ a j, x i = .ok (a, j) → P a

variable {α β : Type} {T : Prop} {P : α → Prop} {Q : β → Prop}

theorem Draw.Good.bind {x : Draw α} {f : α → Draw β} (hx : x.Good T P) (hf : ∀ a, P a → (f a).Good T Q) :
    (x >>= f).Good T Q := by
  intro i
  have e : (x >>= f) i = (x i).bind fun a => f a.1 a.2 := rfl
  constructor
  · intro t
    obtain ⟨a, j, h⟩ := (hx i).1 t
    rw [e, h]
    exact (hf a ((hx i).2 a j h) j).1 t
  · intro b k h
    rw [e] at h
    cases hq : x i with
    | ok y => rw [hq] at h; exact (hf y.1 ((hx i).2 y.1 y.2 hq) y.2).2 b k h
    | exn _ => rw [hq] at h; cases h
    | fatal _ => rw [hq] at h; cases h

theorem Draw.Good.pure {a : α} (h : P a) : (Pure.pure a : Draw α).Good T P :=
  fun i => ⟨fun _ => ⟨a, i, rfl⟩, fun b j e => by cases e; exact h⟩

theorem Draw.Good.mono {x : Draw α} {P' : α → Prop} (hx : x.Good T P) (h : ∀ a, P a → P' a) : x.Good T P' :=
  fun i => ⟨(hx i).1, fun a j e => h a ((hx i).2 a j e)⟩

theorem Draw.Good.lift {x : Res α} (ht : T → ∃ a, x = .ok a) (hp : ∀ a, x = .ok a → P a) : (Draw.lift x).Good T P := by
  intro i
  constructor
  · intro t
    obtain ⟨a, h⟩ := ht t
    exact ⟨a, i, by rw [Draw.lift, h]; rfl⟩
  · intro a j h
    cases hx : x with
    | ok y => rw [Draw.lift, hx] at h; cases h; exact hp _ hx
    | exn _ => rw [Draw.lift, hx] at h; cases h
    | fatal _ => rw [Draw.lift, hx] at h; cases h

/-- code without random bytes that returns -/
theorem Draw.Good.lift_ok {x : Res α} {a : α} (h : x = .ok a) (hp : P a) : (Draw.lift x).Good T P :=
  .lift (fun _ => ⟨a, h⟩) fun b e => by rw [h] at e; cases e; exact hp

theorem Draw.Good.ask {src : Nat → Rand} {f : Rand → Res α} (ht : T → ∀ i, ∃ a, f (src i) = .ok a)
    (hp : ∀ r a, f r = .ok a → P a) : (Draw.ask src f).Good T P := by
  intro i
  constructor
  · intro t
    obtain ⟨a, h⟩ := ht t i
    exact ⟨a, i + 1, by rw [Draw.ask, h]; rfl⟩
  · intro a j h
    cases hx : f (src i) with
    | ok y => rw [Draw.ask, hx] at h; cases h; exact hp _ _ hx
    | exn _ => rw [Draw.ask, hx] at h; cases h
    | fatal _ => rw [Draw.ask, hx] at h; cases h

/-! ### random bytes -/

theorem getRandomByte_eq {lo up : Byte} (h : lo < up) (r : Rand) (hr : r.good = true) :
    Rng.getRandomByte lo up 4 r = .ok (UInt8.ofNat (beValue (r.take 4) % (up.toNat - lo.toNat) + lo.toNat)) := by
  have hlt : lo.toNat < up.toNat := h
  have hu := up.toNat_lt
  have hnle : ¬ up ≤ lo := by intro hh; have : up.toNat ≤ lo.toNat := hh; omega
  have hb := beValue_lt (r.take 4)
  rw [Rand.length_take] at hb
  simp only [Rng.getRandomByte, if_neg hnle, hr, if_true, toLong_eq (b := ⟨r.take 4, 4⟩) (by simp)]
  rw [if_neg (by omega)]
  simp only [Res.bind_ok, Res.pure_eq, Res.ok.injEq]
  apply UInt8.toNat_inj.mp
  have hm : beValue (r.take 4) % (up.toNat - lo.toNat) < up.toNat - lo.toNat := Nat.mod_lt _ (by omega)
  rw [UInt64.toNat_toUInt8, UInt64.toNat_add, UInt64.toNat_mod, UInt8.toNat_ofNat', UInt64.toNat_ofNat', UInt64.toNat_ofNat',
    UInt64.toNat_ofNat', Nat.mod_eq_of_lt (a := beValue (r.take 4)) (by omega), Nat.mod_eq_of_lt (a := up.toNat - lo.toNat) (by omega),
    Nat.mod_eq_of_lt (a := lo.toNat) (by omega), Nat.mod_eq_of_lt (b := 2 ^ 64) (by omega)]

theorem getRandomByte_ok {lo up : Byte} (h : lo < up) {r : Rand} {v : Byte} (hv : Rng.getRandomByte lo up 4 r = .ok v) :
    lo.toNat ≤ v.toNat ∧ v.toNat < up.toNat := by
  have hlt : lo.toNat < up.toNat := h
  have hu := up.toNat_lt
  cases hr : r.good with
  | false =>
    have hnle : ¬ up ≤ lo := by intro hh; have : up.toNat ≤ lo.toNat := hh; omega
    simp only [Rng.getRandomByte, if_neg hnle, hr] at hv
    rw [if_neg (by omega)] at hv
    cases hv
  | true =>
    rw [getRandomByte_eq h r hr] at hv
    cases hv
    have hm : beValue (r.take 4) % (up.toNat - lo.toNat) < up.toNat - lo.toNat := Nat.mod_lt _ (by omega)
    rw [UInt8.toNat_ofNat', Nat.mod_eq_of_lt (by omega)]
    omega

variable {src : Nat → Rand}

theorem randomByte_good {lo up : Byte} (h : lo < up) (ht : T → ∀ i, (src i).good = true) :
    (randomByte src lo up).Good T fun v => lo.toNat ≤ v.toNat ∧ v.toNat < up.toNat :=
  .ask (fun t i => ⟨_, getRandomByte_eq h _ (ht t i)⟩) fun _ _ e => getRandomByte_ok h e

theorem fillrandom_good (b : Bytes) (hs : b.cap < 2 ^ 31) (ht : T → ∀ i, (src i).good = true) :
    (Draw.ask src b.fillrandom).Good T fun x => ∃ l, l.length = b.cap - b.data.length ∧ x = ⟨b.data ++ l, b.cap⟩ := by
  refine .ask (fun t i => ⟨⟨b.data ++ (src i).take (b.cap - b.data.length), b.cap⟩, ?_⟩) fun r a e => ?_
  · have h1 : ¬ ((b.cap - b.data.length) % 2 ^ 32 ≥ 2 ^ 31 ∨ (src i).good = false) := by
      rw [ht t i]; simp; omega
    simp only [Bytes.fillrandom, Bytes.randomBytes, if_neg h1]
    rw [if_neg (by omega)]; rfl
  · simp only [Bytes.fillrandom, Bytes.randomBytes] at e
    split at e
    · cases e
    · rw [if_neg (by omega)] at e
      cases e
      exact ⟨_, Rand.length_take _ _, rfl⟩

theorem randomBlock_good (n : Nat) (hs : n < 2 ^ 31) (ht : T → ∀ i, (src i).good = true) :
    (randomBlock src n).Good T fun x => x.data.length = n :=
  (fillrandom_good (Bytes.empty n) hs ht).mono fun x ⟨l, hl, e⟩ => by
    subst e; simpa [Bytes.empty] using hl

/-! ### chain hash modes -/

/-- modes the generator hands out -/
def ModeFor (len : Byte) (cm : Byte) : Prop := cm.toNat ≤ 4 ∧ blockLenOk cm.toNat len.toNat = true

theorem byte_cases {v : Byte} (h1 : (1 : Byte).toNat ≤ v.toNat) (h2 : v.toNat < (5 : Byte).toNat) : v = 1 ∨ v = 2 ∨ v = 3 ∨ v = 4 := by
  have e1 : (1 : Byte).toNat = 1 := rfl
  have e5 : (5 : Byte).toNat = 5 := rfl
  have : v.toNat = 1 ∨ v.toNat = 2 ∨ v.toNat = 3 ∨ v.toNat = 4 := by omega
  rcases this with h | h | h | h
  · exact .inl (UInt8.toNat_inj.mp h)
  · exact .inr (.inl (UInt8.toNat_inj.mp h))
  · exact .inr (.inr (.inl (UInt8.toNat_inj.mp h)))
  · exact .inr (.inr (.inr (UInt8.toNat_inj.mp h)))

/-- one round of the loop -/
def round (len cm : Byte) : Option Byte :=
  if len = 0 then (if ¬ (cm = 1 ∨ cm = 2) then none else some cm)
  else
    let cm := if len < 8 then 2 else cm
    if len ≠ 8 ∧ cm = 3 then none else if len ≠ 32 ∧ cm = 5 then none else if len ≠ 0 ∧ cm = 1 then none else some cm

theorem round_ok {len cm v : Byte} (h : cm = 1 ∨ cm = 2 ∨ cm = 3 ∨ cm = 4) (hv : round len cm = some v) : ModeFor len v := by
  have key : ∀ k : Fin 256, ∀ c : Fin 4, ∀ v : Byte, round (UInt8.ofNat k.1) (UInt8.ofNat (c.1 + 1)) = some v →
      v.toNat ≤ 4 ∧ blockLenOk v.toNat (UInt8.ofNat k.1).toNat = true := by
    have : ∀ k : Fin 256, ∀ c : Fin 4, (match round (UInt8.ofNat k.1) (UInt8.ofNat (c.1 + 1)) with
        | some v => decide (v.toNat ≤ 4) && blockLenOk v.toNat (UInt8.ofNat k.1).toNat
        | none => true) = true := by decide +kernel
    intro k c v e
    have := this k c
    rw [e] at this
    simpa using this
  have hl : UInt8.ofNat len.toNat = len := UInt8.ofNat_toNat
  have hk := key ⟨len.toNat, len.toNat_lt⟩
  rw [show (⟨len.toNat, len.toNat_lt⟩ : Fin 256).1 = len.toNat from rfl, hl] at hk
  rcases h with rfl | rfl | rfl | rfl
  · exact hk 0 v hv
  · exact hk 1 v hv
  · exact hk 2 v hv
  · exact hk 3 v hv

theorem round_two (len : Byte) : round len 2 = some 2 := by
  have key : ∀ k : Fin 256, round (UInt8.ofNat k.1) 2 = some 2 := by decide +kernel
  have hl : UInt8.ofNat len.toNat = len := UInt8.ofNat_toNat
  have hk := key ⟨len.toNat, len.toNat_lt⟩
  rw [show (⟨len.toNat, len.toNat_lt⟩ : Fin 256).1 = len.toNat from rfl, hl] at hk
  exact hk

theorem chainMode_succ (len : Byte) (fuel i : Nat) : chainMode src len (fuel + 1) i =
    (randomByte src 1 5 i).bind fun a => match round len a.1 with
      | some v => .ok (v, a.2)
      | none => chainMode src len fuel a.2 := by
  have e : chainMode src len (fuel + 1) i = (randomByte src 1 5 i).bind fun a =>
      (if len = 0 then
        if ¬ (a.1 = 1 ∨ a.1 = 2) then chainMode src len fuel else pure a.1
      else
        let cm := if len < 8 then 2 else a.1
        if len ≠ 8 ∧ cm = 3 then chainMode src len fuel
        else if len ≠ 32 ∧ cm = 5 then chainMode src len fuel
        else if len ≠ 0 ∧ cm = 1 then chainMode src len fuel
        else pure cm : Draw Byte) a.2 := rfl
  rw [e]
  congr 1
  funext a
  unfold round
  by_cases h : len = 0
  · simp only [if_pos h]
    by_cases h2 : ¬ (a.1 = 1 ∨ a.1 = 2)
    · simp only [if_pos h2]
    · simp only [if_neg h2]; rfl
  · simp only [if_neg h]
    generalize (if len < 8 then (2 : Byte) else a.1) = cm
    by_cases h1 : len ≠ 8 ∧ cm = 3
    · simp only [if_pos h1]
    · simp only [if_neg h1]
      by_cases h2 : len ≠ 32 ∧ cm = 5
      · simp only [if_pos h2]
      · simp only [if_neg h2]
        by_cases h3 : len ≠ 0 ∧ cm = 1
        · simp only [if_pos h3]
        · simp only [if_neg h3]; rfl

theorem mode_two {r : Rand} (hr : r.good = true) (h : (r.byte 3).toNat % 4 = 1) : Rng.getRandomByte 1 5 4 r = .ok 2 := by
  rw [getRandomByte_eq (by decide) r hr]
  have e : r.take 4 = [r.byte 0, r.byte 1, r.byte 2, r.byte 3] := rfl
  rw [e, beValue_cons, beValue_cons, beValue_cons, beValue_cons]
  have : beValue [] = 0 := rfl
  rw [this]
  simp only [List.length_cons, List.length_nil]
  have e1 : (1 : Byte).toNat = 1 := rfl
  have e5 : (5 : Byte).toNat = 5 := rfl
  rw [e1, e5]
  refine congrArg Res.ok (UInt8.toNat_inj.mp ?_)
  rw [UInt8.toNat_ofNat', show (2 : Byte).toNat = 2 from rfl]
  simp only [Nat.zero_add, Nat.reduceAdd, Nat.reducePow, Nat.reduceSub] at *
  omega

theorem chainMode_returns (len : Byte) (hg : ∀ i, (src i).good = true) (fuel : Nat) : ∀ i,
    (∃ j, j < fuel ∧ ((src (i + j)).byte 3).toNat % 4 = 1) → ∃ a k, chainMode src len fuel i = .ok (a, k) := by
  induction fuel with
  | zero => rintro i ⟨j, h, -⟩; omega
  | succ fuel ih =>
    rintro i ⟨j, hj, h⟩
    rw [chainMode_succ]
    have e : randomByte src 1 5 i = .ok (UInt8.ofNat (beValue ((src i).take 4) % ((5 : Byte).toNat - (1 : Byte).toNat) +
        (1 : Byte).toNat), i + 1) := by
      rw [randomByte, Draw.ask, getRandomByte_eq (by decide) _ (hg i)]; rfl
    cases j with
    | zero =>
      have e2 : randomByte src 1 5 i = .ok (2, i + 1) := by
        rw [randomByte, Draw.ask, mode_two (hg i) h]; rfl
      rw [e2]
      exact ⟨2, i + 1, by simp only [Res.bind, round_two]⟩
    | succ j =>
      rw [e]
      simp only [Res.bind]
      split
      · exact ⟨_, _, rfl⟩
      · exact ih (i + 1) ⟨j, by omega, by rw [show i + 1 + j = i + (j + 1) by omega]; exact h⟩

theorem chainMode_ok (len : Byte) (fuel : Nat) : ∀ i a k, chainMode src len fuel i = .ok (a, k) → ModeFor len a := by
  induction fuel with
  | zero => intro i a k h; cases h
  | succ fuel ih =>
    intro i a k h
    rw [chainMode_succ] at h
    cases hq : randomByte src 1 5 i with
    | exn _ => rw [hq] at h; cases h
    | fatal _ => rw [hq] at h; cases h
    | ok y =>
      rw [hq] at h
      have hy := (randomByte_good (T := False) (src := src) (lo := 1) (up := 5) (by decide) (fun t => t.elim) i).2 y.1 y.2 hq
      simp only [Res.bind] at h
      cases hr : round len y.1 with
      | some v =>
        rw [hr] at h; cases h
        exact round_ok (byte_cases hy.1 hy.2) hr
      | none => rw [hr] at h; exact ih _ _ _ h

theorem chainMode_good (len : Byte) (fuel : Nat) (ht : T → Varied src fuel) :
    (chainMode src len fuel).Good T (ModeFor len) :=
  fun i => ⟨fun t => chainMode_returns len (ht t).1 fuel i ((ht t).2 i), fun a k h => chainMode_ok len fuel i a k h⟩

/-! ### the parts -/

theorem addByte_full {b : Bytes} {x : Byte} (h : b.data.length < b.cap) : b.addByte x = .ok ⟨b.data ++ [x], b.cap⟩ := by
  rw [Bytes.addByte, if_neg (by omega)]

theorem addcopy_full {b c : Bytes} (h : b.data.length + c.data.length ≤ c.cap) :
    b.addcopyToBytes c = .ok ⟨c.data ++ b.data, c.cap⟩ := by
  rw [Bytes.addcopyToBytes, if_neg (by omega)]

theorem blockBytes_append (a b : List (Byte × List Byte)) : blockBytes (a ++ b) = blockBytes a ++ blockBytes b :=
  List.flatMap_append

theorem encBytes_append (a b : List (Byte × Byte × List Byte)) : encBytes (a ++ b) = encBytes a ++ encBytes b :=
  List.flatMap_append

theorem genBlocks_good (ht : T → ∀ i, (src i).good = true) (k : Nat) : ∀ (l : List Byte),
    (genBlocks src k ⟨l, l.length⟩).Good T fun x => ∃ bs : List (Byte × List Byte), bs.length = k ∧
      (∀ b ∈ bs, 1 ≤ b.2.length ∧ b.2.length ≤ 254 ∧ b.1.toNat ≤ 254) ∧ x = ⟨l ++ blockBytes bs, (l ++ blockBytes bs).length⟩ := by
  induction k with
  | zero => exact fun l => .pure ⟨[], rfl, by simp, by simp [blockBytes]⟩
  | succ k ih =>
    intro l
    refine .bind (randomByte_good (by decide) ht) fun len hlen => ?_
    have e1 : (1 : Byte).toNat = 1 := rfl
    have e255 : (255 : Byte).toNat = 255 := rfl
    rw [e1, e255] at hlen
    refine .bind (randomByte_good (by decide) ht) fun type htype => ?_
    rw [e255] at htype
    refine .bind (P := (· = ⟨l ++ [type], l.length + (len.toNat + 2)⟩)) (.lift_ok (addByte_full (by simp [Bytes.addSize])) rfl)
      fun x hx => ?_
    subst hx
    refine .bind (P := (· = ⟨(l ++ [type]) ++ [len], l.length + (len.toNat + 2)⟩)) (.lift_ok (addByte_full (by simp)) rfl)
      fun x hx => ?_
    subst hx
    refine .bind (randomBlock_good _ (by omega) ht) fun tmp htmp => ?_
    refine .bind (P := (· = ⟨(l ++ [type]) ++ [len] ++ tmp.data, l.length + (len.toNat + 2)⟩)) (.lift_ok (addcopy_full (by simp; omega)) rfl)
      fun x hx => ?_
    subst hx
    have hcap : l.length + (len.toNat + 2) = ((l ++ [type]) ++ [len] ++ tmp.data).length := by simp; omega
    rw [hcap]
    refine (ih _).mono fun x hx => ?_
    obtain ⟨bs, h1, h2, h3⟩ := hx
    have hb : ((l ++ [type]) ++ [len] ++ tmp.data) ++ blockBytes bs = l ++ blockBytes ((type, tmp.data) :: bs) := by
      have : UInt8.ofNat tmp.data.length = len := by rw [htmp]; exact UInt8.ofNat_toNat
      simp [blockBytes, this]
    refine ⟨(type, tmp.data) :: bs, by simp [h1], ?_, by rw [h3, hb]⟩
    intro b hb
    rcases List.mem_cons.mp hb with rfl | hb
    · exact ⟨by simp only; omega, by simp only; omega, by simp only; omega⟩
    · exact h2 b hb

theorem genEncBlocks_good (ht : T → ∀ i, (src i).good = true) (k : Nat) : ∀ (l : List Byte),
    (genEncBlocks src k ⟨l, l.length⟩).Good T fun x => ∃ bs : List (Byte × Byte × List Byte), bs.length = k ∧
      (∀ b ∈ bs, b.2.2.length = 255 ∧ b.1.toNat ≤ 254 ∧ b.2.1.toNat ≤ 254) ∧ x = ⟨l ++ encBytes bs, (l ++ encBytes bs).length⟩ := by
  induction k with
  | zero => exact fun l => .pure ⟨[], rfl, by simp, by simp [encBytes]⟩
  | succ k ih =>
    intro l
    have e255 : (255 : Byte).toNat = 255 := rfl
    refine .bind (randomByte_good (by decide) ht) fun type htype => ?_
    rw [e255] at htype
    refine .bind (P := (· = ⟨l ++ [type], l.length + 257⟩)) (.lift_ok (addByte_full (by simp [Bytes.addSize])) rfl)
      fun x hx => ?_
    subst hx
    refine .bind (randomByte_good (by decide) ht) fun len hlen => ?_
    rw [e255] at hlen
    refine .bind (P := (· = ⟨(l ++ [type]) ++ [len], l.length + 257⟩)) (.lift_ok (addByte_full (by simp)) rfl)
      fun x hx => ?_
    subst hx
    refine .bind (randomBlock_good 255 (by omega) ht) fun tmp htmp => ?_
    refine .bind (P := (· = ⟨(l ++ [type]) ++ [len] ++ tmp.data, l.length + 257⟩)) (.lift_ok (addcopy_full (by simp; omega)) rfl)
      fun x hx => ?_
    subst hx
    have hcap : l.length + 257 = ((l ++ [type]) ++ [len] ++ tmp.data).length := by simp; omega
    rw [hcap]
    refine (ih _).mono fun x hx => ?_
    obtain ⟨bs, h1, h2, h3⟩ := hx
    have hb : ((l ++ [type]) ++ [len] ++ tmp.data) ++ encBytes bs = l ++ encBytes ((type, len, tmp.data) :: bs) := by
      simp [encBytes]
    refine ⟨(type, len, tmp.data) :: bs, by simp [h1], ?_, by rw [h3, hb]⟩
    intro b hb
    rcases List.mem_cons.mp hb with rfl | hb
    · exact ⟨htmp, by simp only; omega, by simp only; omega⟩
    · exact h2 b hb

/-- a chain-hash description of the generator: iterations below 2^24 (possibly zero), a mode that fits the data block -/
structure GenDesc (set : Option Byte) (c : ChainDesc) : Prop where
  iters : c.iters < 2 ^ 24
  mode : c.mode.toNat ≤ 4
  len : blockLenOk c.mode.toNat c.block.length = true
  asked : ∀ n, set = some n → c.block.length = n.toNat
  short : set = none → c.block.length ≤ 254
  small : c.block.length ≤ 255

theorem given_good {set : Option Byte} {lo up : Byte} (h : lo < up) (ht : T → ∀ i, (src i).good = true) :
    (given src set lo up).Good T fun v => (∀ n, set = some n → v = n) ∧
        (set = none → lo.toNat ≤ v.toNat ∧ v.toNat < up.toNat) := by
  cases set with
  | some n => exact .pure ⟨fun m e => Option.some.inj e, fun e => nomatch e⟩
  | none => exact (randomByte_good h ht).mono fun v hv => ⟨fun m e => (nomatch e), fun _ => hv⟩

theorem addZeros_full (k : Nat) : ∀ b : Bytes, b.data.length + k ≤ b.cap →
    addZeros k b = .ok ⟨b.data ++ List.replicate k 0, b.cap⟩ := by
  induction k with
  | zero => intro b _; simp [addZeros]
  | succ k ih =>
    intro b h
    rw [addZeros, addByte_full (by omega), Res.bind_ok, ih _ (by simp; omega)]
    simp [List.replicate_succ]

theorem num8_small (a b c : Byte) : num8 (beValue [a, b, c]) = [0, 0, 0, 0, 0, a, b, c] := by
  have := num8_beValue (l := [0, 0, 0, 0, 0, a, b, c]) rfl
  rw [← this]
  simp [beValue]

theorem genChain_good {fuel : Nat} {set : Option Byte} {more : Res Nat} (ht : T → Varied src fuel)
    (hm : T → ∃ n, more = .ok n) (hbig : ∀ n, more = .ok n → 1 ≤ n ∧ n < 2 ^ 16) (l : List Byte) (hl : l.length < 2 ^ 30) :
    (genChain src fuel set more ⟨l, l.length + 9⟩).Good T fun x => ∃ c n, GenDesc set c ∧ more = .ok n ∧
      x = ⟨l ++ c.bytes, (l ++ c.bytes).length + (n - 1)⟩ := by
  have hg := fun t => (ht t).1
  refine .bind (given_good (by decide) hg) fun clen hclen => ?_
  refine .bind (chainMode_good clen fuel ht) fun cm hcm => ?_
  refine .bind (P := (· = ⟨l ++ [cm], l.length + 9⟩)) (.lift_ok (addByte_full (by simp)) rfl) fun x hx => ?_
  subst hx
  refine .bind (P := (· = ⟨l ++ [cm] ++ List.replicate 5 0, l.length + 9⟩)) (.lift_ok (addZeros_full 5 _ (by simp)) rfl)
    fun x hx => ?_
  subst hx
  refine .bind (fillrandom_good _ (by simp only; omega) hg) fun x hx => ?_
  obtain ⟨it, hit, rfl⟩ := hx
  have hit3 : it.length = 3 := by rw [hit]; simp
  have hc := clen.toNat_lt
  refine .bind (randomBlock_good _ (by omega) hg) fun tmp htmp => ?_
  refine .bind (P := fun n => more = .ok n) (.lift hm fun _ e => e) fun n hn => ?_
  obtain ⟨hn1, hn2⟩ := hbig n hn
  refine .bind (P := (· = ⟨l ++ [cm] ++ List.replicate 5 0 ++ it ++ [clen], l.length + 9 + (clen.toNat + n)⟩))
    (.lift_ok (addByte_full (by simp [Bytes.addSize]; omega)) rfl) fun x hx => ?_
  subst hx
  refine .lift_ok (addcopy_full (by simp; omega)) ?_
  match it, hit3 with
  | [a, b, c], _ =>
    refine ⟨⟨cm, beValue [a, b, c], tmp.data⟩, n, ⟨?_, hcm.1, ?_, ?_, ?_, ?_⟩, hn, ?_⟩
    · have := beValue_lt [a, b, c]; simpa using this
    · show blockLenOk cm.toNat tmp.data.length = true
      rw [htmp]; exact hcm.2
    · intro m e; show tmp.data.length = _; rw [htmp, hclen.1 m e]
    · intro e
      have := (hclen.2 e).2
      have e255 : (255 : Byte).toNat = 255 := rfl
      show tmp.data.length ≤ 254
      omega
    · show tmp.data.length ≤ 255
      omega
    · have e1 : UInt8.ofNat tmp.data.length = clen := by rw [htmp]; exact UInt8.ofNat_toNat
      simp only [ChainDesc.bytes, num8_small, e1, Bytes.mk.injEq]
      constructor
      · simp
      · simp; omega

/-! ### the whole header -/

/-- what the generator makes -/
structure GenHeader (set : GenSet) (h : Header) : Prop where
  size : h.fileSize = h.length
  fileMode : h.fileMode = 1
  hashMode : h.hashMode = 1 ∨ h.hashMode = 2 ∨ h.hashMode = 3
  hashAsked : ∀ m, set.hashmode = some m → h.hashMode = m
  hashFree : set.hashmode = none → h.hashMode ≠ 3
  blocks : ∀ b ∈ h.blocks, 1 ≤ b.2.length ∧ b.2.length ≤ 254 ∧ b.1.toNat ≤ 254
  blockCount : h.blocks.length ≤ 255
  blockAsked : ∀ n, set.datablocknum = some n → h.blocks.length = n.toNat
  blockFree : set.datablocknum = none → h.blocks.length ≤ 254
  ch1 : GenDesc set.chainhashlen1 h.ch1
  ch2 : GenDesc set.chainhashlen2 h.ch2
  validator : h.validator.length = digestSize h.hashMode
  salt : h.salt.length = digestSize h.hashMode
  enc : ∀ b ∈ h.encBlocks, b.2.2.length = 255 ∧ b.1.toNat ≤ 254 ∧ b.2.1.toNat ≤ 254
  encCount : h.encBlocks.length ≤ 255
  encAsked : ∀ n, set.decdatablocknum = some n → h.encBlocks.length = n.toNat
  encFree : set.decdatablocknum = none → h.encBlocks.length ≤ 254
  bound : h.length < 2 ^ 18

theorem blockBytes_le {bs : List (Byte × List Byte)} (h : ∀ b ∈ bs, b.2.length ≤ 254) : (blockBytes bs).length ≤ 256 * bs.length := by
  induction bs with
  | nil => simp [blockBytes]
  | cons b bs ih =>
    have h1 := h b List.mem_cons_self
    have h2 := ih fun x hx => h x (List.mem_cons_of_mem _ hx)
    simp only [blockBytes, List.flatMap_cons, List.length_append, List.length_cons] at h2 ⊢
    omega

theorem hashSizeOf_ok {b : Byte} {n : Nat} (h : hashSizeOf b = .ok n) : (b = 1 ∨ b = 2 ∨ b = 3) ∧ n = digestSize b ∧ n ≤ 64 := by
  unfold hashSizeOf at h
  split at h
  · rename_i m hm
    cases h
    have hb := HeaderParse.ofByte_valid hm
    refine ⟨hb, ?_⟩
    rcases hb with rfl | rfl | rfl <;> cases hm <;> decide
  · cases h

theorem hashSizeOf_valid {b : Byte} (h : b = 1 ∨ b = 2 ∨ b = 3) : ∃ n, hashSizeOf b = .ok n := by
  rcases h with rfl | rfl | rfl
  · exact ⟨32, by decide⟩
  · exact ⟨48, by decide⟩
  · exact ⟨64, by decide⟩

theorem addrandom_good {b : Bytes} {n : Nat} (hn : b.data.length + n ≤ b.cap) (hs : n < 2 ^ 31) {m : Int} (hm : m = n)
    (ht : T → ∀ i, (src i).good = true) :
    (Draw.ask src (b.addrandom m)).Good T fun x => ∃ l, l.length = n ∧ x = ⟨b.data ++ l, b.cap⟩ := by
  subst hm
  have e : ∀ r : Rand, b.addrandom (n : Int) r = (Bytes.randomBytes r n).bind fun l => .ok ⟨b.data ++ l, b.cap⟩ := by
    intro r
    simp only [Bytes.addrandom]
    rw [if_neg (by omega), Int.toNat_natCast, if_neg (by omega)]
    rfl
  refine .ask (fun t i => ⟨⟨b.data ++ (src i).take n, b.cap⟩, ?_⟩) fun r a h => ?_
  · have h1 : ¬ (n % 2 ^ 32 ≥ 2 ^ 31 ∨ (src i).good = false) := by
      rw [ht t i]; simp; omega
    rw [e, Bytes.randomBytes, if_neg h1, if_neg (by omega)]; rfl
  · rw [e, Bytes.randomBytes] at h
    split at h
    · cases h
    · rw [if_neg (by omega)] at h
      cases h
      exact ⟨_, Rand.length_take _ _, rfl⟩

theorem toNat_le255 (b : Byte) : b.toNat ≤ 255 := by have := b.toNat_lt; omega

theorem byte12 {v : Byte} (h1 : (1 : Byte).toNat ≤ v.toNat) (h2 : v.toNat < (3 : Byte).toNat) : v = 1 ∨ v = 2 := by
  have e1 : (1 : Byte).toNat = 1 := rfl
  have e3 : (3 : Byte).toNat = 3 := rfl
  have : v.toNat = 1 ∨ v.toNat = 2 := by omega
  rcases this with h | h
  · exact .inl (UInt8.toNat_inj.mp h)
  · exact .inr (UInt8.toNat_inj.mp h)

theorem generate_good {set : GenSet} {fuel : Nat} (ht : T → Varied src fuel)
    (hm : T → ∀ m, set.hashmode = some m → m = 1 ∨ m = 2 ∨ m = 3) :
    (generate src set fuel).Good T fun x => ∃ h, GenHeader set h ∧ x.data = h.bytes := by
  have hg := fun t => (ht t).1
  refine .bind (fillrandom_good (Bytes.empty 16) (by decide) hg) fun x hx => ?_
  obtain ⟨z, hz, rfl⟩ := hx
  have hz16 : z.length = 16 := hz
  refine .bind (P := (· = ⟨z ++ [1], 19⟩)) (.lift_ok (addByte_full (by simp [Bytes.addSize, Bytes.empty, hz16])) rfl)
    fun x hx => ?_
  subst hx
  refine .bind (given_good (by decide) hg) fun hmode hhm => ?_
  refine .bind (P := (· = ⟨z ++ [1] ++ [hmode], 19⟩)) (.lift_ok (addByte_full (by simp [hz16])) rfl) fun x hx => ?_
  subst hx
  refine .bind (given_good (by decide) hg) fun num hnum => ?_
  refine .bind (P := (· = ⟨z ++ [1] ++ [hmode] ++ [num], (z ++ [1] ++ [hmode] ++ [num]).length⟩))
    (.lift_ok (addByte_full (by simp [hz16])) (by simp [hz16])) fun x hx => ?_
  subst hx
  refine .bind (genBlocks_good hg _ _) fun x hx => ?_
  obtain ⟨bs, hbl, hbs, rfl⟩ := hx
  have hbb := blockBytes_le fun b hb => (hbs b hb).2.1
  have hn := toNat_le255 num
  have hlen : (z ++ [1] ++ [hmode] ++ [num] ++ blockBytes bs).length ≤ 70000 := by
    simp only [List.length_append, List.length_cons, List.length_nil]; omega
  have hT : T → hmode = 1 ∨ hmode = 2 ∨ hmode = 3 := by
    intro t
    cases hs : set.hashmode with
    | some m => rw [hhm.1 m hs]; exact hm t m hs
    | none =>
      rcases byte12 (hhm.2 hs).1 (hhm.2 hs).2 with h | h
      · exact .inl h
      · exact .inr (.inl h)
  refine .bind (genChain_good ht (fun _ => ⟨10, rfl⟩) (fun n e => by cases e; omega) _ (Nat.lt_of_le_of_lt hlen (by omega))) fun x hx => ?_
  obtain ⟨c1, n1, hc1, e1, rfl⟩ := hx
  cases e1
  have hc1l : c1.bytes.length ≤ 300 := by
    have := hc1.small
    simp only [ChainDesc.bytes, List.length_cons, List.length_append, length_num8]; omega
  have hlen1 : (z ++ [1] ++ [hmode] ++ [num] ++ blockBytes bs ++ c1.bytes).length ≤ 70300 := by
    rw [List.length_append]; omega
  refine .bind (genChain_good ht (fun t => ?_) (fun n e => ?_) _ (Nat.lt_of_le_of_lt hlen1 (by omega))) fun x hx => ?_
  · obtain ⟨k, hk⟩ := hashSizeOf_valid (hT t)
    exact ⟨1 + 1 + 2 * k, by rw [hk]; rfl⟩
  · cases hk : hashSizeOf hmode with
    | ok k => rw [hk] at e; cases e; have := (hashSizeOf_ok hk).2.2; omega
    | exn _ => rw [hk] at e; cases e
    | fatal _ => rw [hk] at e; cases e
  obtain ⟨c2, n2, hc2, e2, rfl⟩ := hx
  obtain ⟨k, hk, hn2⟩ : ∃ k, hashSizeOf hmode = .ok k ∧ n2 = 1 + 1 + 2 * k := by
    cases hk : hashSizeOf hmode with
    | ok k => rw [hk] at e2; cases e2; exact ⟨k, rfl, rfl⟩
    | exn _ => rw [hk] at e2; cases e2
    | fatal _ => rw [hk] at e2; cases e2
  obtain ⟨hmv, hkd, hk64⟩ := hashSizeOf_ok hk
  subst hn2
  refine .bind (addrandom_good (n := 2 * k) (by simp only; omega) (by omega) (by simp only; omega) hg) fun x hx => ?_
  obtain ⟨vs, hvs, rfl⟩ := hx
  refine .bind (given_good (by decide) hg) fun dnum hdnum => ?_
  refine .bind (P := (· = ⟨z ++ [1] ++ [hmode] ++ [num] ++ blockBytes bs ++ c1.bytes ++ c2.bytes ++ vs ++ [dnum],
      (z ++ [1] ++ [hmode] ++ [num] ++ blockBytes bs ++ c1.bytes ++ c2.bytes ++ vs ++ [dnum]).length⟩))
    (.lift_ok (addByte_full (by simp only [List.length_append]; omega))
      (by simp only [Bytes.mk.injEq, true_and, List.length_append, List.length_cons, List.length_nil]; omega)) fun x hx => ?_
  subst hx
  refine .bind (genEncBlocks_good hg _ _) fun x hx => ?_
  obtain ⟨es, hel, hes, rfl⟩ := hx
  have hn' := toNat_le255 dnum
  have e255 : (255 : Byte).toNat = 255 := rfl
  -- the header
  let h : Header :=
    ⟨0, 1, hmode, bs, c1, c2, vs.take k, vs.drop k, es⟩
  have hv : h.validator.length = digestSize h.hashMode := by
    show (vs.take k).length = digestSize hmode
    rw [List.length_take, ← hkd]; omega
  have hs : h.salt.length = digestSize h.hashMode := by
    show (vs.drop k).length = digestSize hmode
    rw [List.length_drop, ← hkd]; omega
  have hbytes := length_bytes h hv hs fun b hb => (hes b hb).1
  have hcont : z ++ [1] ++ [hmode] ++ [num] ++ blockBytes bs ++ c1.bytes ++ c2.bytes ++ vs ++ [dnum] ++ encBytes es =
      z ++ h.content := by
    have hn1 : UInt8.ofNat bs.length = num := by rw [hbl]; exact UInt8.ofNat_toNat
    have hn2 : UInt8.ofNat es.length = dnum := by rw [hel]; exact UInt8.ofNat_toNat
    have hvs' : vs = vs.take k ++ vs.drop k := (List.take_append_drop k vs).symm
    show _ = z ++ (1 :: hmode :: UInt8.ofNat bs.length :: (blockBytes bs ++ (c1.bytes ++ (c2.bytes ++
      (vs.take k ++ (vs.drop k ++ UInt8.ofNat es.length :: encBytes es))))))
    rw [hn1, hn2]
    have hd : vs ++ dnum :: encBytes es = vs.take k ++ (vs.drop k ++ dnum :: encBytes es) := by
      rw [← List.append_assoc, ← hvs']
    simp [hd]
  rw [hcont]
  have hL : (z ++ h.content).length = h.length := by
    rw [← hbytes, Header.bytes]
    simp only [List.length_append, length_num8, hz16]; omega
  rw [hL]
  have hb18 : h.length < 2 ^ 18 := by
    have a1 : (h.blocks.map fun b => b.2.length).sum ≤ 256 * 255 := by
      have : ∀ l : List (Byte × List Byte), (∀ b ∈ l, b.2.length ≤ 254) → (l.map fun b => b.2.length).sum ≤ 254 * l.length := by
        intro l
        induction l with
        | nil => simp
        | cons b l ih =>
          intro hb
          have h1 := hb b List.mem_cons_self
          have h2 := ih fun x hx => hb x (List.mem_cons_of_mem _ hx)
          simp only [List.map_cons, List.sum_cons, List.length_cons]; omega
      have := this bs fun b hb => (hbs b hb).2.1
      show (bs.map fun b => b.2.length).sum ≤ _
      omega
    have a2 : h.ch1.block.length ≤ 255 := hc1.small
    have a3 : h.ch2.block.length ≤ 255 := hc2.small
    have a4 : h.blocks.length ≤ 255 := by show bs.length ≤ 255; omega
    have a5 : h.encBlocks.length ≤ 255 := by show es.length ≤ 255; omega
    have a6 : digestSize h.hashMode ≤ 64 := by show digestSize hmode ≤ 64; omega
    unfold Header.length
    omega
  have hsmall : h.length < 2 ^ 64 := by omega
  refine .bind (P := (· = ⟨be8 (UInt64.ofNat h.length), 8⟩)) (.lift_ok (fromLong_true _) rfl) fun x hx => ?_
  subst hx
  have hb8 : be8 (UInt64.ofNat h.length) = num8 h.length := by
    exact num8_ofNat hsmall
  refine .pure ⟨{ h with fileSize := h.length }, ⟨rfl, rfl, hmv, hhm.1, ?_, hbs, ?_, ?_, ?_, hc1, hc2, hv, hs, hes, ?_, ?_, ?_, hb18⟩, ?_⟩
  · intro e he
    have := (hhm.2 e).2
    have h3 : hmode = 3 := he
    rw [h3] at this
    exact absurd this (by decide)
  · show bs.length ≤ 255; omega
  · intro n e; show bs.length = _; rw [hbl, hnum.1 n e]
  · intro e; have := (hnum.2 e).2; show bs.length ≤ 254; omega
  · show es.length ≤ 255; omega
  · intro n e; show es.length = _; rw [hel, hdnum.1 n e]
  · intro e; have := (hdnum.2 e).2; show es.length ≤ 254; omega
  · have hd : (z ++ h.content).drop (2 * (be8 (UInt64.ofNat h.length)).length) = h.content := by
      rw [hb8, length_num8, List.drop_append_of_le_length (by omega), List.drop_eq_nil_of_le (by omega), List.nil_append]
    show be8 _ ++ be8 _ ++ (z ++ h.content).drop (2 * (be8 (UInt64.ofNat h.length)).length) = num8 h.length ++ (num8 h.length ++ h.content)
    rw [hd, hb8, List.append_assoc]

theorem generateDH_ok {set : GenSet} {fuel : Nat} {b : Bytes} (hb : generateDH src set fuel = .ok b) :
    ∃ h, GenHeader set h ∧ b.data = h.bytes := by
  cases hq : generate src set fuel 0 with
  | ok y =>
    rw [generateDH, hq] at hb
    cases hb
    exact (generate_good (T := False) (fun t => t.elim) (fun t => t.elim) 0).2 y.1 y.2 hq
  | exn _ => rw [generateDH, hq] at hb; cases hb
  | fatal _ => rw [generateDH, hq] at hb; cases hb

theorem generateDH_returns {set : GenSet} {fuel : Nat} (hv : Varied src fuel)
    (hm : ∀ m, set.hashmode = some m → m = 1 ∨ m = 2 ∨ m = 3) : ∃ b, generateDH src set fuel = .ok b := by
  obtain ⟨a, j, h⟩ := (generate_good (src := src) (set := set) (fuel := fuel) (T := True) (fun _ => hv) (fun _ => hm) 0).1 trivial
  exact ⟨a, by rw [generateDH, h]; rfl⟩

/-! ### the bytes determine the header -/

theorem num8_injective {a b : Nat} (ha : a < 2 ^ 64) (hb : b < 2 ^ 64) (h : num8 a = num8 b) : a = b := by
  have e := congrArg beValue h
  rw [← num8_ofNat ha, ← num8_ofNat hb, beValue_be8, beValue_be8, HeaderParse.ofNat_toNat64 ha, HeaderParse.ofNat_toNat64 hb] at e
  exact e

theorem ofNat8_inj {a b : Nat} (ha : a ≤ 255) (hb : b ≤ 255) (h : UInt8.ofNat a = UInt8.ofNat b) : a = b := by
  have e := congrArg UInt8.toNat h
  rw [UInt8.toNat_ofNat', UInt8.toNat_ofNat'] at e
  omega

theorem blockBytes_inj {bs : List (Byte × List Byte)} : ∀ {bs' : List (Byte × List Byte)} {r r' : List Byte},
    bs.length = bs'.length → (∀ b ∈ bs, b.2.length ≤ 255) → (∀ b ∈ bs', b.2.length ≤ 255) →
    blockBytes bs ++ r = blockBytes bs' ++ r' → bs = bs' ∧ r = r' := by
  induction bs with
  | nil =>
    intro bs' r r' hl _ _ h
    have : bs' = [] := List.eq_nil_of_length_eq_zero (by simpa using hl.symm)
    subst this
    exact ⟨rfl, h⟩
  | cons b bs ih =>
    intro bs' r r' hl h1 h2 h
    cases bs' with
    | nil => simp at hl
    | cons b' bs' =>
      have e : ∀ (x : Byte × List Byte) (xs : List (Byte × List Byte)) (q : List Byte), blockBytes (x :: xs) ++ q =
          x.1 :: UInt8.ofNat x.2.length :: (x.2 ++ (blockBytes xs ++ q)) := by
        intro x xs q; simp [blockBytes]
      rw [e, e] at h
      injection h with t h
      injection h with n h
      have hn := ofNat8_inj (h1 b List.mem_cons_self) (h2 b' List.mem_cons_self) n
      obtain ⟨d, h⟩ := List.append_inj h hn
      obtain ⟨h3, h4⟩ := ih (by simpa using hl) (fun x hx => h1 x (List.mem_cons_of_mem _ hx))
        (fun x hx => h2 x (List.mem_cons_of_mem _ hx)) h
      exact ⟨by rw [h3, Prod.ext t d], h4⟩

theorem encBytes_inj {bs : List (Byte × Byte × List Byte)} : ∀ {bs' : List (Byte × Byte × List Byte)},
    bs.length = bs'.length → (∀ b ∈ bs, b.2.2.length = 255) → (∀ b ∈ bs', b.2.2.length = 255) →
    encBytes bs = encBytes bs' → bs = bs' := by
  induction bs with
  | nil =>
    intro bs' hl _ _ _
    exact (List.eq_nil_of_length_eq_zero (by simpa using hl.symm)).symm
  | cons b bs ih =>
    intro bs' hl h1 h2 h
    cases bs' with
    | nil => simp at hl
    | cons b' bs' =>
      have e : ∀ (x : Byte × Byte × List Byte) (xs : List (Byte × Byte × List Byte)), encBytes (x :: xs) =
          x.1 :: x.2.1 :: (x.2.2 ++ encBytes xs) := by
        intro x xs; simp [encBytes]
      rw [e, e] at h
      injection h with t h
      injection h with n h
      obtain ⟨d, h⟩ := List.append_inj h (by rw [h1 b List.mem_cons_self, h2 b' List.mem_cons_self])
      have h3 := ih (by simpa using hl) (fun x hx => h1 x (List.mem_cons_of_mem _ hx))
        (fun x hx => h2 x (List.mem_cons_of_mem _ hx)) h
      rw [h3, Prod.ext t (Prod.ext n d)]

theorem descBytes_inj {c c' : ChainDesc} {r r' : List Byte} (hi : c.iters < 2 ^ 64) (hi' : c'.iters < 2 ^ 64)
    (hl : c.block.length ≤ 255) (hl' : c'.block.length ≤ 255) (h : c.bytes ++ r = c'.bytes ++ r') : c = c' ∧ r = r' := by
  have e : ∀ (x : ChainDesc) (q : List Byte), x.bytes ++ q =
      x.mode :: (num8 x.iters ++ (UInt8.ofNat x.block.length :: (x.block ++ q))) := by
    intro x q; simp [ChainDesc.bytes]
  rw [e, e] at h
  injection h with m h
  obtain ⟨i, h⟩ := List.append_inj h (by rw [length_num8, length_num8])
  injection h with n h
  obtain ⟨d, hrest⟩ := List.append_inj h (ofNat8_inj hl hl' n)
  have i' := num8_injective hi hi' i
  cases c; cases c'
  simp only at m i' d
  subst m i' d
  exact ⟨rfl, hrest⟩

/-- what the format needs, without the conditions on the values -/
structure Shaped (h : Header) : Prop where
  size : h.fileSize < 2 ^ 64
  blockCount : h.blocks.length ≤ 255
  blockLen : ∀ b ∈ h.blocks, b.2.length ≤ 255
  iters1 : h.ch1.iters < 2 ^ 64
  iters2 : h.ch2.iters < 2 ^ 64
  len1 : h.ch1.block.length ≤ 255
  len2 : h.ch2.block.length ≤ 255
  validator : h.validator.length = digestSize h.hashMode
  salt : h.salt.length = digestSize h.hashMode
  encCount : h.encBlocks.length ≤ 255
  encLen : ∀ b ∈ h.encBlocks, b.2.2.length = 255

theorem bytes_injective {a b : Header} (ha : Shaped a) (hb : Shaped b) (h : a.bytes = b.bytes) : a = b := by
  unfold Header.bytes at h
  obtain ⟨f, h⟩ := List.append_inj h (by rw [length_num8, length_num8])
  obtain ⟨-, h⟩ := List.append_inj h (by rw [length_num8, length_num8])
  unfold Header.content at h
  injection h with m h
  injection h with hm h
  injection h with n h
  obtain ⟨e1, h⟩ := blockBytes_inj (ofNat8_inj ha.blockCount hb.blockCount n) ha.blockLen hb.blockLen h
  obtain ⟨e2, h⟩ := descBytes_inj ha.iters1 hb.iters1 ha.len1 hb.len1 h
  obtain ⟨e3, h⟩ := descBytes_inj ha.iters2 hb.iters2 ha.len2 hb.len2 h
  obtain ⟨e4, h⟩ := List.append_inj h (by rw [ha.validator, hb.validator, hm])
  obtain ⟨e5, h⟩ := List.append_inj h (by rw [ha.salt, hb.salt, hm])
  injection h with n h
  have e6 := encBytes_inj (ofNat8_inj ha.encCount hb.encCount n) ha.encLen hb.encLen h
  have f' := num8_injective ha.size hb.size f
  cases a; cases b
  simp only at *
  subst m hm e1 e2 e3 e4 e5 e6 f'
  rfl

theorem blockLenOk_le {m n : Nat} (h : blockLenOk m n = true) : n ≤ 255 := by
  unfold blockLenOk at h
  split at h <;> simp at h <;> omega

theorem Valid.shaped {h : Header} (hv : h.Valid) : Shaped h where
  size := hv.size64
  blockCount := hv.blockCount
  blockLen b hb := (hv.blockLen b hb).2
  iters1 := by have := hv.ch1.2.1; omega
  iters2 := by have := hv.ch2.2.1; omega
  len1 := blockLenOk_le hv.ch1.2.2
  len2 := blockLenOk_le hv.ch2.2.2
  validator := hv.validator
  salt := hv.salt
  encCount := hv.encCount
  encLen := hv.encLen

theorem GenHeader.shaped {set : GenSet} {h : Header} (g : GenHeader set h) : Shaped h where
  size := by rw [g.size]; have := g.bound; omega
  blockCount := g.blockCount
  blockLen b hb := by have := (g.blocks b hb).2.1; omega
  iters1 := by have := g.ch1.iters; omega
  iters2 := by have := g.ch2.iters; omega
  len1 := g.ch1.small
  len2 := g.ch2.small
  validator := g.validator
  salt := g.salt
  encCount := g.encCount
  encLen b hb := (g.enc b hb).1

theorem GenDesc.valid {s : Option Byte} {c : ChainDesc} (h : GenDesc s c) (hi : c.iters ≠ 0) : c.Valid :=
  ⟨by omega, by have := h.iters; omega, h.len⟩

theorem GenHeader.valid {set : GenSet} {h : Header} (g : GenHeader set h) (h1 : h.ch1.iters ≠ 0) (h2 : h.ch2.iters ≠ 0) :
    h.Valid where
  size := by rw [g.size]; exact Nat.le_refl _
  size64 := by rw [g.size]; have := g.bound; omega
  fileMode := g.fileMode
  hashMode := g.hashMode
  blockCount := g.blockCount
  blockLen b hb := ⟨(g.blocks b hb).1, by have := (g.blocks b hb).2.1; omega⟩
  ch1 := g.ch1.valid h1
  ch2 := g.ch2.valid h2
  validator := g.validator
  salt := g.salt
  encCount := g.encCount
  encLen b hb := (g.enc b hb).1

theorem GenHeader.asked {set : GenSet} {h : Header} (g : GenHeader set h) : AsAsked set h :=
  ⟨g.hashAsked, g.blockAsked, g.encAsked, g.ch1.asked, g.ch2.asked⟩

end Verif.HeaderGen
