import Verif.Spec.SamePassword
import Verif.Props.Collision
import Verif.Props.PwFunc
import Verif.Props.Faults

/- What two files show about their passwords: C102. -/
namespace Verif.Props
open Spec HeaderParse

variable {hs : Hashes} {rest : Api.Helper → Res Api.Helper}

theorem chain_size (H : HashFn) (r : SaltRule) (n : Nat) (x : List Byte) : (chain H.h r (n + 1) x).length = H.size := by
  rw [chain_succ]; exact H.len _

/-- equal results: either somewhere different inputs have the same hash, or everything was the same -/
theorem chain_pair (H : HashFn) (r r' : SaltRule) {x y : List Byte} (hl : x.length = y.length) : ∀ n,
    chain H.h r n x = chain H.h r' n y →
    (∃ k, k < n ∧ chain H.h r k x ++ r.at k ≠ chain H.h r' k y ++ r'.at k ∧
      H.h (chain H.h r k x ++ r.at k) = H.h (chain H.h r' k y ++ r'.at k)) ∨
    (x = y ∧ ∀ i, i < n → r.at i = r'.at i)
  | 0, h => .inr ⟨h, fun i hi => absurd hi (by omega)⟩
  | n + 1, h => by
    rw [chain_succ, chain_succ] at h
    by_cases hc : chain H.h r n x ++ r.at n = chain H.h r' n y ++ r'.at n
    · have hlen : (chain H.h r n x).length = (chain H.h r' n y).length := by
        cases n with
        | zero => exact hl
        | succ n => rw [chain_size, chain_size]
      obtain ⟨h1, h2⟩ := List.append_inj hc hlen
      rcases chain_pair H r r' hl n h1 with ⟨k, hk, h3⟩ | ⟨h3, h4⟩
      · exact .inl ⟨k, by omega, h3⟩
      · refine .inr ⟨h3, fun i hi => ?_⟩
        by_cases hin : i = n
        · rw [hin]; exact h2
        · exact h4 i (by omega)
    · exact .inl ⟨n, by omega, hc, h⟩

theorem chain_same {h : List Byte → List Byte} {r r' : SaltRule} {x : List Byte} : ∀ {n : Nat},
    (∀ i, i < n → r.at i = r'.at i) → chain h r n x = chain h r' n x
  | 0, _ => rfl
  | n + 1, hs => by
    rw [chain_succ, chain_succ, chain_same (n := n) (fun i hi => hs i (by omega)), hs n (by omega)]

theorem digest_same {h : List Byte → List Byte} {c c' : ChainDesc} (hc : SameSalts c c') (x : List Byte) :
    c.digest h x = c'.digest h x := by
  rw [ChainDesc.digest, ChainDesc.digest, ← hc.1]
  exact chain_same hc.2

theorem sameMode {m m' : HMode} (h : m.toByte = m'.toByte) : m = m' := by
  revert h; cases m <;> cases m' <;> decide

/-! ## C102 (violated) -/

/-- C102, the part that holds: if two headers with the same choices open with the same password and have the same validator,
then their chain hashes append the same salt in every round, or the hashing shows a collision of the hash function. Missing:
that the salts differ, see `C102_salts_partial`, `C102_violated_normal` and `C102_violated_quad`. -/
theorem C102_partial (hd hd' : Header) (hv : hd.ch1.Valid ∧ hd.ch2.Valid) (hsame : SameChoices hd hd') (m : HMode) (hm : m.toByte = hd.hashMode)
    (pw : List Byte) (ho : Opens hs hd pw) (ho' : Opens hs hd' pw) (heq : hd.validator = hd'.validator) :
    (SameSalts hd.ch1 hd'.ch1 ∧ SameSalts hd.ch2 hd'.ch2) ∨
      ShowCollision (hs.get m).h (checkInputs (hs.get m).h hd pw) (checkInputs (hs.get m).h hd' pw) := by
  obtain ⟨m1, a1, a2⟩ := ho
  obtain ⟨m2, b1, b2⟩ := ho'
  obtain ⟨s0, -, s2, -, s4⟩ := hsame
  have : m1 = m := sameMode (a1.trans hm.symm)
  subst this
  have : m2 = m1 := sameMode (b1.trans (s0.symm.trans a1.symm))
  subst this
  have he := (a2.trans heq).trans b2.symm
  have hl : (hd.ch1.digest (hs.get m2).h pw).length = (hd'.ch1.digest (hs.get m2).h pw).length := by
    rw [Api.digest_length _ _ hv.1.1, Api.digest_length _ _ (by rw [← s2]; exact hv.1.1)]
  have he : chain (hs.get m2).h (ruleOf hd.ch2.mode.toNat hd.ch2.block) hd.ch2.iters (hd.ch1.digest (hs.get m2).h pw) =
      chain (hs.get m2).h (ruleOf hd'.ch2.mode.toNat hd'.ch2.block) hd'.ch2.iters (hd'.ch1.digest (hs.get m2).h pw) := he
  rw [← s4] at he
  rcases chain_pair (hs.get m2) _ _ hl _ he with ⟨k, k1, k2, k3⟩ | ⟨k1, k2⟩
  · right
    refine ⟨hd.ch1.iters + k, _, _, ?_, ?_, k2, k3⟩
    · rw [checkInputs, List.getElem?_append_right (by simp [chainInputs])]
      simp only [chainInputs, List.length_map, List.length_range, Nat.add_sub_cancel_left]
      exact chainInputs_get _ _ k1 _
    · rw [checkInputs, s2, List.getElem?_append_right (by simp [chainInputs])]
      simp only [chainInputs, List.length_map, List.length_range, Nat.add_sub_cancel_left]
      exact chainInputs_get _ _ (by omega) _
  · rw [ChainDesc.digest, ChainDesc.digest, ← s2] at k1
    rcases chain_pair (hs.get m2) _ _ rfl _ k1 with ⟨j, j1, j2, j3⟩ | ⟨-, j2⟩
    · right
      refine ⟨j, _, _, ?_, ?_, j2, j3⟩
      · rw [checkInputs, List.getElem?_append_left (by simpa [chainInputs] using j1), chainInputs_get _ _ j1]
      · rw [checkInputs, List.getElem?_append_left (by simpa [chainInputs] using (by omega : j < hd'.ch1.iters)),
          chainInputs_get _ _ (by omega)]
    · exact .inl ⟨⟨s2, j2⟩, s4, k2⟩

/-- C102, the converse: with the same salts in every round the same password always shows. -/
theorem C102_same_salts_show (hd hd' : Header) (hm : hd.hashMode = hd'.hashMode) (h1 : SameSalts hd.ch1 hd'.ch1)
    (h2 : SameSalts hd.ch2 hd'.ch2) (pw : List Byte) (ho : Opens hs hd pw) (ho' : Opens hs hd' pw) :
    hd.validator = hd'.validator := by
  obtain ⟨m1, a1, a2⟩ := ho
  obtain ⟨m2, b1, b2⟩ := ho'
  have : m2 = m1 := sameMode (b1.trans (hm.symm.trans a1.symm))
  subst this
  rw [← a2, ← b2, digest_same h1, digest_same h2]

theorem decText_inj {a b : Nat} (h : decText a = decText b) : a = b := by
  have := congrArg decValue h
  rwa [(C09_decText_correct a).1, (C09_decText_correct b).1] at this

theorem beValue_inj {a b : List Byte} (ha : a.length = 8) (hb : b.length = 8) (h : beValue a = beValue b) : a = b := by
  rw [← num8_beValue ha, ← num8_beValue hb, h]

theorem count_inj {s s' i : Nat} (hs : s < 2 ^ 64) (hs' : s' < 2 ^ 64)
    (h : decText ((s + i) % 2 ^ 64) = decText ((s' + i) % 2 ^ 64)) : s = s' := by
  have := decText_inj h
  omega

theorem beValue_lt8 {l : List Byte} (h : l.length = 8) : beValue l < 2 ^ 64 := by
  have := beValue_lt l
  rw [h] at this
  exact this

theorem salts_block {c c' : ChainDesc} (hv : c.Valid) (hv' : c'.Valid) (hm : c.mode = c'.mode) (hs : Salted c.mode)
    (hl : c.block.length = c'.block.length) (h : SameSalts c c') : c.block = c'.block := by
  obtain ⟨i1, -, v1⟩ := hv
  obtain ⟨-, -, v2⟩ := hv'
  have h0 := h.2 0 (by omega)
  rw [← hm] at h0 v2
  rcases hs with hs | hs | hs <;> rw [hs] at h0 v1 v2
  · exact h0
  · have l1 : c.block.length = 8 := by simpa [blockLenOk] using v1
    have l2 : c'.block.length = 8 := by omega
    exact beValue_inj l1 l2 (count_inj (beValue_lt8 l1) (beValue_lt8 l2) h0)
  · have l1 : 8 ≤ c.block.length := by
      have : 8 ≤ c.block.length ∧ c.block.length ≤ 255 := by simpa [blockLenOk] using v1
      exact this.1
    have h0 : c.block.drop 8 ++ decText ((beValue (c.block.take 8) + 0) % 2 ^ 64) =
        c'.block.drop 8 ++ decText ((beValue (c'.block.take 8) + 0) % 2 ^ 64) := h0
    obtain ⟨e1, e2⟩ := List.append_inj h0 (by simp [hl])
    have t1 : (c.block.take 8).length = 8 := by simp; omega
    have t2 : (c'.block.take 8).length = 8 := by simp; omega
    have e3 := beValue_inj t1 t2 (count_inj (beValue_lt8 t1) (beValue_lt8 t2) e2)
    rw [← List.take_append_drop 8 c.block, e1, e3, List.take_append_drop]

/-- C102, the part that holds, for the salted modes: if two headers with the same choices open with the same password but have
different data blocks of the same length in a chain hash of mode 2, 3 or 4, then their validators differ, or the hashing shows a
collision. Missing: the modes 1 and 5. -/
theorem C102_salts_partial (hd hd' : Header) (hv : hd.ch1.Valid ∧ hd.ch2.Valid) (hv' : hd'.ch1.Valid ∧ hd'.ch2.Valid)
    (hsame : SameChoices hd hd') (m : HMode) (hm : m.toByte = hd.hashMode) (pw : List Byte) (ho : Opens hs hd pw) (ho' : Opens hs hd' pw)
    (hdiff : (Salted hd.ch1.mode ∧ hd.ch1.block.length = hd'.ch1.block.length ∧ hd.ch1.block ≠ hd'.ch1.block) ∨
      (Salted hd.ch2.mode ∧ hd.ch2.block.length = hd'.ch2.block.length ∧ hd.ch2.block ≠ hd'.ch2.block)) :
    hd.validator ≠ hd'.validator ∨
      ShowCollision (hs.get m).h (checkInputs (hs.get m).h hd pw) (checkInputs (hs.get m).h hd' pw) := by
  by_cases heq : hd.validator = hd'.validator
  · right
    rcases C102_partial hd hd' hv hsame m hm pw ho ho' heq with ⟨h1, h2⟩ | h
    · rcases hdiff with ⟨d1, d2, d3⟩ | ⟨d1, d2, d3⟩
      · exact absurd (salts_block hv.1 hv'.1 hsame.2.1 d1 d2 h1) d3
      · exact absurd (salts_block hv.2 hv'.2 hsame.2.2.2.1 d1 d2 h2) d3
    · exact h
  · exact .inl heq

/-- what two created headers have in common and what not -/
theorem created (e : Env) (w w' : World) (pw : List Byte) (ds : SettingsIters) (hds : BuiltSettings ds) (t : Nat)
    (h : Api.call hs rest e w (.createDataHeader pw ds t) = .ok (.flag (.success true), w')) :
    ∃ d hm m1 m2 n1 n2, w'.api.dh = some d ∧ ds.Are hm m1 m2 n1 n2 ∧ d.contents.hashMode = hm.toByte ∧
      d.contents.ch1 = ⟨m1.toByte, n1.toNat, (e.rand 0).take m1.randLen⟩ ∧
      d.contents.ch2 = ⟨m2.toByte, n2.toNat, (e.rand 1).take m2.randLen⟩ ∧ Opens hs d.contents pw := by
  rcases Api.createHeader_call h with ⟨hr, -⟩ | ⟨-, -, x, d, hx, hd, hw⟩
  · exact absurd rfl hr
  obtain ⟨-, -, hm, m1, m2, n1, n2, are, -, -, -, made⟩ := Api.create_success (Api.built_ok hds).1 (Api.built_ok hds).2 hx hd
  obtain ⟨v, hdh, hv⟩ := made.dh
  refine ⟨d, hm, m1, m2, n1, n2, ?_, are, ?_, ?_, ?_, hm, ?_, ?_⟩
  · rcases hw with ⟨-, hw⟩ | ⟨-, hw⟩ <;> rw [hw]
  · simp [DataHeader.contents, hdh]
  · simp only [DataHeader.contents, hdh, ChainHash.desc, Api.newChain, mkCH]
  · simp only [DataHeader.contents, hdh, ChainHash.desc, Api.newChain, mkCH]
  · simp [DataHeader.contents, hdh]
  · simp only [DataHeader.contents, hdh]
    rw [hv, made.hash]

/-- C102 violated: headers made with mode 1 for both chain hashes show whether they have the same password, whatever the random
source delivers, in whatever sessions and with whatever data blocks they are made: their validators are the same. -/
theorem C102_violated_normal (e e' : Env) (w w' v v' : World) (pw : List Byte) (ds ds' : SettingsIters) (hds : BuiltSettings ds)
    (hds' : BuiltSettings ds') (hh : ds.hashMode = ds'.hashMode) (h1 : ds.ch1Mode = some 1) (h1' : ds'.ch1Mode = some 1)
    (h2 : ds.ch2Mode = some 1) (h2' : ds'.ch2Mode = some 1) (n1 : ds.ch1Iters = ds'.ch1Iters) (n2 : ds.ch2Iters = ds'.ch2Iters)
    (t t' : Nat) (h : Api.call hs rest e w (.createDataHeader pw ds t) = .ok (.flag (.success true), w'))
    (h' : Api.call hs rest e' v (.createDataHeader pw ds' t') = .ok (.flag (.success true), v')) :
    ∃ d d', w'.api.dh = some d ∧ v'.api.dh = some d' ∧ d.contents.validator = d'.contents.validator := by
  obtain ⟨d, hm, a1, a2, i1, i2, k1, k2, k3, k4, k5, k6⟩ := created e w w' pw ds hds t h
  obtain ⟨d', hm', b1, b2, j1, j2, l1, l2, l3, l4, l5, l6⟩ := created e' v v' pw ds' hds' t' h'
  refine ⟨d, d', k1, l1, ?_⟩
  have one : ∀ m : CHMode, some 1 = some m.num → m = .normal := by intro m; cases m <;> decide
  have g1 := one a1 (h1.symm.trans k2.em1)
  have g2 := one a2 (h2.symm.trans k2.em2)
  have g3 := one b1 (h1'.symm.trans l2.em1)
  have g4 := one b2 (h2'.symm.trans l2.em2)
  subst g1 g2 g3 g4
  have e1 : hm.toByte = hm'.toByte := by
    have := (k2.ehm.symm.trans hh).trans l2.ehm
    simp only [Option.some.injEq] at this
    exact UInt8.toNat_inj.mp this
  have e2 : i1.toNat = j1.toNat := by simpa using (k2.en1.symm.trans n1).trans l2.en1
  have e3 : i2.toNat = j2.toNat := by simpa using (k2.en2.symm.trans n2).trans l2.en2
  refine C102_same_salts_show d.contents d'.contents (by rw [k3, l3, e1]) ?_ ?_ pw k6 l6
  · rw [k4, l4]; exact ⟨e2, fun _ _ => rfl⟩
  · rw [k5, l5]; exact ⟨e3, fun _ _ => rfl⟩

/-- C102 through the API: headers made with the same settings and the same password, mode 2, 3 or 4 for the second chain hash
and different first random bytes have different validators, or the hashing shows a collision. -/
theorem C102_created_partial (e e' : Env) (w w' v v' : World) (pw : List Byte) (ds : SettingsIters) (hds : BuiltSettings ds)
    (hmode : ds.ch2Mode = some 2 ∨ ds.ch2Mode = some 3 ∨ ds.ch2Mode = some 4) (t t' : Nat)
    (h : Api.call hs rest e w (.createDataHeader pw ds t) = .ok (.flag (.success true), w'))
    (h' : Api.call hs rest e' v (.createDataHeader pw ds t') = .ok (.flag (.success true), v'))
    (hdiff : (e.rand 1).take 8 ≠ (e'.rand 1).take 8) :
    ∃ d d' m, w'.api.dh = some d ∧ v'.api.dh = some d' ∧ m.toByte = d.contents.hashMode ∧
      (d.contents.validator ≠ d'.contents.validator ∨
        ShowCollision (hs.get m).h (checkInputs (hs.get m).h d.contents pw) (checkInputs (hs.get m).h d'.contents pw)) := by
  obtain ⟨d, hm, a1, a2, i1, i2, k1, k2, k3, k4, k5, k6⟩ := created e w w' pw ds hds t h
  obtain ⟨d', hm', b1, b2, j1, j2, l1, l2, l3, l4, l5, l6⟩ := created e' v v' pw ds hds t' h'
  refine ⟨d, d', hm, k1, l1, k3.symm, ?_⟩
  have e0 : hm.toByte = hm'.toByte := by
    have := k2.ehm.symm.trans l2.ehm
    simp only [Option.some.injEq] at this
    exact UInt8.toNat_inj.mp this
  have inj : ∀ m m' : CHMode, some m.num = some m'.num → m = m' := by intro m m'; cases m <;> cases m' <;> decide
  have e1 := inj _ _ (k2.em1.symm.trans l2.em1)
  have e2 := inj _ _ (k2.em2.symm.trans l2.em2)
  have e3 : i1.toNat = j1.toNat := by simpa using k2.en1.symm.trans l2.en1
  have e4 : i2.toNat = j2.toNat := by simpa using k2.en2.symm.trans l2.en2
  subst e1 e2
  have valid : ∀ (m : CHMode) (n : UInt64) (r : Rand), 0 < n.toNat ∧ n.toNat ≤ maxIterations →
      ChainDesc.Valid ⟨m.toByte, n.toNat, r.take m.randLen⟩ := by
    intro m n r hn
    refine ⟨hn.1, hn.2, ?_⟩
    rw [Rand.length_take]
    clear hn
    revert n r
    cases m <;> exact fun _ _ => by rfl
  have hv : d.contents.ch1.Valid ∧ d.contents.ch2.Valid := by rw [k4, k5]; exact ⟨valid _ _ _ k2.r1, valid _ _ _ k2.r2⟩
  have hv' : d'.contents.ch1.Valid ∧ d'.contents.ch2.Valid := by rw [l4, l5]; exact ⟨valid _ _ _ l2.r1, valid _ _ _ l2.r2⟩
  have hsalted : Salted a2.toByte ∧ 8 ≤ a2.randLen := by
    have hmode := hmode
    rw [k2.em2] at hmode
    revert hmode
    cases a2 <;> decide
  refine C102_salts_partial d.contents d'.contents hv hv' ?_ hm k3.symm pw k6 l6 (.inr ?_)
  · rw [SameChoices, k3, k4, k5, l3, l4, l5]
    exact ⟨e0, rfl, e3, rfl, e4⟩
  · rw [k5, l5]
    refine ⟨hsalted.1, by simp, fun hb => hdiff ?_⟩
    have cut : ∀ r : Rand, r.take 8 = (r.take a2.randLen).take 8 := by
      intro r
      simp only [Rand.take]
      rw [← List.map_take, List.take_range, Nat.min_eq_left hsalted.2]
    rw [cut, cut]
    exact congrArg (List.take 8) hb

theorem quad_shift (s a b c : UInt64) (i : Nat) :
    quadValue (s + UInt64.ofNat i) a b c = quadValue (s + 1 + UInt64.ofNat i) a (b - 2 * a) (c - b + a) := by
  unfold quadValue
  generalize UInt64.ofNat i = t
  grind

theorem succ_ne (s : UInt64) : s + 1 ≠ s := by
  intro h
  have := congrArg UInt64.toNat h
  rw [UInt64.toNat_add] at this
  have := UInt64.toNat_lt s
  simp at *

/-- C102 violated also for mode 5: to every description of a chain hash of mode 5 there is one with another data block that
appends the same salt in every round, so different data blocks do not tell files with the same password apart. -/
theorem C102_violated_quad (c : ChainDesc) (hv : c.Valid) (hm : c.mode = 5) :
    ∃ c', c'.Valid ∧ c'.mode = 5 ∧ c'.block.length = c.block.length ∧ c'.block ≠ c.block ∧ SameSalts c c' ∧
      ∀ h x, c'.digest h x = c.digest h x := by
  obtain ⟨h1, h2, h3⟩ := hv
  have hl : c.block.length = 32 := by rw [hm] at h3; simpa [blockLenOk] using h3
  have lt : ∀ k, k ≤ 24 → beValue ((c.block.drop k).take 8) < 2 ^ 64 := fun k hk => beValue_lt8 (by simp; omega)
  have up : ∀ k, k ≤ 24 → (UInt64.ofNat (beValue ((c.block.drop k).take 8))).toNat = beValue ((c.block.drop k).take 8) :=
    fun k hk => by rw [UInt64.toNat_ofNat', Nat.mod_eq_of_lt (lt k hk)]
  have u0 := up 0 (by omega)
  have u1 := up 8 (by omega)
  have u2 := up 16 (by omega)
  have u3 := up 24 (by omega)
  rw [List.drop_zero] at u0
  generalize UInt64.ofNat (beValue (c.block.take 8)) = s at u0
  generalize UInt64.ofNat (beValue ((c.block.drop 8).take 8)) = a at u1
  generalize UInt64.ofNat (beValue ((c.block.drop 16).take 8)) = b at u2
  generalize UInt64.ofNat (beValue ((c.block.drop 24).take 8)) = d at u3
  have len8 : ∀ n, (num8 n).length = 8 := fun n => rfl
  let block' := num8 (s + 1).toNat ++ (num8 a.toNat ++ (num8 (b - 2 * a).toNat ++ num8 (d - b + a).toNat))
  have t0 : block'.take 8 = num8 (s + 1).toNat := rfl
  have t1 : (block'.drop 8).take 8 = num8 a.toNat := rfl
  have t2 : (block'.drop 16).take 8 = num8 (b - 2 * a).toNat := rfl
  have t3 : (block'.drop 24).take 8 = num8 (d - b + a).toNat := rfl
  have hsame : SameSalts c ⟨5, c.iters, block'⟩ := by
    refine ⟨rfl, fun i _ => ?_⟩
    rw [hm]
    show decText _ = decText _
    rw [t0, t1, t2, t3, beValue_num8 (UInt64.toNat_lt _), beValue_num8 (UInt64.toNat_lt _), beValue_num8 (UInt64.toNat_lt _),
      beValue_num8 (UInt64.toNat_lt _), ← u0, ← u1, ← u2, ← u3, ← toDec_quad, ← toDec_quad, quad_shift]
  refine ⟨⟨5, c.iters, block'⟩, ⟨h1, h2, rfl⟩, rfl, hl.symm ▸ rfl, fun hb => ?_, hsame, fun h x => (digest_same hsame x).symm⟩
  have h0 : block'.take 8 = c.block.take 8 := congrArg (List.take 8) hb
  rw [t0] at h0
  have h0 := congrArg beValue h0
  rw [beValue_num8 (UInt64.toNat_lt _), ← u0, UInt64.toNat_inj] at h0
  exact succ_ne s h0

/-- another random source -/
def otherEnv : Env := { openEnv with rand := fun k => ⟨true, fun i => UInt8.ofNat (7 * i + k + 9)⟩ }

def plainSettings : SettingsIters := { sampleSettings with ch2Mode := some 1 }

theorem built_plain : BuiltSettings plainSettings :=
  ⟨⟨[(.fileMode, 1), (.hashMode, 1), (.ch1Mode, 1), (.ch2Mode, 1), (.num1, 2), (.num2, 3)], _, [], rfl⟩,
    by
      intro b hb
      simp only [plainSettings, sampleSettings, List.mem_singleton] at hb
      subst hb
      exact .inr (.inr ⟨⟨5, Bytes.empty 0⟩, Bytes.full [1, 2, 3], by decide⟩),
    by intro b hb; cases hb⟩

/-- two headers made with different random sources, seen through a test on them -/
def twoHeaders (ds : SettingsIters) (p : Header → Header → Bool) : Bool :=
  runIs (sampleSave.take 2) fun _ w =>
    match Api.call toyHashes noRest openEnv w (.createDataHeader samplePw ds 0),
        Api.call toyHashes noRest otherEnv w (.createDataHeader samplePw ds 0) with
    | .ok (.flag (.success true), v), .ok (.flag (.success true), v') =>
      match v.api.dh, v'.api.dh with
      | some d, some d' => p d.contents d'.contents
      | _, _ => false
    | _, _ => false

-- C102_violated_normal: the salts differ, the validators are the same
example : BuiltSettings plainSettings ∧
    twoHeaders plainSettings (fun hd hd' => hd.salt != hd'.salt && hd.validator == hd'.validator) = true :=
  ⟨built_plain, by decide +kernel⟩

-- C102_created_partial, C102_salts_partial, C102_partial: with mode 4 the validators differ
example : BuiltSettings sampleSettings ∧ sampleSettings.ch2Mode = some 4 ∧ (openEnv.rand 1).take 8 ≠ (otherEnv.rand 1).take 8 ∧
    twoHeaders sampleSettings (fun hd hd' => decide (SameChoices hd hd') && decide hd.ch1.Valid && decide hd.ch2.Valid &&
      decide (Salted hd.ch2.mode) && hd.ch2.block != hd'.ch2.block && hd.ch2.block.length == hd'.ch2.block.length &&
      hd.validator != hd'.validator) = true :=
  ⟨usable_sample.built, rfl, by decide, by decide +kernel⟩

-- C102_same_salts_show, C102_violated_quad: start 0, a = 3, b = 7, c = 5 gives 5, 15, 31, and so do start 1, a = 3, b = 1, c = 1
example : (ChainDesc.mk 5 3 (num8 0 ++ num8 3 ++ num8 7 ++ num8 5)).Valid ∧
    ∀ i, i < 3 → (ruleOf 5 (num8 0 ++ num8 3 ++ num8 7 ++ num8 5)).at i = (ruleOf 5 (num8 1 ++ num8 3 ++ num8 1 ++ num8 1)).at i ∧
      (ruleOf 5 (num8 0 ++ num8 3 ++ num8 7 ++ num8 5)).at i = [ascii "5", ascii "15", ascii "31"].getD i [] :=
  ⟨by decide, by decide +kernel⟩

end Verif.Props
