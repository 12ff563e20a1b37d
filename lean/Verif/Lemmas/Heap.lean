import Verif.Spec.Heap
import Verif.Lemmas.Bytes

/-! Lemmas about the memory-level container: what each operation does to tidy memory. -/
namespace Verif.Heap
open Spec

variable {β : Type} {s : Store} {v w a : Nat} {o : Obj} {l : List Byte}

@[simp] theorem upd_same (f : Nat → β) (a : Nat) (b : β) : upd f a b a = b := by simp [upd]

theorem upd_ne (f : Nat → β) {a x : Nat} (b : β) (h : x ≠ a) : upd f a b x = f x := by simp [upd, h]

@[simp] theorem upd_upd (f : Nat → β) (a : Nat) (b c : β) : upd (upd f a b) a c = upd f a c := by
  funext x; unfold upd; split <;> rfl

theorem upd_comm (f : Nat → β) {a a' : Nat} (b c : β) (h : a ≠ a') :
    upd (upd f a b) a' c = upd (upd f a' c) a b := by
  funext x; unfold upd; split <;> split <;> simp_all

theorem upd_self (f : Nat → β) (a : Nat) (b : β) (h : f a = b) : upd f a b = f := by
  funext x; unfold upd; split <;> simp_all

theorem wrap_of_lt {n : Nat} (h : n < 2 ^ 64) : wrap n = n := by
  unfold wrap; omega

/-! ### evaluation -/

theorem bind_run {α γ : Type} (x : M α) (f : α → M γ) (s : Store) :
    (x >>= f) s = match x s with
      | .ok s a => f a s
      | .exn s e => .exn s e
      | .terminate => .terminate
      | .ub => .ub := rfl

theorem pure_run {α : Type} (x : α) (s : Store) : (pure x : M α) s = .ok s x := rfl

theorem throw_run {α : Type} (x : Exn) (s : Store) : (throw x : M α) s = .exn s (.std x) := rfl

theorem get_run (h : s.obj v = some o) : get v s = .ok s o := by simp [get, h]

theorem put_run (v : Nat) (o : Obj) (s : Store) : put v o s = .ok { s with obj := upd s.obj v (some o) } () := rfl

theorem declare_run (v : Nat) (o : Obj) (h : s.obj v = none) :
    declare v o s = .ok { s with obj := upd s.obj v (some o) } () := by simp [declare, h]

theorem alloc_run (e : Env) {n : Nat} (s : Store) (hg : e.granted = true) (h : n < 2 ^ 63) :
    alloc e n s = .ok { s with next := s.next + 1, blk := upd s.blk s.next (some ((List.range n).map e.junk)) }
      s.next := by simp [alloc, hg, h]

theorem alloc_fail (e : Env) {n : Nat} (s : Store) (h : ¬ (e.granted = true ∧ n < 2 ^ 63)) :
    alloc e n s = .exn s .badAlloc := by
  unfold alloc; rw [if_neg h]

theorem free_run (h : s.blk a = some l) : free (some a) s = .ok { s with blk := upd s.blk a none } () := by
  simp [free, h]

theorem read_run (h : s.blk a = some l) {off n : Nat} (hn : off + n ≤ l.length) :
    read (some a) off n s = .ok s ((l.drop off).take n) := by simp [read, h, hn]

theorem write_run (h : s.blk a = some l) {off : Nat} {d : List Byte} (hn : off + d.length ≤ l.length) :
    write (some a) off d s =
      .ok { s with blk := upd s.blk a (some (l.take off ++ d ++ l.drop (off + d.length))) } () := by
  simp [write, h, hn]

theorem memcpy_run {b : Nat} {m : List Byte} {off n : Nat} (ha : s.blk a = some l) (hb : s.blk b = some m)
    (hne : a ≠ b ∨ n ≤ off) (hm : n ≤ m.length) (hl : off + n ≤ l.length) :
    memcpy (some a) off (some b) n s =
      .ok { s with blk := upd s.blk a (some (l.take off ++ m.take n ++ l.drop (off + n))) } () := by
  have h1 : (m.take n).length = n := by simp; omega
  have h2 : ¬ (some a = some b ∧ 0 < n ∧ off < n) := by
    simp only [Option.some.injEq]; omega
  unfold memcpy
  rw [bind_run, read_run hb (by omega)]
  simp only [List.drop_zero]
  rw [if_neg h2, write_run ha (by omega), h1]

/-! ### memory stays in order -/

theorem _root_.Verif.Spec.Tidy.block (h : Tidy s) (hv : s.obj v = some o) (ho : o.owns = true) :
    ∃ a l, o.ptr = some a ∧ s.blk a = some l ∧ o.len ≤ o.cap ∧ o.cap ≤ l.length ∧ l.length < 2 ^ 63 ∧ a < s.next := by
  obtain ⟨a, l, hp, hb, hc, hs⟩ := h.good v o hv ho
  refine ⟨a, l, hp, hb, h.len v o hv, hc, hs, ?_⟩
  apply Nat.lt_of_not_le
  intro hn
  rw [h.fresh a hn] at hb
  cases hb

theorem value_of (hv : s.obj v = some o) (ho : o.owns = true) (hp : o.ptr = some a) (hb : s.blk a = some l) :
    value s v = some ⟨l.take o.len, o.cap⟩ := by simp [value, hv, ho, hp, hb]

theorem value_other {s' : Store} (hobj : s'.obj w = s.obj w)
    (hblk : ∀ o b, s.obj w = some o → o.owns = true → o.ptr = some b → s'.blk b = s.blk b) :
    value s' w = value s w := by
  unfold value
  rw [hobj]
  cases h : s.obj w with
  | none => rfl
  | some o =>
    simp only
    split
    · rename_i ho
      cases hp : o.ptr with
      | none => rfl
      | some b => simp [hblk o b h ho hp]
    · rfl

/-- new content of the same size, new length -/
theorem _root_.Verif.Spec.Tidy.modify (h : Tidy s) (hv : s.obj v = some o) (ho : o.owns = true) (hp : o.ptr = some a)
    (hb : s.blk a = some l) {l' : List Byte} (hl : l'.length = l.length) {n : Nat} (hn : n ≤ o.cap) :
    Tidy ⟨s.next, upd s.blk a (some l'), upd s.obj v (some { o with len := n })⟩ ∧
    value ⟨s.next, upd s.blk a (some l'), upd s.obj v (some { o with len := n })⟩ =
      upd (value s) v (some ⟨l'.take n, o.cap⟩) := by
  obtain ⟨a', l0, hp', hb', hlen, hcap, hsz, hlt⟩ := h.block hv ho
  obtain rfl : a = a' := by rw [hp] at hp'; exact Option.some.inj hp'
  obtain rfl : l = l0 := by rw [hb] at hb'; exact Option.some.inj hb'
  refine ⟨⟨?_, ?_, ?_, ?_, ?_⟩, ?_⟩
  · intro x hx
    simp only at hx ⊢
    rw [upd_ne _ _ (by omega)]
    exact h.fresh x hx
  · intro x ox hx hox
    simp only at hx
    by_cases hxv : x = v
    · subst hxv
      rw [upd_same] at hx
      cases hx
      exact ⟨a, l', hp, by simp, by simp only; omega, by omega⟩
    · rw [upd_ne _ _ hxv] at hx
      obtain ⟨b, m, hpb, hbb, h1, h2⟩ := h.good x ox hx hox
      have hba : b ≠ a := by
        rintro rfl
        exact hxv (h.sole x v ox o hx hv hox ho (by rw [hpb, hp]))
      exact ⟨b, m, hpb, by simp only; rw [upd_ne _ _ hba]; exact hbb, h1, h2⟩
  · intro x ox hx
    simp only at hx
    by_cases hxv : x = v
    · subst hxv
      rw [upd_same] at hx
      cases hx
      exact hn
    · rw [upd_ne _ _ hxv] at hx
      exact h.len x ox hx
  · intro x y ox oy hx hy hox hoy hxy
    simp only at hx hy
    by_cases hxv : x = v <;> by_cases hyv : y = v
    · rw [hxv, hyv]
    · subst hxv
      rw [upd_same] at hx
      cases hx
      rw [upd_ne _ _ hyv] at hy
      exact h.sole x y o oy hv hy ho hoy hxy
    · subst hyv
      rw [upd_same] at hy
      cases hy
      rw [upd_ne _ _ hxv] at hx
      exact h.sole x y ox o hx hv hox ho hxy
    · rw [upd_ne _ _ hxv] at hx
      rw [upd_ne _ _ hyv] at hy
      exact h.sole x y ox oy hx hy hox hoy hxy
  · intro b m hm
    simp only at hm
    by_cases hba : b = a
    · subst hba
      exact ⟨v, { o with len := n }, by simp, ho, hp⟩
    · rw [upd_ne _ _ hba] at hm
      obtain ⟨x, ox, hx, hox, hpx⟩ := h.owned b m hm
      have hxv : x ≠ v := by
        rintro rfl
        rw [hv] at hx
        cases hx
        rw [hp] at hpx
        exact hba (Option.some.inj hpx).symm
      exact ⟨x, ox, by simp only; rw [upd_ne _ _ hxv]; exact hx, hox, hpx⟩
  · funext x
    by_cases hxv : x = v
    · subst hxv
      rw [upd_same]
      exact value_of (o := { o with len := n }) (by simp) ho hp (by simp)
    · rw [upd_ne _ _ hxv]
      apply value_other
      · simp only; rw [upd_ne _ _ hxv]
      · intro ox b hx hox hpb
        simp only
        rw [upd_ne]
        rintro rfl
        exact hxv (h.sole x v ox o hx hv hox ho (by rw [hpb, hp]))

/-- only the length changes -/
theorem _root_.Verif.Spec.Tidy.relen (h : Tidy s) (hv : s.obj v = some o) (ho : o.owns = true) (hp : o.ptr = some a)
    (hb : s.blk a = some l) {n : Nat} (hn : n ≤ o.cap) :
    Tidy ⟨s.next, s.blk, upd s.obj v (some { o with len := n })⟩ ∧
    value ⟨s.next, s.blk, upd s.obj v (some { o with len := n })⟩ = upd (value s) v (some ⟨l.take n, o.cap⟩) := by
  have := h.modify hv ho hp hb (l' := l) rfl hn
  rwa [upd_self _ _ _ hb] at this

/-- a new object with a new block -/
theorem _root_.Verif.Spec.Tidy.create (h : Tidy s) (hv : s.obj v = none) {l' : List Byte} (hl : l'.length < 2 ^ 63) {c n : Nat}
    (hc : c ≤ l'.length) (hn : n ≤ c) :
    Tidy ⟨s.next + 1, upd s.blk s.next (some l'), upd s.obj v (some ⟨some s.next, c, n, true⟩)⟩ ∧
    value ⟨s.next + 1, upd s.blk s.next (some l'), upd s.obj v (some ⟨some s.next, c, n, true⟩)⟩ =
      upd (value s) v (some ⟨l'.take n, c⟩) := by
  have hother : ∀ x ox b, s.obj x = some ox → ox.owns = true → ox.ptr = some b → b ≠ s.next := by
    intro x ox b hx hox hpb
    obtain ⟨b', _, hp', _, _, _, _, hlt⟩ := h.block hx hox
    rw [hpb] at hp'
    cases hp'
    omega
  have hne : ∀ x ox, s.obj x = some ox → x ≠ v := by
    rintro x ox hx rfl
    rw [hv] at hx
    cases hx
  refine ⟨⟨?_, ?_, ?_, ?_, ?_⟩, ?_⟩
  · intro x hx
    simp only at hx ⊢
    rw [upd_ne _ _ (by omega)]
    exact h.fresh x (by omega)
  · intro x ox hx hox
    simp only at hx
    by_cases hxv : x = v
    · subst hxv
      rw [upd_same] at hx
      cases hx
      exact ⟨s.next, l', rfl, by simp, hc, hl⟩
    · rw [upd_ne _ _ hxv] at hx
      obtain ⟨b, m, hpb, hbb, h1, h2⟩ := h.good x ox hx hox
      exact ⟨b, m, hpb, by simp only; rw [upd_ne _ _ (hother x ox b hx hox hpb)]; exact hbb, h1, h2⟩
  · intro x ox hx
    simp only at hx
    by_cases hxv : x = v
    · subst hxv
      rw [upd_same] at hx
      cases hx
      exact hn
    · rw [upd_ne _ _ hxv] at hx
      exact h.len x ox hx
  · intro x y ox oy hx hy hox hoy hxy
    simp only at hx hy
    by_cases hxv : x = v <;> by_cases hyv : y = v
    · rw [hxv, hyv]
    · subst hxv
      rw [upd_same] at hx
      cases hx
      rw [upd_ne _ _ hyv] at hy
      exact absurd rfl (hother y oy s.next hy hoy hxy.symm)
    · subst hyv
      rw [upd_same] at hy
      cases hy
      rw [upd_ne _ _ hxv] at hx
      exact absurd rfl (hother x ox s.next hx hox hxy)
    · rw [upd_ne _ _ hxv] at hx
      rw [upd_ne _ _ hyv] at hy
      exact h.sole x y ox oy hx hy hox hoy hxy
  · intro b m hm
    simp only at hm
    by_cases hba : b = s.next
    · subst hba
      exact ⟨v, ⟨some s.next, c, n, true⟩, by simp only [upd_same], rfl, rfl⟩
    · rw [upd_ne _ _ hba] at hm
      obtain ⟨x, ox, hx, hox, hpx⟩ := h.owned b m hm
      exact ⟨x, ox, by simp only; rw [upd_ne _ _ (hne x ox hx)]; exact hx, hox, hpx⟩
  · funext x
    by_cases hxv : x = v
    · subst hxv
      rw [upd_same]
      exact value_of (o := ⟨some s.next, c, n, true⟩) (by simp) rfl rfl (by simp)
    · rw [upd_ne _ _ hxv]
      apply value_other
      · simp only; rw [upd_ne _ _ hxv]
      · intro ox b hx hox hpb
        simp only
        rw [upd_ne _ _ (hother x ox b hx hox hpb)]

/-- a usable object dies with its block -/
theorem _root_.Verif.Spec.Tidy.kill (h : Tidy s) (hv : s.obj v = some o) (ho : o.owns = true) (hp : o.ptr = some a) :
    Tidy ⟨s.next, upd s.blk a none, upd s.obj v none⟩ ∧
    value ⟨s.next, upd s.blk a none, upd s.obj v none⟩ = upd (value s) v none := by
  have hne : ∀ x ox b, x ≠ v → s.obj x = some ox → ox.owns = true → ox.ptr = some b → b ≠ a := by
    rintro x ox b hxv hx hox hpb rfl
    exact hxv (h.sole x v ox o hx hv hox ho (by rw [hpb, hp]))
  refine ⟨⟨?_, ?_, ?_, ?_, ?_⟩, ?_⟩
  · intro x hx
    simp only at hx ⊢
    unfold upd
    split
    · rfl
    · exact h.fresh x hx
  · intro x ox hx hox
    simp only at hx
    by_cases hxv : x = v
    · subst hxv
      rw [upd_same] at hx
      cases hx
    · rw [upd_ne _ _ hxv] at hx
      obtain ⟨b, m, hpb, hbb, h1, h2⟩ := h.good x ox hx hox
      exact ⟨b, m, hpb, by simp only; rw [upd_ne _ _ (hne x ox b hxv hx hox hpb)]; exact hbb, h1, h2⟩
  · intro x ox hx
    simp only at hx
    by_cases hxv : x = v
    · subst hxv
      rw [upd_same] at hx
      cases hx
    · rw [upd_ne _ _ hxv] at hx
      exact h.len x ox hx
  · intro x y ox oy hx hy hox hoy hxy
    simp only at hx hy
    by_cases hxv : x = v
    · subst hxv
      rw [upd_same] at hx
      cases hx
    · by_cases hyv : y = v
      · subst hyv
        rw [upd_same] at hy
        cases hy
      · rw [upd_ne _ _ hxv] at hx
        rw [upd_ne _ _ hyv] at hy
        exact h.sole x y ox oy hx hy hox hoy hxy
  · intro b m hm
    simp only at hm
    by_cases hba : b = a
    · subst hba
      rw [upd_same] at hm
      cases hm
    · rw [upd_ne _ _ hba] at hm
      obtain ⟨x, ox, hx, hox, hpx⟩ := h.owned b m hm
      have hxv : x ≠ v := by
        rintro rfl
        rw [hv] at hx
        cases hx
        rw [hp] at hpx
        exact hba (Option.some.inj hpx).symm
      exact ⟨x, ox, by simp only; rw [upd_ne _ _ hxv]; exact hx, hox, hpx⟩
  · funext x
    by_cases hxv : x = v
    · subst hxv
      rw [upd_same]
      simp [value]
    · rw [upd_ne _ _ hxv]
      apply value_other
      · simp only; rw [upd_ne _ _ hxv]
      · intro ox b hx hox hpb
        simp only
        rw [upd_ne _ _ (hne x ox b hxv hx hox hpb)]

/-- a moved-from object dies -/
theorem _root_.Verif.Spec.Tidy.drop (h : Tidy s) (hv : s.obj v = some o) (ho : o.owns = false) :
    Tidy ⟨s.next, s.blk, upd s.obj v none⟩ ∧ value ⟨s.next, s.blk, upd s.obj v none⟩ = upd (value s) v none := by
  have hne : ∀ x ox, s.obj x = some ox → ox.owns = true → x ≠ v := by
    rintro x ox hx hox rfl
    rw [hv] at hx
    cases hx
    rw [ho] at hox
    cases hox
  have hup : ∀ x ox, upd s.obj v none x = some ox → s.obj x = some ox := by
    intro x ox hx
    by_cases hxv : x = v
    · subst hxv
      rw [upd_same] at hx
      cases hx
    · rwa [upd_ne _ _ hxv] at hx
  refine ⟨⟨h.fresh, ?_, ?_, ?_, ?_⟩, ?_⟩
  · intro x ox hx hox
    exact h.good x ox (hup x ox hx) hox
  · intro x ox hx
    exact h.len x ox (hup x ox hx)
  · intro x y ox oy hx hy
    exact h.sole x y ox oy (hup x ox hx) (hup y oy hy)
  · intro b m hm
    obtain ⟨x, ox, hx, hox, hpx⟩ := h.owned b m hm
    exact ⟨x, ox, by simp only; rw [upd_ne _ _ (hne x ox hx hox)]; exact hx, hox, hpx⟩
  · funext x
    by_cases hxv : x = v
    · subst hxv
      rw [upd_same]
      simp [value]
    · rw [upd_ne _ _ hxv]
      apply value_other
      · simp only; rw [upd_ne _ _ hxv]
      · intros; rfl

/-- an object gets a new block, the old one is freed -/
theorem _root_.Verif.Spec.Tidy.replace (h : Tidy s) (hv : s.obj v = some o) (ho : o.owns = true) (hp : o.ptr = some a)
    {l' : List Byte} (hl : l'.length < 2 ^ 63) {c n : Nat} (hc : c ≤ l'.length) (hn : n ≤ c) :
    Tidy ⟨s.next + 1, upd (upd s.blk a none) s.next (some l'), upd s.obj v (some ⟨some s.next, c, n, true⟩)⟩ ∧
    value ⟨s.next + 1, upd (upd s.blk a none) s.next (some l'), upd s.obj v (some ⟨some s.next, c, n, true⟩)⟩ =
      upd (value s) v (some ⟨l'.take n, c⟩) := by
  obtain ⟨h1, h2⟩ := h.kill hv ho hp
  obtain ⟨h3, h4⟩ := h1.create (v := v) (by simp) hl hc hn
  simp only [upd_upd] at h3 h4
  exact ⟨h3, by rw [h4, h2]; simp⟩

/-- ownership passes to a new object -/
theorem _root_.Verif.Spec.Tidy.handover (h : Tidy s) (hv : s.obj v = some o) (ho : o.owns = true) {r : Nat} (hr : s.obj r = none) :
    Tidy ⟨s.next, s.blk, upd (upd s.obj r (some ⟨o.ptr, o.cap, o.len, true⟩)) v (some { o with owns := false })⟩ ∧
    value ⟨s.next, s.blk, upd (upd s.obj r (some ⟨o.ptr, o.cap, o.len, true⟩)) v (some { o with owns := false })⟩ =
      upd (upd (value s) r (value s v)) v none := by
  have hrv : r ≠ v := by
    rintro rfl
    rw [hr] at hv
    cases hv
  obtain ⟨a, l, hp, hb, hlen, hcap, hsz, hlt⟩ := h.block hv ho
  -- every owner after the step corresponds to one before
  have back : ∀ x ox, upd (upd s.obj r (some ⟨o.ptr, o.cap, o.len, true⟩)) v (some { o with owns := false }) x = some ox →
      ox.owns = true → (x = r ∧ ox = ⟨o.ptr, o.cap, o.len, true⟩) ∨ (x ≠ r ∧ x ≠ v ∧ s.obj x = some ox) := by
    intro x ox hx hox
    by_cases hxv : x = v
    · subst hxv
      rw [upd_same] at hx
      cases hx
      cases hox
    · rw [upd_ne _ _ hxv] at hx
      by_cases hxr : x = r
      · subst hxr
        rw [upd_same] at hx
        cases hx
        exact .inl ⟨rfl, rfl⟩
      · rw [upd_ne _ _ hxr] at hx
        exact .inr ⟨hxr, hxv, hx⟩
  refine ⟨⟨h.fresh, ?_, ?_, ?_, ?_⟩, ?_⟩
  · intro x ox hx hox
    rcases back x ox hx hox with ⟨rfl, rfl⟩ | ⟨_, _, hx'⟩
    · exact ⟨a, l, hp, hb, hcap, hsz⟩
    · exact h.good x ox hx' hox
  · intro x ox hx
    simp only at hx
    by_cases hxv : x = v
    · subst hxv
      rw [upd_same] at hx
      cases hx
      exact hlen
    · rw [upd_ne _ _ hxv] at hx
      by_cases hxr : x = r
      · subst hxr
        rw [upd_same] at hx
        cases hx
        exact hlen
      · rw [upd_ne _ _ hxr] at hx
        exact h.len x ox hx
  · intro x y ox oy hx hy hox hoy hxy
    rcases back x ox hx hox with ⟨rfl, rfl⟩ | ⟨hxr, hxv, hx'⟩ <;>
      rcases back y oy hy hoy with ⟨rfl, rfl⟩ | ⟨hyr, hyv, hy'⟩
    · rfl
    · exact absurd (h.sole v y o oy hv hy' ho hoy hxy).symm hyv
    · exact absurd (h.sole x v ox o hx' hv hox ho hxy) hxv
    · exact h.sole x y ox oy hx' hy' hox hoy hxy
  · intro b m hm
    obtain ⟨x, ox, hx, hox, hpx⟩ := h.owned b m hm
    by_cases hxv : x = v
    · subst hxv
      rw [hv] at hx
      cases hx
      exact ⟨r, ⟨o.ptr, o.cap, o.len, true⟩, by simp only; rw [upd_ne _ _ hrv, upd_same], rfl, hpx⟩
    · have hxr : x ≠ r := by
        rintro rfl
        rw [hr] at hx
        cases hx
      exact ⟨x, ox, by simp only; rw [upd_ne _ _ hxv, upd_ne _ _ hxr]; exact hx, hox, hpx⟩
  · funext x
    by_cases hxv : x = v
    · subst hxv
      rw [upd_same]
      simp [value]
    · rw [upd_ne _ _ hxv]
      by_cases hxr : x = r
      · subst hxr
        rw [upd_same, value_of hv ho hp hb]
        exact value_of (o := ⟨o.ptr, o.cap, o.len, true⟩) (by simp only; rw [upd_ne _ _ hxv, upd_same]) rfl hp hb
      · rw [upd_ne _ _ hxr]
        apply value_other
        · simp only; rw [upd_ne _ _ hxv, upd_ne _ _ hxr]
        · intros; rfl

/-- one object takes over the block of another and gives up its own -/
theorem _root_.Verif.Spec.Tidy.takeover (h : Tidy s) (hv : s.obj v = some o) (ho : o.owns = true) (hp : o.ptr = some a)
    {b : Obj} (hw : s.obj w = some b) (hb : b.owns = true) (hvw : v ≠ w) {c : Nat} (hc : c ≤ b.cap) (hn : b.len ≤ c) :
    Tidy ⟨s.next, upd s.blk a none, upd (upd s.obj v (some ⟨b.ptr, c, b.len, true⟩)) w (some { b with owns := false })⟩ ∧
    value ⟨s.next, upd s.blk a none,
        upd (upd s.obj v (some ⟨b.ptr, c, b.len, true⟩)) w (some { b with owns := false })⟩ =
      upd (upd (value s) v ((value s w).map fun x => ⟨x.data, c⟩)) w none := by
  obtain ⟨a', l', hp', hb', hlen', hcap', hsz', hlt'⟩ := h.block hw hb
  have haa : a' ≠ a := by
    rintro rfl
    exact hvw (h.sole v w o b hv hw ho hb (by rw [hp, hp']))
  obtain ⟨h1, h2⟩ := h.kill hv ho hp
  have hw1 : upd s.obj v none w = some b := by rw [upd_ne _ _ (Ne.symm hvw)]; exact hw
  -- hand over w's block to v, with a smaller capacity first
  obtain ⟨h3, h4⟩ := h1.handover (v := w) (r := v) (o := b) hw1 hb (by simp)
  simp only [upd_upd] at h3 h4
  -- shrink the capacity of v to c
  have hvo : upd (upd s.obj v (some ⟨b.ptr, b.cap, b.len, true⟩)) w (some { b with owns := false }) v =
      some ⟨b.ptr, b.cap, b.len, true⟩ := by rw [upd_ne _ _ hvw, upd_same]
  have key : upd (upd s.obj v (some ⟨b.ptr, c, b.len, true⟩)) w (some { b with owns := false }) =
      upd (upd (upd s.obj v (some ⟨b.ptr, b.cap, b.len, true⟩)) w (some { b with owns := false })) v
        (some ⟨b.ptr, c, b.len, true⟩) := by
    rw [upd_comm _ _ _ (Ne.symm hvw), upd_upd]
  rw [key]
  generalize upd (upd s.obj v (some ⟨b.ptr, b.cap, b.len, true⟩)) w (some { b with owns := false }) = ob at *
  refine ⟨⟨h3.fresh, ?_, ?_, ?_, ?_⟩, ?_⟩
  · intro x ox hx hox
    simp only at hx
    by_cases hxv : x = v
    · subst hxv
      rw [upd_same] at hx
      cases hx
      obtain ⟨q, m, hq, hm, hqc, hqs⟩ := h3.good x _ hvo rfl
      exact ⟨q, m, hq, hm, Nat.le_trans hc hqc, hqs⟩
    · rw [upd_ne _ _ hxv] at hx
      exact h3.good x ox hx hox
  · intro x ox hx
    simp only at hx
    by_cases hxv : x = v
    · subst hxv
      rw [upd_same] at hx
      cases hx
      exact hn
    · rw [upd_ne _ _ hxv] at hx
      exact h3.len x ox hx
  · intro x y ox oy hx hy hox hoy hxy
    simp only at hx hy
    by_cases hxv : x = v <;> by_cases hyv : y = v
    · rw [hxv, hyv]
    · subst hxv
      rw [upd_same] at hx
      cases hx
      rw [upd_ne _ _ hyv] at hy
      exact h3.sole x y _ oy hvo hy rfl hoy hxy
    · subst hyv
      rw [upd_same] at hy
      cases hy
      rw [upd_ne _ _ hxv] at hx
      exact h3.sole x y ox _ hx hvo hox rfl hxy
    · rw [upd_ne _ _ hxv] at hx
      rw [upd_ne _ _ hyv] at hy
      exact h3.sole x y ox oy hx hy hox hoy hxy
  · intro q m hm
    obtain ⟨x, ox, hx, hox, hpx⟩ := h3.owned q m hm
    by_cases hxv : x = v
    · subst hxv
      simp only at hx
      rw [hvo] at hx
      cases hx
      exact ⟨x, ⟨b.ptr, c, b.len, true⟩, by simp only [upd_same], rfl, hpx⟩
    · exact ⟨x, ox, by simp only; rw [upd_ne _ _ hxv]; exact hx, hox, hpx⟩
  · rw [h2] at h4
    have hwval : value s w = some ⟨l'.take b.len, b.cap⟩ := value_of hw hb hp' hb'
    funext x
    by_cases hxv : x = v
    · subst hxv
      rw [upd_ne _ _ hvw, upd_same, hwval]
      exact value_of (o := ⟨b.ptr, c, b.len, true⟩) (by simp) rfl hp' (by simp only; rw [upd_ne _ _ haa]; exact hb')
    · have hx4 := congrFun h4 x
      have : value ⟨s.next, upd s.blk a none, upd ob v (some ⟨b.ptr, c, b.len, true⟩)⟩ x =
          value ⟨s.next, upd s.blk a none, ob⟩ x := by
        apply value_other
        · simp only; rw [upd_ne _ _ hxv]
        · intros; rfl
      rw [this, hx4]
      by_cases hxw : x = w
      · subst hxw; simp
      · rw [upd_ne _ _ hxw, upd_ne _ _ hxv, upd_ne _ _ hxv, upd_ne _ _ hxw, upd_ne _ _ hxv]

/-- a caller's array came and went -/
theorem _root_.Verif.Spec.Tidy.bump (h : Tidy s) : Tidy ⟨s.next + 1, s.blk, s.obj⟩ ∧ value ⟨s.next + 1, s.blk, s.obj⟩ = value s :=
  ⟨⟨fun a ha => h.fresh a (by simp only at ha; omega), h.good, h.len, h.sole, h.owned⟩, rfl⟩

theorem start_tidy : Tidy start where
  fresh _ _ := rfl
  good _ _ h := by cases h
  len _ _ h := by cases h
  sole _ _ _ _ h := by cases h
  owned _ _ h := by cases h

end Verif.Heap
