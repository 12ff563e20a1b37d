import Verif.Lemmas.HeapOps

/-! The length of a container stays within its capacity in every program, however badly it uses the container. -/
namespace Verif.Heap
open Spec

/-- every object's length is within its capacity, which is the size of an array that can exist -/
def LenOk (s : Store) : Prop := ∀ v o, s.obj v = some o → o.len ≤ o.cap ∧ o.cap < 2 ^ 63

/-- an outcome in `Q`; after an exception, lengths are fine -/
def After {α : Type} (Q : α → Store → Prop) : Out α → Prop
  | .ok s' a => Q a s'
  | .exn s' _ => LenOk s'
  | _ => True

/-- from `P`, `x` ends in `Q` -/
def Tri {α : Type} (P : Store → Prop) (x : M α) (Q : α → Store → Prop) : Prop := ∀ s, P s → After Q (x s)

variable {α β : Type} {P : Store → Prop} {Q : α → Store → Prop}

theorem Tri.bind {x : M α} {f : α → M β} {R : β → Store → Prop} (hx : Tri P x Q) (hf : ∀ a, Tri (Q a) (f a) R) :
    Tri P (x >>= f) R := by
  intro s hs
  have h1 := hx s hs
  rw [bind_run]
  cases h : x s with
  | ok s1 a => rw [h] at h1; exact hf a s1 h1
  | exn s1 e => rw [h] at h1; exact h1
  | terminate => trivial
  | ub => trivial

theorem Tri.pure (a : α) (h : ∀ s, P s → Q a s) : Tri P (Pure.pure a : M α) Q := fun s hs => h s hs

theorem Tri.pre {P' : Store → Prop} {x : M α} (h : ∀ s, P s → P' s) (hx : Tri P' x Q) : Tri P x Q :=
  fun s hs => hx s (h s hs)

theorem tri_throw (h : ∀ s, P s → LenOk s) (k : Exn) : Tri P (throw k : M α) Q := fun s hs => h s hs

theorem tri_undef : Tri P (undef : M α) Q := fun _ _ => trivial

theorem Tri.noexcept {x : M α} (hx : Tri P x Q) : Tri P (noexcept x) Q := by
  intro s hs
  have h1 := hx s hs
  unfold Heap.noexcept
  cases h : x s with
  | ok s1 a => rw [h] at h1; exact h1
  | exn s1 e => trivial
  | terminate => trivial
  | ub => trivial

theorem Tri.ite {c : Prop} [Decidable c] {x y : M α} (hx : c → Tri P x Q) (hy : ¬ c → Tri P y Q) :
    Tri P (if c then x else y) Q := by
  by_cases h : c
  · rw [if_pos h]; exact hx h
  · rw [if_neg h]; exact hy h

theorem tri_get (v : Nat) : Tri LenOk (get v) (fun o s => LenOk s ∧ o.len ≤ o.cap ∧ o.cap < 2 ^ 63) := by
  intro s hs
  unfold get
  cases h : s.obj v with
  | none => trivial
  | some o => exact ⟨hs, hs v o h⟩

theorem LenOk.set {s : Store} (h : LenOk s) (v : Nat) {o : Obj} (ho : o.len ≤ o.cap ∧ o.cap < 2 ^ 63) :
    LenOk { s with obj := upd s.obj v (some o) } := by
  intro x ox hx
  simp only at hx
  by_cases hxv : x = v
  · subst hxv
    rw [upd_same] at hx
    cases hx
    exact ho
  · rw [upd_ne _ _ hxv] at hx
    exact h x ox hx

theorem tri_put {v : Nat} {o : Obj} (hP : ∀ s, P s → LenOk s ∧ o.len ≤ o.cap ∧ o.cap < 2 ^ 63) :
    Tri P (put v o) (fun _ => LenOk) := fun s hs => (hP s hs).1.set v (hP s hs).2

theorem tri_declare {v : Nat} {o : Obj} (hP : ∀ s, P s → LenOk s ∧ o.len ≤ o.cap ∧ o.cap < 2 ^ 63) :
    Tri P (declare v o) (fun _ => LenOk) := by
  intro s hs
  unfold declare
  split
  · trivial
  · exact (hP s hs).1.set v (hP s hs).2

theorem tri_alloc (e : Env) (n : Nat) : Tri LenOk (alloc e n)
    (fun a s => LenOk s ∧ n < 2 ^ 63 ∧ ∃ l, s.blk a = some l ∧ l.length = n) := by
  intro s hs
  unfold alloc
  split
  · rename_i h
    exact ⟨hs, h.2, _, upd_same _ _ _, by simp⟩
  · exact hs

theorem tri_free (p : Option Nat) : Tri LenOk (free p) (fun _ => LenOk) := by
  intro s hs
  cases p with
  | none => exact hs
  | some a =>
    unfold free
    simp only
    split
    · exact hs
    · trivial

theorem tri_read (p : Option Nat) (off n : Nat) (K : Prop) : Tri (fun s => LenOk s ∧ K) (read p off n)
    (fun d s => LenOk s ∧ d.length = n ∧ K) := by
  intro s hs
  unfold read
  cases h : p.bind s.blk with
  | none => trivial
  | some l =>
    simp only
    split
    · refine ⟨hs.1, ?_, hs.2⟩
      rw [List.length_take, List.length_drop]; omega
    · trivial

theorem tri_write (p : Option Nat) (off : Nat) (d : List Byte) (K : Prop) (hP : ∀ s, P s → LenOk s ∧ K) :
    Tri P (write p off d) (fun _ s => LenOk s ∧ K) := by
  intro s hs
  unfold write
  cases p with
  | none => trivial
  | some a =>
    simp only
    cases h : s.blk a with
    | none => trivial
    | some l =>
      simp only
      split
      · exact hP s hs
      · trivial

/-- writing succeeds only within the block -/
theorem tri_memcpy (a : Nat) (off : Nat) (q : Option Nat) (n m : Nat) (K : Prop) :
    Tri (fun s => LenOk s ∧ K ∧ ∃ l, s.blk a = some l ∧ l.length = m) (memcpy (some a) off q n)
      (fun _ s => LenOk s ∧ K ∧ off + n ≤ m) := by
  intro s hs
  obtain ⟨h0, hK, l, hl, hm⟩ := hs
  unfold memcpy
  rw [bind_run]
  have hr := tri_read q 0 n True s ⟨h0, trivial⟩
  cases h : read q 0 n s with
  | ok s1 d =>
    have hss : s1 = s := by
      unfold read at h
      cases hq : q.bind s.blk with
      | none => rw [hq] at h; cases h
      | some l =>
        rw [hq] at h
        simp only at h
        split at h
        · cases h; rfl
        · cases h
    subst hss
    rw [h] at hr
    simp only
    by_cases hc : some a = q ∧ 0 < n ∧ off < n
    · rw [if_pos hc]; trivial
    · rw [if_neg hc]
      unfold write
      simp only [hl]
      by_cases hw : off + d.length ≤ l.length
      · rw [if_pos hw]
        exact ⟨h0, hK, by have := hr.2.1; omega⟩
      · rw [if_neg hw]; trivial
  | exn s1 e => rw [h] at hr; exact hr
  | terminate => trivial
  | ub => trivial

theorem tri_memcpy' (p : Option Nat) (off : Nat) (q : Option Nat) (n : Nat) (K : Prop) :
    Tri (fun s => LenOk s ∧ K) (memcpy p off q n) (fun _ s => LenOk s ∧ K) := by
  unfold memcpy
  refine (tri_read q 0 n K).bind fun d => Tri.ite (fun _ => tri_undef) fun _ => ?_
  exact tri_write p off d K (fun s hs => ⟨hs.1, hs.2.2⟩)

theorem tri_callerArray (arr : Option (List Byte)) : Tri LenOk (callerArray arr) (fun _ => LenOk) := by
  intro s hs
  cases arr with
  | none => exact hs
  | some l => exact hs

theorem tri_releasing {p : Option Nat} {x : M α} (hx : Tri LenOk x (fun _ => LenOk)) :
    Tri LenOk (releasing p x) (fun _ => LenOk) := by
  intro s hs
  have h1 := hx s hs
  unfold releasing
  cases h : x s with
  | ok s1 a => rw [h] at h1; exact h1
  | exn s1 e =>
    rw [h] at h1
    have h2 := tri_free p s1 h1
    simp only
    cases hf : free p s1 with
    | ok s2 a => rw [hf] at h2; exact h2
    | exn s2 e => trivial
    | terminate => trivial
    | ub => trivial
  | terminate => trivial
  | ub => trivial

theorem wrap_add_le {m n : Nat} : wrap ((m : Int) + n) < 2 ^ 64 := by unfold wrap; omega

/-- all that is shown of one operation -/
abbrev Ok1 {α : Type} (x : M α) : Prop := Tri LenOk x (fun _ => LenOk)

theorem ok_new (e : Env) (v : Nat) (n : Int) : Ok1 (new e v n) := by
  unfold new
  refine Tri.ite (fun _ => tri_throw (fun _ h => h) _) fun _ => ?_
  refine (tri_alloc e _).bind fun a => tri_declare fun s hs => ⟨hs.1, Nat.zero_le _, hs.2.1⟩

theorem ok_withU64 (e : Env) (v n : Nat) : Ok1 (withU64 e v n) := by
  unfold withU64
  refine Tri.noexcept ?_
  refine (tri_alloc e _).bind fun a => tri_declare fun s hs => ⟨hs.1, Nat.zero_le _, hs.2.1⟩

theorem ok_ofArray (v : Nat) (arr : Option (List Byte)) (len : Nat) (h : len < 2 ^ 63) : Ok1 (ofArray v arr len) := by
  unfold ofArray
  refine (tri_callerArray arr).bind fun p => tri_releasing ?_
  exact Tri.ite (fun _ => tri_throw (fun _ h => h) _) fun _ => tri_declare fun s hs => ⟨hs, Nat.le_refl _, h⟩

theorem ok_copyExtra (e : Env) (v w n : Nat) : Ok1 (copyExtra e v w n) := by
  unfold copyExtra
  refine (tri_get w).bind fun o => ?_
  refine Tri.pre (fun s hs => hs.1) ((tri_alloc e _).bind fun a => ?_)
  refine Tri.ite (fun _ => tri_throw (fun _ h => h.1) _) fun _ => ?_
  refine (tri_memcpy a 0 o.ptr o.len (wrap (o.cap + n)) (wrap (o.cap + n) < 2 ^ 63)).bind fun _ => ?_
  exact tri_declare fun s hs => ⟨hs.1, by have := hs.2.2; simp only; omega, hs.2.1⟩

theorem ok_move (v w : Nat) : Ok1 (move v w) := by
  unfold move
  intro s hs
  rw [bind_run]
  have h1 := tri_get w s hs
  cases h : get w s with
  | ok s1 o =>
    rw [h] at h1
    simp only
    refine Tri.bind (Q := fun _ => LenOk) (P := LenOk) ?_ (fun _ => ?_) s1 h1.1
    · exact tri_declare fun s hs => ⟨hs, h1.2⟩
    · exact tri_put fun s hs => ⟨hs, h1.2⟩
  | exn s1 e => rw [h] at h1; exact h1
  | terminate => trivial
  | ub => trivial

theorem ok_assign (e : Env) (v w : Nat) (hg : e.granted = true) : Ok1 (assign e v w) := by
  unfold assign
  by_cases hvw : v = w
  · rw [if_pos hvw]
    refine (tri_get v).bind fun o => Tri.pure _ (fun s hs => hs.1)
  · rw [if_neg hvw]
    intro s hs
    cases hv : s.obj v with
    | none => simp only [bind_run, get, hv]; trivial
    | some o =>
      cases hw : s.obj w with
      | none => simp only [bind_run, get, hv, hw]; trivial
      | some b =>
        have hb := hs w b hw
        simp only [bind_run, get_run hv, get_run hw]
        by_cases hn : b.ptr = none
        · rw [if_pos hn]; exact hs
        · simp only [if_neg hn, bind_run, put_run]
          cases hf : free o.ptr { s with obj := upd s.obj v (some { o with cap := b.cap }) } with
          | ok s1 u =>
            have hobj : s1.obj = upd s.obj v (some { o with cap := b.cap }) := by
              cases hp : o.ptr with
              | none => rw [hp] at hf; cases hf; rfl
              | some a =>
                rw [hp] at hf
                unfold free at hf
                simp only at hf
                split at hf
                · cases hf; rfl
                · cases hf
            simp only
            rw [alloc_run e s1 hg hb.2]
            simp only [hobj, upd_upd]
            have hgood : LenOk ⟨s1.next + 1, upd s1.blk s1.next (some ((List.range b.cap).map e.junk)), s.obj⟩ := hs
            -- the object is set for good after the copy, which succeeds only within the block
            have hmc := tri_memcpy s1.next 0 b.ptr b.len b.cap True
            unfold memcpy at hmc ⊢
            rw [bind_run]
            unfold read
            cases hq : b.ptr.bind (upd s1.blk s1.next (some ((List.range b.cap).map e.junk))) with
            | none => trivial
            | some l =>
              simp only
              by_cases hlen : 0 + b.len ≤ l.length
              · simp only [if_pos hlen]
                split
                · rename_i heq
                  split at heq
                  · cases heq
                  · unfold write at heq
                    simp only [upd_same] at heq
                    split at heq
                    · cases heq
                      simp only [upd_upd]
                      exact hs.set v ⟨hb.1, hb.2⟩
                    · cases heq
                · rename_i heq
                  split at heq
                  · cases heq
                  · unfold write at heq
                    simp only [upd_same] at heq
                    split at heq
                    · cases heq
                    · cases heq
                · trivial
                · trivial
              · simp only [if_neg hlen]; trivial
          | exn s1 x =>
            exfalso
            cases hp : o.ptr with
            | none => rw [hp] at hf; cases hf
            | some a =>
              rw [hp] at hf
              unfold free at hf
              simp only at hf
              split at hf <;> cases hf
          | terminate => trivial
          | ub => trivial

theorem ok_setDeallocate (v : Nat) (b : Bool) : Ok1 (setDeallocate v b) := by
  unfold setDeallocate
  exact (tri_get v).bind fun o => tri_put fun s hs => hs

theorem tri_fillRandom (e : Env) (p : Option Nat) (off n : Nat) (K : Prop) :
    Tri (fun s => LenOk s ∧ K) (fillRandomBytes e p off n) (fun _ s => LenOk s ∧ K) := by
  unfold fillRandomBytes
  exact Tri.ite (fun _ => tri_throw (fun _ h => h.1) _) fun _ => tri_write _ _ _ K fun s hs => hs

theorem ok_fillrandom (e : Env) (v : Nat) : Ok1 (fillrandom e v) := by
  unfold fillrandom
  refine Tri.noexcept ((tri_get v).bind fun o => ?_)
  exact (tri_fillRandom e _ _ _ _).bind fun _ => tri_put fun s hs => ⟨hs.1, Nat.le_refl _, hs.2.2⟩

theorem ok_addrandom (e : Env) (v : Nat) (n : Int) : Ok1 (addrandom e v n) := by
  unfold addrandom
  refine (tri_get v).bind fun o => Tri.ite (fun _ => tri_throw (fun _ h => h.1) _) fun hf => ?_
  exact (tri_fillRandom e _ _ _ _).bind fun _ => tri_put fun s hs => ⟨hs.1, by simp only; omega, hs.2.2⟩

theorem tri_callerRead (l : List Byte) (n : Nat) (K : Prop) :
    Tri (fun s => LenOk s ∧ K) (callerRead l n) (fun _ s => LenOk s ∧ K) := by
  unfold callerRead
  exact Tri.ite (fun _ => Tri.pure _ fun s hs => hs) fun _ => tri_undef

theorem ok_setBytes (v : Nat) (arr : Option (List Byte)) (len : Nat) : Ok1 (setBytes v arr len) := by
  unfold setBytes
  refine (tri_get v).bind fun o => Tri.ite (fun _ => tri_throw (fun _ h => h.1) _) fun hf => ?_
  cases arr with
  | none => exact tri_throw (fun _ h => h.1) _
  | some l =>
    simp only
    refine (tri_put fun s hs => ⟨hs.1, by simp only; omega, hs.2.2⟩).bind fun _ => ?_
    refine Tri.pre (fun s hs => ⟨hs, trivial⟩) ((tri_callerRead l len True).bind fun d => ?_)
    intro s hs
    have := tri_write o.ptr 0 d True (P := fun s => LenOk s ∧ True) (fun s hs => hs) s hs
    revert this
    cases write o.ptr 0 d s <;> simp

theorem ok_addBytes (v : Nat) (arr : Option (List Byte)) (len : Nat) : Ok1 (addBytes v arr len) := by
  unfold addBytes
  refine (tri_get v).bind fun o => Tri.ite (fun _ => tri_throw (fun _ h => h.1) _) fun hf => ?_
  cases arr with
  | none => exact tri_throw (fun _ h => h.1) _
  | some l =>
    simp only
    refine (tri_callerRead l len _).bind fun d => (tri_write _ _ d _ (fun s hs => hs)).bind fun _ => ?_
    exact tri_put fun s hs => ⟨hs.1, by simp only; omega, hs.2.2⟩

theorem ok_consumeArr (v : Nat) (arr : Option (List Byte)) (len : Nat) : Ok1 (consumeArr v arr len) := by
  unfold consumeArr
  refine (tri_callerArray arr).bind fun p => tri_releasing ?_
  refine (tri_get v).bind fun o => Tri.ite (fun _ => tri_throw (fun _ h => h.1) _) fun hf => ?_
  refine Tri.ite (fun _ => tri_throw (fun _ h => h.1) _) fun _ => ?_
  intro s hs
  refine Tri.bind (P := LenOk) (tri_free o.ptr) (fun _ => ?_) s hs.1
  exact tri_put fun s' hs' => ⟨hs', by simp only; omega, hs.2.2⟩

theorem ok_consumeObj (v w : Nat) : Ok1 (consumeObj v w) := by
  unfold consumeObj
  refine (tri_get v).bind fun o => ?_
  intro s hs
  refine Tri.bind (P := LenOk) (tri_get w) (fun b => Tri.ite (fun _ => tri_throw (fun _ h => h.1) _) fun hf => ?_) s hs.1
  refine Tri.bind (Q := fun _ => LenOk) (tri_put fun s' hs' => ⟨hs'.1, by simp only; omega, hs.2.2⟩) fun _ => ?_
  refine (tri_free o.ptr).bind fun _ => (tri_get v).bind fun o1 => ?_
  intro s1 hs1
  refine Tri.bind (P := LenOk) (tri_get w) (fun b1 => ?_) s1 hs1.1
  refine Tri.bind (Q := fun _ => LenOk) (tri_put fun s' hs' => ⟨hs'.1, hs1.2⟩) fun _ => ?_
  exact ok_setDeallocate w false

theorem ok_setLen (v n : Nat) : Ok1 (setLen v n) := by
  unfold setLen
  refine (tri_get v).bind fun o => Tri.ite (fun _ => tri_throw (fun _ h => h.1) _) fun hf => ?_
  exact tri_put fun s hs => ⟨hs.1, by simp only; omega, hs.2.2⟩

theorem ok_fillRaw (v : Nat) (d : List Byte) : Ok1 (fillRaw v d) := by
  unfold fillRaw
  refine (tri_get v).bind fun o => (tri_write _ _ d True (fun s hs => ⟨hs.1, trivial⟩)).bind fun _ => ?_
  exact Tri.pre (fun s hs => hs.1) (ok_setLen _ _)

theorem ok_copyToArray (v : Nat) (size : Option Nat) (len : Nat) : Ok1 (copyToArray v size len) := by
  unfold copyToArray
  refine (tri_get v).bind fun o => Tri.ite (fun _ => tri_throw (fun _ h => h.1) _) fun _ => ?_
  cases size with
  | none => exact tri_throw (fun _ h => h.1) _
  | some k =>
    simp only
    refine (tri_read _ _ _ _).bind fun d => Tri.ite (fun _ => Tri.pure _ fun s hs => hs.1) fun _ => tri_undef

theorem ok_copyToBytes (v w : Nat) : Ok1 (copyToBytes v w) := by
  unfold copyToBytes
  refine (tri_get v).bind fun o => Tri.pre (fun s hs => hs.1) ((tri_get w).bind fun b => ?_)
  refine Tri.ite (fun _ => tri_throw (fun _ h => h.1) _) fun hf => ?_
  exact (tri_memcpy' _ _ _ _ _).bind fun _ => tri_put fun s hs => ⟨hs.1, by simp only; omega, hs.2.2⟩

theorem ok_addcopyToBytes (v w : Nat) : Ok1 (addcopyToBytes v w) := by
  unfold addcopyToBytes
  refine (tri_get v).bind fun o => Tri.pre (fun s hs => hs.1) ((tri_get w).bind fun b => ?_)
  refine Tri.ite (fun _ => tri_throw (fun _ h => h.1) _) fun hf => ?_
  refine (tri_memcpy' _ _ _ _ _).bind fun _ => tri_put fun s hs => ⟨hs.1, ?_, hs.2.2⟩
  simp only
  rw [Int.add_comm] at hf
  omega

theorem ok_copySub (e : Env) (r v i j : Nat) : Ok1 (copySub e r v i j) := by
  unfold copySub
  refine (tri_get v).bind fun o => Tri.pre (fun s hs => hs.1) ?_
  refine Tri.ite (fun _ => tri_throw (fun _ h => h) _) fun _ => Tri.ite (fun _ => tri_throw (fun _ h => h) _) fun _ => ?_
  intro s hs
  -- the new object has capacity j - i
  unfold new
  by_cases h0 : ((j - i : Nat) : Int) < 0
  · omega
  · rw [if_neg h0]
    have ht : ((j - i : Nat) : Int).toNat = j - i := by omega
    rw [ht, bind_run, bind_run]
    by_cases hg : e.granted = true ∧ j - i < 2 ^ 63
    · rw [alloc_run e s hg.1 hg.2]
      simp only
      cases hr : s.obj r with
      | some o' => simp only [declare, hr, Option.isSome_some, if_true]; trivial
      | none =>
        rw [declare_run _ _ (by exact hr)]
        simp only
        refine Tri.bind (P := fun t => LenOk t ∧ t.obj r = some ⟨some s.next, j - i, 0, true⟩)
          (Q := fun _ t => LenOk t ∧ t.obj r = some ⟨some s.next, j - i, 0, true⟩) ?_ (fun d => ?_) _
          ⟨LenOk.set (s := ⟨s.next + 1, upd s.blk s.next (some ((List.range (j - i)).map e.junk)), s.obj⟩) hs r
            ⟨Nat.zero_le _, hg.2⟩, upd_same _ _ _⟩
        · intro t ht
          unfold read
          cases hq : o.ptr.bind t.blk with
          | none => trivial
          | some l =>
            simp only
            split
            · exact ht
            · trivial
        · intro t ht
          rw [bind_run, get_run ht.2]
          simp only
          refine Tri.bind (P := LenOk) (tri_write _ _ d True (fun s hs => ⟨hs, trivial⟩)) (fun _ => ?_) t ht.1
          exact tri_put fun s hs => ⟨hs.1, Nat.le_refl _, hg.2⟩
    · rw [alloc_fail e s hg]
      exact hs

theorem ok_zip (e : Env) (f : Byte → Byte → Byte) (r v w : Nat) : Ok1 (zip e f r v w) := by
  unfold zip
  refine (tri_get v).bind fun o => ?_
  intro s0 hs0
  refine Tri.bind (P := LenOk) (tri_get w) (fun b => Tri.ite (fun _ => tri_throw (fun _ h => h.1) _) fun _ => ?_) s0 hs0.1
  intro s hs
  have hc : o.cap < 2 ^ 63 := hs0.2.2
  unfold new
  have h0 : ¬ ((o.cap : Int) < 0) := by omega
  have ht : (o.cap : Int).toNat = o.cap := by omega
  rw [if_pos hc, if_neg h0, ht, bind_run, bind_run]
  by_cases hg : e.granted = true ∧ o.cap < 2 ^ 63
  · rw [alloc_run e s hg.1 hg.2]
    simp only
    cases hr : s.obj r with
    | some o' => simp only [declare, hr, Option.isSome_some, if_true]; trivial
    | none =>
      rw [declare_run _ _ (by exact hr)]
      simp only
      have hread : ∀ (p : Option Nat) (off n : Nat), Tri (fun t => LenOk t ∧ t.obj r = some ⟨some s.next, o.cap, 0, true⟩)
          (read p off n) (fun _ t => LenOk t ∧ t.obj r = some ⟨some s.next, o.cap, 0, true⟩) := by
        intro p off n t ht
        unfold read
        cases hq : p.bind t.blk with
        | none => trivial
        | some l =>
          simp only
          split
          · exact ht
          · trivial
      refine Tri.bind (P := fun t => LenOk t ∧ t.obj r = some ⟨some s.next, o.cap, 0, true⟩)
        (hread _ _ _) (fun d => Tri.bind (hread _ _ _) fun d' => ?_) _
        ⟨LenOk.set (s := ⟨s.next + 1, upd s.blk s.next (some ((List.range o.cap).map e.junk)), s.obj⟩) hs.1 r
          ⟨Nat.zero_le _, hg.2⟩, upd_same _ _ _⟩
      intro t ht
      rw [bind_run, get_run ht.2]
      simp only
      refine Tri.bind (P := LenOk) (tri_write _ _ _ True (fun s hs => ⟨hs, trivial⟩)) (fun _ => ?_) t ht.1
      exact tri_put fun s hs => ⟨hs.1, hs0.2.1, hg.2⟩
  · rw [alloc_fail e s hg]
    exact hs.1

theorem ok_addSize (e : Env) (v n : Nat) : Ok1 (addSize e v n) := by
  unfold addSize
  intro s hs
  unfold noexcept
  cases hv : s.obj v with
  | none => simp only [bind_run, get, hv]; trivial
  | some o =>
    simp only [bind_run, get_run hv, put_run]
    by_cases hg : e.granted = true ∧ wrap ((o.cap : Int) + n) < 2 ^ 63
    · rw [alloc_run e _ hg.1 hg.2]
      simp only
      have hmc : ∀ t : Store, t.obj = upd s.obj v (some { o with cap := wrap ((o.cap : Int) + n) }) →
          (∃ l, t.blk s.next = some l ∧ l.length = wrap ((o.cap : Int) + n)) →
          (match memcpy (some s.next) 0 o.ptr o.len t with
            | .ok t' _ => t'.obj = t.obj ∧ o.len ≤ wrap ((o.cap : Int) + n)
            | .exn _ _ => False
            | _ => True) := by
        intro t ht ⟨l, hl, hll⟩
        unfold memcpy
        rw [bind_run]
        unfold read
        cases hq : o.ptr.bind t.blk with
        | none => trivial
        | some m =>
          simp only
          by_cases hm : 0 + o.len ≤ m.length
          · simp only [if_pos hm]
            by_cases hc : some s.next = o.ptr ∧ 0 < o.len ∧ 0 < o.len
            · rw [if_pos hc]; trivial
            · rw [if_neg hc]
              unfold write
              simp only [hl]
              have hdl : ((m.drop 0).take o.len).length = o.len := by
                rw [List.drop_zero, List.length_take]; omega
              by_cases hw : 0 + ((m.drop 0).take o.len).length ≤ l.length
              · rw [if_pos hw]; exact ⟨rfl, by omega⟩
              · rw [if_neg hw]; trivial
          · simp only [if_neg hm]
      have hk := hmc ⟨s.next + 1, upd s.blk s.next (some ((List.range (wrap ((o.cap : Int) + n))).map e.junk)),
        upd s.obj v (some { o with cap := wrap ((o.cap : Int) + n) })⟩ rfl ⟨_, upd_same _ _ _, by simp⟩
      cases hcp : memcpy (some s.next) 0 o.ptr o.len ⟨s.next + 1,
          upd s.blk s.next (some ((List.range (wrap ((o.cap : Int) + n))).map e.junk)),
          upd s.obj v (some { o with cap := wrap ((o.cap : Int) + n) })⟩ with
      | ok t u =>
        rw [hcp] at hk
        simp only
        cases hf : free o.ptr t with
        | ok t1 u =>
          have hobj : t1.obj = t.obj := by
            cases hp : o.ptr with
            | none => rw [hp] at hf; cases hf; rfl
            | some a =>
              rw [hp] at hf
              unfold free at hf
              simp only at hf
              split at hf
              · cases hf; rfl
              · cases hf
          simp only [hobj, hk.1, upd_upd]
          exact LenOk.set (s := ⟨t1.next, t1.blk, s.obj⟩) hs v ⟨hk.2, hg.2⟩
        | exn t1 x => trivial
        | terminate => trivial
        | ub => trivial
      | exn t x => trivial
      | terminate => trivial
      | ub => trivial
    · rw [alloc_fail e _ hg]
      trivial

theorem ok_addByte (v : Nat) (x : Byte) : Ok1 (addByte v x) := by
  unfold addByte
  refine (tri_get v).bind fun o => Tri.ite (fun _ => tri_throw (fun _ h => h.1) _) fun hf => ?_
  refine (tri_write _ _ _ _ (fun s hs => hs)).bind fun _ => tri_put fun s hs => ⟨hs.1, ?_, hs.2.2⟩
  have := hs.2.2
  unfold wrap
  simp only
  omega

theorem ok_eq (v w : Nat) : Ok1 (eq v w) := by
  unfold eq
  refine (tri_get v).bind fun o => Tri.pre (fun s hs => hs.1) ((tri_get w).bind fun b => ?_)
  refine Tri.ite (fun _ => Tri.pure _ fun s hs => hs.1) fun _ => ?_
  refine (tri_read _ _ _ _).bind fun x => Tri.pre (fun s hs => ⟨hs.1, hs.2.2⟩) ((tri_read _ _ _ _).bind fun y => ?_)
  exact Tri.pure _ fun s hs => hs.1

theorem ok_content (v : Nat) : Ok1 (content v) := by
  unfold content
  refine (tri_get v).bind fun o => ?_
  intro s hs
  have := tri_read o.ptr 0 o.len True s ⟨hs.1, trivial⟩
  revert this
  cases read o.ptr 0 o.len s <;> simp +contextual [After]

theorem ok_sizes (v : Nat) : Ok1 (sizes v) := by
  unfold sizes
  exact (tri_get v).bind fun o => Tri.pure _ fun s hs => hs.1

theorem ok_destroy (v : Nat) : Ok1 (destroy v) := by
  unfold destroy
  refine (tri_get v).bind fun o => Tri.pre (fun s hs => hs.1) (Tri.bind (Q := fun _ => LenOk) ?_ fun _ => ?_)
  · unfold dealloc
    exact Tri.ite (fun _ => tri_free _) fun _ => Tri.pure _ fun s hs => hs
  · intro s hs x ox hx
    simp only at hx
    by_cases hxv : x = v
    · subst hxv
      rw [upd_same] at hx
      cases hx
    · rw [upd_ne _ _ hxv] at hx
      exact hs x ox hx

theorem ok_fromLong (e : Env) (r : Nat) (l : UInt64) (z : Bool) : Ok1 (fromLong e r l z) := by
  have hbyte : ∀ x : Byte, Ok1 (fromLongByte r z x) := by
    intro x
    unfold fromLongByte
    refine (tri_get r).bind fun o => Tri.pre (fun s hs => hs.1) ?_
    exact Tri.ite (fun _ => ok_addByte r x) fun _ => Tri.ite (fun _ => ok_addByte r 0) fun _ => Tri.pure _ fun s hs => hs
  have hloop : ∀ is : List Nat, Ok1 (fromLongLoop r l z is) := by
    intro is
    induction is with
    | nil => exact Tri.pure _ fun s hs => hs
    | cons i is ih =>
      unfold fromLongLoop
      exact (hbyte _).bind fun _ => ih
  unfold fromLong
  exact (ok_new e r 8).bind fun _ => hloop _

theorem ok_quiet {x : M Unit} (hx : Ok1 x) : Ok1 (quiet x) := by
  unfold quiet
  exact hx.bind fun _ => Tri.pure _ fun s hs => hs

/-- no operation makes a length exceed a capacity, as long as allocations inside assignments succeed and no array is
claimed to be larger than memory -/
theorem ok_step (e : Env) (op : Op) (hg : ∀ v w, op = .assign v w → e.granted = true)
    (ha : ∀ r arr len, op = .ofArray r arr len → len < 2 ^ 63) : Ok1 (step e op) := by
  cases op with
  | new r n => exact ok_quiet (by apply ok_new)
  | withU64 r n => exact ok_quiet (by apply ok_withU64)
  | ofArray r arr len => exact ok_quiet (ok_ofArray _ _ _ (ha _ _ _ rfl))
  | fromLong r l z => exact ok_quiet (by apply ok_fromLong)
  | copyExtra r v n => exact ok_quiet (by apply ok_copyExtra)
  | move r v => exact ok_quiet (by apply ok_move)
  | copySub r v i j => exact ok_quiet (by apply ok_copySub)
  | add r v w => exact ok_quiet (by apply ok_zip)
  | sub r v w => exact ok_quiet (by apply ok_zip)
  | assign v w => exact ok_quiet (ok_assign _ _ _ (hg _ _ rfl))
  | setDeallocate v b => exact ok_quiet (by apply ok_setDeallocate)
  | fillrandom v => exact ok_quiet (by apply ok_fillrandom)
  | addrandom v n => exact ok_quiet (by apply ok_addrandom)
  | setBytes v arr len => exact ok_quiet (by apply ok_setBytes)
  | addBytes v arr len => exact ok_quiet (by apply ok_addBytes)
  | consumeArr v arr len => exact ok_quiet (by apply ok_consumeArr)
  | consumeObj v w => exact ok_quiet (by apply ok_consumeObj)
  | setLen v n => exact ok_quiet (by apply ok_setLen)
  | fillRaw v d => exact ok_quiet (by apply ok_fillRaw)
  | copyToArray v size len =>
    unfold step
    exact Tri.bind (Q := fun _ => LenOk) (by apply ok_copyToArray) fun _ => Tri.pure _ fun s hs => hs
  | copyToBytes v w => exact ok_quiet (by apply ok_copyToBytes)
  | addcopyToBytes v w => exact ok_quiet (by apply ok_addcopyToBytes)
  | addSize v n => exact ok_quiet (by apply ok_addSize)
  | addByte v x => exact ok_quiet (by apply ok_addByte)
  | eq v w =>
    unfold step
    exact Tri.bind (Q := fun _ => LenOk) (by apply ok_eq) fun _ => Tri.pure _ fun s hs => hs
  | content v =>
    unfold step
    exact Tri.bind (Q := fun _ => LenOk) (by apply ok_content) fun _ => Tri.pure _ fun s hs => hs
  | sizes v =>
    unfold step
    exact Tri.bind (Q := fun _ => LenOk) (by apply ok_sizes) fun _ => Tri.pure _ fun s hs => hs
  | destroy v => exact ok_quiet (by apply ok_destroy)

theorem ok_run (prog : List (Env × Op)) (s s' : Store) (h : LenOk s)
    (hg : ∀ e v w, (e, Op.assign v w) ∈ prog → e.granted = true)
    (ha : ∀ e r arr len, (e, Op.ofArray r arr len) ∈ prog → len < 2 ^ 63) (hr : run prog s = .ok s' ()) : LenOk s' := by
  induction prog generalizing s with
  | nil => cases hr; exact h
  | cons x rest ih =>
    obtain ⟨e, op⟩ := x
    unfold run at hr
    have h1 := ok_step e op (fun v w hop => hg e v w (by simp [hop])) (fun r arr len hop => ha e r arr len (by simp [hop]))
      s h
    have hg' : ∀ e v w, (e, Op.assign v w) ∈ rest → e.granted = true := fun e v w hm => hg e v w (List.mem_cons_of_mem _ hm)
    have ha' : ∀ e r arr len, (e, Op.ofArray r arr len) ∈ rest → len < 2 ^ 63 :=
      fun e r arr len hm => ha e r arr len (List.mem_cons_of_mem _ hm)
    cases hs : step e op s with
    | ok s1 y => rw [hs] at h1 hr; exact ih s1 h1 hg' ha' hr
    | exn s1 y => rw [hs] at h1 hr; exact ih s1 h1 hg' ha' hr
    | terminate => rw [hs] at hr; cases hr
    | ub => rw [hs] at hr; cases hr

end Verif.Heap
