import Verif.Lemmas.Heap

/-! Each public operation, properly used on tidy memory, keeps it tidy and does what the value machine does. -/
namespace Verif.Heap
open Spec

variable {s : Store} {e : Env} {v w r a : Nat} {o : Obj} {l : List Byte}

/-- what is shown of one operation -/
def Fine (e : Env) (s : Store) (op : Op) : Prop :=
  Sane s (step e op s) ∧ (Room e s op → Agrees s (step e op s) (valueStep e (value s) op))

theorem quiet_run (x : M Unit) (s : Store) : quiet x s = match x s with
    | .ok s _ => .ok s .unit
    | .exn s e => .exn s e
    | .terminate => .terminate
    | .ub => .ub := by
  unfold quiet; rw [bind_run]; cases x s <;> rfl

theorem _root_.Verif.Spec.Vacant.eq (h : Vacant s v) : s.obj v = none := h

theorem vget (h : value s v = some b) : (value s).get v = .ok b := by simp [Vals.get, h]

theorem fine_exn {op : Op} (k : Exn) (h : Tidy s) (hs : step e op s = .exn s (.std k))
    (hv : valueStep e (value s) op = .exn k) : Fine e s op := by
  refine ⟨?_, fun _ => ?_⟩
  · rw [hs]; exact ⟨h, rfl, rfl⟩
  · rw [hs, hv]; exact ⟨s, rfl, rfl⟩

theorem fine_ok {op : Op} (x : Val) {s' : Store} {A : Vals} (h : Tidy s' ∧ value s' = A) (hs : step e op s = .ok s' x)
    (hv : valueStep e (value s) op = .ok (A, x)) : Fine e s op := by
  refine ⟨?_, fun _ => ?_⟩
  · rw [hs]; exact h.1
  · rw [hs, hv]; exact ⟨s', rfl, h.2⟩

theorem fine_bad {op : Op} (h : Tidy s) (hs : step e op s = .exn s .badAlloc) (hr : ¬ Room e s op) : Fine e s op := by
  refine ⟨?_, fun h' => absurd h' hr⟩
  rw [hs]; exact ⟨h, rfl, rfl⟩

theorem take_append_drop_len (l d : List Byte) (n : Nat) (h : n + d.length ≤ l.length) :
    (l.take n ++ d ++ l.drop (n + d.length)).length = l.length := by
  simp only [List.length_append, List.length_take, List.length_drop]; omega

theorem take_written (l d : List Byte) (n : Nat) (h : n + d.length ≤ l.length) :
    (l.take n ++ d ++ l.drop (n + d.length)).take (n + d.length) = l.take n ++ d := by
  rw [List.take_append_of_le_length]
  · rw [List.take_of_length_le]
    simp only [List.length_append, List.length_take]; omega
  · simp only [List.length_append, List.length_take]; omega

theorem fine_new (h : Tidy s) (hr : Vacant s r) {n : Int} (hn : n < 2 ^ 63) : Fine e s (.new r n) := by
  by_cases h0 : n < 0
  · apply fine_exn .invalidArgument h
    · simp only [step, quiet_run, new, if_pos h0, throw_run]
    · simp [valueStep, Vals.store, Bytes.new, h0]
  · by_cases hg : e.granted = true
    · have hn' : n.toNat < 2 ^ 63 := by omega
      apply fine_ok .unit (h.create (l' := (List.range n.toNat).map e.junk) (v := r) (c := n.toNat) (n := 0) hr
        (by simpa using hn') (by simp) (by omega))
      · simp only [step, quiet_run, new, if_neg h0, bind_run, alloc_run e s hg hn', declare_run, hr.eq]
      · simp [valueStep, Vals.store, Bytes.new, h0]
    · apply fine_bad h
      · simp only [step, quiet_run, new, if_neg h0, bind_run, alloc_fail e s (fun h' => hg h'.1)]
      · exact hg

theorem fine_withU64 (h : Tidy s) (hr : Vacant s r) {n : Nat} : Fine e s (.withU64 r n) := by
  by_cases hg : e.granted = true ∧ n < 2 ^ 63
  · apply fine_ok .unit (h.create (l' := (List.range n).map e.junk) (v := r) (c := n) (n := 0) hr
      (by simpa using hg.2) (by simp) (by omega))
    · simp only [step, quiet_run, withU64, noexcept, bind_run, alloc_run e s hg.1 hg.2, declare_run, hr.eq]
    · simp [valueStep, Vals.store, Bytes.empty]
  · refine ⟨?_, fun h' => absurd h' hg⟩
    simp only [step, quiet_run, withU64, noexcept, bind_run, alloc_fail e s hg]
    trivial

theorem fine_addByte (h : Tidy s) (hu : Owning s v) (x : Byte) : Fine e s (.addByte v x) := by
  obtain ⟨o, hv, ho⟩ := hu
  obtain ⟨a, l, hp, hb, hlen, hcap, hsz, hlt⟩ := h.block hv ho
  have hval := value_of hv ho hp hb
  have hdl : (l.take o.len).length = o.len := by rw [List.length_take]; omega
  by_cases hf : o.len ≥ o.cap
  · apply fine_exn .lengthError h
    · simp only [step, quiet_run, addByte, bind_run, get_run hv, if_pos hf, throw_run]
    · simp only [valueStep, vget hval, Res.bind_ok, Vals.store, Bytes.addByte, hdl, if_pos hf, Res.bind_exn]
  · have hw : o.len + [x].length ≤ l.length := by simp only [List.length_singleton]; omega
    apply fine_ok .unit (h.modify hv ho hp hb (take_append_drop_len l [x] o.len hw) (n := o.len + 1) (by omega))
    · simp only [step, quiet_run, addByte, bind_run, get_run hv, if_neg hf, hp, write_run hb hw, put_run]
      rw [show ((o.len : Int) + 1) = ((o.len + 1 : Nat) : Int) by omega, wrap_of_lt (by omega)]
    · have := take_written l [x] o.len hw
      simp only [List.length_singleton] at this
      simp only [valueStep, vget hval, Res.bind_ok, Vals.store, Bytes.addByte, hdl, if_neg hf, Res.pure_eq,
        List.length_singleton, this]

/-! writing at the beginning of a block -/

theorem copied_length (m L : List Byte) (n : Nat) (hm : n ≤ m.length) (hL : n ≤ L.length) :
    (m.take n ++ L.drop n).length = L.length := by
  simp only [List.length_append, List.length_take, List.length_drop]; omega

theorem copied_take (m L : List Byte) (n : Nat) (hm : n ≤ m.length) : (m.take n ++ L.drop n).take n = m.take n := by
  rw [List.take_append_of_le_length (by rw [List.length_take]; omega), List.take_take, Nat.min_self]

theorem memcpy_fresh {b n : Nat} {m L : List Byte} (ha : s.blk a = some L) (hb : s.blk b = some m) (hne : a ≠ b)
    (hm : n ≤ m.length) (hl : n ≤ L.length) :
    memcpy (some a) 0 (some b) n s = .ok { s with blk := upd s.blk a (some (m.take n ++ L.drop n)) } () := by
  rw [memcpy_run ha hb (.inl hne) hm (by omega)]
  simp

theorem write_fresh {d L : List Byte} (ha : s.blk a = some L) (hl : d.length ≤ L.length) :
    write (some a) 0 d s = .ok { s with blk := upd s.blk a (some (d ++ L.drop d.length)) } () := by
  rw [write_run ha (by omega)]
  simp

theorem callerArray_run (l : List Byte) (s : Store) : callerArray (some l) s =
    .ok { s with next := s.next + 1, blk := upd s.blk s.next (some l) } (some s.next) := rfl

theorem fine_ofArray (h : Tidy s) (hr : Vacant s r) {arr : Option (List Byte)} {len : Nat} (ha : Genuine arr len) :
    Fine e s (.ofArray r arr len) := by
  cases arr with
  | none => exact fine_exn .invalidArgument h rfl rfl
  | some l =>
    obtain ⟨h1, h2⟩ := ha.2 l rfl
    apply fine_ok .unit (h.create (l' := l) (v := r) (c := len) (n := len) hr h2 h1 (Nat.le_refl _))
    · simp only [step, quiet_run, ofArray, callerArray_run, bind_run, releasing, reduceCtorEq, if_false, declare_run, hr.eq]
    · simp only [valueStep, Vals.store, Bytes.full, Res.bind_ok, Res.pure_eq, List.length_take, Nat.min_eq_left h1]

theorem fine_copyExtra (h : Tidy s) (hr : Vacant s r) (hu : Owning s v) {n : Nat}
    (hn : ∀ o, s.obj v = some o → o.cap + n < 2 ^ 64) : Fine e s (.copyExtra r v n) := by
  obtain ⟨o, hv, ho⟩ := hu
  obtain ⟨a, l, hp, hb, hlen, hcap, hsz, hlt⟩ := h.block hv ho
  have hval := value_of hv ho hp hb
  have hn := hn o hv
  have hwr : wrap ((o.cap : Int) + n) = o.cap + n := by
    rw [show ((o.cap : Int) + n) = ((o.cap + n : Nat) : Int) by omega, wrap_of_lt hn]
  by_cases hg : e.granted = true ∧ o.cap + n < 2 ^ 63
  · have hJ : ((List.range (o.cap + n)).map e.junk).length = o.cap + n := by simp
    apply fine_ok .unit (h.create (l' := l.take o.len ++ ((List.range (o.cap + n)).map e.junk).drop o.len) (v := r)
      (c := o.cap + n) (n := o.len) hr (by rw [copied_length _ _ _ (by omega) (by omega)]; omega)
      (by rw [copied_length _ _ _ (by omega) (by omega)]; omega) (by omega))
    · simp only [step, quiet_run, copyExtra, bind_run, get_run hv, hwr, alloc_run e s hg.1 hg.2, hp, reduceCtorEq,
        if_false]
      rw [memcpy_fresh (m := l) (upd_same _ _ _) (by simp only; rw [upd_ne _ _ (by omega)]; exact hb) (by omega)
        (by omega) (by omega)]
      simp only [declare_run, hr.eq, upd_upd]
    · simp only [valueStep, vget hval, Res.bind_ok, Vals.store, Bytes.copyExtra, Res.pure_eq,
        copied_take l _ o.len (by omega)]
  · apply fine_bad h
    · simp only [step, quiet_run, copyExtra, bind_run, get_run hv, hwr, alloc_fail e s hg]
    · intro hR
      exact hg ⟨hR.1, hR.2 o hv⟩

theorem fine_move (h : Tidy s) (hr : Vacant s r) (hu : Owning s v) : Fine e s (.move r v) := by
  obtain ⟨o, hv, ho⟩ := hu
  obtain ⟨a, l, hp, hb, hlen, hcap, hsz, hlt⟩ := h.block hv ho
  have hval := value_of hv ho hp hb
  apply fine_ok .unit (h.handover hv ho hr)
  · simp only [step, quiet_run, move, bind_run, get_run hv, declare_run, hr.eq, put_run]
  · simp only [valueStep, vget hval, Res.bind_ok, Res.pure_eq, hval]

theorem fine_copySub (h : Tidy s) (hr : Vacant s r) (hu : Owning s v) {i j : Nat} : Fine e s (.copySub r v i j) := by
  obtain ⟨o, hv, ho⟩ := hu
  obtain ⟨a, l, hp, hb, hlen, hcap, hsz, hlt⟩ := h.block hv ho
  have hval := value_of hv ho hp hb
  have hdl : (l.take o.len).length = o.len := by rw [List.length_take]; omega
  by_cases hij : i > j
  · apply fine_exn .invalidArgument h
    · simp only [step, quiet_run, copySub, bind_run, get_run hv, if_pos hij, throw_run]
    · simp only [valueStep, vget hval, Res.bind_ok, Vals.store, Bytes.copySubBytes, if_pos hij, Res.bind_exn]
  · by_cases hjl : j > o.len
    · apply fine_exn .lengthError h
      · simp only [step, quiet_run, copySub, bind_run, get_run hv, if_neg hij, if_pos hjl, throw_run]
      · simp only [valueStep, vget hval, Res.bind_ok, Vals.store, Bytes.copySubBytes, if_neg hij, hdl, if_pos hjl,
          Res.bind_exn]
    · have h0 : ¬ (((j - i : Nat) : Int) < 0) := by omega
      have ht : ((j - i : Nat) : Int).toNat = j - i := by omega
      by_cases hg : e.granted = true
      · have hJ : ((List.range (j - i)).map e.junk).length = j - i := by simp
        have hd : ((l.drop i).take (j - i)).length = j - i := by
          rw [List.length_take, List.length_drop]; omega
        have hdr : ((List.range (j - i)).map e.junk).drop (j - i) = [] := by rw [List.drop_eq_nil_iff]; omega
        apply fine_ok .unit (h.create (l' := (l.drop i).take (j - i)) (v := r)
          (c := j - i) (n := j - i) hr (by omega) (by omega) (by omega))
        · simp only [step, quiet_run, copySub, bind_run, get_run hv, if_neg hij, if_neg hjl, new, if_neg h0, ht,
            alloc_run e s hg (show j - i < 2 ^ 63 by omega), declare_run, hr.eq, hp]
          rw [read_run (l := l) (by simp only; rw [upd_ne _ _ (by omega)]; exact hb) (by omega)]
          simp only [get, upd_same]
          rw [write_fresh (L := (List.range (j - i)).map e.junk) (by simp) (by omega)]
          simp only [put_run, hd, hdr, List.append_nil, upd_upd]
        · have htt : (l.take o.len).drop i = (l.drop i).take (o.len - i) := by rw [List.drop_take]
          have : ((l.take o.len).drop i).take (j - i) = (l.drop i).take (j - i) := by
            rw [htt, List.take_take, Nat.min_eq_left (by omega)]
          simp only [valueStep, vget hval, Res.bind_ok, Vals.store, Bytes.copySubBytes, if_neg hij, hdl, if_neg hjl,
            Res.pure_eq, this, List.take_of_length_le (Nat.le_of_eq hd)]
      · apply fine_bad h
        · simp only [step, quiet_run, copySub, bind_run, get_run hv, if_neg hij, if_neg hjl, new, if_neg h0,
            alloc_fail e s (fun h' => hg h'.1)]
        · exact hg

theorem run_zip (f : Byte → Byte → Byte) (h : Tidy s) (hr : Vacant s r) (hv : s.obj v = some o) (ho : o.owns = true)
    {b : Obj} (hw : s.obj w = some b) (hbo : b.owns = true) {a' : Nat} {l' : List Byte} (hp : o.ptr = some a)
    (hb : s.blk a = some l) (hp' : b.ptr = some a') (hb' : s.blk a' = some l') :
    (o.len ≠ b.len ∧ quiet (zip e f r v w) s = .exn s (.std .lengthError)) ∨
    (o.len = b.len ∧ e.granted ≠ true ∧ quiet (zip e f r v w) s = .exn s .badAlloc) ∨
    (o.len = b.len ∧ e.granted = true ∧ ∃ s', quiet (zip e f r v w) s = .ok s' .unit ∧ Tidy s' ∧
      value s' = upd (value s) r (some ⟨List.zipWith f (l.take o.len) (l'.take b.len), o.cap⟩)) := by
  obtain ⟨_, _, hp0, hb0, hlen, hcap, hsz, hlt⟩ := h.block hv ho
  rw [hp] at hp0; cases hp0
  rw [hb] at hb0; cases hb0
  obtain ⟨_, _, hp0, hb0, hlen', hcap', hsz', hlt'⟩ := h.block hw hbo
  rw [hp'] at hp0; cases hp0
  rw [hb'] at hb0; cases hb0
  by_cases hl : o.len = b.len
  · right
    have hl' : ¬ (o.len ≠ b.len) := by simpa using hl
    have hc : o.cap < 2 ^ 63 := by omega
    have h0 : ¬ ((o.cap : Int) < 0) := by omega
    have ht : (o.cap : Int).toNat = o.cap := by omega
    by_cases hg : e.granted = true
    · right
      have hd : (List.zipWith f (l.take o.len) (l'.take o.len)).length = o.len := by
        rw [List.length_zipWith, List.length_take, List.length_take]; omega
      have hJ : ((List.range o.cap).map e.junk).length = o.cap := by simp
      have := h.create (l' := List.zipWith f (l.take o.len) (l'.take o.len) ++
        ((List.range o.cap).map e.junk).drop o.len) (v := r) (c := o.cap) (n := o.len) hr
        (by rw [List.length_append, List.length_drop]; omega) (by rw [List.length_append, List.length_drop]; omega) hlen
      refine ⟨hl, hg, _, ?_, this.1, ?_⟩
      · simp only [quiet_run, zip, bind_run, get_run hv, get_run hw, if_neg hl', new, if_pos hc, if_neg h0, ht,
          alloc_run e s hg hc, declare_run, hr.eq, hp, hp']
        rw [read_run (l := l) (by simp only; rw [upd_ne _ _ (by omega)]; exact hb) (by omega)]
        simp only
        rw [read_run (l := l') (by simp only; rw [upd_ne _ _ (by omega)]; exact hb') (by omega)]
        simp only [get, upd_same, List.drop_zero]
        rw [write_fresh (L := (List.range o.cap).map e.junk) (by simp) (by omega)]
        simp only [put_run, hd, upd_upd]
      · rw [this.2, List.take_append_of_le_length (by omega), List.take_of_length_le (by omega), hl]
    · left
      refine ⟨hl, hg, ?_⟩
      simp only [quiet_run, zip, bind_run, get_run hv, get_run hw, if_neg hl', new, if_pos hc, if_neg h0,
        alloc_fail e s (fun h' => hg h'.1)]
  · left
    refine ⟨hl, ?_⟩
    simp only [quiet_run, zip, bind_run, get_run hv, get_run hw, if_pos (show o.len ≠ b.len from hl), throw_run]

theorem fine_add (h : Tidy s) (hr : Vacant s r) (hu : Owning s v) (hu' : Owning s w) : Fine e s (.add r v w) := by
  obtain ⟨o, hv, ho⟩ := hu
  obtain ⟨a, l, hp, hb, hlen, hcap, hsz, hlt⟩ := h.block hv ho
  obtain ⟨b, hw, hbo⟩ := hu'
  obtain ⟨a', l', hp', hb', hlen', hcap', hsz', hlt'⟩ := h.block hw hbo
  have hd1 : (l.take o.len).length = o.len := by rw [List.length_take]; omega
  have hd2 : (l'.take b.len).length = b.len := by rw [List.length_take]; omega
  rcases run_zip (e := e) (· + ·) h hr hv ho hw hbo hp hb hp' hb' with ⟨hl, hs⟩ | ⟨hl, hg, hs⟩ | ⟨hl, hg, s', hs, ht⟩
  · apply fine_exn (op := .add r v w) .lengthError h hs
    simp only [valueStep, vget (value_of hv ho hp hb), vget (value_of hw hbo hp' hb'), Res.bind_ok, Vals.store,
      Bytes.add, hd1, hd2, if_pos hl, Res.bind_exn]
  · exact fine_bad h hs hg
  · apply fine_ok (op := .add r v w) .unit ht hs
    simp only [valueStep, vget (value_of hv ho hp hb), vget (value_of hw hbo hp' hb'), Res.bind_ok, Vals.store,
      Bytes.add, hd1, hd2, if_neg (show ¬ (o.len ≠ b.len) by simpa using hl), Res.pure_eq]

theorem fine_sub (h : Tidy s) (hr : Vacant s r) (hu : Owning s v) (hu' : Owning s w) : Fine e s (.sub r v w) := by
  obtain ⟨o, hv, ho⟩ := hu
  obtain ⟨a, l, hp, hb, hlen, hcap, hsz, hlt⟩ := h.block hv ho
  obtain ⟨b, hw, hbo⟩ := hu'
  obtain ⟨a', l', hp', hb', hlen', hcap', hsz', hlt'⟩ := h.block hw hbo
  have hd1 : (l.take o.len).length = o.len := by rw [List.length_take]; omega
  have hd2 : (l'.take b.len).length = b.len := by rw [List.length_take]; omega
  rcases run_zip (e := e) (· - ·) h hr hv ho hw hbo hp hb hp' hb' with ⟨hl, hs⟩ | ⟨hl, hg, hs⟩ | ⟨hl, hg, s', hs, ht⟩
  · apply fine_exn (op := .sub r v w) .lengthError h hs
    simp only [valueStep, vget (value_of hv ho hp hb), vget (value_of hw hbo hp' hb'), Res.bind_ok, Vals.store,
      Bytes.sub, hd1, hd2, if_pos hl, Res.bind_exn]
  · exact fine_bad h hs hg
  · apply fine_ok (op := .sub r v w) .unit ht hs
    simp only [valueStep, vget (value_of hv ho hp hb), vget (value_of hw hbo hp' hb'), Res.bind_ok, Vals.store,
      Bytes.sub, hd1, hd2, if_neg (show ¬ (o.len ≠ b.len) by simpa using hl), Res.pure_eq]

theorem fine_assign (h : Tidy s) (hu : Owning s v) (hu' : Owning s w) (hg : e.granted = true) :
    Fine e s (.assign v w) := by
  obtain ⟨o, hv, ho⟩ := hu
  obtain ⟨a, l, hp, hb, hlen, hcap, hsz, hlt⟩ := h.block hv ho
  obtain ⟨b, hw, hbo⟩ := hu'
  obtain ⟨a', l', hp', hb', hlen', hcap', hsz', hlt'⟩ := h.block hw hbo
  have hval := value_of hw hbo hp' hb'
  by_cases hvw : v = w
  · subst hvw
    apply fine_ok .unit (s' := s) (A := upd (value s) v (some ⟨l'.take b.len, b.cap⟩)) ⟨h, (upd_self _ _ _ hval).symm⟩
    · simp only [step, quiet_run, assign, if_true, bind_run, get_run hv, pure_run]
    · simp only [valueStep, vget hval, Res.bind_ok, Vals.store, Res.pure_eq]
  · have haa : a' ≠ a := by
      rintro rfl
      exact hvw (h.sole v w o b hv hw ho hbo (by rw [hp, hp']))
    have hJ : ((List.range b.cap).map e.junk).length = b.cap := by simp
    apply fine_ok .unit (h.replace hv ho hp (l' := l'.take b.len ++ ((List.range b.cap).map e.junk).drop b.len)
      (c := b.cap) (n := b.len) (by rw [copied_length _ _ _ (by omega) (by omega)]; omega)
      (by rw [copied_length _ _ _ (by omega) (by omega)]; omega) hlen')
    · simp only [step, quiet_run, assign, if_neg hvw, bind_run, get_run hv, get_run hw, hp', reduceCtorEq, if_false,
        put_run, hp]
      rw [free_run (by simp only; exact hb)]
      simp only
      rw [alloc_run e _ hg (show b.cap < 2 ^ 63 by omega)]
      simp only
      rw [memcpy_fresh (L := (List.range b.cap).map e.junk) (m := l') (by simp)
        (by simp only; rw [upd_ne _ _ (by omega), upd_ne _ _ haa]; exact hb') (by omega) (by omega) (by omega)]
      simp only [upd_upd, ho]
    · simp only [valueStep, vget hval, Res.bind_ok, Vals.store, Res.pure_eq, copied_take l' _ b.len (by omega)]

theorem fine_setBytes (h : Tidy s) (hu : Owning s v) {arr : Option (List Byte)} {len : Nat} (ha : Genuine arr len) :
    Fine e s (.setBytes v arr len) := by
  obtain ⟨o, hv, ho⟩ := hu
  obtain ⟨a, l, hp, hb, hlen, hcap, hsz, hlt⟩ := h.block hv ho
  have hval := value_of hv ho hp hb
  by_cases hf : len > o.cap
  · apply fine_exn .lengthError h
    · simp only [step, quiet_run, setBytes, bind_run, get_run hv, if_pos hf, throw_run]
    · cases arr with
      | none => simp only [valueStep, vget hval, Res.bind_ok, if_pos hf]
      | some m =>
        obtain ⟨h1, h2⟩ := ha.2 m rfl
        simp only [valueStep, vget hval, Res.bind_ok, Vals.store, Bytes.setBytes, List.length_take, Nat.min_eq_left h1,
          if_pos hf, Res.bind_exn]
  · cases arr with
    | none =>
      apply fine_exn .invalidArgument h
      · simp only [step, quiet_run, setBytes, bind_run, get_run hv, if_neg hf, throw_run]
      · simp only [valueStep, vget hval, Res.bind_ok, if_neg hf]
    | some m =>
      obtain ⟨h1, h2⟩ := ha.2 m rfl
      have hm : (m.take len).length = len := by rw [List.length_take]; omega
      apply fine_ok .unit (h.modify hv ho hp hb (l' := m.take len ++ l.drop len)
        (copied_length _ _ _ (by omega) (by omega)) (n := len) (by omega))
      · simp only [step, quiet_run, setBytes, bind_run, get_run hv, if_neg hf, put_run, callerRead, if_pos h1, pure_run,
          hp]
        rw [write_fresh (d := m.take len) (L := l) (by exact hb) (by omega)]
        simp only [hm]
      · simp only [valueStep, vget hval, Res.bind_ok, Vals.store, Bytes.setBytes, List.length_take, Nat.min_eq_left h1,
          if_neg hf, Res.pure_eq, copied_take m l len h1]

theorem wrap_add {m n : Nat} (h : m + n < 2 ^ 64) : wrap ((m : Int) + n) = m + n := by
  rw [show ((m : Int) + n) = ((m + n : Nat) : Int) by omega, wrap_of_lt h]

theorem fine_addBytes (h : Tidy s) (hu : Owning s v) {arr : Option (List Byte)} {len : Nat} (ha : Genuine arr len) :
    Fine e s (.addBytes v arr len) := by
  obtain ⟨o, hv, ho⟩ := hu
  obtain ⟨a, l, hp, hb, hlen, hcap, hsz, hlt⟩ := h.block hv ho
  have hval := value_of hv ho hp hb
  have hdl : (l.take o.len).length = o.len := by rw [List.length_take]; omega
  have hwr : wrap ((o.len : Int) + len) = o.len + len := wrap_add (by have := ha.1; omega)
  by_cases hf : o.len + len > o.cap
  · apply fine_exn .lengthError h
    · simp only [step, quiet_run, addBytes, bind_run, get_run hv, hwr, if_pos hf, throw_run]
    · cases arr with
      | none => simp only [valueStep, vget hval, Res.bind_ok, hdl, if_pos hf]
      | some m =>
        obtain ⟨h1, h2⟩ := ha.2 m rfl
        simp only [valueStep, vget hval, Res.bind_ok, Vals.store, Bytes.addBytes, hdl,
          show (m.take len).length = len by rw [List.length_take]; omega, if_pos hf, Res.bind_exn]
  · cases arr with
    | none =>
      apply fine_exn .invalidArgument h
      · simp only [step, quiet_run, addBytes, bind_run, get_run hv, hwr, if_neg hf, throw_run]
      · simp only [valueStep, vget hval, Res.bind_ok, hdl, if_neg hf]
    | some m =>
      obtain ⟨h1, h2⟩ := ha.2 m rfl
      have hm : (m.take len).length = len := by rw [List.length_take]; omega
      have hw : o.len + (m.take len).length ≤ l.length := by omega
      apply fine_ok .unit (h.modify hv ho hp hb (take_append_drop_len l (m.take len) o.len hw) (n := o.len + len)
        (by omega))
      · simp only [step, quiet_run, addBytes, bind_run, get_run hv, hwr, if_neg hf, callerRead, if_pos h1, pure_run,
          hp, write_run hb hw, put_run]
      · have := take_written l (m.take len) o.len hw
        rw [hm] at this ⊢
        simp only [valueStep, vget hval, Res.bind_ok, Vals.store, Bytes.addBytes, hdl, hm,
          if_neg hf, Res.pure_eq, this]

theorem fine_fillRaw (h : Tidy s) (hu : Owning s v) {d : List Byte}
    (hd : ∀ o, s.obj v = some o → o.len + d.length ≤ o.cap) : Fine e s (.fillRaw v d) := by
  obtain ⟨o, hv, ho⟩ := hu
  obtain ⟨a, l, hp, hb, hlen, hcap, hsz, hlt⟩ := h.block hv ho
  have hval := value_of hv ho hp hb
  have hdl : (l.take o.len).length = o.len := by rw [List.length_take]; omega
  have hd := hd o hv
  have hw : o.len + d.length ≤ l.length := by omega
  have hwr : wrap ((o.len : Int) + d.length) = o.len + d.length := wrap_add (by omega)
  have hf : ¬ (o.len + d.length > o.cap) := by omega
  apply fine_ok .unit (h.modify hv ho hp hb (take_append_drop_len l d o.len hw) (n := o.len + d.length) hd)
  · simp only [step, quiet_run, fillRaw, bind_run, hwr, hp, write_run hb hw, setLen, get, hv, if_neg hf,
      put_run]
  · simp only [valueStep, vget hval, Res.bind_ok, Vals.store, Bytes.addBytes, hdl, if_neg hf, Res.pure_eq,
      take_written l d o.len hw]

theorem fine_setLen (h : Tidy s) (hu : Owning s v) {n : Nat} : Fine e s (.setLen v n) := by
  obtain ⟨o, hv, ho⟩ := hu
  obtain ⟨a, l, hp, hb, hlen, hcap, hsz, hlt⟩ := h.block hv ho
  have hval := value_of hv ho hp hb
  have hdl : (l.take o.len).length = o.len := by rw [List.length_take]; omega
  by_cases hf : n > o.cap
  · apply fine_exn .lengthError h
    · simp only [step, quiet_run, setLen, bind_run, get_run hv, if_pos hf, throw_run]
    · simp only [valueStep, vget hval, Res.bind_ok, Vals.store, Bytes.setLen, if_pos hf, Res.bind_exn]
  · have hs : step e (.setLen v n) s = .ok ⟨s.next, s.blk, upd s.obj v (some { o with len := n })⟩ .unit := by
      simp only [step, quiet_run, setLen, bind_run, get_run hv, if_neg hf, put_run]
    have hk := h.relen hv ho hp hb (n := n) (by omega)
    by_cases hn : n ≤ o.len
    · apply fine_ok .unit hk hs
      simp only [valueStep, vget hval, Res.bind_ok, Vals.store, Bytes.setLen, if_neg hf, hdl, if_pos hn, Res.pure_eq,
        List.take_take, Nat.min_eq_left hn]
    · refine ⟨by rw [hs]; exact hk.1, fun _ => ?_⟩
      simp only [valueStep, vget hval, Res.bind_ok, Vals.store, Bytes.setLen, if_neg hf, hdl, if_neg hn, Res.bind_fatal]
      trivial

theorem fine_consumeArr (h : Tidy s) (hu : Owning s v) {arr : Option (List Byte)} {len : Nat} (ha : Genuine arr len)
    (hc : ∀ o l, s.obj v = some o → arr = some l → len ≤ o.cap → o.cap ≤ l.length) :
    Fine e s (.consumeArr v arr len) := by
  obtain ⟨o, hv, ho⟩ := hu
  obtain ⟨a, l, hp, hb, hlen, hcap, hsz, hlt⟩ := h.block hv ho
  have hval := value_of hv ho hp hb
  cases arr with
  | none =>
    by_cases hf : len > o.cap
    · apply fine_exn .lengthError h
      · simp only [step, quiet_run, consumeArr, callerArray, pure_run, bind_run, releasing, get_run hv, if_pos hf,
          throw_run, free]
      · simp only [valueStep, vget hval, Res.bind_ok, if_pos hf]
    · apply fine_exn .invalidArgument h
      · simp only [step, quiet_run, consumeArr, callerArray, pure_run, bind_run, releasing, get_run hv, if_neg hf,
          throw_run, free, if_true]
      · simp only [valueStep, vget hval, Res.bind_ok, if_neg hf]
  | some m =>
    obtain ⟨h1, h2⟩ := ha.2 m rfl
    have hm : (m.take len).length = len := by rw [List.length_take]; omega
    by_cases hf : len > o.cap
    · have hs : step e (.consumeArr v (some m) len) s = .exn ⟨s.next + 1, s.blk, s.obj⟩ (.std .lengthError) := by
        simp only [step, quiet_run, consumeArr, callerArray_run, bind_run, releasing, get, hv, if_pos hf, throw_run]
        rw [free_run (l := m) (by simp)]
        simp only [upd_upd]
        rw [upd_self _ _ _ (h.fresh _ (Nat.le_refl _))]
      refine ⟨?_, fun _ => ?_⟩
      · rw [hs]; exact ⟨h.bump.1, rfl, rfl⟩
      · rw [hs]
        simp only [valueStep, vget hval, Res.bind_ok, Vals.store, Bytes.setBytes, hm, if_pos hf, Res.bind_exn]
        exact ⟨_, rfl, h.bump.2⟩
    · have hcm := hc o m hv rfl (by omega)
      have hk := h.replace hv ho hp (l' := m) h2 (c := o.cap) (n := len) hcm (by omega)
      apply fine_ok .unit hk
      · simp only [step, quiet_run, consumeArr, callerArray_run, bind_run, releasing, get, hv, if_neg hf, reduceCtorEq,
          if_false, hp]
        rw [free_run (l := l) (by simp only; rw [upd_ne _ _ (by omega)]; exact hb)]
        simp only [put_run, ho]
        rw [upd_comm _ _ _ (by omega)]
      · simp only [valueStep, vget hval, Res.bind_ok, Vals.store, Bytes.setBytes, hm, if_neg hf, Res.pure_eq]

theorem fine_consumeObj (h : Tidy s) (hu : Owning s v) (hu' : Owning s w) (hvw : v ≠ w)
    (hc : ∀ o b, s.obj v = some o → s.obj w = some b → b.len ≤ o.cap → o.cap ≤ b.cap) :
    Fine e s (.consumeObj v w) := by
  obtain ⟨o, hv, ho⟩ := hu
  obtain ⟨a, l, hp, hb, hlen, hcap, hsz, hlt⟩ := h.block hv ho
  obtain ⟨b, hw, hbo⟩ := hu'
  obtain ⟨a', l', hp', hb', hlen', hcap', hsz', hlt'⟩ := h.block hw hbo
  have hval := value_of hv ho hp hb
  have hval' := value_of hw hbo hp' hb'
  have hd2 : (l'.take b.len).length = b.len := by rw [List.length_take]; omega
  by_cases hf : b.len > o.cap
  · apply fine_exn .lengthError h
    · simp only [step, quiet_run, consumeObj, bind_run, get_run hv, get_run hw, if_pos hf, throw_run]
    · simp only [valueStep, vget hval, vget hval', Res.bind_ok, Bytes.copyToBytes, hd2,
        if_pos (show o.cap < b.len from hf), Res.bind_exn]
  · have hcm := hc o b hv hw (by omega)
    have hk := h.takeover hv ho hp hw hbo hvw (c := o.cap) hcm (by omega)
    rw [hval', Option.map_some] at hk
    apply fine_ok .unit hk
    · simp only [step, quiet_run, consumeObj, bind_run, get_run hv, get_run hw, if_neg hf, put_run, hp]
      rw [free_run (l := l) (by exact hb)]
      simp only [get, upd_same, upd_ne _ _ (Ne.symm hvw), hw, setDeallocate, bind_run, put_run, upd_upd, ho]
    · simp only [valueStep, vget hval, vget hval', Res.bind_ok, Bytes.copyToBytes, hd2,
        if_neg (show ¬ (o.cap < b.len) from hf), Res.pure_eq]

theorem fine_copyToArray (h : Tidy s) (hu : Owning s v) {size : Option Nat} {len : Nat}
    (hk : ∀ k, size = some k → len ≤ k) : Fine e s (.copyToArray v size len) := by
  obtain ⟨o, hv, ho⟩ := hu
  obtain ⟨a, l, hp, hb, hlen, hcap, hsz, hlt⟩ := h.block hv ho
  have hval := value_of hv ho hp hb
  have hdl : (l.take o.len).length = o.len := by rw [List.length_take]; omega
  by_cases hf : len < o.len
  · apply fine_exn .lengthError h
    · simp only [step, copyToArray, bind_run, get_run hv, if_pos hf, throw_run]
    · simp only [valueStep, vget hval, Res.bind_ok, hdl, if_pos hf]
  · cases size with
    | none =>
      apply fine_exn .invalidArgument h
      · simp only [step, copyToArray, bind_run, get_run hv, if_neg hf, throw_run]
      · simp only [valueStep, vget hval, Res.bind_ok, hdl, if_neg hf]
    | some k =>
      have hk := hk k rfl
      apply fine_ok (.bytes (l.take o.len)) (s' := s) ⟨h, rfl⟩
      · simp only [step, copyToArray, bind_run, get_run hv, if_neg hf, hp, read_run hb (show 0 + o.len ≤ l.length by omega),
          List.drop_zero, hdl, if_pos (show o.len ≤ k by omega), pure_run]
      · simp only [valueStep, vget hval, Res.bind_ok, hdl, if_neg hf]

theorem fine_copyToBytes (h : Tidy s) (hu : Owning s v) (hu' : Owning s w) (hvw : v ≠ w) :
    Fine e s (.copyToBytes v w) := by
  obtain ⟨o, hv, ho⟩ := hu
  obtain ⟨a, l, hp, hb, hlen, hcap, hsz, hlt⟩ := h.block hv ho
  obtain ⟨b, hw, hbo⟩ := hu'
  obtain ⟨a', l', hp', hb', hlen', hcap', hsz', hlt'⟩ := h.block hw hbo
  have hval := value_of hv ho hp hb
  have hval' := value_of hw hbo hp' hb'
  have hdl : (l.take o.len).length = o.len := by rw [List.length_take]; omega
  have haa : a' ≠ a := by
    rintro rfl
    exact hvw (h.sole v w o b hv hw ho hbo (by rw [hp, hp']))
  by_cases hf : b.cap < o.len
  · apply fine_exn .lengthError h
    · simp only [step, quiet_run, copyToBytes, bind_run, get_run hv, get_run hw, if_pos hf, throw_run]
    · simp only [valueStep, vget hval, vget hval', Res.bind_ok, Vals.store, Bytes.copyToBytes, hdl, if_pos hf,
        Res.bind_exn]
  · apply fine_ok .unit (h.modify hw hbo hp' hb' (l' := l.take o.len ++ l'.drop o.len)
      (copied_length _ _ _ (by omega) (by omega)) (n := o.len) (by omega))
    · simp only [step, quiet_run, copyToBytes, bind_run, get_run hv, get_run hw, if_neg hf, hp, hp',
        memcpy_fresh hb' hb haa (show o.len ≤ l.length by omega) (show o.len ≤ l'.length by omega), put_run]
    · simp only [valueStep, vget hval, vget hval', Res.bind_ok, Vals.store, Bytes.copyToBytes, hdl, if_neg hf,
        Res.pure_eq, copied_take l l' o.len (by omega)]

theorem fine_addcopyToBytes (h : Tidy s) (hu : Owning s v) (hu' : Owning s w) : Fine e s (.addcopyToBytes v w) := by
  obtain ⟨o, hv, ho⟩ := hu
  obtain ⟨a, l, hp, hb, hlen, hcap, hsz, hlt⟩ := h.block hv ho
  obtain ⟨b, hw, hbo⟩ := hu'
  obtain ⟨a', l', hp', hb', hlen', hcap', hsz', hlt'⟩ := h.block hw hbo
  have hval := value_of hv ho hp hb
  have hval' := value_of hw hbo hp' hb'
  have hdl : (l.take o.len).length = o.len := by rw [List.length_take]; omega
  have hdl' : (l'.take b.len).length = b.len := by rw [List.length_take]; omega
  have hw1 : wrap ((o.len : Int) + b.len) = o.len + b.len := wrap_add (by omega)
  have hw2 : wrap ((b.len : Int) + o.len) = b.len + o.len := wrap_add (by omega)
  have haa : a' ≠ a ∨ o.len ≤ b.len := by
    by_cases hvw : v = w
    · subst hvw
      rw [hv] at hw
      cases hw
      exact .inr (Nat.le_refl _)
    · left
      rintro rfl
      exact hvw (h.sole v w o b hv hw ho hbo (by rw [hp, hp']))
  by_cases hf : b.cap < o.len + b.len
  · apply fine_exn .lengthError h
    · simp only [step, quiet_run, addcopyToBytes, bind_run, get_run hv, get_run hw, hw1, if_pos hf, throw_run]
    · simp only [valueStep, vget hval, vget hval', Res.bind_ok, Vals.store, Bytes.addcopyToBytes, hdl, hdl', if_pos hf,
        Res.bind_exn]
  · have hww : b.len + (l.take o.len).length ≤ l'.length := by omega
    have hlen2 := take_append_drop_len l' (l.take o.len) b.len hww
    have htk := take_written l' (l.take o.len) b.len hww
    rw [hdl] at hlen2 htk
    apply fine_ok .unit (h.modify hw hbo hp' hb' hlen2 (n := b.len + o.len) (by omega))
    · simp only [step, quiet_run, addcopyToBytes, bind_run, get_run hv, get_run hw, hw1, hw2, if_neg hf, hp, hp',
        memcpy_run hb' hb haa (show o.len ≤ l.length by omega) (show b.len + o.len ≤ l'.length by omega), put_run]
    · simp only [valueStep, vget hval, vget hval', Res.bind_ok, Vals.store, Bytes.addcopyToBytes, hdl, hdl', if_neg hf,
        Res.pure_eq, htk]

theorem fine_addSize (h : Tidy s) (hu : Owning s v) {n : Nat} (hn : ∀ o, s.obj v = some o → o.cap + n < 2 ^ 64) :
    Fine e s (.addSize v n) := by
  obtain ⟨o, hv, ho⟩ := hu
  obtain ⟨a, l, hp, hb, hlen, hcap, hsz, hlt⟩ := h.block hv ho
  have hval := value_of hv ho hp hb
  have hwr : wrap ((o.cap : Int) + n) = o.cap + n := wrap_add (hn o hv)
  by_cases hg : e.granted = true ∧ o.cap + n < 2 ^ 63
  · have hJ : ((List.range (o.cap + n)).map e.junk).length = o.cap + n := by simp
    apply fine_ok .unit (h.replace hv ho hp (l' := l.take o.len ++ ((List.range (o.cap + n)).map e.junk).drop o.len)
      (c := o.cap + n) (n := o.len) (by rw [copied_length _ _ _ (by omega) (by omega)]; omega)
      (by rw [copied_length _ _ _ (by omega) (by omega)]; omega) (by omega))
    · simp only [step, quiet_run, addSize, noexcept, bind_run, get_run hv, hwr, put_run, alloc_run e _ hg.1 hg.2, hp]
      rw [memcpy_fresh (m := l) (upd_same _ _ _) (by simp only; rw [upd_ne _ _ (by omega)]; exact hb) (by omega)
        (by omega) (by omega)]
      simp only [upd_upd]
      rw [free_run (l := l) (by simp only; rw [upd_ne _ _ (by omega)]; exact hb)]
      simp only [ho, upd_upd]
      rw [upd_comm _ _ _ (by omega)]
    · simp only [valueStep, vget hval, Res.bind_ok, Vals.store, Bytes.addSize, Res.pure_eq,
        copied_take l _ o.len (by omega)]
  · refine ⟨?_, fun h' => absurd ⟨h'.1, h'.2 o hv⟩ hg⟩
    simp only [step, quiet_run, addSize, noexcept, bind_run, get_run hv, hwr, put_run, alloc_fail e _ hg]
    trivial

theorem fine_eq (h : Tidy s) (hu : Owning s v) (hu' : Owning s w) : Fine e s (.eq v w) := by
  obtain ⟨o, hv, ho⟩ := hu
  obtain ⟨a, l, hp, hb, hlen, hcap, hsz, hlt⟩ := h.block hv ho
  obtain ⟨b, hw, hbo⟩ := hu'
  obtain ⟨a', l', hp', hb', hlen', hcap', hsz', hlt'⟩ := h.block hw hbo
  have hval := value_of hv ho hp hb
  have hval' := value_of hw hbo hp' hb'
  apply fine_ok (.bool (l.take o.len == l'.take b.len)) (s' := s) ⟨h, rfl⟩
  · by_cases hl : o.len = b.len
    · simp only [step, eq, bind_run, get_run hv, get_run hw, if_neg (show ¬ (o.len ≠ b.len) by simpa using hl), hp, hp',
        read_run hb (show 0 + o.len ≤ l.length by omega), read_run hb' (show 0 + o.len ≤ l'.length by omega),
        List.drop_zero, pure_run]
      rw [hl]
    · have : (l.take o.len == l'.take b.len) = false := by
        rw [beq_eq_false_iff_ne]
        intro heq
        have := congrArg List.length heq
        rw [List.length_take, List.length_take] at this
        omega
      simp only [step, eq, bind_run, get_run hv, get_run hw, if_pos (show o.len ≠ b.len from hl), pure_run, this]
  · simp only [valueStep, vget hval, vget hval', Res.bind_ok, Res.pure_eq, Bytes.beq]

theorem fine_content (h : Tidy s) (hu : Owning s v) : Fine e s (.content v) := by
  obtain ⟨o, hv, ho⟩ := hu
  obtain ⟨a, l, hp, hb, hlen, hcap, hsz, hlt⟩ := h.block hv ho
  apply fine_ok (.bytes (l.take o.len)) (s' := s) ⟨h, rfl⟩
  · simp only [step, content, bind_run, get_run hv, hp, read_run hb (show 0 + o.len ≤ l.length by omega),
      List.drop_zero, pure_run]
  · simp only [valueStep, vget (value_of hv ho hp hb), Res.bind_ok, Res.pure_eq]

theorem fine_sizes (h : Tidy s) (hu : Owning s v) : Fine e s (.sizes v) := by
  obtain ⟨o, hv, ho⟩ := hu
  obtain ⟨a, l, hp, hb, hlen, hcap, hsz, hlt⟩ := h.block hv ho
  have hdl : (l.take o.len).length = o.len := by rw [List.length_take]; omega
  apply fine_ok (.nums o.len o.cap) (s' := s) ⟨h, rfl⟩
  · simp only [step, sizes, bind_run, get_run hv, pure_run]
  · simp only [valueStep, vget (value_of hv ho hp hb), Res.bind_ok, Res.pure_eq, hdl]

theorem fine_destroy (h : Tidy s) (hv : s.obj v = some o) : Fine e s (.destroy v) := by
  by_cases ho : o.owns = true
  · obtain ⟨a, l, hp, hb, hlen, hcap, hsz, hlt⟩ := h.block hv ho
    apply fine_ok .unit (h.kill hv ho hp)
    · have hc : o.ptr ≠ none ∧ o.owns = true := ⟨by rw [hp]; exact Option.some_ne_none a, ho⟩
      simp only [step, quiet_run, destroy, bind_run, get_run hv, dealloc, if_pos hc]
      rw [hp, free_run hb]
      rfl
    · rfl
  · apply fine_ok .unit (h.drop hv (by simpa using ho))
    · have hc : ¬ (o.ptr ≠ none ∧ o.owns = true) := fun h' => ho h'.2
      simp only [step, quiet_run, destroy, bind_run, get_run hv, dealloc, if_neg hc, pure_run]
      rfl
    · rfl

theorem fine_fillrandom (h : Tidy s) (hu : Owning s v) : Fine e s (.fillrandom v) := by
  obtain ⟨o, hv, ho⟩ := hu
  obtain ⟨a, l, hp, hb, hlen, hcap, hsz, hlt⟩ := h.block hv ho
  have hval := value_of hv ho hp hb
  have hdl : (l.take o.len).length = o.len := by rw [List.length_take]; omega
  have hwr : wrap ((o.cap : Int) - o.len) = o.cap - o.len := by
    rw [show ((o.cap : Int) - o.len) = ((o.cap - o.len : Nat) : Int) by omega, wrap_of_lt (by omega)]
  by_cases hx : (o.cap - o.len) % 2 ^ 32 ≥ 2 ^ 31 ∨ e.rand.good = false
  · have hs : step e (.fillrandom v) s = .terminate := by
      simp only [step, quiet_run, fillrandom, noexcept, bind_run, get_run hv, hwr, fillRandomBytes, if_pos hx, throw_run]
    refine ⟨by rw [hs]; trivial, fun _ => ?_⟩
    rw [hs]
    simp only [valueStep, vget hval, Res.bind_ok, Vals.store, Bytes.fillrandom, hdl, Bytes.randomBytes, if_pos hx,
      Res.bind_exn, Res.noexcept_exn, Res.bind_fatal]
    rfl
  · have htl : (e.rand.take ((o.cap - o.len) % 2 ^ 32)).length = (o.cap - o.len) % 2 ^ 32 := Rand.length_take _ _
    have hmod := Nat.mod_le (o.cap - o.len) (2 ^ 32)
    have hw : o.len + (e.rand.take ((o.cap - o.len) % 2 ^ 32)).length ≤ l.length := by omega
    have hk := h.modify hv ho hp hb (take_append_drop_len l _ o.len hw) (n := o.cap) (Nat.le_refl _)
    have hs : step e (.fillrandom v) s = .ok ⟨s.next, upd s.blk a (some (l.take o.len ++
        e.rand.take ((o.cap - o.len) % 2 ^ 32) ++ l.drop (o.len + (e.rand.take ((o.cap - o.len) % 2 ^ 32)).length))),
        upd s.obj v (some { o with len := o.cap })⟩ .unit := by
      simp only [step, quiet_run, fillrandom, noexcept, bind_run, get_run hv, hwr, fillRandomBytes, if_neg hx, hp,
        write_run hb hw, put_run]
    by_cases hbig : o.cap - o.len ≥ 2 ^ 32
    · refine ⟨by rw [hs]; exact hk.1, fun _ => ?_⟩
      simp only [valueStep, vget hval, Res.bind_ok, Vals.store, Bytes.fillrandom, hdl, Bytes.randomBytes, if_neg hx,
        if_pos hbig, Res.bind_fatal, Res.noexcept_fatal]
      trivial
    · apply fine_ok .unit hk hs
      have hm : (o.cap - o.len) % 2 ^ 32 = o.cap - o.len := Nat.mod_eq_of_lt (by omega)
      have htk := take_written l _ o.len hw
      rw [hm] at htk hw ⊢
      rw [Rand.length_take, show o.len + (o.cap - o.len) = o.cap by omega] at htk
      rw [Rand.length_take, show o.len + (o.cap - o.len) = o.cap by omega, htk]
      simp only [valueStep, vget hval, Res.bind_ok, Vals.store, Bytes.fillrandom, hdl, Bytes.randomBytes, if_neg hx,
        if_neg hbig, Res.pure_eq, Res.noexcept_ok]

theorem fine_addrandom (h : Tidy s) (hu : Owning s v) {n : Int} (hn1 : -2 ^ 63 ≤ n) (hn2 : n < 2 ^ 63)
    (hn : 0 ≤ n ∨ ∀ o, s.obj v = some o → o.len < 2 ^ 31) : Fine e s (.addrandom v n) := by
  obtain ⟨o, hv, ho⟩ := hu
  obtain ⟨a, l, hp, hb, hlen, hcap, hsz, hlt⟩ := h.block hv ho
  have hval := value_of hv ho hp hb
  have hdl : (l.take o.len).length = o.len := by rw [List.length_take]; omega
  by_cases h0 : n < 0
  · have hl31 : o.len < 2 ^ 31 := by
      rcases hn with hn | hn
      · omega
      · exact hn o hv
    by_cases hneg : (o.len : Int) + n < 0
    · have hf : wrap ((o.len : Int) + n) > o.cap := by unfold wrap; omega
      apply fine_exn .lengthError h
      · simp only [step, quiet_run, addrandom, bind_run, get_run hv, if_pos hf, throw_run]
      · simp only [valueStep, vget hval, Res.bind_ok, Vals.store, Bytes.addrandom, if_pos h0, hdl, if_pos hneg,
          Res.bind_exn]
    · have hf : ¬ (wrap ((o.len : Int) + n) > o.cap) := by unfold wrap; omega
      have hx : wrap n % 2 ^ 32 ≥ 2 ^ 31 := by unfold wrap; omega
      apply fine_exn .runtimeError h
      · simp only [step, quiet_run, addrandom, bind_run, get_run hv, if_neg hf, fillRandomBytes, if_pos (Or.inl hx),
          throw_run]
      · simp only [valueStep, vget hval, Res.bind_ok, Vals.store, Bytes.addrandom, if_pos h0, hdl, if_neg hneg,
          Res.bind_exn]
  · obtain ⟨k, rfl⟩ : ∃ k : Nat, n = k := ⟨n.toNat, by omega⟩
    have hwr : wrap ((o.len : Int) + k) = o.len + k := wrap_add (by omega)
    have hwk : wrap (k : Int) = k := wrap_of_lt (by omega)
    have htn : (k : Int).toNat = k := by omega
    by_cases hf : o.len + k > o.cap
    · apply fine_exn .lengthError h
      · simp only [step, quiet_run, addrandom, bind_run, get_run hv, hwr, if_pos hf, throw_run]
      · simp only [valueStep, vget hval, Res.bind_ok, Vals.store, Bytes.addrandom, if_neg h0, htn, hdl, if_pos hf,
          Res.bind_exn]
    · by_cases hx : k % 2 ^ 32 ≥ 2 ^ 31 ∨ e.rand.good = false
      · apply fine_exn .runtimeError h
        · simp only [step, quiet_run, addrandom, bind_run, get_run hv, hwr, hwk, if_neg hf, fillRandomBytes, if_pos hx,
            throw_run]
        · simp only [valueStep, vget hval, Res.bind_ok, Vals.store, Bytes.addrandom, if_neg h0, htn, hdl, if_neg hf,
            Bytes.randomBytes, if_pos hx, Res.bind_exn]
      · have htl : (e.rand.take (k % 2 ^ 32)).length = k % 2 ^ 32 := Rand.length_take _ _
        have hmod := Nat.mod_le k (2 ^ 32)
        have hw : o.len + (e.rand.take (k % 2 ^ 32)).length ≤ l.length := by omega
        have hk := h.modify hv ho hp hb (take_append_drop_len l _ o.len hw) (n := o.len + k) (by omega)
        have hs : step e (.addrandom v k) s = .ok ⟨s.next, upd s.blk a (some (l.take o.len ++
            e.rand.take (k % 2 ^ 32) ++ l.drop (o.len + (e.rand.take (k % 2 ^ 32)).length))),
            upd s.obj v (some { o with len := o.len + k })⟩ .unit := by
          simp only [step, quiet_run, addrandom, bind_run, get_run hv, hwr, hwk, if_neg hf, fillRandomBytes, if_neg hx,
            hp, write_run hb hw, put_run]
        by_cases hbig : k ≥ 2 ^ 32
        · refine ⟨by rw [hs]; exact hk.1, fun _ => ?_⟩
          simp only [valueStep, vget hval, Res.bind_ok, Vals.store, Bytes.addrandom, if_neg h0, htn, hdl, if_neg hf,
            Bytes.randomBytes, if_neg hx, if_pos hbig, Res.bind_fatal]
          trivial
        · apply fine_ok .unit hk hs
          have hm : k % 2 ^ 32 = k := Nat.mod_eq_of_lt (by omega)
          have htk := take_written l _ o.len hw
          rw [hm] at htk hw ⊢
          rw [Rand.length_take] at htk
          rw [Rand.length_take, htk]
          simp only [valueStep, vget hval, Res.bind_ok, Vals.store, Bytes.addrandom, if_neg h0, htn, hdl, if_neg hf,
            Bytes.randomBytes, if_neg hx, if_neg hbig, Res.pure_eq]

/-- the loop of `fromLong` in memory does what the loop of the value level does -/
theorem fromLongLoop_run {l : UInt64} {z : Bool} {is : List Nat} {s : Store} {b b' : Bytes} (h : Tidy s)
    (hu : Owning s r) (hval : value s r = some b) (hl : Bytes.fromLongLoop l z is b = .ok b') :
    ∃ s', fromLongLoop r l z is s = .ok s' () ∧ Tidy s' ∧ value s' = upd (value s) r (some b') := by
  induction is generalizing s b with
  | nil =>
    simp only [Bytes.fromLongLoop, Res.ok.injEq] at hl
    subst hl
    exact ⟨s, rfl, h, (upd_self _ _ _ hval).symm⟩
  | cons i is ih =>
    obtain ⟨o, hv, ho⟩ := hu
    obtain ⟨a, m, hp, hb, hlen, hcap, hsz, hlt⟩ := h.block hv ho
    have hb0 := value_of hv ho hp hb
    rw [hval, Option.some.injEq] at hb0
    have hbl : b.data.length = o.len := by rw [hb0, List.length_take]; omega
    -- one byte is added
    have addone : ∀ x : Byte, ∀ b1, b.addByte x = .ok b1 →
        ∃ s1, addByte r x s = .ok s1 () ∧ Tidy s1 ∧ Owning s1 r ∧ value s1 = upd (value s) r (some b1) := by
      intro x b1 hb1
      have hf := fine_addByte (e := ⟨true, fun _ => 0, ⟨true, fun _ => 0⟩⟩) h ⟨o, hv, ho⟩ x
      obtain ⟨hs, ha⟩ := hf
      have ha := ha rfl
      simp only [valueStep, vget hval, Res.bind_ok, Vals.store, hb1, Res.pure_eq] at ha
      obtain ⟨s1, h1, h2⟩ := ha
      rw [h1] at hs
      refine ⟨s1, ?_, hs, ?_, h2⟩
      · simp only [step, quiet_run] at h1
        revert h1
        cases addByte r x s <;> simp
      · have := congrFun h2 r
        rw [upd_same] at this
        unfold value at this
        cases hr : s1.obj r with
        | none => rw [hr] at this; cases this
        | some o1 =>
          rw [hr] at this
          simp only at this
          refine ⟨o1, hr, ?_⟩
          split at this
          · assumption
          · cases this
    have hcond : (o.len ≠ 0 ∨ Bytes.beByte l i ≠ 0) ↔ (!b.isEmpty || Bytes.beByte l i != 0) = true := by
      simp [Bytes.isEmpty, hbl]
    have fin : ∀ x : Byte, (do let b1 ← b.addByte x; Bytes.fromLongLoop l z is b1) = .ok b' →
        ∃ s', (addByte r x >>= fun _ => fromLongLoop r l z is) s = .ok s' () ∧ Tidy s' ∧ value s' = upd (value s) r (some b') := by
      intro x hx
      rw [Res.bind_eq_ok] at hx
      obtain ⟨b1, hb1, hrest⟩ := hx
      obtain ⟨s1, h1, h2, h3, h4⟩ := addone x b1 hb1
      obtain ⟨s', h5, h6, h7⟩ := ih h2 h3 (by rw [h4, upd_same]) hrest
      exact ⟨s', by rw [bind_run, h1]; exact h5, h6, by rw [h7, h4, upd_upd]⟩
    unfold Bytes.fromLongLoop at hl
    unfold fromLongLoop
    simp only [bind_run, fromLongByte, get_run hv]
    by_cases hc : o.len ≠ 0 ∨ Bytes.beByte l i ≠ 0
    · rw [if_pos (hcond.mp hc)] at hl
      simp only [if_pos hc]
      have := fin _ hl
      rwa [bind_run] at this
    · rw [if_neg (fun h' => hc (hcond.mpr h'))] at hl
      simp only [if_neg hc]
      by_cases hz : z = true
      · rw [if_pos hz] at hl
        simp only [if_pos hz]
        have := fin _ hl
        rwa [bind_run] at this
      · rw [if_neg hz] at hl
        simp only [if_neg hz, pure_run]
        exact ih h ⟨o, hv, ho⟩ hval hl

theorem fine_fromLong (h : Tidy s) (hr : Vacant s r) {l : UInt64} {z : Bool} : Fine e s (.fromLong r l z) := by
  obtain ⟨b, hb⟩ : ∃ b, Bytes.fromLong l z = .ok b := by
    cases z
    · exact ⟨_, fromLong_false l⟩
    · exact ⟨_, fromLong_true l⟩
  by_cases hg : e.granted = true
  · obtain ⟨hs, ha⟩ := fine_new (e := e) h hr (n := 8) (by omega)
    have ha := ha hg
    simp only [valueStep, Vals.store, Bytes.new] at ha
    obtain ⟨s1, h1, h2⟩ := ha
    rw [h1] at hs
    have hn : new e r 8 s = .ok s1 () := by
      simp only [step, quiet_run] at h1
      revert h1
      cases new e r 8 s <;> simp
    have hu : Owning s1 r := by
      have := congrFun h2 r
      rw [upd_same] at this
      unfold value at this
      cases hr : s1.obj r with
      | none => rw [hr] at this; cases this
      | some o1 =>
        rw [hr] at this
        simp only at this
        refine ⟨o1, hr, ?_⟩
        split at this
        · assumption
        · cases this
    obtain ⟨s', h5, h6, h7⟩ := fromLongLoop_run (r := r) hs hu (b := Bytes.empty 8) (by rw [h2, upd_same]; rfl) hb
    apply fine_ok .unit (s' := s') ⟨h6, h7⟩
    · simp only [step, quiet_run, fromLong, bind_run, hn, h5]
    · simp only [valueStep, Vals.store, hb, Res.bind_ok, Res.pure_eq, h2, upd_upd]
  · apply fine_bad h
    · have h0 : ¬ ((8 : Int) < 0) := by omega
      simp only [step, quiet_run, fromLong, bind_run, new, if_neg h0, alloc_fail e s (fun h' => hg h'.1)]
    · exact hg

/-- every operation, properly used on tidy memory -/
theorem fine (h : Tidy s) {op : Op} (hp : Proper e s op) : Fine e s op := by
  cases op with
  | new r n => exact fine_new h hp.1 hp.2
  | withU64 r n => exact fine_withU64 h hp
  | ofArray r arr len => exact fine_ofArray h hp.1 hp.2
  | fromLong r l z => exact fine_fromLong h hp
  | copyExtra r v n => exact fine_copyExtra h hp.1 hp.2.1 hp.2.2
  | move r v => exact fine_move h hp.1 hp.2
  | copySub r v i j => exact fine_copySub h hp.1 hp.2
  | add r v w => exact fine_add h hp.1 hp.2.1 hp.2.2
  | sub r v w => exact fine_sub h hp.1 hp.2.1 hp.2.2
  | assign v w => exact fine_assign h hp.1 hp.2.1 hp.2.2
  | setDeallocate v b => exact hp.elim
  | fillrandom v => exact fine_fillrandom h hp
  | addrandom v n => exact fine_addrandom h hp.1 hp.2.1 hp.2.2.1 hp.2.2.2
  | setBytes v arr len => exact fine_setBytes h hp.1 hp.2
  | addBytes v arr len => exact fine_addBytes h hp.1 hp.2
  | consumeArr v arr len => exact fine_consumeArr h hp.1 hp.2.1 hp.2.2
  | consumeObj v w => exact fine_consumeObj h hp.1 hp.2.1 hp.2.2.1 hp.2.2.2
  | setLen v n => exact fine_setLen h hp
  | fillRaw v d => exact fine_fillRaw h hp.1 hp.2
  | copyToArray v size len => exact fine_copyToArray h hp.1 hp.2
  | copyToBytes v w => exact fine_copyToBytes h hp.1 hp.2.1 hp.2.2
  | addcopyToBytes v w => exact fine_addcopyToBytes h hp.1 hp.2
  | addSize v n => exact fine_addSize h hp.1 hp.2
  | addByte v x => exact fine_addByte h hp x
  | eq v w => exact fine_eq h hp.1 hp.2
  | content v => exact fine_content h hp
  | sizes v => exact fine_sizes h hp
  | destroy v =>
    obtain ⟨o, ho⟩ := hp
    exact fine_destroy h ho

/-- a proper program never reaches undefined behaviour and leaves memory in order -/
theorem run_tidy (prog : List (Env × Op)) (h : Tidy s) (hp : ProperRun prog s) :
    run prog s = .terminate ∨ ∃ s', run prog s = .ok s' () ∧ Tidy s' := by
  induction prog generalizing s with
  | nil => exact .inr ⟨s, rfl, h⟩
  | cons x rest ih =>
    obtain ⟨e, op⟩ := x
    obtain ⟨h1, h2⟩ := hp
    have hs := (fine h h1).1
    unfold run
    cases hst : step e op s with
    | ok s1 x =>
      rw [hst] at hs h2
      exact ih hs h2
    | exn s1 x =>
      rw [hst] at hs h2
      exact ih hs.1 h2
    | terminate => exact .inl rfl
    | ub => rw [hst] at hs; exact hs.elim

end Verif.Heap
