import Verif.Lemmas.HeapLen

/-!
Properties C02 and C67: the byte container in memory.

`Proper` (Verif/Spec/Heap.lean) says what callers must respect. Most of it are the rules of the language, the rest are
conditions the container does not check although it could; for each of those a program breaking memory is given below.
-/
namespace Verif.Props
open Spec Heap

/-- nothing special happens: memory is available (and zeroed), random bytes are 9 -/
def calmEnv : Heap.Env := ⟨true, fun _ => 0, ⟨true, fun _ => 9⟩⟩

/-- no memory is left -/
def fullEnv : Heap.Env := ⟨false, fun _ => 0, ⟨true, fun _ => 9⟩⟩

/-- operations under calm circumstances -/
def calmly (ops : List Op) : List (Heap.Env × Op) := ops.map fun op => (calmEnv, op)

/-! ### C02 -/

/-- C02: a program that uses containers properly never touches memory outside live buffers (or does anything else
undefined), and leaves memory in order: each usable container has a buffer of its own, at least as large as its
capacity, and its length is within the capacity. Partial: for proper programs only. -/
theorem C02_safe_partial (prog : List (Heap.Env × Op)) (h : ProperRun prog start) :
    run prog start ≠ .ub ∧ ∀ s, run prog start = .ok s () → Tidy s := by
  rcases run_tidy prog start_tidy h with h1 | ⟨s', h1, h2⟩
  · rw [h1]; exact ⟨nofun, nofun⟩
  · rw [h1]
    refine ⟨nofun, fun s hs => ?_⟩
    cases hs
    exact h2

/-- C02: an operation that throws, for whatever reason, leaves every object and every buffer as it was. -/
theorem C02_unchanged_partial (e : Heap.Env) (s s' : Store) (op : Op) (x : Exc) (h : Tidy s) (hp : Proper e s op)
    (hx : step e op s = .exn s' x) : s'.obj = s.obj ∧ s'.blk = s.blk := by
  have := (fine h hp).1
  rw [hx] at this
  exact ⟨this.2.2, this.2.1⟩

/-- C02: the container in memory is exactly a byte string with a capacity: every proper operation, with memory
available, returns, throws and ends the process exactly when the value machine does, with the same results and the same
values in all variables afterwards. This is what makes `Verif/Model/Bytes.lean`, on which all other models rest, a
faithful account of the class. -/
theorem C02_refines_values (e : Heap.Env) (s : Store) (op : Op) (h : Tidy s) (hp : Proper e s op) (hr : Room e s op) :
    Agrees s (step e op s) (valueStep e (value s) op) := (fine h hp).2 hr

/-- C02: an operation that does not fit in the capacity throws `length_error`, one that does is carried out. -/
theorem C02_fits (e : Heap.Env) (s : Store) (v : Nat) (o : Obj) (x : Byte) (l : List Byte) (h : Tidy s)
    (hv : s.obj v = some o) (ho : o.owns = true) (hl : l.length < 2 ^ 63) :
    ((∃ s', step e (.addByte v x) s = .exn s' (.std .lengthError)) ↔ o.cap ≤ o.len) ∧
    ((∃ s', step e (.addBytes v (some l) l.length) s = .exn s' (.std .lengthError)) ↔ o.cap < o.len + l.length) ∧
    ((∃ s', step e (.setBytes v (some l) l.length) s = .exn s' (.std .lengthError)) ↔ o.cap < l.length) := by
  obtain ⟨a, b, hp, hb, hlen, hcap, hsz, hlt⟩ := h.block hv ho
  have hval := value_of hv ho hp hb
  have hdl : (b.take o.len).length = o.len := by rw [List.length_take]; omega
  have key : ∀ op, Proper { e with granted := true } s op → Room { e with granted := true } s op →
      step { e with granted := true } op s = step e op s →
      Agrees s (step e op s) (valueStep { e with granted := true } (value s) op) := by
    intro op h1 h2 h3
    rw [← h3]
    exact C02_refines_values _ s op h h1 h2
  refine ⟨?_, ?_, ?_⟩
  · have := key (.addByte v x) ⟨o, hv, ho⟩ rfl rfl
    simp only [valueStep, vget hval, Res.bind_ok, Vals.store, Bytes.addByte, hdl] at this
    by_cases hf : o.len ≥ o.cap
    · rw [if_pos hf] at this
      obtain ⟨s', h1, -⟩ := this
      exact ⟨fun _ => hf, fun _ => ⟨s', h1⟩⟩
    · rw [if_neg hf] at this
      obtain ⟨s', h1, -⟩ := this
      exact ⟨fun ⟨t, ht⟩ => (by rw [h1] at ht; cases ht), fun h' => absurd h' hf⟩
  · have := key (.addBytes v (some l) l.length) ⟨⟨o, hv, ho⟩, hl, fun m hm => by cases hm; exact ⟨Nat.le_refl _, hl⟩⟩ rfl
      rfl
    simp only [valueStep, vget hval, Res.bind_ok, Vals.store, Bytes.addBytes, hdl, List.take_length] at this
    by_cases hf : o.len + l.length > o.cap
    · rw [if_pos hf] at this
      obtain ⟨s', h1, -⟩ := this
      exact ⟨fun _ => hf, fun _ => ⟨s', h1⟩⟩
    · rw [if_neg hf] at this
      obtain ⟨s', h1, -⟩ := this
      exact ⟨fun ⟨t, ht⟩ => (by rw [h1] at ht; cases ht), fun h' => absurd h' hf⟩
  · have := key (.setBytes v (some l) l.length) ⟨⟨o, hv, ho⟩, hl, fun m hm => by cases hm; exact ⟨Nat.le_refl _, hl⟩⟩ rfl
      rfl
    simp only [valueStep, vget hval, Res.bind_ok, Vals.store, Bytes.setBytes, List.take_length] at this
    by_cases hf : l.length > o.cap
    · rw [if_pos hf] at this
      obtain ⟨s', h1, -⟩ := this
      exact ⟨fun _ => hf, fun _ => ⟨s', h1⟩⟩
    · rw [if_neg hf] at this
      obtain ⟨s', h1, -⟩ := this
      exact ⟨fun ⟨t, ht⟩ => (by rw [h1] at ht; cases ht), fun h' => absurd h' hf⟩

/-- C02: whatever a program does with containers, proper or not, at any point where it is still defined the length of
every container, also of moved-from ones, is within its capacity; provided allocations inside assignments succeed. -/
theorem C02_length_within_capacity (prog : List (Heap.Env × Op)) (s : Store)
    (hg : ∀ e v w, (e, Op.assign v w) ∈ prog → e.granted = true)
    (ha : ∀ e r arr len, (e, Op.ofArray r arr len) ∈ prog → len < 2 ^ 63) (hr : run prog start = .ok s ())
    (v : Nat) (o : Obj) (hv : s.obj v = some o) : o.len ≤ o.cap :=
  (ok_run prog start s (fun _ _ h => by cases h) hg ha hr v o hv).1

/-- a program that uses most of the interface properly -/
def niceProgram : List (Heap.Env × Op) :=
  calmly [.new 0 5, .addBytes 0 (some [1, 2, 3]) 3, .copyExtra 1 0 2, .move 2 0, .destroy 0, .addByte 1 7, .assign 2 1,
    .addSize 2 1, .consumeArr 1 (some [4, 4, 4, 4, 4, 4, 4]) 2, .fromLong 3 258 false, .addcopyToBytes 3 2,
    .addrandom 2 1, .addByte 3 1, .setLen 3 20, .content 2]

/-- what a variable holds at the end of a program -/
def holds (prog : List (Heap.Env × Op)) (v : Nat) : Option Bytes :=
  match run prog start with
  | .ok s _ => value s v
  | _ => none

/-- does a program end in undefined behaviour -/
def breaks (prog : List (Heap.Env × Op)) : Bool :=
  match run prog start with
  | .ub => true
  | _ => false

theorem breaks_ub {prog : List (Heap.Env × Op)} (h : breaks prog = true) : run prog start = .ub := by
  unfold breaks at h
  cases hr : run prog start with
  | ub => rfl
  | ok s a => rw [hr] at h; cases h
  | exn s e => rw [hr] at h; cases h
  | terminate => rw [hr] at h; cases h

example : holds niceProgram 2 = some ⟨[1, 2, 3, 7, 1, 2, 9], 8⟩ ∧ holds niceProgram 1 = some ⟨[4, 4], 7⟩ ∧
    holds niceProgram 3 = some ⟨[1, 2, 1], 8⟩ ∧ holds niceProgram 0 = none := by decide +kernel

/-- one step of showing a program proper -/
theorem properRun_cons {e : Heap.Env} {op : Op} {rest : List (Heap.Env × Op)} {s s' : Store} {x : Val}
    (h : Proper e s op) (hs : step e op s = .ok s' x) (hr : ProperRun rest s') : ProperRun ((e, op) :: rest) s :=
  ⟨h, by rw [hs]; exact hr⟩

example : ProperRun (calmly [.new 0 5, .addBytes 0 (some [1, 2, 3]) 3, .copyExtra 1 0 2, .move 2 0, .destroy 0,
    .assign 2 1, .consumeArr 1 (some [4, 4, 4, 4, 4, 4, 4]) 2, .addByte 1 7]) start := by
  refine properRun_cons ⟨rfl, by decide⟩ rfl ?_
  refine properRun_cons ⟨⟨_, rfl, rfl⟩, by decide, fun l hl => by cases hl; decide⟩ rfl ?_
  refine properRun_cons ⟨rfl, ⟨_, rfl, rfl⟩, fun o ho => by cases ho; decide⟩ rfl ?_
  refine properRun_cons ⟨rfl, ⟨_, rfl, rfl⟩⟩ rfl ?_
  refine properRun_cons ⟨_, rfl⟩ rfl ?_
  refine properRun_cons ⟨⟨_, rfl, rfl⟩, ⟨_, rfl, rfl⟩, rfl⟩ rfl ?_
  refine properRun_cons ⟨⟨_, rfl, rfl⟩, ⟨by decide, fun l hl => by cases hl; decide⟩, ?_⟩ rfl ?_
  · intro o l ho hl hc
    cases ho
    cases hl
    decide
  · exact properRun_cons ⟨_, rfl, rfl⟩ rfl trivial

/-- consuming an array shorter than the capacity: the capacity is not adjusted, the next byte goes past the end -/
def consumeProgram : List (Heap.Env × Op) :=
  calmly [.new 0 5, .consumeArr 0 (some [1, 2]) 2, .addByte 0 7]

/-- the same with another container -/
def consumeObjProgram : List (Heap.Env × Op) :=
  calmly [.new 0 5, .new 1 2, .addBytes 1 (some [1, 2]) 2, .consumeObj 0 1, .addByte 0 7]

/-- growing by so much that the capacity wraps around 2^64 -/
def addSizeProgram : List (Heap.Env × Op) :=
  calmly [.new 0 4, .addBytes 0 (some [1, 2, 3]) 3, .addSize 0 (2 ^ 64 - 3)]

/-- the same with the extending copy constructor -/
def copyExtraProgram : List (Heap.Env × Op) :=
  calmly [.new 0 4, .addBytes 0 (some [1, 2, 3]) 3, .copyExtra 1 0 (2 ^ 64 - 3)]

/-- assigning to a moved-from container frees the buffer of the container it was moved to -/
def moveAssignProgram : List (Heap.Env × Op) :=
  calmly [.new 0 1, .addByte 0 1, .new 1 1, .addByte 1 2, .move 2 0, .assign 0 1, .content 2]

/-- assignment without memory leaves the target with a freed buffer -/
def assignProgram : List (Heap.Env × Op) :=
  calmly [.new 0 1, .addByte 0 1, .new 1 1, .addByte 1 2] ++ [(fullEnv, .assign 0 1), (calmEnv, .content 0)]

/-- C02 (violated): each of these programs, all within the language and with truthful array lengths, breaks memory. -/
theorem C02_violated : ∀ prog ∈ [consumeProgram, consumeObjProgram, addSizeProgram, copyExtraProgram, moveAssignProgram,
    assignProgram], run prog start = .ub := by
  intro prog h
  simp only [List.mem_cons, List.not_mem_nil, or_false] at h
  rcases h with rfl | rfl | rfl | rfl | rfl | rfl <;> exact breaks_ub (by decide +kernel)

/-- C02 (violated): an assignment that throws for lack of memory has already changed its target: the capacity is that of
the other container, which can be less than the length, and the buffer is gone. -/
theorem C02_assign_not_atomic : ∃ s o, run (calmly [.new 0 2, .addBytes 0 (some [1, 2]) 2, .new 1 1] ++
    [(fullEnv, .assign 0 1)]) start = .ok s () ∧ s.obj 0 = some o ∧ o.cap < o.len ∧ o.ptr.bind s.blk = none :=
  ⟨_, _, rfl, rfl, by decide, rfl⟩

/-- the same with the size as a variable, so that nothing is computed with 4 GiB of data -/
theorem addrandom_overflow (N : Nat) (hN : N = 2 ^ 32) :
    ∃ s o, run (calmly [.new 0 N, .fillrandom 0]) start = .ok s () ∧
    s.obj 0 = some o ∧ o.len = N ∧ o.cap = N ∧ step calmEnv (.addrandom 0 (5 - N)) s = .ub := by
  have h0 : ¬ ((N : Int) < 0) := by omega
  have ht : (N : Int).toNat = N := by omega
  have hJ : ((List.range N).map calmEnv.junk).length = N := by rw [List.length_map, List.length_range]
  have hal := alloc_run calmEnv start rfl (n := N) (by omega)
  generalize (List.range N).map calmEnv.junk = L at hal hJ
  have h1 : step calmEnv (.new 0 N) start = .ok ⟨1, upd (fun _ => none) 0 (some L),
      upd (fun _ => none) 0 (some ⟨some 0, N, 0, true⟩)⟩ .unit := by
    simp only [step, quiet_run, new, if_neg h0, ht, bind_run, hal]
    simp [declare, start]
  have hw : wrap ((N : Int) - ((0 : Nat) : Int)) % 2 ^ 32 = 0 := by rw [hN]; decide
  have hx : ¬ (0 ≥ 2 ^ 31 ∨ calmEnv.rand.good = false) := by decide
  have h2 : step calmEnv (.fillrandom 0) ⟨1, upd (fun _ => none) 0 (some L),
      upd (fun _ => none) 0 (some ⟨some 0, N, 0, true⟩)⟩ = .ok ⟨1, upd (fun _ => none) 0 (some L),
      upd (fun _ => none) 0 (some ⟨some 0, N, N, true⟩)⟩ .unit := by
    simp only [step, quiet_run, fillrandom, noexcept, bind_run, Heap.get, upd_same, hw, fillRandomBytes, if_neg hx]
    rw [write_run (l := L) (by simp) (by simp [Rand.take])]
    simp only [put_run]
    simp [Rand.take, upd_upd]
  refine ⟨⟨1, upd (fun _ => none) 0 (some L), upd (fun _ => none) 0 (some ⟨some 0, N, N, true⟩)⟩,
    ⟨some 0, N, N, true⟩, ?_, by simp, rfl, rfl, ?_⟩
  · simp only [calmly, List.map_cons, List.map_nil, run, h1, h2]
  · have hf : ¬ (wrap ((N : Int) + (5 - N)) > N) := by
      have : (N : Int) + (5 - N) = 5 := by omega
      rw [this, hN]; decide
    have hx : ¬ (5 ≥ 2 ^ 31 ∨ calmEnv.rand.good = false) := by decide
    have hm : wrap (5 - (N : Int)) % 2 ^ 32 = 5 := by rw [hN]; decide
    have hlen : ¬ (N + (calmEnv.rand.take 5).length ≤ L.length) := by rw [Rand.length_take, hJ]; omega
    simp only [step, quiet_run, addrandom, bind_run, Heap.get, upd_same, if_neg hf, fillRandomBytes, hm, if_neg hx]
    unfold write
    simp only [upd_same, if_neg hlen]

/-- C02 (violated): with 4 GiB or more stored, `addrandom` of a negative count can write behind the buffer: here 5 bytes
behind a full buffer of 4 GiB. -/
theorem C02_addrandom_overflow : ∃ s o, run (calmly [.new 0 (2 ^ 32), .fillrandom 0]) start = .ok s () ∧
    s.obj 0 = some o ∧ o.len = 2 ^ 32 ∧ o.cap = 2 ^ 32 ∧ step calmEnv (.addrandom 0 (5 - 2 ^ 32)) s = .ub :=
  addrandom_overflow (2 ^ 32) rfl

/-! ### C67 -/

/-- C67: when all containers of a proper program are gone, no buffer is left; and no buffer is freed twice (which would
be undefined, C02). -/
theorem C67_no_leak_partial (prog : List (Heap.Env × Op)) (h : ProperRun prog start) (s : Store)
    (hr : run prog start = .ok s ()) (hd : ∀ v, s.obj v = none) (a : Nat) : s.blk a = none := by
  have ht := (C02_safe_partial prog h).2 s hr
  cases hb : s.blk a with
  | none => rfl
  | some l =>
    obtain ⟨v, o, hv, -, -⟩ := ht.owned a l hb
    rw [hd v] at hv
    cases hv

/-- C67: at any moment a proper program owns exactly one buffer per usable container. -/
theorem C67_one_buffer_each_partial (prog : List (Heap.Env × Op)) (h : ProperRun prog start) (s : Store)
    (hr : run prog start = .ok s ()) (a : Nat) :
    (∃ l, s.blk a = some l) ↔ ∃ v o, s.obj v = some o ∧ o.owns = true ∧ o.ptr = some a ∧
      ∀ v' o', s.obj v' = some o' → o'.owns = true → o'.ptr = some a → v' = v := by
  have ht := (C02_safe_partial prog h).2 s hr
  constructor
  · rintro ⟨l, hl⟩
    obtain ⟨v, o, hv, ho, hp⟩ := ht.owned a l hl
    exact ⟨v, o, hv, ho, hp, fun v' o' hv' ho' hp' => ht.sole v' v o' o hv' hv ho' ho (by rw [hp, hp'])⟩
  · rintro ⟨v, o, hv, ho, hp, -⟩
    obtain ⟨a', l, hp', hb, -⟩ := ht.good v o hv ho
    rw [hp] at hp'
    cases hp'
    exact ⟨l, hb⟩

/-- C67: every buffer is live exactly as long as its owner: moving a container moves the buffer, the old object no longer
frees it. -/
theorem C67_move_keeps_buffer (e : Heap.Env) (s : Store) (r v : Nat) (o : Obj) (h : Tidy s) (hr : s.obj r = none)
    (hv : s.obj v = some o) (ho : o.owns = true) :
    ∃ s', step e (.move r v) s = .ok s' .unit ∧ s'.blk = s.blk ∧ value s' r = value s v ∧
      ∃ s'', step e (.destroy v) s' = .ok s'' .unit ∧ s''.blk = s.blk ∧ value s'' r = value s v := by
  obtain ⟨h1, h2⟩ := h.handover hv ho hr
  have hrv : r ≠ v := by
    rintro rfl
    rw [hr] at hv
    cases hv
  have hs : step e (.move r v) s = .ok ⟨s.next, s.blk, upd (upd s.obj r (some ⟨o.ptr, o.cap, o.len, true⟩)) v
      (some { o with owns := false })⟩ .unit := by
    simp only [step, quiet_run, move, bind_run, get_run hv, declare_run, hr, put_run]
  obtain ⟨h3, h4⟩ := h1.drop (v := v) (o := { o with owns := false }) (by simp) rfl
  refine ⟨_, hs, rfl, by rw [h2, upd_ne _ _ hrv, upd_same],
    ⟨s.next, s.blk, upd (upd (upd s.obj r (some ⟨o.ptr, o.cap, o.len, true⟩)) v (some { o with owns := false })) v none⟩,
    ?_, rfl, ?_⟩
  · have hc : ¬ (o.ptr ≠ none ∧ false = true) := fun h' => by cases h'.2
    simp only [step, quiet_run, destroy, bind_run, Heap.get, upd_same, dealloc, if_neg hc, pure_run]
    rfl
  · have := congrFun h4 r
    simp only [upd_ne _ _ hrv] at this
    rw [this, h2, upd_ne _ _ hrv, upd_same]

/-- destroying a container after its source was assigned to frees the buffer twice -/
def doubleFreeProgram : List (Heap.Env × Op) :=
  calmly [.new 0 1, .new 1 1, .move 2 0, .assign 0 1, .destroy 2]

/-- after that assignment the object holds a buffer it will never free -/
def leakProgram : List (Heap.Env × Op) :=
  calmly [.new 0 1, .new 1 1, .move 2 0, .assign 0 1, .destroy 0, .destroy 1, .setDeallocate 2 false, .destroy 2]

/-- C67 (violated): assigning to a moved-from container makes a buffer be freed twice; also, the buffer it gets in the
assignment is never freed. -/
theorem C67_violated : run doubleFreeProgram start = .ub ∧
    ∃ s, run leakProgram start = .ok s () ∧ (∀ v < 3, s.obj v = none) ∧ s.blk 2 ≠ none :=
  ⟨breaks_ub (by decide +kernel), _, rfl, by decide, by decide⟩

example : ∃ s, run (calmly [.new 0 5, .addBytes 0 (some [1, 2, 3]) 3, .move 1 0, .destroy 1, .destroy 0]) start =
    .ok s () ∧ s.obj 0 = none ∧ s.obj 1 = none ∧ s.blk 0 = none := ⟨_, rfl, rfl, rfl, rfl⟩

end Verif.Props
