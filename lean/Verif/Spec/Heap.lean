import Verif.Model.Heap

/-!
What it means to use the byte container properly, what memory looks like when nothing went wrong, and the plain value
machine (variables holding byte strings with a capacity) that the container is supposed to implement.
-/
namespace Verif.Spec
open Heap

/-- `v` names a live object that has not been moved from -/
def Owning (s : Store) (v : Nat) : Prop := ∃ o, s.obj v = some o ∧ o.owns = true

/-- the name is not in use -/
def Vacant (s : Store) (v : Nat) : Prop := s.obj v = none

/-- a caller's array really has the length the caller states -/
def Genuine (arr : Option (List Byte)) (len : Nat) : Prop :=
  len < 2 ^ 63 ∧ ∀ l, arr = some l → len ≤ l.length ∧ l.length < 2 ^ 63

/-- Proper use. Beyond the ordinary rules of the language (names are declared once, objects are not used after a move
or their destruction, caller arrays are as long as stated) it has these conditions, each of which the container should
have taken care of itself:
* `assign`: the allocation succeeds,
* `setDeallocate`: not used,
* `addrandom`: the count is not negative, or less than 2 GiB are stored,
* `consumeArr`, `consumeObj`: what is consumed is as large as the container's capacity,
* `copyToBytes`: not onto itself,
* `copyExtra`, `addSize`: the sizes do not add up to 2^64. -/
def Proper (e : Env) (s : Store) : Op → Prop
  | .new r n => Vacant s r ∧ n < 2 ^ 63
  | .withU64 r _ => Vacant s r
  | .ofArray r arr len => Vacant s r ∧ Genuine arr len
  | .fromLong r _ _ => Vacant s r
  | .copyExtra r v n => Vacant s r ∧ Owning s v ∧ ∀ o, s.obj v = some o → o.cap + n < 2 ^ 64
  | .move r v => Vacant s r ∧ Owning s v
  | .copySub r v _ _ => Vacant s r ∧ Owning s v
  | .add r v w => Vacant s r ∧ Owning s v ∧ Owning s w
  | .sub r v w => Vacant s r ∧ Owning s v ∧ Owning s w
  | .assign v w => Owning s v ∧ Owning s w ∧ e.granted = true
  | .setDeallocate _ _ => False
  | .fillrandom v => Owning s v
  | .addrandom v n => Owning s v ∧ -2 ^ 63 ≤ n ∧ n < 2 ^ 63 ∧ (0 ≤ n ∨ ∀ o, s.obj v = some o → o.len < 2 ^ 31)
  | .setBytes v arr len => Owning s v ∧ Genuine arr len
  | .addBytes v arr len => Owning s v ∧ Genuine arr len
  | .consumeArr v arr len => Owning s v ∧ Genuine arr len ∧
      ∀ o l, s.obj v = some o → arr = some l → len ≤ o.cap → o.cap ≤ l.length
  | .consumeObj v w => Owning s v ∧ Owning s w ∧ v ≠ w ∧
      ∀ o b, s.obj v = some o → s.obj w = some b → b.len ≤ o.cap → o.cap ≤ b.cap
  | .setLen v _ => Owning s v
  | .fillRaw v d => Owning s v ∧ ∀ o, s.obj v = some o → o.len + d.length ≤ o.cap
  | .copyToArray v size len => Owning s v ∧ ∀ k, size = some k → len ≤ k
  | .copyToBytes v w => Owning s v ∧ Owning s w ∧ v ≠ w
  | .addcopyToBytes v w => Owning s v ∧ Owning s w
  | .addSize v n => Owning s v ∧ ∀ o, s.obj v = some o → o.cap + n < 2 ^ 64
  | .addByte v _ => Owning s v
  | .eq v w => Owning s v ∧ Owning s w
  | .content v => Owning s v
  | .sizes v => Owning s v
  | .destroy v => ∃ o, s.obj v = some o

/-- a program whose every operation is proper where it runs -/
def ProperRun : List (Env × Op) → Store → Prop
  | [], _ => True
  | (e, op) :: rest, s => Proper e s op ∧
      match step e op s with
      | .ok s _ => ProperRun rest s
      | .exn s _ => ProperRun rest s
      | _ => True

/-- Memory in order: no live block beyond the allocator's mark; every owning object has a live block at least as large as
its capacity; no length exceeds the capacity; no two owning objects share a block; every live block belongs to a usable
object. -/
structure Tidy (s : Store) : Prop where
  fresh : ∀ a, s.next ≤ a → s.blk a = none
  good : ∀ v o, s.obj v = some o → o.owns = true →
    ∃ a l, o.ptr = some a ∧ s.blk a = some l ∧ o.cap ≤ l.length ∧ l.length < 2 ^ 63
  len : ∀ v o, s.obj v = some o → o.len ≤ o.cap
  sole : ∀ v w o o', s.obj v = some o → s.obj w = some o' → o.owns = true → o'.owns = true → o.ptr = o'.ptr → v = w
  owned : ∀ a l, s.blk a = some l → ∃ v o, s.obj v = some o ∧ o.owns = true ∧ o.ptr = some a

/-- variables with values -/
abbrev Vals := Nat → Option Bytes

/-- the value a variable has in memory; none for dead and moved-from objects -/
def value (s : Store) : Vals := fun v =>
  match s.obj v with
  | some o => if o.owns = true then (o.ptr.bind s.blk).map fun l => ⟨l.take o.len, o.cap⟩ else none
  | none => none

def Vals.get (A : Vals) (v : Nat) : Res Bytes :=
  match A v with
  | some b => .ok b
  | none => .fatal .ub

/-- a variable gets the outcome of an operation as its new value -/
def Vals.store (A : Vals) (v : Nat) (x : Res Bytes) : Res (Vals × Val) := do
  let b ← x
  pure (upd A v (some b), .unit)

/-- the value machine: each operation acts on whole byte strings, using the value-level container of
`Verif/Model/Bytes.lean`; `fatal ub` where the value level says nothing -/
def valueStep (e : Env) (A : Vals) : Op → Res (Vals × Val)
  | .new r n => A.store r (Bytes.new n)
  | .withU64 r n => A.store r (.ok (Bytes.empty n))
  | .ofArray r arr len =>
    match arr with
    | none => .exn .invalidArgument
    | some l => A.store r (.ok (Bytes.full (l.take len)))
  | .fromLong r l z => A.store r (Bytes.fromLong l z)
  | .copyExtra r v n => do
    let b ← A.get v
    A.store r (.ok (b.copyExtra n))
  | .move r v => do
    let b ← A.get v
    pure (upd (upd A r (some b)) v none, .unit)
  | .copySub r v start stop => do
    let b ← A.get v
    A.store r (b.copySubBytes start stop)
  | .add r v w => do
    let a ← A.get v
    let b ← A.get w
    A.store r (a.add b)
  | .sub r v w => do
    let a ← A.get v
    let b ← A.get w
    A.store r (a.sub b)
  | .assign v w => do
    let b ← A.get w
    A.store v (.ok b)
  | .setDeallocate _ _ => .fatal .ub
  | .fillrandom v => do
    let b ← A.get v
    A.store v (b.fillrandom e.rand)
  | .addrandom v n => do
    let b ← A.get v
    A.store v (b.addrandom n e.rand)
  | .setBytes v arr len => do
    let b ← A.get v
    match arr with
    | none => if len > b.cap then .exn .lengthError else .exn .invalidArgument
    | some l => A.store v (b.setBytes (l.take len))
  | .addBytes v arr len => do
    let b ← A.get v
    match arr with
    | none => if b.data.length + len > b.cap then .exn .lengthError else .exn .invalidArgument
    | some l => A.store v (b.addBytes (l.take len))
  | .consumeArr v arr len => do
    let b ← A.get v
    match arr with
    | none => if len > b.cap then .exn .lengthError else .exn .invalidArgument
    | some l => A.store v (b.setBytes (l.take len))
  | .consumeObj v w => do
    let a ← A.get v
    let b ← A.get w
    let c ← b.copyToBytes a
    pure (upd (upd A v (some c)) w none, .unit)
  | .setLen v n => do
    let b ← A.get v
    A.store v (b.setLen n)
  | .fillRaw v d => do
    let b ← A.get v
    A.store v (b.addBytes d)
  | .copyToArray v size len => do
    let b ← A.get v
    if len < b.data.length then .exn .lengthError
    else
      match size with
      | none => .exn .invalidArgument
      | some _ => .ok (A, .bytes b.data)
  | .copyToBytes v w => do
    let a ← A.get v
    let b ← A.get w
    A.store w (a.copyToBytes b)
  | .addcopyToBytes v w => do
    let a ← A.get v
    let b ← A.get w
    A.store w (a.addcopyToBytes b)
  | .addSize v n => do
    let b ← A.get v
    A.store v (.ok (b.addSize n))
  | .addByte v x => do
    let b ← A.get v
    A.store v (b.addByte x)
  | .eq v w => do
    let a ← A.get v
    let b ← A.get w
    pure (A, .bool (a.beq b))
  | .content v => do
    let b ← A.get v
    pure (A, .bytes b.data)
  | .sizes v => do
    let b ← A.get v
    pure (A, .nums b.data.length b.cap)
  | .destroy v => .ok (upd A v none, .unit)

/-- the allocations of an operation succeed -/
def Room (e : Env) (s : Store) : Op → Prop
  | .withU64 _ n => e.granted = true ∧ n < 2 ^ 63
  | .copyExtra _ v n => e.granted = true ∧ ∀ o, s.obj v = some o → o.cap + n < 2 ^ 63
  | .addSize v n => e.granted = true ∧ ∀ o, s.obj v = some o → o.cap + n < 2 ^ 63
  | _ => e.granted = true

/-- the outcome in memory is the outcome of the value machine -/
def Agrees (s : Store) (o : Out Val) : Res (Vals × Val) → Prop
  | .ok (A, x) => ∃ s', o = .ok s' x ∧ value s' = A
  | .exn k => ∃ s', o = .exn s' (.std k) ∧ value s' = value s
  | .fatal .terminate => o = .terminate
  | .fatal _ => True

/-- nothing went wrong: memory stays in order, and an exception leaves all blocks and objects as they were -/
def Sane (s : Store) : Out Val → Prop
  | .ok s' _ => Tidy s'
  | .exn s' _ => Tidy s' ∧ s'.blk = s.blk ∧ s'.obj = s.obj
  | .terminate => True
  | .ub => False

end Verif.Spec
