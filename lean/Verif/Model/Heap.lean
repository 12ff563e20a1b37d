import Verif.Model.Bytes

/-
Memory-level model of the byte container (`/repo/src/bytes.cpp`, `/repo/include/bytes.h`): heap blocks, pointers,
the `deallocate` flag, 64-bit lengths that wrap, failing allocations, moved-from objects.
`Verif/Model/Bytes.lean` is the value-level view of the same class that the rest of the model uses; that it is a
correct view is proved in `Verif/Props/Heap.lean`.

Simplifications:
* objects are named by numbers ("variables"); a program is a list of operations on variables,
* arrays that callers pass in are given by their content and never overlap the buffer of a container,
* a fresh block holds arbitrary bytes (`Env.junk`), so reading uninitialised bytes gives an unspecified value,
* when `RAND_bytes` fails it leaves the buffer alone,
* touching memory outside a live block, freeing a block that is not live, `memcpy` on overlapping ranges and use of a
  variable whose lifetime has not begun or has ended are undefined behaviour (`Out.ub`).
-/
namespace Verif.Heap

/-- what an operation meets: does an allocation succeed, what does fresh memory contain, what does OpenSSL deliver; /repo/src/bytes.cpp l.27, l.40, l.60, l.76, l.111, l.279 (`new`), /repo/src/rng.cpp l.53 -/
structure Env where
  granted : Bool
  junk : Nat → Byte
  rand : Rand

/-- members of `Bytes`, /repo/include/bytes.h l.14-17: `ptr` is `bytes` (`none` = `nullptr`), `cap` is `max_len`,
`owns` is `deallocate`; `cap` and `len` are 64-bit numbers -/
structure Obj where
  ptr : Option Nat
  cap : Nat
  len : Nat
  owns : Bool
deriving DecidableEq, Repr

/-- memory: `blk a` is the content of the live heap block `a`, `obj v` the live object named `v`; the memory /repo/src/bytes.cpp l.1-373 works on -/
structure Store where
  next : Nat
  blk : Nat → Option (List Byte)
  obj : Nat → Option Obj

/-- exceptions: those of the code and `std::bad_alloc`, /repo/src/bytes.cpp l.132-289 and `new` in l.27-279 -/
inductive Exc
  | std (e : Exn)
  | badAlloc
deriving DecidableEq, Repr

/-- outcome of an operation; an exception carries the memory it leaves behind, of /repo/src/bytes.cpp l.1-373 -/
inductive Out (α : Type) where
  | ok (s : Store) (a : α)
  | exn (s : Store) (e : Exc)
  | terminate
  | ub

/-- code that works on memory, /repo/src/bytes.cpp l.1-373 -/
def M (α : Type) := Store → Out α

/-- sequences of statements (`do` notation) in /repo/src/bytes.cpp l.1-373 -/
instance : Monad M where
  pure a := fun s => .ok s a
  bind x f := fun s =>
    match x s with
    | .ok s a => f a s
    | .exn s e => .exn s e
    | .terminate => .terminate
    | .ub => .ub

/-- point update, a write to one variable or block, as in /repo/src/bytes.cpp l.27 -/
def upd {β : Type} (f : Nat → β) (a : Nat) (b : β) : Nat → β := fun x => if x = a then b else f x

/-- `throw std::…`, /repo/src/bytes.cpp l.132, l.142, l.156 and alike -/
def throw {α : Type} (e : Exn) : M α := fun s => .exn s (.std e)

/-- undefined behaviour, for example `memcpy` (/repo/src/bytes.cpp l.149) beyond a block -/
def undef {α : Type} : M α := fun _ => .ub

/-- `noexcept`, for example `withU64`, /repo/include/bytes.h l.26 -/
def noexcept {α : Type} (x : M α) : M α := fun s =>
  match x s with
  | .exn _ _ => .terminate
  | o => o

/-- 64-bit unsigned arithmetic, `size_t`, /repo/include/bytes.h l.15-16 -/
def wrap (x : Int) : Nat := (x % 2 ^ 64).toNat

/-- `new unsigned char[n]`, /repo/src/bytes.cpp l.27, l.40, l.60, l.76, l.111, l.279 -/
def alloc (e : Env) (n : Nat) : M Nat := fun s =>
  if e.granted = true ∧ n < 2 ^ 63 then
    .ok { s with next := s.next + 1, blk := upd s.blk s.next (some ((List.range n).map e.junk)) } s.next
  else .exn s .badAlloc

/-- `delete[] p`, /repo/src/bytes.cpp l.110, l.177, l.188, l.281 and /repo/include/bytes.h l.61 -/
def free : Option Nat → M Unit
  | none => pure ()
  | some a => fun s => if (s.blk a).isSome then .ok { s with blk := upd s.blk a none } () else .ub

/-- reading `n` bytes at `p + off`, /repo/src/bytes.cpp l.65, l.217 and alike -/
def read (p : Option Nat) (off n : Nat) : M (List Byte) := fun s =>
  match p.bind s.blk with
  | some l => if off + n ≤ l.length then .ok s ((l.drop off).take n) else .ub
  | none => .ub

/-- writing the bytes `d` at `p + off`, /repo/src/bytes.cpp l.149, l.162 and alike -/
def write (p : Option Nat) (off : Nat) (d : List Byte) : M Unit := fun s =>
  match p with
  | none => .ub
  | some a =>
    match s.blk a with
    | some l =>
      if off + d.length ≤ l.length then
        .ok { s with blk := upd s.blk a (some (l.take off ++ d ++ l.drop (off + d.length))) } ()
      else .ub
    | none => .ub

/-- `std::memcpy(p + off, q, n)`; /repo/src/bytes.cpp l.65, l.81, l.112, l.149, l.162, l.217-280 -/
def memcpy (p : Option Nat) (off : Nat) (q : Option Nat) (n : Nat) : M Unit := do
  let d ← read q 0 n
  if p = q ∧ 0 < n ∧ off < n then undef else write p off d

/-- the members of a live object, /repo/include/bytes.h l.14-17 -/
def get (v : Nat) : M Obj := fun s =>
  match s.obj v with
  | some o => .ok s o
  | none => .ub

/-- assignment to the members, /repo/include/bytes.h l.14-17 -/
def put (v : Nat) (o : Obj) : M Unit := fun s => .ok { s with obj := upd s.obj v (some o) } ()

/-- a new object comes to life under a name not in use, a declaration, constructors of /repo/include/bytes.h l.28-32 -/
def declare (v : Nat) (o : Obj) : M Unit := fun s =>
  if (s.obj v).isSome then .ub else .ok { s with obj := upd s.obj v (some o) } ()

/-- a caller's array `new unsigned char[…]` with given content, or `nullptr`; as passed to /repo/include/bytes.h l.29 and l.39 -/
def callerArray : Option (List Byte) → M (Option Nat)
  | none => pure none
  | some l => fun s => .ok { s with next := s.next + 1, blk := upd s.blk s.next (some l) } (some s.next)

/-- callers release their array when the call they passed it to throws, calls of /repo/include/bytes.h l.29 and l.39 -/
def releasing {α : Type} (p : Option Nat) (x : M α) : M α := fun s =>
  match x s with
  | .exn s e =>
    match free p s with
    | .ok s _ => .exn s e
    | _ => .ub
  | o => o

/-- `Bytes::Bytes(const int64_t max_len)`, bytes.cpp l.31-41 -/
def new (e : Env) (v : Nat) (n : Int) : M Unit :=
  if n < 0 then throw .invalidArgument
  else do
    let a ← alloc e n.toNat
    declare v ⟨some a, n.toNat, 0, true⟩

/-- `Bytes::withU64` (noexcept), bytes.cpp l.23-29 -/
def withU64 (e : Env) (v : Nat) (n : Nat) : M Unit :=
  noexcept do
    let a ← alloc e n
    declare v ⟨some a, n, 0, true⟩

/-- `Bytes::Bytes(unsigned char* bytes, const size_t len)`, bytes.cpp l.43-52, on a caller's array -/
def ofArray (v : Nat) (arr : Option (List Byte)) (len : Nat) : M Unit := do
  let p ← callerArray arr
  releasing p (if p = none then throw .invalidArgument else declare v ⟨p, len, len, true⟩)

/-- `Bytes::Bytes(const Bytes& other, const size_t extra_len)`, bytes.cpp l.54-67; with `extra = 0` the copy
constructor, l.70-83 -/
def copyExtra (e : Env) (v w : Nat) (extra : Nat) : M Unit := do
  let o ← get w
  let cap := wrap (o.cap + extra)
  let a ← alloc e cap
  if o.ptr = none then throw .invalidArgument
  else do
    memcpy (some a) 0 o.ptr o.len
    declare v ⟨some a, cap, o.len, true⟩

/-- `Bytes::Bytes(Bytes&& other)`, bytes.cpp l.85-94 -/
def move (v w : Nat) : M Unit := do
  let o ← get w
  declare v ⟨o.ptr, o.cap, o.len, true⟩
  put w { o with owns := false }

/-- `Bytes::operator=`, bytes.cpp l.96-115 -/
def assign (e : Env) (v w : Nat) : M Unit :=
  if v = w then do
    let _ ← get v
    pure ()
  else do
    let o ← get v
    let o' ← get w
    if o'.ptr = none then throw .invalidArgument
    else do
      put v { o with cap := o'.cap }
      free o.ptr
      let a ← alloc e o'.cap
      put v { o with cap := o'.cap, ptr := some a }
      memcpy (some a) 0 o'.ptr o'.len
      put v { o with cap := o'.cap, ptr := some a, len := o'.len }

/-- `Bytes::setDeallocate`, bytes.cpp l.117-120 -/
def setDeallocate (v : Nat) (b : Bool) : M Unit := do
  let o ← get v
  put v { o with owns := b }

/-- `RNG::fill_random_bytes(unsigned char*, const unsigned int)`, /repo/src/rng.cpp l.40-46: the 64-bit count is cut to
32 bits by the parameter; `RAND_bytes` takes an `int` and refuses negative counts -/
def fillRandomBytes (e : Env) (p : Option Nat) (off n : Nat) : M Unit :=
  if n % 2 ^ 32 ≥ 2 ^ 31 ∨ e.rand.good = false then throw .runtimeError
  else write p off (e.rand.take (n % 2 ^ 32))

/-- `Bytes::fillrandom` (noexcept), bytes.cpp l.122-126 -/
def fillrandom (e : Env) (v : Nat) : M Unit :=
  noexcept do
    let o ← get v
    fillRandomBytes e o.ptr o.len (wrap ((o.cap : Int) - o.len))
    put v { o with len := o.cap }

/-- `Bytes::addrandom`, bytes.cpp l.128-136; `num` is `int64_t` -/
def addrandom (e : Env) (v : Nat) (num : Int) : M Unit := do
  let o ← get v
  if wrap (o.len + num) > o.cap then throw .lengthError
  else do
    fillRandomBytes e o.ptr o.len (wrap num)
    put v { o with len := wrap (o.len + num) }

/-- the first `n` bytes behind a caller's pointer, arguments of /repo/include/bytes.h l.37-38 -/
def callerRead (l : List Byte) (n : Nat) : M (List Byte) :=
  if n ≤ l.length then pure (l.take n) else undef

/-- `Bytes::setBytes`, bytes.cpp l.138-150 -/
def setBytes (v : Nat) (arr : Option (List Byte)) (len : Nat) : M Unit := do
  let o ← get v
  if len > o.cap then throw .lengthError
  else
    match arr with
    | none => throw .invalidArgument
    | some l => do
      put v { o with len := len }
      let d ← callerRead l len
      write o.ptr 0 d

/-- `Bytes::addBytes`, bytes.cpp l.152-164 -/
def addBytes (v : Nat) (arr : Option (List Byte)) (len : Nat) : M Unit := do
  let o ← get v
  if wrap (o.len + len) > o.cap then throw .lengthError
  else
    match arr with
    | none => throw .invalidArgument
    | some l => do
      let d ← callerRead l len
      write o.ptr o.len d
      put v { o with len := wrap (o.len + len) }

/-- `Bytes::consumeBytes(unsigned char*, const size_t)`, bytes.cpp l.166-179, on a caller's array -/
def consumeArr (v : Nat) (arr : Option (List Byte)) (len : Nat) : M Unit := do
  let p ← callerArray arr
  releasing p do
    let o ← get v
    if len > o.cap then throw .lengthError
    else if p = none then throw .invalidArgument
    else do
      free o.ptr
      put v { o with len := len, ptr := p }

/-- `Bytes::consumeBytes(Bytes&&)`, bytes.cpp l.181-191 -/
def consumeObj (v w : Nat) : M Unit := do
  let o ← get v
  let b ← get w
  if b.len > o.cap then throw .lengthError
  else do
    put v { o with len := b.len }
    free o.ptr
    let o ← get v
    let b ← get w
    put v { o with ptr := b.ptr }
    setDeallocate w false

/-- `Bytes::setLen`, bytes.cpp l.198-205 -/
def setLen (v : Nat) (n : Nat) : M Unit := do
  let o ← get v
  if n > o.cap then throw .lengthError
  else put v { o with len := n }

/-- writing `d` behind the current content through `getBytes()` (bytes.cpp l.193-196) and then `setLen`: how the hash
functions (/repo/src/sha256.cpp l.8-10 and its siblings), `readData` (/repo/src/utility.cpp l.89-95) and
`RNG::fill_random_bytes(Bytes&, …)` (/repo/src/rng.cpp l.53-58) fill a container -/
def fillRaw (v : Nat) (d : List Byte) : M Unit := do
  let o ← get v
  write o.ptr o.len d
  setLen v (wrap (o.len + d.length))

/-- `Bytes::copyToArray`, bytes.cpp l.207-218; `size` is the real size of the caller's array (`none` = `nullptr`), the
result is what is copied into it -/
def copyToArray (v : Nat) (size : Option Nat) (len : Nat) : M (List Byte) := do
  let o ← get v
  if len < o.len then throw .lengthError
  else
    match size with
    | none => throw .invalidArgument
    | some k => do
      let d ← read o.ptr 0 o.len
      if d.length ≤ k then pure d else undef

/-- `Bytes::copyToBytes`, bytes.cpp l.220-228: `v` is copied over `w` -/
def copyToBytes (v w : Nat) : M Unit := do
  let o ← get v
  let b ← get w
  if b.cap < o.len then throw .lengthError
  else do
    memcpy b.ptr 0 o.ptr o.len
    put w { b with len := o.len }

/-- `Bytes::addcopyToBytes`, bytes.cpp l.230-248: `v` is appended to `w` -/
def addcopyToBytes (v w : Nat) : M Unit := do
  let o ← get v
  let b ← get w
  if b.cap < wrap (o.len + b.len) then throw .lengthError
  else do
    memcpy b.ptr b.len o.ptr o.len
    put w { b with len := wrap (b.len + o.len) }

/-- `Bytes::copySubBytes`, bytes.cpp l.250-264, result in the new variable `r` -/
def copySub (e : Env) (r v : Nat) (start stop : Nat) : M Unit := do
  let o ← get v
  if start > stop then throw .invalidArgument
  else if stop > o.len then throw .lengthError
  else do
    new e r (stop - start : Nat)
    let d ← read o.ptr start (stop - start)
    let b ← get r
    write b.ptr 0 d
    put r { b with len := stop - start }

/-- `Bytes::addSize` (noexcept), bytes.cpp l.276-283 -/
def addSize (e : Env) (v : Nat) (n : Nat) : M Unit :=
  noexcept do
    let o ← get v
    put v { o with cap := wrap (o.cap + n) }
    let a ← alloc e (wrap (o.cap + n))
    memcpy (some a) 0 o.ptr o.len
    free o.ptr
    put v { o with cap := wrap (o.cap + n), ptr := some a }

/-- `Bytes::addByte`, bytes.cpp l.285-293 -/
def addByte (v : Nat) (x : Byte) : M Unit := do
  let o ← get v
  if o.len ≥ o.cap then throw .lengthError
  else do
    write o.ptr o.len [x]
    put v { o with len := wrap (o.len + 1) }

/-- `Bytes::operator==`, bytes.cpp l.300-304 -/
def eq (v w : Nat) : M Bool := do
  let o ← get v
  let b ← get w
  if o.len ≠ b.len then pure false
  else do
    let x ← read o.ptr 0 o.len
    let y ← read b.ptr 0 o.len
    pure (x == y)

/-- `Bytes::operator+` and `Bytes::operator-`, bytes.cpp l.312-338, result in the new variable `r`; the capacity passes
through the `int64_t` constructor -/
def zip (e : Env) (f : Byte → Byte → Byte) (r v w : Nat) : M Unit := do
  let o ← get v
  let b ← get w
  if o.len ≠ b.len then throw .lengthError
  else do
    new e r (if o.cap < 2 ^ 63 then o.cap else (o.cap : Int) - 2 ^ 64)
    let x ← read o.ptr 0 o.len
    let y ← read b.ptr 0 o.len
    let c ← get r
    write c.ptr 0 (List.zipWith f x y)
    put r { c with len := o.len }

/-- reading the whole content: `Bytes::toHex` l.340-352, `Bytes::toLong` l.354-367 after its length check, and
`operator<<` l.369-373 of bytes.cpp read exactly these bytes -/
def content (v : Nat) : M (List Byte) := do
  let o ← get v
  read o.ptr 0 o.len

/-- `Bytes::getLen` and `Bytes::getMaxLen`, bytes.cpp l.266-274 -/
def sizes (v : Nat) : M (Nat × Nat) := do
  let o ← get v
  pure (o.len, o.cap)

/-- body of the destructor, /repo/include/bytes.h l.60-63 -/
def dealloc (o : Obj) : M Unit :=
  if o.ptr ≠ none ∧ o.owns = true then free o.ptr else pure ()

/-- the lifetime of a variable ends, destructor, /repo/include/bytes.h l.59-64 -/
def forget (v : Nat) : M Unit := fun s => .ok { s with obj := upd s.obj v none } ()

/-- `Bytes::~Bytes`, /repo/include/bytes.h l.59-64 -/
def destroy (v : Nat) : M Unit := do
  let o ← get v
  dealloc o
  forget v

/-- body of the loop of `Bytes::fromLong`, bytes.cpp l.14-18, for the byte `x` -/
def fromLongByte (r : Nat) (addzeros : Bool) (x : Byte) : M Unit := do
  let o ← get r
  if o.len ≠ 0 ∨ x ≠ 0 then addByte r x
  else if addzeros = true then addByte r 0
  else pure ()

/-- loop of `Bytes::fromLong`, bytes.cpp l.13-19, filling the variable `r` -/
def fromLongLoop (r : Nat) (l : UInt64) (addzeros : Bool) : List Nat → M Unit
  | [] => pure ()
  | i :: is => do
    fromLongByte r addzeros (Bytes.beByte l i)
    fromLongLoop r l addzeros is

/-- `Bytes::fromLong`, bytes.cpp l.8-21 -/
def fromLong (e : Env) (r : Nat) (l : UInt64) (addzeros : Bool) : M Unit := do
  new e r 8
  fromLongLoop r l addzeros [0, 1, 2, 3, 4, 5, 6, 7]

/-- one public operation; result variables are named `r`, /repo/include/bytes.h l.25-64 -/
inductive Op
  | new (r : Nat) (n : Int)
  | withU64 (r n : Nat)
  | ofArray (r : Nat) (arr : Option (List Byte)) (len : Nat)
  | fromLong (r : Nat) (l : UInt64) (addzeros : Bool)
  | copyExtra (r v extra : Nat)
  | move (r v : Nat)
  | copySub (r v start stop : Nat)
  | add (r v w : Nat)
  | sub (r v w : Nat)
  | assign (v w : Nat)
  | setDeallocate (v : Nat) (b : Bool)
  | fillrandom (v : Nat)
  | addrandom (v : Nat) (num : Int)
  | setBytes (v : Nat) (arr : Option (List Byte)) (len : Nat)
  | addBytes (v : Nat) (arr : Option (List Byte)) (len : Nat)
  | consumeArr (v : Nat) (arr : Option (List Byte)) (len : Nat)
  | consumeObj (v w : Nat)
  | setLen (v n : Nat)
  | fillRaw (v : Nat) (d : List Byte)
  | copyToArray (v : Nat) (size : Option Nat) (len : Nat)
  | copyToBytes (v w : Nat)
  | addcopyToBytes (v w : Nat)
  | addSize (v n : Nat)
  | addByte (v : Nat) (x : Byte)
  | eq (v w : Nat)
  | content (v : Nat)
  | sizes (v : Nat)
  | destroy (v : Nat)

/-- what an operation returns to its caller, /repo/include/bytes.h l.25-64 -/
inductive Val
  | unit
  | bytes (l : List Byte)
  | bool (b : Bool)
  | nums (len cap : Nat)
deriving DecidableEq, Repr

/-- a method without result, `void` in /repo/include/bytes.h l.34-51 -/
def quiet (x : M Unit) : M Val := do
  x
  pure .unit

/-- running one operation (dispatch over the public interface, /repo/include/bytes.h l.24-66) -/
def step (e : Env) : Op → M Val
  | .new r n => quiet (new e r n)
  | .withU64 r n => quiet (withU64 e r n)
  | .ofArray r arr len => quiet (ofArray r arr len)
  | .fromLong r l z => quiet (fromLong e r l z)
  | .copyExtra r v n => quiet (copyExtra e r v n)
  | .move r v => quiet (move r v)
  | .copySub r v a b => quiet (copySub e r v a b)
  | .add r v w => quiet (zip e (· + ·) r v w)
  | .sub r v w => quiet (zip e (· - ·) r v w)
  | .assign v w => quiet (assign e v w)
  | .setDeallocate v b => quiet (setDeallocate v b)
  | .fillrandom v => quiet (fillrandom e v)
  | .addrandom v n => quiet (addrandom e v n)
  | .setBytes v arr len => quiet (setBytes v arr len)
  | .addBytes v arr len => quiet (addBytes v arr len)
  | .consumeArr v arr len => quiet (consumeArr v arr len)
  | .consumeObj v w => quiet (consumeObj v w)
  | .setLen v n => quiet (setLen v n)
  | .fillRaw v d => quiet (fillRaw v d)
  | .copyToArray v k len => do
    let l ← copyToArray v k len
    pure (.bytes l)
  | .copyToBytes v w => quiet (copyToBytes v w)
  | .addcopyToBytes v w => quiet (addcopyToBytes v w)
  | .addSize v n => quiet (addSize e v n)
  | .addByte v x => quiet (addByte v x)
  | .eq v w => do
    let b ← eq v w
    pure (.bool b)
  | .content v => do
    let l ← content v
    pure (.bytes l)
  | .sizes v => do
    let n ← sizes v
    pure (.nums n.1 n.2)
  | .destroy v => quiet (destroy v)

/-- a program: operations with what they meet; exceptions are caught by the caller and the program goes on, calls of /repo/include/bytes.h l.25-64 -/
def run : List (Env × Op) → Store → Out Unit
  | [], s => .ok s ()
  | (e, op) :: rest, s =>
    match step e op s with
    | .ok s _ => run rest s
    | .exn s _ => run rest s
    | .terminate => .terminate
    | .ub => .ub

/-- no object, no heap block; before the first call of /repo/include/bytes.h l.25-64 -/
def start : Store := ⟨0, fun _ => none, fun _ => none⟩

end Verif.Heap
