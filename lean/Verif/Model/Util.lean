import Verif.Model.Bytes

/-
Model of `/repo/src/utility.cpp`. C++ strings are byte strings: `List Byte`.
-/
namespace Verif

/-- `endsWith`, utility.cpp l.11-19 -/
def endsWith (s ending : List Byte) : Bool :=
  if s.length ≥ ending.length then s.drop (s.length - ending.length) == ending else false

/-- `stringToBytes` (noexcept), utility.cpp l.21-27 -/
def stringToBytes (s : List Byte) : Res Bytes :=
  Res.noexcept ((Bytes.empty s.length).setBytes s)

/-- `bytesToString`, utility.cpp l.29-32 -/
def bytesToString (b : Bytes) : List Byte := b.data

/-- `addStringToBytes`, utility.cpp l.34-42 -/
def addStringToBytes (s : List Byte) (b : Bytes) : Res Bytes :=
  if s.length > b.cap - b.data.length then .exn .runtimeError else b.addBytes s

/-- loop of `getLongLen`, utility.cpp l.44-55 -/
def getLongLen (n : Nat) : Nat := if h : n = 0 then 0 else getLongLen (n / 256) + 1

/-- `isdigit` on a `char` in the "C" locale. The argument is a plain (signed) `char`; negative values other than
`EOF` are formally outside the domain of `isdigit`, glibc answers "no" for them, which is what is modelled. See utility.cpp l.64. -/
def isDigitByte (c : Byte) : Bool := 48 ≤ c && c ≤ 57

/-- value of a digit string as computed by `std::stoul` (which throws `out_of_range` when it does not fit 64 bits), utility.cpp l.70 -/
def stoul (s : List Byte) : Option UInt64 :=
  let v := s.foldl (fun acc c => acc * 10 + (c.toNat - 48)) 0
  if v < 2 ^ 64 then some (UInt64.ofNat v) else none

/-- `isValidNumber`, utility.cpp l.57-79 -/
def isValidNumber (s : List Byte) (acceptBlank : Bool) (lower upper : UInt64) : Bool :=
  if s.isEmpty then acceptBlank
  else if !s.all isDigitByte then false
  else match stoul s with
    | none => false
    | some v => lower ≤ v && v ≤ upper

/-- An input file stream: the bytes not yet read, the sizes of the pieces the buffer will offer at the next
`readsome` calls (`in_avail`), the number of bytes known to be buffered because `peek` looked at them, and the
sticky end-of-file flag. See utility.cpp l.81-103. -/
structure IStream where
  rest : List Byte
  sched : Nat → Nat
  primed : Bool
  eof : Bool

namespace IStream

/-- how many bytes the next `readsome` may hand out: an arbitrary number (chosen by the library), but at least one if
`peek` has just found a byte, utility.cpp l.89 -/
def avail (s : IStream) : Nat := min s.rest.length (if s.primed then max 1 (s.sched 0) else s.sched 0)

/-- `std::istream::readsome(p, n)`: hands out at most `n` bytes of what is available without blocking; on a stream
that has reached its end it hands out nothing. See utility.cpp l.89. -/
def readsome (s : IStream) (n : Nat) : List Byte × IStream :=
  if s.eof then ([], s)
  else
    let k := min n s.avail
    (s.rest.take k,
      { s with rest := s.rest.drop k, sched := fun i => s.sched (i + 1), primed := s.primed && decide (k = 0) })

/-- `std::istream::peek() == EOF`: looks at the next byte, making it available; sets the end-of-file flag if there is
none. See utility.cpp l.90. -/
def peekEof (s : IStream) : Bool × IStream :=
  if s.eof then (true, s)
  else if s.rest.isEmpty then (true, { s with eof := true })
  else (false, { s with primed := true })

end IStream

/-- The loop of `readData`, utility.cpp l.86-102 (and l.106-121): `acc` are the bytes read so far. `fuel` bounds the
number of rounds; running out of fuel means the loop did not finish. The last check of the loop (`fail()`/`bad()`)
cannot be reached with a failed stream because `peek` reports `EOF` on such a stream. -/
def readLoop : Nat → IStream → List Byte → Nat → Res (Option (List Byte) × IStream)
  | 0, _, _, _ => .fatal .diverge
  | fuel + 1, s, acc, size =>
    let (got, s) := s.readsome (size - acc.length)
    let acc := acc ++ got
    if acc.length ≠ size then
      if s.eof then .ok (none, s)
      else
        let (e, s) := s.peekEof
        if e then .ok (none, s) else readLoop fuel s acc size
    else .ok (some acc, s)

/-- `readData(std::istream&, Bytes&, const unsigned int&)` (noexcept), utility.cpp l.81-103. The size parameter is
32 bits wide. `none` = returned false. The fuel `size + 2` is shown to be always enough. -/
def readData (s : IStream) (b : Bytes) (size : Nat) : Res (Option Bytes × IStream) :=
  let size := size % 2 ^ 32
  if b.cap - b.data.length < size then .ok (none, s)
  else do
    let (r, s) ← readLoop (size + 2) s [] size
    match r with
    | none => pure (none, s)
    | some l => pure (some ⟨b.data ++ l, b.cap⟩, s)

end Verif
