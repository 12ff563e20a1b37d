import Verif.Model.Basic

/-
Model of the byte container `Bytes` (`/repo/src/bytes.cpp`, `/repo/include/bytes.h`) at the level the other classes
use it: `data` are the first `len` bytes of the buffer, `cap` is `max_len`.
Simplifications: memory ownership (`deallocate`, freed buffers) is not visible here, see `Verif/Model/Heap.lean`;
null buffers do not occur (the private default constructor is used only inside `withU64`, which sets the buffer).
Lengths are natural numbers: real arrays are shorter than 2^63 bytes, so `len + len` does not wrap.
-/
namespace Verif

/-- `/repo/include/bytes.h` l.13-17. -/
structure Bytes where
  data : List Byte
  cap : Nat
deriving DecidableEq, Repr

/-- Source of random bytes for one request to OpenSSL `RAND_bytes`: either it fails (`good = false`) or it delivers
the bytes `byte 0, byte 1, …`. See /repo/src/rng.cpp l.22, l.41, l.53, l.81. -/
structure Rand where
  good : Bool
  byte : Nat → Byte

/-- the first `n` bytes a random source delivers, /repo/src/rng.cpp l.53 -/
def Rand.take (r : Rand) (n : Nat) : List Byte := (List.range n).map r.byte

@[simp] theorem Rand.length_take (r : Rand) (n : Nat) : (r.take n).length = n := by simp [Rand.take]

namespace Bytes

/-- class invariant `len ≤ max_len`, /repo/include/bytes.h l.15-16 -/
def WF (b : Bytes) : Prop := b.data.length ≤ b.cap

/-- the invariant of /repo/include/bytes.h l.15-16 can be evaluated -/
instance (b : Bytes) : Decidable b.WF := by unfold WF; infer_instance

/-- `Bytes::getLen`, bytes.cpp l.266-269 -/
def len (b : Bytes) : Nat := b.data.length

/-- `Bytes::Bytes(const int64_t max_len)`, bytes.cpp l.31-41 -/
def new (maxLen : Int) : Res Bytes :=
  if maxLen < 0 then .exn .invalidArgument else .ok ⟨[], maxLen.toNat⟩

/-- `Bytes::Bytes(const int64_t)` for a non-negative argument, and `Bytes::withU64`, bytes.cpp l.23-41 -/
def empty (n : Nat) : Bytes := ⟨[], n⟩

/-- a `Bytes` object that is exactly filled (constructor from array, bytes.cpp l.43-52) -/
def full (l : List Byte) : Bytes := ⟨l, l.length⟩

/-- `Bytes::Bytes(const Bytes& other, const size_t extra_len)`, bytes.cpp l.54-67 -/
def copyExtra (b : Bytes) (extra : Nat) : Bytes := ⟨b.data, b.cap + extra⟩

/-- `Bytes::setBytes`, bytes.cpp l.138-150 -/
def setBytes (b : Bytes) (l : List Byte) : Res Bytes :=
  if l.length > b.cap then .exn .lengthError else .ok ⟨l, b.cap⟩

/-- `Bytes::addBytes`, bytes.cpp l.152-164 -/
def addBytes (b : Bytes) (l : List Byte) : Res Bytes :=
  if b.data.length + l.length > b.cap then .exn .lengthError else .ok ⟨b.data ++ l, b.cap⟩

/-- `Bytes::addByte`, bytes.cpp l.285-293 -/
def addByte (b : Bytes) (x : Byte) : Res Bytes :=
  if b.data.length ≥ b.cap then .exn .lengthError else .ok ⟨b.data ++ [x], b.cap⟩

/-- `Bytes::copyToBytes`, bytes.cpp l.220-228: copies `src` over `dst`, returns the new `dst` -/
def copyToBytes (src dst : Bytes) : Res Bytes :=
  if dst.cap < src.data.length then .exn .lengthError else .ok ⟨src.data, dst.cap⟩

/-- `Bytes::addcopyToBytes`, bytes.cpp l.230-248: appends `src` to `dst`, returns the new `dst` -/
def addcopyToBytes (src dst : Bytes) : Res Bytes :=
  if dst.cap < src.data.length + dst.data.length then .exn .lengthError else .ok ⟨dst.data ++ src.data, dst.cap⟩

/-- `Bytes::copySubBytes`, bytes.cpp l.250-264 -/
def copySubBytes (b : Bytes) (start stop : Nat) : Res Bytes :=
  if start > stop then .exn .invalidArgument
  else if stop > b.data.length then .exn .lengthError
  else .ok ⟨(b.data.drop start).take (stop - start), stop - start⟩

/-- `Bytes::addSize`, bytes.cpp l.276-283 (for sizes whose sum does not wrap 2^64) -/
def addSize (b : Bytes) (n : Nat) : Bytes := ⟨b.data, b.cap + n⟩

/-- `Bytes::setLen`, bytes.cpp l.198-205, used for shortening only; lengthening exposes buffer content that this level
does not track and is modelled as undefined (the code lengthens only after filling the buffer directly; these places
are modelled by appending). -/
def setLen (b : Bytes) (n : Nat) : Res Bytes :=
  if n > b.cap then .exn .lengthError
  else if n ≤ b.data.length then .ok ⟨b.data.take n, b.cap⟩
  else .fatal .ub

/-- `Bytes::isEmpty`, bytes.cpp l.295-298 -/
def isEmpty (b : Bytes) : Bool := b.data.length == 0

/-- `Bytes::operator==`, bytes.cpp l.300-304 -/
def beq (a b : Bytes) : Bool := a.data == b.data

/-- `Bytes::operator+`, bytes.cpp l.312-324 -/
def add (a b : Bytes) : Res Bytes :=
  if a.data.length ≠ b.data.length then .exn .lengthError
  else .ok ⟨List.zipWith (· + ·) a.data b.data, a.cap⟩

/-- `Bytes::operator-`, bytes.cpp l.326-338 -/
def sub (a b : Bytes) : Res Bytes :=
  if a.data.length ≠ b.data.length then .exn .lengthError
  else .ok ⟨List.zipWith (· - ·) a.data b.data, a.cap⟩

/-- `RNG::fill_random_bytes(unsigned char*, const unsigned int)`, /repo/src/rng.cpp l.40-46, called with a 64-bit
count: the count is truncated to 32 bits by the parameter and then to `int` by `RAND_bytes`, which refuses negative
counts. A truncated count would leave the rest of the buffer uninitialised (`ub` when it is used). -/
def randomBytes (r : Rand) (n : Nat) : Res (List Byte) :=
  if n % 2 ^ 32 ≥ 2 ^ 31 ∨ r.good = false then .exn .runtimeError
  else if n ≥ 2 ^ 32 then .fatal .ub
  else .ok (r.take n)

/-- `Bytes::fillrandom` (noexcept), bytes.cpp l.122-126 -/
def fillrandom (b : Bytes) (r : Rand) : Res Bytes :=
  Res.noexcept do
    let l ← randomBytes r (b.cap - b.data.length)
    pure ⟨b.data ++ l, b.cap⟩

/-- `Bytes::addrandom`, bytes.cpp l.128-136 (`num` is `int64_t`; negative `num` passes the unsigned check only when the
wrapped sum is in range and is then refused by `RAND_bytes`. Simplification: containers holding 2 GiB or more with a count
below -2^31, whose low half `RAND_bytes` takes for positive, are left to Model/Heap; the only caller passes a count from 0 to
32, chainhash_data.cpp l.112) -/
def addrandom (b : Bytes) (num : Int) (r : Rand) : Res Bytes :=
  if num < 0 then
    (if (b.data.length : Int) + num < 0 then .exn .lengthError else .exn .runtimeError)
  else if b.data.length + num.toNat > b.cap then .exn .lengthError
  else do
    let l ← randomBytes r num.toNat
    pure ⟨b.data ++ l, b.cap⟩

/-- the byte at position `7 - i` of the little-endian memory image of a 64-bit number, i.e. its `i`-th byte counted
from the most significant one (bytes.cpp l.11-15) -/
def beByte (l : UInt64) (i : Nat) : Byte := UInt8.ofNat (l.toNat / 256 ^ (7 - i))

/-- loop of `Bytes::fromLong`, bytes.cpp l.13-19, over the remaining indices -/
def fromLongLoop (l : UInt64) (addzeros : Bool) : List Nat → Bytes → Res Bytes
  | [], res => .ok res
  | i :: is, res =>
    if !res.isEmpty || beByte l i != 0 then do
      let res ← res.addByte (beByte l i)
      fromLongLoop l addzeros is res
    else if addzeros then do
      let res ← res.addByte 0
      fromLongLoop l addzeros is res
    else fromLongLoop l addzeros is res

/-- `Bytes::fromLong`, bytes.cpp l.8-21 -/
def fromLong (l : UInt64) (addzeros : Bool := false) : Res Bytes :=
  fromLongLoop l addzeros [0, 1, 2, 3, 4, 5, 6, 7] (empty 8)

/-- little-endian value of a byte array copied over a zeroed 64-bit integer (`memcpy(&res, …)`); /repo/src/bytes.cpp l.365 -/
def leValue : List Byte → Nat
  | [] => 0
  | x :: xs => x.toNat + 256 * leValue xs

/-- `Bytes::toLong`, bytes.cpp l.354-367: the bytes are reversed, then copied over a little-endian integer -/
def toLong (b : Bytes) : Res UInt64 :=
  if b.data.length > 8 then .exn .lengthError
  else .ok (UInt64.ofNat (leValue b.data.reverse))

/-- `hexChars`, bytes.cpp l.342 -/
def hexChars : List Char := "0123456789ABCDEF".toList

/-- `Bytes::toHex`, bytes.cpp l.340-352 -/
def toHex (b : Bytes) : List Char :=
  b.data.flatMap fun (x : Byte) => [hexChars.getD (x >>> 4).toNat ' ', hexChars.getD (x &&& 0xF).toNat ' ']

end Bytes
end Verif
