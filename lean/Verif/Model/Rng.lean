import Verif.Model.Bytes

/-
Model of `/repo/src/rng.cpp`. OpenSSL's `RAND_bytes` is a random source `Rand` per request: it fails or delivers
arbitrary bytes. (`fill_random_bytes` on a raw pointer is `Bytes.randomBytes` in Verif/Model/Bytes.lean.)
-/
namespace Verif.Rng

/-- the character test of `get_random_string`, rng.cpp l.24 -/
def isLetterByte (b : Byte) : Bool := (b ≥ 65 && b ≤ 90) || (b ≥ 97 && b ≤ 122)

/-- the inner loop of `get_random_string`, rng.cpp l.23-31: `inl` = returned, `inr` = batch used up -/
def scan (num : Nat) : List Byte → List Byte → Sum (List Byte) (List Byte)
  | [], res => .inr res
  | b :: bs, res =>
    let res := if isLetterByte b then res ++ [b] else res
    if res.length = num then .inl res else scan num bs res

/-- the outer loop, rng.cpp l.20-37; request number `i` is answered by `src i`. `fuel` bounds the number of requests.
`RAND_bytes` takes the count as `int` and refuses negative counts. The buffer is a variable-length array on the stack;
exhausting the stack is not modelled. -/
def stringLoop (num : Nat) (src : Nat → Rand) : Nat → Nat → List Byte → Res (List Byte)
  | 0, _, _ => .fatal .diverge
  | fuel + 1, i, res =>
    if (src i).good = false ∨ num ≥ 2 ^ 31 then .exn .runtimeError
    else match scan num ((src i).take num) res with
      | .inl out => .ok out
      | .inr res => stringLoop num src fuel (i + 1) res

/-- `RNG::get_random_string`, rng.cpp l.8-38, observed for at most `fuel` requests to OpenSSL -/
def getRandomString (num : Nat) (src : Nat → Rand) (fuel : Nat) : Res (List Byte) :=
  if num < 1 then .exn .logicError else stringLoop num src fuel 0 []

/-- `RNG::fill_random_bytes(Bytes&, const unsigned int)`, rng.cpp l.48-59: overwrites from the start of the buffer -/
def fillBytes (b : Bytes) (num : Nat) (r : Rand) : Res Bytes :=
  if b.cap < num then .exn .logicError
  else if r.good = false ∨ num ≥ 2 ^ 31 then .exn .runtimeError
  else .ok ⟨r.take num, b.cap⟩

/-- `RNG::get_random_byte`, rng.cpp l.61-89. `upper - lower` is computed in `int` and converted to 64 bits; the sum is
cut to one byte. -/
def getRandomByte (lower upper : Byte) (bufferSize : Nat) (r : Rand) : Res Byte :=
  if bufferSize < 1 ∨ bufferSize > 8 then .exn .logicError
  else if upper ≤ lower then
    if upper = lower then .ok upper else .exn .logicError
  else if r.good then do
    let v ← (Bytes.mk (r.take bufferSize) bufferSize).toLong
    pure (v % (UInt64.ofNat (upper.toNat - lower.toNat)) + UInt64.ofNat lower.toNat).toUInt8
  else .exn .runtimeError

end Verif.Rng
