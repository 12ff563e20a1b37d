import Verif.Model.Hash

/-!
The hash functions behind `sha256`, `sha384` and `sha512` as the standard FIPS 180-4 defines them. The code calls the functions
`SHA256`, `SHA384` and `SHA512` of OpenSSL (/repo/src/sha256.cpp l.9 and l.17, sha384.cpp l.9 and l.17, sha512.cpp l.9 and
l.17); that OpenSSL follows the standard is assumed only where the values in the unit tests of the project are compared with
the model (Validation/UnitTests) and in C90. All theorems about the code hold for every choice of `Hashes`.
-/
namespace Verif.Sha2

/-- the parameters in which the functions of the standard differ (FIPS 180-4, 4.1.2, 4.1.3, 5.1, 6.2, 6.4); used for the calls of
OpenSSL in /repo/src/sha256.cpp l.9, sha384.cpp l.9, sha512.cpp l.9 -/
structure Variant where
  /-- bits of a word -/
  bits : Nat
  /-- round constants -/
  k : List Nat
  /-- rotations of the two functions used in the rounds -/
  S0 : Nat × Nat × Nat
  S1 : Nat × Nat × Nat
  /-- two rotations and a shift of the two functions used in the message schedule -/
  s0 : Nat × Nat × Nat
  s1 : Nat × Nat × Nat

/-- round constants of SHA-256 (FIPS 180-4, 4.2.2), for the call in /repo/src/sha256.cpp l.9 -/
def k256 : List Nat :=
  [
    0x428a2f98, 0x71374491, 0xb5c0fbcf, 0xe9b5dba5, 0x3956c25b, 0x59f111f1,
    0x923f82a4, 0xab1c5ed5, 0xd807aa98, 0x12835b01, 0x243185be, 0x550c7dc3,
    0x72be5d74, 0x80deb1fe, 0x9bdc06a7, 0xc19bf174, 0xe49b69c1, 0xefbe4786,
    0x0fc19dc6, 0x240ca1cc, 0x2de92c6f, 0x4a7484aa, 0x5cb0a9dc, 0x76f988da,
    0x983e5152, 0xa831c66d, 0xb00327c8, 0xbf597fc7, 0xc6e00bf3, 0xd5a79147,
    0x06ca6351, 0x14292967, 0x27b70a85, 0x2e1b2138, 0x4d2c6dfc, 0x53380d13,
    0x650a7354, 0x766a0abb, 0x81c2c92e, 0x92722c85, 0xa2bfe8a1, 0xa81a664b,
    0xc24b8b70, 0xc76c51a3, 0xd192e819, 0xd6990624, 0xf40e3585, 0x106aa070,
    0x19a4c116, 0x1e376c08, 0x2748774c, 0x34b0bcb5, 0x391c0cb3, 0x4ed8aa4a,
    0x5b9cca4f, 0x682e6ff3, 0x748f82ee, 0x78a5636f, 0x84c87814, 0x8cc70208,
    0x90befffa, 0xa4506ceb, 0xbef9a3f7, 0xc67178f2]

/-- round constants of SHA-384 and SHA-512 (FIPS 180-4, 4.2.3), for the calls in /repo/src/sha384.cpp l.9, sha512.cpp l.9 -/
def k512 : List Nat :=
  [
    0x428a2f98d728ae22, 0x7137449123ef65cd, 0xb5c0fbcfec4d3b2f, 0xe9b5dba58189dbbc,
    0x3956c25bf348b538, 0x59f111f1b605d019, 0x923f82a4af194f9b, 0xab1c5ed5da6d8118,
    0xd807aa98a3030242, 0x12835b0145706fbe, 0x243185be4ee4b28c, 0x550c7dc3d5ffb4e2,
    0x72be5d74f27b896f, 0x80deb1fe3b1696b1, 0x9bdc06a725c71235, 0xc19bf174cf692694,
    0xe49b69c19ef14ad2, 0xefbe4786384f25e3, 0x0fc19dc68b8cd5b5, 0x240ca1cc77ac9c65,
    0x2de92c6f592b0275, 0x4a7484aa6ea6e483, 0x5cb0a9dcbd41fbd4, 0x76f988da831153b5,
    0x983e5152ee66dfab, 0xa831c66d2db43210, 0xb00327c898fb213f, 0xbf597fc7beef0ee4,
    0xc6e00bf33da88fc2, 0xd5a79147930aa725, 0x06ca6351e003826f, 0x142929670a0e6e70,
    0x27b70a8546d22ffc, 0x2e1b21385c26c926, 0x4d2c6dfc5ac42aed, 0x53380d139d95b3df,
    0x650a73548baf63de, 0x766a0abb3c77b2a8, 0x81c2c92e47edaee6, 0x92722c851482353b,
    0xa2bfe8a14cf10364, 0xa81a664bbc423001, 0xc24b8b70d0f89791, 0xc76c51a30654be30,
    0xd192e819d6ef5218, 0xd69906245565a910, 0xf40e35855771202a, 0x106aa07032bbd1b8,
    0x19a4c116b8d2d0c8, 0x1e376c085141ab53, 0x2748774cdf8eeb99, 0x34b0bcb5e19b48a8,
    0x391c0cb3c5c95a63, 0x4ed8aa4ae3418acb, 0x5b9cca4f7763e373, 0x682e6ff3d6b2b8a3,
    0x748f82ee5defb2fc, 0x78a5636f43172f60, 0x84c87814a1f0ab72, 0x8cc702081a6439ec,
    0x90befffa23631e28, 0xa4506cebde82bde9, 0xbef9a3f7b2c67915, 0xc67178f2e372532b,
    0xca273eceea26619c, 0xd186b8c721c0c207, 0xeada7dd6cde0eb1e, 0xf57d4f7fee6ed178,
    0x06f067aa72176fba, 0x0a637dc5a2c898a6, 0x113f9804bef90dae, 0x1b710b35131c471b,
    0x28db77f523047d84, 0x32caab7b40c72493, 0x3c9ebe0a15c9bebc, 0x431d67c49c100d4c,
    0x4cc5d4becb3e42b6, 0x597f299cfc657e2a, 0x5fcb6fab3ad6faec, 0x6c44198c4a475817]

/-- SHA-256 (FIPS 180-4, 4.1.2), for the call in /repo/src/sha256.cpp l.9 -/
def v256 : Variant := ⟨32, k256, (2, 13, 22), (6, 11, 25), (7, 18, 3), (17, 19, 10)⟩

/-- SHA-384 and SHA-512 (FIPS 180-4, 4.1.3), for the calls in /repo/src/sha384.cpp l.9, sha512.cpp l.9 -/
def v512 : Variant := ⟨64, k512, (28, 34, 39), (14, 18, 41), (1, 8, 7), (19, 61, 6)⟩

/-- initial values (FIPS 180-4, 5.3.3), for the call in /repo/src/sha256.cpp l.9 -/
def iv256 : List Nat :=
  [
    0x6a09e667, 0xbb67ae85, 0x3c6ef372, 0xa54ff53a, 0x510e527f, 0x9b05688c,
    0x1f83d9ab, 0x5be0cd19]

/-- initial values (FIPS 180-4, 5.3.4), for the call in /repo/src/sha384.cpp l.9 -/
def iv384 : List Nat :=
  [
    0xcbbb9d5dc1059ed8, 0x629a292a367cd507, 0x9159015a3070dd17, 0x152fecd8f70e5939,
    0x67332667ffc00b31, 0x8eb44a8768581511, 0xdb0c2e0d64f98fa7, 0x47b5481dbefa4fa4]

/-- initial values (FIPS 180-4, 5.3.5), for the call in /repo/src/sha512.cpp l.9 -/
def iv512 : List Nat :=
  [
    0x6a09e667f3bcc908, 0xbb67ae8584caa73b, 0x3c6ef372fe94f82b, 0xa54ff53a5f1d36f1,
    0x510e527fade682d1, 0x9b05688c2b3e6c1f, 0x1f83d9abfb41bd6b, 0x5be0cd19137e2179]

namespace Variant
variable (v : Variant)

/-- rotation to the right (FIPS 180-4, 3.2); sha256.cpp l.9 -/
def rotr (n x : Nat) : Nat := (x >>> n ||| x <<< (v.bits - n)) % 2 ^ v.bits

/-- the functions of the rounds (FIPS 180-4, 4.1.2, 4.1.3); sha256.cpp l.9 -/
def big (r : Nat × Nat × Nat) (x : Nat) : Nat := v.rotr r.1 x ^^^ v.rotr r.2.1 x ^^^ v.rotr r.2.2 x

/-- the functions of the message schedule (FIPS 180-4, 4.1.2, 4.1.3); sha256.cpp l.9 -/
def small (r : Nat × Nat × Nat) (x : Nat) : Nat := v.rotr r.1 x ^^^ v.rotr r.2.1 x ^^^ (x >>> r.2.2)

/-- the choice of `y` or `z` by the bits of `x` (FIPS 180-4, 4.1.2, 4.1.3); sha256.cpp l.9 -/
def ch (x y z : Nat) : Nat := (x &&& y) ^^^ ((2 ^ v.bits - 1 - x) &&& z)

/-- majority (FIPS 180-4, 4.1.2, 4.1.3); sha256.cpp l.9 -/
def maj (x y z : Nat) : Nat := (x &&& y) ^^^ (x &&& z) ^^^ (y &&& z)

/-- addition of words (FIPS 180-4, 3.2); sha256.cpp l.9 -/
def plus (x y : Nat) : Nat := (x + y) % 2 ^ v.bits

/-- one round: the working variables `a` to `h`, the round constant and the word of the schedule (FIPS 180-4, 6.2.2 step 3);
sha256.cpp l.9 -/
def round (st : List Nat) (k w : Nat) : List Nat :=
  match st with
  | [a, b, c, d, e, f, g, h] =>
    let t1 := (h + v.big v.S1 e + v.ch e f g + k + w) % 2 ^ v.bits
    let t2 := (v.big v.S0 a + maj a b c) % 2 ^ v.bits
    [v.plus t1 t2, a, b, c, v.plus d t1, e, f, g]
  | _ => st

/-- the next word of the message schedule from the last sixteen (FIPS 180-4, 6.2.2 step 1); sha256.cpp l.9 -/
def nextWord (ws : List Nat) : Nat :=
  (v.small v.s1 (ws.getD 14 0) + ws.getD 9 0 + v.small v.s0 (ws.getD 1 0) + ws.getD 0 0) % 2 ^ v.bits

/-- the rounds with the remaining constants; `ws` is the window of sixteen words of the schedule (FIPS 180-4, 6.2.2); sha256.cpp
l.9 -/
def rounds : List Nat → List Nat → List Nat → List Nat
  | [], _, st => st
  | k :: ks, ws, st => rounds ks (ws.tail ++ [v.nextWord ws]) (v.round st k (ws.getD 0 0))

/-- bytes of a word of the message (FIPS 180-4, 3.1); sha256.cpp l.9 -/
def wordBytes : Nat := v.bits / 8

/-- bytes of a block of the message (FIPS 180-4, 5.2); sha256.cpp l.9 -/
def blockBytes : Nat := 16 * v.wordBytes

/-- a number from bytes, the most significant first (FIPS 180-4, 3.1); sha256.cpp l.9 -/
def ofBytes (l : List Byte) : Nat := l.foldl (fun a b => 256 * a + b.toNat) 0

/-- the `n` bytes of a number, the most significant first (FIPS 180-4, 3.1); sha256.cpp l.9 -/
def toBytes : Nat → Nat → List Byte
  | 0, _ => []
  | n + 1, x => toBytes n (x / 256) ++ [UInt8.ofNat x]

/-- the words of a block (FIPS 180-4, 5.2); sha256.cpp l.9 -/
def wordsOf (block : List Byte) : List Nat :=
  (List.range 16).map fun i => ofBytes ((block.drop (i * v.wordBytes)).take v.wordBytes)

/-- one block of the message (FIPS 180-4, 6.2.2); sha256.cpp l.9 -/
def compress (st : List Nat) (block : List Byte) : List Nat :=
  List.zipWith v.plus st (v.rounds v.k (v.wordsOf block) st)

/-- the padded message (FIPS 180-4, 5.1): a one bit, zeros, and the number of bits in two words; sha256.cpp l.9 -/
def pad (m : List Byte) : List Byte :=
  m ++ 128 :: (List.replicate ((v.blockBytes - (m.length + 1 + 2 * v.wordBytes) % v.blockBytes) % v.blockBytes) 0 ++
    toBytes (2 * v.wordBytes) (8 * m.length))

/-- the first `n` blocks of a padded message, one after the other (FIPS 180-4, 6.2.2); sha256.cpp l.9 -/
def blocks : Nat → List Byte → List Nat → List Nat
  | 0, _, st => st
  | n + 1, m, st => blocks n (m.drop v.blockBytes) (v.compress st (m.take v.blockBytes))

/-- the digest: the words of the state (FIPS 180-4, 6.2.2, 6.5); sha256.cpp l.9 -/
def digest (iv : List Nat) (m : List Byte) : List Byte :=
  let p := v.pad m
  (v.blocks (p.length / v.blockBytes) p iv).flatMap (toBytes v.wordBytes)

end Variant

/-- SHA-256; `SHA256`, called in /repo/src/sha256.cpp l.9 and l.17 -/
def sha256 (m : List Byte) : List Byte := v256.digest iv256 m

/-- SHA-384, the first six words; `SHA384`, called in /repo/src/sha384.cpp l.9 and l.17 -/
def sha384 (m : List Byte) : List Byte := (v512.digest iv384 m).take 48

/-- SHA-512; `SHA512`, called in /repo/src/sha512.cpp l.9 and l.17 -/
def sha512 (m : List Byte) : List Byte := v512.digest iv512 m

end Verif.Sha2
