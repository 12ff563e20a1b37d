import Verif.Model.Bytes

/-
Hash functions: `/repo/src/sha256.cpp`, `sha384.cpp`, `sha512.cpp`, `/repo/include/hash.h`, `/repo/src/hash_modes.cpp`.
The digests computed by OpenSSL are not modelled: a hash is an arbitrary function with a fixed output size.
-/
namespace Verif

/-- A hash algorithm: digest function and digest size. See `class Hash`, /repo/include/hash.h l.5-17. -/
structure HashFn where
  size : Nat
  h : List Byte → List Byte
  len : ∀ x, (h x).length = size
  /-- digest sizes in use are 32, 48 and 64 bytes; `Block` keeps the size in one byte -/
  pos : 2 ≤ size
  small : size ≤ 64

attribute [simp] HashFn.len

namespace HashFn

/-- `sha256::hash(const Bytes&, const u_int32_t extra_space)`, sha256.cpp l.7-12 (sha384, sha512 alike). The buffer
size is computed in 32-bit arithmetic; a buffer smaller than the digest is written out of bounds. -/
def hash (H : HashFn) (b : Bytes) (extra : Nat := 0) : Res Bytes :=
  let cap := (H.size + extra % 2 ^ 32) % 2 ^ 32
  if cap < H.size then .fatal .ub else .ok ⟨H.h b.data, cap⟩

/-- `sha256::hash(const std::string&, const u_int32_t extra_space)`, sha256.cpp l.14-20 -/
def hashStr (H : HashFn) (s : List Byte) (extra : Nat := 0) : Res Bytes :=
  let cap := (H.size + extra % 2 ^ 32) % 2 ^ 32
  if cap < H.size then .fatal .ub else .ok ⟨H.h s, cap⟩

end HashFn

/-- the three algorithms behind the hash modes, `HashModes::getHash`, /repo/src/hash_modes.cpp l.17-31 -/
structure Hashes where
  sha256 : List Byte → List Byte
  sha384 : List Byte → List Byte
  sha512 : List Byte → List Byte
  len256 : ∀ x, (sha256 x).length = 32
  len384 : ∀ x, (sha384 x).length = 48
  len512 : ∀ x, (sha512 x).length = 64

/-- `enum HModes`, /repo/include/base.h l.20-24 -/
inductive HMode | sha256 | sha384 | sha512
deriving DecidableEq, Repr

/-- numeric value of a hash mode, /repo/include/base.h l.19-23 -/
def HMode.toByte : HMode → Byte
  | .sha256 => 1 | .sha384 => 2 | .sha512 => 3

/-- `HashModes::isModeValid` with the conversion to the enum, hash_modes.cpp l.12-15: modes 1..3 -/
def HMode.ofByte (b : Byte) : Option HMode :=
  if b = 1 then some .sha256 else if b = 2 then some .sha384 else if b = 3 then some .sha512 else none

/-- `HashModes::getHash`, hash_modes.cpp l.17-31 -/
def Hashes.get (hs : Hashes) : HMode → HashFn
  | .sha256 => ⟨32, hs.sha256, hs.len256, by decide, by decide⟩
  | .sha384 => ⟨48, hs.sha384, hs.len384, by decide, by decide⟩
  | .sha512 => ⟨64, hs.sha512, hs.len512, by decide, by decide⟩

/-- digest size of a hash mode, `getHashSize`, sha256.cpp l.5, sha384.cpp l.5, sha512.cpp l.5 -/
def HMode.size : HMode → Nat
  | .sha256 => 32 | .sha384 => 48 | .sha512 => 64

@[simp] theorem Hashes.get_size (hs : Hashes) (m : HMode) : (hs.get m).size = m.size := by cases m <;> rfl

/-- A small concrete "hash" used only in examples: a number made from all bytes, spread over the digest. It stands in for the digests of /repo/src/sha256.cpp l.7-12. -/
def toyDigest (n : Nat) (x : List Byte) : List Byte :=
  let a := x.foldl (fun acc b => (acc * 33 + b.toNat + 1) % 65521) n
  (List.range n).map fun i => UInt8.ofNat (a * (2 * i + 1) / 16 + i)

/-- the three algorithms (/repo/src/hash_modes.cpp l.17-31) of the examples, made from `toyDigest` -/
def toyHashes : Hashes where
  sha256 := toyDigest 32
  sha384 := toyDigest 48
  sha512 := toyDigest 64
  len256 := by simp [toyDigest]
  len384 := by simp [toyDigest]
  len512 := by simp [toyDigest]

end Verif
