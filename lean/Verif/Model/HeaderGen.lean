import Verif.Model.DataHeader
import Verif.Model.Rng

/-
Model of the header generator of the tests, `/repo/tests/dataheader_generator.h`.

Requests to OpenSSL are numbered in the order in which they are made; request number `i` is answered by `src i`.
-/
namespace Verif.HeaderGen

/-- `DataHeaderGenSet`, dataheader_generator.h l.4-10 -/
structure GenSet where
  hashmode : Option Byte
  datablocknum : Option Byte
  decdatablocknum : Option Byte
  chainhashlen1 : Option Byte
  chainhashlen2 : Option Byte
deriving DecidableEq, Repr

/-- code that may ask for random bytes; the number of requests made so far is passed on. dataheader_generator.h l.14-92 -/
def Draw (α : Type) := Nat → Res (α × Nat)

/-- sequences of statements, dataheader_generator.h l.14-92 -/
instance : Monad Draw where
  pure a := fun i => .ok (a, i)
  bind x f := fun i => (x i).bind fun a => f a.1 a.2

/-- a statement without random bytes, for example dataheader_generator.h l.40 -/
def Draw.lift {α : Type} (x : Res α) : Draw α := fun i => x.bind fun a => .ok (a, i)

section
variable (src : Nat → Rand)

/-- one request to OpenSSL, for example dataheader_generator.h l.17 -/
def Draw.ask {α : Type} (f : Rand → Res α) : Draw α := fun i => (f (src i)).bind fun a => .ok (a, i + 1)

/-- `RNG::get_random_byte(lower, upper)` with the default buffer size 4 (/repo/include/rng.h l.18), dataheader_generator.h
l.17 and others -/
def randomByte (lower upper : Byte) : Draw Byte := Draw.ask src (Rng.getRandomByte lower upper 4)

/-- `Bytes tmp(len); tmp.fillrandom()`, dataheader_generator.h l.50-51, l.60-61, l.72-73 and l.84-85 -/
def randomBlock (len : Nat) : Draw Bytes := Draw.ask src (Bytes.empty len).fillrandom

/-- `set.x.has_value() ? set.x.value() : RNG::get_random_byte(lower, upper)`, dataheader_generator.h l.41, l.43, l.55, l.66 and
l.78 -/
def given (set : Option Byte) (lower upper : Byte) : Draw Byte :=
  match set with
  | some n => pure n
  | none => randomByte src lower upper

/-- `getChainHashMode`, dataheader_generator.h l.14-34, observed for at most `fuel` rounds of the loop -/
def chainMode (len : Byte) : Nat → Draw Byte
  | 0 => fun _ => .fatal .diverge
  | fuel + 1 => do
    let cm ← randomByte src 1 5
    if len = 0 then
      if ¬ (cm = 1 ∨ cm = 2) then chainMode len fuel else pure cm
    else
      let cm := if len < 8 then 2 else cm
      if len ≠ 8 ∧ cm = 3 then chainMode len fuel
      else if len ≠ 32 ∧ cm = 5 then chainMode len fuel
      else if len ≠ 0 ∧ cm = 1 then chainMode len fuel
      else pure cm

/-- data blocks, dataheader_generator.h l.45-53 -/
def genBlocks : Nat → Bytes → Draw Bytes
  | 0, ret => pure ret
  | k + 1, ret => do
    let len ← randomByte src 1 255
    let ret := ret.addSize (len.toNat + 2)
    let type ← randomByte src 0 255
    let ret ← Draw.lift (ret.addByte type)
    let ret ← Draw.lift (ret.addByte len)
    let tmp ← randomBlock src len.toNat
    let ret ← Draw.lift (tmp.addcopyToBytes ret)
    genBlocks k ret

/-- the five zeros before the random part of the number of iterations, dataheader_generator.h l.57-58 and l.68-69 -/
def addZeros : Nat → Bytes → Res Bytes
  | 0, ret => .ok ret
  | k + 1, ret => do addZeros k (← ret.addByte 0)

/-- one chain hash, dataheader_generator.h l.55-64 (`more` = 10) and l.66-76 (`more` = 2 + 2 * hash size); the buffer has
room for the mode and the iterations -/
def genChain (fuel : Nat) (set : Option Byte) (more : Res Nat) (ret : Bytes) : Draw Bytes := do
  let clen ← given src set 0 255
  let cm ← chainMode src clen fuel
  let ret ← Draw.lift (ret.addByte cm)
  let ret ← Draw.lift (addZeros 5 ret)
  let ret ← Draw.ask src ret.fillrandom
  let tmp ← randomBlock src clen.toNat
  let more ← Draw.lift more
  let ret := ret.addSize (clen.toNat + more)
  let ret ← Draw.lift (ret.addByte clen)
  Draw.lift (tmp.addcopyToBytes ret)

/-- encrypted data blocks, dataheader_generator.h l.80-87 -/
def genEncBlocks : Nat → Bytes → Draw Bytes
  | 0, ret => pure ret
  | k + 1, ret => do
    let ret := ret.addSize 257
    let type ← randomByte src 0 255
    let ret ← Draw.lift (ret.addByte type)
    let len ← randomByte src 0 255
    let ret ← Draw.lift (ret.addByte len)
    let tmp ← randomBlock src 255
    let ret ← Draw.lift (tmp.addcopyToBytes ret)
    genEncBlocks k ret

/-- `HashModes::getHash(HModes(hashmode))->getHashSize()`, dataheader_generator.h l.74; /repo/src/hash_modes.cpp l.17-31 -/
def hashSizeOf (b : Byte) : Res Nat :=
  match HMode.ofByte b with
  | some m => .ok m.size
  | none => .exn .invalidArgument

/-- `generateDH`, dataheader_generator.h l.36-92; the loops that look for a chain hash mode are observed for at most `fuel`
rounds each. The two `memcpy` at the end write the eight bytes of the length over the first sixteen bytes. -/
def generate (set : GenSet) (fuel : Nat) : Draw Bytes := do
  let ret ← Draw.ask src (Bytes.empty 16).fillrandom
  let ret := ret.addSize 3
  let ret ← Draw.lift (ret.addByte 1)
  let hashmode ← given src set.hashmode 1 3
  let ret ← Draw.lift (ret.addByte hashmode)
  let num ← given src set.datablocknum 0 255
  let ret ← Draw.lift (ret.addByte num)
  let ret ← genBlocks src num.toNat ret
  let ret := ret.addSize 9
  let ret ← genChain src fuel set.chainhashlen1 (.ok 10) ret
  let ret ← genChain src fuel set.chainhashlen2 (do .ok (1 + 1 + 2 * (← hashSizeOf hashmode))) ret
  let ret ← Draw.ask src (ret.addrandom ((ret.cap : Int) - ret.data.length - 1))
  let dnum ← given src set.decdatablocknum 0 255
  let ret ← Draw.lift (ret.addByte dnum)
  let ret ← genEncBlocks src dnum.toNat ret
  let len ← Draw.lift (Bytes.fromLong (UInt64.ofNat ret.data.length) true)
  pure ⟨len.data ++ len.data ++ ret.data.drop (2 * len.data.length), ret.cap⟩

/-- a call of `generateDH`, for example /repo/tests/dataheader_unittest.cpp l.363-369 -/
def generateDH (set : GenSet) (fuel : Nat) : Res Bytes := (generate src set fuel 0).bind fun a => .ok a.1

end
end Verif.HeaderGen
