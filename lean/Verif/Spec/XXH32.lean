import Verif.Spec.Basic
/-!
XXH32 as described in `doc/xxhash_spec.md`, lines 66-188.
-/
namespace XXH.Spec.XXH32

def PRIME32_1 : W32 := 0x9E3779B1#32
def PRIME32_2 : W32 := 0x85EBCA77#32
def PRIME32_3 : W32 := 0xC2B2AE3D#32
def PRIME32_4 : W32 := 0x27D4EB2F#32
def PRIME32_5 : W32 := 0x165667B1#32

/-- The four lane accumulators. -/
structure Accs where
  acc1 : W32
  acc2 : W32
  acc3 : W32
  acc4 : W32
deriving DecidableEq

/-- Step 1. -/
def init (seed : W32) : Accs where
  acc1 := seed + PRIME32_1 + PRIME32_2
  acc2 := seed + PRIME32_2
  acc3 := seed + 0
  acc4 := seed - PRIME32_1

/-- Step 2, one lane. -/
def round (accN laneN : W32) : W32 :=
  (accN + laneN * PRIME32_2).rotateLeft 13 * PRIME32_1

/-- Step 2, one 16-byte stripe. -/
def stripe (a : Accs) (s : List Byte) : Accs where
  acc1 := round a.acc1 (word32 s 0)
  acc2 := round a.acc2 (word32 s 1)
  acc3 := round a.acc3 (word32 s 2)
  acc4 := round a.acc4 (word32 s 3)

/-- Step 2: the first `n` stripes of `input`. -/
def stripes (a : Accs) (input : List Byte) (n : Nat) : Accs :=
  (List.range n).foldl (fun a i => stripe a (slice input (16*i) (16*i+16))) a

/-- Step 3. -/
def converge (a : Accs) : W32 :=
  a.acc1.rotateLeft 1 + a.acc2.rotateLeft 7 + a.acc3.rotateLeft 12 + a.acc4.rotateLeft 18

/-- Step 5. -/
def remaining (acc : W32) : List Byte → W32
  | b0 :: b1 :: b2 :: b3 :: rest =>
      remaining ((acc + u32 [b0, b1, b2, b3] * PRIME32_3).rotateLeft 17 * PRIME32_4) rest
  | b :: rest =>
      remaining ((acc + b.setWidth 32 * PRIME32_5).rotateLeft 11 * PRIME32_1) rest
  | [] => acc

/-- Step 6. -/
def avalanche (acc : W32) : W32 :=
  let acc := acc ^^^ (acc >>> 15)
  let acc := acc * PRIME32_2
  let acc := acc ^^^ (acc >>> 13)
  let acc := acc * PRIME32_3
  acc ^^^ (acc >>> 16)

/-- The XXH32 function. -/
def hash (input : List Byte) (seed : W32) : W32 :=
  let L := input.length
  let acc := if L < 16 then seed + PRIME32_5 else converge (stripes (init seed) input (L / 16))
  let acc := acc + BitVec.ofNat 32 L                    -- step 4: lower 32 bits of the length
  avalanche (remaining acc (input.drop (L / 16 * 16)))

end XXH.Spec.XXH32
