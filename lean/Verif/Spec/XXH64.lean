import Verif.Spec.Basic
/-!
XXH64 as described in `doc/xxhash_spec.md`, lines 191-336.
-/
namespace XXH.Spec.XXH64

def PRIME64_1 : W64 := 0x9E3779B185EBCA87#64
def PRIME64_2 : W64 := 0xC2B2AE3D27D4EB4F#64
def PRIME64_3 : W64 := 0x165667B19E3779F9#64
def PRIME64_4 : W64 := 0x85EBCA77C2B2AE63#64
def PRIME64_5 : W64 := 0x27D4EB2F165667C5#64

/-- The four lane accumulators. -/
structure Accs where
  acc1 : W64
  acc2 : W64
  acc3 : W64
  acc4 : W64
deriving DecidableEq

/-- Step 1. -/
def init (seed : W64) : Accs where
  acc1 := seed + PRIME64_1 + PRIME64_2
  acc2 := seed + PRIME64_2
  acc3 := seed + 0
  acc4 := seed - PRIME64_1

/-- Step 2, one lane. -/
def round (accN laneN : W64) : W64 :=
  (accN + laneN * PRIME64_2).rotateLeft 31 * PRIME64_1

/-- Step 2, one 32-byte stripe. -/
def stripe (a : Accs) (s : List Byte) : Accs where
  acc1 := round a.acc1 (word64 s 0)
  acc2 := round a.acc2 (word64 s 1)
  acc3 := round a.acc3 (word64 s 2)
  acc4 := round a.acc4 (word64 s 3)

/-- Step 2: the first `n` stripes of `input`. -/
def stripes (a : Accs) (input : List Byte) (n : Nat) : Accs :=
  (List.range n).foldl (fun a i => stripe a (slice input (32*i) (32*i+32))) a

def mergeAccumulator (acc accN : W64) : W64 :=
  (acc ^^^ round 0 accN) * PRIME64_1 + PRIME64_4

/-- Step 3. -/
def converge (a : Accs) : W64 :=
  let acc := a.acc1.rotateLeft 1 + a.acc2.rotateLeft 7 + a.acc3.rotateLeft 12 + a.acc4.rotateLeft 18
  let acc := mergeAccumulator acc a.acc1
  let acc := mergeAccumulator acc a.acc2
  let acc := mergeAccumulator acc a.acc3
  mergeAccumulator acc a.acc4

/-- Step 5, last loop. -/
def remaining1 (acc : W64) : List Byte → W64
  | b :: rest => remaining1 ((acc ^^^ b.setWidth 64 * PRIME64_5).rotateLeft 11 * PRIME64_1) rest
  | [] => acc

/-- Step 5, from the `if` on. -/
def remaining4 (acc : W64) : List Byte → W64
  | b0 :: b1 :: b2 :: b3 :: rest =>
      remaining1 ((acc ^^^ (u32 [b0, b1, b2, b3]).setWidth 64 * PRIME64_1).rotateLeft 23
        * PRIME64_2 + PRIME64_3) rest
  | bs => remaining1 acc bs

/-- Step 5, first loop, for one 8-byte lane. -/
def lane8 (acc lane : W64) : W64 :=
  (acc ^^^ round 0 lane).rotateLeft 27 * PRIME64_1 + PRIME64_4

/-- Step 5. -/
def remaining (acc : W64) (bs : List Byte) : W64 :=
  let n := bs.length / 8                    -- as long as at least 8 bytes remain
  let acc := (List.range n).foldl (fun acc i => lane8 acc (word64 bs i)) acc
  remaining4 acc (bs.drop (8*n))

/-- Step 6. -/
def avalanche (acc : W64) : W64 :=
  let acc := acc ^^^ (acc >>> 33)
  let acc := acc * PRIME64_2
  let acc := acc ^^^ (acc >>> 29)
  let acc := acc * PRIME64_3
  acc ^^^ (acc >>> 32)

/-- The XXH64 function. -/
def hash (input : List Byte) (seed : W64) : W64 :=
  let L := input.length
  let acc := if L < 32 then seed + PRIME64_5 else converge (stripes (init seed) input (L / 32))
  let acc := acc + BitVec.ofNat 64 L
  avalanche (remaining acc (input.drop (L / 32 * 32)))

end XXH.Spec.XXH64
