import Verif.Spec.XXH64
/-!
XXH3 as described in `doc/xxhash_spec.md`, lines 338-791.
-/
namespace XXH.Spec.XXH3
open XXH64 (PRIME64_1 PRIME64_2 PRIME64_3 PRIME64_4 PRIME64_5)

def PRIME32_1 : W64 := 0x9E3779B1#64
def PRIME32_2 : W64 := 0x85EBCA77#64
def PRIME32_3 : W64 := 0xC2B2AE3D#64
def PRIME_MX1 : W64 := 0x165667919E3779F9#64
def PRIME_MX2 : W64 := 0x9FB21C651E98DF25#64

/-- Lines 369-384. -/
def defaultSecret : List Byte := [
  0xb8, 0xfe, 0x6c, 0x39, 0x23, 0xa4, 0x4b, 0xbe, 0x7c, 0x01, 0x81, 0x2c, 0xf7, 0x21, 0xad, 0x1c,
  0xde, 0xd4, 0x6d, 0xe9, 0x83, 0x90, 0x97, 0xdb, 0x72, 0x40, 0xa4, 0xa4, 0xb7, 0xb3, 0x67, 0x1f,
  0xcb, 0x79, 0xe6, 0x4e, 0xcc, 0xc0, 0xe5, 0x78, 0x82, 0x5a, 0xd0, 0x7d, 0xcc, 0xff, 0x72, 0x21,
  0xb8, 0x08, 0x46, 0x74, 0xf7, 0x43, 0x24, 0x8e, 0xe0, 0x35, 0x90, 0xe6, 0x81, 0x3a, 0x26, 0x4c,
  0x3c, 0x28, 0x52, 0xbb, 0x91, 0xc3, 0x00, 0xcb, 0x88, 0xd0, 0x65, 0x8b, 0x1b, 0x53, 0x2e, 0xa3,
  0x71, 0x64, 0x48, 0x97, 0xa2, 0x0d, 0xf9, 0x4e, 0x38, 0x19, 0xef, 0x46, 0xa9, 0xde, 0xac, 0xd8,
  0xa8, 0xfa, 0x76, 0x3f, 0xe3, 0x9c, 0x34, 0x3f, 0xf9, 0xdc, 0xbb, 0xc7, 0xc7, 0x0b, 0x4f, 0x1d,
  0x8a, 0x51, 0xe0, 0x4b, 0xcd, 0xb4, 0x59, 0x31, 0xc8, 0x9f, 0x7e, 0xc9, 0xd9, 0x78, 0x73, 0x64,
  0xea, 0xc5, 0xac, 0x83, 0x34, 0xd3, 0xeb, 0xc3, 0xc5, 0x81, 0xa0, 0xff, 0xfa, 0x13, 0x63, 0xeb,
  0x17, 0x0d, 0xdd, 0x51, 0xb7, 0xf0, 0xda, 0x49, 0xd3, 0x16, 0x55, 0x26, 0x29, 0xd4, 0x68, 0x9e,
  0x2b, 0x16, 0xbe, 0x58, 0x7d, 0x47, 0xa1, 0xfc, 0x8f, 0xf8, 0xb8, 0xd1, 0x7a, 0xd0, 0x31, 0xce,
  0x45, 0xcb, 0x3a, 0x8f, 0x95, 0x16, 0x04, 0x28, 0xaf, 0xd7, 0xfb, 0xca, 0xbb, 0x4b, 0x40, 0x7e]

/-- Lines 391-399. -/
def deriveSecret (seed : W64) : List Byte :=
  (List.range 12).flatMap fun i =>
    leBytes 8 (word64 defaultSecret (i*2) + seed) ++ leBytes 8 (word64 defaultSecret (i*2+1) - seed)

/-- Lines 407-412. -/
def avalanche (x : W64) : W64 :=
  let x := x ^^^ (x >>> 37)
  let x := x * PRIME_MX1
  x ^^^ (x >>> 32)

/-- Lines 414-420 (the same steps as step 6 of XXH64). -/
def avalanche_XXH64 (x : W64) : W64 :=
  let x := x ^^^ (x >>> 33)
  let x := x * PRIME64_2
  let x := x ^^^ (x >>> 29)
  let x := x * PRIME64_3
  x ^^^ (x >>> 32)

/-! ### Small inputs, lines 423-550 -/

def empty64 (secret : List Byte) (seed : W64) : W64 :=
  let secretWords := slice secret 56 72
  avalanche_XXH64 (seed ^^^ word64 secretWords 0 ^^^ word64 secretWords 1)

def empty128 (secret : List Byte) (seed : W64) : H128 :=
  let secretWords := slice secret 64 96
  { low64 := avalanche_XXH64 (seed ^^^ word64 secretWords 0 ^^^ word64 secretWords 1)
    high64 := avalanche_XXH64 (seed ^^^ word64 secretWords 2 ^^^ word64 secretWords 3) }

/-- `input[i]` -/
def byteAt (input : List Byte) (i : Nat) : Byte := input.getD i 0

/-- Lines 449-454. -/
def combined1to3 (input : List Byte) : W32 :=
  let inputLength := input.length
  (byteAt input (inputLength - 1)).setWidth 32 ||| (BitVec.ofNat 32 inputLength <<< 8) |||
    ((byteAt input 0).setWidth 32 <<< 16) ||| ((byteAt input (inputLength >>> 1)).setWidth 32 <<< 24)

def hash64_1to3 (input secret : List Byte) (seed : W64) : W64 :=
  let secretWords := slice secret 0 8
  let value := ((word32 secretWords 0 ^^^ word32 secretWords 1).setWidth 64 + seed) ^^^
    (combined1to3 input).setWidth 64
  avalanche_XXH64 value

def hash128_1to3 (input secret : List Byte) (seed : W64) : H128 :=
  let secretWords := slice secret 0 16
  let combined := combined1to3 input
  let low := ((word32 secretWords 0 ^^^ word32 secretWords 1).setWidth 64 + seed) ^^^
    combined.setWidth 64
  let high := ((word32 secretWords 2 ^^^ word32 secretWords 3).setWidth 64 - seed) ^^^
    ((bswap32 combined).rotateLeft 13).setWidth 64
  { low64 := avalanche_XXH64 low, high64 := avalanche_XXH64 high }

/-- Line 482. -/
def modifiedSeed (seed : W64) : W64 :=
  seed ^^^ ((bswap32 (seed.setWidth 32)).setWidth 64 <<< 32)

def hash64_4to8 (input secret : List Byte) (seed : W64) : W64 :=
  let inputLength := input.length
  let inputFirst := u32 (slice input 0 4)
  let inputLast := u32 (slice input (inputLength-4) inputLength)
  let secretWords := slice secret 8 24
  let combined := inputLast.setWidth 64 ||| (inputFirst.setWidth 64 <<< 32)
  let value := ((word64 secretWords 0 ^^^ word64 secretWords 1) - modifiedSeed seed) ^^^ combined
  let value := value ^^^ value.rotateLeft 49 ^^^ value.rotateLeft 24
  let value := value * PRIME_MX2
  let value := value ^^^ ((value >>> 35) + BitVec.ofNat 64 inputLength)
  let value := value * PRIME_MX2
  value ^^^ (value >>> 28)

def hash128_4to8 (input secret : List Byte) (seed : W64) : H128 :=
  let inputLength := input.length
  let inputFirst := u32 (slice input 0 4)
  let inputLast := u32 (slice input (inputLength-4) inputLength)
  let secretWords := slice secret 16 32
  let combined := inputFirst.setWidth 64 ||| (inputLast.setWidth 64 <<< 32)
  let value := ((word64 secretWords 0 ^^^ word64 secretWords 1) + modifiedSeed seed) ^^^ combined
  let mult := PRIME64_1 + (BitVec.ofNat 64 inputLength <<< 2)
  let high := mulHigh value mult
  let low := mulLow value mult
  let high := high + (low <<< 1)
  let low := low ^^^ (high >>> 3)
  let low := low ^^^ (low >>> 35)
  let low := low * PRIME_MX2
  let low := low ^^^ (low >>> 28)
  let high := avalanche high
  { low64 := low, high64 := high }

def hash64_9to16 (input secret : List Byte) (seed : W64) : W64 :=
  let inputLength := input.length
  let inputFirst := u64 (slice input 0 8)
  let inputLast := u64 (slice input (inputLength-8) inputLength)
  let secretWords := slice secret 24 56
  let low := ((word64 secretWords 0 ^^^ word64 secretWords 1) + seed) ^^^ inputFirst
  let high := ((word64 secretWords 2 ^^^ word64 secretWords 3) - seed) ^^^ inputLast
  let value := BitVec.ofNat 64 inputLength + bswap64 low + high + (mulLow low high ^^^ mulHigh low high)
  avalanche value

def hash128_9to16 (input secret : List Byte) (seed : W64) : H128 :=
  let inputLength := input.length
  let inputFirst := u64 (slice input 0 8)
  let inputLast := u64 (slice input (inputLength-8) inputLength)
  let secretWords := slice secret 32 64
  let val1 := ((word64 secretWords 0 ^^^ word64 secretWords 1) - seed) ^^^ inputFirst ^^^ inputLast
  let val2 := ((word64 secretWords 2 ^^^ word64 secretWords 3) + seed) ^^^ inputLast
  let low := mulLow val1 PRIME64_1 + (BitVec.ofNat 64 (inputLength - 1) <<< 54)
  let high := mulHigh val1 PRIME64_1 + (higher32 val2 <<< 32) + lower32 val2 * PRIME32_2
  let low := low ^^^ bswap64 high
  let high := mulHigh low PRIME64_2 + high * PRIME64_2
  let low := mulLow low PRIME64_2
  { low64 := avalanche low, high64 := avalanche high }

/-! ### Medium inputs, lines 553-668 -/

/-- Lines 578-585. -/
def mixStep (secret : List Byte) (data : List Byte) (secretOffset : Nat) (seed : W64) : W64 :=
  let secretWords := slice secret secretOffset (secretOffset+16)
  let a := word64 data 0 ^^^ (word64 secretWords 0 + seed)
  let b := word64 data 1 ^^^ (word64 secretWords 1 - seed)
  mulLow a b ^^^ mulHigh a b

/-- Lines 589-597. -/
def mixTwoChunks (secret : List Byte) (acc : W64 × W64) (data1 data2 : List Byte)
    (secretOffset : Nat) (seed : W64) : W64 × W64 :=
  let acc0 := acc.1 + mixStep secret data1 secretOffset seed
  let acc1 := acc.2 + mixStep secret data2 (secretOffset + 16) seed
  (acc0 ^^^ (word64 data2 0 + word64 data2 1), acc1 ^^^ (word64 data1 0 + word64 data1 1))

/-- `for (i = n - 1; i >= 0; i--)` -/
def downFrom (n : Nat) : List Nat := (List.range n).reverse

def hash64_17to128 (input secret : List Byte) (seed : W64) : W64 :=
  let inputLength := input.length
  let acc := BitVec.ofNat 64 inputLength * PRIME64_1
  let numRounds := ((inputLength - 1) >>> 5) + 1
  let acc := (downFrom numRounds).foldl (fun acc i =>
    let offsetStart := i*16
    let offsetEnd := inputLength - i*16 - 16
    let acc := acc + mixStep secret (slice input offsetStart (offsetStart+16)) (i*32) seed
    acc + mixStep secret (slice input offsetEnd (offsetEnd+16)) (i*32+16) seed) acc
  avalanche acc

def final128_17to240 (acc : W64 × W64) (inputLength : Nat) (seed : W64) : H128 :=
  let low := acc.1 + acc.2
  let high := (acc.1 * PRIME64_1) + (acc.2 * PRIME64_4)
    + ((BitVec.ofNat 64 inputLength - seed) * PRIME64_2)
  { low64 := avalanche low, high64 := 0 - avalanche high }

def hash128_17to128 (input secret : List Byte) (seed : W64) : H128 :=
  let inputLength := input.length
  let acc : W64 × W64 := (BitVec.ofNat 64 inputLength * PRIME64_1, 0)
  let numRounds := ((inputLength - 1) >>> 5) + 1
  let acc := (downFrom numRounds).foldl (fun acc i =>
    let offsetStart := i*16
    let offsetEnd := inputLength - i*16 - 16
    mixTwoChunks secret acc (slice input offsetStart (offsetStart+16))
      (slice input offsetEnd (offsetEnd+16)) (i*32) seed) acc
  final128_17to240 acc inputLength seed

def hash64_129to240 (input secret : List Byte) (seed : W64) : W64 :=
  let inputLength := input.length
  let acc := BitVec.ofNat 64 inputLength * PRIME64_1
  let numChunks := inputLength >>> 4
  let acc := (List.range 8).foldl (fun acc i =>
    acc + mixStep secret (slice input (i*16) (i*16+16)) (i*16) seed) acc
  let acc := avalanche acc
  let acc := (List.range' 8 (numChunks - 8)).foldl (fun acc i =>
    acc + mixStep secret (slice input (i*16) (i*16+16)) ((i-8)*16 + 3) seed) acc
  let acc := acc + mixStep secret (slice input (inputLength-16) inputLength) 119 seed
  avalanche acc

def hash128_129to240 (input secret : List Byte) (seed : W64) : H128 :=
  let inputLength := input.length
  let acc : W64 × W64 := (BitVec.ofNat 64 inputLength * PRIME64_1, 0)
  let numChunks := inputLength >>> 5
  let acc := (List.range 4).foldl (fun acc i =>
    mixTwoChunks secret acc (slice input (i*32) (i*32+16)) (slice input (i*32+16) (i*32+32))
      (i*32) seed) acc
  let acc := (avalanche acc.1, avalanche acc.2)
  let acc := (List.range' 4 (numChunks - 4)).foldl (fun acc i =>
    mixTwoChunks secret acc (slice input (i*32) (i*32+16)) (slice input (i*32+16) (i*32+32))
      ((i-4)*32 + 3) seed) acc
  let acc := mixTwoChunks secret acc (slice input (inputLength-16) inputLength)
    (slice input (inputLength-32) (inputLength-16)) 103 (0 - seed)
  final128_17to240 acc inputLength seed

/-! ### Large inputs, lines 670-791 -/

/-- Lines 679-683. -/
def initAcc : Acc :=
  #v[PRIME32_3, PRIME64_1, PRIME64_2, PRIME64_3, PRIME64_4, PRIME32_2, PRIME64_5, PRIME32_1]

/-- Lines 703-712. -/
def accumulate (secret : List Byte) (acc : Acc) (stripe : List Byte) (secretOffset : Nat) : Acc :=
  let secretWords := slice secret secretOffset (secretOffset+64)
  (List.finRange 8).foldl (fun (acc : Acc) (i : Fin 8) =>
    let value := word64 stripe i ^^^ word64 secretWords i
    let j : Fin 8 := i ^^^ 1
    let acc := acc.set j (acc[j] + word64 stripe i)
    acc.set i (acc[i] + lower32 value * higher32 value)) acc

def stripesPerBlock (secret : List Byte) : Nat := (secret.length - 64) / 8
def blockSize (secret : List Byte) : Nat := 64 * stripesPerBlock secret

/-- The first `n` stripes of a block (lines 716-722). -/
def accumulateStripes (secret : List Byte) (acc : Acc) (block : List Byte) (n : Nat) : Acc :=
  (List.range n).foldl (fun acc n => accumulate secret acc (slice block (n*64) (n*64+64)) (n*8)) acc

/-- Lines 728-736. -/
def scramble (secret : List Byte) (acc : Acc) : Acc :=
  let secretWords := slice secret (secret.length-64) secret.length
  (List.finRange 8).foldl (fun (acc : Acc) (i : Fin 8) =>
    let a := acc[i] ^^^ (acc[i] >>> 47)
    let a := a ^^^ word64 secretWords i
    acc.set i (a * PRIME32_1)) acc

/-- Lines 740-744. -/
def round (secret : List Byte) (acc : Acc) (block : List Byte) : Acc :=
  scramble secret (accumulateStripes secret acc block (stripesPerBlock secret))

/-- Step 2 looped "until there are less than or equal to `blockSize` bytes of input left", that is
`⌊(L-1)/blockSize⌋` times, then step 3 on the last block. -/
def longAccs (input secret : List Byte) : Acc :=
  let L := input.length
  let bs := blockSize secret
  let nBlocks := (L - 1) / bs
  let acc := (List.range nBlocks).foldl (fun acc b =>
    round secret acc (slice input (b*bs) (b*bs+bs))) initAcc
  let lastBlock := input.drop (nBlocks*bs)
  let nFullStripes := (lastBlock.length - 1) / 64
  let acc := accumulateStripes secret acc lastBlock nFullStripes
  accumulate secret acc (slice input (L-64) L) (secret.length - 71)

/-- Lines 767-779. -/
def finalMerge (secret : List Byte) (acc : Acc) (initValue : W64) (secretOffset : Nat) : W64 :=
  let secretWords := slice secret secretOffset (secretOffset+64)
  let part (i : Nat) (a b : W64) : W64 :=
    let x := a ^^^ word64 secretWords (i*2)
    let y := b ^^^ word64 secretWords (i*2+1)
    mulLow x y ^^^ mulHigh x y
  let result := initValue
  let result := result + part 0 acc[0] acc[1]
  let result := result + part 1 acc[2] acc[3]
  let result := result + part 2 acc[4] acc[5]
  let result := result + part 3 acc[6] acc[7]
  avalanche result

def large64 (input secret : List Byte) : W64 :=
  finalMerge secret (longAccs input secret) (BitVec.ofNat 64 input.length * PRIME64_1) 11

def large128 (input secret : List Byte) : H128 :=
  let acc := longAccs input secret
  { low64 := finalMerge secret acc (BitVec.ofNat 64 input.length * PRIME64_1) 11
    high64 := finalMerge secret acc (~~~ (BitVec.ofNat 64 input.length * PRIME64_2)) (secret.length - 75) }

/-! ### Complete functions -/

/-- Small and medium inputs with the given seed and secret; `longSecret` is the secret for large inputs. -/
def hash64 (input : List Byte) (seed : W64) (secret longSecret : List Byte) : W64 :=
  let L := input.length
  if L = 0 then empty64 secret seed
  else if L ≤ 3 then hash64_1to3 input secret seed
  else if L ≤ 8 then hash64_4to8 input secret seed
  else if L ≤ 16 then hash64_9to16 input secret seed
  else if L ≤ 128 then hash64_17to128 input secret seed
  else if L ≤ 240 then hash64_129to240 input secret seed
  else large64 input longSecret

def hash128 (input : List Byte) (seed : W64) (secret longSecret : List Byte) : H128 :=
  let L := input.length
  if L = 0 then empty128 secret seed
  else if L ≤ 3 then hash128_1to3 input secret seed
  else if L ≤ 8 then hash128_4to8 input secret seed
  else if L ≤ 16 then hash128_9to16 input secret seed
  else if L ≤ 128 then hash128_17to128 input secret seed
  else if L ≤ 240 then hash128_129to240 input secret seed
  else large128 input longSecret

/-- `XXH3_64bits_withSeed`: default secret; secret derived from the seed for large inputs (lines 386-399). -/
def XXH3_64_withSeed (input : List Byte) (seed : W64) : W64 :=
  hash64 input seed defaultSecret (deriveSecret seed)

/-- `XXH3_64bits`: default seed and secret. -/
def XXH3_64 (input : List Byte) : W64 := hash64 input 0 defaultSecret defaultSecret

/-- `XXH3_64bits_withSecret`: default seed. -/
def XXH3_64_withSecret (input secret : List Byte) : W64 := hash64 input 0 secret secret

/-- `XXH3_64bits_withSecretandSeed` (line 388). -/
def XXH3_64_withSecretandSeed (input secret : List Byte) (seed : W64) : W64 :=
  if input.length ≤ 240 then XXH3_64_withSeed input seed else XXH3_64_withSecret input secret

def XXH3_128_withSeed (input : List Byte) (seed : W64) : H128 :=
  hash128 input seed defaultSecret (deriveSecret seed)

def XXH3_128 (input : List Byte) : H128 := hash128 input 0 defaultSecret defaultSecret

def XXH3_128_withSecret (input secret : List Byte) : H128 := hash128 input 0 secret secret

def XXH3_128_withSecretandSeed (input secret : List Byte) (seed : W64) : H128 :=
  if input.length ≤ 240 then XXH3_128_withSeed input seed else XXH3_128_withSecret input secret

end XXH.Spec.XXH3
