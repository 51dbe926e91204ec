import Verif.Model.XXH64
/-!
Model of the XXH3 primitives and of the short and mid-size paths (xxhash.h:4284-4780 and 6459-6721).

`input` and `secret` are objects and offsets into them.  The `XXH_ASSERT(input != NULL)` and
`XXH_ASSERT(secret != NULL)` lines are not repeated: `NULL` has no bytes, so the reads fail.
-/
namespace XXH.Model.XXH3
open XXH64 (PRIME64_1 PRIME64_2 PRIME64_3 PRIME64_4 PRIME64_5)

/-- xxhash.h:2861-2865, widened to `xxh_u64` by the usual conversions where they are used. -/
def PRIME32_1 : W64 := 0x9E3779B1#64
def PRIME32_2 : W64 := 0x85EBCA77#64
def PRIME32_3 : W64 := 0xC2B2AE3D#64

/-- xxhash.h:4299-4300 -/
def PRIME_MX1 : W64 := 0x165667919E3779F9#64
def PRIME_MX2 : W64 := 0x9FB21C651E98DF25#64

/-- `XXH3_SECRET_SIZE_MIN`, xxhash.h:1174. -/
def SECRET_SIZE_MIN : Nat := 136
/-- `XXH_SECRET_DEFAULT_SIZE`, xxhash.h:4277. -/
def SECRET_DEFAULT_SIZE : Nat := 192
/-- `XXH3_MIDSIZE_MAX`, xxhash.h:1928. -/
def MIDSIZE_MAX : Nat := 240
/-- `XXH3_MIDSIZE_STARTOFFSET`, xxhash.h:4728. -/
def MIDSIZE_STARTOFFSET : Nat := 3
/-- `XXH3_MIDSIZE_LASTOFFSET`, xxhash.h:4729. -/
def MIDSIZE_LASTOFFSET : Nat := 17

/-- `XXH3_kSecret`, xxhash.h:4284-4297. -/
def kSecretBytes : List Byte := [
  0xb8, 0xfe, 0x6c, 0x39, 0x23, 0xa4, 0x4b, 0xbe, 0x7c, 0x01, 0x81, 0x2c, 0xf7, 0x21, 0xad, 0x1c,
  0xde, 0xd4, 0x6d, 0xe9, 0x83, 0x90, 0x97, 0xdb, 0x72, 0x40, 0xa4, 0xa4, 0xb7, 0xb3, 0x67, 0x1f,
  0xcb, 0x79, 0xe6, 0x4e, 0xcc, 0xc0, 0xe5, 0x78, 0x82, 0x5a, 0xd0, 0x7d, 0xcc, 0xff, 0x72, 0x21,
  0xb8, 0x08, 0x46, 0x74, 0xf7, 0x43, 0x24, 0x8e, 0xe0, 0x35, 0x90, 0xe6, 0x81, 0x3a, 0x26, 0x4c,
  0x3c, 0x28, 0x52, 0xbb, 0x91, 0xc3, 0x00, 0xcb, 0x88, 0xd0, 0x65, 0x8b, 0x1b, 0x53, 0x2e, 0xa3,
  0x71, 0x64, 0x48, 0x97, 0xa2, 0x0d, 0xf9, 0x4e, 0x38, 0x19, 0xef, 0x46, 0xa9, 0xde, 0xac, 0xd8,
  0xa8, 0xfa, 0x76, 0x3f, 0xe3, 0x9c, 0x34, 0x3f, 0xf9, 0xdc, 0xbb, 0xc7, 0xc7, 0x0b, 0x4f, 0x1d,
  0x8a, 0x51, 0xe0, 0x4b, 0xcd, 0xb4, 0x59, 0x31, 0xc8, 0x9f, 0x7e, 0xc9, 0xd9, 0x78, 0x73, 0x64,
  0xea, 0xc5, 0xac, 0x83, 0x34, 0xd3, 0xeb, 0xc3, 0xc5, 0x81, 0xa0, 0xff, 0xfa, 0x13, 0x63, 0xeb,
  0x17, 0x0d, 0xdd, 0x51, 0xb7, 0xf0, 0xda, 0x49, 0xd3, 0x16, 0x55, 0x26, 0x29, 0xd4, 0x68, 0x9e,
  0x2b, 0x16, 0xbe, 0x58, 0x7d, 0x47, 0xa1, 0xfc, 0x8f, 0xf8, 0xb8, 0xd1, 0x7a, 0xd0, 0x31, 0xce,
  0x45, 0xcb, 0x3a, 0x8f, 0x95, 0x16, 0x04, 0x28, 0xaf, 0xd7, 0xfb, 0xca, 0xbb, 0x4b, 0x40, 0x7e]

/-- The object `XXH3_kSecret`. -/
def kSecret (cfg : Cfg) : Buf := ⟨cfg.kSecretAddr, kSecretBytes⟩

/-- `XXH_mult32to64`, xxhash.h:4338. (`__emulu` on MSVC x86 is the same function.) -/
def mult32to64 (x y : W64) : W64 := (x.setWidth 32).setWidth 64 * (y.setWidth 32).setWidth 64

/-- The portable branch of `XXH_mult64to128`, xxhash.h:4454-4470. -/
def mult64to128_portable (lhs rhs : W64) : H128 :=
  let lo_lo := mult32to64 (lhs &&& 0xFFFFFFFF#64) (rhs &&& 0xFFFFFFFF#64)
  let hi_lo := mult32to64 (lhs >>> 32) (rhs &&& 0xFFFFFFFF#64)
  let lo_hi := mult32to64 (lhs &&& 0xFFFFFFFF#64) (rhs >>> 32)
  let hi_hi := mult32to64 (lhs >>> 32) (rhs >>> 32)
  let cross := (lo_lo >>> 32) + (hi_lo &&& 0xFFFFFFFF#64) + lo_hi
  let upper := (hi_lo >>> 32) + (cross >>> 32) + hi_hi
  let lower := (cross <<< 32) ||| (lo_lo &&& 0xFFFFFFFF#64)
  { low64 := lower, high64 := upper }

/-- The `__uint128_t` branch, xxhash.h:4371-4375: `_umul128` (4390) and `__umulh` (4408) are defined
to return the same halves. -/
def mult64to128_native (lhs rhs : W64) : H128 :=
  let product : BitVec 128 := lhs.setWidth 128 * rhs.setWidth 128
  { low64 := product.setWidth 64, high64 := (product >>> 64).setWidth 64 }

/-- `XXH_mult64to128`, xxhash.h:4350-4472. -/
def mult64to128 (cfg : Cfg) (lhs rhs : W64) : H128 :=
  if cfg.portableMul then mult64to128_portable lhs rhs else mult64to128_native lhs rhs

/-- `XXH3_mul128_fold64`, xxhash.h:4484-4488. -/
def mul128_fold64 (cfg : Cfg) (lhs rhs : W64) : W64 :=
  let product := mult64to128 cfg lhs rhs
  product.low64 ^^^ product.high64

/-- `XXH_xorshift64`, xxhash.h:4492-4496 (all callers pass constants below 64). -/
def xorshift64 (v64 : W64) (shift : Nat) : W64 := v64 ^^^ (v64 >>> shift)

/-- `XXH3_avalanche`, xxhash.h:4502-4508. -/
def avalanche (h64 : W64) : W64 :=
  let h64 := xorshift64 h64 37
  let h64 := h64 * PRIME_MX1
  xorshift64 h64 32

/-- `XXH3_rrmxmx`, xxhash.h:4515-4523. -/
def rrmxmx (h64 len : W64) : W64 :=
  let h64 := h64 ^^^ (rotl64 h64 49 ^^^ rotl64 h64 24)
  let h64 := h64 * PRIME_MX2
  let h64 := h64 ^^^ ((h64 >>> 35) + len)
  let h64 := h64 * PRIME_MX2
  xorshift64 h64 28

/-! ### 64-bit, up to 16 bytes -/

/-- The `combined` word of `XXH3_len_1to3_64b/128b`, xxhash.h:4570-4574 and 6472-6476. -/
def combine1to3 (input : Buf) (len : Nat) : Option W32 := do
  let c1 ← read8 input 0
  let c2 ← read8 input (len >>> 1)
  let c3 ← read8 input (len - 1)
  return (c1.setWidth 32 <<< 16) ||| (c2.setWidth 32 <<< 24) ||| (c3.setWidth 32 <<< 0) |||
    (BitVec.ofNat 32 len <<< 8)

/-- `XXH3_len_1to3_64b`, xxhash.h:4559-4579. -/
def len_1to3_64b (cfg : Cfg) (input : Buf) (len : Nat) (secret : Buf) (seed : W64) : Option W64 := do
  assert (1 ≤ len && len ≤ 3)
  let combined ← combine1to3 input len
  let s0 ← readLE32 cfg secret 0
  let s1 ← readLE32 cfg secret 4
  let bitflip := (s0 ^^^ s1).setWidth 64 + seed
  let keyed := combined.setWidth 64 ^^^ bitflip
  return XXH64.avalanche keyed

/-- `XXH3_len_4to8_64b`, xxhash.h:4581-4595. -/
def len_4to8_64b (cfg : Cfg) (input : Buf) (len : Nat) (secret : Buf) (seed : W64) : Option W64 := do
  assert (4 ≤ len && len ≤ 8)
  let seed := seed ^^^ ((swap32 (seed.setWidth 32)).setWidth 64 <<< 32)
  let input1 ← readLE32 cfg input 0
  let input2 ← readLE32 cfg input (len - 4)
  let s0 ← readLE64 cfg secret 8
  let s1 ← readLE64 cfg secret 16
  let bitflip := (s0 ^^^ s1) - seed
  let input64 := input2.setWidth 64 + (input1.setWidth 64 <<< 32)
  let keyed := input64 ^^^ bitflip
  return rrmxmx keyed (BitVec.ofNat 64 len)

/-- `XXH3_len_9to16_64b`, xxhash.h:4597-4612. -/
def len_9to16_64b (cfg : Cfg) (input : Buf) (len : Nat) (secret : Buf) (seed : W64) : Option W64 := do
  assert (9 ≤ len && len ≤ 16)
  let s0 ← readLE64 cfg secret 24
  let s1 ← readLE64 cfg secret 32
  let s2 ← readLE64 cfg secret 40
  let s3 ← readLE64 cfg secret 48
  let bitflip1 := (s0 ^^^ s1) + seed
  let bitflip2 := (s2 ^^^ s3) - seed
  let i0 ← readLE64 cfg input 0
  let i1 ← readLE64 cfg input (len - 8)
  let input_lo := i0 ^^^ bitflip1
  let input_hi := i1 ^^^ bitflip2
  let acc := BitVec.ofNat 64 len + swap64 input_lo + input_hi + mul128_fold64 cfg input_lo input_hi
  return avalanche acc

/-- `XXH3_len_0to16_64b`, xxhash.h:4614-4623. -/
def len_0to16_64b (cfg : Cfg) (input : Buf) (len : Nat) (secret : Buf) (seed : W64) : Option W64 := do
  assert (len ≤ 16)
  if 8 < len then len_9to16_64b cfg input len secret seed
  else if 4 ≤ len then len_4to8_64b cfg input len secret seed
  else if len ≠ 0 then len_1to3_64b cfg input len secret seed
  else do
    let s0 ← readLE64 cfg secret 56
    let s1 ← readLE64 cfg secret 64
    return XXH64.avalanche (seed ^^^ (s0 ^^^ s1))

/-! ### 64-bit, 17 to 240 bytes -/

/-- `XXH3_mix16B`, xxhash.h:4651-4681. -/
def mix16B (cfg : Cfg) (input : Buf) (ioff : Nat) (secret : Buf) (soff : Nat) (seed : W64) :
    Option W64 := do
  let input_lo ← readLE64 cfg input ioff
  let input_hi ← readLE64 cfg input (ioff + 8)
  let s0 ← readLE64 cfg secret soff
  let s1 ← readLE64 cfg secret (soff + 8)
  return mul128_fold64 cfg (input_lo ^^^ (s0 + seed)) (input_hi ^^^ (s1 - seed))

/-- `do { ... } while (i-- != 0);` of xxhash.h:4697-4700 and 6637-6639: `body i`, ..., `body 0`. -/
def doDown {σ : Type} (body : σ → Nat → Option σ) : Nat → σ → Option σ
  | 0, s => body s 0
  | i+1, s => (body s (i+1)).bind fun s => doDown body i s

/-- One pair of `acc +=` lines, xxhash.h:4698-4699 (and 4705-4715 with constant `i`). -/
def mixPair (cfg : Cfg) (input : Buf) (len : Nat) (secret : Buf) (seed : W64) (acc : W64) (i : Nat) :
    Option W64 := do
  let acc := acc + (← mix16B cfg input (16 * i) secret (32 * i) seed)
  let acc := acc + (← mix16B cfg input (len - 16 * (i+1)) secret (32 * i + 16) seed)
  return acc

/-- The unrolled form, xxhash.h:4702-4715. -/
def len_17to128_unrolled (cfg : Cfg) (input : Buf) (len : Nat) (secret : Buf) (seed acc : W64) :
    Option W64 := do
  let acc ← if 96 < len then mixPair cfg input len secret seed acc 3 else pure acc
  let acc ← if 64 < len then mixPair cfg input len secret seed acc 2 else pure acc
  let acc ← if 32 < len then mixPair cfg input len secret seed acc 1 else pure acc
  mixPair cfg input len secret seed acc 0

/-- `XXH3_len_17to128_64b`, xxhash.h:4684-4718. -/
def len_17to128_64b (cfg : Cfg) (input : Buf) (len : Nat) (secret : Buf) (secretSize : Nat)
    (seed : W64) : Option W64 := do
  assert (SECRET_SIZE_MIN ≤ secretSize)
  assert (16 < len && len ≤ 128)
  let acc := BitVec.ofNat 64 len * PRIME64_1
  let acc ←
    if 1 ≤ cfg.sizeOpt then doDown (mixPair cfg input len secret seed) ((len - 1) / 32) acc
    else len_17to128_unrolled cfg input len secret seed acc
  return avalanche acc

/-- `XXH3_len_129to240_64b`, xxhash.h:4720-4776. -/
def len_129to240_64b (cfg : Cfg) (input : Buf) (len : Nat) (secret : Buf) (secretSize : Nat)
    (seed : W64) : Option W64 := do
  assert (SECRET_SIZE_MIN ≤ secretSize)
  assert (128 < len && len ≤ MIDSIZE_MAX)
  let acc := BitVec.ofNat 64 len * PRIME64_1
  let nbRounds := len / 16
  let acc ← forLoop (fun i => i < 8) 1 (fun acc i => do
    return acc + (← mix16B cfg input (16*i) secret (16*i) seed)) 9 0 acc
  let acc_end ← mix16B cfg input (len - 16) secret (SECRET_SIZE_MIN - MIDSIZE_LASTOFFSET) seed
  assert (8 ≤ nbRounds)
  let acc := avalanche acc
  let acc_end ← forLoop (fun i => i < nbRounds) 1 (fun acc_end i => do
    return acc_end + (← mix16B cfg input (16*i) secret (16*(i-8) + MIDSIZE_STARTOFFSET) seed))
    (nbRounds + 1) 8 acc_end
  return avalanche (acc + acc_end)

/-! ### 128-bit, up to 16 bytes -/

/-- `XXH3_len_1to3_128b`, xxhash.h:6459-6486. -/
def len_1to3_128b (cfg : Cfg) (input : Buf) (len : Nat) (secret : Buf) (seed : W64) :
    Option H128 := do
  assert (1 ≤ len && len ≤ 3)
  let combinedl ← combine1to3 input len
  let combinedh := rotl32 (swap32 combinedl) 13
  let s0 ← readLE32 cfg secret 0
  let s1 ← readLE32 cfg secret 4
  let s2 ← readLE32 cfg secret 8
  let s3 ← readLE32 cfg secret 12
  let bitflipl := (s0 ^^^ s1).setWidth 64 + seed
  let bitfliph := (s2 ^^^ s3).setWidth 64 - seed
  let keyed_lo := combinedl.setWidth 64 ^^^ bitflipl
  let keyed_hi := combinedh.setWidth 64 ^^^ bitfliph
  return { low64 := XXH64.avalanche keyed_lo, high64 := XXH64.avalanche keyed_hi }

/-- `XXH3_len_4to8_128b`, xxhash.h:6488-6513. -/
def len_4to8_128b (cfg : Cfg) (input : Buf) (len : Nat) (secret : Buf) (seed : W64) :
    Option H128 := do
  assert (4 ≤ len && len ≤ 8)
  let seed := seed ^^^ ((swap32 (seed.setWidth 32)).setWidth 64 <<< 32)
  let input_lo ← readLE32 cfg input 0
  let input_hi ← readLE32 cfg input (len - 4)
  let input_64 := input_lo.setWidth 64 + (input_hi.setWidth 64 <<< 32)
  let s0 ← readLE64 cfg secret 16
  let s1 ← readLE64 cfg secret 24
  let bitflip := (s0 ^^^ s1) + seed
  let keyed := input_64 ^^^ bitflip
  let m128 := mult64to128 cfg keyed (PRIME64_1 + (BitVec.ofNat 64 len <<< 2))
  let high := m128.high64 + (m128.low64 <<< 1)
  let low := m128.low64 ^^^ (high >>> 3)
  let low := xorshift64 low 35
  let low := low * PRIME_MX2
  let low := xorshift64 low 28
  let high := avalanche high
  return { low64 := low, high64 := high }

/-- `XXH3_len_9to16_128b`, xxhash.h:6515-6585. -/
def len_9to16_128b (cfg : Cfg) (input : Buf) (len : Nat) (secret : Buf) (seed : W64) :
    Option H128 := do
  assert (9 ≤ len && len ≤ 16)
  let s0 ← readLE64 cfg secret 32
  let s1 ← readLE64 cfg secret 40
  let s2 ← readLE64 cfg secret 48
  let s3 ← readLE64 cfg secret 56
  let bitflipl := (s0 ^^^ s1) - seed
  let bitfliph := (s2 ^^^ s3) + seed
  let input_lo ← readLE64 cfg input 0
  let input_hi ← readLE64 cfg input (len - 8)
  let m128 := mult64to128 cfg (input_lo ^^^ input_hi ^^^ bitflipl) PRIME64_1
  let low := m128.low64 + (BitVec.ofNat 64 (len - 1) <<< 54)
  let input_hi := input_hi ^^^ bitfliph
  let high :=
    if cfg.ptr32 then
      m128.high64 + ((input_hi &&& 0xFFFFFFFF00000000#64) + mult32to64 input_hi PRIME32_2)
    else m128.high64 + (input_hi + mult32to64 input_hi (PRIME32_2 - 1))
  let low := low ^^^ swap64 high
  let h128 := mult64to128 cfg low PRIME64_2
  let hi := h128.high64 + high * PRIME64_2
  return { low64 := avalanche h128.low64, high64 := avalanche hi }

/-- `XXH3_len_0to16_128b`, xxhash.h:6590-6604. -/
def len_0to16_128b (cfg : Cfg) (input : Buf) (len : Nat) (secret : Buf) (seed : W64) :
    Option H128 := do
  assert (len ≤ 16)
  if 8 < len then len_9to16_128b cfg input len secret seed
  else if 4 ≤ len then len_4to8_128b cfg input len secret seed
  else if len ≠ 0 then len_1to3_128b cfg input len secret seed
  else do
    let s0 ← readLE64 cfg secret 64
    let s1 ← readLE64 cfg secret 72
    let s2 ← readLE64 cfg secret 80
    let s3 ← readLE64 cfg secret 88
    let bitflipl := s0 ^^^ s1
    let bitfliph := s2 ^^^ s3
    return { low64 := XXH64.avalanche (seed ^^^ bitflipl), high64 := XXH64.avalanche (seed ^^^ bitfliph) }

/-! ### 128-bit, 17 to 240 bytes -/

/-- `XXH128_mix32B`, xxhash.h:6609-6618. -/
def mix32B (cfg : Cfg) (input : Buf) (secret : Buf) (acc : H128) (in1 in2 soff : Nat) (seed : W64) :
    Option H128 := do
  let low := acc.low64 + (← mix16B cfg input in1 secret soff seed)
  let a ← readLE64 cfg input in2
  let b ← readLE64 cfg input (in2 + 8)
  let low := low ^^^ (a + b)
  let high := acc.high64 + (← mix16B cfg input in2 secret (soff + 16) seed)
  let a ← readLE64 cfg input in1
  let b ← readLE64 cfg input (in1 + 8)
  let high := high ^^^ (a + b)
  return { low64 := low, high64 := high }

/-- The common end of the mid-size paths, xxhash.h:6653-6661 and 6711-6719. -/
def mid128_end (acc : H128) (len : Nat) (seed : W64) : H128 :=
  let low := acc.low64 + acc.high64
  let high := (acc.low64 * PRIME64_1) + (acc.high64 * PRIME64_4)
    + ((BitVec.ofNat 64 len - seed) * PRIME64_2)
  { low64 := avalanche low, high64 := 0 - avalanche high }

/-- One `XXH128_mix32B` of `XXH3_len_17to128_128b`, xxhash.h:6638 (and 6644-6651 with constant `i`). -/
def mixPair128 (cfg : Cfg) (input : Buf) (len : Nat) (secret : Buf) (seed : W64) (acc : H128)
    (i : Nat) : Option H128 :=
  mix32B cfg input secret acc (16 * i) (len - 16 * (i+1)) (32 * i) seed

/-- The unrolled form, xxhash.h:6642-6651. -/
def len_17to128_128b_unrolled (cfg : Cfg) (input : Buf) (len : Nat) (secret : Buf) (seed : W64)
    (acc : H128) : Option H128 := do
  let acc ← if 96 < len then mixPair128 cfg input len secret seed acc 3 else pure acc
  let acc ← if 64 < len then mixPair128 cfg input len secret seed acc 2 else pure acc
  let acc ← if 32 < len then mixPair128 cfg input len secret seed acc 1 else pure acc
  mixPair128 cfg input len secret seed acc 0

/-- `XXH3_len_17to128_128b`, xxhash.h:6621-6663. -/
def len_17to128_128b (cfg : Cfg) (input : Buf) (len : Nat) (secret : Buf) (secretSize : Nat)
    (seed : W64) : Option H128 := do
  assert (SECRET_SIZE_MIN ≤ secretSize)
  assert (16 < len && len ≤ 128)
  let acc : H128 := { low64 := BitVec.ofNat 64 len * PRIME64_1, high64 := 0 }
  let acc ←
    if 1 ≤ cfg.sizeOpt then doDown (mixPair128 cfg input len secret seed) ((len - 1) / 32) acc
    else len_17to128_128b_unrolled cfg input len secret seed acc
  return mid128_end acc len seed

/-- `XXH3_len_129to240_128b`, xxhash.h:6665-6721. -/
def len_129to240_128b (cfg : Cfg) (input : Buf) (len : Nat) (secret : Buf) (secretSize : Nat)
    (seed : W64) : Option H128 := do
  assert (SECRET_SIZE_MIN ≤ secretSize)
  assert (128 < len && len ≤ MIDSIZE_MAX)
  let acc : H128 := { low64 := BitVec.ofNat 64 len * PRIME64_1, high64 := 0 }
  let acc ← forLoop (fun i => i < 160) 32 (fun acc i =>
    mix32B cfg input secret acc (i - 32) (i - 16) (i - 32) seed) 160 32 acc
  let acc : H128 := { low64 := avalanche acc.low64, high64 := avalanche acc.high64 }
  let acc ← forLoop (fun i => i ≤ len) 32 (fun acc i =>
    mix32B cfg input secret acc (i - 32) (i - 16) (MIDSIZE_STARTOFFSET + i - 160) seed)
    (len + 1) 160 acc
  let acc ← mix32B cfg input secret acc (len - 16) (len - 32)
    (SECRET_SIZE_MIN - MIDSIZE_LASTOFFSET - 16) (0 - seed)
  return mid128_end acc len seed

end XXH.Model.XXH3
