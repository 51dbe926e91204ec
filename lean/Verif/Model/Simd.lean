import Verif.Model.XXH3Short
/-!
The vector instructions used by the SIMD paths of xxhash.h, as their vendors document them.

A 128-bit register is a pair of 64-bit lanes; wider x86 registers are sequences of 128-bit units (every
instruction used works inside 128-bit units).  The accumulator array `acc[8]` is the vector of its
eight 64-bit values; loading a register from it gives the lanes in array order.
-/
namespace XXH.Model.Simd

/-- A 128-bit register; lane 0 first. -/
structure V128 where
  e0 : W64
  e1 : W64
deriving DecidableEq

/-- low 32 bits -/
def lo32 (x : W64) : W32 := x.setWidth 32
/-- high 32 bits -/
def hi32 (x : W64) : W32 := (x >>> 32).setWidth 32
/-- 64-bit lane from two 32-bit halves -/
def join (hi lo : W32) : W64 := hi ++ lo

/-- The four 32-bit elements, element 0 first. -/
def V128.dword (v : V128) : Nat → W32
  | 0 => lo32 v.e0
  | 1 => hi32 v.e0
  | 2 => lo32 v.e1
  | _ => hi32 v.e1

/-- Apply an operation on 64-bit lanes. -/
def V128.map (f : W64 → W64) (v : V128) : V128 := ⟨f v.e0, f v.e1⟩
def V128.zip (f : W64 → W64 → W64) (v w : V128) : V128 := ⟨f v.e0 w.e0, f v.e1 w.e1⟩

/-- `_MM_SHUFFLE(z,y,x,w)` -/
def MM_SHUFFLE (z y x w : Nat) : Nat := z * 64 + y * 16 + x * 4 + w

/-- `_mm_shuffle_epi32(v, imm)`: element `i` of the result is element `imm[2i+1:2i]` of `v`. -/
def shuffle_epi32 (v : V128) (imm : Nat) : V128 :=
  ⟨join (v.dword (imm / 4 % 4)) (v.dword (imm % 4)),
   join (v.dword (imm / 64 % 4)) (v.dword (imm / 16 % 4))⟩

/-- `_mm_xor_si128` -/
def xor (v w : V128) : V128 := v.zip (· ^^^ ·) w
/-- `_mm_add_epi64`, `vaddq_u64`, VSX `+` -/
def add_epi64 (v w : V128) : V128 := v.zip (· + ·) w
/-- `_mm_srli_epi64`, `vshrq_n_u64` -/
def srli_epi64 (v : V128) (n : Nat) : V128 := v.map (· >>> n)
/-- `_mm_slli_epi64` -/
def slli_epi64 (v : V128) (n : Nat) : V128 := v.map (· <<< n)
/-- `_mm_mul_epu32`: product of the low 32 bits of each 64-bit lane. -/
def mul_epu32 (v w : V128) : V128 :=
  v.zip (fun a b => (lo32 a).setWidth 64 * (lo32 b).setWidth 64) w
/-- `_mm_set1_epi32` -/
def set1_epi32 (x : W32) : V128 := ⟨join x x, join x x⟩
/-- `_mm512_ternarylogic_epi32(a, b, c, 0x96)`: the truth table `0x96` is three-way exclusive or. -/
def ternarylogic_0x96 (a b c : V128) : V128 := xor (xor a b) c

/-- 16 bytes as two lanes in the byte order of the CPU. -/
def ofBytes (cfg : Cfg) (bs : List Byte) : V128 :=
  ⟨native cfg 64 (bs.take 8), native cfg 64 (bs.drop 8)⟩

/-- `_mm_loadu_si128`, `vld1q_u8`, 16 bytes from any address. -/
def loadu (cfg : Cfg) (b : Buf) (off : Nat) : Option V128 := do
  return ofBytes cfg (← readBytes b off 16)

/-- `_mm_load_si128`: the address must be a multiple of `align`. -/
def loada (cfg : Cfg) (align : Nat) (b : Buf) (off : Nat) : Option V128 := do
  assert ((b.addr + off) % align == 0)
  loadu cfg b off

/-- The bytes of a register when stored. -/
def V128.bytes (cfg : Cfg) (v : V128) : List Byte := nativeBytes cfg 8 v.e0 ++ nativeBytes cfg 8 v.e1

/-- `xacc[i]` for a 128-bit `xacc`. -/
def getPair (acc : Acc) (i : Fin 4) : V128 := ⟨acc[2 * i.val], acc[2 * i.val + 1]⟩
/-- `xacc[i] = v` for a 128-bit `xacc`. -/
def setPair (acc : Acc) (i : Fin 4) (v : V128) : Acc :=
  (acc.set (2 * i.val) v.e0).set (2 * i.val + 1) v.e1

/-- A function on accumulators over a stripe: accumulator address and values, input, secret. -/
abbrev Accumulate512 := Nat → Acc → Buf → Nat → Buf → Nat → Option Acc
/-- A scramble function: accumulator address and values, secret. -/
abbrev Scramble := Nat → Acc → Buf → Nat → Option Acc

/-! ### scalar -/

/-- `XXH3_scalarRound`, xxhash.h:5631-5648; `XXH_mult32to64_add64`, 5608-5622. -/
def scalarRound (cfg : Cfg) (accAddr : Nat) (input : Buf) (inOff : Nat) (secret : Buf)
    (secOff : Nat) (xacc : Acc) (lane : Fin 8) : Option Acc := do
  assert (accAddr % cfg.accAlign == 0)
  let data_val ← readLE64 cfg input (inOff + lane.val * 8)
  let k ← readLE64 cfg secret (secOff + lane.val * 8)
  let data_key := data_val ^^^ k
  let j : Fin 8 := lane ^^^ 1
  let xacc := xacc.set j (xacc[j] + data_val)
  return xacc.set lane (XXH3.mult32to64 data_key (data_key >>> 32) + xacc[lane])

/-- `XXH3_accumulate_512_scalar`, xxhash.h:5654-5670. -/
def accumulate_512_scalar (cfg : Cfg) : Accumulate512 := fun accAddr acc input inOff secret secOff =>
  (List.finRange 8).foldlM (fun acc i => scalarRound cfg accAddr input inOff secret secOff acc i) acc

/-- `XXH3_scalarScrambleRound`, xxhash.h:5680-5696. -/
def scalarScrambleRound (cfg : Cfg) (accAddr : Nat) (secret : Buf) (secOff : Nat) (xacc : Acc)
    (lane : Fin 8) : Option Acc := do
  assert (accAddr % cfg.accAlign == 0)
  let key64 ← readLE64 cfg secret (secOff + lane.val * 8)
  let acc64 := xacc[lane]
  let acc64 := XXH3.xorshift64 acc64 47
  let acc64 := acc64 ^^^ key64
  let acc64 := acc64 * XXH3.PRIME32_1
  return xacc.set lane acc64

/-- `XXH3_scrambleAcc_scalar`, xxhash.h:5702-5709. -/
def scrambleAcc_scalar (cfg : Cfg) : Scramble := fun accAddr acc secret secOff =>
  (List.finRange 8).foldlM (fun acc i => scalarScrambleRound cfg accAddr secret secOff acc i) acc

/-! ### SSE2, AVX2, AVX-512 -/

/-- Loop body of `XXH3_accumulate_512_sse2`, xxhash.h:5107-5124. -/
def accBody_sse2 (acc_i data_vec key_vec : V128) : V128 :=
  let data_key := xor data_vec key_vec
  let data_key_lo := shuffle_epi32 data_key (MM_SHUFFLE 0 3 0 1)
  let product := mul_epu32 data_key data_key_lo
  let data_swap := shuffle_epi32 data_vec (MM_SHUFFLE 1 0 3 2)
  let sum := add_epi64 acc_i data_swap
  add_epi64 product sum

/-- `XXH3_accumulate_512_sse2`, xxhash.h:5091-5124. -/
def accumulate_512_sse2 (cfg : Cfg) : Accumulate512 := fun accAddr acc input inOff secret secOff => do
  assert (accAddr % 16 == 0)
  (List.finRange 4).foldlM (fun acc i => do
    let data_vec ← loadu cfg input (inOff + 16 * i.val)
    let key_vec ← loadu cfg secret (secOff + 16 * i.val)
    return setPair acc i (accBody_sse2 (getPair acc i) data_vec key_vec)) acc

/-- Loop body of `XXH3_scrambleAcc_sse2`, xxhash.h:5140-5153. -/
def scrBody_sse2 (acc_vec key_vec : V128) : V128 :=
  let prime32 := set1_epi32 0x9E3779B1#32
  let shifted := srli_epi64 acc_vec 47
  let data_vec := xor acc_vec shifted
  let data_key := xor data_vec key_vec
  let data_key_hi := shuffle_epi32 data_key (MM_SHUFFLE 0 3 0 1)
  let prod_lo := mul_epu32 data_key prime32
  let prod_hi := mul_epu32 data_key_hi prime32
  add_epi64 prod_lo (slli_epi64 prod_hi 32)

/-- `XXH3_scrambleAcc_sse2`, xxhash.h:5127-5156. -/
def scrambleAcc_sse2 (cfg : Cfg) : Scramble := fun accAddr acc secret secOff => do
  assert (accAddr % 16 == 0)
  (List.finRange 4).foldlM (fun acc i => do
    let key_vec ← loadu cfg secret (secOff + 16 * i.val)
    return setPair acc i (scrBody_sse2 (getPair acc i) key_vec)) acc

/-- Loop body of `XXH3_accumulate_512_avx2` (xxhash.h:5002-5020) and body of
`XXH3_accumulate_512_avx512` (4892-4907), on one 128-bit unit of the register. -/
def accBody_avx (acc_i data_vec key_vec : V128) : V128 :=
  let data_key := xor data_vec key_vec
  let data_key_lo := srli_epi64 data_key 32
  let product := mul_epu32 data_key data_key_lo
  let data_swap := shuffle_epi32 data_vec (MM_SHUFFLE 1 0 3 2)
  let sum := add_epi64 acc_i data_swap
  add_epi64 product sum

/-- Loop body of `XXH3_scrambleAcc_avx2`, xxhash.h:5034-5047, on one 128-bit unit. -/
def scrBody_avx2 (acc_vec key_vec : V128) : V128 :=
  let prime32 := set1_epi32 0x9E3779B1#32
  let shifted := srli_epi64 acc_vec 47
  let data_vec := xor acc_vec shifted
  let data_key := xor data_vec key_vec
  let data_key_hi := srli_epi64 data_key 32
  let prod_lo := mul_epu32 data_key prime32
  let prod_hi := mul_epu32 data_key_hi prime32
  add_epi64 prod_lo (slli_epi64 prod_hi 32)

/-- Body of `XXH3_scrambleAcc_avx512`, xxhash.h:4936-4951, on one 128-bit unit. -/
def scrBody_avx512 (acc_vec key_vec : V128) : V128 :=
  let prime32 := set1_epi32 0x9E3779B1#32
  let shifted := srli_epi64 acc_vec 47
  let data_key := ternarylogic_0x96 key_vec acc_vec shifted
  let data_key_hi := srli_epi64 data_key 32
  let prod_lo := mul_epu32 data_key prime32
  let prod_hi := mul_epu32 data_key_hi prime32
  add_epi64 prod_lo (slli_epi64 prod_hi 32)

/-- A 256-bit register: two 128-bit units. -/
structure V256 where
  u0 : V128
  u1 : V128

/-- `_mm256_loadu_si256` -/
def loadu256 (cfg : Cfg) (b : Buf) (off : Nat) : Option V256 := do
  let u0 ← loadu cfg b off
  let u1 ← loadu cfg b (off + 16)
  return ⟨u0, u1⟩

/-- `XXH3_accumulate_512_avx2`, xxhash.h:4986-5021. -/
def accumulate_512_avx2 (cfg : Cfg) : Accumulate512 := fun accAddr acc input inOff secret secOff => do
  assert (accAddr % 32 == 0)
  (List.finRange 2).foldlM (fun acc i => do
    let data_vec ← loadu256 cfg input (inOff + 32 * i.val)
    let key_vec ← loadu256 cfg secret (secOff + 32 * i.val)
    let i0 : Fin 4 := ⟨2 * i.val, by omega⟩
    let i1 : Fin 4 := ⟨2 * i.val + 1, by omega⟩
    let r0 := accBody_avx (getPair acc i0) data_vec.u0 key_vec.u0
    let r1 := accBody_avx (getPair acc i1) data_vec.u1 key_vec.u1
    return setPair (setPair acc i0 r0) i1 r1) acc

/-- `XXH3_scrambleAcc_avx2`, xxhash.h:5024-5050. -/
def scrambleAcc_avx2 (cfg : Cfg) : Scramble := fun accAddr acc secret secOff => do
  assert (accAddr % 32 == 0)
  (List.finRange 2).foldlM (fun acc i => do
    let key_vec ← loadu256 cfg secret (secOff + 32 * i.val)
    let i0 : Fin 4 := ⟨2 * i.val, by omega⟩
    let i1 : Fin 4 := ⟨2 * i.val + 1, by omega⟩
    let r0 := scrBody_avx2 (getPair acc i0) key_vec.u0
    let r1 := scrBody_avx2 (getPair acc i1) key_vec.u1
    return setPair (setPair acc i0 r0) i1 r1) acc

/-- A 512-bit register: four 128-bit units. -/
structure V512 where
  u0 : V128
  u1 : V128
  u2 : V128
  u3 : V128

/-- `_mm512_loadu_si512` -/
def loadu512 (cfg : Cfg) (b : Buf) (off : Nat) : Option V512 := do
  let u0 ← loadu cfg b off
  let u1 ← loadu cfg b (off + 16)
  let u2 ← loadu cfg b (off + 32)
  let u3 ← loadu cfg b (off + 48)
  return ⟨u0, u1, u2, u3⟩

/-- `XXH3_accumulate_512_avx512`, xxhash.h:4882-4908. -/
def accumulate_512_avx512 (cfg : Cfg) : Accumulate512 := fun accAddr acc input inOff secret secOff => do
  assert (accAddr % 64 == 0)
  let data_vec ← loadu512 cfg input inOff
  let key_vec ← loadu512 cfg secret secOff
  let r0 := accBody_avx (getPair acc 0) data_vec.u0 key_vec.u0
  let r1 := accBody_avx (getPair acc 1) data_vec.u1 key_vec.u1
  let r2 := accBody_avx (getPair acc 2) data_vec.u2 key_vec.u2
  let r3 := accBody_avx (getPair acc 3) data_vec.u3 key_vec.u3
  return setPair (setPair (setPair (setPair acc 0 r0) 1 r1) 2 r2) 3 r3

/-- `XXH3_scrambleAcc_avx512`, xxhash.h:4930-4952. -/
def scrambleAcc_avx512 (cfg : Cfg) : Scramble := fun accAddr acc secret secOff => do
  assert (accAddr % 64 == 0)
  let key_vec ← loadu512 cfg secret secOff
  let r0 := scrBody_avx512 (getPair acc 0) key_vec.u0
  let r1 := scrBody_avx512 (getPair acc 1) key_vec.u1
  let r2 := scrBody_avx512 (getPair acc 2) key_vec.u2
  let r3 := scrBody_avx512 (getPair acc 3) key_vec.u3
  return setPair (setPair (setPair (setPair acc 0 r0) 1 r1) 2 r2) 3 r3

/-! ### NEON -/

/-- `vextq_u64(a, b, 1)` -/
def vextq_u64_1 (a b : V128) : V128 := ⟨a.e1, b.e0⟩

/-- A `uint32x4_t`. -/
structure U32x4 where
  d0 : W32
  d1 : W32
  d2 : W32
  d3 : W32
/-- A `uint32x2_t`. -/
structure U32x2 where
  d0 : W32
  d1 : W32

/-- `vreinterpretq_u32_u64` (little-endian: element 0 is the low half of lane 0) -/
def vreinterpretq_u32_u64 (v : V128) : U32x4 := ⟨lo32 v.e0, hi32 v.e0, lo32 v.e1, hi32 v.e1⟩
/-- `vreinterpretq_u64_u32` -/
def vreinterpretq_u64_u32 (v : U32x4) : V128 := ⟨join v.d1 v.d0, join v.d3 v.d2⟩
/-- `vuzpq_u32`: even elements of the concatenation, then odd elements. -/
def vuzpq_u32 (a b : U32x4) : U32x4 × U32x4 := (⟨a.d0, a.d2, b.d0, b.d2⟩, ⟨a.d1, a.d3, b.d1, b.d3⟩)
/-- `vget_low_u32`, `vget_high_u32` -/
def vget_low_u32 (a : U32x4) : U32x2 := ⟨a.d0, a.d1⟩
def vget_high_u32 (a : U32x4) : U32x2 := ⟨a.d2, a.d3⟩
/-- `vmlal_u32`: widening multiply-accumulate. -/
def vmlal_u32 (acc : V128) (a b : U32x2) : V128 :=
  ⟨acc.e0 + a.d0.setWidth 64 * b.d0.setWidth 64, acc.e1 + a.d1.setWidth 64 * b.d1.setWidth 64⟩
/-- `vmovn_u64` -/
def vmovn_u64 (v : V128) : U32x2 := ⟨lo32 v.e0, lo32 v.e1⟩
/-- `vshrn_n_u64` -/
def vshrn_n_u64 (v : V128) (n : Nat) : U32x2 := ⟨(v.e0 >>> n).setWidth 32, (v.e1 >>> n).setWidth 32⟩
/-- `vmulq_u32` -/
def vmulq_u32 (a b : U32x4) : U32x4 := ⟨a.d0 * b.d0, a.d1 * b.d1, a.d2 * b.d2, a.d3 * b.d3⟩

/-- `XXH_vmlal_low_u32`, `XXH_vmlal_high_u32`, xxhash.h:4043-4070 (the inline assembly `umlal` is the
same instruction). -/
def vmlal_low_u32 (acc : V128) (l r : U32x4) : V128 := vmlal_u32 acc (vget_low_u32 l) (vget_low_u32 r)
def vmlal_high_u32 (acc : V128) (l r : U32x4) : V128 :=
  vmlal_u32 acc (vget_high_u32 l) (vget_high_u32 r)

/-- The four-lane loop body, xxhash.h:5262-5315. -/
def accBody4_neon (a1 a2 data_vec_1 data_vec_2 key_vec_1 key_vec_2 : V128) : V128 × V128 :=
  let data_swap_1 := vextq_u64_1 data_vec_1 data_vec_1
  let data_swap_2 := vextq_u64_1 data_vec_2 data_vec_2
  let data_key_1 := xor data_vec_1 key_vec_1
  let data_key_2 := xor data_vec_2 key_vec_2
  let unzipped := vuzpq_u32 (vreinterpretq_u32_u64 data_key_1) (vreinterpretq_u32_u64 data_key_2)
  let data_key_lo := unzipped.1
  let data_key_hi := unzipped.2
  let sum_1 := vmlal_low_u32 data_swap_1 data_key_lo data_key_hi
  let sum_2 := vmlal_high_u32 data_swap_2 data_key_lo data_key_hi
  (add_epi64 a1 sum_1, add_epi64 a2 sum_2)

/-- The two-lane loop body, xxhash.h:5318-5337. -/
def accBody2_neon (a data_vec key_vec : V128) : V128 :=
  let data_swap := vextq_u64_1 data_vec data_vec
  let data_key := xor data_vec key_vec
  let data_key_lo := vmovn_u64 data_key
  let data_key_hi := vshrn_n_u64 data_key 32
  let sum := vmlal_u32 data_swap data_key_lo data_key_hi
  add_epi64 a sum

/-- The loop `for (; i+1 < XXH3_NEON_LANES / 2; i+=2)`, xxhash.h:5261-5316; returns also `i`. -/
def accLoop4_neon (cfg : Cfg) (input : Buf) (inOff : Nat) (secret : Buf) (secOff : Nat) :
    Nat → Acc × Nat → Option (Acc × Nat)
  | 0, _ => none
  | fuel+1, (acc, i) =>
    if h : i + 1 < cfg.neonLanes / 2 ∧ i + 1 < 4 then do
      let d1 ← loadu cfg input (inOff + i * 16)
      let d2 ← loadu cfg input (inOff + (i+1) * 16)
      let k1 ← loadu cfg secret (secOff + i * 16)
      let k2 ← loadu cfg secret (secOff + (i+1) * 16)
      let i0 : Fin 4 := ⟨i, by omega⟩
      let i1 : Fin 4 := ⟨i + 1, by omega⟩
      let r := accBody4_neon (getPair acc i0) (getPair acc i1) d1 d2 k1 k2
      accLoop4_neon cfg input inOff secret secOff fuel (setPair (setPair acc i0 r.1) i1 r.2, i + 2)
    else some (acc, i)

/-- The loop `for (; i < XXH3_NEON_LANES / 2; i++)`, xxhash.h:5317-5338. -/
def accLoop2_neon (cfg : Cfg) (input : Buf) (inOff : Nat) (secret : Buf) (secOff : Nat) :
    Nat → Acc × Nat → Option (Acc × Nat)
  | 0, _ => none
  | fuel+1, (acc, i) =>
    if h : i < cfg.neonLanes / 2 ∧ i < 4 then do
      let d ← loadu cfg input (inOff + i * 16)
      let k ← loadu cfg secret (secOff + i * 16)
      let i0 : Fin 4 := ⟨i, by omega⟩
      let r := accBody2_neon (getPair acc i0) d k
      accLoop2_neon cfg input inOff secret secOff fuel (setPair acc i0 r, i + 1)
    else some (acc, i)

/-- The scalar lanes `for (i = XXH3_NEON_LANES; i < XXH_ACC_NB; i++)`, xxhash.h:5256-5258, 5361-5363. -/
def scalarLanes (cfg : Cfg) : List (Fin 8) :=
  (List.finRange 8).filter fun i => cfg.neonLanes ≤ i.val

/-- `XXH3_accumulate_512_neon`, xxhash.h:5226-5340. The conditions `i < 4` of the loops above only
serve to make the array index typed; they hold whenever the static assertion (5232, asserted here)
does. -/
def accumulate_512_neon (cfg : Cfg) : Accumulate512 := fun accAddr acc input inOff secret secOff => do
  assert (accAddr % 16 == 0)
  assert (0 < cfg.neonLanes && cfg.neonLanes ≤ 8 && cfg.neonLanes % 2 == 0)
  let acc ← (scalarLanes cfg).foldlM
    (fun acc i => scalarRound cfg accAddr input inOff secret secOff acc i) acc
  let (acc, i) ← accLoop4_neon cfg input inOff secret secOff 5 (acc, 0)
  let (acc, _) ← accLoop2_neon cfg input inOff secret secOff 5 (acc, i)
  return acc

/-- Loop body of `XXH3_scrambleAcc_neon`, xxhash.h:5364-5395. -/
def scrBody_neon (cfg : Cfg) (acc_vec key_vec : V128) : V128 :=
  let kPrimeLo : U32x2 := ⟨0x9E3779B1#32, 0x9E3779B1#32⟩
  let k : W64 := 0x9E3779B1#64 <<< 32
  let kPrimeHi := vreinterpretq_u32_u64 ⟨k, k⟩
  let shifted := srli_epi64 acc_vec 47
  let data_vec := xor acc_vec shifted
  let data_key := xor data_vec key_vec
  if cfg.neonWasm then data_key.map (· * XXH3.PRIME32_1)
  else
    let prod_hi := vmulq_u32 (vreinterpretq_u32_u64 data_key) kPrimeHi
    let data_key_lo := vmovn_u64 data_key
    vmlal_u32 (vreinterpretq_u64_u32 prod_hi) data_key_lo kPrimeLo

/-- The vector units `for (i=0; i < XXH3_NEON_LANES / 2; i++)`, xxhash.h:5364. -/
def neonUnits (cfg : Cfg) : List (Fin 4) := (List.finRange 4).filter fun i => i.val < cfg.neonLanes / 2

/-- `XXH3_scrambleAcc_neon`, xxhash.h:5343-5397. -/
def scrambleAcc_neon (cfg : Cfg) : Scramble := fun accAddr acc secret secOff => do
  assert (accAddr % 16 == 0)
  let acc ← (scalarLanes cfg).foldlM
    (fun acc i => scalarScrambleRound cfg accAddr secret secOff acc i) acc
  (neonUnits cfg).foldlM (fun acc i => do
    let key_vec ← loadu cfg secret (secOff + i.val * 16)
    return setPair acc i (scrBody_neon cfg (getPair acc i) key_vec)) acc

/-! ### VSX -/

/-- `vec_perm(val, val, vByteSwap)` / `vec_revb`, xxhash.h:4175-4183, on the bytes in memory order. -/
def vec_revb (bs : List Byte) : List Byte :=
  [0x07, 0x06, 0x05, 0x04, 0x03, 0x02, 0x01, 0x00, 0x0F, 0x0E, 0x0D, 0x0C, 0x0B, 0x0A, 0x09, 0x08].map
    fun i => bs.getD i 0

/-- `XXH_vec_loadu`, xxhash.h:4190-4198; `XXH_VSX_BE` is the byte order of the target. -/
def vec_loadu (cfg : Cfg) (b : Buf) (off : Nat) : Option V128 := do
  let bs ← readBytes b off 16
  let bs := if cfg.littleEndian then bs else vec_revb bs
  return ofBytes cfg bs

/-- `vmulouw`, xxhash.h:4211-4233: the odd words in the big-endian numbering of the instruction, that
is the low halves of the 64-bit lanes. -/
def vec_mulo (a b : V128) : V128 :=
  a.zip (fun x y => (lo32 x).setWidth 64 * (lo32 y).setWidth 64) b
/-- `vmuleuw`: the even words, that is the high halves. -/
def vec_mule (a b : V128) : V128 :=
  a.zip (fun x y => (hi32 x).setWidth 64 * (hi32 y).setWidth 64) b
/-- `vec_rl(x, {n, n})` -/
def vec_rl (a : V128) (n : Nat) : V128 := a.map (rotl64 · n)
/-- `vec_xxpermdi(a, a, 2)`, `vec_permi(a, a, 2)`: swap the lanes. -/
def vec_swap (a : V128) : V128 := ⟨a.e1, a.e0⟩

/-- Loop body of `XXH3_accumulate_512_vsx`, xxhash.h:5424-5443. -/
def accBody_vsx (acc_vec data_vec key_vec : V128) : V128 :=
  let data_key := xor data_vec key_vec
  let shuffled := vec_rl data_key 32
  let product := vec_mulo data_key shuffled
  let acc_vec := add_epi64 acc_vec product
  add_epi64 acc_vec (vec_swap data_vec)

/-- `XXH3_accumulate_512_vsx`, xxhash.h:5413-5445 ("presumed aligned": 16 for the vector type). -/
def accumulate_512_vsx (cfg : Cfg) : Accumulate512 := fun accAddr acc input inOff secret secOff => do
  assert (accAddr % 16 == 0)
  (List.finRange 4).foldlM (fun acc i => do
    let data_vec ← vec_loadu cfg input (inOff + 16 * i.val)
    let key_vec ← vec_loadu cfg secret (secOff + 16 * i.val)
    return setPair acc i (accBody_vsx (getPair acc i) data_vec key_vec)) acc

/-- Loop body of `XXH3_scrambleAcc_vsx`, xxhash.h:5460-5474. -/
def scrBody_vsx (acc_vec key_vec : V128) : V128 :=
  let prime := set1_epi32 0x9E3779B1#32
  let data_vec := xor acc_vec (srli_epi64 acc_vec 47)
  let data_key := xor data_vec key_vec
  let prod_even := vec_mule data_key prime
  let prod_odd := vec_mulo data_key prime
  add_epi64 prod_odd (slli_epi64 prod_even 32)

/-- `XXH3_scrambleAcc_vsx`, xxhash.h:5448-5475. -/
def scrambleAcc_vsx (cfg : Cfg) : Scramble := fun accAddr acc secret secOff => do
  assert (accAddr % 16 == 0)
  (List.finRange 4).foldlM (fun acc i => do
    let key_vec ← vec_loadu cfg secret (secOff + 16 * i.val)
    return setPair acc i (scrBody_vsx (getPair acc i) key_vec)) acc

/-! ### SVE -/

/-- An SVE register seen through a mask of `n` active 64-bit lanes; inactive lanes are 0 and never
stored. -/
abbrev SV := List W64

/-- `svld1_u64(mask, xptr + idx)`: `n` lanes from memory in the byte order of the CPU. -/
def svld1 (cfg : Cfg) (n : Nat) (b : Buf) (off : Nat) : Option SV := do
  let bs ← readBytes b off (8 * n)
  return (List.range n).map fun i => native cfg 64 ((bs.drop (8*i)).take 8)

/-- `svtbl_u64(v, kSwap)` with `kSwap = svindex(0,1) ^ 1` (xxhash.h:5492): lane `i` of the result is
lane `i ^ 1`, 0 if there is no such lane. -/
def svswap (v : SV) : SV := (List.range v.length).map fun i => v.getD (i ^^^ 1) 0

/-- `ACCRND`, xxhash.h:4242-4252. -/
def ACCRND (acc input_vec secret_vec : SV) : SV :=
  let mixed := List.zipWith (· ^^^ ·) secret_vec input_vec
  let swapped := svswap input_vec
  let mixed_lo := mixed.map fun x => (x.setWidth 32).setWidth 64
  let mixed_hi := mixed.map fun x : W64 => x >>> 32
  let mul := List.zipWith (· + ·) (List.zipWith (· * ·) mixed_lo mixed_hi) swapped
  List.zipWith (· + ·) acc mul

/-- Lanes per register group: `SV_VL8`, `SV_VL2` or `SV_VL4`, xxhash.h:5494-5526. -/
def sveLanes (cfg : Cfg) : Nat :=
  if 8 ≤ cfg.sveElems then 8 else if cfg.sveElems = 2 then 2 else 4

/-- One group: `ACCRND(acc, idx)` for `idx = n * g`, on the accumulators `acc[n*g .. n*g+n)`. -/
def sveGroup (cfg : Cfg) (input : Buf) (inOff : Nat) (secret : Buf) (secOff : Nat) (acc : Acc)
    (g : Nat) : Option SV := do
  let n := sveLanes cfg
  let iv ← svld1 cfg n input (inOff + 8 * (n * g))
  let sv ← svld1 cfg n secret (secOff + 8 * (n * g))
  return ACCRND ((acc.toList.drop (n * g)).take n) iv sv

/-- All groups of a stripe, loaded before any is stored (xxhash.h:5495-5525). -/
def sveStripe (cfg : Cfg) (input : Buf) (inOff : Nat) (secret : Buf) (secOff : Nat) (acc : Acc) :
    Option Acc := do
  let gs ← (List.range (8 / sveLanes cfg)).mapM (sveGroup cfg input inOff secret secOff acc)
  let l := gs.flatten
  return Vector.ofFn fun i : Fin 8 => l.getD i.val 0

/-- `XXH3_accumulate_512_sve`, xxhash.h:5483-5527. -/
def accumulate_512_sve (cfg : Cfg) : Accumulate512 := fun _ acc input inOff secret secOff =>
  sveStripe cfg input inOff secret secOff acc

/-- The loops of `XXH3_accumulate_sve`, xxhash.h:5541-5584: `do { ... xinput += 8; xsecret += 1;
nbStripes--; } while (nbStripes != 0)`; the accumulators stay in registers until the end. -/
def sveLoop (cfg : Cfg) (input secret : Buf) : Nat → Nat → Nat → Acc → Option Acc
  | 0, _, _, acc => some acc
  | nb+1, xinput, xsecret, acc => do
    let acc ← sveStripe cfg input xinput secret xsecret acc
    sveLoop cfg input secret nb (xinput + 8 * 8) (xsecret + 8 * 1) acc

end XXH.Model.Simd
