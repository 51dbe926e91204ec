import Verif.Model.Simd
/-!
Model of the long-input path, the public one-shot functions, the secret generators and the 128-bit
utilities of XXH3 (xxhash.h:5712-6051, 6723-6875, 6946-7065).

The vector implementation is selected by `cfg.vector` as the macros of xxhash.h:5780-5833 do.  In
functions that receive `f_acc`, `f_scramble`, `f_initSec` as pointers (always the selected ones in
xxhash.h, table entries in xxh_x86dispatch.c) these are parameters here as well.
-/
namespace XXH.Model.XXH3
open XXH64 (PRIME64_1 PRIME64_2 PRIME64_3 PRIME64_4 PRIME64_5)
open Simd

/-- The macro `XXH3_accumulate_512`, xxhash.h:5780-5827. -/
def accumulate_512 (cfg : Cfg) : Accumulate512 :=
  match cfg.vector with
  | .scalar => accumulate_512_scalar cfg
  | .sse2 => accumulate_512_sse2 cfg
  | .avx2 => accumulate_512_avx2 cfg
  | .avx512 => accumulate_512_avx512 cfg
  | .neon => accumulate_512_neon cfg
  | .vsx => accumulate_512_vsx cfg
  | .sve => accumulate_512_sve cfg

/-- The macro `XXH3_scrambleAcc`, xxhash.h:5780-5827. -/
def scrambleAcc (cfg : Cfg) : Scramble :=
  match cfg.vector with
  | .scalar => scrambleAcc_scalar cfg
  | .sse2 => scrambleAcc_sse2 cfg
  | .avx2 => scrambleAcc_avx2 cfg
  | .avx512 => scrambleAcc_avx512 cfg
  | .neon => scrambleAcc_neon cfg
  | .vsx => scrambleAcc_vsx cfg
  | .sve => scrambleAcc_scalar cfg

/-- `XXH3_f_accumulate`, xxhash.h:5775: accumulator address and values, input, secret, number of
stripes. -/
abbrev FAccumulate := Nat → Acc → Buf → Nat → Buf → Nat → Nat → Option Acc

/-- `XXH3_ACCUMULATE_TEMPLATE`, xxhash.h:4813-4829 (prefetching has no effect). -/
def accumulateTemplate (f : Accumulate512) : FAccumulate :=
  fun accAddr acc input inOff secret secOff nbStripes =>
    (List.range nbStripes).foldlM (fun acc n => f accAddr acc input (inOff + n*64) secret (secOff + n*8)) acc

/-- `XXH3_accumulate_sve`, xxhash.h:5530-5586. -/
def accumulate_sve (cfg : Cfg) : FAccumulate :=
  fun _ acc input inOff secret secOff nbStripes =>
    if nbStripes ≠ 0 then sveLoop cfg input secret nbStripes inOff secOff acc else some acc

/-- The macro `XXH3_accumulate`, xxhash.h:5780-5827. -/
def accumulate (cfg : Cfg) : FAccumulate :=
  match cfg.vector with
  | .sve => accumulate_sve cfg
  | _ => accumulateTemplate (accumulate_512 cfg)

/-! ### Secrets derived from a seed -/

/-- `XXH3_f_initCustomSecret`, xxhash.h:5777: destination address and previous contents, seed; the new
contents. -/
abbrev FInitCustomSecret := Nat → List Byte → W64 → Option (List Byte)

/-- `XXH3_initCustomSecret_scalar`, xxhash.h:5711-5772. -/
def initCustomSecret_scalar (cfg : Cfg) : FInitCustomSecret := fun _ dst seed64 =>
  (List.range (SECRET_DEFAULT_SIZE / 16)).foldlM (fun dst i => do
    let lo := (← readLE64 cfg (kSecret cfg) (16*i)) + seed64
    let hi := (← readLE64 cfg (kSecret cfg) (16*i + 8)) - seed64
    let dst ← writeBytes dst (16*i) (writeLE64 cfg lo)
    writeBytes dst (16*i + 8) (writeLE64 cfg hi)) dst

/-- `XXH3_initCustomSecret_sse2`, xxhash.h:5158-5187. -/
def initCustomSecret_sse2 (cfg : Cfg) : FInitCustomSecret := fun dstAddr dst seed64 => do
  let seed : V128 := ⟨seed64, 0 - seed64⟩
  assert (cfg.kSecretAddr % 16 == 0)
  assert (dstAddr % 16 == 0)
  (List.range (SECRET_DEFAULT_SIZE / 16)).foldlM (fun dst i => do
    let k ← loada cfg 16 (kSecret cfg) (16*i)
    writeBytes dst (16*i) ((add_epi64 k seed).bytes cfg)) dst

/-- `XXH3_initCustomSecret_avx2`, xxhash.h:5052-5081; `seed` is `(seed64, -seed64)` in both 128-bit
units. -/
def initCustomSecret_avx2 (cfg : Cfg) : FInitCustomSecret := fun dstAddr dst seed64 => do
  let seed : V256 := ⟨⟨seed64, 0 - seed64⟩, ⟨seed64, 0 - seed64⟩⟩
  assert (cfg.kSecretAddr % 32 == 0)
  assert (dstAddr % 32 == 0)
  (List.range 6).foldlM (fun dst i => do
    assert ((cfg.kSecretAddr + 32*i) % 32 == 0)   -- _mm256_load_si256
    let k ← loadu256 cfg (kSecret cfg) (32*i)
    writeBytes dst (32*i) ((add_epi64 k.u0 seed.u0).bytes cfg ++ (add_epi64 k.u1 seed.u1).bytes cfg)) dst

/-- `XXH3_initCustomSecret_avx512`, xxhash.h:4954-4975: the mask `0xAA` selects the odd lanes, which
get `0 - seed64`. -/
def initCustomSecret_avx512 (cfg : Cfg) : FInitCustomSecret := fun dstAddr dst seed64 => do
  assert (dstAddr % 64 == 0)
  let lane (i : Nat) : W64 := if (0xAA : Nat).testBit i then 0 - seed64 else seed64
  let seed : V512 := ⟨⟨lane 0, lane 1⟩, ⟨lane 2, lane 3⟩, ⟨lane 4, lane 5⟩, ⟨lane 6, lane 7⟩⟩
  assert (cfg.kSecretAddr % 64 == 0)
  (List.range (SECRET_DEFAULT_SIZE / 64)).foldlM (fun dst i => do
    assert ((cfg.kSecretAddr + 64*i) % 64 == 0)   -- _mm512_load_si512
    let k ← loadu512 cfg (kSecret cfg) (64*i)
    writeBytes dst (64*i) ((add_epi64 k.u0 seed.u0).bytes cfg ++ (add_epi64 k.u1 seed.u1).bytes cfg
      ++ (add_epi64 k.u2 seed.u2).bytes cfg ++ (add_epi64 k.u3 seed.u3).bytes cfg)) dst

/-- The macro `XXH3_initCustomSecret`, xxhash.h:5780-5833. -/
def initCustomSecret (cfg : Cfg) : FInitCustomSecret :=
  if 1 ≤ cfg.sizeOpt then initCustomSecret_scalar cfg else
  match cfg.vector with
  | .sse2 => initCustomSecret_sse2 cfg
  | .avx2 => initCustomSecret_avx2 cfg
  | .avx512 => initCustomSecret_avx512 cfg
  | _ => initCustomSecret_scalar cfg

/-! ### Long inputs -/

/-- `XXH3_hashLong_internal_loop`, xxhash.h:5835-5866. The last stripe always uses the selected
`XXH3_accumulate_512`. -/
def hashLong_internal_loop (cfg : Cfg) (acc : Acc) (input : Buf) (len : Nat) (secret : Buf)
    (secretSize : Nat) (f_acc : FAccumulate) (f_scramble : Scramble) : Option Acc := do
  assert (SECRET_SIZE_MIN ≤ secretSize)
  let nbStripesPerBlock := (secretSize - 64) / 8
  let block_len := 64 * nbStripesPerBlock
  let nb_blocks := (len - 1) / block_len
  let acc ← (List.range nb_blocks).foldlM (fun acc n => do
    let acc ← f_acc cfg.accAddr acc input (n*block_len) secret 0 nbStripesPerBlock
    f_scramble cfg.accAddr acc secret (secretSize - 64)) acc
  assert (64 < len)
  let nbStripes := ((len - 1) - (block_len * nb_blocks)) / 64
  assert (nbStripes ≤ secretSize / 8)
  let acc ← f_acc cfg.accAddr acc input (nb_blocks*block_len) secret 0 nbStripes
  accumulate_512 cfg cfg.accAddr acc input (len - 64) secret (secretSize - 64 - 7)

/-- `XXH3_mix2Accs`, xxhash.h:5868-5874. -/
def mix2Accs (cfg : Cfg) (acc0 acc1 : W64) (secret : Buf) (soff : Nat) : Option W64 := do
  let s0 ← readLE64 cfg secret soff
  let s1 ← readLE64 cfg secret (soff + 8)
  return mul128_fold64 cfg (acc0 ^^^ s0) (acc1 ^^^ s1)

/-- `XXH3_mergeAccs`, xxhash.h:5876-5901. -/
def mergeAccs (cfg : Cfg) (acc : Acc) (secret : Buf) (soff : Nat) (start : W64) : Option W64 := do
  let result64 ← (List.finRange 4).foldlM (fun (r : W64) (i : Fin 4) => do
    return r + (← mix2Accs cfg acc[2 * i.val] acc[2 * i.val + 1] secret (soff + 16 * i.val))) start
  return avalanche result64

/-- `XXH3_INIT_ACC`, xxhash.h:5903-5904. -/
def INIT_ACC : Acc :=
  #v[PRIME32_3, PRIME64_1, PRIME64_2, PRIME64_3, PRIME64_4, PRIME32_2, PRIME64_5, PRIME32_1]

/-- `XXH3_hashLong_64b_internal`, xxhash.h:5906-5922. -/
def hashLong_64b_internal (cfg : Cfg) (input : Buf) (len : Nat) (secret : Buf) (secretSize : Nat)
    (f_acc : FAccumulate) (f_scramble : Scramble) : Option W64 := do
  let acc ← hashLong_internal_loop cfg INIT_ACC input len secret secretSize f_acc f_scramble
  assert (64 + 11 ≤ secretSize)
  mergeAccs cfg acc secret 11 (BitVec.ofNat 64 len * PRIME64_1)

/-- `XXH3_hashLong64_f`, xxhash.h:5997. -/
abbrev FHashLong (α : Type) := Buf → Nat → W64 → Buf → Nat → Option α

/-- `XXH3_hashLong_64b_withSecret`, xxhash.h:5930-5936. -/
def hashLong_64b_withSecret (cfg : Cfg) : FHashLong W64 := fun input len _ secret secretLen =>
  hashLong_64b_internal cfg input len secret secretLen (accumulate cfg) (scrambleAcc cfg)

/-- `XXH3_hashLong_64b_default`, xxhash.h:5944-5950. -/
def hashLong_64b_default (cfg : Cfg) : FHashLong W64 := fun input len _ _ _ =>
  hashLong_64b_internal cfg input len (kSecret cfg) SECRET_DEFAULT_SIZE (accumulate cfg) (scrambleAcc cfg)

/-- Contents of an uninitialised `secret[XXH_SECRET_DEFAULT_SIZE]` on the stack; every byte is
overwritten. -/
def uninitSecret : List Byte := List.replicate SECRET_DEFAULT_SIZE 0xA5

/-- `XXH3_hashLong_64b_withSeed_internal`, xxhash.h:5963-5982. -/
def hashLong_64b_withSeed_internal (cfg : Cfg) (input : Buf) (len : Nat) (seed : W64)
    (f_acc : FAccumulate) (f_scramble : Scramble) (f_initSec : FInitCustomSecret) : Option W64 :=
  if cfg.sizeOpt = 0 ∧ seed = 0 then
    hashLong_64b_internal cfg input len (kSecret cfg) SECRET_DEFAULT_SIZE f_acc f_scramble
  else do
    let secret ← f_initSec cfg.secAddr uninitSecret seed
    hashLong_64b_internal cfg input len ⟨cfg.secAddr, secret⟩ SECRET_DEFAULT_SIZE f_acc f_scramble

/-- `XXH3_hashLong_64b_withSeed`, xxhash.h:5987-5994. -/
def hashLong_64b_withSeed (cfg : Cfg) : FHashLong W64 := fun input len seed _ _ =>
  hashLong_64b_withSeed_internal cfg input len seed (accumulate cfg) (scrambleAcc cfg)
    (initCustomSecret cfg)

/-- `XXH3_64bits_internal`, xxhash.h:6000-6020; `none` is the `NULL` that
`XXH3_64bits_withSecretandSeed` passes. -/
def bits64_internal (cfg : Cfg) (input : Ptr) (len : Nat) (seed64 : W64) (secret : Ptr)
    (secretLen : Nat) (f_hashLong : Option (FHashLong W64)) : Option W64 := do
  assert (SECRET_SIZE_MIN ≤ secretLen)
  if len ≤ 16 then len_0to16_64b cfg input.buf len secret.buf seed64
  else if len ≤ 128 then len_17to128_64b cfg input.buf len secret.buf secretLen seed64
  else if len ≤ MIDSIZE_MAX then len_129to240_64b cfg input.buf len secret.buf secretLen seed64
  else do
    let f ← f_hashLong
    f input.buf len seed64 secret.buf secretLen

/-- `XXH3_64bits`, xxhash.h:6026-6029. -/
def XXH3_64bits (cfg : Cfg) (input : Ptr) (length : Nat) : Option W64 :=
  bits64_internal cfg input length 0 (some (kSecret cfg)) SECRET_DEFAULT_SIZE
    (some (hashLong_64b_default cfg))

/-- `XXH3_64bits_withSecret`, xxhash.h:6032-6036. -/
def XXH3_64bits_withSecret (cfg : Cfg) (input : Ptr) (length : Nat) (secret : Ptr)
    (secretSize : Nat) : Option W64 :=
  bits64_internal cfg input length 0 secret secretSize (some (hashLong_64b_withSecret cfg))

/-- `XXH3_64bits_withSeed`, xxhash.h:6039-6043. -/
def XXH3_64bits_withSeed (cfg : Cfg) (input : Ptr) (length : Nat) (seed : W64) : Option W64 :=
  bits64_internal cfg input length seed (some (kSecret cfg)) SECRET_DEFAULT_SIZE
    (some (hashLong_64b_withSeed cfg))

/-- `XXH3_64bits_withSecretandSeed`, xxhash.h:6045-6051. -/
def XXH3_64bits_withSecretandSeed (cfg : Cfg) (input : Ptr) (length : Nat) (secret : Ptr)
    (secretSize : Nat) (seed : W64) : Option W64 :=
  if length ≤ MIDSIZE_MAX then
    bits64_internal cfg input length seed (some (kSecret cfg)) SECRET_DEFAULT_SIZE none
  else hashLong_64b_withSecret cfg input.buf length seed secret.buf secretSize

/-! ### 128 bits -/

/-- `XXH3_hashLong_128b_internal`, xxhash.h:6723-6745. -/
def hashLong_128b_internal (cfg : Cfg) (input : Buf) (len : Nat) (secret : Buf) (secretSize : Nat)
    (f_acc : FAccumulate) (f_scramble : Scramble) : Option H128 := do
  let acc ← hashLong_internal_loop cfg INIT_ACC input len secret secretSize f_acc f_scramble
  assert (64 + 11 ≤ secretSize)
  let low ← mergeAccs cfg acc secret 11 (BitVec.ofNat 64 len * PRIME64_1)
  let high ← mergeAccs cfg acc secret (secretSize - 64 - 11) (~~~ (BitVec.ofNat 64 len * PRIME64_2))
  return { low64 := low, high64 := high }

/-- `XXH3_hashLong_128b_default`, xxhash.h:6750-6758. -/
def hashLong_128b_default (cfg : Cfg) : FHashLong H128 := fun input len _ _ _ =>
  hashLong_128b_internal cfg input len (kSecret cfg) SECRET_DEFAULT_SIZE (accumulate cfg) (scrambleAcc cfg)

/-- `XXH3_hashLong_128b_withSecret`, xxhash.h:6767-6775. -/
def hashLong_128b_withSecret (cfg : Cfg) : FHashLong H128 := fun input len _ secret secretLen =>
  hashLong_128b_internal cfg input len secret secretLen (accumulate cfg) (scrambleAcc cfg)

/-- `XXH3_hashLong_128b_withSeed_internal`, xxhash.h:6777-6793. -/
def hashLong_128b_withSeed_internal (cfg : Cfg) (input : Buf) (len : Nat) (seed64 : W64)
    (f_acc : FAccumulate) (f_scramble : Scramble) (f_initSec : FInitCustomSecret) : Option H128 :=
  if seed64 = 0 then
    hashLong_128b_internal cfg input len (kSecret cfg) SECRET_DEFAULT_SIZE f_acc f_scramble
  else do
    let secret ← f_initSec cfg.secAddr uninitSecret seed64
    hashLong_128b_internal cfg input len ⟨cfg.secAddr, secret⟩ SECRET_DEFAULT_SIZE f_acc f_scramble

/-- `XXH3_hashLong_128b_withSeed`, xxhash.h:6798-6805. -/
def hashLong_128b_withSeed (cfg : Cfg) : FHashLong H128 := fun input len seed64 _ _ =>
  hashLong_128b_withSeed_internal cfg input len seed64 (accumulate cfg) (scrambleAcc cfg)
    (initCustomSecret cfg)

/-- `XXH3_128bits_internal`, xxhash.h:6810-6829. -/
def bits128_internal (cfg : Cfg) (input : Ptr) (len : Nat) (seed64 : W64) (secret : Ptr)
    (secretLen : Nat) (f_hl128 : Option (FHashLong H128)) : Option H128 := do
  assert (SECRET_SIZE_MIN ≤ secretLen)
  if len ≤ 16 then len_0to16_128b cfg input.buf len secret.buf seed64
  else if len ≤ 128 then len_17to128_128b cfg input.buf len secret.buf secretLen seed64
  else if len ≤ MIDSIZE_MAX then len_129to240_128b cfg input.buf len secret.buf secretLen seed64
  else do
    let f ← f_hl128
    f input.buf len seed64 secret.buf secretLen

/-- `XXH3_128bits`, xxhash.h:6835-6840. -/
def XXH3_128bits (cfg : Cfg) (input : Ptr) (len : Nat) : Option H128 :=
  bits128_internal cfg input len 0 (some (kSecret cfg)) SECRET_DEFAULT_SIZE
    (some (hashLong_128b_default cfg))

/-- `XXH3_128bits_withSecret`, xxhash.h:6843-6849. -/
def XXH3_128bits_withSecret (cfg : Cfg) (input : Ptr) (len : Nat) (secret : Ptr)
    (secretSize : Nat) : Option H128 :=
  bits128_internal cfg input len 0 secret secretSize (some (hashLong_128b_withSecret cfg))

/-- `XXH3_128bits_withSeed`, xxhash.h:6852-6858. -/
def XXH3_128bits_withSeed (cfg : Cfg) (input : Ptr) (len : Nat) (seed : W64) : Option H128 :=
  bits128_internal cfg input len seed (some (kSecret cfg)) SECRET_DEFAULT_SIZE
    (some (hashLong_128b_withSeed cfg))

/-- `XXH3_128bits_withSecretandSeed`, xxhash.h:6861-6867. -/
def XXH3_128bits_withSecretandSeed (cfg : Cfg) (input : Ptr) (len : Nat) (secret : Ptr)
    (secretSize : Nat) (seed : W64) : Option H128 :=
  if len ≤ MIDSIZE_MAX then
    bits128_internal cfg input len seed (some (kSecret cfg)) SECRET_DEFAULT_SIZE none
  else hashLong_128b_withSecret cfg input.buf len seed secret.buf secretSize

/-- `XXH128`, xxhash.h:6870-6874. -/
def XXH128 (cfg : Cfg) (input : Ptr) (len : Nat) (seed : W64) : Option H128 :=
  XXH3_128bits_withSeed cfg input len seed

/-! ### 128-bit utilities -/

/-- The 16 bytes of an `XXH128_hash_t` in memory (no padding, low64 first, xxhash.h:1365-1368). -/
def H128bytes (cfg : Cfg) (h : H128) : List Byte := nativeBytes cfg 8 h.low64 ++ nativeBytes cfg 8 h.high64

/-- `XXH128_isEqual`, xxhash.h:6952-6956: `memcmp` of the two structs. -/
def XXH128_isEqual (cfg : Cfg) (h1 h2 : H128) : Int :=
  if H128bytes cfg h1 = H128bytes cfg h2 then 1 else 0

/-- C's `a > b` -/
def cgt (a b : W64) : Int := if b.toNat < a.toNat then 1 else 0

/-- `XXH128_cmp`, xxhash.h:6963-6971. -/
def XXH128_cmp (h1 h2 : H128) : Int :=
  let hcmp := cgt h1.high64 h2.high64 - cgt h2.high64 h1.high64
  if hcmp ≠ 0 then hcmp else cgt h1.low64 h2.low64 - cgt h2.low64 h1.low64

/-- `XXH128_canonicalFromHash`, xxhash.h:6976-6986: the 16 bytes written to `dst`. -/
def XXH128_canonicalFromHash (cfg : Cfg) (hash : H128) : List Byte :=
  let high := if cfg.littleEndian then swap64 hash.high64 else hash.high64
  let low := if cfg.littleEndian then swap64 hash.low64 else hash.low64
  nativeBytes cfg 8 high ++ nativeBytes cfg 8 low

/-- `XXH128_hashFromCanonical`, xxhash.h:6989-6996. -/
def XXH128_hashFromCanonical (cfg : Cfg) (src : Buf) : Option H128 := do
  let high ← readBE64 cfg src 0
  let low ← readBE64 cfg src 8
  return { low64 := low, high64 := high }

/-! ### Secret generators -/

/-- `XXH3_combine16`, xxhash.h:7006-7010. -/
def combine16 (cfg : Cfg) (addr : Nat) (dst : List Byte) (off : Nat) (h128 : H128) :
    Option (List Byte) := do
  let a ← readLE64 cfg ⟨addr, dst⟩ off
  let dst ← writeBytes dst off (writeLE64 cfg (a ^^^ h128.low64))
  let b ← readLE64 cfg ⟨addr, dst⟩ (off + 8)
  writeBytes dst (off + 8) (writeLE64 cfg (b ^^^ h128.high64))

/-- The fill loop of `XXH3_generateSecret`, xxhash.h:7035-7040. -/
def fillLoop (secretSize : Nat) (seed : Buf) (customSeedSize : Nat) :
    Nat → Nat → List Byte → Option (List Byte)
  | 0, _, _ => none
  | fuel+1, pos, buf =>
    if pos < secretSize then do
      let toCopy := min (secretSize - pos) customSeedSize
      let buf ← writeBytes buf pos (← readBytes seed 0 toCopy)
      fillLoop secretSize seed customSeedSize fuel (pos + toCopy) buf
    else some buf

/-- The segment loop, xxhash.h:7045-7049. -/
def segmentLoop (cfg : Cfg) (addr : Nat) (scrambler : List Byte) (nbSeg16 : Nat) (buf : List Byte) :
    Option (List Byte) :=
  (List.range nbSeg16).foldlM (fun buf n => do
    let h128 ← XXH128 cfg (some ⟨cfg.tmpAddr, scrambler⟩) 16 (BitVec.ofNat 64 n)
    combine16 cfg addr buf (n*16) h128) buf

/-- `XXH3_generateSecret`, xxhash.h:7013-7055, in production mode (`XXH_DEBUGLEVEL` 0). The second
component is the new contents of `secretBuffer`. -/
def generateSecret (cfg : Cfg) (secretBuffer : Ptr) (secretSize : Nat) (customSeed : Ptr)
    (customSeedSize : Nat) : Option (Err × List Byte) := do
  match secretBuffer with
  | none => return (.error, [])
  | some buf =>
    if secretSize < SECRET_SIZE_MIN then return (.error, buf.bytes)
    let (customSeed, customSeedSize) :=
      if customSeedSize = 0 then ((some (kSecret cfg) : Ptr), SECRET_DEFAULT_SIZE)
      else (customSeed, customSeedSize)
    match customSeed with
    | none => return (.error, buf.bytes)
    | some seed =>
      let bytes ← fillLoop secretSize seed customSeedSize (secretSize + 1) 0 buf.bytes
      let h ← XXH128 cfg (some seed) customSeedSize 0
      let scrambler := XXH128_canonicalFromHash cfg h
      let bytes ← segmentLoop cfg buf.addr scrambler (secretSize / 16) bytes
      let last ← XXH128_hashFromCanonical cfg ⟨cfg.tmpAddr, scrambler⟩
      let bytes ← combine16 cfg buf.addr bytes (secretSize - 16) last
      return (.ok, bytes)

/-- `XXH3_generateSecret_fromSeed`, xxhash.h:7058-7065: the new contents of `secretBuffer`. -/
def generateSecret_fromSeed (cfg : Cfg) (secretBuffer : Ptr) (seed : W64) : Option (List Byte) := do
  let secret ← initCustomSecret cfg cfg.secAddr uninitSecret seed
  let buf ← secretBuffer
  writeBytes buf.bytes 0 (secret.take SECRET_DEFAULT_SIZE)

end XXH.Model.XXH3
