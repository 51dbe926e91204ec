import Verif.Types
/-!
Memory, build configuration and the byte-order primitives of xxhash.h.

Everything that can go wrong in C is the outcome `none`: a read or write outside the object, a
misaligned wide dereference, a violated `XXH_ASSERT` (`XXH_ASSUME` in release builds), a loop that
does not terminate within its fuel.  A result `some x` is a normal return.
-/
namespace XXH.Model

/-- `XXH_FORCE_MEMORY_ACCESS`, xxhash.h:2279-2287 (0 = memcpy, 1 = packed/aligned(1), 2 = direct
cast, 3 = byteshift). -/
inductive MemAccess
  | memcpy | packed | direct | byteshift
deriving DecidableEq

/-- `XXH_VECTOR`, xxhash.h:3854-3865 and 3895-3931. -/
inductive VectorKind
  | scalar | sse2 | avx2 | avx512 | neon | vsx | sve
deriving DecidableEq

/-- The implementation-defined parameters of a build. Theorems quantify over it. -/
structure Cfg where
  /-- `XXH_CPU_LITTLE_ENDIAN`, xxhash.h:2641-2671 (assumed to tell the truth about the target). -/
  littleEndian : Bool
  memAccess : MemAccess
  /-- the CPU supports misaligned 32/64-bit accesses (only relevant for `direct`) -/
  hwUnaligned : Bool
  /-- `XXH_SIZE_OPT`, xxhash.h:2288-2295 -/
  sizeOpt : Nat
  /-- `XXH_FORCE_ALIGN_CHECK`, xxhash.h:2297-2306 -/
  alignCheck : Bool
  /-- `XXH32_ENDJMP`, xxhash.h:2325-2328 -/
  endJmp : Bool
  /-- width of `size_t` -/
  sizeBits : Nat
  /-- `XXH_NO_STREAM` undefined (xxhash.h:3095, 3542) -/
  stream : Bool
  /-- the portable branch of `XXH_mult64to128` is compiled, xxhash.h:4350-4472 -/
  portableMul : Bool
  /-- `sizeof(void*) < sizeof(xxh_u64)`, xxhash.h:6539 -/
  ptr32 : Bool
  vector : VectorKind
  /-- `XXH3_NEON_LANES`, xxhash.h:4112-4119 -/
  neonLanes : Nat
  /-- `__wasm_simd128__` (NEON code through SIMDe), xxhash.h:5377 -/
  neonWasm : Bool
  /-- `svcntd()`: 64-bit lanes of an SVE register -/
  sveElems : Nat
  /-- `XXH_X86DISPATCH`, xxhash.h:3938, 3957 -/
  x86dispatch : Bool
  /-- `XXH3_STREAM_USE_STACK`, xxhash.h:6289-6293 -/
  streamUseStack : Bool
  /-- where the linker puts `XXH3_kSecret` -/
  kSecretAddr : Nat
  /-- where the compiler puts the local arrays declared `XXH_ALIGN(XXH_ACC_ALIGN)`, xxhash.h:5912, 6316,
  6427, 6729, 6925 -/
  accAddr : Nat
  /-- where it puts the local arrays declared `XXH_ALIGN(XXH_SEC_ALIGN)`, xxhash.h:5977, 6789, 7061 -/
  secAddr : Nat
  /-- where it puts the local byte arrays without an alignment, xxhash.h:6390 (`lastStripe`), 7045
  (`scrambler`) -/
  tmpAddr : Nat

/-- `XXH_ACC_ALIGN`, xxhash.h:3937-3955. -/
def Cfg.accAlign (cfg : Cfg) : Nat :=
  if cfg.x86dispatch then 64 else
  match cfg.vector with
  | .scalar => 8
  | .sse2 => 16
  | .avx2 => 32
  | .neon => 16
  | .vsx => 16
  | .avx512 => 64
  | .sve => 64

/-- `XXH_SEC_ALIGN`, xxhash.h:3957-3964. -/
def Cfg.secAlign (cfg : Cfg) : Nat :=
  if cfg.x86dispatch = true ∨ cfg.vector = .sse2 ∨ cfg.vector = .avx2 ∨ cfg.vector = .avx512 then cfg.accAlign
  else if cfg.vector = .sve then cfg.accAlign
  else 8

/-- Builds that can exist: `size_t` has 16 to 64 bits, direct casts are only chosen on CPUs with
misaligned access ("Only works on CPU which support unaligned memory access in hardware",
xxhash.h:2583), x86 is little-endian, NEON is only selected on little-endian targets
(xxhash.h:3898-3906), `XXH3_NEON_LANES` passes its static assertion (xxhash.h:5233), SVE registers
have a multiple of 128 bits, `XXH3_kSecret` is `XXH_ALIGN(64)` (xxhash.h:4284), and the compiler
respects `XXH_ALIGN` on local arrays. Every call of a function has its own local arrays; as nothing
depends on where they are, one address for each kind of array is enough.

One existing kind of build is left out on purpose: SVE on big-endian AArch64.  The selection code
does not exclude it, and it does compute something else, see `C15_sve_big_endian_differs`. -/
structure Cfg.Valid (cfg : Cfg) : Prop where
  sizeLo : 16 ≤ cfg.sizeBits
  sizeHi : cfg.sizeBits ≤ 64
  direct : cfg.memAccess = .direct → cfg.hwUnaligned = true
  simdLE : cfg.vector ∈ [.sse2, .avx2, .avx512, .neon, .sve] → cfg.littleEndian = true
  neonLanes : cfg.vector = .neon → cfg.neonLanes ∈ [2, 4, 6, 8]
  sve : cfg.vector = .sve → 2 ≤ cfg.sveElems ∧ cfg.sveElems % 2 = 0
  kSecret : cfg.kSecretAddr % 64 = 0
  acc : cfg.accAddr % cfg.accAlign = 0
  sec : cfg.secAddr % cfg.secAlign = 0

/-- An object in memory: its address and its contents. -/
structure Buf where
  addr : Nat
  bytes : List Byte

/-- Objects are smaller than half the address space (`PTRDIFF_MAX`). -/
def Buf.Fits (cfg : Cfg) (b : Buf) : Prop := b.bytes.length < 2 ^ (cfg.sizeBits - 1)

/-- C pointers to the start of an object; `none` is `NULL`. -/
abbrev Ptr := Option Buf

/-- The object behind a pointer; `NULL` has address 0 and nothing that can be read. -/
def Ptr.buf (p : Ptr) : Buf := p.getD ⟨0, []⟩

/-- `XXH_ASSERT(c)`, xxhash.h:2446-2455: violating it is undefined behaviour. -/
def assert (c : Bool) : Option Unit := if c then some () else none

/-- `(size_t)n` -/
def Cfg.size (cfg : Cfg) (n : Nat) : Nat := n % 2 ^ cfg.sizeBits

/-- `*(ptr + off)` for a `xxh_u8` pointer. -/
def read8 (b : Buf) (off : Nat) : Option Byte := b.bytes[off]?

/-- The `n` bytes from `off` on. -/
def readBytes (b : Buf) (off n : Nat) : Option (List Byte) :=
  if off + n ≤ b.bytes.length then some ((b.bytes.drop off).take n) else none

/-- `memcpy(dst + off, src, n)` where `src` are the `n` source bytes. -/
def writeBytes (dst : List Byte) (off : Nat) (src : List Byte) : Option (List Byte) :=
  if off + src.length ≤ dst.length then
    some (dst.take off ++ src ++ dst.drop (off + src.length))
  else none

/-- Little-endian value of bytes. -/
def ofLE (w : Nat) (bs : List Byte) : BitVec w :=
  bs.foldr (fun b acc => acc <<< 8 ||| b.setWidth w) 0

/-- Value of bytes as the CPU loads them. -/
def native (cfg : Cfg) (w : Nat) (bs : List Byte) : BitVec w :=
  if cfg.littleEndian then ofLE w bs else ofLE w bs.reverse

/-- Bytes of a word as the CPU stores them. -/
def nativeBytes (cfg : Cfg) (n : Nat) {w : Nat} (x : BitVec w) : List Byte :=
  let le := (List.range n).map fun i => (x >>> (8*i)).setWidth 8
  if cfg.littleEndian then le else le.reverse

/-- `XXH_rotl32(x,r)`, xxhash.h:2754, precondition `0 < r < 32` (2741). -/
def rotl32 (x : W32) (r : Nat) : W32 := (x <<< r) ||| (x >>> (32 - r))

/-- `XXH_rotl64(x,r)`, xxhash.h:2755. -/
def rotl64 (x : W64) (r : Nat) : W64 := (x <<< r) ||| (x >>> (64 - r))

/-- `XXH_swap32`, xxhash.h:2771-2777. The `_byteswap_ulong`/`__builtin_bswap32` variants are the
same function by definition of those builtins. -/
def swap32 (x : W32) : W32 :=
  ((x <<< 24) &&& 0xff000000#32) |||
  ((x <<<  8) &&& 0x00ff0000#32) |||
  ((x >>>  8) &&& 0x0000ff00#32) |||
  ((x >>> 24) &&& 0x000000ff#32)

/-- `XXH_swap64`, xxhash.h:3306-3316. -/
def swap64 (x : W64) : W64 :=
  ((x <<< 56) &&& 0xff00000000000000#64) |||
  ((x <<< 40) &&& 0x00ff000000000000#64) |||
  ((x <<< 24) &&& 0x0000ff0000000000#64) |||
  ((x <<<  8) &&& 0x000000ff00000000#64) |||
  ((x >>>  8) &&& 0x00000000ff000000#64) |||
  ((x >>> 24) &&& 0x0000000000ff0000#64) |||
  ((x >>> 40) &&& 0x000000000000ff00#64) |||
  ((x >>> 56) &&& 0x00000000000000ff#64)

/-- `*(const xxh_u32*)ptr`: needs a 4-byte aligned address. -/
def deref32 (cfg : Cfg) (b : Buf) (off : Nat) : Option W32 := do
  assert ((b.addr + off) % 4 == 0)
  return native cfg 32 (← readBytes b off 4)

/-- `*(const xxh_u64*)ptr`: needs an 8-byte aligned address. -/
def deref64 (cfg : Cfg) (b : Buf) (off : Nat) : Option W64 := do
  assert ((b.addr + off) % 8 == 0)
  return native cfg 64 (← readBytes b off 8)

/-- `XXH_read32`, xxhash.h:2576-2621: method 2 dereferences a possibly misaligned pointer, methods 0
and 1 load from any address. -/
def read32 (cfg : Cfg) (b : Buf) (off : Nat) : Option W32 :=
  if cfg.memAccess = .direct ∧ cfg.hwUnaligned = false then deref32 cfg b off
  else do return native cfg 32 (← readBytes b off 4)

/-- `XXH_read64`, xxhash.h:3255-3299. -/
def read64 (cfg : Cfg) (b : Buf) (off : Nat) : Option W64 :=
  if cfg.memAccess = .direct ∧ cfg.hwUnaligned = false then deref64 cfg b off
  else do return native cfg 64 (← readBytes b off 8)

/-- `XXH_readLE32`, xxhash.h:2801-2808 (byteshift) and 2820-2823. -/
def readLE32 (cfg : Cfg) (b : Buf) (off : Nat) : Option W32 :=
  if cfg.memAccess = .byteshift then do
    let b0 ← read8 b off
    let b1 ← read8 b (off+1)
    let b2 ← read8 b (off+2)
    let b3 ← read8 b (off+3)
    return b0.setWidth 32 ||| (b1.setWidth 32 <<< 8) ||| (b2.setWidth 32 <<< 16) |||
      (b3.setWidth 32 <<< 24)
  else do
    let v ← read32 cfg b off
    return if cfg.littleEndian then v else swap32 v

/-- `XXH_readBE32`, xxhash.h:2810-2817 (byteshift) and 2825-2828. -/
def readBE32 (cfg : Cfg) (b : Buf) (off : Nat) : Option W32 :=
  if cfg.memAccess = .byteshift then do
    let b0 ← read8 b off
    let b1 ← read8 b (off+1)
    let b2 ← read8 b (off+2)
    let b3 ← read8 b (off+3)
    return b3.setWidth 32 ||| (b2.setWidth 32 <<< 8) ||| (b1.setWidth 32 <<< 16) |||
      (b0.setWidth 32 <<< 24)
  else do
    let v ← read32 cfg b off
    return if cfg.littleEndian then swap32 v else v

/-- `XXH_readLE64`, xxhash.h:3323-3334 (byteshift) and 3351-3354. -/
def readLE64 (cfg : Cfg) (b : Buf) (off : Nat) : Option W64 :=
  if cfg.memAccess = .byteshift then do
    let b0 ← read8 b off
    let b1 ← read8 b (off+1)
    let b2 ← read8 b (off+2)
    let b3 ← read8 b (off+3)
    let b4 ← read8 b (off+4)
    let b5 ← read8 b (off+5)
    let b6 ← read8 b (off+6)
    let b7 ← read8 b (off+7)
    return b0.setWidth 64 ||| (b1.setWidth 64 <<< 8) ||| (b2.setWidth 64 <<< 16) |||
      (b3.setWidth 64 <<< 24) ||| (b4.setWidth 64 <<< 32) ||| (b5.setWidth 64 <<< 40) |||
      (b6.setWidth 64 <<< 48) ||| (b7.setWidth 64 <<< 56)
  else do
    let v ← read64 cfg b off
    return if cfg.littleEndian then v else swap64 v

/-- `XXH_readBE64`, xxhash.h:3336-3347 (byteshift) and 3356-3359. -/
def readBE64 (cfg : Cfg) (b : Buf) (off : Nat) : Option W64 :=
  if cfg.memAccess = .byteshift then do
    let b0 ← read8 b off
    let b1 ← read8 b (off+1)
    let b2 ← read8 b (off+2)
    let b3 ← read8 b (off+3)
    let b4 ← read8 b (off+4)
    let b5 ← read8 b (off+5)
    let b6 ← read8 b (off+6)
    let b7 ← read8 b (off+7)
    return b7.setWidth 64 ||| (b6.setWidth 64 <<< 8) ||| (b5.setWidth 64 <<< 16) |||
      (b4.setWidth 64 <<< 24) ||| (b3.setWidth 64 <<< 32) ||| (b2.setWidth 64 <<< 40) |||
      (b1.setWidth 64 <<< 48) ||| (b0.setWidth 64 <<< 56)
  else do
    let v ← read64 cfg b off
    return if cfg.littleEndian then swap64 v else v

/-- `XXH_alignment`, xxhash.h:2789-2792. -/
inductive Align
  | aligned | unaligned
deriving DecidableEq

/-- `XXH_readLE32_align`, xxhash.h:2831-2839. -/
def readLE32_align (cfg : Cfg) (b : Buf) (off : Nat) (align : Align) : Option W32 :=
  if align = .unaligned then readLE32 cfg b off
  else do
    let v ← deref32 cfg b off
    return if cfg.littleEndian then v else swap32 v

/-- `XXH_readLE64_align`, xxhash.h:3361-3368. -/
def readLE64_align (cfg : Cfg) (b : Buf) (off : Nat) (align : Align) : Option W64 :=
  if align = .unaligned then readLE64 cfg b off
  else do
    let v ← deref64 cfg b off
    return if cfg.littleEndian then v else swap64 v

/-- `for (i = start; cond(i); i += inc) body`, with fuel. -/
def forLoop {σ : Type} (cond : Nat → Bool) (inc : Nat) (body : σ → Nat → Option σ) :
    Nat → Nat → σ → Option σ
  | 0, _, _ => none
  | fuel+1, i, s =>
    if cond i then (body s i).bind fun s => forLoop cond inc body fuel (i + inc) s else some s

/-- `XXH_writeLE64`, xxhash.h:4832-4836: the bytes stored. -/
def writeLE64 (cfg : Cfg) (v64 : W64) : List Byte :=
  nativeBytes cfg 8 (if cfg.littleEndian then v64 else swap64 v64)

/-- The four lane variables `v1..v4` / `v[4]`. -/
structure V4 (w : Nat) where
  v1 : BitVec w
  v2 : BitVec w
  v3 : BitVec w
  v4 : BitVec w
deriving DecidableEq

/-- `XXH_errorcode`, xxhash.h:572-575. -/
inductive Err
  | ok | error
deriving DecidableEq

end XXH.Model
