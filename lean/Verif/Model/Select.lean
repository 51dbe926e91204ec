import Verif.Model.Dispatch
/-!
Model of the compile-time selection: how xxhash.h and xxh_x86dispatch.c turn the macros predefined by the
compiler, and those given on the command line, into a build (`Cfg`, `Dispatch.Build`).

Left out: a user definition of `XXH_ACC_ALIGN` (xxhash.h:3937) or of the `XXH_DISPATCH_...` macros, and the macros that
only choose between equivalent spellings (`XXH_likely`, `XXH_RESTRICT`, `XXH_FORCE_INLINE`, `XXH_PREFETCH`, ...).
-/
namespace XXH.Model.Select

/-- The value of `__BYTE_ORDER__`: `__ORDER_LITTLE_ENDIAN__` or `__ORDER_BIG_ENDIAN__`. -/
inductive ByteOrder
  | little | big
deriving DecidableEq

/-- The predefined macros that the selection looks at. `Bool`: defined or not; `Option`: the value, if defined. -/
structure Macros where
  gnuc : Option Nat := none              -- __GNUC__
  gnucMinor : Nat := 0                   -- __GNUC_MINOR__
  clang : Bool := false                  -- __clang__
  mscVer : Option Nat := none            -- _MSC_VER
  mscFullVer : Option Nat := none        -- _MSC_FULL_VER
  stdcVersion : Option Nat := none       -- __STDC_VERSION__
  cplusplus : Option Nat := none         -- __cplusplus
  optimizeSize : Bool := false           -- __OPTIMIZE_SIZE__
  i386 : Bool := false                   -- __i386 and __i386__
  x86_64 : Bool := false                 -- __x86_64__
  m_ix86 : Bool := false                 -- _M_IX86
  m_ix86_fp : Option Nat := none         -- _M_IX86_FP
  m_x64 : Bool := false                  -- _M_X64
  m_amd64 : Bool := false                -- _M_AMD64
  m_ia64 : Bool := false                 -- _M_IA64
  sse2 : Bool := false                   -- __SSE2__
  avx : Bool := false                    -- __AVX__
  avx2 : Bool := false                   -- __AVX2__
  avx512f : Bool := false                -- __AVX512F__
  aarch64 : Bool := false                -- __aarch64__
  arm64 : Bool := false                  -- __arm64__
  armArch : Option Nat := none           -- __ARM_ARCH
  armUnaligned : Bool := false           -- __ARM_FEATURE_UNALIGNED
  armSve : Bool := false                 -- __ARM_FEATURE_SVE
  armNeon : Bool := false                -- __ARM_NEON__ or __ARM_NEON
  m_arm : Option Nat := none             -- _M_ARM
  m_arm64 : Bool := false                -- _M_ARM64
  m_arm64ec : Bool := false              -- _M_ARM64EC
  wasm : Bool := false                   -- __wasm__
  wasmSimd128 : Bool := false            -- __wasm_simd128__
  ppc64 : Bool := false                  -- __PPC64__
  power8 : Bool := false                 -- __POWER8_VECTOR__
  s390x : Bool := false                  -- __s390x__
  vec : Bool := false                    -- __VEC__
  win32 : Bool := false                  -- _WIN32
  apple : Bool := false                  -- __APPLE__
  android : Bool := false                -- __ANDROID__
  littleEndian : Bool := false           -- __LITTLE_ENDIAN__
  bigEndian : Bool := false              -- __BIG_ENDIAN__
  byteOrder : Option ByteOrder := none   -- __BYTE_ORDER__
  vecElementOrder : Option ByteOrder := none   -- __VEC_ELEMENT_REG_ORDER__
  sizeofInt128 : Bool := false           -- __SIZEOF_INT128__
  integralMaxBits : Option Nat := none   -- _INTEGRAL_MAX_BITS
  hasArmNeonH : Bool := false            -- XXH_HAS_INCLUDE(<arm_neon.h>)
  hasAvx2H : Bool := false               -- XXH_HAS_INCLUDE(<avx2intrin.h>)
  hasAvx512H : Bool := false             -- XXH_HAS_INCLUDE(<avx512fintrin.h>)
  hasConstructor : Bool := false         -- XXH_HAS_ATTRIBUTE(constructor)

/-- The macros that can be given on the command line; the default is to give none. -/
structure Options where
  forceMemoryAccess : Option Nat := none       -- XXH_FORCE_MEMORY_ACCESS
  sizeOpt : Option Nat := none                 -- XXH_SIZE_OPT
  forceAlignCheck : Option Bool := none        -- XXH_FORCE_ALIGN_CHECK
  cpuLittleEndian : Option Bool := none        -- XXH_CPU_LITTLE_ENDIAN
  endJmp : Option Bool := none                 -- XXH32_ENDJMP
  vector : Option VectorKind := none           -- XXH_VECTOR
  neonLanes : Option Nat := none               -- XXH3_NEON_LANES
  vsxBE : Option Bool := none                  -- XXH_VSX_BE
  streamUseStack : Option Bool := none         -- XXH3_STREAM_USE_STACK
  noStream : Bool := false                     -- XXH_NO_STREAM
  x86dispatch : Bool := false                  -- XXH_X86DISPATCH

/-- What is true of the machine the code runs on. -/
structure Target where
  littleEndian : Bool
  /-- misaligned 32/64-bit accesses work -/
  hwUnaligned : Bool
  sizeBits : Nat
  /-- `sizeof(void*)` -/
  ptrBytes : Nat
  /-- alignment of a 64-bit integer without any attribute -/
  alignU64 : Nat
  /-- `svcntd()` -/
  sveElems : Nat

/-- Addresses chosen by the compiler and the linker. -/
structure Place where
  kSecretAddr : Nat
  accAddr : Nat
  secAddr : Nat
  tmpAddr : Nat

variable (m : Macros) (o : Options)

/-- The default of `XXH_FORCE_MEMORY_ACCESS`, xxhash.h:2279-2286. -/
def forceMemoryAccess : Option Nat :=
  match o.forceMemoryAccess with
  | some n => some n
  | none =>
    if m.gnuc.isSome ∧ ¬ ((∃ a ∈ m.armArch, a < 7) ∧ m.armUnaligned = true) then some 1 else none

/-- The `#if` chains at xxhash.h:2576-2614 and (64-bit) 3255-3279. -/
def memAccess : MemAccess :=
  match forceMemoryAccess m o with
  | some 3 => .byteshift
  | some 2 => .direct
  | some 1 => .packed
  | _ => .memcpy

/-- `XXH_SIZE_OPT`, xxhash.h:2288-2295. -/
def sizeOpt : Nat :=
  match o.sizeOpt with
  | some n => n
  | none => if (m.gnuc.isSome ∨ m.clang = true) ∧ m.optimizeSize = true then 1 else 0

/-- `XXH_FORCE_ALIGN_CHECK`, xxhash.h:2297-2306. -/
def forceAlignCheck : Bool :=
  match o.forceAlignCheck with
  | some b => b
  | none =>
    if 1 ≤ sizeOpt m o ∨ m.i386 = true ∨ m.x86_64 = true ∨ m.aarch64 = true ∨ m.armUnaligned = true ∨
        m.m_ix86 = true ∨ m.m_x64 = true ∨ m.m_arm64 = true ∨ m.m_arm.isSome then false
    else true

/-- `XXH_isLittleEndian`, xxhash.h:2660-2668: the first byte of a 32-bit 1 in memory. -/
def isLittleEndian (t : Target) : Bool :=
  let le : List Byte := (List.range 4).map fun i => ((1 : W32) >>> (8*i)).setWidth 8
  let c := if t.littleEndian then le else le.reverse
  c.headD 0 != 0

/-- `XXH_CPU_LITTLE_ENDIAN`, xxhash.h:2641-2671. -/
def cpuLittleEndian (t : Target) : Bool :=
  match o.cpuLittleEndian with
  | some b => b
  | none =>
    if m.win32 = true ∨ m.littleEndian = true ∨ m.byteOrder = some .little then true
    else if m.bigEndian = true ∨ m.byteOrder = some .big then false
    else isLittleEndian t

/-- `XXH_VECTOR` before the check for SVE, xxhash.h:3895-3920. In the condition for VSX `&&` binds tighter than
`||`: `__GNUC__` is only asked for on s390x. -/
def vector0 : VectorKind :=
  match o.vector with
  | some v => v
  | none =>
    if m.armSve = true then .sve
    else if (m.armNeon = true ∨ m.m_arm.isSome ∨ m.m_arm64 = true ∨ m.m_arm64ec = true ∨
          (m.wasmSimd128 = true ∧ m.hasArmNeonH = true)) ∧
        (m.win32 = true ∨ m.littleEndian = true ∨ m.byteOrder = some .little) then .neon
    else if m.avx512f = true then .avx512
    else if m.avx2 = true then .avx2
    else if m.sse2 = true ∨ m.m_amd64 = true ∨ m.m_x64 = true ∨ m.m_ix86_fp = some 2 then .sse2
    else if (m.ppc64 = true ∧ m.power8 = true) ∨ (m.s390x = true ∧ m.vec = true ∧ m.gnuc.isSome) then .vsx
    else .scalar

/-- `XXH_VECTOR`: without `__ARM_FEATURE_SVE` there is no SVE, xxhash.h:3922-3931. -/
def vector : VectorKind :=
  if vector0 m o = .sve ∧ m.armSve = false then .scalar else vector0 m o

/-- `XXH3_NEON_LANES`, xxhash.h:4112-4119 (only used with NEON). -/
def neonLanes : Nat :=
  match o.neonLanes with
  | some n => n
  | none =>
    if (m.aarch64 = true ∨ m.arm64 = true ∨ m.m_arm64 = true ∨ m.m_arm64ec = true) ∧ m.apple = false ∧
        sizeOpt m o = 0 then 6 else 8

/-- `XXH_VSX_BE`, xxhash.h:4167-4177 (only used with VSX). -/
def vsxBE : Bool :=
  match o.vsxBE with
  | some b => b
  | none =>
    if m.bigEndian = true ∨ m.byteOrder = some .big then true
    else if m.vecElementOrder = some .big then true
    else false

/-- The `#if` chain of `XXH_mult64to128`, xxhash.h:4366-4402: the last branch. -/
def portableMul : Bool :=
  if ((m.gnuc.isSome ∨ m.clang = true) ∧ m.wasm = false ∧ m.sizeofInt128 = true) ∨
      (∃ n ∈ m.integralMaxBits, 128 ≤ n) then false
  else if (m.m_x64 = true ∨ m.m_ia64 = true) ∧ m.m_arm64ec = false then false
  else if m.m_arm64 = true ∨ m.m_arm64ec = true then false
  else true

/-- `XXH3_STREAM_USE_STACK`, xxhash.h:6289-6293. -/
def streamUseStack : Bool :=
  match o.streamUseStack with
  | some b => b
  | none => if sizeOpt m o = 0 ∧ m.clang = false then true else false

/-- `XXH_ALIGN` does something, xxhash.h:1690-1701. -/
def alignWorks : Bool :=
  if ∃ v ∈ m.stdcVersion, 201112 ≤ v then true
  else if ∃ v ∈ m.cplusplus, 201103 ≤ v then true
  else if m.gnuc.isSome then true
  else if m.mscVer.isSome then true
  else false

/-- The build. `littleEndian` is the truth about the memory; that `XXH_CPU_LITTLE_ENDIAN` and `XXH_VSX_BE` agree with it
has to be proved, because the rest of the model does not distinguish them. -/
def build (t : Target) (p : Place) : Cfg where
  littleEndian := t.littleEndian
  memAccess := memAccess m o
  hwUnaligned := t.hwUnaligned
  sizeOpt := sizeOpt m o
  alignCheck := forceAlignCheck m o
  endJmp := o.endJmp.getD false
  sizeBits := t.sizeBits
  stream := !o.noStream
  portableMul := portableMul m
  ptr32 := decide (t.ptrBytes < 8)
  vector := vector m o
  neonLanes := neonLanes m o
  neonWasm := m.wasmSimd128
  sveElems := t.sveElems
  x86dispatch := o.x86dispatch
  streamUseStack := streamUseStack m o
  kSecretAddr := p.kSecretAddr
  accAddr := p.accAddr
  secAddr := p.secAddr
  tmpAddr := p.tmpAddr

/-- The headers with intrinsics, xxhash.h:3734-3754. -/
inductive Header
  | arm_sve | arm_neon | immintrin | emmintrin | intrin
deriving DecidableEq

/-- What is included, xxhash.h:3734-3754 (`intrin.h` of Visual Studio declares the intrinsics of its target). -/
def headers : List Header :=
  (if m.gnuc.isSome ∨ m.clang = true then
    (if m.armSve = true then [.arm_sve] else []) ++
    (if m.armNeon = true ∨ (∃ v ∈ m.m_arm, 7 ≤ v) ∨ m.m_arm64 = true ∨ m.m_arm64ec = true ∨
        (m.wasmSimd128 = true ∧ m.hasArmNeonH = true) then [.arm_neon]
     else if m.avx2 = true then [.immintrin]
     else if m.sse2 = true then [.emmintrin]
     else [])
  else []) ++
  (if m.mscVer.isSome then [.intrin] else [])

/-! ### xxh_x86dispatch.c -/

/-- The file compiles: xxh_x86dispatch.c:55-57, 96-99, 186-213 (`XXH_X86DISPATCH_ALLOW_AVX` not given). -/
def dispatchCompiles : Bool :=
  decide (m.x86_64 = true ∨ m.i386 = true ∨ m.m_ix86 = true ∨ m.m_x64 = true) &&
  !m.avx && decide (m.gnuc.isSome ∨ m.mscVer.isSome)

/-- `XXH_DISPATCH_SCALAR`, xxh_x86dispatch.c:114-122. -/
def dispatchScalar : Bool :=
  if m.sse2 = true ∨ (∃ v ∈ m.m_ix86_fp, 2 ≤ v) ∨ m.x86_64 = true ∨ m.m_x64 = true ∨ m.android = true ∨
      m.apple = true then false
  else true

/-- `XXH_DISPATCH_AVX2`, xxh_x86dispatch.c:137-147. -/
def dispatchAvx2 : Bool :=
  if (∃ v ∈ m.gnuc, 4 < v) ∨ (∃ v ∈ m.mscVer, 1900 ≤ v) ∨ (∃ v ∈ m.mscFullVer, 180030501 ≤ v) ∨
      m.hasAvx2H = true then true
  else false

/-- `XXH_DISPATCH_AVX512`, xxh_x86dispatch.c:162-171. -/
def dispatchAvx512 : Bool :=
  if (∃ v ∈ m.gnuc, 4 < v ∨ (v = 4 ∧ 9 ≤ m.gnucMinor)) ∨ (∃ v ∈ m.mscVer, 1910 ≤ v) ∨ m.hasAvx512H = true then true
  else false

/-- The build of the dispatcher; `checkCpuid`: xxh_x86dispatch.c:379, `maybeNull`: 245-252. -/
def dispatchBuild : Dispatch.Build where
  scalar := dispatchScalar m
  avx2 := dispatchAvx2 m
  avx512 := dispatchAvx512 m
  maybeNull := !m.hasConstructor
  checkCpuid := decide (m.gnuc.isSome ∧ m.i386 = true)

end XXH.Model.Select
