import Verif.Model.XXH3Stream
/-!
Model of the x86 run-time dispatcher, /repo/xxh_x86dispatch.c.

The file includes xxhash.h with `XXH_INLINE_ALL` and `XXH_X86DISPATCH`; `cfg` describes that copy of
xxhash.h (`cfg.vector` is what the compiler flags select for it, `cfg.x86dispatch = true`).
The `assert`s of `XXH_setDispatch` are compiled out (`NDEBUG`, xxh_x86dispatch.c:216-225) and not modelled.
One thread only; with `XXH_DISPATCH_MAYBE_NULL` several threads may run `XXH_setDispatch`, see `DispatchThreads`.
-/
namespace XXH.Model.Dispatch
open Simd XXH3

/-- Build options of xxh_x86dispatch.c. -/
structure Build where
  /-- `XXH_DISPATCH_SCALAR`, xxh_x86dispatch.c:101-124 -/
  scalar : Bool
  /-- `XXH_DISPATCH_AVX2`, 125-147 -/
  avx2 : Bool
  /-- `XXH_DISPATCH_AVX512`, 149-171 -/
  avx512 : Bool
  /-- `XXH_DISPATCH_MAYBE_NULL`, 245-252: there are no constructor functions, the tables are filled lazily -/
  maybeNull : Bool
  /-- `defined(__GNUC__) && defined(__i386__)`, 379: check that CPUID exists -/
  checkCpuid : Bool

/-- The registers written by CPUID. -/
structure Regs where
  eax : W32
  ebx : W32
  ecx : W32
  edx : W32

/-- A processor (with the operating system's XCR0). -/
structure Cpu where
  /-- the ID flag of EFLAGS can be changed: CPUID exists -/
  hasCpuid : Bool
  /-- CPUID with the given `eax`, `ecx` -/
  cpuid : Nat → Nat → Regs
  /-- XCR0 -/
  xcr0 : W64

/-- `XXH_cpuid`, xxh_x86dispatch.c:282-327. Undefined (`none`) without CPUID, or for a leaf that the
processor does not have. -/
def cpuid (cpu : Cpu) (eax ecx : Nat) : Option Regs := do
  assert cpu.hasCpuid
  assert (eax ≤ (cpu.cpuid 0 0).eax.toNat)
  return cpu.cpuid eax ecx

/-- `XXH_xgetbv`, xxh_x86dispatch.c:334-350. An invalid instruction (`none`) unless the OS has set
CR4.OSXSAVE, which CPUID leaf 1 reports in bit 27 of `ecx`. -/
def xgetbv (cpu : Cpu) : Option W64 := do
  let r ← cpuid cpu 1 0
  assert (r.ecx.getLsbD 27)
  return cpu.xcr0

/-- `XXH_SSE2_CPUID_MASK` ... `XXH_AVX512F_XGETBV_MASK`, xxh_x86dispatch.c:354-359. -/
def SSE2_CPUID_MASK : W32 := 1 <<< 26
@[inherit_doc SSE2_CPUID_MASK] def OSXSAVE_CPUID_MASK : W32 := (1 <<< 26) ||| (1 <<< 27)
@[inherit_doc SSE2_CPUID_MASK] def AVX2_CPUID_MASK : W32 := 1 <<< 5
@[inherit_doc SSE2_CPUID_MASK] def AVX2_XGETBV_MASK : W64 := (1 <<< 2) ||| (1 <<< 1)
@[inherit_doc SSE2_CPUID_MASK] def AVX512F_CPUID_MASK : W32 := 1 <<< 16
@[inherit_doc SSE2_CPUID_MASK] def AVX512F_XGETBV_MASK : W64 := (7 <<< 5) ||| (1 <<< 2) ||| (1 <<< 1)

/-- The `vecID`s: `XXH_SCALAR`, `XXH_SSE2`, `XXH_AVX2`, `XXH_AVX512` = 0..3, xxhash.h:3854-3868. -/
inductive Vec
  | scalar | sse2 | avx2 | avx512
deriving DecidableEq

/-- `XXH_featureTest`, xxh_x86dispatch.c:371-488. The innermost two `#if` blocks are written as
`testAvx2`, `testAvx512`. -/
def testAvx512 (b : Build) (r : Regs) (xgetbv_val : W64) (best : Vec) : Vec :=
  if b.avx512 then
    if r.ebx &&& AVX512F_CPUID_MASK ≠ AVX512F_CPUID_MASK then best
    else if xgetbv_val &&& AVX512F_XGETBV_MASK ≠ AVX512F_XGETBV_MASK then best
    else .avx512
  else best

@[inherit_doc testAvx512]
def testAvx2 (b : Build) (r : Regs) (xgetbv_val : W64) (best : Vec) : Vec :=
  if b.avx2 then
    if r.ebx &&& AVX2_CPUID_MASK ≠ AVX2_CPUID_MASK then best
    else if xgetbv_val &&& AVX2_XGETBV_MASK ≠ AVX2_XGETBV_MASK then best
    else testAvx512 b r xgetbv_val .avx2
  else testAvx512 b r xgetbv_val best

@[inherit_doc testAvx512]
def featureTest (b : Build) (cpu : Cpu) : Option Vec :=
  if b.checkCpuid ∧ cpu.hasCpuid = false then some .scalar
  else do
    let r0 ← cpuid cpu 0 0
    let max_leaves := r0.eax
    if max_leaves = 0 then some .scalar
    else do
      let r1 ← cpuid cpu 1 0
      if r1.edx &&& SSE2_CPUID_MASK ≠ SSE2_CPUID_MASK then some .scalar
      else if b.avx2 ∨ b.avx512 then
        if max_leaves.toNat < 7 then some .sse2
        else if r1.ecx &&& OSXSAVE_CPUID_MASK ≠ OSXSAVE_CPUID_MASK then some .sse2
        else do
          let r7 ← cpuid cpu 7 0
          let v ← xgetbv cpu
          some (testAvx2 b r7 v .sse2)
      else some .sse2

/-! ### The functions made by `XXH_DEFINE_DISPATCH_FUNCS` -/

/-- `XXH3_accumulate_##suffix` -/
def accumulateOf (cfg : Cfg) : Vec → FAccumulate
  | .scalar => accumulateTemplate (accumulate_512_scalar cfg)
  | .sse2 => accumulateTemplate (accumulate_512_sse2 cfg)
  | .avx2 => accumulateTemplate (accumulate_512_avx2 cfg)
  | .avx512 => accumulateTemplate (accumulate_512_avx512 cfg)

/-- `XXH3_scrambleAcc_##suffix` -/
def scrambleOf (cfg : Cfg) : Vec → Scramble
  | .scalar => scrambleAcc_scalar cfg
  | .sse2 => scrambleAcc_sse2 cfg
  | .avx2 => scrambleAcc_avx2 cfg
  | .avx512 => scrambleAcc_avx512 cfg

/-- `XXH3_initCustomSecret_##suffix` -/
def initOf (cfg : Cfg) : Vec → FInitCustomSecret
  | .scalar => initCustomSecret_scalar cfg
  | .sse2 => initCustomSecret_sse2 cfg
  | .avx2 => initCustomSecret_avx2 cfg
  | .avx512 => initCustomSecret_avx512 cfg

/-- `XXHL64_default_##suffix`, xxh_x86dispatch.c:508-517. -/
def XXHL64_default (cfg : Cfg) (v : Vec) (input : Buf) (len : Nat) : Option W64 :=
  hashLong_64b_internal cfg input len (kSecret cfg) SECRET_DEFAULT_SIZE (accumulateOf cfg v) (scrambleOf cfg v)

/-- `XXHL64_seed_##suffix`, xxh_x86dispatch.c:521-529. -/
def XXHL64_seed (cfg : Cfg) (v : Vec) (input : Buf) (len : Nat) (seed : W64) : Option W64 :=
  hashLong_64b_withSeed_internal cfg input len seed (accumulateOf cfg v) (scrambleOf cfg v) (initOf cfg v)

/-- `XXHL64_secret_##suffix`, xxh_x86dispatch.c:533-542. -/
def XXHL64_secret (cfg : Cfg) (v : Vec) (input : Buf) (len : Nat) (secret : Buf) (secretLen : Nat) :
    Option W64 :=
  hashLong_64b_internal cfg input len secret secretLen (accumulateOf cfg v) (scrambleOf cfg v)

/-- `XXH3_update_##suffix`, xxh_x86dispatch.c:546-552. -/
def update_vec (cfg : Cfg) (v : Vec) (s : State) (input : Ptr) (len : Nat) : Option (State × Err) :=
  update cfg s input len (accumulateOf cfg v) (scrambleOf cfg v)

/-- `XXHL128_default_##suffix`, xxh_x86dispatch.c:556-564. -/
def XXHL128_default (cfg : Cfg) (v : Vec) (input : Buf) (len : Nat) : Option H128 :=
  hashLong_128b_internal cfg input len (kSecret cfg) SECRET_DEFAULT_SIZE (accumulateOf cfg v) (scrambleOf cfg v)

/-- `XXHL128_secret_##suffix`, xxh_x86dispatch.c:568-577. -/
def XXHL128_secret (cfg : Cfg) (v : Vec) (input : Buf) (len : Nat) (secret : Buf) (secretLen : Nat) :
    Option H128 :=
  hashLong_128b_internal cfg input len secret secretLen (accumulateOf cfg v) (scrambleOf cfg v)

/-- `XXHL128_seed_##suffix`, xxh_x86dispatch.c:581-588. -/
def XXHL128_seed (cfg : Cfg) (v : Vec) (input : Buf) (len : Nat) (seed : W64) : Option H128 :=
  hashLong_128b_withSeed_internal cfg input len seed (accumulateOf cfg v) (scrambleOf cfg v) (initOf cfg v)

/-! ### Tables -/

/-- `XXH_dispatchFunctions_s` and `XXH_dispatch128Functions_s`, xxh_x86dispatch.c:618-623, 664-669;
`none` is a `NULL` function pointer. -/
structure Table (O : Type) where
  hashLong_default : Option (Buf → Nat → Option O)
  hashLong_seed : Option (Buf → Nat → W64 → Option O)
  hashLong_secret : Option (Buf → Nat → Buf → Nat → Option O)
  update : Option (State → Ptr → Nat → Option (State × Err))

/-- `{ NULL, NULL, NULL, NULL }` -/
def Table.null (O : Type) : Table O := ⟨none, none, none, none⟩

/-- The code for this vector kind is compiled in. -/
def Build.has (b : Build) : Vec → Bool
  | .scalar => b.scalar
  | .sse2 => true
  | .avx2 => b.avx2
  | .avx512 => b.avx512

/-- `XXH_kDispatch[vecID]`, xxh_x86dispatch.c:634-651. -/
def kDispatch (b : Build) (cfg : Cfg) (v : Vec) : Table W64 :=
  if b.has v then ⟨some (XXHL64_default cfg v), some (XXHL64_seed cfg v), some (XXHL64_secret cfg v),
    some (update_vec cfg v)⟩
  else .null W64

/-- `XXH_kDispatch128[vecID]`, xxh_x86dispatch.c:680-697. -/
def kDispatch128 (b : Build) (cfg : Cfg) (v : Vec) : Table H128 :=
  if b.has v then ⟨some (XXHL128_default cfg v), some (XXHL128_seed cfg v), some (XXHL128_secret cfg v),
    some (update_vec cfg v)⟩
  else .null H128

/-- `XXH_g_dispatch`, `XXH_g_dispatch128`, xxh_x86dispatch.c:655, 703. -/
structure Globals where
  g_dispatch : Table W64
  g_dispatch128 : Table H128

/-- Their initial values. -/
def Globals.init : Globals := ⟨.null W64, .null H128⟩

/-- `XXH_setDispatch`, xxh_x86dispatch.c:709-725. -/
def setDispatch (b : Build) (cfg : Cfg) (cpu : Cpu) : Option Globals := do
  let vecID ← featureTest b cpu
  return ⟨kDispatch b cfg vecID, kDispatch128 b cfg vecID⟩

/-- `if (XXH_DISPATCH_MAYBE_NULL && f == NULL) XXH_setDispatch();` where `isNull` tells whether `f` is
`NULL`. -/
def lazySet (b : Build) (cfg : Cfg) (cpu : Cpu) (isNull : Bool) (g : Globals) : Option Globals :=
  if b.maybeNull && isNull then setDispatch b cfg cpu else some g

/-- The globals when `main` starts: constructor functions have run if there are any. -/
def atMain (b : Build) (cfg : Cfg) (cpu : Cpu) : Option Globals :=
  if b.maybeNull then some .init else setDispatch b cfg cpu

section
variable (b : Build) (cfg : Cfg) (cpu : Cpu) (g : Globals)

/-- `XXH3_hashLong_64b_defaultSecret_selection`, xxh_x86dispatch.c:731-739: `lazySet` and the call. -/
def hashLong_64b_defaultSecret_selection : FHashLong W64 := fun input len _ _ _ => do
  let g ← lazySet b cfg cpu g.g_dispatch.hashLong_default.isNone g
  let f ← g.g_dispatch.hashLong_default
  f input len

/-- `XXH3_64bits_dispatch`, xxh_x86dispatch.c:741-744. All dispatch functions also return the new
values of the globals, which change only if the selection function was called. -/
def XXH3_64bits_dispatch (input : Ptr) (len : Nat) : Option (W64 × Globals) := do
  let h ← bits64_internal cfg input len 0 (some (kSecret cfg)) SECRET_DEFAULT_SIZE
    (some (hashLong_64b_defaultSecret_selection b cfg cpu g))
  let g ← if MIDSIZE_MAX < len then lazySet b cfg cpu g.g_dispatch.hashLong_default.isNone g else some g
  return (h, g)

/-- `XXH3_hashLong_64b_withSeed_selection`, xxh_x86dispatch.c:746-754. -/
def hashLong_64b_withSeed_selection : FHashLong W64 := fun input len seed64 _ _ => do
  let g ← lazySet b cfg cpu g.g_dispatch.hashLong_seed.isNone g
  let f ← g.g_dispatch.hashLong_seed
  f input len seed64

/-- `XXH3_64bits_withSeed_dispatch`, xxh_x86dispatch.c:756-759. -/
def XXH3_64bits_withSeed_dispatch (input : Ptr) (len : Nat) (seed : W64) : Option (W64 × Globals) := do
  let h ← bits64_internal cfg input len seed (some (kSecret cfg)) SECRET_DEFAULT_SIZE
    (some (hashLong_64b_withSeed_selection b cfg cpu g))
  let g ← if MIDSIZE_MAX < len then lazySet b cfg cpu g.g_dispatch.hashLong_seed.isNone g else some g
  return (h, g)

/-- `XXH3_hashLong_64b_withSecret_selection`, xxh_x86dispatch.c:761-769. -/
def hashLong_64b_withSecret_selection : FHashLong W64 := fun input len _ secret secretLen => do
  let g ← lazySet b cfg cpu g.g_dispatch.hashLong_secret.isNone g
  let f ← g.g_dispatch.hashLong_secret
  f input len secret secretLen

/-- `XXH3_64bits_withSecret_dispatch`, xxh_x86dispatch.c:771-774. -/
def XXH3_64bits_withSecret_dispatch (input : Ptr) (len : Nat) (secret : Ptr) (secretLen : Nat) :
    Option (W64 × Globals) := do
  let h ← bits64_internal cfg input len 0 secret secretLen
    (some (hashLong_64b_withSecret_selection b cfg cpu g))
  let g ← if MIDSIZE_MAX < len then lazySet b cfg cpu g.g_dispatch.hashLong_secret.isNone g else some g
  return (h, g)

/-- `XXH3_64bits_update_dispatch`, xxh_x86dispatch.c:776-783. -/
def XXH3_64bits_update_dispatch (s : State) (input : Ptr) (len : Nat) : Option ((State × Err) × Globals) := do
  let g ← lazySet b cfg cpu g.g_dispatch.update.isNone g
  let f ← g.g_dispatch.update
  return (← f s input len, g)

/-- `XXH3_hashLong_128b_defaultSecret_selection`, xxh_x86dispatch.c:791-799. -/
def hashLong_128b_defaultSecret_selection : FHashLong H128 := fun input len _ _ _ => do
  let g ← lazySet b cfg cpu g.g_dispatch128.hashLong_default.isNone g
  let f ← g.g_dispatch128.hashLong_default
  f input len

/-- `XXH3_128bits_dispatch`, xxh_x86dispatch.c:801-804. -/
def XXH3_128bits_dispatch (input : Ptr) (len : Nat) : Option (H128 × Globals) := do
  let h ← bits128_internal cfg input len 0 (some (kSecret cfg)) SECRET_DEFAULT_SIZE
    (some (hashLong_128b_defaultSecret_selection b cfg cpu g))
  let g ← if MIDSIZE_MAX < len then lazySet b cfg cpu g.g_dispatch128.hashLong_default.isNone g else some g
  return (h, g)

/-- `XXH3_hashLong_128b_withSeed_selection`, xxh_x86dispatch.c:806-814. -/
def hashLong_128b_withSeed_selection : FHashLong H128 := fun input len seed64 _ _ => do
  let g ← lazySet b cfg cpu g.g_dispatch128.hashLong_seed.isNone g
  let f ← g.g_dispatch128.hashLong_seed
  f input len seed64

/-- `XXH3_128bits_withSeed_dispatch`, xxh_x86dispatch.c:816-819. -/
def XXH3_128bits_withSeed_dispatch (input : Ptr) (len : Nat) (seed : W64) : Option (H128 × Globals) := do
  let h ← bits128_internal cfg input len seed (some (kSecret cfg)) SECRET_DEFAULT_SIZE
    (some (hashLong_128b_withSeed_selection b cfg cpu g))
  let g ← if MIDSIZE_MAX < len then lazySet b cfg cpu g.g_dispatch128.hashLong_seed.isNone g else some g
  return (h, g)

/-- `XXH3_hashLong_128b_withSecret_selection`, xxh_x86dispatch.c:821-829. -/
def hashLong_128b_withSecret_selection : FHashLong H128 := fun input len _ secret secretLen => do
  let g ← lazySet b cfg cpu g.g_dispatch128.hashLong_secret.isNone g
  let f ← g.g_dispatch128.hashLong_secret
  f input len secret secretLen

/-- `XXH3_128bits_withSecret_dispatch`, xxh_x86dispatch.c:831-834. -/
def XXH3_128bits_withSecret_dispatch (input : Ptr) (len : Nat) (secret : Ptr) (secretLen : Nat) :
    Option (H128 × Globals) := do
  let h ← bits128_internal cfg input len 0 secret secretLen
    (some (hashLong_128b_withSecret_selection b cfg cpu g))
  let g ← if MIDSIZE_MAX < len then lazySet b cfg cpu g.g_dispatch128.hashLong_secret.isNone g else some g
  return (h, g)

/-- `XXH3_128bits_update_dispatch`, xxh_x86dispatch.c:836-842. -/
def XXH3_128bits_update_dispatch (s : State) (input : Ptr) (len : Nat) : Option ((State × Err) × Globals) := do
  let g ← lazySet b cfg cpu g.g_dispatch128.update.isNone g
  let f ← g.g_dispatch128.update
  return (← f s input len, g)

end
end XXH.Model.Dispatch
