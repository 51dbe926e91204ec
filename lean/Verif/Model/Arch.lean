import Verif.Model.CliTrace
import Verif.Model.Select
/-!
Model of cli/xsum_arch.h and of the welcome message of xxhsum: what `xxhsum --version` says the program was
compiled for and with. The text is put together from predefined macros; it never looks at `XXH_VECTOR`.

Left out: the value of a macro that is only asked to be defined; a definition of a macro that is not a decimal number
where the code calculates with it.
-/
namespace XXH.Model.Arch
open Model.Cli Model.Select

/-- The macros that cli/xsum_arch.h looks at and xxhash.h does not. -/
structure Extra where
  dispatch : Bool := false                        -- XXHSUM_DISPATCH
  arm : Bool := false                             -- __arm__
  thumb : Option Nat := none                      -- __thumb__
  thumb2 : Bool := false                          -- __thumb2__
  powerpc64 : Bool := false                       -- __powerpc64__ or __ppc64__
  power9 : Bool := false                          -- __POWER9_VECTOR__
  ppc : Bool := false                             -- __powerpc__, __ppc__ or __PPC__
  avr : Bool := false                             -- __AVR
  mips64 : Bool := false                          -- __mips64
  mips : Bool := false                            -- __mips
  s390 : Bool := false                            -- __s390__
  emscripten : Bool := false                      -- __asmjs__ or __EMSCRIPTEN__
  clangVersion : Option (List Byte) := none       -- __clang_version__
  appleBuild : Bool := false                      -- __apple_build_version__
  versionText : Option (List Byte) := none        -- __VERSION__
  intel : Bool := false                           -- __INTEL_COMPILER
  mscBuild : Option Nat := none                   -- _MSC_BUILD
  tinyc : Option Nat := none                      -- __TINYC__

/-- `printf("%0wi", n)` for `0 ≤ n` -/
def padText (w n : Nat) : List Byte := List.replicate (w - (decText n).length) (str "0").head! ++ decText n

/-- `XSUM_PROGRAM_VERSION`, cli/xsum_arch.h:35-38, with the numbers of xxhash.h:548-550. -/
def programVersion : List Byte := decText 0 ++ str "." ++ decText 8 ++ str "." ++ decText 3

variable (m : Macros) (e : Extra)

/-- `XSUM_CC_VERSION_FMT` with `XSUM_CC_VERSION` put in, cli/xsum_arch.h:43-79. -/
def ccVersion : List Byte :=
  match e.clangVersion, e.versionText, m.mscFullVer, e.mscBuild, m.mscVer, e.tinyc with
  | some v, _, _, _, _, _ => (if e.appleBuild then str "Apple Clang " else str "Clang ") ++ v
  | none, some v, _, _, _, _ => if e.intel then v else str "GCC " ++ v
  | none, none, some f, some b, _, _ =>
    str "MSVC " ++ padText 2 (f / 10000000 % 100) ++ str "." ++ padText 2 (f / 100000 % 100) ++ str "." ++
      padText 5 (f % 100000) ++ str "." ++ padText 2 b
  | none, none, _, _, some v, _ => str "MSVC " ++ padText 2 (v / 100) ++ str "." ++ padText 2 (v % 100)
  | none, none, _, _, none, some t =>
    str "tcc " ++ decText (t / 10000 % 100) ++ str "." ++ decText (t / 100 % 100) ++ str "." ++ decText (t % 100)
  | none, none, _, _, none, none => str "unknown compiler"

/-- `XSUM_ARCH_X86`, cli/xsum_arch.h:81-87. -/
def archX86 : Option (List Byte) :=
  if (m.x86_64 = true ∨ m.m_amd64 = true ∨ m.m_x64 = true) ∧ m.m_arm64ec = false then some (str "x86_64")
  else if m.i386 = true ∨ m.m_ix86 = true ∨ m.m_ix86_fp.isSome then some (str "i386")
  else none

/-- `XSUM_ARCH` for x86, cli/xsum_arch.h:90-104. -/
def x86Text (x86 : List Byte) : List Byte :=
  if e.dispatch = true then x86 ++ str " autoVec"
  else if m.avx512f = true then x86 ++ str " + AVX512"
  else if m.avx2 = true then x86 ++ str " + AVX2"
  else if m.avx = true then x86 ++ str " + AVX"
  else if m.m_x64 = true ∨ m.m_amd64 = true ∨ m.x86_64 = true ∨ m.sse2 = true ∨ m.m_ix86_fp = some 2 then
    x86 ++ str " + SSE2"
  else x86

/-- `XSUM_ARCH_ARM_VER`, cli/xsum_arch.h:113-117: the macro's value quoted, or the macro's name when neither is
defined. -/
def armVer : List Byte :=
  match m.armArch, m.m_arm with
  | some v, _ => decText v
  | none, some v => decText v
  | none, none => str "_M_ARM"

/-- `XSUM_ARCH_THUMB`, cli/xsum_arch.h:118-125. -/
def armThumb : List Byte :=
  if m.m_arm.isSome ∨ e.thumb2 = true ∨ (e.thumb.isSome ∧ (e.thumb = some 2 ∨ 7 ≤ m.armArch.getD 0)) then str " Thumb-2"
  else if e.thumb.isSome then str " Thumb-1"
  else []

/-- `XSUM_ARCH_UNALIGNED`, cli/xsum_arch.h:126-131; an undefined macro counts as 0. -/
def armUnaligned : List Byte :=
  if m.armUnaligned = true ∨ 7 ≤ m.armArch.getD 0 ∨ m.m_arm.isSome then str " + unaligned" else []

/-- `XSUM_ARCH_NEON`, cli/xsum_arch.h:132-136. -/
def armNeon : List Byte := if m.armNeon = true ∨ m.m_arm.isSome then str " + NEON" else []

/-- `XSUM_ARCH` for 32-bit ARM, cli/xsum_arch.h:112-137. -/
def armText : List Byte := str "ARMv" ++ armVer m ++ armThumb m e ++ armNeon m ++ armUnaligned m

/-- `XSUM_ARCH`, cli/xsum_arch.h:89-166. -/
def arch : List Byte :=
  match archX86 m with
  | some x86 => x86Text m e x86
  | none =>
    if m.aarch64 = true ∨ m.arm64 = true ∨ m.m_arm64 = true ∨ m.m_arm64ec = true then
      if m.armSve = true then str "aarch64 + SVE" else str "aarch64 + NEON"
    else if e.arm = true ∨ e.thumb.isSome ∨ e.thumb2 = true ∨ m.m_arm.isSome then armText m e
    else if e.powerpc64 = true ∨ m.ppc64 = true then
      if m.gnuc.isSome ∧ e.power9 = true then str "ppc64 + POWER9 vector"
      else if m.gnuc.isSome ∧ m.power8 = true then str "ppc64 + POWER8 vector"
      else str "ppc64"
    else if e.ppc = true then str "ppc"
    else if e.avr = true then str "AVR"
    else if e.mips64 = true then str "mips64"
    else if e.mips = true then str "mips"
    else if m.s390x = true then str "s390x"
    else if e.s390 = true then str "s390"
    else if m.wasm = true ∨ e.emscripten = true then
      if m.wasmSimd128 = true then str "wasm/asmjs + simd128" else str "wasm/asmjs"
    else str "unknown"

/-- `ENDIAN_NAME`, cli/xxhsum.c:60-69, by `XSUM_isLittleEndian`, which is `XXH_isLittleEndian` once more. -/
def endianName (t : Target) : List Byte := if isLittleEndian t then str "little endian" else str "big endian"

/-- The second line of `FULL_WELCOME_MESSAGE`, cli/xxhsum.c:66, 72-75. -/
def compiled (t : Target) : List Byte :=
  str "compiled as " ++ decText (t.ptrBytes * 8) ++ str "-bit " ++ arch m e ++ str " " ++ endianName t ++ str " with " ++
    ccVersion m e ++ str " \n"

end XXH.Model.Arch
