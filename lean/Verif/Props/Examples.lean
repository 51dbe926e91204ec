import Verif.Props.Common
/-!
Concrete configurations and buffers used to show that hypotheses can be met.
-/
namespace XXH.Examples
open Model

/-- A typical x86-64 GCC build. -/
def x64 : Cfg where
  littleEndian := true
  memAccess := .packed
  hwUnaligned := true
  sizeOpt := 0
  alignCheck := false
  endJmp := false
  sizeBits := 64
  stream := true
  portableMul := false
  ptr32 := false
  vector := .sse2
  neonLanes := 8
  neonWasm := false
  sveElems := 0
  x86dispatch := false
  streamUseStack := true
  kSecretAddr := 0x4000
  accAddr := 0x7ff010
  secAddr := 0x7ff110
  tmpAddr := 0x7ff201

theorem x64_valid : x64.Valid := by constructor <;> decide

/-- A 32-bit big-endian build with byte-wise access and alignment checks. -/
def be32 : Cfg where
  littleEndian := false
  memAccess := .byteshift
  hwUnaligned := false
  sizeOpt := 0
  alignCheck := true
  endJmp := true
  sizeBits := 32
  stream := true
  portableMul := true
  ptr32 := true
  vector := .scalar
  neonLanes := 8
  neonWasm := false
  sveElems := 0
  x86dispatch := false
  streamUseStack := false
  kSecretAddr := 0x4000
  accAddr := 0x2008
  secAddr := 0x2108
  tmpAddr := 0x2201

theorem be32_valid : be32.Valid := by constructor <;> decide

/-- "abc" at an odd address. -/
def abc : Ptr := some ⟨1001, [0x61, 0x62, 0x63]⟩

theorem abc_readable : Readable x64 abc 3 := ⟨rfl, by unfold Buf.Fits; decide⟩

/-- 1000 bytes at an odd address. -/
def kilo : Ptr := some ⟨4097, (List.range 1000).map (BitVec.ofNat 8)⟩

theorem kilo_readable (cfg : Cfg) (hc : cfg.Valid) : Readable cfg kilo 1000 := by
  have hl : kilo.buf.bytes.length = 1000 := by simp [kilo, Ptr.buf]
  refine ⟨hl, ?_⟩
  have h1 := hc.sizeLo
  have h2 : 2 ^ 15 ≤ 2 ^ (cfg.sizeBits - 1) := Nat.pow_le_pow_right (by decide) (by omega)
  unfold Buf.Fits
  rw [hl]; omega

theorem null_readable (cfg : Cfg) : Readable cfg none 0 :=
  ⟨rfl, by unfold Buf.Fits; simp [Ptr.buf, Nat.pow_pos]⟩

/-- A big-endian PowerPC build with VSX, optimised for size. -/
def ppc64be : Cfg where
  littleEndian := false
  memAccess := .memcpy
  hwUnaligned := true
  sizeOpt := 1
  alignCheck := false
  endJmp := false
  sizeBits := 64
  stream := true
  portableMul := true
  ptr32 := false
  vector := .vsx
  neonLanes := 8
  neonWasm := false
  sveElems := 0
  x86dispatch := false
  streamUseStack := true
  kSecretAddr := 0x8000
  accAddr := 0x7ff010
  secAddr := 0x7ff108
  tmpAddr := 0x7ff201

theorem ppc64be_valid : ppc64be.Valid := by constructor <;> decide

/-- An AArch64 build with SVE. -/
def sveLE : Cfg := { x64 with vector := .sve, sveElems := 4, accAddr := 0x7ff040, secAddr := 0x7ff0c0 }

theorem sveLE_valid : sveLE.Valid := by constructor <;> decide

/-- An AArch64 NEON build with a lane split. -/
def neon6 : Cfg := { x64 with vector := .neon, neonLanes := 6 }

theorem neon6_valid : neon6.Valid := by constructor <;> decide

/-- A secret of the minimum size at an odd address. -/
def secret136 : Ptr := some ⟨777, (List.range 136).map fun i => BitVec.ofNat 8 (37 * i + 11)⟩

theorem secret136_readable (cfg : Cfg) (hc : cfg.Valid) : Readable cfg secret136 136 := by
  have hl : secret136.buf.bytes.length = 136 := by simp [secret136, Ptr.buf]
  refine ⟨hl, ?_⟩
  have h1 := hc.sizeLo
  have h2 : 2 ^ 15 ≤ 2 ^ (cfg.sizeBits - 1) := Nat.pow_le_pow_right (by decide) (by omega)
  unfold Buf.Fits
  rw [hl]; omega

end XXH.Examples
