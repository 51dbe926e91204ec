import Verif.Model.Select
import Verif.Props.Build
import Verif.Props.Dispatch
/-!
**C53.** The builds chosen by the preprocessor: every default build for a compiler whose predefined macros are true
is one the theorems of this project speak about, with the single exception of SVE on big-endian AArch64.
-/
namespace XXH.Props
open Model Model.Select Examples
open Model.Dispatch (Cpu)

/-- The predefined macros are true of the target. -/
structure Honest (m : Macros) (t : Target) : Prop where
  /-- macros that promise little-endian memory: the three that say so, and those of x86 -/
  little : m.win32 = true ∨ m.littleEndian = true ∨ m.byteOrder = some .little ∨ m.avx512f = true ∨
    m.avx2 = true ∨ m.sse2 = true ∨ m.m_amd64 = true ∨ m.m_x64 = true ∨ m.m_ix86_fp.isSome → t.littleEndian = true
  /-- macros that promise big-endian memory -/
  big : m.bigEndian = true ∨ m.byteOrder = some .big → t.littleEndian = false
  sizeLo : 16 ≤ t.sizeBits
  sizeHi : t.sizeBits ≤ 64
  /-- SVE registers have a multiple of 128 bits -/
  sve : m.armSve = true → 2 ≤ t.sveElems ∧ t.sveElems % 2 = 0

/-- What a user may put on the command line: true statements about the target. -/
structure Sane (o : Options) (t : Target) : Prop where
  direct : o.forceMemoryAccess = some 2 → t.hwUnaligned = true
  endian : ∀ b ∈ o.cpuLittleEndian, b = t.littleEndian
  vector : ∀ v ∈ o.vector, v ∈ [.sse2, .avx2, .avx512, .neon] → t.littleEndian = true
  lanes : ∀ n ∈ o.neonLanes, n ∈ [2, 4, 6, 8]
  vsx : ∀ b ∈ o.vsxBE, b = !t.littleEndian

/-- No command line options. -/
theorem sane_default (t : Target) (d : Bool) : Sane { x86dispatch := d } t := by
  constructor <;> simp

/-- The compiler respects `XXH_ALIGN` (unless it is defined away) and the alignment of the types. -/
structure Placed (m : Macros) (cfg : Cfg) (t : Target) : Prop where
  kSecret : alignWorks m = true → cfg.kSecretAddr % 64 = 0
  acc : alignWorks m = true → cfg.accAddr % cfg.accAlign = 0
  accType : cfg.accAddr % t.alignU64 = 0
  sec : alignWorks m = true → cfg.secAddr % cfg.secAlign = 0

section
variable {m : Macros} {o : Options} {t : Target} {p : Place}

/-- **C53.** `XXH_CPU_LITTLE_ENDIAN` is the byte order of the memory, whether it comes from a macro or from the test at
run time. -/
theorem C53_endian (h : Honest m t) (s : Sane o t) : cpuLittleEndian m o t = t.littleEndian := by
  unfold cpuLittleEndian
  cases ho : o.cpuLittleEndian with
  | some b => exact s.endian b ho
  | none =>
    simp only
    split
    · rename_i hc
      rw [h.little (by rcases hc with hc | hc | hc <;> simp [hc])]
    · split
      · rename_i hc
        rw [h.big hc]
      · unfold isLittleEndian
        cases t.littleEndian <;> decide

/-- **C53.** `XXH_VSX_BE` is the byte order of the memory, if the compiler says on big-endian machines that they are,
and does not number the vector elements against the byte order (`-maltivec=be`). -/
theorem C53_vsx (h : Honest m t) (s : Sane o t)
    (hb : t.littleEndian = false → m.bigEndian = true ∨ m.byteOrder = some .big)
    (he : m.vecElementOrder = some .big → t.littleEndian = false) : vsxBE m o = !t.littleEndian := by
  unfold vsxBE
  cases ho : o.vsxBE with
  | some b => exact s.vsx b ho
  | none =>
    simp only
    split
    · rename_i hc
      rw [h.big hc]; rfl
    · rename_i hc
      split
      · rename_i hv
        rw [he hv]; rfl
      · cases hl : t.littleEndian with
        | true => rfl
        | false => exact absurd (hb hl) hc

/-- Where each vector kind comes from. -/
theorem vector_cases (h : Honest m t) (s : Sane o t) (hv : vector m o ∈ [.sse2, .avx2, .avx512, .neon]) :
    t.littleEndian = true := by
  have e : vector m o = vector0 m o := by
    unfold vector at hv ⊢
    split at hv
    · simp at hv
    · rename_i hs
      rw [if_neg hs]
  rw [e] at hv
  unfold vector0 at hv
  cases ho : o.vector with
  | some v =>
    simp only [ho] at hv
    exact s.vector v ho hv
  | none =>
    simp only [ho] at hv
    split at hv
    · simp at hv
    · split at hv
      · rename_i hc
        apply h.little
        rcases hc.2 with hc | hc | hc <;> simp [hc]
      · split at hv
        · rename_i hc; exact h.little (by simp [hc])
        · split at hv
          · rename_i hc; exact h.little (by simp [hc])
          · split at hv
            · rename_i hc
              apply h.little
              rcases hc with hc | hc | hc | hc <;> simp [hc]
            · split at hv <;> simp at hv

/-- SVE is only selected where the compiler has it. -/
theorem vector_sve (hv : vector m o = .sve) : m.armSve = true := by
  unfold vector at hv
  split at hv
  · cases hv
  · rename_i hs
    cases ha : m.armSve with
    | true => rfl
    | false => exact absurd ⟨hv, ha⟩ hs

/-- The compiler says on big-endian machines that they are, and does not number vector elements against the byte order
(`-maltivec=be`); only VSX needs it. -/
structure VsxNative (m : Macros) (t : Target) : Prop where
  big : t.littleEndian = false → m.bigEndian = true ∨ m.byteOrder = some .big
  order : m.vecElementOrder = some .big → t.littleEndian = false

/-- The build is valid, and the three statements about the byte order that the model does not distinguish agree. -/
structure Faithful (m : Macros) (o : Options) (t : Target) (p : Place) : Prop where
  valid : (build m o t p).Valid
  endian : cpuLittleEndian m o t = (build m o t p).littleEndian
  vsx : (build m o t p).vector = .vsx → vsxBE m o = !(build m o t p).littleEndian

theorem valid_of (h : Honest m t) (s : Sane o t) (ha : alignWorks m = true) (hp : Placed m (build m o t p) t)
    (hs : ¬ (vector m o = .sve ∧ t.littleEndian = false)) : (build m o t p).Valid where
  sizeLo := h.sizeLo
  sizeHi := h.sizeHi
  direct := by
    intro hd
    have hd : memAccess m o = .direct := hd
    apply s.direct
    unfold memAccess forceMemoryAccess at hd
    cases ho : o.forceMemoryAccess with
    | some n =>
      simp only [ho] at hd
      split at hd <;> rename_i he <;> cases hd
      exact he
    | none =>
      simp only [ho] at hd
      split at hd <;> rename_i he <;> cases hd
      split at he <;> cases he
  simdLE := by
    intro hv
    have hv : vector m o ∈ [.sse2, .avx2, .avx512, .neon, .sve] := hv
    show t.littleEndian = true
    by_cases h5 : vector m o = .sve
    · cases hl : t.littleEndian with
      | true => rfl
      | false => exact absurd ⟨h5, hl⟩ hs
    · apply vector_cases h s
      simp only [List.mem_cons, List.not_mem_nil, or_false] at hv ⊢
      tauto
  neonLanes := by
    intro _
    show neonLanes m o ∈ [2, 4, 6, 8]
    unfold neonLanes
    cases ho : o.neonLanes with
    | some n => exact s.lanes n ho
    | none =>
      simp only
      split <;> simp
  sve := fun hv => h.sve (vector_sve hv)
  kSecret := hp.kSecret ha
  acc := hp.acc ha
  sec := hp.sec ha

/-- **C53.** Every build with true macros and true options is valid, and described faithfully, except SVE on a
big-endian machine. -/
theorem C53_valid (h : Honest m t) (s : Sane o t) (ha : alignWorks m = true) (hp : Placed m (build m o t p) t)
    (hv : vector m o = .vsx → VsxNative m t)
    (hs : ¬ (vector m o = .sve ∧ t.littleEndian = false)) : Faithful m o t p :=
  ⟨valid_of h s ha hp hs, C53_endian h s, fun e => C53_vsx h s (hv e).big (hv e).order⟩

/-- **C53.** The build without any option. -/
theorem C53_default_valid (h : Honest m t) (ha : alignWorks m = true) (hp : Placed m (build m {} t p) t)
    (hv : vector m {} = .vsx → VsxNative m t)
    (hs : ¬ (m.armSve = true ∧ t.littleEndian = false)) : Faithful m {} t p :=
  C53_valid h (sane_default t false) ha hp hv fun hc => hs ⟨vector_sve hc.1, hc.2⟩

/-- **C53.** By default memory is never read through a cast pointer or byte by byte, and `__attribute__((aligned(1)))`
is only used where it exists. -/
theorem C53_memory_access (m : Macros) :
    memAccess m {} = .memcpy ∨ (memAccess m {} = .packed ∧ m.gnuc.isSome) := by
  unfold memAccess forceMemoryAccess
  simp only
  split <;> rename_i he
  · split at he <;> cases he
  · split at he <;> cases he
  · split at he
    · rename_i hg; exact .inr ⟨rfl, hg.1⟩
    · cases he
  · exact .inl rfl

/-- **C53.** By default the number of NEON lanes passes its static assertion, xxhash.h:5233. -/
theorem C53_neon_lanes (m : Macros) (h : o.neonLanes = none) :
    0 < neonLanes m o ∧ neonLanes m o ≤ 8 ∧ neonLanes m o % 2 = 0 := by
  unfold neonLanes
  rw [h]
  simp only
  split <;> decide

end

/-- A default build of xxhash.h with a compiler that tells the truth, and not SVE on a big-endian machine. -/
structure DefaultBuild (cfg : Cfg) : Prop where
  ex : ∃ m t p, Honest m t ∧ alignWorks m = true ∧ ¬ (m.armSve = true ∧ t.littleEndian = false) ∧
    (vector m {} = .vsx → VsxNative m t) ∧ Placed m (build m {} t p) t ∧ cfg = build m {} t p

theorem DefaultBuild.valid {cfg : Cfg} (h : DefaultBuild cfg) : cfg.Valid := by
  obtain ⟨m, t, p, h1, h2, h3, h5, h4, rfl⟩ := h.ex
  exact (C53_default_valid h1 h2 h4 h5 h3).valid

/-- **C53.** Any two default builds compute the same hashes of the same bytes, and none of them is undefined. -/
theorem C53_portable {cfg₁ cfg₂ : Cfg} (h₁ : DefaultBuild cfg₁) (h₂ : DefaultBuild cfg₂) {p₁ p₂ : Ptr} {len : Nat}
    (hp₁ : Readable cfg₁ p₁ len) (hp₂ : Readable cfg₂ p₂ len) (hp : contents p₁ = contents p₂) (seed : W64) :
    (Model.XXH32.XXH32 cfg₁ p₁ len (seed.setWidth 32) = Model.XXH32.XXH32 cfg₂ p₂ len (seed.setWidth 32) ∧
      Model.XXH32.XXH32 cfg₁ p₁ len (seed.setWidth 32) ≠ none) ∧
    (Model.XXH64.XXH64 cfg₁ p₁ len seed = Model.XXH64.XXH64 cfg₂ p₂ len seed ∧
      Model.XXH64.XXH64 cfg₁ p₁ len seed ≠ none) ∧
    (Model.XXH3.XXH3_64bits_withSeed cfg₁ p₁ len seed = Model.XXH3.XXH3_64bits_withSeed cfg₂ p₂ len seed ∧
      Model.XXH3.XXH3_64bits_withSeed cfg₁ p₁ len seed ≠ none) ∧
    (Model.XXH3.XXH3_128bits_withSeed cfg₁ p₁ len seed = Model.XXH3.XXH3_128bits_withSeed cfg₂ p₂ len seed ∧
      Model.XXH3.XXH3_128bits_withSeed cfg₁ p₁ len seed ≠ none) := by
  have v₁ := h₁.valid
  have v₂ := h₂.valid
  refine ⟨⟨C14_XXH32_portable v₁ v₂ hp₁ hp₂ hp _, C12_XXH32_safe v₁ hp₁ _⟩,
    ⟨C14_XXH64_portable v₁ v₂ hp₁ hp₂ hp _, C12_XXH64_safe v₁ hp₁ _⟩,
    ⟨C14_XXH3_64bits_withSeed_portable v₁ v₂ hp₁ hp₂ hp _, ?_⟩,
    ⟨C14_XXH3_128bits_withSeed_portable v₁ v₂ hp₁ hp₂ hp _, ?_⟩⟩
  · rw [C03_XXH3_64bits_withSeed_eq_spec v₁ hp₁]; exact nofun
  · rw [C04_XXH3_128bits_withSeed_eq_spec v₁ hp₁]; exact nofun

/-! ### Alignment -/

/-- **C53.** `XXH_ACC_ALIGN` and `XXH_SEC_ALIGN` divide 64, so that the members of `XXH3_state_t` (xxhash.h:1746-1752) and
what `XXH3_createState` returns have them. -/
theorem C53_align_divides (cfg : Cfg) : cfg.accAlign ∣ 64 ∧ cfg.secAlign ∣ 64 := by
  have h1 : cfg.accAlign ∣ 64 := by
    unfold Cfg.accAlign
    repeat' split
    all_goals decide
  refine ⟨h1, ?_⟩
  unfold Cfg.secAlign
  split
  · exact h1
  · split
    · exact h1
    · decide

/-- **C53.** The declared alignment is needed: with accumulators elsewhere the stripe function of the selected vector
kind is undefined (SVE has no such demand for the stripes; its alignment is for scrambling). -/
theorem C53_acc_align_needed {cfg : Cfg} (hx : cfg.x86dispatch = false) (hv : cfg.vector ≠ .sve) {a io so : Nat}
    (ha : a % cfg.accAlign ≠ 0) (acc : Acc) (b s : Buf) :
    Model.XXH3.accumulate_512 cfg a acc b io s so = none := by
  unfold Cfg.accAlign at ha
  rw [hx] at ha
  cases hk : cfg.vector <;> simp only [hk, Bool.false_eq_true, if_false] at ha <;>
    simp only [Model.XXH3.accumulate_512, hk]
  · simp [Simd.accumulate_512_scalar, List.finRange, Simd.scalarRound, Cfg.accAlign, hx, hk, ha, assert]
  · simp [Simd.accumulate_512_sse2, ha, assert]
  · simp [Simd.accumulate_512_avx2, ha, assert]
  · simp [Simd.accumulate_512_avx512, ha, assert]
  · simp [Simd.accumulate_512_neon, ha, assert]
  · simp [Simd.accumulate_512_vsx, ha, assert]
  · exact absurd hk hv

/-! ### Compilers -/

/-- GCC for x86-64 Linux, without options and with the given standard. -/
def gccX64 : Macros where
  gnuc := some 13
  gnucMinor := 2
  stdcVersion := some 201710
  x86_64 := true
  sse2 := true
  byteOrder := some .little
  sizeofInt128 := true
  hasAvx2H := true
  hasAvx512H := true
  hasConstructor := true

/-- GCC for i686 Linux: no SSE2, no 128-bit integers. -/
def gccX86 : Macros where
  gnuc := some 13
  gnucMinor := 2
  stdcVersion := some 201710
  i386 := true
  byteOrder := some .little
  hasConstructor := true

/-- Visual Studio for x64. -/
def mscX64 : Macros where
  mscVer := some 1930
  mscFullVer := some 193030705
  m_x64 := true
  m_amd64 := true
  win32 := true

/-- Visual Studio for 64-bit ARM. -/
def mscArm64 : Macros where
  mscVer := some 1930
  m_arm64 := true
  win32 := true

/-- Clang for 64-bit ARM macOS. -/
def clangApple : Macros where
  gnuc := some 4
  gnucMinor := 2
  clang := true
  stdcVersion := some 201710
  aarch64 := true
  arm64 := true
  armArch := some 8
  armUnaligned := true
  armNeon := true
  apple := true
  littleEndian := true
  byteOrder := some .little
  sizeofInt128 := true
  hasArmNeonH := true
  hasConstructor := true

/-- GCC for s390x with `-mzvector -march=z14`. -/
def gccS390 : Macros where
  gnuc := some 13
  gnucMinor := 2
  stdcVersion := some 201710
  s390x := true
  vec := true
  byteOrder := some .big
  sizeofInt128 := true

/-- GCC for little-endian POWER8. -/
def gccPpc64le : Macros where
  gnuc := some 13
  gnucMinor := 2
  stdcVersion := some 201710
  ppc64 := true
  power8 := true
  littleEndian := true
  byteOrder := some .little
  vecElementOrder := some .little
  sizeofInt128 := true

/-- GCC for ARMv6 Linux, which has misaligned word accesses. -/
def gccArmv6 : Macros where
  gnuc := some 13
  gnucMinor := 2
  stdcVersion := some 201710
  armArch := some 6
  armUnaligned := true
  byteOrder := some .little

/-- GCC for big-endian AArch64 with `-march=armv8-a+sve`. -/
def gccSveBE : Macros where
  gnuc := some 13
  gnucMinor := 2
  stdcVersion := some 201710
  aarch64 := true
  armArch := some 8
  armUnaligned := true
  armSve := true
  armNeon := true
  byteOrder := some .big
  sizeofInt128 := true
  hasArmNeonH := true

/-- A C11 compiler that predefines nothing else. -/
def plainC11 : Macros where
  stdcVersion := some 201112

/-- A 64-bit machine. -/
def machine64 (le : Bool) : Target where
  littleEndian := le
  hwUnaligned := true
  sizeBits := 64
  ptrBytes := 8
  alignU64 := 8
  sveElems := 4

/-- A 32-bit machine, where a 64-bit integer is aligned to 4 bytes only. -/
def machine32 (le : Bool) : Target where
  littleEndian := le
  hwUnaligned := false
  sizeBits := 32
  ptrBytes := 4
  alignU64 := 4
  sveElems := 0

/-- Arrays where 64-byte alignment puts them. -/
def place64 : Place where
  kSecretAddr := 0x4000
  accAddr := 0x7ff040
  secAddr := 0x7ff0c0
  tmpAddr := 0x7ff201

/-- **C53.** What these compilers get, and that each is a default build the theorems cover. -/
theorem C53_examples :
    (vector gccX64 {} = .sse2 ∧ memAccess gccX64 {} = .packed ∧ DefaultBuild (build gccX64 {} (machine64 true) place64)) ∧
    (vector gccX86 {} = .scalar ∧ portableMul gccX86 = true ∧
      DefaultBuild (build gccX86 {} (machine32 true) place64)) ∧
    (vector mscX64 {} = .sse2 ∧ memAccess mscX64 {} = .memcpy ∧
      DefaultBuild (build mscX64 {} (machine64 true) place64)) ∧
    (vector mscArm64 {} = .neon ∧ neonLanes mscArm64 {} = 6 ∧ DefaultBuild (build mscArm64 {} (machine64 true) place64)) ∧
    (vector clangApple {} = .neon ∧ neonLanes clangApple {} = 8 ∧ streamUseStack clangApple {} = false ∧
      DefaultBuild (build clangApple {} (machine64 true) place64)) ∧
    (vector gccS390 {} = .vsx ∧ vsxBE gccS390 {} = true ∧ DefaultBuild (build gccS390 {} (machine64 false) place64)) ∧
    (vector gccPpc64le {} = .vsx ∧ vsxBE gccPpc64le {} = false ∧
      DefaultBuild (build gccPpc64le {} (machine64 true) place64)) ∧
    (vector gccArmv6 {} = .scalar ∧ memAccess gccArmv6 {} = .memcpy ∧ forceAlignCheck gccArmv6 {} = false ∧
      DefaultBuild (build gccArmv6 {} (machine32 true) place64)) ∧
    (∀ le, vector plainC11 {} = .scalar ∧ memAccess plainC11 {} = .memcpy ∧ forceAlignCheck plainC11 {} = true ∧
      cpuLittleEndian plainC11 {} (machine32 le) = le ∧ DefaultBuild (build plainC11 {} (machine32 le) place64)) := by
  have key : ∀ (m : Macros) (t : Target), Honest m t → alignWorks m = true →
      ¬ (m.armSve = true ∧ t.littleEndian = false) → (vector m {} = .vsx → VsxNative m t) →
      Placed m (build m {} t place64) t →
      DefaultBuild (build m {} t place64) := fun m t a b c d e => ⟨m, t, place64, a, b, c, d, e, rfl⟩
  refine ⟨⟨?_, ?_, ?_⟩, ⟨?_, ?_, ?_⟩, ⟨?_, ?_, ?_⟩, ⟨?_, ?_, ?_⟩, ⟨?_, ?_, ?_, ?_⟩, ⟨?_, ?_, ?_⟩, ⟨?_, ?_, ?_⟩,
    ⟨?_, ?_, ?_, ?_⟩, fun le => ?_⟩
  on_goal 27 => cases le <;> refine ⟨?_, ?_, ?_, ?_, ?_⟩
  all_goals first
    | decide
    | (refine key _ _ ?_ ?_ ?_ ?_ ?_
       · constructor <;> decide
       · decide
       · decide
       · first
         | exact fun h => absurd h (by decide)
         | exact fun _ => by constructor <;> decide
       · constructor <;> decide)

/-- **C53.** GCC for big-endian AArch64 selects SVE (the test for little-endian machines is only in the branch for
NEON, xxhash.h:3898-3906): macros and addresses are as they should be, but the build is not valid and its hash of a
1000-byte input is not the one of the other builds. -/
theorem C53_sve_big_endian :
    Honest gccSveBE (machine64 false) ∧ alignWorks gccSveBE = true ∧
    Placed gccSveBE (build gccSveBE {} (machine64 false) place64) (machine64 false) ∧
    vector gccSveBE {} = .sve ∧
    ¬ (build gccSveBE {} (machine64 false) place64).Valid ∧
    Model.XXH3.XXH3_64bits (build gccSveBE {} (machine64 false) place64) kilo 1000 ≠
      Model.XXH3.XXH3_64bits (build gccX64 {} (machine64 true) place64) kilo 1000 := by
  refine ⟨?_, by decide, ?_, by decide, fun h => absurd (h.simdLE (by decide)) (by decide), by decide +kernel⟩
  · constructor <;> decide
  · constructor <;> decide

/-- **C53.** Without `__ARM_FEATURE_SVE` the same machine gets the scalar code, and the same hash as everywhere. -/
theorem C53_neon_big_endian :
    vector { gccSveBE with armSve := false } {} = .scalar ∧
    DefaultBuild (build { gccSveBE with armSve := false } {} (machine64 false) place64) := by
  refine ⟨by decide, ⟨{ gccSveBE with armSve := false }, machine64 false, place64, ?_, by decide, by decide, nofun, ?_, rfl⟩⟩
  · constructor <;> decide
  · constructor <;> decide

/-- **C53.** `XXH_VECTOR = XXH_SVE` on the command line without the feature gives the scalar code. -/
theorem C53_sve_fallback (m : Macros) (o : Options) (h : m.armSve = false) (ho : o.vector = some .sve) :
    vector m o = .scalar := by
  unfold vector vector0
  simp [h, ho]

/-- **C53.** `-maltivec=be` on a little-endian POWER: `XXH_VSX_BE` says big-endian and `XXH_CPU_LITTLE_ENDIAN` little, so
the hypothesis of `C53_vsx` about the element order cannot be dropped. -/
theorem C53_altivec_be :
    vector { gccPpc64le with vecElementOrder := some .big } {} = .vsx ∧
    vsxBE { gccPpc64le with vecElementOrder := some .big } {} = true ∧
    cpuLittleEndian { gccPpc64le with vecElementOrder := some .big } {} (machine64 true) = true := by
  decide

/-- **C53.** The condition for VSX is not limited to GCC on PPC64: `&&` binds tighter than `||`, so a compiler without
`__GNUC__` gets VSX on POWER8, and not on s390x. -/
theorem C53_vsx_without_gcc :
    vector { gccPpc64le with gnuc := none } {} = .vsx ∧ vector { gccS390 with gnuc := none } {} = .scalar := by
  decide

/-! ### Headers -/

/-- **C53.** GCC, Clang and Visual Studio get the header with the intrinsics of the selected vector kind, provided AVX512
comes with AVX2, the 64-bit x86 macros of Visual Studio are only defined by Visual Studio, and there is no `_M_ARM` below 7
in a compiler with `__GNUC__`. VSX needs altivec.h or s390intrin.h, included apart (xxhash.h:4145-4156). -/
theorem C53_headers {m : Macros} {o : Options} (ho : o.vector = none)
    (h512 : m.avx512f = true → m.avx2 = true)
    (hms : m.m_amd64 = true ∨ m.m_x64 = true ∨ m.m_ix86_fp.isSome → m.mscVer.isSome)
    (harm : ∀ v ∈ m.m_arm, v < 7 → m.mscVer.isSome)
    (hc : m.gnuc.isSome ∨ m.clang = true ∨ m.mscVer.isSome)
    (hsve : m.armSve = true → m.gnuc.isSome ∨ m.clang = true)
    (hx : m.avx2 = true ∨ m.sse2 = true → m.armNeon = false ∧ m.m_arm = none ∧ m.m_arm64 = false ∧ m.m_arm64ec = false ∧
      m.wasmSimd128 = false) :
    (vector m o = .sve → Header.arm_sve ∈ headers m) ∧
    (vector m o = .neon → Header.arm_neon ∈ headers m ∨ Header.intrin ∈ headers m) ∧
    (vector m o = .avx512 ∨ vector m o = .avx2 → Header.immintrin ∈ headers m ∨ Header.intrin ∈ headers m) ∧
    (vector m o = .sse2 → Header.emmintrin ∈ headers m ∨ Header.intrin ∈ headers m) := by
  have hm : m.mscVer.isSome → Header.intrin ∈ headers m := by
    intro h; unfold headers; rw [if_pos h]; simp
  have hg : m.mscVer.isSome = false → m.gnuc.isSome ∨ m.clang = true := by
    intro h; rcases hc with h' | h' | h'
    · exact .inl h'
    · exact .inr h'
    · rw [h] at h'; cases h'
  have e : vector m o = vector0 m o ∧ (vector0 m o = .sve → m.armSve = true) := by
    have : vector0 m o = .sve → m.armSve = true := by
      unfold vector0; rw [ho]; simp only
      split
      · exact fun _ => by assumption
      all_goals repeat' split
      all_goals exact nofun
    refine ⟨?_, this⟩
    unfold vector
    rw [if_neg]
    rintro ⟨h1, h2⟩
    rw [this h1] at h2; cases h2
  rw [e.1]
  refine ⟨fun h => ?_, fun h => ?_, fun h => ?_, fun h => ?_⟩
  · have h1 := e.2 h
    unfold headers
    rw [if_pos (hsve h1), if_pos h1]; simp
  all_goals
    by_cases hv : m.mscVer.isSome = true
    · exact .inr (hm hv)
    rw [Bool.not_eq_true] at hv
    left
    have hgg := hg hv
    unfold vector0 at h
    rw [ho] at h
    simp only at h
    unfold headers
    rw [if_pos hgg]
  · split at h
    · cases h
    · split at h
      · rename_i hn
        have : m.armNeon = true ∨ (∃ v ∈ m.m_arm, 7 ≤ v) ∨ m.m_arm64 = true ∨ m.m_arm64ec = true ∨
            (m.wasmSimd128 = true ∧ m.hasArmNeonH = true) := by
          rcases hn.1 with h1 | h1 | h1 | h1 | h1
          · exact .inl h1
          · obtain ⟨v, hv'⟩ := Option.isSome_iff_exists.mp h1
            refine .inr (.inl ⟨v, hv', ?_⟩)
            by_contra hlt
            have := harm v hv' (by omega)
            rw [hv] at this; cases this
          · exact .inr (.inr (.inl h1))
          · exact .inr (.inr (.inr (.inl h1)))
          · exact .inr (.inr (.inr (.inr h1)))
        exact List.mem_append_left _ (List.mem_append_right _ (by rw [if_pos this]; exact List.mem_singleton.mpr rfl))
      · repeat' split at h
        all_goals cases h
  · have h2 : m.avx2 = true := by
      split at h
      · rcases h with h | h <;> cases h
      · split at h
        · rcases h with h | h <;> cases h
        · split at h
          · exact h512 (by assumption)
          · split at h
            · assumption
            · repeat' split at h
              all_goals rcases h with h | h <;> cases h
    obtain ⟨a1, a2, a3, a4, a5⟩ := hx (.inl h2)
    simp [a1, a2, a3, a4, a5, h2]
  · split at h
    · cases h
    · split at h
      · cases h
      · split at h
        · cases h
        · split at h
          · cases h
          · split at h
            · rename_i hn2 hn
              have h2 : m.sse2 = true := by
                rcases hn with h1 | h1 | h1 | h1
                · exact h1
                · have := hms (.inl h1); rw [hv] at this; cases this
                · have := hms (.inr (.inl h1)); rw [hv] at this; cases this
                · have := hms (.inr (.inr (by rw [h1]; rfl))); rw [hv] at this; cases this
              obtain ⟨a1, a2, a3, a4, a5⟩ := hx (.inr h2)
              simp [a1, a2, a3, a4, a5, hn2, h2]
            · repeat' split at h
              all_goals cases h

example := C53_headers (m := gccX64) (o := {}) rfl (by decide) (by decide) (by decide) (by decide) (by decide)
  (by decide)
example := C53_headers (m := clangApple) (o := {}) rfl (by decide) (by decide) (by decide) (by decide) (by decide)
  (by decide)

/-- **C53.** The hypothesis about `_M_ARM` is needed: with Clang posing as an ARMv6 Visual Studio without `_MSC_VER`,
NEON is selected but its header is not included (xxhash.h:3739 asks for `_M_ARM >= 7`, 3900 does not). -/
theorem C53_m_arm_mismatch :
    let m : Macros := { gnuc := some 4, clang := true, m_arm := some 6, win32 := true }
    vector m {} = .neon ∧ headers m = [] := by
  decide

/-! ### The dispatcher -/

/-- **C53.** A default build of xxh_x86dispatch.c runs correctly on every processor that has what the compiler was told:
SSE2 if `__SSE2__` or a 64-bit target or Android or macOS, CPUID if it is not checked for. -/
theorem C53_dispatch {m : Macros} {t : Target} {p : Place} {cpu : Cpu} (h : Honest m t) (hle : t.littleEndian = true)
    (ha : alignWorks m = true) (hp : Placed m (build m { x86dispatch := true } t p) t)
    (hcpuid : (m.gnuc.isSome ∧ m.i386 = true) ∨ cpu.hasCpuid = true)
    (hx : (cpu.cpuid 1 0).ecx.getLsbD 27 = true → (cpu.cpuid 1 0).ecx.getLsbD 26 = true)
    (hs : m.sse2 = true ∨ (∃ v ∈ m.m_ix86_fp, 2 ≤ v) ∨ m.x86_64 = true ∨ m.m_x64 = true ∨ m.android = true ∨
      m.apple = true → Supports cpu .sse2) :
    Usable (dispatchBuild m) cpu ∧ DispatchCfg (build m { x86dispatch := true } t p) := by
  refine ⟨⟨?_, hx, ?_⟩, ⟨valid_of h (sane_default t true) ha hp (fun hc => ?_), hle, rfl⟩⟩
  · rcases hcpuid with h1 | h1
    · exact .inl (decide_eq_true h1)
    · exact .inr h1
  · by_cases hc : m.sse2 = true ∨ (∃ v ∈ m.m_ix86_fp, 2 ≤ v) ∨ m.x86_64 = true ∨ m.m_x64 = true ∨ m.android = true ∨
        m.apple = true
    · exact .inr (hs hc)
    · exact .inl (if_neg hc)
  · rw [hle] at hc; cases hc.2

/-- **C53.** A 64-bit GCC has both vector extensions compiled in, and no scalar code. -/
theorem C53_dispatch_gcc :
    dispatchCompiles gccX64 = true ∧ dispatchBuild gccX64 = ⟨false, true, true, false, false⟩ ∧
    dispatchCompiles { gccX64 with avx := true, avx2 := true } = false ∧
    dispatchCompiles gccX86 = true ∧ dispatchBuild gccX86 = ⟨true, true, true, false, true⟩ ∧
    dispatchCompiles mscX64 = true ∧ dispatchBuild mscX64 = ⟨false, true, true, true, false⟩ ∧
    dispatchCompiles clangApple = false := by
  refine ⟨by decide, ?_, by decide, by decide, ?_, by decide, ?_, by decide⟩ <;>
    simp [dispatchBuild, dispatchScalar, dispatchAvx2, dispatchAvx512, gccX64, gccX86, mscX64]

example : Usable (dispatchBuild gccX64) haswell ∧
    DispatchCfg (build gccX64 { x86dispatch := true } (machine64 true) place64) :=
  C53_dispatch (by constructor <;> decide) rfl (by decide) (by constructor <;> decide) (.inr rfl)
    (fun _ => by decide) (fun _ => by decide)

/-! ### The theorems applied -/

example : vector gccX64 { vector := some .sve } = .scalar := C53_sve_fallback _ _ rfl rfl

example : 0 < neonLanes clangApple {} ∧ neonLanes clangApple {} ≤ 8 ∧ neonLanes clangApple {} % 2 = 0 := C53_neon_lanes _ rfl

/-- Accumulators at an address that is not a multiple of 16. -/
example (acc : Acc) (b s : Buf) : Model.XXH3.accumulate_512 x64 8 acc b 0 s 0 = none := C53_acc_align_needed rfl (by decide) (by decide) acc b s

example : cpuLittleEndian gccS390 {} (machine64 false) = false :=
  C53_endian (by constructor <;> decide) (sane_default _ false)

example : vsxBE gccPpc64le {} = false :=
  C53_vsx (t := machine64 true) (by constructor <;> decide) (sane_default _ false) (by decide) (by decide)

/-- AVX2 asked for on the command line, with plain loads. -/
example : Faithful gccX64 { vector := some .avx2, forceMemoryAccess := some 2 } (machine64 true) place64 :=
  C53_valid (by constructor <;> decide) (by constructor <;> simp [machine64]) (by decide) (by constructor <;> decide)
    (fun h => absurd h (by decide)) (by decide)

/-- The big-endian System z and x86-64 agree. -/
example : Model.XXH64.XXH64 (build gccX64 {} (machine64 true) place64) abc 3 7 =
    Model.XXH64.XXH64 (build gccS390 {} (machine64 false) place64) abc 3 7 :=
  (C53_portable C53_examples.1.2.2 C53_examples.2.2.2.2.2.1.2.2 (p₁ := abc) (p₂ := abc) (len := 3) ⟨rfl, by unfold Buf.Fits; decide⟩
    ⟨rfl, by unfold Buf.Fits; decide⟩ rfl 7).2.1.1

end XXH.Props
