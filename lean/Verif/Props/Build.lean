import Verif.Props.XXH32
import Verif.Props.XXH64
import Verif.Props.XXH3
/-!
Independence of platform and build, memory safety of the one-shot functions, vector back ends and
the multiplication: C12, C14, C15, C16, and the relations C19 (one-shot part) and C22.
-/
namespace XXH.Props
open XXH.Model XXH.Examples

/-! ### C12: every access is inside the objects the caller passed

`none` is the outcome of any access outside `[input, input+len)` or `[secret, secret+size)`, of any
misaligned wide access the build does not allow, of a violated assumption and of a loop overrun.  The
objects of `Readable` have exactly the announced size. -/

theorem C12_XXH32_safe {cfg : Cfg} (hc : cfg.Valid) {p : Ptr} {len : Nat} (hp : Readable cfg p len)
    (seed : W32) : Model.XXH32.XXH32 cfg p len seed ≠ none := by
  rw [C01_XXH32_eq_spec hc hp]; exact nofun

theorem C12_XXH64_safe {cfg : Cfg} (hc : cfg.Valid) {p : Ptr} {len : Nat} (hp : Readable cfg p len)
    (seed : W64) : Model.XXH64.XXH64 cfg p len seed ≠ none := by
  rw [C02_XXH64_eq_spec hc hp]; exact nofun

theorem C12_XXH3_safe {cfg : Cfg} (hc : cfg.Valid) {p q : Ptr} {len size : Nat}
    (hp : Readable cfg p len) (hq : Readable cfg q size) (hs : 136 ≤ size) (seed : W64) :
    Model.XXH3.XXH3_64bits cfg p len ≠ none ∧
    Model.XXH3.XXH3_64bits_withSeed cfg p len seed ≠ none ∧
    Model.XXH3.XXH3_64bits_withSecret cfg p len q size ≠ none ∧
    Model.XXH3.XXH3_64bits_withSecretandSeed cfg p len q size seed ≠ none ∧
    Model.XXH3.XXH3_128bits cfg p len ≠ none ∧
    Model.XXH3.XXH3_128bits_withSeed cfg p len seed ≠ none ∧
    Model.XXH3.XXH3_128bits_withSecret cfg p len q size ≠ none ∧
    Model.XXH3.XXH3_128bits_withSecretandSeed cfg p len q size seed ≠ none := by
  refine ⟨?_, ?_, ?_, ?_, ?_, ?_, ?_, ?_⟩
  · rw [C03_XXH3_64bits_eq_spec hc hp]; exact nofun
  · rw [C03_XXH3_64bits_withSeed_eq_spec hc hp]; exact nofun
  · rw [C03_XXH3_64bits_withSecret_eq_spec hc hp hq hs]; exact nofun
  · by_cases h : len ≤ 240
    · rw [C05_64_short hc hp h, C03_XXH3_64bits_withSeed_eq_spec hc hp]; exact nofun
    · rw [C05_64_long hc hp hq hs (by omega), C03_XXH3_64bits_withSecret_eq_spec hc hp hq hs]
      exact nofun
  · rw [C04_XXH3_128bits_eq_spec hc hp]; exact nofun
  · rw [C04_XXH3_128bits_withSeed_eq_spec hc hp]; exact nofun
  · rw [C04_XXH3_128bits_withSecret_eq_spec hc hp hq hs]; exact nofun
  · by_cases h : len ≤ 240
    · rw [C05_128_short hc hp h, C04_XXH3_128bits_withSeed_eq_spec hc hp]; exact nofun
    · rw [C05_128_long hc hp hq hs (by omega), C04_XXH3_128bits_withSecret_eq_spec hc hp hq hs]
      exact nofun

/-- The outcome `none` is real: announcing one byte more than the object has is caught, for every
length class. -/
example : Model.XXH3.XXH3_64bits x64 abc 4 = none := by decide +kernel
example : Model.XXH3.XXH3_128bits x64 kilo 1001 = none := by decide +kernel
example : Model.XXH32.XXH32 x64 abc 4 0 = none := by decide +kernel
example : Model.XXH64.XXH64 x64 kilo 1001 0 = none := by decide +kernel
/-- A secret of 135 bytes is rejected (its last stripe would still fit, but not in every case). -/
example : Model.XXH3.XXH3_64bits_withSecret x64 kilo 1000 secret136 135 = none := by decide +kernel
example : Model.XXH3.XXH3_64bits_withSecret x64 none 0 secret136 136 ≠ none :=
  (C12_XXH3_safe x64_valid (null_readable _) (secret136_readable _ x64_valid) (by decide) 0).2.2.1

example (seed : W32) : Model.XXH32.XXH32 be32 kilo 1000 seed ≠ none :=
  C12_XXH32_safe be32_valid (kilo_readable _ be32_valid) seed
example (seed : W64) : Model.XXH64.XXH64 be32 kilo 1000 seed ≠ none :=
  C12_XXH64_safe be32_valid (kilo_readable _ be32_valid) seed

/-! ### C14: all builds and all placements of the data agree -/

section C14
variable {cfg₁ cfg₂ : Cfg} (h₁ : cfg₁.Valid) (h₂ : cfg₂.Valid) {p₁ p₂ q₁ q₂ : Ptr} {len size : Nat}
  (hp₁ : Readable cfg₁ p₁ len) (hp₂ : Readable cfg₂ p₂ len) (hp : contents p₁ = contents p₂)
  (hq₁ : Readable cfg₁ q₁ size) (hq₂ : Readable cfg₂ q₂ size) (hq : contents q₁ = contents q₂)
include h₁ h₂ hp₁ hp₂ hp

theorem C14_XXH32_portable (seed : W32) :
    Model.XXH32.XXH32 cfg₁ p₁ len seed = Model.XXH32.XXH32 cfg₂ p₂ len seed := by
  rw [C01_XXH32_eq_spec h₁ hp₁, C01_XXH32_eq_spec h₂ hp₂, hp]

theorem C14_XXH64_portable (seed : W64) :
    Model.XXH64.XXH64 cfg₁ p₁ len seed = Model.XXH64.XXH64 cfg₂ p₂ len seed := by
  rw [C02_XXH64_eq_spec h₁ hp₁, C02_XXH64_eq_spec h₂ hp₂, hp]

theorem C14_XXH3_64bits_portable :
    Model.XXH3.XXH3_64bits cfg₁ p₁ len = Model.XXH3.XXH3_64bits cfg₂ p₂ len := by
  rw [C03_XXH3_64bits_eq_spec h₁ hp₁, C03_XXH3_64bits_eq_spec h₂ hp₂, hp]

theorem C14_XXH3_64bits_withSeed_portable (seed : W64) :
    Model.XXH3.XXH3_64bits_withSeed cfg₁ p₁ len seed =
      Model.XXH3.XXH3_64bits_withSeed cfg₂ p₂ len seed := by
  rw [C03_XXH3_64bits_withSeed_eq_spec h₁ hp₁, C03_XXH3_64bits_withSeed_eq_spec h₂ hp₂, hp]

include hq₁ hq₂ hq in
theorem C14_XXH3_64bits_withSecret_portable (hs : 136 ≤ size) :
    Model.XXH3.XXH3_64bits_withSecret cfg₁ p₁ len q₁ size =
      Model.XXH3.XXH3_64bits_withSecret cfg₂ p₂ len q₂ size := by
  rw [C03_XXH3_64bits_withSecret_eq_spec h₁ hp₁ hq₁ hs,
    C03_XXH3_64bits_withSecret_eq_spec h₂ hp₂ hq₂ hs, hp, hq]

theorem C14_XXH3_128bits_portable :
    Model.XXH3.XXH3_128bits cfg₁ p₁ len = Model.XXH3.XXH3_128bits cfg₂ p₂ len := by
  rw [C04_XXH3_128bits_eq_spec h₁ hp₁, C04_XXH3_128bits_eq_spec h₂ hp₂, hp]

theorem C14_XXH3_128bits_withSeed_portable (seed : W64) :
    Model.XXH3.XXH3_128bits_withSeed cfg₁ p₁ len seed =
      Model.XXH3.XXH3_128bits_withSeed cfg₂ p₂ len seed := by
  rw [C04_XXH3_128bits_withSeed_eq_spec h₁ hp₁, C04_XXH3_128bits_withSeed_eq_spec h₂ hp₂, hp]

include hq₁ hq₂ hq in
theorem C14_XXH3_128bits_withSecret_portable (hs : 136 ≤ size) :
    Model.XXH3.XXH3_128bits_withSecret cfg₁ p₁ len q₁ size =
      Model.XXH3.XXH3_128bits_withSecret cfg₂ p₂ len q₂ size := by
  rw [C04_XXH3_128bits_withSecret_eq_spec h₁ hp₁ hq₁ hs,
    C04_XXH3_128bits_withSecret_eq_spec h₂ hp₂ hq₂ hs, hp, hq]

include hq₁ hq₂ hq in
theorem C14_XXH3_withSecretandSeed_portable (hs : 136 ≤ size) (seed : W64) :
    Model.XXH3.XXH3_64bits_withSecretandSeed cfg₁ p₁ len q₁ size seed =
      Model.XXH3.XXH3_64bits_withSecretandSeed cfg₂ p₂ len q₂ size seed ∧
    Model.XXH3.XXH3_128bits_withSecretandSeed cfg₁ p₁ len q₁ size seed =
      Model.XXH3.XXH3_128bits_withSecretandSeed cfg₂ p₂ len q₂ size seed := by
  by_cases h : len ≤ 240
  · rw [C05_64_short h₁ hp₁ h, C05_64_short h₂ hp₂ h, C05_128_short h₁ hp₁ h, C05_128_short h₂ hp₂ h]
    exact ⟨C14_XXH3_64bits_withSeed_portable h₁ h₂ hp₁ hp₂ hp seed,
      C14_XXH3_128bits_withSeed_portable h₁ h₂ hp₁ hp₂ hp seed⟩
  · have h' : 240 < len := by omega
    rw [C05_64_long h₁ hp₁ hq₁ hs h', C05_64_long h₂ hp₂ hq₂ hs h', C05_128_long h₁ hp₁ hq₁ hs h',
      C05_128_long h₂ hp₂ hq₂ hs h']
    exact ⟨C14_XXH3_64bits_withSecret_portable h₁ h₂ hp₁ hp₂ hp hq₁ hq₂ hq hs,
      C14_XXH3_128bits_withSecret_portable h₁ h₂ hp₁ hp₂ hp hq₁ hq₂ hq hs⟩

end C14

/-- The same thousand bytes at another address. -/
def kiloAt3 : Ptr := some ⟨3, contents kilo⟩

theorem kiloAt3_readable {cfg : Cfg} (hc : cfg.Valid) : Readable cfg kiloAt3 1000 := by
  have h := kilo_readable cfg hc
  generalize hk : kilo = k at h
  refine ⟨?_, ?_⟩ <;> simp only [kiloAt3, Ptr.buf, Option.getD, Buf.Fits, contents, hk]
  · exact h.length
  · exact h.fits

/-- Little-endian SSE2, direct access, 64 bits against big-endian VSX, size-optimised, portable
multiplication, data at another address. -/
example (seed : W64) :
    Model.XXH3.XXH3_128bits_withSeed x64 kilo 1000 seed =
      Model.XXH3.XXH3_128bits_withSeed ppc64be kiloAt3 1000 seed :=
  C14_XXH3_128bits_withSeed_portable x64_valid ppc64be_valid (kilo_readable _ x64_valid)
    (kiloAt3_readable ppc64be_valid) (by unfold kiloAt3; generalize contents kilo = c; rfl) seed

example : Model.XXH3.XXH3_64bits_withSecret x64 kilo 1000 secret136 136 =
    Model.XXH3.XXH3_64bits_withSecret be32 kilo 1000 secret136 136 :=
  C14_XXH3_64bits_withSecret_portable x64_valid be32_valid (kilo_readable _ x64_valid) (kilo_readable _ be32_valid) rfl
    (secret136_readable _ x64_valid) (secret136_readable _ be32_valid) rfl (by decide)

/-! ### C15: vector back ends -/

/-- **C15.** On a little-endian CPU the stripe functions of all back ends are the scalar one, for all
accumulators, data and secrets. -/
theorem C15_accumulate_512_backends {cfg : Cfg} (hc : cfg.Valid) (hle : cfg.littleEndian = true)
    (hn : cfg.neonLanes ∈ [2, 4, 6, 8]) {accAddr io so : Nat} (ha : accAddr % 64 = 0) {b s : Buf}
    (hi : io + 64 ≤ b.bytes.length) (hj : so + 64 ≤ s.bytes.length) (acc : Acc) :
    let scalar := Simd.accumulate_512_scalar cfg accAddr acc b io s so
    Simd.accumulate_512_sse2 cfg accAddr acc b io s so = scalar ∧
    Simd.accumulate_512_avx2 cfg accAddr acc b io s so = scalar ∧
    Simd.accumulate_512_avx512 cfg accAddr acc b io s so = scalar ∧
    Simd.accumulate_512_neon cfg accAddr acc b io s so = scalar ∧
    Simd.accumulate_512_vsx cfg accAddr acc b io s so = scalar ∧
    Simd.accumulate_512_sve cfg accAddr acc b io s so = scalar ∧
    scalar ≠ none := by
  intro scalar
  have hb := Holds.self b
  have hs := Holds.self s
  have h0 : scalar = _ := SimdP.accumulate_512_scalar_eq hc hb hs (SimdP.accAlign_ok ha) hi hj acc
  have h16 : accAddr % 16 = 0 := by omega
  rw [h0, SimdP.accumulate_512_sse2_eq hle hb hs h16 hi hj,
    SimdP.accumulate_512_avx2_eq hle hb hs (by omega) hi hj, SimdP.accumulate_512_avx512_eq hle hb hs ha hi hj,
    SimdP.accumulate_512_neon_eq hle hb hs h16 (SimdP.accAlign_ok ha) hc hn hi hj,
    SimdP.accumulate_512_vsx_eq hb hs h16 hi hj]
  exact ⟨rfl, rfl, rfl, rfl, rfl, SimdP.sveStripe_eq hle hb hs hi hj acc, nofun⟩

/-- **C15.** The scrambling functions of all back ends are the scalar one. -/
theorem C15_scrambleAcc_backends {cfg : Cfg} (hc : cfg.Valid) (hle : cfg.littleEndian = true)
    (hn : cfg.neonLanes ∈ [2, 4, 6, 8]) {accAddr so : Nat} (ha : accAddr % 64 = 0) {s : Buf}
    (hj : so + 64 ≤ s.bytes.length) (acc : Acc) :
    let scalar := Simd.scrambleAcc_scalar cfg accAddr acc s so
    Simd.scrambleAcc_sse2 cfg accAddr acc s so = scalar ∧
    Simd.scrambleAcc_avx2 cfg accAddr acc s so = scalar ∧
    Simd.scrambleAcc_avx512 cfg accAddr acc s so = scalar ∧
    Simd.scrambleAcc_neon cfg accAddr acc s so = scalar ∧
    Simd.scrambleAcc_vsx cfg accAddr acc s so = scalar ∧
    scalar ≠ none := by
  intro scalar
  have hs := Holds.self s
  have h0 : scalar = _ := SimdP.scrambleAcc_scalar_eq hc hs (SimdP.accAlign_ok ha) hj acc
  have h16 : accAddr % 16 = 0 := by omega
  rw [h0, SimdP.scrambleAcc_sse2_eq hle hs h16 hj, SimdP.scrambleAcc_avx2_eq hle hs (by omega) hj,
    SimdP.scrambleAcc_avx512_eq hle hs ha hj,
    SimdP.scrambleAcc_neon_eq hle hs h16 (SimdP.accAlign_ok ha) hc hn hj, SimdP.scrambleAcc_vsx_eq hs h16 hj]
  exact ⟨rfl, rfl, rfl, rfl, rfl, nofun⟩

/-- **C15.** VSX agrees with scalar code on big-endian CPUs as well. -/
theorem C15_vsx_any_endian {cfg : Cfg} (hc : cfg.Valid) {accAddr io so : Nat} (h16 : accAddr % 16 = 0)
    (ha : accAddr % cfg.accAlign = 0) {b s : Buf} (hi : io + 64 ≤ b.bytes.length) (hj : so + 64 ≤ s.bytes.length) (acc : Acc) :
    Simd.accumulate_512_vsx cfg accAddr acc b io s so =
      Simd.accumulate_512_scalar cfg accAddr acc b io s so ∧
    Simd.scrambleAcc_vsx cfg accAddr acc s so = Simd.scrambleAcc_scalar cfg accAddr acc s so := by
  have hb := Holds.self b
  have hs := Holds.self s
  rw [SimdP.accumulate_512_vsx_eq hb hs h16 hi hj, SimdP.accumulate_512_scalar_eq hc hb hs ha hi hj,
    SimdP.scrambleAcc_vsx_eq hs h16 hj, SimdP.scrambleAcc_scalar_eq hc hs ha hj]
  exact ⟨rfl, rfl⟩

/-- **C15.** The seeded-secret generators of the x86 back ends are the scalar one, whatever was in
the destination. -/
theorem C15_initCustomSecret_backends {cfg : Cfg} (hc : cfg.Valid) (hle : cfg.littleEndian = true)
    {addr : Nat} (ha : addr % 64 = 0) {dst dst' : List Byte} (hd : dst.length = 192)
    (hd' : dst'.length = 192) (seed : W64) :
    let scalar := Model.XXH3.initCustomSecret_scalar cfg addr dst' seed
    Model.XXH3.initCustomSecret_sse2 cfg addr dst seed = scalar ∧
    Model.XXH3.initCustomSecret_avx2 cfg addr dst seed = scalar ∧
    Model.XXH3.initCustomSecret_avx512 cfg addr dst seed = scalar ∧
    scalar ≠ none := by
  intro scalar
  have h0 : scalar = _ := XXH3P.initCustomSecret_scalar_eq hd' seed hc addr
  rw [h0, XXH3P.initCustomSecret_sse2_eq hd seed hle hc.kSecret (by omega),
    XXH3P.initCustomSecret_avx2_eq hd seed hle hc.kSecret (by omega),
    XXH3P.initCustomSecret_avx512_eq hd seed hle hc.kSecret ha]
  exact ⟨rfl, rfl, rfl, nofun⟩

/-- **C15.** The whole accumulation of any number of stripes by the selected back end is that of a
scalar build, wherever each of them keeps its accumulators, as long as they are aligned to `XXH_ACC_ALIGN`. -/
theorem C15_accumulate_any_backend {cfg scfg : Cfg} (hc : cfg.Valid) (hs : scfg.Valid)
    (_hv : scfg.vector = .scalar) {accAddr accAddr' io so nb : Nat} (ha : accAddr % cfg.accAlign = 0)
    (ha' : accAddr' % scfg.accAlign = 0) {b s : Buf}
    (hi : io + 64 * nb ≤ b.bytes.length) (hj : nb = 0 ∨ so + 8 * (nb - 1) + 64 ≤ s.bytes.length)
    (acc : Acc) :
    Model.XXH3.accumulate cfg accAddr acc b io s so nb =
      Model.XXH3.accumulate scfg accAddr' acc b io s so nb := by
  rw [SimdP.accumulate_eq hc (Holds.self b) (Holds.self s) ha hi hj,
    SimdP.accumulate_eq hs (Holds.self b) (Holds.self s) ha' hi hj]

example (acc : Acc) : Simd.accumulate_512_neon neon6 64 acc kilo.buf 17 secret136.buf 8 =
    Simd.accumulate_512_scalar neon6 64 acc kilo.buf 17 secret136.buf 8 :=
  (C15_accumulate_512_backends neon6_valid rfl (by decide) (by decide) (by decide +kernel)
    (by decide +kernel) acc).2.2.2.1

example (acc : Acc) : Simd.accumulate_512_vsx ppc64be 16 acc kilo.buf 17 secret136.buf 8 =
      Simd.accumulate_512_scalar ppc64be 16 acc kilo.buf 17 secret136.buf 8 ∧
    Simd.scrambleAcc_vsx ppc64be 16 acc secret136.buf 8 = Simd.scrambleAcc_scalar ppc64be 16 acc secret136.buf 8 :=
  C15_vsx_any_endian ppc64be_valid (by decide) (by decide) (by decide +kernel) (by decide +kernel) acc
example (acc : Acc) : Model.XXH3.accumulate neon6 64 acc kilo.buf 17 secret136.buf 8 9 =
    Model.XXH3.accumulate be32 8 acc kilo.buf 17 secret136.buf 8 9 :=
  C15_accumulate_any_backend neon6_valid be32_valid rfl (by decide) (by decide) (by decide +kernel)
    (by decide +kernel) acc
example (acc : Acc) := C15_scrambleAcc_backends neon6_valid rfl (by decide) (accAddr := 64) (so := 72) (by decide)
  (s := secret136.buf) (by decide +kernel) acc
example (seed : W64) := C15_initCustomSecret_backends x64_valid rfl (addr := 128) (by decide)
  (dst := List.replicate 192 1) (dst' := List.replicate 192 2) (List.length_replicate ..) (List.length_replicate ..) seed

/-- A big-endian AArch64 CPU with SVE, which the selection code (xxhash.h:3887-3889) accepts. -/
def sveBE : Cfg := { sveLE with littleEndian := false }

/-- **C15**, finding.  The selection of the SVE back end (xxhash.h:3887) does not ask for
little-endian memory although `ACCRND` (4241-4253) loads lanes in native order: on big-endian
AArch64 the accumulators, and the hash of a 1000-byte input, differ from every other build.  This is
why `Cfg.Valid` excludes the combination. -/
theorem C15_sve_big_endian_differs :
    ¬ sveBE.Valid ∧ Model.Cfg.Valid { sveBE with littleEndian := true } ∧
    Model.XXH3.XXH3_64bits sveBE kilo 1000 ≠ Model.XXH3.XXH3_64bits x64 kilo 1000 ∧
    Model.XXH3.XXH3_64bits sveBE kilo 1000 ≠ none := by
  refine ⟨fun h => absurd (h.simdLE (by decide)) (by decide), sveLE_valid, ?_, ?_⟩ <;> decide +kernel

/-! ### C16: multiplication -/

/-- **C16.** The portable 64x64→128 multiplication is exact: the halves are those of the product of
the two numbers. -/
theorem C16_portable_exact (a b : W64) :
    (Model.XXH3.mult64to128_portable a b).high64.toNat * 2 ^ 64 +
      (Model.XXH3.mult64to128_portable a b).low64.toNat = a.toNat * b.toNat := by
  rw [mult64to128_portable_eq]
  have ha := a.isLt
  have hb := b.isLt
  have h : a.toNat * b.toNat < 2 ^ 64 * 2 ^ 64 := Nat.mul_lt_mul'' ha hb
  simp only [Spec.mulLow, Spec.mulHigh, BitVec.toNat_ofNat]
  generalize a.toNat * b.toNat = n at *
  omega

/-- **C16.** It agrees with the branch using a 128-bit type, and so does the fold. -/
theorem C16_portable_eq_native (a b : W64) :
    Model.XXH3.mult64to128_portable a b = Model.XXH3.mult64to128_native a b := by
  rw [mult64to128_portable_eq, mult64to128_native_eq]

/-- **C16.** `XXH3_mul128_fold64` is the exclusive or of the two halves of the exact product. -/
theorem C16_fold_exact (cfg : Cfg) (a b : W64) :
    Model.XXH3.mul128_fold64 cfg a b =
      BitVec.ofNat 64 (a.toNat * b.toNat) ^^^ BitVec.ofNat 64 (a.toNat * b.toNat / 2 ^ 64) := by
  rw [mul128_fold64_eq]
  simp only [Spec.mulLow, Spec.mulHigh]

example : Model.XXH3.mult64to128_portable 0xFFFFFFFFFFFFFFFF 0xFFFFFFFFFFFFFFFF =
    ⟨1, 0xFFFFFFFFFFFFFFFE⟩ := by decide

/-! ### C19: seed 0 -/

/-- **C19**, one-shot: seed 0 is the unseeded function (64 bits). -/
theorem C19_64_oneshot {cfg : Cfg} (hc : cfg.Valid) {p : Ptr} {len : Nat} (hp : Readable cfg p len) :
    Model.XXH3.XXH3_64bits_withSeed cfg p len 0 = Model.XXH3.XXH3_64bits cfg p len := by
  rw [C03_XXH3_64bits_eq_spec hc hp, C03_XXH3_64bits_withSeed_eq_spec hc hp,
    Spec.XXH3.XXH3_64_withSeed, XXH3P.derive_zero]
  rfl

/-- **C19**, one-shot, 128 bits. -/
theorem C19_128_oneshot {cfg : Cfg} (hc : cfg.Valid) {p : Ptr} {len : Nat} (hp : Readable cfg p len) :
    Model.XXH3.XXH3_128bits_withSeed cfg p len 0 = Model.XXH3.XXH3_128bits cfg p len := by
  rw [C04_XXH3_128bits_eq_spec hc hp, C04_XXH3_128bits_withSeed_eq_spec hc hp,
    Spec.XXH3.XXH3_128_withSeed, XXH3P.derive_zero]
  rfl

/-- Any pointer to a copy of the default secret stands for no secret. -/
theorem C19_default_secret {cfg : Cfg} (hc : cfg.Valid) {p q : Ptr} {len : Nat}
    (hp : Readable cfg p len) (hq : Readable cfg q 192) (hd : contents q = Spec.XXH3.defaultSecret) :
    Model.XXH3.XXH3_64bits_withSecret cfg p len q 192 = Model.XXH3.XXH3_64bits cfg p len ∧
    Model.XXH3.XXH3_128bits_withSecret cfg p len q 192 = Model.XXH3.XXH3_128bits cfg p len := by
  rw [C03_XXH3_64bits_eq_spec hc hp, C04_XXH3_128bits_eq_spec hc hp,
    C03_XXH3_64bits_withSecret_eq_spec hc hp hq (by decide),
    C04_XXH3_128bits_withSecret_eq_spec hc hp hq (by decide), hd]
  exact ⟨rfl, rfl⟩

example : Model.XXH3.XXH3_64bits_withSeed be32 kilo 1000 0 = Model.XXH3.XXH3_64bits be32 kilo 1000 :=
  C19_64_oneshot be32_valid (kilo_readable _ be32_valid)

example : Model.XXH3.XXH3_128bits_withSecret x64 kilo 1000 (some ⟨3, Spec.XXH3.defaultSecret⟩) 192 =
    Model.XXH3.XXH3_128bits x64 kilo 1000 :=
  (C19_default_secret x64_valid (kilo_readable _ x64_valid) ⟨by decide +kernel, by unfold Buf.Fits; decide +kernel⟩ rfl).2

/-! ### C22: the 64-bit hash inside the 128-bit hash -/

theorem low_half (msg : List Byte) (seed : W64) (sec long : List Byte)
    (h : 1 ≤ msg.length ∧ msg.length ≤ 3 ∨ 240 < msg.length) :
    (Spec.XXH3.hash128 msg seed sec long).low64 = Spec.XXH3.hash64 msg seed sec long := by
  unfold Spec.XXH3.hash128 Spec.XXH3.hash64
  simp only
  rw [if_neg (show ¬ msg.length = 0 by omega), if_neg (show ¬ msg.length = 0 by omega)]
  rcases h with h | h
  · rw [if_pos h.2, if_pos h.2]
    simp only [Spec.XXH3.hash128_1to3, Spec.XXH3.hash64_1to3, Spec.word32, Spec.slice,
      List.drop_zero, List.take_take, List.drop_take]
    norm_num
  · simp only [show ¬ msg.length ≤ 3 by omega, show ¬ msg.length ≤ 8 by omega,
      show ¬ msg.length ≤ 16 by omega, show ¬ msg.length ≤ 128 by omega,
      show ¬ msg.length ≤ 240 by omega, if_false]
    rfl

/-- **C22.** For 1 to 3 bytes and for more than 240 bytes, the 64-bit hash is the `low64` field of
the 128-bit hash with the same seed. -/
theorem C22_withSeed {cfg : Cfg} (hc : cfg.Valid) {p : Ptr} {len : Nat} (hp : Readable cfg p len)
    (hl : 1 ≤ len ∧ len ≤ 3 ∨ 240 < len) (seed : W64) :
    (Model.XXH3.XXH3_128bits_withSeed cfg p len seed).map (·.low64) =
      Model.XXH3.XXH3_64bits_withSeed cfg p len seed := by
  rw [C04_XXH3_128bits_withSeed_eq_spec hc hp, C03_XXH3_64bits_withSeed_eq_spec hc hp, Option.map_some]
  rw [← hp.length] at hl
  exact congrArg some (low_half _ _ _ _ hl)

/-- **C22**, no seed. -/
theorem C22_default {cfg : Cfg} (hc : cfg.Valid) {p : Ptr} {len : Nat} (hp : Readable cfg p len)
    (hl : 1 ≤ len ∧ len ≤ 3 ∨ 240 < len) :
    (Model.XXH3.XXH3_128bits cfg p len).map (·.low64) = Model.XXH3.XXH3_64bits cfg p len := by
  rw [C04_XXH3_128bits_eq_spec hc hp, C03_XXH3_64bits_eq_spec hc hp, Option.map_some]
  rw [← hp.length] at hl
  exact congrArg some (low_half _ _ _ _ hl)

/-- **C22**, with a secret. -/
theorem C22_withSecret {cfg : Cfg} (hc : cfg.Valid) {p q : Ptr} {len size : Nat}
    (hp : Readable cfg p len) (hq : Readable cfg q size) (hs : 136 ≤ size)
    (hl : 1 ≤ len ∧ len ≤ 3 ∨ 240 < len) :
    (Model.XXH3.XXH3_128bits_withSecret cfg p len q size).map (·.low64) =
      Model.XXH3.XXH3_64bits_withSecret cfg p len q size := by
  rw [C04_XXH3_128bits_withSecret_eq_spec hc hp hq hs, C03_XXH3_64bits_withSecret_eq_spec hc hp hq hs,
    Option.map_some]
  rw [← hp.length] at hl
  exact congrArg some (low_half _ _ _ _ hl)

example (seed : W64) : (Model.XXH3.XXH3_128bits_withSeed x64 kilo 1000 seed).map (·.low64) =
    Model.XXH3.XXH3_64bits_withSeed x64 kilo 1000 seed :=
  C22_withSeed x64_valid (kilo_readable _ x64_valid) (by decide) seed

example : (Model.XXH3.XXH3_128bits x64 abc 3).map (·.low64) = Model.XXH3.XXH3_64bits x64 abc 3 :=
  C22_default x64_valid abc_readable (by decide)
example : (Model.XXH3.XXH3_128bits_withSecret be32 kilo 1000 secret136 136).map (·.low64) =
    Model.XXH3.XXH3_64bits_withSecret be32 kilo 1000 secret136 136 :=
  C22_withSecret be32_valid (kilo_readable _ be32_valid) (secret136_readable _ be32_valid) (by decide) (by decide)

/-- The relation is specific to those lengths: in every other length class it fails, e.g. for 0, 4, 9,
17, 129 and 240 bytes 0, 1, 2, ... -/
theorem C22_other_lengths : ∀ n ∈ [0, 4, 9, 17, 129, 240],
    (Spec.XXH3.XXH3_128 (List.ofFn fun i : Fin n => BitVec.ofNat 8 i)).low64 ≠ Spec.XXH3.XXH3_64 (List.ofFn fun i : Fin n => BitVec.ofNat 8 i) := by
  decide +kernel

/-! ### The theorems applied -/

example : Model.XXH3.XXH3_128bits_withSeed be32 kiloAt3 1000 0 = Model.XXH3.XXH3_128bits be32 kiloAt3 1000 :=
  C19_128_oneshot be32_valid (kiloAt3_readable be32_valid)

example : Model.XXH3.XXH3_64bits_withSecretandSeed x64 kilo 1000 secret136 136 42 = Model.XXH3.XXH3_64bits_withSecretandSeed be32 kilo 1000 secret136 136 42 :=
  (C14_XXH3_withSecretandSeed_portable x64_valid be32_valid (kilo_readable _ x64_valid) (kilo_readable _ be32_valid) rfl
    (secret136_readable _ x64_valid) (secret136_readable _ be32_valid) rfl (by decide) 42).1

end XXH.Props
