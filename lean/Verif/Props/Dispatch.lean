import Verif.Proof.Dispatch
import Verif.Props.XXH3Stream
/-!
Properties of the x86 dispatcher: C30.
-/
namespace XXH.Props
open XXH.Model XXH.Model.Dispatch XXH.Examples
open Model.XXH3 (State)

/-- What processor and operating system have to report before code of each kind may run (Intel SDM
vol. 1, 11.6, 13.2-13.5, 15.2): the CPUID feature flag, and for the wide registers OSXSAVE and the XCR0 bits of
all register states involved. -/
def Supports (cpu : Cpu) : Vec → Prop
  | .scalar => True
  | .sse2 => cpu.hasCpuid = true ∧ 1 ≤ (cpu.cpuid 0 0).eax.toNat ∧ (cpu.cpuid 1 0).edx.getLsbD 26 = true
  | .avx2 => cpu.hasCpuid = true ∧ 7 ≤ (cpu.cpuid 0 0).eax.toNat ∧ (cpu.cpuid 1 0).ecx.getLsbD 27 = true ∧
      (cpu.cpuid 7 0).ebx.getLsbD 5 = true ∧ cpu.xcr0.getLsbD 1 = true ∧ cpu.xcr0.getLsbD 2 = true
  | .avx512 => cpu.hasCpuid = true ∧ 7 ≤ (cpu.cpuid 0 0).eax.toNat ∧ (cpu.cpuid 1 0).ecx.getLsbD 27 = true ∧
      (cpu.cpuid 7 0).ebx.getLsbD 16 = true ∧ cpu.xcr0.getLsbD 1 = true ∧ cpu.xcr0.getLsbD 2 = true ∧
      cpu.xcr0.getLsbD 5 = true ∧ cpu.xcr0.getLsbD 6 = true ∧ cpu.xcr0.getLsbD 7 = true

theorem mask_iff {w : Nat} (x m : BitVec w) :
    x &&& m = m ↔ ∀ i, m.getLsbD i = true → x.getLsbD i = true := by
  constructor
  · intro h i hi
    have := congrArg (fun y => y.getLsbD i) h
    simp only [BitVec.getLsbD_and, hi, Bool.and_true] at this
    exact this
  · intro h
    apply BitVec.eq_of_getLsbD_eq
    intro i _
    rw [BitVec.getLsbD_and]
    cases hm : m.getLsbD i
    · simp
    · simp [h i hm]

theorem mask_list {w : Nat} (x m : BitVec w) (l : List Nat)
    (hl : (List.range w).filter (fun i => m.getLsbD i) = l) :
    x &&& m = m ↔ ∀ i ∈ l, x.getLsbD i = true := by
  rw [mask_iff, ← hl]
  constructor
  · intro h i hi
    exact h i (List.mem_filter.mp hi).2
  · intro h i hi
    refine h i (List.mem_filter.mpr ⟨List.mem_range.mpr ?_, hi⟩)
    rcases Nat.lt_or_ge i w with h' | h'
    · exact h'
    · rw [BitVec.getLsbD_of_ge _ _ h'] at hi; cases hi

theorem sse2_mask (x : W32) : x &&& SSE2_CPUID_MASK = SSE2_CPUID_MASK ↔ x.getLsbD 26 = true := by
  rw [mask_list x SSE2_CPUID_MASK [26] (by decide)]; simp

theorem osxsave_mask (x : W32) : x &&& OSXSAVE_CPUID_MASK = OSXSAVE_CPUID_MASK ↔
    x.getLsbD 26 = true ∧ x.getLsbD 27 = true := by
  rw [mask_list x OSXSAVE_CPUID_MASK [26, 27] (by decide)]; simp

theorem avx2_mask (x : W32) : x &&& AVX2_CPUID_MASK = AVX2_CPUID_MASK ↔ x.getLsbD 5 = true := by
  rw [mask_list x AVX2_CPUID_MASK [5] (by decide)]; simp

theorem avx512_mask (x : W32) : x &&& AVX512F_CPUID_MASK = AVX512F_CPUID_MASK ↔ x.getLsbD 16 = true := by
  rw [mask_list x AVX512F_CPUID_MASK [16] (by decide)]; simp

theorem avx2_xgetbv (x : W64) : x &&& AVX2_XGETBV_MASK = AVX2_XGETBV_MASK ↔
    x.getLsbD 1 = true ∧ x.getLsbD 2 = true := by
  rw [mask_list x AVX2_XGETBV_MASK [1, 2] (by decide)]; simp

theorem avx512_xgetbv (x : W64) : x &&& AVX512F_XGETBV_MASK = AVX512F_XGETBV_MASK ↔
    x.getLsbD 1 = true ∧ x.getLsbD 2 = true ∧ x.getLsbD 5 = true ∧ x.getLsbD 6 = true ∧ x.getLsbD 7 = true := by
  rw [mask_list x AVX512F_XGETBV_MASK [1, 2, 5, 6, 7] (by decide)]; simp

theorem best_logic (b2 b5 : Bool) (A B P Q : Prop) [Decidable A] [Decidable B] [Decidable P] [Decidable Q] :
    (if b2 = true then
      if ¬ A then Vec.sse2
      else if ¬ P then Vec.sse2
      else if b5 = true then (if ¬ B then Vec.avx2 else if ¬ Q then Vec.avx2 else Vec.avx512) else Vec.avx2
    else if b5 = true then (if ¬ B then Vec.sse2 else if ¬ Q then Vec.sse2 else Vec.avx512) else Vec.sse2) =
    if b2 = true ∧ ¬ (A ∧ P) then Vec.sse2
    else if b5 = true ∧ (B ∧ Q) then Vec.avx512
    else if b2 = true then Vec.avx2 else Vec.sse2 := by
  by_cases hA : A <;> by_cases hB : B <;> by_cases hP : P <;> by_cases hQ : Q <;> cases b2 <;> cases b5 <;>
    simp [hA, hB, hP, hQ]

instance (cpu : Cpu) (v : Vec) : Decidable (Supports cpu v) := by
  cases v <;> unfold Supports <;> infer_instance

/-- What the feature test has to return. -/
def bestVec (b : Build) (cpu : Cpu) : Vec :=
  if ¬ Supports cpu .sse2 then .scalar
  else if b.avx2 ∧ ¬ Supports cpu .avx2 then .sse2
  else if b.avx512 ∧ Supports cpu .avx512 then .avx512
  else if b.avx2 then .avx2 else .sse2

/-- **C30.** The feature test executes no invalid instruction and asks for no missing CPUID leaf, and it
returns the best kind among those compiled in and supported. (With both AVX2 and AVX512 compiled in AVX512 is
used only if AVX2 is supported too.) `hx`: a processor reporting OSXSAVE reports XSAVE; `hcp`: CPUID exists,
or the build checks for it. -/
theorem C30_featureTest (b : Build) (cpu : Cpu) (hcp : b.checkCpuid = true ∨ cpu.hasCpuid = true)
    (hx : (cpu.cpuid 1 0).ecx.getLsbD 27 = true → (cpu.cpuid 1 0).ecx.getLsbD 26 = true) :
    featureTest b cpu = some (bestVec b cpu) := by
  unfold featureTest bestVec
  cases hc : cpu.hasCpuid with
  | false =>
    have hb : b.checkCpuid = true := by simpa [hc] using hcp
    simp [hb, Supports, hc]
  | true =>
    have h0 : cpuid cpu 0 0 = some (cpu.cpuid 0 0) := by simp [cpuid, hc, assert]
    simp only [Bool.true_eq_false, and_false, if_false, h0, Option.bind_eq_bind, Option.bind_some]
    by_cases hm : (cpu.cpuid 0 0).eax = 0
    · have : ¬ Supports cpu .sse2 := by
        unfold Supports; rw [hm]; rintro ⟨_, h, _⟩; exact absurd h (by decide)
      simp only [hm, if_true, this, not_false_eq_true]
    · have hm1 : 1 ≤ (cpu.cpuid 0 0).eax.toNat := by
        rcases Nat.eq_zero_or_pos (cpu.cpuid 0 0).eax.toNat with h | h
        · exact absurd (BitVec.eq_of_toNat_eq h) hm
        · exact h
      have h1 : cpuid cpu 1 0 = some (cpu.cpuid 1 0) := by simp [cpuid, hc, assert, hm1]
      simp only [hm, if_false, h1, Option.bind_some, ne_eq, sse2_mask]
      by_cases hs : (cpu.cpuid 1 0).edx.getLsbD 26 = true
      · have hS : Supports cpu .sse2 := ⟨hc, hm1, hs⟩
        simp only [hs, hS, not_true_eq_false, if_false]
        by_cases hany : b.avx2 = true ∨ b.avx512 = true
        · simp only [hany, if_true]
          by_cases h7 : (cpu.cpuid 0 0).eax.toNat < 7
          · have n1 : ¬ Supports cpu .avx2 := by rintro ⟨_, h, _⟩; omega
            have n2 : ¬ Supports cpu .avx512 := by rintro ⟨_, h, _⟩; omega
            simp only [h7, if_true, n1, n2, not_false_eq_true, and_true, and_false, if_false]
            split <;> rfl
          · simp only [h7, if_false, osxsave_mask]
            by_cases hos : (cpu.cpuid 1 0).ecx.getLsbD 27 = true
            · have h7' : cpuid cpu 7 0 = some (cpu.cpuid 7 0) := by
                simp only [cpuid, hc, assert, if_true, Option.bind_eq_bind, Option.bind_some,
                  decide_eq_true (show 7 ≤ (cpu.cpuid 0 0).eax.toNat by omega)]
                rfl
              have hxg : xgetbv cpu = some cpu.xcr0 := by simp [xgetbv, h1, assert, hos]
              simp only [hos, hx hos, and_self, not_true_eq_false, if_false, h7', hxg, Option.bind_some]
              unfold testAvx2 testAvx512
              simp only [ne_eq, avx2_mask, avx2_xgetbv, avx512_mask, avx512_xgetbv]
              have e2 : Supports cpu .avx2 ↔ (cpu.cpuid 7 0).ebx.getLsbD 5 = true ∧
                  (cpu.xcr0.getLsbD 1 = true ∧ cpu.xcr0.getLsbD 2 = true) :=
                ⟨fun h => ⟨h.2.2.2.1, h.2.2.2.2⟩, fun h => ⟨hc, by omega, hos, h.1, h.2⟩⟩
              have e5 : Supports cpu .avx512 ↔ (cpu.cpuid 7 0).ebx.getLsbD 16 = true ∧
                  (cpu.xcr0.getLsbD 1 = true ∧ cpu.xcr0.getLsbD 2 = true ∧ cpu.xcr0.getLsbD 5 = true ∧
                    cpu.xcr0.getLsbD 6 = true ∧ cpu.xcr0.getLsbD 7 = true) :=
                ⟨fun h => ⟨h.2.2.2.1, h.2.2.2.2⟩, fun h => ⟨hc, by omega, hos, h.1, h.2⟩⟩
              simp only [e2, e5]
              exact congrArg some (best_logic _ _ _ _ _ _)
            · have n1 : ¬ Supports cpu .avx2 := by rintro ⟨_, _, h, _⟩; exact hos h
              have n2 : ¬ Supports cpu .avx512 := by rintro ⟨_, _, h, _⟩; exact hos h
              have e : ¬ ((cpu.cpuid 1 0).ecx.getLsbD 26 = true ∧ (cpu.cpuid 1 0).ecx.getLsbD 27 = true) :=
                fun h => hos h.2
              simp only [e, not_false_eq_true, if_true, n1, n2, and_true, and_false, if_false]
              split <;> rfl
        · simp only [not_or, Bool.not_eq_true] at hany
          simp [hany.1, hany.2]
      · have : ¬ Supports cpu .sse2 := by rintro ⟨_, _, h⟩; exact hs h
        rw [if_pos hs, if_pos this]

/-- **C30.** Code that is selected is supported. -/
theorem C30_selected_is_supported (b : Build) (cpu : Cpu) {v : Vec} (h : featureTest b cpu = some v)
    (hcp : b.checkCpuid = true ∨ cpu.hasCpuid = true)
    (hx : (cpu.cpuid 1 0).ecx.getLsbD 27 = true → (cpu.cpuid 1 0).ecx.getLsbD 26 = true) :
    Supports cpu v ∧ (v = .scalar ∨ b.has v = true) := by
  rw [C30_featureTest b cpu hcp hx] at h
  cases Option.some.inj h
  unfold bestVec
  split
  · exact ⟨trivial, .inl rfl⟩
  · rename_i h1
    split
    · exact ⟨Decidable.not_not.mp h1, .inr rfl⟩
    · rename_i h2
      split
      · rename_i h3; exact ⟨h3.2, .inr h3.1⟩
      · split
        · rename_i h4
          exact ⟨Decidable.not_not.mp fun h5 => h2 ⟨h4, h5⟩, .inr h4⟩
        · exact ⟨Decidable.not_not.mp h1, .inr rfl⟩

/-- The build and the processor fit together: CPUID exists or the build checks for it, a processor reporting
OSXSAVE reports XSAVE, and there is SSE2 unless the scalar code is compiled in ("If this is defined to 0, SSE2
support is assumed", xxh_x86dispatch.c:104). -/
structure Usable (b : Build) (cpu : Cpu) : Prop where
  cpuid : b.checkCpuid = true ∨ cpu.hasCpuid = true
  xsave : (cpu.cpuid 1 0).ecx.getLsbD 27 = true → (cpu.cpuid 1 0).ecx.getLsbD 26 = true
  sse2 : b.scalar = true ∨ Supports cpu .sse2

theorem Usable.featureTest {b : Build} {cpu : Cpu} (h : Usable b cpu) :
    ∃ v, featureTest b cpu = some v ∧ b.has v = true := by
  have h1 := C30_featureTest b cpu h.cpuid h.xsave
  refine ⟨_, h1, ?_⟩
  rcases (C30_selected_is_supported b cpu h1 h.cpuid h.xsave).2 with h2 | h2
  · rw [h2]
    rcases h.sse2 with h3 | h3
    · exact h3
    · exfalso
      unfold bestVec at h2
      rw [if_neg (not_not_intro h3)] at h2
      split at h2
      · cases h2
      · split at h2
        · cases h2
        · split at h2 <;> cases h2
  · exact h2

/-- The build of xxhash.h inside xxh_x86dispatch.c. -/
structure DispatchCfg (cfg : Cfg) : Prop where
  valid : cfg.Valid
  littleEndian : cfg.littleEndian = true
  x86dispatch : cfg.x86dispatch = true

/-- Values the two tables can have in a running program: those at the start of `main`, and those left by
calls of the dispatched functions. -/
inductive Reachable (b : Build) (cfg : Cfg) (cpu : Cpu) : Globals → Prop
  | main {g} : atMain b cfg cpu = some g → Reachable b cfg cpu g
  | bits64 {g p len h g'} : Reachable b cfg cpu g →
      XXH3_64bits_dispatch b cfg cpu g p len = some (h, g') → Reachable b cfg cpu g'
  | bits64_seed {g p len seed h g'} : Reachable b cfg cpu g →
      XXH3_64bits_withSeed_dispatch b cfg cpu g p len seed = some (h, g') → Reachable b cfg cpu g'
  | bits64_secret {g p len q size h g'} : Reachable b cfg cpu g →
      XXH3_64bits_withSecret_dispatch b cfg cpu g p len q size = some (h, g') → Reachable b cfg cpu g'
  | update64 {g s p len r g'} : Reachable b cfg cpu g →
      XXH3_64bits_update_dispatch b cfg cpu g s p len = some (r, g') → Reachable b cfg cpu g'
  | bits128 {g p len h g'} : Reachable b cfg cpu g →
      XXH3_128bits_dispatch b cfg cpu g p len = some (h, g') → Reachable b cfg cpu g'
  | bits128_seed {g p len seed h g'} : Reachable b cfg cpu g →
      XXH3_128bits_withSeed_dispatch b cfg cpu g p len seed = some (h, g') → Reachable b cfg cpu g'
  | bits128_secret {g p len q size h g'} : Reachable b cfg cpu g →
      XXH3_128bits_withSecret_dispatch b cfg cpu g p len q size = some (h, g') → Reachable b cfg cpu g'
  | update128 {g s p len r g'} : Reachable b cfg cpu g →
      XXH3_128bits_update_dispatch b cfg cpu g s p len = some (r, g') → Reachable b cfg cpu g'

theorem lazySet_ok {b : Build} {cfg : Cfg} {cpu : Cpu} {x : Bool} {g g' : Globals} (hg : DispatchP.GOK b cfg cpu g)
    (h : lazySet b cfg cpu x g = some g') : DispatchP.GOK b cfg cpu g' := by
  unfold lazySet at h
  split at h
  · unfold setDispatch at h
    cases hf : Dispatch.featureTest b cpu with
    | none => simp [hf] at h
    | some v =>
      simp only [hf, Option.bind_eq_bind, Option.bind_some, Option.pure_def, Option.some.injEq] at h
      subst h; exact .set hf
  · cases h; exact hg

theorem oneshot_ok {b : Build} {cfg : Cfg} {cpu : Cpu} {x : Bool} {g g' : Globals} {O : Type} {m : Option O} {c : Prop}
    [Decidable c] {h : O} (hg : DispatchP.GOK b cfg cpu g)
    (e : (do let h ← m
             let g ← if c then lazySet b cfg cpu x g else some g
             return (h, g)) = some (h, g')) : DispatchP.GOK b cfg cpu g' := by
  cases m with
  | none => simp at e
  | some y =>
    simp only [Option.bind_eq_bind, Option.bind_some] at e
    split at e
    · cases hl : lazySet b cfg cpu x g with
      | none => simp [hl] at e
      | some g2 =>
        simp only [hl, Option.bind_some, Option.pure_def, Option.some.injEq, Prod.mk.injEq] at e
        rw [← e.2]; exact lazySet_ok hg hl
    · simp only [Option.pure_def, Option.some.injEq, Prod.mk.injEq] at e
      rw [← e.2]; exact hg

theorem update_ok {b : Build} {cfg : Cfg} {cpu : Cpu} {x : Bool} {g g' : Globals} {O : Type} {m : Globals → Option O}
    {h : O} (hg : DispatchP.GOK b cfg cpu g)
    (e : (do let g ← lazySet b cfg cpu x g
             let y ← m g
             return (y, g)) = some (h, g')) : DispatchP.GOK b cfg cpu g' := by
  cases hl : lazySet b cfg cpu x g with
  | none => simp [hl] at e
  | some g2 =>
    simp only [hl, Option.bind_eq_bind, Option.bind_some] at e
    cases hm : m g2 with
    | none => simp [hm] at e
    | some y =>
      simp only [hm, Option.bind_some, Option.pure_def, Option.some.injEq, Prod.mk.injEq] at e
      rw [← e.2]; exact lazySet_ok hg hl

theorem Reachable.ok {b : Build} {cfg : Cfg} {cpu : Cpu} {g : Globals} (h : Reachable b cfg cpu g) :
    DispatchP.GOK b cfg cpu g := by
  induction h with
  | main h => exact DispatchP.atMain_ok h
  | bits64 _ h ih => exact oneshot_ok ih h
  | bits64_seed _ h ih => exact oneshot_ok ih h
  | bits64_secret _ h ih => exact oneshot_ok ih h
  | @update64 g s p len r g' _ h ih =>
    exact update_ok (m := fun g => do (← g.g_dispatch.update) s p len) ih (by
      simpa only [XXH3_64bits_update_dispatch, Option.bind_eq_bind, Option.bind_assoc] using h)
  | bits128 _ h ih => exact oneshot_ok ih h
  | bits128_seed _ h ih => exact oneshot_ok ih h
  | bits128_secret _ h ih => exact oneshot_ok ih h
  | @update128 g s p len r g' _ h ih =>
    exact update_ok (m := fun g => do (← g.g_dispatch128.update) s p len) ih (by
      simpa only [XXH3_128bits_update_dispatch, Option.bind_eq_bind, Option.bind_assoc] using h)

section
variable {b : Build} {cfg : Cfg} {cpu : Cpu} {g : Globals} (hu : Usable b cpu) (hc : DispatchCfg cfg)
  (hg : Reachable b cfg cpu g) {p : Ptr} {len : Nat} (hp : Readable cfg p len)
include hu hc hg hp

/-- **C30.** `XXH3_64bits_dispatch` computes the specified value on every processor, whatever was called
before. -/
theorem C30_XXH3_64bits_dispatch :
    ∃ g', XXH3_64bits_dispatch b cfg cpu g p len = some (Spec.XXH3.XXH3_64 (contents p), g') ∧
      Reachable b cfg cpu g' := by
  obtain ⟨v, hf, hv⟩ := hu.featureTest
  rw [← hp.length] at *
  obtain ⟨g', h1, _⟩ := DispatchP.bits64_dispatch hc.valid hc.littleEndian hc.x86dispatch hf hv hg.ok
    (Holds.self p.buf) rfl
  exact ⟨g', h1, .bits64 hg h1⟩

/-- **C30.** `XXH3_64bits_withSeed_dispatch` computes the specified value on every processor, whatever was called
before. -/
theorem C30_XXH3_64bits_withSeed_dispatch (seed : W64) :
    ∃ g', XXH3_64bits_withSeed_dispatch b cfg cpu g p len seed = some (Spec.XXH3.XXH3_64_withSeed (contents p) seed, g') ∧
      Reachable b cfg cpu g' := by
  obtain ⟨v, hf, hv⟩ := hu.featureTest
  rw [← hp.length] at *
  obtain ⟨g', h1, _⟩ := DispatchP.bits64_withSeed_dispatch hc.valid hc.littleEndian hc.x86dispatch hf hv hg.ok
    (Holds.self p.buf) rfl seed
  exact ⟨g', h1, .bits64_seed hg h1⟩

/-- **C30.** `XXH3_64bits_withSecret_dispatch` computes the specified value on every processor, whatever was called
before. -/
theorem C30_XXH3_64bits_withSecret_dispatch {q : Ptr} {size : Nat} (hq : Readable cfg q size)
    (hs : 136 ≤ size) :
    ∃ g', XXH3_64bits_withSecret_dispatch b cfg cpu g p len q size = some (Spec.XXH3.XXH3_64_withSecret (contents p) (contents q), g') ∧
      Reachable b cfg cpu g' := by
  obtain ⟨v, hf, hv⟩ := hu.featureTest
  rw [← hp.length, ← hq.length] at *
  obtain ⟨g', h1, _⟩ := DispatchP.bits64_withSecret_dispatch hc.valid hc.littleEndian hc.x86dispatch hf hv hg.ok
    (Holds.self p.buf) rfl rfl (Holds.self _) hs
  exact ⟨g', h1, .bits64_secret hg h1⟩

/-- **C30.** `XXH3_128bits_dispatch` computes the specified value on every processor, whatever was called
before. -/
theorem C30_XXH3_128bits_dispatch :
    ∃ g', XXH3_128bits_dispatch b cfg cpu g p len = some (Spec.XXH3.XXH3_128 (contents p), g') ∧
      Reachable b cfg cpu g' := by
  obtain ⟨v, hf, hv⟩ := hu.featureTest
  rw [← hp.length] at *
  obtain ⟨g', h1, _⟩ := DispatchP.bits128_dispatch hc.valid hc.littleEndian hc.x86dispatch hf hv hg.ok
    (Holds.self p.buf) rfl
  exact ⟨g', h1, .bits128 hg h1⟩

/-- **C30.** `XXH3_128bits_withSeed_dispatch` computes the specified value on every processor, whatever was called
before. -/
theorem C30_XXH3_128bits_withSeed_dispatch (seed : W64) :
    ∃ g', XXH3_128bits_withSeed_dispatch b cfg cpu g p len seed = some (Spec.XXH3.XXH3_128_withSeed (contents p) seed, g') ∧
      Reachable b cfg cpu g' := by
  obtain ⟨v, hf, hv⟩ := hu.featureTest
  rw [← hp.length] at *
  obtain ⟨g', h1, _⟩ := DispatchP.bits128_withSeed_dispatch hc.valid hc.littleEndian hc.x86dispatch hf hv hg.ok
    (Holds.self p.buf) rfl seed
  exact ⟨g', h1, .bits128_seed hg h1⟩

/-- **C30.** `XXH3_128bits_withSecret_dispatch` computes the specified value on every processor, whatever was called
before. -/
theorem C30_XXH3_128bits_withSecret_dispatch {q : Ptr} {size : Nat} (hq : Readable cfg q size)
    (hs : 136 ≤ size) :
    ∃ g', XXH3_128bits_withSecret_dispatch b cfg cpu g p len q size = some (Spec.XXH3.XXH3_128_withSecret (contents p) (contents q), g') ∧
      Reachable b cfg cpu g' := by
  obtain ⟨v, hf, hv⟩ := hu.featureTest
  rw [← hp.length, ← hq.length] at *
  obtain ⟨g', h1, _⟩ := DispatchP.bits128_withSecret_dispatch hc.valid hc.littleEndian hc.x86dispatch hf hv hg.ok
    (Holds.self p.buf) rfl rfl (Holds.self _) hs
  exact ⟨g', h1, .bits128_secret hg h1⟩
end

/-- Which update function is called. -/
inductive Via
  | plain | dispatch64 | dispatch128

/-- Feed chunks through any mixture of the plain functions (of the build `cfg`) and the dispatched ones. -/
def feedMixed (b : Build) (cfgD cfg : Cfg) (cpu : Cpu) : Globals → State → List (Via × Ptr × Nat) → Option State
  | _, s, [] => some s
  | g, s, (.plain, p, len) :: cs => do
    let (s, _) ← Model.XXH3.bits64_update cfg s p len
    feedMixed b cfgD cfg cpu g s cs
  | g, s, (.dispatch64, p, len) :: cs => do
    let ((s, _), g) ← XXH3_64bits_update_dispatch b cfgD cpu g s p len
    feedMixed b cfgD cfg cpu g s cs
  | g, s, (.dispatch128, p, len) :: cs => do
    let ((s, _), g) ← XXH3_128bits_update_dispatch b cfgD cpu g s p len
    feedMixed b cfgD cfg cpu g s cs

/-- The message fed. -/
def messageMixed (chunks : List (Via × Ptr × Nat)) : List Byte := chunks.flatMap fun c => contents c.2.1

theorem feedMixed_repr {b : Build} {cfgD cfg : Cfg} {cpu : Cpu} (hu : Usable b cpu) (hd : DispatchCfg cfgD)
    (hc : cfg.Valid) {a : ResetArg} : ∀ (chunks : List (Via × Ptr × Nat)) {g : Globals} {s : State} {msg : List Byte},
      Reachable b cfgD cpu g → XXH3P.Repr a.secretOf a.seedOf msg s →
      (∀ c ∈ chunks, Readable cfg c.2.1 c.2.2) →
      ∃ s', feedMixed b cfgD cfg cpu g s chunks = some s' ∧
        XXH3P.Repr a.secretOf a.seedOf (msg ++ messageMixed chunks) s'
  | [], _, s, msg, _, hr, _ => ⟨s, rfl, by simpa [messageMixed] using hr⟩
  | (via, p, len) :: cs, g, s, msg, hg, hr, hp => by
    obtain ⟨v, hf, hv⟩ := hu.featureTest
    have hp1 : Readable cfg p len := hp (via, p, len) (by simp)
    have hp2 : ∀ c ∈ cs, Readable cfg c.2.1 c.2.2 := fun c h => hp c (by simp [h])
    have hm : messageMixed ((via, p, len) :: cs) = contents p ++ messageMixed cs := rfl
    rw [hm, ← List.append_assoc]
    cases via with
    | plain =>
      obtain ⟨s1, h1, hr1⟩ := update_call_repr hc hr hp1
      obtain ⟨s2, h2, hr2⟩ := feedMixed_repr hu hd hc cs hg hr1 hp2
      exact ⟨s2, by simp only [feedMixed, h1, Option.bind_eq_bind, Option.bind_some]; exact h2, hr2⟩
    | dispatch64 =>
      obtain ⟨s1, g1, h1, hr1, _⟩ := DispatchP.update64_dispatch hd.valid hd.littleEndian hd.x86dispatch hf hv hg.ok
        hr hp1.length
      obtain ⟨s2, h2, hr2⟩ := feedMixed_repr hu hd hc cs (.update64 hg h1) hr1 hp2
      exact ⟨s2, by simp only [feedMixed, h1, Option.bind_eq_bind, Option.bind_some]; exact h2, hr2⟩
    | dispatch128 =>
      obtain ⟨s1, g1, h1, hr1, _⟩ := DispatchP.update128_dispatch hd.valid hd.littleEndian hd.x86dispatch hf hv hg.ok
        hr hp1.length
      obtain ⟨s2, h2, hr2⟩ := feedMixed_repr hu hd hc cs (.update128 hg h1) hr1 hp2
      exact ⟨s2, by simp only [feedMixed, h1, Option.bind_eq_bind, Option.bind_some]; exact h2, hr2⟩

/-- **C30.** Streaming through dispatched updates, mixed with plain ones: the digest (which is not dispatched) is
the specified hash of the message. -/
theorem C30_stream_dispatch {b : Build} {cfgD cfg : Cfg} {cpu : Cpu} (hu : Usable b cpu) (hd : DispatchCfg cfgD)
    (hc : cfg.Valid) {g : Globals} (hg : Reachable b cfgD cpu g) {s0 : State} (ht : s0.Typed) {a : ResetArg}
    (hok : a.Ok cfg) (hinit : ∀ sd, a = .seed sd → s0.extSecret = none ∧ s0.seed = 0)
    {chunks : List (Via × Ptr × Nat)} (hr : ∀ c ∈ chunks, Readable cfg c.2.1 c.2.2)
    (hlen : (messageMixed chunks).length < 2^64) :
    ∃ s1 s2, a.call cfg (some s0) = some (some s1, .ok) ∧ feedMixed b cfgD cfg cpu g s1 chunks = some s2 ∧
      Model.XXH3.bits64_digest cfg s2 = some (a.spec64 (messageMixed chunks)) ∧
      Model.XXH3.bits128_digest cfg s2 = some (a.spec128 (messageMixed chunks)) := by
  obtain ⟨s1, h1, r1⟩ := reset_call_repr hc ht hok (fun sd h => initialised_fresh ht (hinit sd h))
  obtain ⟨s2, h2, r2⟩ := feedMixed_repr hu hd hc chunks hg r1 hr
  rw [List.nil_append] at r2
  refine ⟨s1, s2, h1, h2, ?_, ?_⟩
  · rw [XXH3P.digest64_repr hc r2 hlen, value64_eq]
  · rw [XXH3P.digest128_repr hc r2 hlen, value128_eq]

/-- **C30**, why `Usable` is needed: without the scalar code (the default on x86-64), a processor on which the
feature test ends without SSE2 — for example "max CPUID leaves == 0", which the source says happens on some QEMU
configurations (xxh_x86dispatch.c:427) — makes every call with more than 240 bytes jump through a `NULL` pointer. -/
theorem C30_null_call_without_scalar {b : Build} {cfg : Cfg} {cpu : Cpu} {g : Globals} (hb : b.scalar = false)
    (hf : Dispatch.featureTest b cpu = some .scalar) (hg : Reachable b cfg cpu g) {p : Ptr} {len : Nat}
    (hl : 240 < len) : XXH3_64bits_dispatch b cfg cpu g p len = none := by
  have h16 : ¬ len ≤ 16 := by omega
  have h128 : ¬ len ≤ 128 := by omega
  have h240 : ¬ len ≤ Model.XXH3.MIDSIZE_MAX := by show ¬ len ≤ 240; omega
  have hz : hashLong_64b_defaultSecret_selection b cfg cpu g p.buf len 0 (Model.XXH3.kSecret cfg)
      Model.XXH3.SECRET_DEFAULT_SIZE = none := by
    unfold hashLong_64b_defaultSecret_selection lazySet setDispatch
    have hk : kDispatch b cfg .scalar = .null W64 := by simp [kDispatch, Build.has, hb]
    cases hg.ok with
    | init hm => simp [hm, hf, Globals.init, Table.null, hk]
    | set hf' =>
      rw [hf] at hf'
      cases Option.some.inj hf'
      cases hm : b.maybeNull <;> simp [hf, hk, Table.null]
  unfold XXH3_64bits_dispatch Model.XXH3.bits64_internal
  simp only [h16, h128, h240, if_false, Option.bind_eq_bind, Option.bind_some]
  have : Ptr.buf (some (Model.XXH3.kSecret cfg)) = Model.XXH3.kSecret cfg := rfl
  rw [this, hz]
  simp [assert]

/-! ### The hypotheses can be met -/

/-- A processor with AVX2 but an operating system that saves no ZMM state. -/
def haswell : Cpu where
  hasCpuid := true
  cpuid := fun eax _ => match eax with
    | 0 => ⟨13, 0, 0, 0⟩
    | 1 => ⟨0, 0, 0x0c000000, 0x04000000⟩
    | 7 => ⟨0, 0x00010020, 0, 0⟩
    | _ => ⟨0, 0, 0, 0⟩
  xcr0 := 7

/-- The default build for x86-64 with GCC. -/
def gcc64 : Build := ⟨false, true, true, false, false⟩

/-- The same without constructor functions. -/
def lazy64 : Build := ⟨false, true, true, true, false⟩

def dispatch64 : Cfg := { x64 with x86dispatch := true, accAddr := 0x7ff040, secAddr := 0x7ff0c0 }

example : Usable gcc64 haswell := ⟨.inr rfl, by decide, .inr (by decide)⟩
example : featureTest gcc64 haswell = some .avx2 := by decide
example : featureTest gcc64 { haswell with xcr0 := 0xe7 } = some .avx512 := by decide
example : featureTest gcc64 { haswell with xcr0 := 3 } = some .sse2 := by decide
example : DispatchCfg dispatch64 := ⟨by constructor <;> decide, rfl, rfl⟩
example : Reachable lazy64 dispatch64 haswell .init := .main rfl

/-- The QEMU configuration of the source comment. -/
example : featureTest gcc64 ⟨true, fun _ _ => ⟨0, 0, 0, 0⟩, 0⟩ = some .scalar := by decide

/-- All hypotheses together, on a 1000-byte input. -/
example : ∃ g', XXH3_64bits_dispatch lazy64 dispatch64 haswell .init kilo 1000 =
    some (Spec.XXH3.XXH3_64 (contents kilo), g') ∧ Reachable lazy64 dispatch64 haswell g' :=
  have hv : dispatch64.Valid := by constructor <;> decide
  C30_XXH3_64bits_dispatch (b := lazy64) (cpu := haswell) ⟨.inr rfl, by decide, .inr (by decide)⟩ ⟨hv, rfl, rfl⟩
    (.main rfl) (kilo_readable _ hv)

/-- Streaming through a dispatched update, a plain one and a dispatched one again. -/
example : ∃ s1 s2, ResetArg.call x64 (some junk) (.secret secret136 136) = some (some s1, .ok) ∧
    feedMixed lazy64 dispatch64 x64 haswell .init s1
      [(.dispatch64, kilo, 1000), (.plain, abc, 3), (.dispatch128, kilo, 1000)] = some s2 ∧
    Model.XXH3.bits64_digest x64 s2 = some (Spec.XXH3.XXH3_64_withSecret
      (contents kilo ++ (contents abc ++ contents kilo)) (contents secret136)) := by
  have hv : dispatch64.Valid := by constructor <;> decide
  have hr : ∀ c ∈ [(Via.dispatch64, kilo, 1000), (.plain, abc, 3), (.dispatch128, kilo, 1000)],
      Readable x64 c.2.1 c.2.2 := by
    simp only [List.mem_cons, List.not_mem_nil, or_false]
    rintro c (rfl | rfl | rfl) <;> first | exact abc_readable | exact kilo_readable _ x64_valid
  obtain ⟨s1, s2, h1, h2, h3, _⟩ := C30_stream_dispatch (b := lazy64) (cpu := haswell)
    ⟨.inr rfl, by decide, .inr (by decide)⟩ ⟨hv, rfl, rfl⟩ x64_valid (.main rfl) junk_typed
    (a := .secret secret136 136) ⟨secret136_readable _ x64_valid, by decide⟩ (by rintro sd ⟨⟩) hr (by decide +kernel)
  refine ⟨s1, s2, h1, h2, ?_⟩
  rw [h3]
  rw [show messageMixed [(Via.dispatch64, kilo, 1000), (.plain, abc, 3), (.dispatch128, kilo, 1000)] =
    contents kilo ++ (contents abc ++ (contents kilo ++ [])) from rfl, List.append_nil]
  unfold ResetArg.spec64
  rfl

/-! ### The theorems applied -/

/-- A build without the scalar kind on the QEMU configuration: the table stays `NULL`. -/
example : XXH3_64bits_dispatch { lazy64 with scalar := false } dispatch64 ⟨true, fun _ _ => ⟨0, 0, 0, 0⟩, 0⟩ .init kilo 1000 = none :=
  C30_null_call_without_scalar rfl (by decide) (.main rfl) (by decide)

example : ∃ g', XXH3_64bits_withSecret_dispatch lazy64 dispatch64 haswell .init kilo 1000 secret136 136 =
    some (Spec.XXH3.XXH3_64_withSecret (contents kilo) (contents secret136), g') ∧ Reachable lazy64 dispatch64 haswell g' :=
  have hv : dispatch64.Valid := by constructor <;> decide
  C30_XXH3_64bits_withSecret_dispatch (b := lazy64) (cpu := haswell) ⟨.inr rfl, by decide, .inr (by decide)⟩ ⟨hv, rfl, rfl⟩
    (.main rfl) (kilo_readable _ hv) (secret136_readable _ hv) (by decide)

example : ∃ g', XXH3_128bits_withSecret_dispatch lazy64 dispatch64 haswell .init kilo 1000 secret136 136 =
    some (Spec.XXH3.XXH3_128_withSecret (contents kilo) (contents secret136), g') ∧ Reachable lazy64 dispatch64 haswell g' :=
  have hv : dispatch64.Valid := by constructor <;> decide
  C30_XXH3_128bits_withSecret_dispatch (b := lazy64) (cpu := haswell) ⟨.inr rfl, by decide, .inr (by decide)⟩ ⟨hv, rfl, rfl⟩
    (.main rfl) (kilo_readable _ hv) (secret136_readable _ hv) (by decide)

end XXH.Props
