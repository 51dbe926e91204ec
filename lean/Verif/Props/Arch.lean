import Verif.Model.Arch
import Verif.Props.CliTrace
import Verif.Props.Select
/-!
**C59.** What `xxhsum --version` says about the machine, compared with the code that was really compiled: the vector
unit it names, the byte order, the word size, and the version of the compiler.
-/
namespace XXH.Props
open Model Model.Select Model.Arch Model.Cli CliP Examples
open Spec.Cli (Opt CommandLine txt decimal)

/-- The text names this feature: it comes last, or last but for the remark on misaligned accesses. -/
def Says (text : List Byte) (word : String) : Prop :=
  txt " + " ++ txt word <:+ text ∨ txt " + " ++ txt word ++ txt " + unaligned" <:+ text

instance (text : List Byte) (word : String) : Decidable (Says text word) := by unfold Says; infer_instance

/-- One of the macros by which xxhash.h knows a little-endian machine before it selects NEON (xxhash.h:3903-3904). -/
def LittleMacro (m : Macros) : Prop := m.win32 = true ∨ m.littleEndian = true ∨ m.byteOrder = some .little

instance (m : Macros) : Decidable (LittleMacro m) := by unfold LittleMacro; infer_instance

/-- One of the macros by which xxhash.h knows that there is SSE2 (xxhash.h:3911). -/
def Sse2Macro (m : Macros) : Prop := m.sse2 = true ∨ m.m_amd64 = true ∨ m.m_x64 = true ∨ m.m_ix86_fp = some 2

/-- No macro of x86 is defined (that xxhash.h or xsum_arch.h looks at). -/
structure NotX86 (m : Macros) : Prop where
  x86_64 : m.x86_64 = false
  i386 : m.i386 = false
  m_ix86 : m.m_ix86 = false
  m_ix86_fp : m.m_ix86_fp = none
  m_x64 : m.m_x64 = false
  m_amd64 : m.m_amd64 = false
  sse2 : m.sse2 = false
  avx2 : m.avx2 = false
  avx512f : m.avx512f = false

/-- No macro of 32-bit or 64-bit ARM is defined. -/
structure NotArm (m : Macros) (e : Extra) : Prop where
  aarch64 : m.aarch64 = false
  arm64 : m.arm64 = false
  m_arm64 : m.m_arm64 = false
  m_arm64ec : m.m_arm64ec = false
  m_arm : m.m_arm = none
  armSve : m.armSve = false
  armNeon : m.armNeon = false
  arm : e.arm = false
  thumb : e.thumb = none
  thumb2 : e.thumb2 = false

/-- A compiler for x86: one of its macros is there, and those of other machines are not. -/
structure X86Compiler (m : Macros) (e : Extra) : Prop where
  is : m.x86_64 = true ∨ m.m_amd64 = true ∨ m.m_x64 = true ∨ m.i386 = true ∨ m.m_ix86 = true ∨ m.m_ix86_fp.isSome
  arm : NotArm m e
  wasm : m.wasmSimd128 = false
  ppc64 : m.ppc64 = false
  s390x : m.s390x = false

/-! ### x86 -/

section
variable {m : Macros} {e : Extra}

theorem archX86_some (h : X86Compiler m e) : archX86 m =
    some (if m.x86_64 = true ∨ m.m_amd64 = true ∨ m.m_x64 = true then txt "x86_64" else txt "i386") := by
  unfold archX86
  by_cases h1 : m.x86_64 = true ∨ m.m_amd64 = true ∨ m.m_x64 = true
  · rw [if_pos ⟨h1, h.arm.m_arm64ec⟩, if_pos h1]; rfl
  · rw [if_neg (fun hc => h1 hc.1), if_neg h1]
    have h2 := h.is
    have h3 : m.i386 = true ∨ m.m_ix86 = true ∨ m.m_ix86_fp.isSome := by
      by_contra hc
      apply h1
      tauto
    rw [if_pos h3]; rfl

theorem vector_x86 (h : X86Compiler m e) : vector m {} =
    if m.avx512f = true then .avx512 else if m.avx2 = true then .avx2
    else if m.sse2 = true ∨ m.m_amd64 = true ∨ m.m_x64 = true ∨ m.m_ix86_fp = some 2 then .sse2 else .scalar := by
  have hv : vector0 m {} = if m.avx512f = true then .avx512 else if m.avx2 = true then .avx2
      else if m.sse2 = true ∨ m.m_amd64 = true ∨ m.m_x64 = true ∨ m.m_ix86_fp = some 2 then .sse2 else .scalar := by
    simp [vector0, h.arm.armSve, h.arm.armNeon, h.arm.m_arm, h.arm.m_arm64, h.arm.m_arm64ec, h.wasm, h.ppc64, h.s390x]
  unfold vector
  rw [hv, if_neg]
  rintro ⟨hc, -⟩
  revert hc
  repeat' split
  all_goals exact nofun

/-- **C59**, x86: in a build with default options and without dispatcher, for a compiler that defines a macro of SSE2
wherever there is SSE2, `xxhsum --version` names AVX512 or AVX2 exactly when this is the code compiled into it; AVX and
SSE2 both stand for the code for SSE2; and it names nothing exactly when the scalar code is used. -/
theorem C59_x86 (h : X86Compiler m e) (hd : e.dispatch = false) (hs : m.x86_64 = true ∨ m.avx = true → Sse2Macro m) :
    (Says (arch m e) "AVX512" ↔ vector m {} = .avx512) ∧ (Says (arch m e) "AVX2" ↔ vector m {} = .avx2) ∧
    (Says (arch m e) "AVX" ∨ Says (arch m e) "SSE2" ↔ vector m {} = .sse2) ∧
    (arch m e = txt "i386" ↔ vector m {} = .scalar) := by
  have harch : arch m e = x86Text m e
      (if m.x86_64 = true ∨ m.m_amd64 = true ∨ m.m_x64 = true then txt "x86_64" else txt "i386") := by
    unfold arch; rw [archX86_some h]
  rw [harch, vector_x86 h]
  unfold x86Text
  rw [if_neg (by rw [hd]; exact nofun)]
  by_cases h1 : m.avx512f = true
  · simp only [if_pos h1]
    split <;> decide
  · simp only [if_neg h1]
    by_cases h2 : m.avx2 = true
    · simp only [if_pos h2]
      split <;> decide
    · simp only [if_neg h2]
      by_cases h3 : m.avx = true
      · have h4 := hs (.inr h3)
        unfold Sse2Macro at h4
        simp only [if_pos h3, if_pos h4]
        split <;> decide
      · simp only [if_neg h3]
        by_cases h4 : m.sse2 = true ∨ m.m_amd64 = true ∨ m.m_x64 = true ∨ m.m_ix86_fp = some 2
        · rw [if_pos h4, if_pos (show m.m_x64 = true ∨ m.m_amd64 = true ∨ m.x86_64 = true ∨ m.sse2 = true ∨
            m.m_ix86_fp = some 2 by tauto)]
          split <;> decide
        · have h5 : ¬ (m.x86_64 = true) := fun hx => h4 (hs (.inl hx))
          rw [if_neg h4, if_neg (show ¬ (m.m_x64 = true ∨ m.m_amd64 = true ∨ m.x86_64 = true ∨ m.sse2 = true ∨
            m.m_ix86_fp = some 2) by tauto), if_neg (show ¬ (m.x86_64 = true ∨ m.m_amd64 = true ∨ m.m_x64 = true) by tauto)]
          decide

/-- **C59, a limit.** A 64-bit build without SSE2 (`-mno-sse2`, as for kernels) claims SSE2; the code is scalar. -/
theorem C59_x86_no_sse2 (h : X86Compiler m e) (hd : e.dispatch = false) (hx : m.x86_64 = true) (hs : ¬ Sse2Macro m)
    (ha : m.avx = false ∧ m.avx2 = false ∧ m.avx512f = false) :
    arch m e = txt "x86_64 + SSE2" ∧ vector m {} = .scalar := by
  obtain ⟨h1, h2, h3⟩ := ha
  refine ⟨?_, ?_⟩
  · unfold arch
    rw [archX86_some h]
    simp only [x86Text, hd, h1, h2, h3, hx, true_or, or_true, if_true, Bool.false_eq_true, if_false]
    decide
  · rw [vector_x86 h, if_neg (by rw [h3]; exact nofun), if_neg (by rw [h2]; exact nofun), if_neg (by exact hs)]

/-- **C59, a limit.** "AVX" names a unit for which there is no code: with AVX and no AVX2 the code is that for SSE2. -/
theorem C59_x86_avx (h : X86Compiler m e) (hd : e.dispatch = false) (hs : Sse2Macro m)
    (ha : m.avx = true ∧ m.avx2 = false ∧ m.avx512f = false) :
    Says (arch m e) "AVX" ∧ ¬ Says (arch m e) "SSE2" ∧ vector m {} = .sse2 := by
  obtain ⟨h1, h2, h3⟩ := ha
  have harch : arch m e = (if m.x86_64 = true ∨ m.m_amd64 = true ∨ m.m_x64 = true then txt "x86_64" else txt "i386") ++
      str " + AVX" := by
    unfold arch
    rw [archX86_some h]
    simp only [x86Text, hd, h1, h2, h3, if_true, Bool.false_eq_true, if_false]
  rw [harch]
  refine ⟨by split <;> decide, by split <;> decide, ?_⟩
  rw [vector_x86 h, if_neg (by rw [h3]; exact nofun), if_neg (by rw [h2]; exact nofun), if_pos (by exact hs)]

/-- **C59.** A program with the dispatcher says so on x86, and names no unit: it is chosen when the program runs. -/
theorem C59_dispatch (h : X86Compiler m e) :
    (txt " autoVec" <:+ arch m e ↔ e.dispatch = true) ∧
    (e.dispatch = true → ∀ w ∈ ["AVX512", "AVX2", "AVX", "SSE2"], ¬ Says (arch m e) w) := by
  have harch : arch m e = x86Text m e
      (if m.x86_64 = true ∨ m.m_amd64 = true ∨ m.m_x64 = true then txt "x86_64" else txt "i386") := by
    unfold arch; rw [archX86_some h]
  rw [harch]
  unfold x86Text
  cases e.dispatch
  · simp only [Bool.false_eq_true, if_false]
    split <;> (repeat' split) <;> decide
  · simp only [if_true]
    split <;> decide

/-- **C59.** On other machines `XXHSUM_DISPATCH` changes nothing in the text. -/
theorem C59_dispatch_other (h : NotX86 m) (d : Bool) : arch m { e with dispatch := d } = arch m e := by
  have : archX86 m = none := by
    simp [archX86, h.x86_64, h.m_amd64, h.m_x64, h.i386, h.m_ix86, h.m_ix86_fp]
  unfold arch
  rw [this]
  rfl

/-! ### Other machines -/

/-- A compiler for 64-bit ARM. -/
structure Arm64Compiler (m : Macros) : Prop where
  is : m.aarch64 = true ∨ m.arm64 = true ∨ m.m_arm64 = true
  x86 : NotX86 m
  m_arm : m.m_arm = none
  wasm : m.wasmSimd128 = false
  ppc64 : m.ppc64 = false
  s390x : m.s390x = false

theorem archX86_none (h : NotX86 m) : archX86 m = none := by
  simp [archX86, h.x86_64, h.m_amd64, h.m_x64, h.i386, h.m_ix86, h.m_ix86_fp]

/-- **C59**, 64-bit ARM: SVE is named exactly when the SVE code is used; otherwise NEON is named, whether or not the
compiler has it: the NEON code is used when a macro of NEON or of Visual Studio and one of a little-endian machine
are defined, and the scalar code in all other cases. -/
theorem C59_arm64 (h : Arm64Compiler m) :
    (m.armSve = true → arch m e = txt "aarch64 + SVE" ∧ vector m {} = .sve) ∧
    (m.armSve = false → arch m e = txt "aarch64 + NEON" ∧
      ((m.armNeon = true ∨ m.m_arm64 = true ∨ m.m_arm64ec = true) ∧ LittleMacro m → vector m {} = .neon) ∧
      (¬ ((m.armNeon = true ∨ m.m_arm64 = true ∨ m.m_arm64ec = true) ∧ LittleMacro m) → vector m {} = .scalar)) := by
  have harch : arch m e = if m.armSve = true then txt "aarch64 + SVE" else txt "aarch64 + NEON" := by
    unfold arch
    rw [archX86_none h.x86]
    have := h.is
    simp only
    rw [if_pos (by tauto)]
    rfl
  rw [harch]
  refine ⟨fun hs => ⟨by rw [if_pos hs], ?_⟩, fun hs => ⟨by rw [hs]; rfl, fun hn => ?_, fun hn => ?_⟩⟩
  · simp [vector, vector0, hs]
  · have hv : vector0 m {} = .neon := by
      obtain ⟨h1, h2⟩ := hn
      unfold vector0
      simp only [hs, Bool.false_eq_true, if_false]
      rw [if_pos ⟨by tauto, h2⟩]
    unfold vector
    rw [hv, if_neg (by exact fun hc => by cases hc.1)]
  · have hv : vector0 m {} = .scalar := by
      have hx := h.x86
      unfold vector0
      simp only [hs, Bool.false_eq_true, if_false]
      rw [if_neg (by
        rintro ⟨h1, h2⟩
        refine hn ⟨?_, h2⟩
        rw [h.m_arm, h.wasm] at h1
        simpa using h1)]
      simp [hx.avx512f, hx.avx2, hx.sse2, hx.m_amd64, hx.m_x64, hx.m_ix86_fp, h.ppc64, h.s390x]
    unfold vector
    rw [hv, if_neg (by exact fun hc => by cases hc.1)]

/-- **C59, a limit.** Big-endian 64-bit ARM without SVE claims NEON; the code is scalar. -/
theorem C59_arm64_big (h : Arm64Compiler m) (hs : m.armSve = false) (hb : ¬ LittleMacro m) :
    Says (arch m e) "NEON" ∧ vector m {} = .scalar := by
  obtain ⟨h1, -, h2⟩ := (C59_arm64 (e := e) h).2 hs
  rw [h1]
  exact ⟨by decide, h2 fun hc => hb hc.2⟩

/-- A compiler for 32-bit ARM. -/
structure Arm32Compiler (m : Macros) (e : Extra) : Prop where
  is : e.arm = true ∨ e.thumb.isSome ∨ e.thumb2 = true ∨ m.m_arm.isSome
  x86 : NotX86 m
  aarch64 : m.aarch64 = false
  arm64 : m.arm64 = false
  m_arm64 : m.m_arm64 = false
  m_arm64ec : m.m_arm64ec = false
  armSve : m.armSve = false
  wasm : m.wasmSimd128 = false
  ppc64 : m.ppc64 = false
  s390x : m.s390x = false

theorem arch_arm (h : Arm32Compiler m e) : arch m e = armText m e := by
  unfold arch
  rw [archX86_none h.x86]
  simp only
  rw [if_neg (by simp [h.aarch64, h.arm64, h.m_arm64, h.m_arm64ec]), if_pos h.is]

/-- The last byte of a text that ends with another. -/
theorem last_of_suffix {x y : List Byte} (h : x <:+ y) (hx : x ≠ []) : y.getLast? = x.getLast? := by
  obtain ⟨t, rfl⟩ := h
  rw [List.getLast?_append, List.getLast?_eq_some_getLast hx]
  rfl

theorem armVer_last (m : Macros) : ∃ c, (armVer m).getLast? = some c ∧ c ∉ txt " NdEVS" := by
  have hd : ∀ n, ∃ c, (decText n).getLast? = some c ∧ c ∉ txt " NdEVS" := by
    intro n
    have h1 := (C51_numbers n).2.2.1
    refine ⟨_, List.getLast?_eq_some_getLast h1, ?_⟩
    obtain ⟨d, hd, he⟩ := decText_digit n _ (List.getLast_mem h1)
    rw [he]
    clear he
    revert d
    decide +kernel
  unfold armVer
  split
  · exact hd _
  · exact hd _
  · exact ⟨0x4d, by decide, by decide⟩

/-- What the text of a 32-bit ARM ends with, but for the remarks on NEON and on misaligned accesses. -/
theorem armHead_last (m : Macros) (e : Extra) : ∃ c, (str "ARMv" ++ armVer m ++ armThumb m e).getLast? = some c ∧
    c ∉ txt " NdEVS" := by
  unfold armThumb
  split
  · exact ⟨0x32, by rw [List.getLast?_append]; rfl, by decide⟩
  · split
    · exact ⟨0x31, by rw [List.getLast?_append]; rfl, by decide⟩
    · obtain ⟨c, h1, h2⟩ := armVer_last m
      exact ⟨c, by rw [List.append_nil, List.getLast?_append, h1]; rfl, h2⟩

theorem says_arm (m : Macros) (e : Extra) :
    (Says (armText m e) "NEON" ↔ m.armNeon = true ∨ m.m_arm.isSome) ∧
    (Says (armText m e) "unaligned" ↔ m.armUnaligned = true ∨ 7 ≤ m.armArch.getD 0 ∨ m.m_arm.isSome) := by
  obtain ⟨c, h1, h2⟩ := armHead_last m e
  have hne : ∀ x : List Byte, (∃ d ∈ txt " NdEVS", x.getLast? = some d) → ¬ x <:+ str "ARMv" ++ armVer m ++ armThumb m e := by
    rintro x ⟨d, hd, hx⟩ hs
    have := last_of_suffix hs (by rintro rfl; cases hx)
    rw [h1, hx] at this
    cases this
    exact h2 hd
  unfold armText armNeon Model.Arch.armUnaligned
  generalize str "ARMv" ++ armVer m ++ armThumb m e = head at h1 hne ⊢
  have key : ∀ (x y : List Byte), (x.getLast? ≠ y.getLast? ∧ y ≠ [] ∧ x ≠ []) → ¬ x <:+ head ++ y := by
    rintro x y ⟨h3, h4, h5⟩ hs
    have := last_of_suffix hs h5
    rw [List.getLast?_append, List.getLast?_eq_some_getLast h4] at this
    rw [List.getLast?_eq_some_getLast h4] at h3
    exact h3 this.symm
  have strip : ∀ x y : List Byte, x ++ y <:+ head ++ y → x <:+ head := by
    rintro x y ⟨t, ht⟩
    rw [← List.append_assoc] at ht
    exact ⟨t, List.append_cancel_right ht⟩
  by_cases hn : m.armNeon = true ∨ m.m_arm.isSome <;>
    by_cases hu : m.armUnaligned = true ∨ 7 ≤ m.armArch.getD 0 ∨ m.m_arm.isSome
  · rw [if_pos hn, if_pos hu]
    refine ⟨iff_of_true (.inr ⟨head, by simp only [List.append_assoc]; rfl⟩) hn,
      iff_of_true (.inl ⟨head ++ str " + NEON", rfl⟩) hu⟩
  · rw [if_pos hn, if_neg hu, List.append_nil]
    refine ⟨iff_of_true (.inl ⟨head, rfl⟩) hn, iff_of_false ?_ hu⟩
    rintro (hs | hs)
    · exact key _ _ (by decide) hs
    · exact key _ _ (by decide) hs
  · rw [if_neg hn, if_pos hu, List.append_nil]
    refine ⟨iff_of_false ?_ hn, iff_of_true (.inl ⟨head, rfl⟩) hu⟩
    rintro (hs | hs)
    · exact key _ _ (by decide) hs
    · exact hne _ ⟨0x4e, by decide, by decide⟩ (strip _ _ hs)
  · rw [if_neg hn, if_neg hu, List.append_nil, List.append_nil]
    refine ⟨iff_of_false ?_ hn, iff_of_false ?_ hu⟩ <;> rintro (hs | hs)
    · exact hne _ ⟨0x4e, by decide, by decide⟩ hs
    · exact hne _ ⟨0x64, by decide, by decide⟩ hs
    · exact hne _ ⟨0x64, by decide, by decide⟩ hs
    · exact hne _ ⟨0x64, by decide, by decide⟩ hs

/-- **C59**, 32-bit ARM: the NEON code is used exactly when the text names NEON and the machine is known to be
little-endian; otherwise the scalar code is used. -/
theorem C59_arm32 (h : Arm32Compiler m e) :
    (vector m {} = .neon ↔ Says (arch m e) "NEON" ∧ LittleMacro m) ∧ (vector m {} ≠ .neon ↔ vector m {} = .scalar) := by
  rw [arch_arm h, (says_arm m e).1]
  have hx := h.x86
  have hv : vector0 m {} = if (m.armNeon = true ∨ m.m_arm.isSome) ∧ LittleMacro m then .neon else .scalar := by
    unfold vector0 LittleMacro
    simp [h.armSve, h.m_arm64, h.m_arm64ec, h.wasm, hx.avx512f, hx.avx2, hx.sse2, hx.m_amd64, hx.m_x64, hx.m_ix86_fp,
      h.ppc64, h.s390x]
  unfold vector
  rw [hv]
  by_cases hc : (m.armNeon = true ∨ m.m_arm.isSome) ∧ LittleMacro m
  · rw [if_pos hc, if_neg (by exact fun hc => by cases hc.1)]
    exact ⟨iff_of_true rfl hc, by decide⟩
  · rw [if_neg hc, if_neg (by exact fun hc => by cases hc.1)]
    exact ⟨iff_of_false (by decide) hc, by decide⟩

/-- **C59, a limit.** From ARMv7 on the text promises misaligned accesses, even if the compiler was told not to use them
(`-mno-unaligned-access`) and the code accordingly looks at the alignment of every input of XXH32 and XXH64. -/
theorem C59_arm32_unaligned (h : Arm32Compiler m e) (ha : 7 ≤ m.armArch.getD 0) (hu : m.armUnaligned = false)
    (hm : m.m_arm = none) (hz : m.optimizeSize = false) :
    Says (arch m e) "unaligned" ∧ forceAlignCheck m {} = true := by
  rw [arch_arm h]
  refine ⟨(says_arm m e).2.mpr (.inr (.inl ha)), ?_⟩
  have hx := h.x86
  simp [forceAlignCheck, sizeOpt, hz, hx.i386, hx.x86_64, h.aarch64, hu, hx.m_ix86, hx.m_x64, h.m_arm64, hm]

/-- **C59, a limit.** With a compiler that does not define `__ARM_ARCH` (GCC before 4.8), the version of the architecture
is given as the name of a macro. -/
theorem C59_arm32_version (h : Arm32Compiler m e) (ha : m.armArch = none) (hm : m.m_arm = none) :
    txt "ARMv_M_ARM" <+: arch m e := by
  rw [arch_arm h]
  unfold armText
  rw [show armVer m = str "_M_ARM" by unfold armVer; rw [ha, hm], List.append_assoc, List.append_assoc, ← List.append_assoc]
  exact ⟨_, rfl⟩

/-- A compiler for a machine that is neither x86 nor ARM. -/
structure Neither (m : Macros) (e : Extra) : Prop where
  x86 : NotX86 m
  arm : NotArm m e

theorem arch_neither (h : Neither m e) : arch m e =
    if e.powerpc64 = true ∨ m.ppc64 = true then
      if m.gnuc.isSome ∧ e.power9 = true then str "ppc64 + POWER9 vector"
      else if m.gnuc.isSome ∧ m.power8 = true then str "ppc64 + POWER8 vector"
      else str "ppc64"
    else if e.ppc = true then str "ppc"
    else if e.avr = true then str "AVR"
    else if e.mips64 = true then str "mips64"
    else if e.mips = true then str "mips"
    else if m.s390x = true then str "s390x"
    else if e.s390 = true then str "s390"
    else if m.wasm = true ∨ e.emscripten = true then
      if m.wasmSimd128 = true then str "wasm/asmjs + simd128" else str "wasm/asmjs"
    else str "unknown" := by
  have ha := h.arm
  unfold arch
  rw [archX86_none h.x86]
  simp only
  rw [if_neg (by simp [ha.aarch64, ha.arm64, ha.m_arm64, ha.m_arm64ec]), if_neg (by simp [ha.arm, ha.thumb, ha.thumb2, ha.m_arm])]

theorem vector_neither (h : Neither m e) : vector m {} =
    if (m.wasmSimd128 = true ∧ m.hasArmNeonH = true) ∧ LittleMacro m then .neon
    else if (m.ppc64 = true ∧ m.power8 = true) ∨ (m.s390x = true ∧ m.vec = true ∧ m.gnuc.isSome) then .vsx
    else .scalar := by
  have ha := h.arm
  have hx := h.x86
  have hv : vector0 m {} =
      if (m.wasmSimd128 = true ∧ m.hasArmNeonH = true) ∧ LittleMacro m then .neon
      else if (m.ppc64 = true ∧ m.power8 = true) ∨ (m.s390x = true ∧ m.vec = true ∧ m.gnuc.isSome) then .vsx
      else .scalar := by
    unfold vector0 LittleMacro
    simp [ha.armSve, ha.armNeon, ha.m_arm, ha.m_arm64, ha.m_arm64ec, hx.avx512f, hx.avx2, hx.sse2, hx.m_amd64, hx.m_x64,
      hx.m_ix86_fp]
  unfold vector
  rw [hv, if_neg]
  rintro ⟨hc, -⟩
  revert hc
  repeat' split
  all_goals exact nofun

/-- **C59**, 64-bit PowerPC with a GNU compiler: a vector unit is named exactly when the VSX code is used. -/
theorem C59_ppc64 (h : Neither m e) (hp : m.ppc64 = true) (hw : m.wasmSimd128 = false) (hz : m.s390x = false)
    (h9 : e.power9 = true → m.power8 = true) (hg : m.gnuc.isSome) :
    Says (arch m e) "POWER9 vector" ∨ Says (arch m e) "POWER8 vector" ↔ vector m {} = .vsx := by
  have hv : vector m {} = if m.power8 = true then .vsx else .scalar := by
    rw [vector_neither h]
    simp [hw, hp, hz]
  rw [arch_neither h, hv, if_pos (.inr hp)]
  by_cases h8 : m.power8 = true
  · rw [if_pos h8]
    by_cases h9 : e.power9 = true
    · rw [if_pos ⟨hg, h9⟩]; decide
    · rw [if_neg (fun hc => h9 hc.2), if_pos ⟨hg, h8⟩]; decide
  · rw [if_neg h8, if_neg (fun hc => h8 (h9 hc.2)), if_neg (fun hc => h8 hc.2)]
    decide

/-- **C59, a limit.** With another compiler the VSX code is used for POWER8, and not named. -/
theorem C59_ppc64_other (h : Neither m e) (hp : m.ppc64 = true) (hw : m.wasmSimd128 = false) (h8 : m.power8 = true)
    (hg : m.gnuc = none) : arch m e = txt "ppc64" ∧ vector m {} = .vsx := by
  rw [arch_neither h, vector_neither h, if_pos (.inr hp), if_neg (by simp [hg]), if_neg (by simp [hg]),
    if_neg (by simp [hw]), if_pos (.inl ⟨hp, h8⟩)]
  exact ⟨rfl, rfl⟩

/-- **C59, a limit.** On s390x no vector unit is ever named; the VSX code is used when the compiler is a GNU compiler with
its vector extension. -/
theorem C59_s390x (h : Neither m e) (hp : m.ppc64 = false ∧ e.powerpc64 = false ∧ e.ppc = false)
    (ho : e.avr = false ∧ e.mips64 = false ∧ e.mips = false) (hw : m.wasmSimd128 = false) (hz : m.s390x = true) :
    arch m e = txt "s390x" ∧ (vector m {} = .vsx ↔ m.vec = true ∧ m.gnuc.isSome) ∧
      (vector m {} ≠ .vsx ↔ vector m {} = .scalar) := by
  rw [arch_neither h, vector_neither h]
  simp only [hp.1, hp.2.1, hp.2.2, ho.1, ho.2.1, ho.2.2, hw, hz, Bool.false_eq_true, or_self, if_false, if_true, false_and,
    false_or, true_and]
  refine ⟨rfl, ?_⟩
  by_cases hc : m.vec = true ∧ m.gnuc.isSome = true
  · rw [if_pos hc]; exact ⟨iff_of_true rfl hc, by decide⟩
  · rw [if_neg hc]; exact ⟨iff_of_false (by decide) hc, by decide⟩

/-- **C59**, WebAssembly: the NEON code is used exactly when the text names SIMD128, the header `arm_neon.h` was found and
the machine is known to be little-endian. Without the header the name is there and the code is scalar. -/
theorem C59_wasm (h : Neither m e) (hp : m.ppc64 = false ∧ e.powerpc64 = false ∧ e.ppc = false)
    (ho : e.avr = false ∧ e.mips64 = false ∧ e.mips = false) (hz : m.s390x = false ∧ e.s390 = false)
    (hw : m.wasm = true ∨ e.emscripten = true) :
    (vector m {} = .neon ↔ Says (arch m e) "simd128" ∧ m.hasArmNeonH = true ∧ LittleMacro m) ∧
    (m.hasArmNeonH = false → vector m {} = .scalar) := by
  rw [arch_neither h, vector_neither h]
  simp only [hp.1, hp.2.1, hp.2.2, ho.1, ho.2.1, ho.2.2, hz.1, hz.2, Bool.false_eq_true, or_self, if_false, false_and,
    if_pos hw]
  by_cases hs : m.wasmSimd128 = true
  · simp only [hs, if_true, true_and]
    have : Says (str "wasm/asmjs + simd128") "simd128" := by decide
    by_cases hc : m.hasArmNeonH = true ∧ LittleMacro m
    · rw [if_pos hc]; exact ⟨iff_of_true rfl ⟨this, hc⟩, fun h0 => by rw [h0] at hc; cases hc.1⟩
    · rw [if_neg hc]; exact ⟨iff_of_false (by decide) fun h1 => hc h1.2, fun _ => rfl⟩
  · simp only [hs, Bool.false_eq_true, if_false, false_and]
    have : ¬ Says (str "wasm/asmjs") "simd128" := by decide
    exact ⟨iff_of_false (by decide) fun h1 => this h1.1, fun _ => trivial⟩

/-- **C59.** A machine that xsum_arch.h does not know has the scalar code, unless it has WebAssembly's vectors. -/
theorem C59_unknown (h : Neither m e) (hw : m.wasmSimd128 = false) (hu : arch m e = txt "unknown") :
    vector m {} = .scalar := by
  rw [arch_neither h] at hu
  rw [vector_neither h, if_neg (by simp [hw]), if_neg]
  rintro (⟨hp, -⟩ | ⟨hz, -⟩)
  · rw [if_pos (.inr hp)] at hu
    revert hu
    repeat' split
    all_goals decide
  · rw [if_pos hz] at hu
    revert hu
    repeat' split
    all_goals decide

end

/-- **C59, a limit.** `XXH_VECTOR` on the command line changes the code and not the text: a compiler with AVX2 lets the
program claim AVX2, whatever code it is told to use. -/
theorem C59_option {m : Macros} {e : Extra} (h : X86Compiler m e) (hd : e.dispatch = false)
    (ha : m.avx2 = true ∧ m.avx512f = false) (v : VectorKind) (hv : v ≠ .sve) (o : Options) :
    Says (arch m e) "AVX2" ∧ vector m { o with vector := some v } = v := by
  refine ⟨?_, ?_⟩
  · unfold arch
    rw [archX86_some h]
    simp only [x86Text, hd, ha.1, ha.2, if_true, Bool.false_eq_true, if_false]
    split <;> decide
  · unfold vector vector0
    rw [if_neg (fun hc => hv hc.1)]

/-! ### Word size, byte order, compiler -/

/-- **C59.** The word size and the byte order in the text are those of the machine. -/
theorem C59_machine (m : Macros) (e : Extra) (t : Target) : ∃ N, decimal N = 8 * t.ptrBytes ∧
    compiled m e t = txt "compiled as " ++ N ++ txt "-bit " ++ arch m e ++ txt " " ++
      (if t.littleEndian then txt "little endian" else txt "big endian") ++ txt " with " ++ ccVersion m e ++ txt " \n" := by
  refine ⟨decText (t.ptrBytes * 8), by rw [(C51_numbers _).1]; omega, ?_⟩
  have : endianName t = if t.littleEndian then txt "little endian" else txt "big endian" := by
    unfold endianName isLittleEndian
    cases t.littleEndian <;> decide
  unfold compiled
  rw [this]
  rfl

/-- **C59.** The byte order in the text is also that of the build, for true macros and options. -/
theorem C59_endian {m : Macros} {t : Target} {o : Options} (h : Honest m t) (s : Sane o t) :
    endianName t = txt "little endian" ↔ cpuLittleEndian m o t = true := by
  rw [C53_endian h s]
  unfold endianName isLittleEndian
  cases t.littleEndian <;> decide

theorem decimal_zeros (k : Nat) (x : List Byte) : decimal (List.replicate k (str "0").head! ++ x) = decimal x := by
  unfold Spec.Cli.decimal
  rw [List.foldl_append]
  congr 1
  induction k with
  | zero => rfl
  | succ k ih => rw [List.replicate_succ, List.foldl_cons, show 10 * 0 + (Spec.Cli.decVal (str "0").head!).getD 0 = 0 by decide, ih]

theorem decText_length {n w : Nat} (hw : 0 < w) (h : n < 10 ^ w) : (decText n).length ≤ w := by
  unfold decText
  split
  · exact hw
  · rw [List.length_map, List.length_reverse]
    exact (Nat.digits_length_le_iff (by decide) n).mpr h

theorem padText_spec {n w : Nat} (hw : 0 < w) (h : n < 10 ^ w) : decimal (padText w n) = n ∧ (padText w n).length = w := by
  unfold padText
  refine ⟨by rw [decimal_zeros, (C51_numbers n).1], ?_⟩
  have := decText_length hw h
  rw [List.length_append, List.length_replicate]
  omega

/-- **C59.** The version of Visual Studio is shown with its four numbers, each in a field of fixed width, as
`_MSC_FULL_VER` and `_MSC_BUILD` give them. -/
theorem C59_msvc {m : Macros} {e : Extra} (hc : e.clangVersion = none) (hv : e.versionText = none) {major minor build rev : Nat}
    (h1 : major < 100) (h2 : minor < 100) (h3 : build < 100000) (h4 : rev < 100)
    (hf : m.mscFullVer = some (10000000 * major + 100000 * minor + build)) (hb : e.mscBuild = some rev) :
    ∃ A B C D, ccVersion m e = txt "MSVC " ++ A ++ txt "." ++ B ++ txt "." ++ C ++ txt "." ++ D ∧
      (decimal A = major ∧ A.length = 2) ∧ (decimal B = minor ∧ B.length = 2) ∧ (decimal C = build ∧ C.length = 5) ∧
      (decimal D = rev ∧ D.length = 2) := by
  refine ⟨padText 2 major, padText 2 minor, padText 5 build, padText 2 rev, ?_, padText_spec (by decide) h1,
    padText_spec (by decide) h2, padText_spec (by decide) h3, padText_spec (by decide) h4⟩
  unfold ccVersion
  rw [hc, hv, hf, hb]
  simp only
  rw [show (10000000 * major + 100000 * minor + build) / 10000000 % 100 = major by omega,
    show (10000000 * major + 100000 * minor + build) / 100000 % 100 = minor by omega,
    show (10000000 * major + 100000 * minor + build) % 100000 = build by omega]
  rfl

/-- **C59.** Without `_MSC_BUILD` (before Visual Studio 2005) only the two numbers of `_MSC_VER` are shown. -/
theorem C59_msvc_old {m : Macros} {e : Extra} (hc : e.clangVersion = none) (hv : e.versionText = none) {major minor : Nat}
    (h1 : major < 100) (h2 : minor < 100) (hf : m.mscVer = some (100 * major + minor)) (hb : e.mscBuild = none) :
    ∃ A B, ccVersion m e = txt "MSVC " ++ A ++ txt "." ++ B ∧ (decimal A = major ∧ A.length = 2) ∧
      (decimal B = minor ∧ B.length = 2) := by
  refine ⟨padText 2 major, padText 2 minor, ?_, padText_spec (by decide) h1, padText_spec (by decide) h2⟩
  unfold ccVersion
  rw [hc, hv, hf, hb]
  cases m.mscFullVer <;> simp only <;>
    rw [show (100 * major + minor) / 100 = major by omega, show (100 * major + minor) % 100 = minor by omega] <;> rfl

/-- **C59.** The version of tcc: three numbers, without leading zeros. -/
theorem C59_tcc {m : Macros} {e : Extra} (hc : e.clangVersion = none) (hv : e.versionText = none) {a b c : Nat}
    (h1 : a < 100) (h2 : b < 100) (h3 : c < 100) (hf : m.mscVer = none) (hb : e.mscBuild = none)
    (ht : e.tinyc = some (10000 * a + 100 * b + c)) :
    ∃ A B C, ccVersion m e = txt "tcc " ++ A ++ txt "." ++ B ++ txt "." ++ C ∧ decimal A = a ∧ decimal B = b ∧
      decimal C = c := by
  refine ⟨decText a, decText b, decText c, ?_, (C51_numbers a).1, (C51_numbers b).1, (C51_numbers c).1⟩
  unfold ccVersion
  rw [hc, hv, hf, hb, ht]
  cases m.mscFullVer <;> simp only <;>
    rw [show (10000 * a + 100 * b + c) / 10000 % 100 = a by omega, show (10000 * a + 100 * b + c) / 100 % 100 = b by omega,
      show (10000 * a + 100 * b + c) % 100 = c by omega] <;> rfl

/-- **C59.** Clang is recognised before everything it imitates (GCC, Visual Studio); a compiler with a version text that is
not Clang's is taken for GCC unless it is Intel's. -/
theorem C59_names (m : Macros) (e : Extra) :
    (∀ v, e.clangVersion = some v →
      ccVersion m e = (if e.appleBuild then txt "Apple Clang " else txt "Clang ") ++ v) ∧
    (∀ v, e.clangVersion = none → e.versionText = some v →
      ccVersion m e = (if e.intel then [] else txt "GCC ") ++ v) := by
  refine ⟨fun v hv => ?_, fun v hc hv => ?_⟩
  · unfold ccVersion
    rw [hv]
    rfl
  · unfold ccVersion
    rw [hc, hv]
    simp only
    cases e.intel <;> rfl

/-! ### The program -/

/-- **C59.** `xxhsum --version` writes on standard error: the program's name, the version 0.8.3 and the author; then the word
size, the machine, the byte order and the compiler; nothing else, and nothing on standard output. The exit code is 0. -/
theorem C59_version (env : Env) {test : Model.SelfTest.TestEnv} (htest : Model.SelfTest.sanityCheck test = .ok ()) (te : Texts)
    (m : Macros) (e : Extra) (t : Target) (hv : te.version = programVersion) (hc : te.compiled = compiled m e t)
    (w : World) (console : Bool) (argv0 : List Byte) {args : List (List Byte)} {os : List Opt}
    {files : Option (List (List Byte))} (h : CommandLine args os files) (hb : InBounds os)
    (ho : os[(Spec.Cli.live os).length]? = some .version) :
    (programT env test te w console argv0 args).res = .ok (some (0, w)) ∧
    arrives .out (programT env test te w console argv0 args).trace = [] ∧
    ∃ N, decimal N = 8 * t.ptrBytes ∧ arrives .err (programT env test te w console argv0 args).trace =
      Spec.Cli.programName argv0 ++ txt " 0.8.3 by Yann Collet \ncompiled as " ++ N ++ txt "-bit " ++ arch m e ++ txt " " ++
        (if t.littleEndian then txt "little endian" else txt "big endian") ++ txt " with " ++ ccVersion m e ++ txt " \n" := by
  obtain ⟨h1, -, h2, -⟩ := C54_stops env htest te w console argv0 h hb ho
  obtain ⟨h3, h4⟩ := h2 rfl
  obtain ⟨N, h5, h6⟩ := C59_machine m e t
  refine ⟨h3, h1, N, h5, ?_⟩
  have h7 : programVersion = txt "0.8.3" := by
    unfold programVersion decText
    norm_num
    decide
  rw [h4, hv, hc, h6, h7]
  have h8 : txt " 0.8.3 by Yann Collet \ncompiled as " = txt " " ++ txt "0.8.3" ++ txt " by Yann Collet \n" ++ txt "compiled as " := by
    decide
  rw [h8]
  simp only [List.append_assoc]

/-! ### Compilers -/

theorem gccX64_x86 : X86Compiler gccX64 {} := by
  constructor
  · decide
  · constructor <;> rfl
  all_goals rfl

/-- GCC for x86-64: "x86_64 + SSE2", and the code is that. -/
example : Says (arch gccX64 {}) "SSE2" ∧ vector gccX64 {} = .sse2 :=
  have h := C59_x86 gccX64_x86 rfl (fun _ => .inl rfl)
  ⟨by decide, h.2.2.1.mp (.inr (by decide))⟩

/-- With `-mavx2`. -/
def gccAvx2 : Macros := { gccX64 with avx := true, avx2 := true }

theorem gccAvx2_x86 : X86Compiler gccAvx2 {} := by
  constructor
  · decide
  · constructor <;> rfl
  all_goals rfl

example : vector gccAvx2 {} = .avx2 := (C59_x86 gccAvx2_x86 rfl (fun _ => .inl rfl)).2.1.mp (by decide)

/-- With `-mavx2 -DXXH_VECTOR=0`: "x86_64 + AVX2", and the code is scalar. -/
example : Says (arch gccAvx2 {}) "AVX2" ∧ vector gccAvx2 { vector := some .scalar } = .scalar :=
  C59_option gccAvx2_x86 rfl ⟨rfl, rfl⟩ .scalar (by decide) {}

/-- With `-mavx`: "x86_64 + AVX", and the code is that for SSE2. -/
example : Says (arch { gccX64 with avx := true } {}) "AVX" ∧ ¬ Says (arch { gccX64 with avx := true } {}) "SSE2" ∧
    vector { gccX64 with avx := true } {} = .sse2 :=
  C59_x86_avx (by constructor; decide; (constructor <;> rfl); all_goals rfl) rfl (.inl rfl) ⟨rfl, rfl, rfl⟩

/-- With `-mno-sse2`: "x86_64 + SSE2", and the code is scalar. -/
example : arch { gccX64 with sse2 := false } {} = txt "x86_64 + SSE2" ∧ vector { gccX64 with sse2 := false } {} = .scalar :=
  C59_x86_no_sse2 (by constructor; decide; (constructor <;> rfl); all_goals rfl) rfl rfl (by unfold Sse2Macro; decide)
    ⟨rfl, rfl, rfl⟩

/-- i686 without SSE2: just "i386". -/
example : arch gccX86 {} = txt "i386" ∧ vector gccX86 {} = .scalar :=
  ⟨by decide, (C59_x86 (m := gccX86) (e := {}) (by constructor; decide; (constructor <;> rfl); all_goals rfl) rfl
    (by unfold Sse2Macro; decide)).2.2.2.mp (by decide)⟩

/-- With the dispatcher. -/
example : txt " autoVec" <:+ arch gccX64 { dispatch := true } ∧ ¬ Says (arch gccX64 { dispatch := true }) "SSE2" :=
  have h := C59_dispatch (m := gccX64) (e := { dispatch := true })
    (by constructor; decide; (constructor <;> rfl); all_goals rfl)
  ⟨h.1.mpr rfl, h.2 rfl _ (by decide)⟩

theorem clangApple_arm : Arm64Compiler clangApple := by
  constructor
  · decide
  · constructor <;> rfl
  all_goals rfl

/-- Clang for 64-bit ARM macOS: "aarch64 + NEON", and the code is that; a dispatcher would not change the text. -/
example : arch clangApple {} = txt "aarch64 + NEON" ∧ vector clangApple {} = .neon ∧
    arch clangApple { dispatch := true } = txt "aarch64 + NEON" :=
  have h := (C59_arm64 (e := {}) clangApple_arm).2 rfl
  ⟨h.1, h.2.1 ⟨.inl rfl, .inr (.inl rfl)⟩, (C59_dispatch_other clangApple_arm.x86 true).trans h.1⟩

/-- GCC for big-endian AArch64 (`-mbig-endian`). -/
def gccArm64BE : Macros := { gccSveBE with armSve := false }

theorem gccArm64BE_arm : Arm64Compiler gccArm64BE := by
  constructor
  · decide
  · constructor <;> rfl
  all_goals rfl

example : Says (arch gccArm64BE {}) "NEON" ∧ vector gccArm64BE {} = .scalar :=
  C59_arm64_big gccArm64BE_arm rfl (by unfold LittleMacro; decide)

/-- And with SVE. -/
example : arch gccSveBE {} = txt "aarch64 + SVE" ∧ vector gccSveBE {} = .sve :=
  (C59_arm64 (by constructor; decide; (constructor <;> rfl); all_goals rfl)).1 rfl

/-- GCC for ARMv7 with NEON, without misaligned accesses. -/
def gccArmv7 : Macros := { gccArmv6 with armArch := some 7, armUnaligned := false, armNeon := true }

theorem gccArmv7_arm : Arm32Compiler gccArmv7 { arm := true } := by
  constructor
  · decide
  · constructor <;> rfl
  all_goals rfl

example : Says (arch gccArmv7 { arm := true }) "NEON" ∧ vector gccArmv7 {} = .neon :=
  have h := (says_arm gccArmv7 { arm := true }).1.mpr (.inl rfl)
  have h : Says (arch gccArmv7 { arm := true }) "NEON" := by rw [arch_arm gccArmv7_arm]; exact h
  ⟨h, (C59_arm32 gccArmv7_arm).1.mpr ⟨h, .inr (.inr rfl)⟩⟩

example : Says (arch gccArmv7 { arm := true }) "unaligned" ∧ forceAlignCheck gccArmv7 {} = true :=
  C59_arm32_unaligned gccArmv7_arm (by decide) rfl rfl rfl

example : txt "ARMv_M_ARM" <+: arch { gccArmv7 with armArch := none } { arm := true } :=
  C59_arm32_version (by constructor; decide; (constructor <;> rfl); all_goals rfl) rfl rfl

/-- POWER8 with GCC, and with another compiler. -/
example : Says (arch gccPpc64le { powerpc64 := true }) "POWER8 vector" ∧ vector gccPpc64le {} = .vsx :=
  ⟨by decide, (C59_ppc64 (m := gccPpc64le) (e := { powerpc64 := true })
    ⟨by constructor <;> rfl, by constructor <;> rfl⟩ rfl rfl rfl (fun h => by cases h) rfl).mp (.inr (by decide))⟩

example : arch { gccPpc64le with gnuc := none } { powerpc64 := true } = txt "ppc64" ∧
    vector { gccPpc64le with gnuc := none } {} = .vsx :=
  C59_ppc64_other ⟨by constructor <;> rfl, by constructor <;> rfl⟩ rfl rfl rfl rfl

/-- s390x with vectors: the text does not mention them. -/
example : arch gccS390 { s390 := true } = txt "s390x" ∧ vector gccS390 {} = .vsx :=
  have h := C59_s390x (m := gccS390) (e := { s390 := true }) ⟨by constructor <;> rfl, by constructor <;> rfl⟩
    ⟨rfl, rfl, rfl⟩ ⟨rfl, rfl, rfl⟩ rfl rfl
  ⟨h.1, h.2.1.mpr ⟨rfl, rfl⟩⟩

/-- Clang for WebAssembly with `-msimd128`; the header comes from SIMDe or is missing. -/
def clangWasm (simde : Bool) : Macros where
  gnuc := some 4
  gnucMinor := 2
  clang := true
  stdcVersion := some 201710
  wasm := true
  wasmSimd128 := true
  byteOrder := some .little
  sizeofInt128 := true
  hasArmNeonH := simde

theorem clangWasm_neither (b : Bool) : Neither (clangWasm b) {} := ⟨by constructor <;> rfl, by constructor <;> rfl⟩

example : Says (arch (clangWasm true) {}) "simd128" ∧ vector (clangWasm true) {} = .neon :=
  have h : Says (arch (clangWasm true) {}) "simd128" := by decide
  ⟨h, (C59_wasm (clangWasm_neither true) ⟨rfl, rfl, rfl⟩ ⟨rfl, rfl, rfl⟩ ⟨rfl, rfl⟩ (.inl rfl)).1.mpr ⟨h, rfl, .inr (.inr rfl)⟩⟩

example : Says (arch (clangWasm false) {}) "simd128" ∧ vector (clangWasm false) {} = .scalar :=
  ⟨by decide, (C59_wasm (clangWasm_neither false) ⟨rfl, rfl, rfl⟩ ⟨rfl, rfl, rfl⟩ ⟨rfl, rfl⟩ (.inl rfl)).2 rfl⟩

/-- A compiler that predefines nothing (or is for RISC-V). -/
example : arch plainC11 {} = txt "unknown" ∧ vector plainC11 {} = .scalar :=
  ⟨by decide, C59_unknown (e := {}) ⟨by constructor <;> rfl, by constructor <;> rfl⟩ rfl (by decide)⟩

/-- Visual Studio 19.30.30705.0. -/
example : ∃ A B C D, ccVersion mscX64 { mscBuild := some 0 } = txt "MSVC " ++ A ++ txt "." ++ B ++ txt "." ++ C ++ txt "." ++ D ∧
    (decimal A = 19 ∧ A.length = 2) ∧ (decimal B = 30 ∧ B.length = 2) ∧ (decimal C = 30705 ∧ C.length = 5) ∧
    (decimal D = 0 ∧ D.length = 2) :=
  C59_msvc rfl rfl (by decide) (by decide) (by decide) (by decide) rfl rfl

/-- Visual C++ 6: 12.00. -/
example : ∃ A B, ccVersion { mscVer := some 1200 } {} = txt "MSVC " ++ A ++ txt "." ++ B ∧ (decimal A = 12 ∧ A.length = 2) ∧
    (decimal B = 0 ∧ B.length = 2) :=
  C59_msvc_old rfl rfl (by decide) (by decide) rfl rfl

/-- tcc 0.9.27 -/
example : ∃ A B C, ccVersion plainC11 { tinyc := some 927 } = txt "tcc " ++ A ++ txt "." ++ B ++ txt "." ++ C ∧ decimal A = 0 ∧
    decimal B = 9 ∧ decimal C = 27 :=
  C59_tcc rfl rfl (by decide) (by decide) (by decide) rfl rfl rfl

/-- Clang on Windows, which also has the macros of Visual Studio. -/
example : ccVersion mscX64 { clangVersion := some (txt "17.0.1"), mscBuild := some 0 } = txt "Clang 17.0.1" :=
  ((C59_names _ _).1 _ rfl).trans (by decide)

/-- The texts of a program built by GCC for x86-64. -/
def gccTexts : Texts :=
  { exTexts with version := programVersion, compiled := compiled gccX64 { versionText := some (txt "13.2.0") } (machine64 true) }

/-- `xxhsum --version`: "xxhsum 0.8.3 by Yann Collet", "compiled as 64-bit x86_64 + SSE2 little endian with GCC 13.2.0". -/
example (w : World) : (programT exEnv (someEnv x64) gccTexts w true (txt "xxhsum") [txt "--version"]).res = .ok (some (0, w)) ∧
    ∃ N, decimal N = 64 ∧ arrives .err (programT exEnv (someEnv x64) gccTexts w true (txt "xxhsum") [txt "--version"]).trace =
      txt "xxhsum" ++ txt " 0.8.3 by Yann Collet \ncompiled as " ++ N ++ txt "-bit " ++ txt "x86_64 + SSE2" ++ txt " " ++
        txt "little endian" ++ txt " with " ++ txt "GCC 13.2.0" ++ txt " \n" := by
  obtain ⟨h1, -, N, h2, h3⟩ := C59_version exEnv (selftest exMachine_ok) gccTexts gccX64 { versionText := some (txt "13.2.0") }
    (machine64 true) rfl rfl w true (txt "xxhsum") (args := [txt "--version"]) (.long (o := .version) (by decide) .nil)
    ⟨by simp [Spec.Cli.live, Spec.Cli.ends], by decide⟩ rfl
  refine ⟨h1, N, h2, h3.trans ?_⟩
  have h4 : arch gccX64 { versionText := some (txt "13.2.0") } = txt "x86_64 + SSE2" := by decide
  have h5 : ccVersion gccX64 { versionText := some (txt "13.2.0") } = txt "GCC 13.2.0" := by decide
  have h6 : Spec.Cli.programName (txt "xxhsum") = txt "xxhsum" := by decide
  rw [h4, h5, h6]
  rfl

/-- The byte order shown for a compiler that says nothing about it. -/
example (le : Bool) : endianName (machine32 le) = txt "little endian" ↔ cpuLittleEndian plainC11 {} (machine32 le) = true :=
  C59_endian (by cases le <;> constructor <;> decide) (sane_default _ false)

end XXH.Props
