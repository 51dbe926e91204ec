import Verif.Proof.SelfTest
/-!
Property C44: the self-test that `xxhsum` runs (cli/xsum_sanity_check.c) accepts the library on every build, and
accepts nothing but the specified values.
-/
namespace XXH.Props
open XXH.Model XXH.Model.SelfTest XXH.Examples XXH.SelfTestP
open Cli (Res)

/-- **C44.** `XSUM_sanityCheck` returns (it does not exit with an error, and no undefined behaviour occurs): on every
build, with the buffers and states anywhere in memory and with any previous contents. -/
theorem C44_selftest_passes (e : TestEnv) (hc : e.cfg.Valid) (hs : e.secretJunk.length = 192) (ht : e.state3.Typed) :
    sanityCheck e = .ok () := sanity_ok ⟨hc, hs, ht⟩

/-- **C44.** `XXH32` and `XXH64` tests accept the specified hash of the test data and end the program with 1 for any
other expected value. -/
theorem C44_exact_32_64 (e : TestEnv) (hc : e.cfg.Valid) (hs : e.secretJunk.length = 192) (ht : e.state3.Typed)
    (len : Nat) (hl : len ≤ 2367) (seed32 N32 : W32) (seed64 N64 : W64) :
    testXXH32 e ⟨len, seed32, N32⟩ =
      (if N32 = Spec.XXH32.hash ((fillTestBuffer 2367).take len) seed32 then .ok () else .exit 1) ∧
    testXXH64 e ⟨len, seed64, N64⟩ =
      (if N64 = Spec.XXH64.hash ((fillTestBuffer 2367).take len) seed64 then .ok () else .exit 1) := by
  have he : EnvOK e := ⟨hc, hs, ht⟩
  have hd := data_readable he hl
  constructor
  · split
    · next h => exact test32 he hl h.symm
    · next h =>
      unfold testXXH32
      dsimp only
      rw [C01_XXH32_eq_spec hc hd, data_contents, Res.of_some, Res.bind_ok, SelfTest.checkResult, show buf = fillTestBuffer 2367 from rfl, if_pos (Ne.symm h)]
      rfl
  · split
    · next h => exact test64 he hl h.symm
    · next h =>
      unfold testXXH64
      dsimp only
      rw [C02_XXH64_eq_spec hc hd, data_contents, Res.of_some, Res.bind_ok, SelfTest.checkResult, show buf = fillTestBuffer 2367 from rfl, if_pos (Ne.symm h)]
      rfl

/-- **C44.** The XXH3 tests likewise end the program with 1 for any value that is not the specified hash. -/
theorem C44_wrong_rejected (e : TestEnv) (hc : e.cfg.Valid) (hs : e.secretJunk.length = 192) (ht : e.state3.Typed)
    (len : Nat) (hl : len ≤ 2367) (seed rnd N64 : W64) (N128 : H128) :
    (N64 ≠ Spec.XXH3.XXH3_64_withSeed ((fillTestBuffer 2367).take len) seed →
      testXXH3 e rnd ⟨len, seed, N64⟩ = .exit 1) ∧
    (N128 ≠ Spec.XXH3.XXH3_128_withSeed ((fillTestBuffer 2367).take len) seed →
      testXXH128 e rnd ⟨len, seed, N128⟩ = .exit 1) := by
  have hd := data_readable ⟨hc, hs, ht⟩ hl
  constructor <;> intro h
  · unfold testXXH3
    dsimp only
    rw [C03_XXH3_64bits_withSeed_eq_spec hc hd, data_contents, Res.of_some, Res.bind_ok, SelfTest.checkResult,
      show buf = fillTestBuffer 2367 from rfl, if_pos (Ne.symm h)]
    rfl
  · unfold testXXH128
    dsimp only
    rw [C04_XXH3_128bits_withSeed_eq_spec hc hd, data_contents, Res.of_some, Res.bind_ok, SelfTest.checkResult,
      show buf = fillTestBuffer 2367 from rfl, if_pos (Ne.symm h)]
    rfl

/-- **C44.** So do the tests with a custom secret and the test of the secret generator. -/
theorem C44_wrong_rejected_secret (e : TestEnv) (hc : e.cfg.Valid) (hs : e.secretJunk.length = 192)
    (ht : e.state3.Typed) (len : Nat) (hl : len ≤ 2367) {q : Ptr} {size : Nat} (hq : Readable e.cfg q size)
    (hsize : 136 ≤ size) (hmax : size ≤ 9867) (seed rnd N64 : W64) (N128 : H128) (sample : List Byte) :
    (N64 ≠ Spec.XXH3.XXH3_64_withSecret ((fillTestBuffer 2367).take len) (contents q) →
      testXXH3_withSecret e q size rnd ⟨len, seed, N64⟩ = .exit 1) ∧
    (N128 ≠ Spec.XXH3.XXH3_128_withSecret ((fillTestBuffer 2367).take len) (contents q) →
      testXXH128_withSecret e q size rnd ⟨len, seed, N128⟩ = .exit 1) ∧
    (sample ≠ [0, 62, 131, 191, 241].map (fun i => (Spec.XXH3.generateSecret size ((fillTestBuffer 2367).take len)).getD i 0) →
      testSecretGenerator e ⟨len, size, sample⟩ = .exit 1) := by
  have hd := data_readable ⟨hc, hs, ht⟩ hl
  refine ⟨fun h => ?_, fun h => ?_, fun h => ?_⟩
  · unfold testXXH3_withSecret
    dsimp only
    rw [C03_XXH3_64bits_withSecret_eq_spec hc hd hq hsize, data_contents, Res.of_some, Res.bind_ok, SelfTest.checkResult,
      show buf = fillTestBuffer 2367 from rfl, if_pos (Ne.symm h)]
    rfl
  · unfold testXXH128_withSecret
    dsimp only
    rw [C04_XXH3_128bits_withSecret_eq_spec hc hd hq hsize, data_contents, Res.of_some, Res.bind_ok,
      SelfTest.checkResult, show buf = fillTestBuffer 2367 from rfl, if_pos (Ne.symm h)]
    rfl
  · have hq : Readable e.cfg (some ⟨e.buffer, buf.take len⟩) len :=
      readable_some hc _ (take_length hl) (by omega)
    have hg := C21_generateSecret_ok hc (buf := ⟨e.secretBuffer, List.replicate SECRET_SIZE_MAX 0⟩) hsize
      (by rw [List.length_replicate]; exact hmax) hq
    unfold testSecretGenerator
    dsimp only
    rw [show fillTestBuffer 2367 = buf from rfl, hg, Res.of_some, Res.bind_ok]
    simp only
    rw [if_pos]
    intro h'
    refine h (h'.symm.trans (List.map_congr_left fun i _ => ?_))
    rw [List.getD_eq_getElem?_getD, List.getD_eq_getElem?_getD, List.getElem?_append,
      C21_generateSecret_length]
    split
    · rfl
    · next hi =>
      rw [List.getElem?_eq_none (l := Spec.XXH3.generateSecret _ _) (by rw [C21_generateSecret_length]; omega)]
      simp only [List.drop_replicate, List.getElem?_replicate]
      split <;> rfl

/-- Some build and some memory. -/
def someEnv (cfg : Cfg) : TestEnv :=
  ⟨cfg, 0x1003, 0x2000, List.replicate 192 0xAA, ⟨5, 1, ⟨1, 2, 3, 4⟩, List.replicate 16 9, 3⟩,
    ⟨5, ⟨1, 2, 3, 4⟩, List.replicate 32 9, 3⟩, junk⟩

example : sanityCheck (someEnv be32) = .ok () :=
  C44_selftest_passes _ be32_valid List.length_replicate junk_typed
example : sanityCheck (someEnv x64) = .ok () :=
  C44_selftest_passes _ x64_valid List.length_replicate junk_typed
example : testXXH3 (someEnv x64) PRIME32 ⟨0, 0, 0x2D06800538D394C3⟩ = .exit 1 :=
  (C44_wrong_rejected _ x64_valid List.length_replicate junk_typed 0 (by decide) 0 PRIME32 _ ⟨0, 0⟩).1 (by decide +kernel)
example : testSecretGenerator (someEnv be32) ⟨0, 192, [0xE7, 0x8C, 0x77, 0x77, 0x01]⟩ = .exit 1 :=
  (C44_wrong_rejected_secret (someEnv be32) be32_valid List.length_replicate junk_typed 0 (by decide)
      (q := some ⟨0, List.replicate 192 1⟩) (readable_some be32_valid _ List.length_replicate (by decide)) (by decide)
      (by decide) 0 0 0 ⟨0, 0⟩ _).2.2 (by decide +kernel)
example : XXH3_testdata.length = 28 ∧ XXH128_testdata.length = 26 := by decide

/-! ### The theorems applied -/

example : testXXH32 (someEnv be32) ⟨1, 0, 0xCF65B03E⟩ = .ok () ∧ testXXH64 (someEnv be32) ⟨0, 0, 0⟩ = .exit 1 := by
  obtain ⟨h1, h2⟩ := C44_exact_32_64 (someEnv be32) be32_valid List.length_replicate junk_typed 1 (by decide) 0 0xCF65B03E 0 0
  obtain ⟨-, h3⟩ := C44_exact_32_64 (someEnv be32) be32_valid List.length_replicate junk_typed 0 (by decide) 0 0 0 0
  exact ⟨h1.trans (if_pos (by decide +kernel)), h3.trans (if_neg (by decide +kernel))⟩

end XXH.Props
