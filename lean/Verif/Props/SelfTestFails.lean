import Verif.Props.Build
import Verif.Props.SelfTest
/-!
C44: a build that exists and is wrong is found by the self-test.
-/
namespace XXH.Props
open Model.SelfTest Examples
open Model.Cli (Res)

/-- `exit(1)` -/
def failed : Res Unit → Bool
  | .exit 1 => true
  | _ => false

theorem failed_iff {r : Res Unit} : failed r = true ↔ r = .exit 1 := by
  constructor
  · intro h
    unfold failed at h
    split at h
    · rfl
    · cases h
  · rintro rfl
    rfl

set_option maxRecDepth 100000 in
/-- **C44.** SVE code on a big-endian target computes wrong hashes of long inputs (`C15_sve_big_endian_differs`); the
self-test of such a build ends the program with 1. -/
theorem C44_sve_big_endian_detected : sanityCheck (someEnv sveBE) = .exit 1 := failed_iff.mp (by decide +kernel)

end XXH.Props
