import Verif.Proof.Cryptol
import Verif.Props.XXH32
import Verif.Props.XXH64
/-!
Property C43: the Cryptol description (doc/xxhash.cry), the text of the specification (doc/xxhash_spec.md) and the C
code agree on XXH32 and XXH64.
-/
namespace XXH.Props
open XXH.Model XXH.Examples

/-- **C43.** The two published descriptions of XXH32 and XXH64 define the same functions on all byte strings (also those
longer than 2^32 or 2^64 bytes) and all seeds. -/
theorem C43_descriptions_agree (input : List Byte) (seed32 : W32) (seed64 : W64) :
    Cryptol.XXH32 input seed32 = Spec.XXH32.hash input seed32 ∧
    Cryptol.XXH64 input seed64 = Spec.XXH64.hash input seed64 :=
  ⟨Proof.Cryptol.XXH32_eq input seed32, Proof.Cryptol.XXH64_eq input seed64⟩

/-- **C43.** The C functions compute what the Cryptol module says, on every build and for every object. -/
theorem C43_code_eq_cryptol {cfg : Cfg} (hc : cfg.Valid) {p : Ptr} {len : Nat} (hp : Readable cfg p len)
    (seed32 : W32) (seed64 : W64) :
    Model.XXH32.XXH32 cfg p len seed32 = some (Cryptol.XXH32 (contents p) seed32) ∧
    Model.XXH64.XXH64 cfg p len seed64 = some (Cryptol.XXH64 (contents p) seed64) := by
  rw [(C43_descriptions_agree _ seed32 seed64).1, (C43_descriptions_agree _ seed32 seed64).2]
  exact ⟨C01_XXH32_eq_spec hc hp seed32, C02_XXH64_eq_spec hc hp seed64⟩

example : Cryptol.XXH32 [0x61, 0x62, 0x63] 0 = 0x32D153FF#32 := by decide +kernel
example (seed : W64) : Model.XXH64.XXH64 be32 kilo 1000 seed = some (Cryptol.XXH64 (contents kilo) seed) :=
  (C43_code_eq_cryptol be32_valid (kilo_readable _ be32_valid) 0 seed).2

end XXH.Props
