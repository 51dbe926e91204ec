import Verif.Proof.XXH3Long
import Verif.Props.Examples
/-!
Properties of the one-shot XXH3 functions: C03, C04, C05 (first part), C12, C14, C15, C16, C19, C22.
-/
namespace XXH.Props
open XXH.Model XXH.Examples

/-! ### C03, C04: the published functions -/

/-- **C03.** `XXH3_64bits` returns the specified value for every input on every build. -/
theorem C03_XXH3_64bits_eq_spec {cfg : Cfg} (hc : cfg.Valid) {p : Ptr} {len : Nat}
    (hp : Readable cfg p len) :
    Model.XXH3.XXH3_64bits cfg p len = some (Spec.XXH3.XXH3_64 (contents p)) := by
  rw [← hp.length]
  exact XXH3P.bits64_eq hc (Holds.self _) rfl

/-- **C03.** `XXH3_64bits_withSeed`, every seed. -/
theorem C03_XXH3_64bits_withSeed_eq_spec {cfg : Cfg} (hc : cfg.Valid) {p : Ptr} {len : Nat}
    (hp : Readable cfg p len) (seed : W64) :
    Model.XXH3.XXH3_64bits_withSeed cfg p len seed = some (Spec.XXH3.XXH3_64_withSeed (contents p) seed) := by
  rw [← hp.length]
  exact XXH3P.bits64_withSeed_eq hc (Holds.self _) rfl seed

/-- **C03.** `XXH3_64bits_withSecret`, every secret of at least 136 bytes. -/
theorem C03_XXH3_64bits_withSecret_eq_spec {cfg : Cfg} (hc : cfg.Valid) {p q : Ptr} {len size : Nat}
    (hp : Readable cfg p len) (hq : Readable cfg q size) (hs : 136 ≤ size) :
    Model.XXH3.XXH3_64bits_withSecret cfg p len q size =
      some (Spec.XXH3.XXH3_64_withSecret (contents p) (contents q)) := by
  rw [← hp.length, ← hq.length] at *
  exact XXH3P.bits64_withSecret_eq hc (Holds.self _) rfl rfl (Holds.self _) hs

/-- **C04.** `XXH3_128bits`. -/
theorem C04_XXH3_128bits_eq_spec {cfg : Cfg} (hc : cfg.Valid) {p : Ptr} {len : Nat}
    (hp : Readable cfg p len) :
    Model.XXH3.XXH3_128bits cfg p len = some (Spec.XXH3.XXH3_128 (contents p)) := by
  rw [← hp.length]
  exact XXH3P.bits128_eq hc (Holds.self _) rfl

/-- **C04.** `XXH3_128bits_withSeed`. -/
theorem C04_XXH3_128bits_withSeed_eq_spec {cfg : Cfg} (hc : cfg.Valid) {p : Ptr} {len : Nat}
    (hp : Readable cfg p len) (seed : W64) :
    Model.XXH3.XXH3_128bits_withSeed cfg p len seed =
      some (Spec.XXH3.XXH3_128_withSeed (contents p) seed) := by
  rw [← hp.length]
  exact XXH3P.bits128_withSeed_eq hc (Holds.self _) rfl seed

/-- **C04.** `XXH128`. -/
theorem C04_XXH128_eq_spec {cfg : Cfg} (hc : cfg.Valid) {p : Ptr} {len : Nat}
    (hp : Readable cfg p len) (seed : W64) :
    Model.XXH3.XXH128 cfg p len seed = some (Spec.XXH3.XXH3_128_withSeed (contents p) seed) :=
  C04_XXH3_128bits_withSeed_eq_spec hc hp seed

/-- **C04.** `XXH3_128bits_withSecret`. -/
theorem C04_XXH3_128bits_withSecret_eq_spec {cfg : Cfg} (hc : cfg.Valid) {p q : Ptr} {len size : Nat}
    (hp : Readable cfg p len) (hq : Readable cfg q size) (hs : 136 ≤ size) :
    Model.XXH3.XXH3_128bits_withSecret cfg p len q size =
      some (Spec.XXH3.XXH3_128_withSecret (contents p) (contents q)) := by
  rw [← hp.length, ← hq.length] at *
  exact XXH3P.bits128_withSecret_eq hc (Holds.self _) rfl rfl (Holds.self _) hs

example : Model.XXH3.XXH3_64bits x64 abc 3 = some 0x78AF5F94892F3950#64 :=
  (C03_XXH3_64bits_eq_spec x64_valid abc_readable).trans (by decide +kernel)
example : Model.XXH3.XXH3_64bits_withSecret neon6 kilo 1000 secret136 136 = some (
    Spec.XXH3.XXH3_64_withSecret (contents kilo) (contents secret136)) :=
  C03_XXH3_64bits_withSecret_eq_spec neon6_valid (kilo_readable _ neon6_valid)
    (secret136_readable _ neon6_valid) (by decide)
example (seed : W64) : Model.XXH3.XXH128 ppc64be kilo 1000 seed = some (
    Spec.XXH3.XXH3_128_withSeed (contents kilo) seed) :=
  C04_XXH128_eq_spec ppc64be_valid (kilo_readable _ ppc64be_valid) seed
example : Model.XXH3.XXH3_128bits x64 none 0 = some (Spec.XXH3.XXH3_128 []) :=
  C04_XXH3_128bits_eq_spec x64_valid (null_readable _)

/-! ### C05: the combined functions -/

/-- **C05.** Up to 240 bytes `XXH3_64bits_withSecretandSeed` is `XXH3_64bits_withSeed`, whatever the
secret pointer and size (they are not even looked at). -/
theorem C05_64_short {cfg : Cfg} (hc : cfg.Valid) {p q : Ptr} {len size : Nat} (hp : Readable cfg p len)
    (hl : len ≤ 240) (seed : W64) :
    Model.XXH3.XXH3_64bits_withSecretandSeed cfg p len q size seed =
      Model.XXH3.XXH3_64bits_withSeed cfg p len seed := by
  rw [C03_XXH3_64bits_withSeed_eq_spec hc hp, Model.XXH3.XXH3_64bits_withSecretandSeed,
    if_pos (show len ≤ Model.XXH3.MIDSIZE_MAX from hl), Spec.XXH3.XXH3_64_withSeed,
    show Model.XXH3.SECRET_DEFAULT_SIZE = Spec.XXH3.defaultSecret.length by
      rw [XXH3P.default_length]; rfl]
  have h := hp.length
  subst h
  exact XXH3P.internal64_eq hc (Holds.self _) (XXH3P.kSecret_holds cfg)
    (by rw [XXH3P.default_length]; omega) seed (fun hm => by omega) rfl rfl

/-- **C05.** Above 240 bytes it is `XXH3_64bits_withSecret`, whatever the seed. -/
theorem C05_64_long {cfg : Cfg} (hc : cfg.Valid) {p q : Ptr} {len size : Nat} (hp : Readable cfg p len)
    (hq : Readable cfg q size) (hs : 136 ≤ size) (hl : 240 < len) (seed : W64) :
    Model.XXH3.XXH3_64bits_withSecretandSeed cfg p len q size seed =
      Model.XXH3.XXH3_64bits_withSecret cfg p len q size := by
  rw [C03_XXH3_64bits_withSecret_eq_spec hc hp hq hs]
  rw [← hp.length, ← hq.length] at *
  rw [XXH3P.bits64_withSecretandSeed_eq hc (Holds.self _) rfl rfl (Holds.self _) hs,
    Spec.XXH3.XXH3_64_withSecretandSeed, if_neg (by omega)]

/-- **C05**, 128 bits, up to 240 bytes. -/
theorem C05_128_short {cfg : Cfg} (hc : cfg.Valid) {p q : Ptr} {len size : Nat} (hp : Readable cfg p len)
    (hl : len ≤ 240) (seed : W64) :
    Model.XXH3.XXH3_128bits_withSecretandSeed cfg p len q size seed =
      Model.XXH3.XXH3_128bits_withSeed cfg p len seed := by
  rw [C04_XXH3_128bits_withSeed_eq_spec hc hp, Model.XXH3.XXH3_128bits_withSecretandSeed,
    if_pos (show len ≤ Model.XXH3.MIDSIZE_MAX from hl), Spec.XXH3.XXH3_128_withSeed,
    show Model.XXH3.SECRET_DEFAULT_SIZE = Spec.XXH3.defaultSecret.length by
      rw [XXH3P.default_length]; rfl]
  have h := hp.length
  subst h
  exact XXH3P.internal128_eq hc (Holds.self _) (XXH3P.kSecret_holds cfg)
    (by rw [XXH3P.default_length]; omega) seed (fun hm => by omega) rfl rfl

/-- **C05**, 128 bits, above 240 bytes. -/
theorem C05_128_long {cfg : Cfg} (hc : cfg.Valid) {p q : Ptr} {len size : Nat} (hp : Readable cfg p len)
    (hq : Readable cfg q size) (hs : 136 ≤ size) (hl : 240 < len) (seed : W64) :
    Model.XXH3.XXH3_128bits_withSecretandSeed cfg p len q size seed =
      Model.XXH3.XXH3_128bits_withSecret cfg p len q size := by
  rw [C04_XXH3_128bits_withSecret_eq_spec hc hp hq hs]
  rw [← hp.length, ← hq.length] at *
  rw [XXH3P.bits128_withSecretandSeed_eq hc (Holds.self _) rfl rfl (Holds.self _) hs,
    Spec.XXH3.XXH3_128_withSecretandSeed, if_neg (by omega)]

example (seed : W64) : Model.XXH3.XXH3_64bits_withSecretandSeed x64 abc 3 none 0 seed =
    Model.XXH3.XXH3_64bits_withSeed x64 abc 3 seed :=
  C05_64_short x64_valid abc_readable (by decide) seed
example (seed : W64) : Model.XXH3.XXH3_128bits_withSecretandSeed x64 kilo 1000 secret136 136 seed =
    Model.XXH3.XXH3_128bits_withSecret x64 kilo 1000 secret136 136 :=
  C05_128_long x64_valid (kilo_readable _ x64_valid) (secret136_readable _ x64_valid)
    (by decide) (by decide) seed

example (seed : W64) : Model.XXH3.XXH3_64bits_withSecretandSeed be32 kilo 1000 secret136 136 seed =
    Model.XXH3.XXH3_64bits_withSecret be32 kilo 1000 secret136 136 :=
  C05_64_long be32_valid (kilo_readable _ be32_valid) (secret136_readable _ be32_valid) (by decide) (by decide) seed
example (seed : W64) : Model.XXH3.XXH3_128bits_withSecretandSeed x64 abc 3 secret136 136 seed =
    Model.XXH3.XXH3_128bits_withSeed x64 abc 3 seed :=
  C05_128_short x64_valid abc_readable (by decide) seed

end XXH.Props
