import Verif.Proof.Generate
import Verif.Props.Build
/-!
Secret generators, canonical form and order of 128-bit hashes: C05 (second part), C17, C18, C20, C21.
-/
namespace XXH.Props
open XXH.Model XXH.Examples

/-! ### C17: canonical form -/

/-- **C17** (XXH128): the canonical form is the big-endian encoding of the 128-bit value, on every
build. -/
theorem C17_XXH128_canonical_bigEndian (cfg : Cfg) (h : H128) :
    Model.XXH3.XXH128_canonicalFromHash cfg h = Spec.beBytes 8 h.high64 ++ Spec.beBytes 8 h.low64 :=
  XXH3P.canonical128_eq cfg h

theorem beNat_append (xs ys : List Byte) :
    Spec.beNat (xs ++ ys) = Spec.beNat xs * 256 ^ ys.length + Spec.beNat ys := by
  have h : ∀ (ys : List Byte) (n : Nat),
      ys.foldl (fun n (b : Byte) => 256 * n + b.toNat) n = n * 256 ^ ys.length + Spec.beNat ys := by
    intro ys
    induction ys with
    | nil => intro n; simp [Spec.beNat]
    | cons y ys ih =>
      intro n
      have e : Spec.beNat (y :: ys) = y.toNat * 256 ^ ys.length + Spec.beNat ys := by
        have := ih (256 * 0 + y.toNat)
        rw [Nat.mul_zero, Nat.zero_add] at this
        rw [← this, Spec.beNat, List.foldl_cons, Nat.mul_zero, Nat.zero_add]
      rw [List.foldl_cons, ih, e, List.length_cons, Nat.pow_succ]
      ring
  rw [Spec.beNat, List.foldl_append, h]
  rfl

/-- **C17** (XXH128): 16 bytes that, read most significant first, are the 128-bit number. -/
theorem C17_XXH128_canonical_value (cfg : Cfg) (h : H128) :
    (Model.XXH3.XXH128_canonicalFromHash cfg h).length = 16 ∧
    Spec.beNat (Model.XXH3.XXH128_canonicalFromHash cfg h) = h.high64.toNat * 2 ^ 64 + h.low64.toNat := by
  rw [C17_XXH128_canonical_bigEndian, beNat_append, beNat_beBytes64, beNat_beBytes64]
  simp [beBytes_length]

/-- **C17** (XXH128): hash → canonical → hash, written by one build and read by another. -/
theorem C17_XXH128_roundtrip {cfg cfg' : Cfg} (hc' : cfg'.Valid) (h : H128) (addr : Nat) :
    Model.XXH3.XXH128_hashFromCanonical cfg' ⟨addr, Model.XXH3.XXH128_canonicalFromHash cfg h⟩ =
      some h := by
  rw [C17_XXH128_canonical_bigEndian, XXH3P.fromCanonical128_eq hc' (by simp [beBytes_length])]
  simp only
  rw [slice_append_left _ _ 0 8 (by rw [beBytes_length]), slice_append_right _ _ 8 16 (by rw [beBytes_length]),
    beBytes_length, slice_all _ 8 (by rw [beBytes_length]), slice_all _ (16-8) (by rw [beBytes_length])]
  simp only [Spec.beBytes, List.reverse_reverse, u64_leBytes]

/-- **C17** (XXH128): canonical → hash → canonical. -/
theorem C17_XXH128_roundtrip' {cfg cfg' : Cfg} (hc : cfg.Valid) (src : Buf)
    (hl : src.bytes.length = 16) :
    ∃ h, Model.XXH3.XXH128_hashFromCanonical cfg src = some h ∧
      Model.XXH3.XXH128_canonicalFromHash cfg' h = src.bytes := by
  refine ⟨_, XXH3P.fromCanonical128_eq hc (by omega), ?_⟩
  rw [C17_XXH128_canonical_bigEndian, Spec.beBytes, Spec.beBytes,
    leBytes_u64 _ (by rw [List.length_reverse, slice_length (by omega)]),
    leBytes_u64 _ (by rw [List.length_reverse, slice_length (by omega)]),
    List.reverse_reverse, List.reverse_reverse]
  simp only [Spec.slice, List.drop_zero]
  rw [List.take_of_length_le (l := List.drop 8 src.bytes) (by simp; omega)]
  exact List.take_append_drop 8 _

example : Model.XXH3.XXH128_canonicalFromHash x64 ⟨0x0102030405060708, 0xA1A2A3A4A5A6A7A8⟩ =
    [0xA1, 0xA2, 0xA3, 0xA4, 0xA5, 0xA6, 0xA7, 0xA8, 1, 2, 3, 4, 5, 6, 7, 8] := by decide +kernel

example : Model.XXH3.XXH128_hashFromCanonical be32 ⟨3, Model.XXH3.XXH128_canonicalFromHash x64
    ⟨0x0102030405060708, 0xA1A2A3A4A5A6A7A8⟩⟩ = some ⟨0x0102030405060708, 0xA1A2A3A4A5A6A7A8⟩ :=
  C17_XXH128_roundtrip be32_valid _ 3
example : ∃ h, Model.XXH3.XXH128_hashFromCanonical be32 ⟨3, List.replicate 16 0xC3⟩ = some h ∧
    Model.XXH3.XXH128_canonicalFromHash x64 h = List.replicate 16 0xC3 :=
  C17_XXH128_roundtrip' be32_valid _ rfl

/-! ### C18: comparing hashes -/

/-- The number a 128-bit hash denotes. -/
def H128.val (h : H128) : Nat := h.high64.toNat * 2 ^ 64 + h.low64.toNat

/-- What `memcmp` returns, up to its magnitude. -/
def memcmpSign : List Byte → List Byte → Int
  | x :: xs, y :: ys => if x.toNat < y.toNat then -1 else if y.toNat < x.toNat then 1 else memcmpSign xs ys
  | _, _ => 0

theorem H128.val_inj {a b : H128} : H128.val a = H128.val b ↔ a = b := by
  constructor
  · intro h
    have h1 := a.low64.isLt
    have h2 := b.low64.isLt
    simp only [H128.val] at h
    cases a; cases b
    simp only [H128.mk.injEq]
    exact ⟨BitVec.eq_of_toNat_eq (by simp only at *; omega), BitVec.eq_of_toNat_eq (by simp only at *; omega)⟩
  · rintro rfl; rfl

/-- **C18.** `XXH128_cmp` is the sign of the difference of the two 128-bit numbers. -/
theorem C18_cmp_value (a b : H128) :
    Model.XXH3.XXH128_cmp a b = ((H128.val a : Int) - H128.val b).sign := by
  have h1 := a.low64.isLt
  have h2 := b.low64.isLt
  unfold Model.XXH3.XXH128_cmp Model.XXH3.cgt H128.val
  generalize a.high64.toNat = ah, b.high64.toNat = bh, a.low64.toNat = al, b.low64.toNat = bl at *
  simp only
  rcases Nat.lt_trichotomy ah bh with h | h | h
  · simp only [h, Nat.lt_asymm h, if_true, if_false]
    rw [Int.sign_eq_neg_one_of_neg (by omega)]; rfl
  · subst h
    simp only [Nat.lt_irrefl, if_false]
    rcases Nat.lt_trichotomy al bl with h | h | h
    · simp only [h, Nat.lt_asymm h, if_true, if_false]
      rw [Int.sign_eq_neg_one_of_neg (by omega)]; rfl
    · subst h
      simp
    · simp only [h, Nat.lt_asymm h, if_true, if_false]
      rw [Int.sign_eq_one_of_pos (by omega)]; rfl
  · simp only [h, Nat.lt_asymm h, if_true, if_false]
    rw [Int.sign_eq_one_of_pos (by omega)]; rfl

/-- **C18.** Antisymmetry: swapping the arguments negates the result. -/
theorem C18_cmp_antisymm (a b : H128) : Model.XXH3.XXH128_cmp b a = - Model.XXH3.XXH128_cmp a b := by
  rw [C18_cmp_value, C18_cmp_value, ← Int.sign_neg, Int.neg_sub]

/-- **C18.** Transitivity. -/
theorem C18_cmp_trans {a b c : H128} (h1 : Model.XXH3.XXH128_cmp a b ≤ 0)
    (h2 : Model.XXH3.XXH128_cmp b c ≤ 0) : Model.XXH3.XXH128_cmp a c ≤ 0 := by
  rw [C18_cmp_value] at *
  have e : ∀ x : Int, x.sign ≤ 0 ↔ x ≤ 0 := fun x => by
    rcases Int.lt_trichotomy x 0 with h | h | h
    · rw [Int.sign_eq_neg_one_of_neg h]; omega
    · subst h; simp
    · rw [Int.sign_eq_one_of_pos h]; omega
  rw [e] at *
  omega

/-- **C18.** Zero exactly for equal hashes. -/
theorem C18_cmp_zero_iff (a b : H128) : Model.XXH3.XXH128_cmp a b = 0 ↔ a = b := by
  rw [C18_cmp_value, Int.sign_eq_zero_iff_zero, ← H128.val_inj]
  omega

/-- **C18.** `XXH128_isEqual` returns 1 for equal and 0 for different hashes, on every build. -/
theorem C18_isEqual (cfg : Cfg) (a b : H128) :
    Model.XXH3.XXH128_isEqual cfg a b = if a = b then 1 else 0 := by
  unfold Model.XXH3.XXH128_isEqual
  have h : Model.XXH3.H128bytes cfg a = Model.XXH3.H128bytes cfg b ↔ a = b := by
    constructor
    · intro h
      have hlen : ∀ x : W64, (nativeBytes cfg 8 x).length = 8 := fun x => by
        unfold nativeBytes; simp only; split <;> simp
      have hinj : ∀ x y : W64, nativeBytes cfg 8 x = nativeBytes cfg 8 y → x = y := fun x y h => by
        have h' : Spec.leBytes 8 x = Spec.leBytes 8 y := by
          unfold nativeBytes at h
          simp only [nativeBytes_le] at h
          split at h
          · exact h
          · exact List.reverse_inj.mp h
        rw [← u64_leBytes x, h', u64_leBytes]
      obtain ⟨h1, h2⟩ := List.append_inj h (by rw [hlen, hlen])
      have h1 := hinj _ _ h1
      have h2 := hinj _ _ h2
      cases a; cases b
      simp only at h1 h2
      rw [h1, h2]
    · rintro rfl; rfl
  simp only [h]

/-- **C18.** `XXH128_cmp` and `XXH128_isEqual` agree. -/
theorem C18_isEqual_iff_cmp (cfg : Cfg) (a b : H128) :
    Model.XXH3.XXH128_isEqual cfg a b ≠ 0 ↔ Model.XXH3.XXH128_cmp a b = 0 := by
  rw [C18_isEqual, C18_cmp_zero_iff]
  split <;> simp [*]

theorem memcmpSign_eq : ∀ (xs ys : List Byte), xs.length = ys.length →
    memcmpSign xs ys = ((Spec.beNat xs : Int) - Spec.beNat ys).sign
  | [], [], _ => rfl
  | x :: xs, y :: ys, h => by
    have hl : xs.length = ys.length := by simpa using h
    have bound : ∀ zs : List Byte, Spec.beNat zs < 256 ^ zs.length := fun zs => by
      rw [beNat_eq, ← List.length_reverse]; exact leNat_lt _
    have b1 := bound xs
    have b2 := bound ys
    have e : ∀ (z : Byte) (zs : List Byte), Spec.beNat (z :: zs) = z.toNat * 256 ^ zs.length + Spec.beNat zs :=
      fun z zs => by
        have := beNat_append [z] zs
        simpa [Spec.beNat] using this
    rw [e, e, memcmpSign, memcmpSign_eq xs ys hl, hl]
    rw [hl] at b1
    generalize 256 ^ ys.length = m at *
    generalize Spec.beNat xs = n1 at *
    generalize Spec.beNat ys = n2 at *
    rcases Nat.lt_trichotomy x.toNat y.toNat with h | h | h
    · have : (x.toNat + 1) * m ≤ y.toNat * m := Nat.mul_le_mul_right _ h
      rw [Nat.add_mul] at this
      rw [if_pos h, Int.sign_eq_neg_one_of_neg (by omega)]
    · rw [if_neg (by omega), if_neg (by omega), h]
      congr 1
      omega
    · have : (y.toNat + 1) * m ≤ x.toNat * m := Nat.mul_le_mul_right _ h
      rw [Nat.add_mul] at this
      rw [if_neg (by omega), if_pos h, Int.sign_eq_one_of_pos (by omega)]

/-- **C18.** Sorting hashes with `XXH128_cmp` is sorting their canonical forms with `memcmp`. -/
theorem C18_cmp_canonical (cfg cfg' : Cfg) (a b : H128) :
    Model.XXH3.XXH128_cmp a b = memcmpSign (Model.XXH3.XXH128_canonicalFromHash cfg a)
      (Model.XXH3.XXH128_canonicalFromHash cfg' b) := by
  obtain ⟨l1, v1⟩ := C17_XXH128_canonical_value cfg a
  obtain ⟨l2, v2⟩ := C17_XXH128_canonical_value cfg' b
  rw [memcmpSign_eq _ _ (l1.trans l2.symm), v1, v2]
  exact C18_cmp_value a b

example : Model.XXH3.XXH128_cmp ⟨5, 1⟩ ⟨3, 2⟩ = -1 ∧ Model.XXH3.XXH128_cmp ⟨5, 2⟩ ⟨3, 2⟩ = 1 ∧
    Model.XXH3.XXH128_cmp ⟨5, 0x8000000000000000⟩ ⟨3, 1⟩ = 1 := by decide

example : Model.XXH3.XXH128_cmp ⟨5, 1⟩ ⟨5, 2⟩ ≤ 0 := C18_cmp_trans (b := ⟨3, 2⟩) (by decide) (by decide)

/-! ### C20: `XXH3_generateSecret_fromSeed` -/

/-- **C20.** It writes the 192 bytes of the specification's `deriveSecret` and nothing else. -/
theorem C20_fromSeed_eq_spec {cfg : Cfg} (hc : cfg.Valid) {buf : Buf} (hb : 192 ≤ buf.bytes.length)
    (seed : W64) :
    Model.XXH3.generateSecret_fromSeed cfg (some buf) seed =
      some (Spec.XXH3.deriveSecret seed ++ buf.bytes.drop 192) := by
  unfold Model.XXH3.generateSecret_fromSeed
  have hl := XXH3P.derive_length seed
  rw [XXH3P.initCustomSecret_eq XXH3P.uninit_length seed hc hc.sec]
  simp only [Option.bind_eq_bind, Option.bind_some]
  rw [List.take_of_length_le (by rw [hl]; decide), writeBytes_eq (by omega), hl]
  simp

/-- **C20.** The secret has 192 bytes, so it is long enough for all `_withSecret` functions. -/
theorem C20_fromSeed_length (seed : W64) : (Spec.XXH3.deriveSecret seed).length = 192 :=
  XXH3P.derive_length seed

/-- **C20.** Hashing more than 240 bytes with the generated secret is hashing with the seed. -/
theorem C20_withSecret_eq_withSeed {cfg : Cfg} (hc : cfg.Valid) {p : Ptr} {len : Nat}
    (hp : Readable cfg p len) (hl : 240 < len) (seed : W64) {buf : Buf} (hb : buf.bytes.length = 192)
    (addr : Nat) :
    ∃ secret, Model.XXH3.generateSecret_fromSeed cfg (some buf) seed = some secret ∧
      Model.XXH3.XXH3_64bits_withSecret cfg p len (some ⟨addr, secret⟩) 192 =
        Model.XXH3.XXH3_64bits_withSeed cfg p len seed ∧
      Model.XXH3.XXH3_128bits_withSecret cfg p len (some ⟨addr, secret⟩) 192 =
        Model.XXH3.XXH3_128bits_withSeed cfg p len seed := by
  refine ⟨_, C20_fromSeed_eq_spec hc (by omega) seed, ?_⟩
  rw [List.drop_eq_nil_of_le (by omega), List.append_nil]
  have hd := XXH3P.derive_length seed
  have hs := hp.length
  rw [C03_XXH3_64bits_withSeed_eq_spec hc hp, C04_XXH3_128bits_withSeed_eq_spec hc hp]
  subst hs
  have h1 := XXH3P.bits64_withSecret_eq hc (q := some ⟨addr, Spec.XXH3.deriveSecret seed⟩)
    (sec := Spec.XXH3.deriveSecret seed) (s := ⟨addr, Spec.XXH3.deriveSecret seed⟩)
    (Holds.self p.buf) rfl rfl (Holds.self ⟨addr, Spec.XXH3.deriveSecret seed⟩) (by rw [hd]; decide)
  have h2 := XXH3P.bits128_withSecret_eq hc (q := some ⟨addr, Spec.XXH3.deriveSecret seed⟩)
    (sec := Spec.XXH3.deriveSecret seed) (s := ⟨addr, Spec.XXH3.deriveSecret seed⟩)
    (Holds.self p.buf) rfl rfl (Holds.self ⟨addr, Spec.XXH3.deriveSecret seed⟩) (by rw [hd]; decide)
  rw [hd] at h1 h2
  rw [h1, h2]
  simp only [Spec.XXH3.XXH3_64_withSecret, Spec.XXH3.XXH3_64_withSeed, Spec.XXH3.XXH3_128_withSecret,
    Spec.XXH3.XXH3_128_withSeed, Spec.XXH3.hash64, Spec.XXH3.hash128]
  constructor
  all_goals
    simp only [show ¬ p.buf.bytes.length = 0 by omega, show ¬ p.buf.bytes.length ≤ 3 by omega,
      show ¬ p.buf.bytes.length ≤ 8 by omega, show ¬ p.buf.bytes.length ≤ 16 by omega,
      show ¬ p.buf.bytes.length ≤ 128 by omega, show ¬ p.buf.bytes.length ≤ 240 by omega, if_false]

/-- The restriction to long inputs is needed: with the generated secret, some short inputs hash
differently from `_withSeed` (here the empty input and one of 200 bytes). -/
theorem C20_short_inputs_differ :
    Spec.XXH3.XXH3_64_withSecret [] (Spec.XXH3.deriveSecret 1) ≠ Spec.XXH3.XXH3_64_withSeed [] 1 ∧
    Spec.XXH3.XXH3_64_withSecret (List.replicate 200 7) (Spec.XXH3.deriveSecret 1) ≠
      Spec.XXH3.XXH3_64_withSeed (List.replicate 200 7) 1 := by decide +kernel

/-- **C05.** With the secret generated from the same seed, the combined functions are `_withSeed` for
inputs of every length (the promise of xxhash.h:1940-1953). -/
theorem C05_fromSeed {cfg : Cfg} (hc : cfg.Valid) {p : Ptr} {len : Nat}
    (hp : Readable cfg p len) (seed : W64) {buf : Buf} (hb : buf.bytes.length = 192) (addr : Nat) :
    ∃ secret, Model.XXH3.generateSecret_fromSeed cfg (some buf) seed = some secret ∧
      Model.XXH3.XXH3_64bits_withSecretandSeed cfg p len (some ⟨addr, secret⟩) 192 seed =
        Model.XXH3.XXH3_64bits_withSeed cfg p len seed ∧
      Model.XXH3.XXH3_128bits_withSecretandSeed cfg p len (some ⟨addr, secret⟩) 192 seed =
        Model.XXH3.XXH3_128bits_withSeed cfg p len seed := by
  by_cases h : len ≤ 240
  · exact ⟨_, C20_fromSeed_eq_spec hc (by omega) seed, C05_64_short hc hp h seed, C05_128_short hc hp h seed⟩
  · obtain ⟨secret, h1, h2, h3⟩ := C20_withSecret_eq_withSeed hc hp (by omega) seed hb addr
    refine ⟨secret, h1, ?_⟩
    have hs : secret = Spec.XXH3.deriveSecret seed := by
      rw [C20_fromSeed_eq_spec hc (by omega) seed, List.drop_eq_nil_of_le (by omega), List.append_nil] at h1
      exact (Option.some.inj h1).symm
    subst hs
    have hq : Readable cfg (some ⟨addr, Spec.XXH3.deriveSecret seed⟩) 192 := by
      refine ⟨XXH3P.derive_length seed, ?_⟩
      have hlo := hc.sizeLo
      have h2 : 2 ^ 15 ≤ 2 ^ (cfg.sizeBits - 1) := Nat.pow_le_pow_right (by decide) (by omega)
      show (Spec.XXH3.deriveSecret seed).length < _
      rw [XXH3P.derive_length]; omega
    rw [C05_64_long hc hp hq (by decide) (by omega), C05_128_long hc hp hq (by decide) (by omega)]
    exact ⟨h2, h3⟩

example : ∃ secret, Model.XXH3.generateSecret_fromSeed ppc64be (some ⟨5, List.replicate 192 0xEE⟩) 42 = some secret ∧
    Model.XXH3.XXH3_64bits_withSecret ppc64be kilo 1000 (some ⟨5, secret⟩) 192 =
      Model.XXH3.XXH3_64bits_withSeed ppc64be kilo 1000 42 :=
  (C20_withSecret_eq_withSeed ppc64be_valid (kilo_readable _ ppc64be_valid) (by decide) 42
    (List.length_replicate ..) 5).imp fun _ h => ⟨h.1, h.2.1⟩

example : ∃ secret, Model.XXH3.generateSecret_fromSeed ppc64be (some ⟨5, List.replicate 192 0xEE⟩) 42 = some secret ∧
    Model.XXH3.XXH3_128bits_withSecretandSeed ppc64be kilo 1000 (some ⟨7, secret⟩) 192 42 =
      Model.XXH3.XXH3_128bits_withSeed ppc64be kilo 1000 42 :=
  (C05_fromSeed ppc64be_valid (kilo_readable _ ppc64be_valid) 42 (List.length_replicate ..) 7).imp
    fun _ h => ⟨h.1, h.2.2⟩
/-- The bytes after the first 192 stay. -/
example (seed : W64) : Model.XXH3.generateSecret_fromSeed be32 (some ⟨5, List.replicate 200 0xEE⟩) seed =
    some (Spec.XXH3.deriveSecret seed ++ List.replicate 8 0xEE) := by
  rw [C20_fromSeed_eq_spec be32_valid (by rw [List.length_replicate]; decide) seed, List.drop_replicate]

/-! ### C21: `XXH3_generateSecret` -/

/-- **C21.** With a buffer of at least `secretSize ≥ 136` bytes and a readable custom seed, the call
succeeds, overwrites exactly the first `secretSize` bytes, with a value that depends only on
`secretSize` and the seed's contents (not on the build, the addresses or the old buffer), and leaves
the rest of the object alone. -/
theorem C21_generateSecret_ok {cfg : Cfg} (hc : cfg.Valid) {buf : Buf} {size : Nat} (hs : 136 ≤ size)
    (hb : size ≤ buf.bytes.length) {q : Ptr} {n : Nat} (hq : Readable cfg q n) :
    Model.XXH3.generateSecret cfg (some buf) size q n =
      some (.ok, Spec.XXH3.generateSecret size (contents q) ++ buf.bytes.drop size) := by
  unfold Model.XXH3.generateSecret Spec.XXH3.generateSecret
  dsimp only
  rw [if_neg (show ¬ size < Model.XXH3.SECRET_SIZE_MIN from Nat.not_lt.mpr hs)]
  have hl := hq.length
  by_cases hn : n = 0
  · have he : contents q = [] := List.eq_nil_of_length_eq_zero (hl.trans hn)
    rw [if_pos he, if_pos hn]
    have := XXH3P.generate_core hc (XXH3P.kSecret_holds cfg) (by rw [XXH3P.default_length]; decide) hs
      (addr := buf.addr) hb
    rw [XXH3P.default_length] at this
    exact this
  · rw [if_neg hn, if_neg (fun he => hn (by rw [← hl]; exact congrArg List.length he))]
    cases q with
    | none => exact absurd hl.symm hn
    | some seed =>
      have := XXH3P.generate_core hc (Holds.self seed)
        (Nat.pos_of_ne_zero fun h => hn (hl.symm.trans h)) hs (addr := buf.addr) hb
      rw [show seed.bytes.length = n from hl] at this
      exact this

/-- **C21.** The generated secret has the requested size. -/
theorem C21_generateSecret_length (size : Nat) (seed : List Byte) :
    (Spec.XXH3.generateSecret size seed).length = size := XXH3P.generated_length _ _

/-- **C21.** A NULL buffer, a size below 136, or a NULL custom seed with a nonzero size give
`XXH_ERROR` and no change. -/
theorem C21_generateSecret_error (cfg : Cfg) (size n : Nat) (q : Ptr) (buf : Buf) :
    Model.XXH3.generateSecret cfg none size q n = some (.error, []) ∧
    (size < 136 → Model.XXH3.generateSecret cfg (some buf) size q n = some (.error, buf.bytes)) ∧
    (n ≠ 0 → Model.XXH3.generateSecret cfg (some buf) size none n = some (.error, buf.bytes)) := by
  refine ⟨rfl, fun h => ?_, fun h => ?_⟩
  · unfold Model.XXH3.generateSecret
    simp only
    rw [if_pos (show size < Model.XXH3.SECRET_SIZE_MIN from h)]
    rfl
  · unfold Model.XXH3.generateSecret
    simp only [h, if_false]
    split <;> rfl

/-- **C21.** The result is the same on every build, whatever the buffer held before and wherever the
objects are. -/
theorem C21_generateSecret_portable {cfg cfg' : Cfg} (hc : cfg.Valid) (hc' : cfg'.Valid)
    {buf buf' : Buf} {size : Nat} (hs : 136 ≤ size) (hb : buf.bytes.length = size)
    (hb' : buf'.bytes.length = size) {q q' : Ptr} {n : Nat} (hq : Readable cfg q n)
    (hq' : Readable cfg' q' n) (he : contents q = contents q') :
    Model.XXH3.generateSecret cfg (some buf) size q n =
      Model.XXH3.generateSecret cfg' (some buf') size q' n := by
  rw [C21_generateSecret_ok hc hs (by omega) hq, C21_generateSecret_ok hc' hs (by omega) hq',
    List.drop_eq_nil_of_le (by omega), List.drop_eq_nil_of_le (by omega), he]

/-- **C21.** No custom seed is the default secret as custom seed. -/
theorem C21_generateSecret_default (size : Nat) :
    Spec.XXH3.generateSecret size [] = Spec.XXH3.generateSecret size Spec.XXH3.defaultSecret := by
  unfold Spec.XXH3.generateSecret
  rw [if_pos rfl, if_neg]
  intro h
  have := XXH3P.default_length
  rw [h] at this
  exact absurd this (by decide)

/-- A 200-byte buffer, of which 150 bytes are asked for. -/
example : Model.XXH3.generateSecret x64 (some ⟨11, List.replicate 200 0xEE⟩) 150 abc 3 =
    some (.ok, Spec.XXH3.generateSecret 150 (contents abc) ++ List.replicate 50 0xEE) := by
  rw [C21_generateSecret_ok x64_valid (by decide) (by rw [List.length_replicate]; decide) abc_readable,
    List.drop_replicate]

example : Model.XXH3.generateSecret x64 (some ⟨11, List.replicate 150 0xEE⟩) 150 kilo 1000 =
    Model.XXH3.generateSecret be32 (some ⟨64, List.replicate 150 0⟩) 150 kilo 1000 :=
  C21_generateSecret_portable x64_valid be32_valid (by decide) (List.length_replicate ..) (List.length_replicate ..)
    (kilo_readable _ x64_valid) (kilo_readable _ be32_valid) rfl

example : Model.XXH3.XXH128_canonicalFromHash be32 { low64 := 1, high64 := 2 } = Spec.beBytes 8 (2 : W64) ++ Spec.beBytes 8 (1 : W64) :=
  C17_XXH128_canonical_bigEndian _ _
example : (Model.XXH3.XXH128_canonicalFromHash be32 { low64 := 1, high64 := 2 }).length = 16 ∧
    Spec.beNat (Model.XXH3.XXH128_canonicalFromHash be32 { low64 := 1, high64 := 2 }) = 2 * 2 ^ 64 + 1 :=
  C17_XXH128_canonical_value be32 { low64 := 1, high64 := 2 }

end XXH.Props
