import Verif.Proof.InjectiveXXH3
import Verif.Props.XXH32
import Verif.Props.XXH64
import Verif.Props.XXH3
/-!
C23-C26: changes that are always detected. Two hashes are compared by their values; the two calls may
be made by two different builds.
-/
namespace XXH.Props
open Model Spec Examples

/-- Two different messages of the same length that agree outside positions `a ≤ i < b`. -/
structure DifferOnly (a b : Nat) (x y : List Byte) : Prop where
  ne : x ≠ y
  length : x.length = y.length
  outside : ∀ i, i < a ∨ b ≤ i → x[i]? = y[i]?

theorem DifferOnly.split {a n : Nat} {x y : List Byte} (h : DifferOnly a (a+n) x y) (hl : a + n ≤ x.length) :
    ∃ pre u v post, x = pre ++ u ++ post ∧ y = pre ++ v ++ post ∧ pre.length = a ∧ u.length = n ∧ v.length = n ∧
      u ≠ v ∧ x.length = a + n + post.length := by
  have hy := h.length
  have h1 : y.take a = x.take a := by
    apply List.ext_getElem?
    intro i
    rw [List.getElem?_take, List.getElem?_take]
    split
    · exact (h.outside i (.inl (by assumption))).symm
    · rfl
  have h2 : y.drop (a+n) = x.drop (a+n) := by
    apply List.ext_getElem?
    intro i
    rw [List.getElem?_drop, List.getElem?_drop]
    exact (h.outside _ (.inr (by omega))).symm
  have split : ∀ z : List Byte, z = z.take a ++ (z.drop a).take n ++ z.drop (a+n) := by
    intro z
    rw [List.append_assoc, ← List.drop_drop, List.take_append_drop, List.take_append_drop]
  have hxs := split x
  have hys := split y
  rw [h1, h2] at hys
  refine ⟨x.take a, (x.drop a).take n, (y.drop a).take n, x.drop (a+n), hxs, hys, ?_, ?_, ?_, ?_, ?_⟩
  · rw [List.length_take]; omega
  · rw [List.length_take, List.length_drop]; omega
  · rw [List.length_take, List.length_drop]; omega
  · intro he
    rw [he] at hxs
    exact h.ne (hxs.trans hys.symm)
  · rw [List.length_drop]; omega

theorem DifferOnly.mono {a b a' b' : Nat} {x y : List Byte} (h : DifferOnly a b x y) (ha : a' ≤ a) (hb : b ≤ b') :
    DifferOnly a' b' x y :=
  ⟨h.ne, h.length, fun i hi => h.outside i (by omega)⟩

/-! ### C23: XXH32 -/

/-- **C23.** A change confined to one aligned 4-byte lane is detected, whatever the length and the seed. -/
theorem C23_XXH32_lane {cfg cfg' : Cfg} (hc : cfg.Valid) (hc' : cfg'.Valid) {p q : Ptr} {len : Nat}
    (hp : Readable cfg p len) (hq : Readable cfg' q len) (seed : W32) (k : Nat) (hk : 4*k + 4 ≤ len)
    (hd : DifferOnly (4*k) (4*k+4) (contents p) (contents q)) :
    Model.XXH32.XXH32 cfg p len seed ≠ Model.XXH32.XXH32 cfg' q len seed := by
  rw [C01_XXH32_eq_spec hc hp, C01_XXH32_eq_spec hc' hq]
  obtain ⟨pre, u, v, post, hx, hy, hpre, hu, hv, hne, -⟩ := hd.split (by rw [hp.length]; omega)
  rw [hx, hy]
  intro h
  exact Inj.X32.hash_lane ⟨k, by omega⟩ hu hv hne seed (Option.some.inj h)

/-- **C23.** Any single-byte corruption is detected, at any position of a message of any length. -/
theorem C23_XXH32_byte {cfg cfg' : Cfg} (hc : cfg.Valid) (hc' : cfg'.Valid) {p q : Ptr} {len : Nat}
    (hp : Readable cfg p len) (hq : Readable cfg' q len) (seed : W32) (i : Nat) (hi : i < len)
    (hd : DifferOnly i (i+1) (contents p) (contents q)) :
    Model.XXH32.XXH32 cfg p len seed ≠ Model.XXH32.XXH32 cfg' q len seed := by
  by_cases h4 : i/4*4 + 4 ≤ len
  · exact C23_XXH32_lane hc hc' hp hq seed (i/4) (by omega) (hd.mono (by omega) (by omega))
  · rw [C01_XXH32_eq_spec hc hp, C01_XXH32_eq_spec hc' hq]
    have hpl : (contents p).length = len := hp.length
    obtain ⟨pre, u, v, post, hx, hy, hpre, hu, hv, hne, hl⟩ := hd.split (by omega)
    rw [hx, hy]
    intro h
    obtain ⟨c, rfl⟩ := List.length_eq_one_iff.mp hu
    obtain ⟨d, rfl⟩ := List.length_eq_one_iff.mp hv
    exact Inj.X32.hash_byte (pre := pre) (by omega) (by simpa using hne) seed (Option.some.inj h)

/-- **C23.** XXH32 is a bijection on 4-byte inputs. -/
theorem C23_XXH32_four {cfg cfg' : Cfg} (hc : cfg.Valid) (hc' : cfg'.Valid) {p q : Ptr}
    (hp : Readable cfg p 4) (hq : Readable cfg' q 4) (seed : W32) (hne : contents p ≠ contents q) :
    Model.XXH32.XXH32 cfg p 4 seed ≠ Model.XXH32.XXH32 cfg' q 4 seed := by
  apply C23_XXH32_lane hc hc' hp hq seed 0 (by omega)
  refine ⟨hne, hp.length.trans hq.length.symm, ?_⟩
  intro i hi
  have h1 : (contents p).length = 4 := hp.length
  have h2 : (contents q).length = 4 := hq.length
  rw [List.getElem?_eq_none (by omega), List.getElem?_eq_none (by omega)]

/-! ### C24: XXH64 -/

/-- **C24.** A change confined to one 8-byte lane after the last full 32-byte stripe is detected. -/
theorem C24_XXH64_tail_lane8 {cfg cfg' : Cfg} (hc : cfg.Valid) (hc' : cfg'.Valid) {p q : Ptr} {len : Nat}
    (hp : Readable cfg p len) (hq : Readable cfg' q len) (seed : W64) (k : Nat) (hk0 : len/32*32 ≤ 8*k)
    (hk : 8*k + 8 ≤ len) (hd : DifferOnly (8*k) (8*k+8) (contents p) (contents q)) :
    Model.XXH64.XXH64 cfg p len seed ≠ Model.XXH64.XXH64 cfg' q len seed := by
  rw [C02_XXH64_eq_spec hc hp, C02_XXH64_eq_spec hc' hq]
  have hpl : (contents p).length = len := hp.length
  obtain ⟨pre, u, v, post, hx, hy, hpre, hu, hv, hne, hl⟩ := hd.split (by omega)
  rw [hx, hy]
  intro h
  have hL : pre.length + u.length + post.length = len := by omega
  obtain ⟨a, ha⟩ := Inj.X64.hash_tail (by omega) (by rw [hL]; omega) (Option.some.inj h)
  exact hne (Inj.X64.remaining_lane8 (by rw [List.length_drop, hL]; omega) hu hv ha)

/-- **C24.** The same for the 4-byte lane that follows the 8-byte lanes. -/
theorem C24_XXH64_tail_lane4 {cfg cfg' : Cfg} (hc : cfg.Valid) (hc' : cfg'.Valid) {p q : Ptr} {len : Nat}
    (hp : Readable cfg p len) (hq : Readable cfg' q len) (seed : W64) (h4 : 4 ≤ len % 8)
    (hd : DifferOnly (len/8*8) (len/8*8+4) (contents p) (contents q)) :
    Model.XXH64.XXH64 cfg p len seed ≠ Model.XXH64.XXH64 cfg' q len seed := by
  rw [C02_XXH64_eq_spec hc hp, C02_XXH64_eq_spec hc' hq]
  have hpl : (contents p).length = len := hp.length
  obtain ⟨pre, u, v, post, hx, hy, hpre, hu, hv, hne, hl⟩ := hd.split (by omega)
  rw [hx, hy]
  intro h
  have hL : pre.length + u.length + post.length = len := by omega
  obtain ⟨a, ha⟩ := Inj.X64.hash_tail (by omega) (by rw [hL]; omega) (Option.some.inj h)
  exact hne (Inj.X64.remaining_lane4 (by rw [List.length_drop, hL]; omega) hu hv (by omega) ha)

/-- **C24.** Any single-byte corruption after the last full stripe is detected; for messages shorter than 32
bytes that is any single-byte corruption. -/
theorem C24_XXH64_tail_byte {cfg cfg' : Cfg} (hc : cfg.Valid) (hc' : cfg'.Valid) {p q : Ptr} {len : Nat}
    (hp : Readable cfg p len) (hq : Readable cfg' q len) (seed : W64) (i : Nat) (hi0 : len/32*32 ≤ i) (hi : i < len)
    (hd : DifferOnly i (i+1) (contents p) (contents q)) :
    Model.XXH64.XXH64 cfg p len seed ≠ Model.XXH64.XXH64 cfg' q len seed := by
  by_cases h8 : i/8*8 + 8 ≤ len
  · exact C24_XXH64_tail_lane8 hc hc' hp hq seed (i/8) (by omega) (by omega) (hd.mono (by omega) (by omega))
  by_cases h4 : i < len/8*8 + 4 ∧ 4 ≤ len % 8
  · exact C24_XXH64_tail_lane4 hc hc' hp hq seed h4.2 (hd.mono (by omega) (by omega))
  · rw [C02_XXH64_eq_spec hc hp, C02_XXH64_eq_spec hc' hq]
    have hpl : (contents p).length = len := hp.length
    obtain ⟨pre, u, v, post, hx, hy, hpre, hu, hv, hne, hl⟩ := hd.split (by omega)
    rw [hx, hy]
    intro h
    have hL : pre.length + u.length + post.length = len := by omega
    obtain ⟨a, ha⟩ := Inj.X64.hash_tail (by omega) (by rw [hL]; omega) (Option.some.inj h)
    obtain ⟨c, rfl⟩ := List.length_eq_one_iff.mp hu
    obtain ⟨d, rfl⟩ := List.length_eq_one_iff.mp hv
    have := Inj.X64.remaining_byte (by rw [List.length_drop, hL]; omega) ha
    exact hne (by rw [this])

/-- **C24.** XXH64 is a bijection on 8-byte inputs. -/
theorem C24_XXH64_eight {cfg cfg' : Cfg} (hc : cfg.Valid) (hc' : cfg'.Valid) {p q : Ptr}
    (hp : Readable cfg p 8) (hq : Readable cfg' q 8) (seed : W64) (hne : contents p ≠ contents q) :
    Model.XXH64.XXH64 cfg p 8 seed ≠ Model.XXH64.XXH64 cfg' q 8 seed := by
  apply C24_XXH64_tail_lane8 hc hc' hp hq seed 0 (by omega) (by omega)
  refine ⟨hne, hp.length.trans hq.length.symm, ?_⟩
  intro i hi
  have h1 : (contents p).length = 8 := hp.length
  have h2 : (contents q).length = 8 := hq.length
  rw [List.getElem?_eq_none (by omega), List.getElem?_eq_none (by omega)]

/-! ### C25: XXH3 -/

section
variable {cfg cfg' : Cfg} (hc : cfg.Valid) (hc' : cfg'.Valid) {p q : Ptr} {len len' : Nat}
  (hp : Readable cfg p len) (hq : Readable cfg' q len')
include hc hc' hp hq

/-- **C25.** Inputs of at most 8 bytes, same length (or any two lengths among 1, 2, 3). -/
theorem C25_XXH3_64bits (hlen : len = len' ∨ (1 ≤ len ∧ len ≤ 3 ∧ 1 ≤ len' ∧ len' ≤ 3)) (h8 : len ≤ 8)
    (hne : contents p ≠ contents q) :
    Model.XXH3.XXH3_64bits cfg p len ≠ Model.XXH3.XXH3_64bits cfg' q len' := by
  rw [C03_XXH3_64bits_eq_spec hc hp, C03_XXH3_64bits_eq_spec hc' hq]
  have h1 : (contents p).length = len := hp.length
  have h2 : (contents q).length = _ := hq.length
  exact fun h => hne (Inj.X3.hash64_inj (by omega) (by omega) (Option.some.inj h))

/-- **C25.** The same with a seed. -/
theorem C25_XXH3_64bits_withSeed (hlen : len = len' ∨ (1 ≤ len ∧ len ≤ 3 ∧ 1 ≤ len' ∧ len' ≤ 3)) (h8 : len ≤ 8)
    (hne : contents p ≠ contents q) (seed : W64) :
    Model.XXH3.XXH3_64bits_withSeed cfg p len seed ≠ Model.XXH3.XXH3_64bits_withSeed cfg' q len' seed := by
  rw [C03_XXH3_64bits_withSeed_eq_spec hc hp, C03_XXH3_64bits_withSeed_eq_spec hc' hq]
  have h1 : (contents p).length = len := hp.length
  have h2 : (contents q).length = _ := hq.length
  exact fun h => hne (Inj.X3.hash64_inj (by omega) (by omega) (Option.some.inj h))

/-- **C25.** The same with a secret, which the two calls may find at two addresses. -/
theorem C25_XXH3_64bits_withSecret {sp sq : Ptr} {size : Nat} (hsp : Readable cfg sp size)
    (hsq : Readable cfg' sq size) (hs : 136 ≤ size) (hsec : contents sp = contents sq)
    (hlen : len = len' ∨ (1 ≤ len ∧ len ≤ 3 ∧ 1 ≤ len' ∧ len' ≤ 3)) (h8 : len ≤ 8)
    (hne : contents p ≠ contents q) :
    Model.XXH3.XXH3_64bits_withSecret cfg p len sp size ≠ Model.XXH3.XXH3_64bits_withSecret cfg' q len' sq size := by
  rw [C03_XXH3_64bits_withSecret_eq_spec hc hp hsp hs, C03_XXH3_64bits_withSecret_eq_spec hc' hq hsq hs, hsec]
  have h1 : (contents p).length = len := hp.length
  have h2 : (contents q).length = _ := hq.length
  exact fun h => hne (Inj.X3.hash64_inj (by omega) (by omega) (Option.some.inj h))

/-- **C25.** 128 bits: inputs of at most 16 bytes, same length (or any two lengths among 1, 2, 3). -/
theorem C25_XXH3_128bits (hlen : len = len' ∨ (1 ≤ len ∧ len ≤ 3 ∧ 1 ≤ len' ∧ len' ≤ 3)) (h16 : len ≤ 16)
    (hne : contents p ≠ contents q) :
    Model.XXH3.XXH3_128bits cfg p len ≠ Model.XXH3.XXH3_128bits cfg' q len' := by
  rw [C04_XXH3_128bits_eq_spec hc hp, C04_XXH3_128bits_eq_spec hc' hq]
  have h1 : (contents p).length = len := hp.length
  have h2 : (contents q).length = _ := hq.length
  exact fun h => hne (Inj.X3.hash128_inj (by omega) (by omega) (Option.some.inj h))

/-- **C25.** The same with a seed. -/
theorem C25_XXH3_128bits_withSeed (hlen : len = len' ∨ (1 ≤ len ∧ len ≤ 3 ∧ 1 ≤ len' ∧ len' ≤ 3)) (h16 : len ≤ 16)
    (hne : contents p ≠ contents q) (seed : W64) :
    Model.XXH3.XXH3_128bits_withSeed cfg p len seed ≠ Model.XXH3.XXH3_128bits_withSeed cfg' q len' seed := by
  rw [C04_XXH3_128bits_withSeed_eq_spec hc hp, C04_XXH3_128bits_withSeed_eq_spec hc' hq]
  have h1 : (contents p).length = len := hp.length
  have h2 : (contents q).length = _ := hq.length
  exact fun h => hne (Inj.X3.hash128_inj (by omega) (by omega) (Option.some.inj h))

/-- **C25.** The same with a secret. -/
theorem C25_XXH3_128bits_withSecret {sp sq : Ptr} {size : Nat} (hsp : Readable cfg sp size)
    (hsq : Readable cfg' sq size) (hs : 136 ≤ size) (hsec : contents sp = contents sq)
    (hlen : len = len' ∨ (1 ≤ len ∧ len ≤ 3 ∧ 1 ≤ len' ∧ len' ≤ 3)) (h16 : len ≤ 16)
    (hne : contents p ≠ contents q) :
    Model.XXH3.XXH3_128bits_withSecret cfg p len sp size ≠ Model.XXH3.XXH3_128bits_withSecret cfg' q len' sq size := by
  rw [C04_XXH3_128bits_withSecret_eq_spec hc hp hsp hs, C04_XXH3_128bits_withSecret_eq_spec hc' hq hsq hs, hsec]
  have h1 : (contents p).length = len := hp.length
  have h2 : (contents q).length = _ := hq.length
  exact fun h => hne (Inj.X3.hash128_inj (by omega) (by omega) (Option.some.inj h))

end

/-! ### C26: seeds -/

section
variable {cfg cfg' : Cfg} (hc : cfg.Valid) (hc' : cfg'.Valid) {p q : Ptr} {len : Nat}
  (hp : Readable cfg p len) (hq : Readable cfg' q len) (hsame : contents p = contents q)
include hc hc' hp hq hsame

/-- **C26.** XXH32, fewer than 16 bytes. -/
theorem C26_XXH32_seeds (hl : len < 16) {s t : W32} (hne : s ≠ t) :
    Model.XXH32.XXH32 cfg p len s ≠ Model.XXH32.XXH32 cfg' q len t := by
  rw [C01_XXH32_eq_spec hc hp, C01_XXH32_eq_spec hc' hq, hsame]
  have h2 : (contents q).length = _ := hq.length
  exact fun h => hne (Inj.X32.hash_seed (by omega) (Option.some.inj h))

/-- **C26.** XXH64, fewer than 32 bytes. -/
theorem C26_XXH64_seeds (hl : len < 32) {s t : W64} (hne : s ≠ t) :
    Model.XXH64.XXH64 cfg p len s ≠ Model.XXH64.XXH64 cfg' q len t := by
  rw [C02_XXH64_eq_spec hc hp, C02_XXH64_eq_spec hc' hq, hsame]
  have h2 : (contents q).length = _ := hq.length
  exact fun h => hne (Inj.X64.hash_seed (by omega) (Option.some.inj h))

/-- **C26.** XXH3, 64 bits, at most 8 bytes. -/
theorem C26_XXH3_64bits_seeds (hl : len ≤ 8) {s t : W64} (hne : s ≠ t) :
    Model.XXH3.XXH3_64bits_withSeed cfg p len s ≠ Model.XXH3.XXH3_64bits_withSeed cfg' q len t := by
  rw [C03_XXH3_64bits_withSeed_eq_spec hc hp, C03_XXH3_64bits_withSeed_eq_spec hc' hq, hsame]
  have h2 : (contents q).length = _ := hq.length
  exact fun h => hne (Inj.X3.hash64_seed (by omega) (Option.some.inj h))

/-- **C26.** XXH3, 128 bits, at most 16 bytes. -/
theorem C26_XXH3_128bits_seeds (hl : len ≤ 16) {s t : W64} (hne : s ≠ t) :
    Model.XXH3.XXH3_128bits_withSeed cfg p len s ≠ Model.XXH3.XXH3_128bits_withSeed cfg' q len t := by
  rw [C04_XXH3_128bits_withSeed_eq_spec hc hp, C04_XXH3_128bits_withSeed_eq_spec hc' hq, hsame]
  have h2 : (contents q).length = _ := hq.length
  exact fun h => hne (Inj.X3.hash128_seed (by omega) (Option.some.inj h))

end

/-! ### Concrete cases -/

/-- 1000 bytes as in `kilo` with the byte at position `i` inverted. -/
def kiloFlip (i : Nat) : Ptr :=
  some ⟨8192, (List.range 1000).map fun j => if j = i then ~~~ BitVec.ofNat 8 j else BitVec.ofNat 8 j⟩

theorem kiloFlip_readable (cfg : Cfg) (hc : cfg.Valid) (i : Nat) : Readable cfg (kiloFlip i) 1000 := by
  have hl : (kiloFlip i).buf.bytes.length = 1000 := by simp [kiloFlip, Ptr.buf]
  refine ⟨hl, ?_⟩
  have h1 := hc.sizeLo
  have h2 : 2 ^ 15 ≤ 2 ^ (cfg.sizeBits - 1) := Nat.pow_le_pow_right (by decide) (by omega)
  unfold Buf.Fits
  rw [hl]
  omega

theorem kilo_differs {i : Nat} (hi : i < 1000) : DifferOnly i (i+1) (contents kilo) (contents (kiloFlip i)) := by
  have hk : contents kilo = (List.range 1000).map (BitVec.ofNat 8) := by
    simp only [contents, kilo, Ptr.buf, Option.getD_some]
  have hf : contents (kiloFlip i) =
    (List.range 1000).map fun j => if j = i then ~~~ BitVec.ofNat 8 j else BitVec.ofNat 8 j := by
    simp only [contents, kiloFlip, Ptr.buf, Option.getD_some]
  rw [hk, hf]
  refine ⟨?_, by simp only [List.length_map], ?_⟩
  · intro h
    have := congrArg (fun l => l[i]?) h
    simp only [List.getElem?_map, List.getElem?_range hi, Option.map_some, if_true, Option.some.injEq] at this
    have h0 := congrArg (fun z => z.getLsbD 0) this
    simp only [BitVec.getLsbD_not] at h0
    revert h0
    cases (BitVec.ofNat 8 i).getLsbD 0 <;> simp
  · intro j hj
    rw [List.getElem?_map, List.getElem?_map]
    by_cases h : j < 1000
    · rw [List.getElem?_range h, Option.map_some, Option.map_some, if_neg (by omega)]
    · rw [List.getElem?_eq_none (by simp only [List.length_range]; omega), Option.map_none, Option.map_none]

/-- Every position of a kilobyte, read by a big-endian build and by an x86-64 build. -/
example (seed : W32) (i : Nat) (hi : i < 1000) :
    Model.XXH32.XXH32 be32 kilo 1000 seed ≠ Model.XXH32.XXH32 x64 (kiloFlip i) 1000 seed :=
  C23_XXH32_byte be32_valid x64_valid (kilo_readable _ be32_valid) (kiloFlip_readable _ x64_valid i) seed i hi
    (kilo_differs hi)
example (seed : W32) :
    Model.XXH32.XXH32 be32 kilo 1000 seed ≠ Model.XXH32.XXH32 x64 (kiloFlip 402) 1000 seed :=
  C23_XXH32_lane be32_valid x64_valid (kilo_readable _ be32_valid) (kiloFlip_readable _ x64_valid 402) seed 100
    (by decide) ((kilo_differs (by decide)).mono (by decide) (by decide))
example (seed : W64) :
    Model.XXH64.XXH64 be32 kilo 1000 seed ≠ Model.XXH64.XXH64 x64 (kiloFlip 995) 1000 seed :=
  C24_XXH64_tail_byte be32_valid x64_valid (kilo_readable _ be32_valid) (kiloFlip_readable _ x64_valid 995) seed 995
    (by decide) (by decide) (kilo_differs (by decide))
example (seed : W64) :
    Model.XXH64.XXH64 be32 kilo 1000 seed ≠ Model.XXH64.XXH64 x64 (kiloFlip 995) 1000 seed :=
  C24_XXH64_tail_lane8 be32_valid x64_valid (kilo_readable _ be32_valid) (kiloFlip_readable _ x64_valid 995) seed 124
    (by decide) (by decide) ((kilo_differs (by decide)).mono (by decide) (by decide))

def abd : Ptr := some ⟨1001, [0x61, 0x62, 0x64]⟩
theorem abd_readable : Readable x64 abd 3 := ⟨rfl, by unfold Buf.Fits; decide⟩
def ab : Ptr := some ⟨2000, [0x61, 0x62]⟩
theorem ab_readable : Readable x64 ab 2 := ⟨rfl, by unfold Buf.Fits; decide⟩
def dozen (x : Byte) : Ptr := some ⟨2001, [0x61, 0x62, 3, 4, 5, x, 7, 8, 9, 10, 11, 12]⟩
theorem dozen_readable (x : Byte) : Readable x64 (dozen x) 12 :=
  ⟨rfl, by unfold Buf.Fits; show 12 < 2^63; decide⟩
def eight (x : Byte) : Ptr := some ⟨2001, [0x61, 0x62, 3, 4, 5, x, 7, 8]⟩
theorem eight_readable (x : Byte) : Readable x64 (eight x) 8 :=
  ⟨rfl, by unfold Buf.Fits; show 8 < 2^63; decide⟩
def four (x : Byte) : Ptr := some ⟨2001, [5, x, 7, 8]⟩
theorem four_readable (x : Byte) : Readable x64 (four x) 4 :=
  ⟨rfl, by unfold Buf.Fits; show 4 < 2^63; decide⟩

example (seed : W32) : Model.XXH32.XXH32 x64 (four 1) 4 seed ≠ Model.XXH32.XXH32 x64 (four 2) 4 seed :=
  C23_XXH32_four x64_valid x64_valid (four_readable 1) (four_readable 2) seed (by decide)
example (seed : W64) : Model.XXH64.XXH64 x64 (eight 1) 8 seed ≠ Model.XXH64.XXH64 x64 (eight 2) 8 seed :=
  C24_XXH64_eight x64_valid x64_valid (eight_readable 1) (eight_readable 2) seed (by decide)
example (seed : W64) : Model.XXH3.XXH3_64bits_withSeed x64 abc 3 seed ≠ Model.XXH3.XXH3_64bits_withSeed x64 ab 2 seed :=
  C25_XXH3_64bits_withSeed x64_valid x64_valid abc_readable ab_readable (by decide) (by decide) (by decide) seed
example : Model.XXH3.XXH3_64bits x64 abc 3 ≠ Model.XXH3.XXH3_64bits x64 abd 3 :=
  C25_XXH3_64bits x64_valid x64_valid abc_readable abd_readable (.inl rfl) (by decide) (by decide)
example : Model.XXH3.XXH3_64bits_withSecret x64 (eight 1) 8 secret136 136 ≠
    Model.XXH3.XXH3_64bits_withSecret x64 (eight 9) 8 secret136 136 :=
  C25_XXH3_64bits_withSecret x64_valid x64_valid (eight_readable 1) (eight_readable 9)
    (secret136_readable _ x64_valid) (secret136_readable _ x64_valid) (by decide) rfl (.inl rfl) (by decide) (by decide)
example : Model.XXH3.XXH3_128bits_withSecret x64 (dozen 1) 12 secret136 136 ≠
    Model.XXH3.XXH3_128bits_withSecret x64 (dozen 9) 12 secret136 136 :=
  C25_XXH3_128bits_withSecret x64_valid x64_valid (dozen_readable 1) (dozen_readable 9)
    (secret136_readable _ x64_valid) (secret136_readable _ x64_valid) (by decide) rfl (.inl rfl) (by decide) (by decide)
example (seed : W64) : Model.XXH3.XXH3_128bits_withSeed x64 (dozen 1) 12 seed ≠
    Model.XXH3.XXH3_128bits_withSeed x64 (dozen 9) 12 seed :=
  C25_XXH3_128bits_withSeed x64_valid x64_valid (dozen_readable 1) (dozen_readable 9) (.inl rfl) (by decide) (by decide) seed
example : Model.XXH3.XXH3_64bits_withSeed x64 (eight 1) 8 5 ≠ Model.XXH3.XXH3_64bits_withSeed x64 (eight 1) 8 6 :=
  C26_XXH3_64bits_seeds x64_valid x64_valid (eight_readable 1) (eight_readable 1) rfl (by decide) (by decide)
example : Model.XXH3.XXH3_128bits_withSeed x64 (dozen 1) 12 5 ≠ Model.XXH3.XXH3_128bits_withSeed x64 (dozen 1) 12 6 :=
  C26_XXH3_128bits_seeds x64_valid x64_valid (dozen_readable 1) (dozen_readable 1) rfl (by decide) (by decide)
example : Model.XXH64.XXH64 x64 (dozen 1) 12 5 ≠ Model.XXH64.XXH64 x64 (dozen 1) 12 6 :=
  C26_XXH64_seeds x64_valid x64_valid (dozen_readable 1) (dozen_readable 1) rfl (by decide) (by decide)
example : Model.XXH32.XXH32 x64 (dozen 1) 12 5 ≠ Model.XXH32.XXH32 x64 (dozen 1) 12 6 :=
  C26_XXH32_seeds x64_valid x64_valid (dozen_readable 1) (dozen_readable 1) rfl (by decide) (by decide)

example : Model.XXH3.XXH3_128bits x64 (dozen 1) 12 ≠ Model.XXH3.XXH3_128bits x64 (dozen 9) 12 :=
  C25_XXH3_128bits x64_valid x64_valid (dozen_readable 1) (dozen_readable 9) (.inl rfl) (by decide) (by decide)
/-- Two inputs of 12 bytes that differ in byte 9. -/
example (seed : W64) :
    Model.XXH64.XXH64 x64 (some ⟨3, List.replicate 12 7⟩) 12 seed ≠
      Model.XXH64.XXH64 x64 (some ⟨5, (List.replicate 12 7).set 9 8⟩) 12 seed :=
  C24_XXH64_tail_lane4 x64_valid x64_valid ⟨by decide, by unfold Buf.Fits; decide⟩ ⟨by decide, by unfold Buf.Fits; decide⟩
    seed (by decide) ⟨by decide, by decide, fun i hi => (List.getElem?_set_ne (by omega)).symm⟩

end XXH.Props
