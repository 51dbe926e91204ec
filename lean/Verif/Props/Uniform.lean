import Verif.Proof.Uniform
import Verif.Props.Collision
/-!
C47: exact uniformity. For the lengths below every hash value is taken equally often: a random message of
such a length has an exactly uniform hash, for every seed and secret, and every value has a preimage. The
messages are counted at any address, on any build.
-/
namespace XXH.Props
open Model Spec Examples

/-- How many byte strings of length `len`, placed at `addr`, make `hash` return `v`. -/
noncomputable def preimages {V : Type} (hash : Ptr → Nat → Option V) (addr len : Nat) (v : V) : Nat :=
  Nat.card {x : List Byte // x.length = len ∧ hash (some ⟨addr, x⟩) len = some v}

theorem preimages_eq {V : Type} {hash : Ptr → Nat → Option V} {spec : List Byte → V} {addr len : Nat} (v : V)
    (h : ∀ x : List Byte, x.length = len → hash (some ⟨addr, x⟩) len = some (spec x)) :
    preimages hash addr len v = Nat.card {x : List Byte // x.length = len ∧ spec x = v} := by
  unfold preimages
  congr 3
  funext x
  apply propext
  constructor
  · rintro ⟨h1, h2⟩
    rw [h x h1] at h2
    exact ⟨h1, Option.some.inj h2⟩
  · rintro ⟨h1, h2⟩
    exact ⟨h1, by rw [h x h1, h2]⟩

/-- A string of `len` bytes at any address is readable if the length is one a C object can have. -/
theorem readable_at {cfg : Cfg} {addr len : Nat} (hl : len < 2^(cfg.sizeBits - 1)) {x : List Byte}
    (hx : x.length = len) : Readable cfg (some ⟨addr, x⟩) len :=
  ⟨hx, by unfold Buf.Fits; show x.length < _; omega⟩

/-- **C47.** XXH32, every length from 4: each of the 2^32 values has exactly 256^(len-4) preimages. -/
theorem C47_XXH32_uniform {cfg : Cfg} (hc : cfg.Valid) (addr : Nat) {len : Nat} (h4 : 4 ≤ len)
    (hl : len < 2^(cfg.sizeBits - 1)) (seed v : W32) :
    preimages (fun p n => Model.XXH32.XXH32 cfg p n seed) addr len v = 256^(len - 4) := by
  rw [preimages_eq (spec := fun x => Spec.XXH32.hash x seed) v fun x hx => C01_XXH32_eq_spec hc (readable_at hl hx) seed]
  obtain ⟨m, rfl⟩ : ∃ m, len = 0 + 4 + m := ⟨len - 4, by omega⟩
  have h := Uniform.balanced (a := 0) (n := 4) (m := m) (by rw [Uniform.card_bitvec]; rfl)
    (fun x => Spec.XXH32.hash x seed) (by
      intro u w w' z hu hw hw' hz he
      by_contra hne
      exact Inj.X32.hash_lane ⟨0, by omega⟩ hw hw' hne seed he) v
  rw [h]
  congr 1
  omega

/-- **C47.** XXH64, every length whose last incomplete stripe has at least 8 bytes: each of the 2^64 values
has exactly 256^(len-8) preimages. -/
theorem C47_XXH64_uniform {cfg : Cfg} (hc : cfg.Valid) (addr : Nat) {len : Nat} (h8 : 8 ≤ len % 32)
    (hl : len < 2^(cfg.sizeBits - 1)) (seed v : W64) :
    preimages (fun p n => Model.XXH64.XXH64 cfg p n seed) addr len v = 256^(len - 8) := by
  rw [preimages_eq (spec := fun x => Spec.XXH64.hash x seed) v fun x hx => C02_XXH64_eq_spec hc (readable_at hl hx) seed]
  obtain ⟨k, hk⟩ : ∃ k, k = len/32 := ⟨_, rfl⟩
  obtain ⟨m, hm⟩ : ∃ m, m = len - 32*k - 8 := ⟨_, rfl⟩
  have hL : len = 32*k + 8 + m := by omega
  subst hL
  have h := Uniform.balanced (a := 32*k) (n := 8) (m := m) (by rw [Uniform.card_bitvec]; rfl)
    (fun x => Spec.XXH64.hash x seed) (by
      intro u w w' z hu hw hw' hz he
      have hsum : u.length + w.length + z.length = 32*k + 8 + m := by omega
      obtain ⟨a, ha⟩ := Inj.X64.hash_tail (by omega) (by rw [hsum]; omega) he
      exact Inj.X64.remaining_lane8 (by rw [List.length_drop, hsum]; omega) hw hw' ha) v
  rw [h]
  congr 1
  omega

theorem card_h128 : Nat.card H128 = 256^16 := by
  have e : H128 ≃ W64 × W64 := ⟨fun h => (h.low64, h.high64), fun p => ⟨p.1, p.2⟩, fun _ => rfl, fun _ => rfl⟩
  rw [Nat.card_congr e, Nat.card_prod, Uniform.card_bitvec]
  rfl

instance finite_h128 : Finite H128 := Nat.finite_of_card_ne_zero (by rw [card_h128]; decide)

/-- A function without collisions on strings of length `n`, with `256^n` values, takes each once. -/
theorem once {V : Type} [Finite V] {n : Nat} (hV : Nat.card V = 256^n) (f : List Byte → V)
    (hf : ∀ x y : List Byte, x.length = n → y.length = n → f x = f y → x = y) (v : V) :
    Nat.card {x : List Byte // x.length = n ∧ f x = v} = 1 := by
  have h := Uniform.balanced (a := 0) (n := n) (m := 0) hV f (by
    intro u w w' z hu hw hw' hz he
    have hu := List.length_eq_zero_iff.mp hu
    have hz := List.length_eq_zero_iff.mp hz
    subst hu hz
    rw [List.nil_append, List.append_nil, List.nil_append, List.append_nil] at he
    exact hf w w' hw hw' he) v
  rw [Nat.zero_add, Nat.add_zero] at h
  exact h

/-- **C47.** XXH3_64bits on 8 bytes: each of the 2^64 values has exactly one preimage, for every seed ... -/
theorem C47_XXH3_64_uniform {cfg : Cfg} (hc : cfg.Valid) (addr : Nat) (seed v : W64) :
    preimages (fun p n => Model.XXH3.XXH3_64bits_withSeed cfg p n seed) addr 8 v = 1 := by
  have hl : 8 < 2^(cfg.sizeBits - 1) := by
    have h1 := hc.sizeLo
    have h2 : 2 ^ 15 ≤ 2 ^ (cfg.sizeBits - 1) := Nat.pow_le_pow_right (by decide) (by omega)
    omega
  rw [preimages_eq (spec := fun x => Spec.XXH3.XXH3_64_withSeed x seed) v fun x hx =>
    C03_XXH3_64bits_withSeed_eq_spec hc (readable_at hl hx) seed]
  exact once (by rw [Uniform.card_bitvec]; rfl) (fun x => Spec.XXH3.XXH3_64_withSeed x seed)
    (fun x y hx hy he => Inj.X3.hash64_inj (by omega) (by omega) he) v

/-- **C47.** ... and for every secret. -/
theorem C47_XXH3_64_secret_uniform {cfg : Cfg} (hc : cfg.Valid) (addr : Nat) {s : Ptr} {size : Nat}
    (hs : Readable cfg s size) (h136 : 136 ≤ size) (v : W64) :
    preimages (fun p n => Model.XXH3.XXH3_64bits_withSecret cfg p n s size) addr 8 v = 1 := by
  have hl : 8 < 2^(cfg.sizeBits - 1) := by
    have h1 := hc.sizeLo
    have h2 : 2 ^ 15 ≤ 2 ^ (cfg.sizeBits - 1) := Nat.pow_le_pow_right (by decide) (by omega)
    omega
  rw [preimages_eq (spec := fun x => Spec.XXH3.XXH3_64_withSecret x (contents s)) v fun x hx =>
    C03_XXH3_64bits_withSecret_eq_spec hc (readable_at hl hx) hs h136]
  exact once (by rw [Uniform.card_bitvec]; rfl) (fun x => Spec.XXH3.XXH3_64_withSecret x (contents s))
    (fun x y hx hy he => Inj.X3.hash64_inj (by omega) (by omega) he) v

/-- **C47.** XXH3_128bits on 16 bytes: each of the 2^128 values has exactly one preimage, for every seed ... -/
theorem C47_XXH3_128_uniform {cfg : Cfg} (hc : cfg.Valid) (addr : Nat) (seed : W64) (v : H128) :
    preimages (fun p n => Model.XXH3.XXH3_128bits_withSeed cfg p n seed) addr 16 v = 1 := by
  have hl : 16 < 2^(cfg.sizeBits - 1) := by
    have h1 := hc.sizeLo
    have h2 : 2 ^ 15 ≤ 2 ^ (cfg.sizeBits - 1) := Nat.pow_le_pow_right (by decide) (by omega)
    omega
  rw [preimages_eq (spec := fun x => Spec.XXH3.XXH3_128_withSeed x seed) v fun x hx =>
    C04_XXH3_128bits_withSeed_eq_spec hc (readable_at hl hx) seed]
  exact once card_h128 (fun x => Spec.XXH3.XXH3_128_withSeed x seed)
    (fun x y hx hy he => Inj.X3.hash128_inj (by omega) (by omega) he) v

/-- **C47.** ... and for every secret. -/
theorem C47_XXH3_128_secret_uniform {cfg : Cfg} (hc : cfg.Valid) (addr : Nat) {s : Ptr} {size : Nat}
    (hs : Readable cfg s size) (h136 : 136 ≤ size) (v : H128) :
    preimages (fun p n => Model.XXH3.XXH3_128bits_withSecret cfg p n s size) addr 16 v = 1 := by
  have hl : 16 < 2^(cfg.sizeBits - 1) := by
    have h1 := hc.sizeLo
    have h2 : 2 ^ 15 ≤ 2 ^ (cfg.sizeBits - 1) := Nat.pow_le_pow_right (by decide) (by omega)
    omega
  rw [preimages_eq (spec := fun x => Spec.XXH3.XXH3_128_withSecret x (contents s)) v fun x hx =>
    C04_XXH3_128bits_withSecret_eq_spec hc (readable_at hl hx) hs h136]
  exact once card_h128 (fun x => Spec.XXH3.XXH3_128_withSecret x (contents s))
    (fun x y hx hy he => Inj.X3.hash128_inj (by omega) (by omega) he) v

/-! ### Seeds -/

theorem one_seed {w : Nat} {f : BitVec w → Option (BitVec w)} {spec : BitVec w → BitVec w}
    (h : ∀ s, f s = some (spec s)) (hinj : Function.Injective spec) (v : BitVec w) : ∃! s, f s = some v := by
  obtain ⟨s, hs⟩ := (Finite.injective_iff_surjective.mp hinj) v
  refine ⟨s, (h s).trans (congrArg some hs), ?_⟩
  intro t ht
  replace ht : f t = some v := ht
  rw [h] at ht
  exact hinj ((Option.some.inj ht).trans hs.symm)

/-- **C47.** A message of less than 16 bytes and a value: exactly one seed of XXH32 gives the value. -/
theorem C47_XXH32_seed {cfg : Cfg} (hc : cfg.Valid) {p : Ptr} {len : Nat} (hp : Readable cfg p len) (hl : len < 16)
    (v : W32) : ∃! seed, Model.XXH32.XXH32 cfg p len seed = some v :=
  one_seed (fun s => C01_XXH32_eq_spec hc hp s)
    (fun _ _ h => Inj.X32.hash_seed (by rw [hp.length]; exact hl) h) v

/-- **C47.** The same for XXH64 and less than 32 bytes. -/
theorem C47_XXH64_seed {cfg : Cfg} (hc : cfg.Valid) {p : Ptr} {len : Nat} (hp : Readable cfg p len) (hl : len < 32)
    (v : W64) : ∃! seed, Model.XXH64.XXH64 cfg p len seed = some v :=
  one_seed (fun s => C02_XXH64_eq_spec hc hp s)
    (fun _ _ h => Inj.X64.hash_seed (by rw [hp.length]; exact hl) h) v

/-- **C47.** The same for XXH3_64bits and at most 8 bytes. -/
theorem C47_XXH3_64_seed {cfg : Cfg} (hc : cfg.Valid) {p : Ptr} {len : Nat} (hp : Readable cfg p len) (hl : len ≤ 8)
    (v : W64) : ∃! seed, Model.XXH3.XXH3_64bits_withSeed cfg p len seed = some v :=
  one_seed (fun s => C03_XXH3_64bits_withSeed_eq_spec hc hp s)
    (fun _ _ h => Inj.X3.hash64_seed (by rw [hp.length]; exact hl) h) v

/-! ### Concrete cases -/

example : preimages (fun p n => Model.XXH32.XXH32 be32 p n 7) 1001 100 0 = 256^96 :=
  C47_XXH32_uniform be32_valid 1001 (by decide) (by decide) 7 0
example : preimages (fun p n => Model.XXH64.XXH64 x64 p n 7) 1001 43 0 = 256^35 :=
  C47_XXH64_uniform x64_valid 1001 (by decide) (by decide) 7 0
example : preimages (fun p n => Model.XXH3.XXH3_128bits_withSecret x64 p n secret136 136) 1001 16 ⟨0, 0⟩ = 1 :=
  C47_XXH3_128_secret_uniform x64_valid 1001 (secret136_readable _ x64_valid) (by decide) _
-- The preimage under XXH3_64bits of its value on "abcdefgh" is that string.
example : preimages (fun p n => Model.XXH3.XXH3_64bits_withSeed x64 p n 0) 1001 8
    (Spec.XXH3.XXH3_64 [0x61, 0x62, 0x63, 0x64, 0x65, 0x66, 0x67, 0x68]) = 1 :=
  C47_XXH3_64_uniform x64_valid 1001 0 _
-- There is exactly one seed for which the hash of "abc" is zero.
example : ∃! seed, Model.XXH64.XXH64 x64 abc 3 seed = some 0 := C47_XXH64_seed x64_valid abc_readable (by decide) 0

example : ∃! seed, Model.XXH32.XXH32 x64 abc 3 seed = some 0 := C47_XXH32_seed x64_valid abc_readable (by decide) 0
example : ∃! seed, Model.XXH3.XXH3_64bits_withSeed x64 abc 3 seed = some 0 :=
  C47_XXH3_64_seed x64_valid abc_readable (by decide) 0
example : preimages (fun p n => Model.XXH3.XXH3_64bits_withSecret be32 p n secret136 136) 1001 8 5 = 1 :=
  C47_XXH3_64_secret_uniform be32_valid 1001 (secret136_readable _ be32_valid) (by decide) _

/-! ### The theorems applied -/

example (v : H128) : preimages (fun p n => Model.XXH3.XXH3_128bits_withSeed be32 p n 42) 3 16 v = 1 :=
  C47_XXH3_128_uniform be32_valid 3 42 v

end XXH.Props
