import Verif.Proof.Injective
import Verif.Proof.Mul
/-!
Injectivity of the XXH3 paths for tiny inputs.
-/
namespace XXH.Inj.X3
open XXH.Spec XXH.Spec.XXH3
open XXH.Spec.XXH64 (PRIME64_1 PRIME64_2)

theorem avalanche_inj {a b : W64} (h : avalanche a = avalanche b) : a = b :=
  xorshift (by decide) (mul_odd (by decide) (xorshift (by decide) h))

theorem avalanche_XXH64_inj {a b : W64} (h : avalanche_XXH64 a = avalanche_XXH64 b) : a = b :=
  xorshift (by decide) (mul_odd (by decide) (xorshift (by decide) (mul_odd (by decide) (xorshift (by decide) h))))

/-! ### Reading all bytes of the input -/

theorem cover {x y : List Byte} {k : Nat} (hl : x.length = y.length) (h1 : k ≤ x.length) (h2 : x.length ≤ 2*k)
    (hf : slice x 0 k = slice y 0 k) (he : slice x (x.length-k) x.length = slice y (x.length-k) x.length) : x = y := by
  apply List.ext_getElem hl
  intro i hx hy
  have gx : x[i] = x.getD i 0 := by simp [hx]
  have gy : y[i] = y.getD i 0 := by simp [hy]
  rw [gx, gy]
  by_cases hi : i < k
  · have := congrArg (fun l => l.getD i 0) hf
    rw [slice_getD _ _ _ _ (by omega), slice_getD _ _ _ _ (by omega)] at this
    simpa using this
  · have := congrArg (fun l => l.getD (i - (x.length - k)) 0) he
    rw [slice_getD _ _ _ _ (by omega), slice_getD _ _ _ _ (by omega),
      show x.length - k + (i - (x.length - k)) = i by omega] at this
    exact this

theorem or_shift {a b c d : W32} (h : a.setWidth 64 ||| (b.setWidth 64 <<< 32) = c.setWidth 64 ||| (d.setWidth 64 <<< 32)) :
    a = c ∧ b = d := by
  constructor
  · apply BitVec.eq_of_getLsbD_eq
    intro i hi
    have := congrArg (fun z => z.getLsbD i) h
    simpa [hi, show i < 64 by omega] using this
  · apply BitVec.eq_of_getLsbD_eq
    intro i hi
    have := congrArg (fun z => z.getLsbD (i+32)) h
    simpa [hi, show i + 32 < 64 by omega] using this

/-! ### Length 1 to 3 -/

theorem combined_inj {x y : List Byte} (hx0 : 0 < x.length) (hx3 : x.length ≤ 3) (hy0 : 0 < y.length)
    (hy3 : y.length ≤ 3) (h : combined1to3 x = combined1to3 y) : x = y := by
  have hlen : ∀ n, n ≤ 3 → BitVec.ofNat 32 n = (BitVec.ofNat 8 n).setWidth 32 := by
    intro n hn
    have : n = 0 ∨ n = 1 ∨ n = 2 ∨ n = 3 := by omega
    rcases this with rfl | rfl | rfl | rfl <;> rfl
  simp only [combined1to3] at h
  rw [hlen _ hx3, hlen _ hy3, byteshift32, byteshift32] at h
  have hb := u32_inj rfl rfl h
  simp only [List.cons.injEq, and_true] at hb
  obtain ⟨hlast, hl, hfirst, hmid⟩ := hb
  have hl : x.length = y.length := by
    have := congrArg BitVec.toNat hl
    simp only [BitVec.toNat_ofNat] at this
    omega
  rw [← hl] at hmid hlast
  simp only [byteAt] at hlast hfirst hmid
  apply List.ext_getElem hl
  intro i hx hy
  have gx : x[i] = x.getD i 0 := by simp [hx]
  have gy : y[i] = y.getD i 0 := by simp [hy]
  rw [gx, gy]
  rcases Nat.eq_zero_or_pos i with rfl | h0
  · exact hfirst
  · by_cases hi : i = x.length - 1
    · rw [hi]; exact hlast
    · have : i = x.length >>> 1 := by
        rw [Nat.shiftRight_succ, Nat.shiftRight_zero]; omega
      rw [this]; exact hmid

theorem hash64_1to3_inj {x y secret : List Byte} {seed : W64} (hx0 : 0 < x.length) (hx3 : x.length ≤ 3)
    (hy0 : 0 < y.length) (hy3 : y.length ≤ 3) (h : hash64_1to3 x secret seed = hash64_1to3 y secret seed) : x = y :=
  combined_inj hx0 hx3 hy0 hy3 (setWidth (by decide) (xor_left (avalanche_XXH64_inj h)))

theorem hash64_1to3_seed {x secret : List Byte} {s t : W64} (h : hash64_1to3 x secret s = hash64_1to3 x secret t) : s = t :=
  add_left (xor_right (avalanche_XXH64_inj h))

theorem hash128_1to3_inj {x y secret : List Byte} {seed : W64} (hx0 : 0 < x.length) (hx3 : x.length ≤ 3)
    (hy0 : 0 < y.length) (hy3 : y.length ≤ 3) (h : hash128_1to3 x secret seed = hash128_1to3 y secret seed) : x = y :=
  combined_inj hx0 hx3 hy0 hy3 (setWidth (by decide) (xor_left (avalanche_XXH64_inj (congrArg H128.low64 h))))

theorem hash128_1to3_seed {x secret : List Byte} {s t : W64} (h : hash128_1to3 x secret s = hash128_1to3 x secret t) : s = t :=
  add_left (xor_right (avalanche_XXH64_inj (congrArg H128.low64 h)))

/-! ### Length 0 -/

theorem empty64_seed {secret : List Byte} {s t : W64} (h : empty64 secret s = empty64 secret t) : s = t :=
  xor_right (xor_right (avalanche_XXH64_inj h))

theorem empty128_seed {secret : List Byte} {s t : W64} (h : empty128 secret s = empty128 secret t) : s = t :=
  xor_right (xor_right (avalanche_XXH64_inj (congrArg H128.low64 h)))

/-! ### Length 4 to 8, 64 bits -/

theorem modifiedSeed_inj {s t : W64} (h : modifiedSeed s = modifiedSeed t) : s = t := by
  have key : ∀ s : W64, (modifiedSeed s).setWidth 32 = s.setWidth 32 := by
    intro s
    apply BitVec.eq_of_getLsbD_eq
    intro i hi
    simp [modifiedSeed, hi]
  have h32 : s.setWidth 32 = t.setWidth 32 := by rw [← key s, ← key t, h]
  simp only [modifiedSeed, h32] at h
  exact xor_right h

theorem rotl_bit (z : W64) (k i : Nat) (hk : k < 64) (hi : i < 64) :
    (z.rotateLeft k).getLsbD i = z.getLsbD ((i + (64 - k)) % 64) := by
  rw [BitVec.getLsbD_rotateLeft, Nat.mod_eq_of_lt hk]
  by_cases h : i < k
  · rw [decide_eq_true h, cond_true]
    congr 1; omega
  · rw [decide_eq_false h, cond_false, decide_eq_true hi, Bool.true_and]
    congr 1; omega

/-- `x ^ rotl(x, 49) ^ rotl(x, 24)` can be undone. -/
theorem rrxor {x y : W64} (h : x ^^^ x.rotateLeft 49 ^^^ x.rotateLeft 24 = y ^^^ y.rotateLeft 49 ^^^ y.rotateLeft 24) :
    x = y := by
  let g : Nat → Bool := fun i => xor (x.getLsbD (i % 64)) (y.getLsbD (i % 64))
  have h1 : ∀ i, g i = xor (g (i + 15)) (g (i + 40)) := by
    intro i
    have := congrArg (fun z => z.getLsbD (i % 64)) h
    have hi : i % 64 < 64 := Nat.mod_lt _ (by decide)
    simp only [BitVec.getLsbD_xor] at this
    rw [rotl_bit _ _ _ (by decide) hi, rotl_bit _ _ _ (by decide) hi, rotl_bit _ _ _ (by decide) hi,
      rotl_bit _ _ _ (by decide) hi, show (i % 64 + (64-49)) % 64 = (i+15) % 64 by omega,
      show (i % 64 + (64-24)) % 64 = (i+40) % 64 by omega] at this
    simp only [g]
    revert this
    cases x.getLsbD (i % 64) <;> cases y.getLsbD (i % 64) <;> cases x.getLsbD ((i+15) % 64) <;>
      cases y.getLsbD ((i+15) % 64) <;> cases x.getLsbD ((i+40) % 64) <;> cases y.getLsbD ((i+40) % 64) <;> simp
  have sq : ∀ a b, (∀ i, g i = xor (g (i + a)) (g (i + b))) → ∀ i, g i = xor (g (i + 2*a)) (g (i + 2*b)) := by
    intro a b hab i
    have e1 := hab i
    have e2 := hab (i+a)
    have e3 := hab (i+b)
    rw [show i + a + a = i + 2*a by omega] at e2
    rw [show i + b + a = i + a + b by omega, show i + b + b = i + 2*b by omega] at e3
    rw [e1, e2, e3]
    cases g (i + 2*a) <;> cases g (i + a + b) <;> cases g (i + 2*b) <;> rfl
  have h2 := sq _ _ (sq _ _ (sq _ _ (sq _ _ (sq _ _ (sq _ _ h1)))))
  apply BitVec.eq_of_getLsbD_eq
  intro i hi
  have h3 := h2 i
  simp only [g] at h3
  rw [show (i + 2 * (2 * (2 * (2 * (2 * (2 * 15)))))) % 64 = i % 64 by omega,
    show (i + 2 * (2 * (2 * (2 * (2 * (2 * 40)))))) % 64 = i % 64 by omega, Nat.mod_eq_of_lt hi] at h3
  revert h3
  cases x.getLsbD i <;> cases y.getLsbD i <;> simp

/-- `x ^= (x >> 35) + len` can be undone. -/
theorem xorshift_add {x y : W64} {n : Nat} (hn : n ≤ 8) (h : x ^^^ ((x >>> 35) + BitVec.ofNat 64 n) =
    y ^^^ ((y >>> 35) + BitVec.ofNat 64 n)) : x = y := by
  have key : ∀ x : W64, (x ^^^ ((x >>> 35) + BitVec.ofNat 64 n)) >>> 35 = x >>> 35 := by
    intro x
    have hz : ((x >>> 35) + BitVec.ofNat 64 n) >>> 35 = 0#64 := by
      apply BitVec.eq_of_toNat_eq
      rw [BitVec.toNat_ushiftRight, BitVec.toNat_add, BitVec.toNat_ushiftRight, BitVec.toNat_ofNat,
        Nat.shiftRight_eq_div_pow, Nat.shiftRight_eq_div_pow]
      have := x.isLt
      simp only [BitVec.toNat_ofNat]
      omega
    apply BitVec.eq_of_getLsbD_eq
    intro i hi
    have hb := congrArg (fun z => z.getLsbD i) hz
    simp only [BitVec.getLsbD_ushiftRight, BitVec.getLsbD_zero] at hb
    simp only [BitVec.getLsbD_ushiftRight, BitVec.getLsbD_xor, hb, Bool.xor_false]
  have h35 : x >>> 35 = y >>> 35 := by rw [← key x, ← key y, h]
  rw [h35] at h
  exact xor_right h

theorem mix4to8 {x y : W64} {n : Nat} (hn : n ≤ 8)
    (h : let f := fun value : W64 =>
      let value := value ^^^ value.rotateLeft 49 ^^^ value.rotateLeft 24
      let value := value * PRIME_MX2
      let value := value ^^^ ((value >>> 35) + BitVec.ofNat 64 n)
      let value := value * PRIME_MX2
      value ^^^ (value >>> 28)
      f x = f y) : x = y :=
  rrxor (mul_odd (by decide) (xorshift_add hn (mul_odd (by decide) (xorshift (by decide) h))))

theorem slices4 {x y : List Byte} (hl : x.length = y.length) (h4 : 4 ≤ x.length) (h8 : x.length ≤ 8)
    (hf : u32 (slice x 0 4) = u32 (slice y 0 4))
    (he : u32 (slice x (x.length-4) x.length) = u32 (slice y (x.length-4) x.length)) : x = y :=
  cover hl h4 (by omega)
    (u32_inj (by rw [slice_length (by omega)]) (by rw [slice_length (by omega)]) hf)
    (u32_inj (by rw [slice_length (by omega)]; omega) (by rw [slice_length (by omega)]; omega) he)

theorem hash64_4to8_inj {x y secret : List Byte} {seed : W64} (hl : x.length = y.length) (h4 : 4 ≤ x.length)
    (h8 : x.length ≤ 8) (h : hash64_4to8 x secret seed = hash64_4to8 y secret seed) : x = y := by
  simp only [hash64_4to8, ← hl] at h
  obtain ⟨he, hf⟩ := or_shift (xor_left (mix4to8 h8 h))
  exact slices4 hl h4 h8 hf he

theorem hash64_4to8_seed {x secret : List Byte} {s t : W64} (h8 : x.length ≤ 8)
    (h : hash64_4to8 x secret s = hash64_4to8 x secret t) : s = t := by
  simp only [hash64_4to8] at h
  exact modifiedSeed_inj (sub_left (xor_right (mix4to8 h8 h)))

/-! ### Length 4 to 8, 128 bits -/

theorem mult_odd {n : Nat} (hn : n ≤ 8) : (PRIME64_1 + (BitVec.ofNat 64 n <<< 2)).toNat % 2 = 1 := by
  have : n = 0 ∨ n = 1 ∨ n = 2 ∨ n = 3 ∨ n = 4 ∨ n = 5 ∨ n = 6 ∨ n = 7 ∨ n = 8 := by omega
  rcases this with rfl | rfl | rfl | rfl | rfl | rfl | rfl | rfl | rfl <;> rfl

theorem mix4to8_128 {x y m : W64} (hm : m.toNat % 2 = 1)
    (h : let f := fun value : W64 =>
      let high := mulHigh value m
      let low := mulLow value m
      let high := high + (low <<< 1)
      let low := low ^^^ (high >>> 3)
      let low := low ^^^ (low >>> 35)
      let low := low * PRIME_MX2
      let low := low ^^^ (low >>> 28)
      let high := avalanche high
      ({ low64 := low, high64 := high } : H128)
      f x = f y) : x = y := by
  simp only [H128.mk.injEq] at h
  obtain ⟨hlo, hhi⟩ := h
  replace hhi := avalanche_inj hhi
  replace hlo := xorshift (by decide) (mul_odd (by decide) (xorshift (by decide) hlo))
  rw [hhi] at hlo
  replace hlo := xor_right hlo
  rw [mulLow_eq, mulLow_eq] at hlo
  exact mul_odd hm hlo

theorem hash128_4to8_inj {x y secret : List Byte} {seed : W64} (hl : x.length = y.length) (h4 : 4 ≤ x.length)
    (h8 : x.length ≤ 8) (h : hash128_4to8 x secret seed = hash128_4to8 y secret seed) : x = y := by
  unfold hash128_4to8 at h
  simp only [← hl] at h
  obtain ⟨hf, he⟩ := or_shift (xor_left (mix4to8_128 (mult_odd h8) h))
  exact slices4 hl h4 h8 hf he

theorem hash128_4to8_seed {x secret : List Byte} {s t : W64} (h8 : x.length ≤ 8)
    (h : hash128_4to8 x secret s = hash128_4to8 x secret t) : s = t :=
  modifiedSeed_inj (add_left (xor_right (mix4to8_128 (mult_odd h8) h)))

/-! ### Length 9 to 16, 128 bits -/

theorem bswap64_inj {x y : W64} (h : bswap64 x = bswap64 y) : x = y := by
  rw [← swap64_eq, ← swap64_eq] at h
  rw [← swap64_swap64 x, ← swap64_swap64 y, h]

theorem shl_high (x : W64) : (x <<< 32).setWidth 32 = 0#32 := by
  apply BitVec.eq_of_getLsbD_eq
  intro i hi
  simp [hi]

theorem spread {v w : W64} (h : (higher32 v <<< 32) + lower32 v * PRIME32_2 = (higher32 w <<< 32) + lower32 w * PRIME32_2) :
    v = w := by
  have h1 := congrArg (BitVec.setWidth 32) h
  rw [BitVec.setWidth_add _ _ (by decide), BitVec.setWidth_add _ _ (by decide), shl_high, shl_high,
    BitVec.setWidth_mul _ _ (by decide), BitVec.setWidth_mul _ _ (by decide)] at h1
  have h2 := congrArg BitVec.toNat (mul_odd (p := BitVec.setWidth 32 PRIME32_2) (by decide) (add_left h1))
  rw [BitVec.toNat_setWidth, BitVec.toNat_setWidth, lower32_toNat, lower32_toNat, Nat.mod_mod, Nat.mod_mod] at h2
  have h3 : lower32 v = lower32 w := BitVec.eq_of_toNat_eq (by rw [lower32_toNat, lower32_toNat, h2])
  rw [h3] at h
  have h4 := congrArg BitVec.toNat (add_right h)
  rw [BitVec.toNat_shiftLeft, BitVec.toNat_shiftLeft, higher32_toNat, higher32_toNat, Nat.shiftLeft_eq,
    Nat.shiftLeft_eq] at h4
  apply BitVec.eq_of_toNat_eq
  have hv := v.isLt
  have hw := w.isLt
  omega

theorem mix9to16 {v1 w1 v2 w2 c : W64}
    (h : let f := fun val1 val2 : W64 =>
      let low := mulLow val1 PRIME64_1 + c
      let high := mulHigh val1 PRIME64_1 + (higher32 val2 <<< 32) + lower32 val2 * PRIME32_2
      let low := low ^^^ bswap64 high
      let high := mulHigh low PRIME64_2 + high * PRIME64_2
      let low := mulLow low PRIME64_2
      ({ low64 := avalanche low, high64 := avalanche high } : H128)
      f v1 v2 = f w1 w2) : v1 = w1 ∧ v2 = w2 := by
  simp only [H128.mk.injEq] at h
  obtain ⟨hlo, hhi⟩ := h
  replace hhi := avalanche_inj hhi
  replace hlo := avalanche_inj hlo
  rw [mulLow_eq _ PRIME64_2, mulLow_eq _ PRIME64_2] at hlo
  replace hlo := mul_odd (p := PRIME64_2) (by decide) hlo
  rw [hlo] at hhi
  replace hhi := mul_odd (p := PRIME64_2) (by decide) (add_left hhi)
  rw [hhi] at hlo
  replace hlo := add_right (xor_right hlo)
  rw [mulLow_eq, mulLow_eq] at hlo
  have h1 := mul_odd (p := PRIME64_1) (by decide) hlo
  subst h1
  rw [BitVec.add_assoc, BitVec.add_assoc] at hhi
  exact ⟨rfl, spread (add_left hhi)⟩

theorem hash128_9to16_inj {x y secret : List Byte} {seed : W64} (hl : x.length = y.length) (h9 : 9 ≤ x.length)
    (h16 : x.length ≤ 16) (h : hash128_9to16 x secret seed = hash128_9to16 y secret seed) : x = y := by
  unfold hash128_9to16 at h
  simp only [← hl] at h
  obtain ⟨h1, h2⟩ := mix9to16 h
  have he := xor_left h2
  rw [he] at h1
  have hf := xor_left (xor_right h1)
  exact cover hl (k := 8) (by omega) (by omega)
    (u64_inj (by rw [slice_length (by omega)]) (by rw [slice_length (by omega)]) hf)
    (u64_inj (by rw [slice_length (by omega)]; omega) (by rw [slice_length (by omega)]; omega) he)

theorem hash128_9to16_seed {x secret : List Byte} {s t : W64}
    (h : hash128_9to16 x secret s = hash128_9to16 x secret t) : s = t :=
  add_left (xor_right (mix9to16 h).2)

/-! ### Complete functions -/

theorem hash64_inj {x y : List Byte} {seed : W64} {secret l₁ l₂ : List Byte}
    (hlen : x.length = y.length ∨ (0 < x.length ∧ x.length ≤ 3 ∧ 0 < y.length ∧ y.length ≤ 3)) (h8 : x.length ≤ 8)
    (h : XXH3.hash64 x seed secret l₁ = XXH3.hash64 y seed secret l₂) : x = y := by
  unfold XXH3.hash64 at h
  by_cases h0 : x.length = 0
  · have hy : y.length = 0 := by omega
    rw [List.length_eq_zero_iff.mp h0, List.length_eq_zero_iff.mp hy]
  · have hy : y.length ≠ 0 := by omega
    simp only [h0, hy, if_false] at h
    by_cases h3 : x.length ≤ 3
    · have hy3 : y.length ≤ 3 := by omega
      simp only [h3, hy3, if_true] at h
      exact hash64_1to3_inj (by omega) h3 (by omega) hy3 h
    · have hy3 : ¬ y.length ≤ 3 := by omega
      have hy8 : y.length ≤ 8 := by omega
      simp only [h3, hy3, if_false, h8, hy8, if_true] at h
      exact hash64_4to8_inj (by omega) (by omega) h8 h

theorem hash64_seed {x : List Byte} {s t : W64} {secret l₁ l₂ : List Byte} (h8 : x.length ≤ 8)
    (h : XXH3.hash64 x s secret l₁ = XXH3.hash64 x t secret l₂) : s = t := by
  unfold XXH3.hash64 at h
  by_cases h0 : x.length = 0
  · simp only [h0, if_true] at h; exact empty64_seed h
  · simp only [h0, if_false] at h
    by_cases h3 : x.length ≤ 3
    · simp only [h3, if_true] at h; exact hash64_1to3_seed h
    · simp only [h3, if_false, h8, if_true] at h; exact hash64_4to8_seed h8 h

theorem hash128_inj {x y : List Byte} {seed : W64} {secret l₁ l₂ : List Byte}
    (hlen : x.length = y.length ∨ (0 < x.length ∧ x.length ≤ 3 ∧ 0 < y.length ∧ y.length ≤ 3)) (h16 : x.length ≤ 16)
    (h : hash128 x seed secret l₁ = hash128 y seed secret l₂) : x = y := by
  unfold hash128 at h
  by_cases h0 : x.length = 0
  · have hy : y.length = 0 := by omega
    rw [List.length_eq_zero_iff.mp h0, List.length_eq_zero_iff.mp hy]
  · have hy : y.length ≠ 0 := by omega
    simp only [h0, hy, if_false] at h
    by_cases h3 : x.length ≤ 3
    · have hy3 : y.length ≤ 3 := by omega
      simp only [h3, hy3, if_true] at h
      exact hash128_1to3_inj (by omega) h3 (by omega) hy3 h
    · have hy3 : ¬ y.length ≤ 3 := by omega
      simp only [h3, hy3, if_false] at h
      by_cases h8 : x.length ≤ 8
      · have hy8 : y.length ≤ 8 := by omega
        simp only [h8, hy8, if_true] at h
        exact hash128_4to8_inj (by omega) (by omega) h8 h
      · have hy8 : ¬ y.length ≤ 8 := by omega
        have hy16 : y.length ≤ 16 := by omega
        simp only [h8, hy8, if_false, h16, hy16, if_true] at h
        exact hash128_9to16_inj (by omega) (by omega) h16 h

theorem hash128_seed {x : List Byte} {s t : W64} {secret l₁ l₂ : List Byte} (h16 : x.length ≤ 16)
    (h : hash128 x s secret l₁ = hash128 x t secret l₂) : s = t := by
  unfold hash128 at h
  by_cases h0 : x.length = 0
  · simp only [h0, if_true] at h; exact empty128_seed h
  · simp only [h0, if_false] at h
    by_cases h3 : x.length ≤ 3
    · simp only [h3, if_true] at h; exact hash128_1to3_seed h
    · simp only [h3, if_false] at h
      by_cases h8 : x.length ≤ 8
      · simp only [h8, if_true] at h; exact hash128_4to8_seed h8 h
      · simp only [h8, if_false, h16, if_true] at h; exact hash128_9to16_seed h

end XXH.Inj.X3
