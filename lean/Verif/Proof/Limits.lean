import Verif.Proof.Injective
import Verif.Proof.XXH3Stripes
/-!
Explicit collisions, on the level of the specification.
-/
namespace XXH.Limits
open XXH.Spec XXH.Inj

theorem foldl_ext' {α β : Type} (f g : α → β → α) (a : α) (l : List β) (h : ∀ acc, ∀ b ∈ l, f acc b = g acc b) :
    l.foldl f a = l.foldl g a := by
  induction l generalizing a with
  | nil => rfl
  | cons b l ih =>
    rw [List.foldl_cons, List.foldl_cons, h a b (List.mem_cons_self ..)]
    exact ih _ fun acc c hc => h acc c (List.mem_cons_of_mem _ hc)

/-! ### XXH64: one flipped bit -/
namespace X64
open XXH.Spec.XXH64

theorem rotl_rotr (x : W64) : (x.rotateRight 31).rotateLeft 31 = x := by
  apply BitVec.eq_of_getLsbD_eq
  intro i hi
  simp only [BitVec.getLsbD_rotateLeft, BitVec.getLsbD_rotateRight, show 31 % 64 = 31 from rfl]
  by_cases h : i < 31
  · have h1 : ¬ (64 - 31 + i < 64 - 31) := by omega
    have h2 : 64 - 31 + i < 64 := by omega
    simp only [h, h1, h2, decide_true, decide_false, cond_true, cond_false, Bool.true_and]
    congr 1
    omega
  · have h1 : i - 31 < 64 - 31 := by omega
    simp only [h, h1, hi, decide_true, decide_false, cond_true, cond_false, Bool.true_and]
    congr 1
    omega

/-- The lane that takes the accumulator from `a` to `v`. -/
def laneFor (a v : W64) : W64 :=
  ((v * 0x887493432badb37#64).rotateRight 31 - a) * 0xba79078168d4baf#64

theorem round_laneFor (a v : W64) : round a (laneFor a v) = v := by
  unfold round laneFor
  rw [BitVec.mul_assoc, show (0xba79078168d4baf#64 * PRIME64_2 : W64) = 1#64 by decide, BitVec.mul_one,
    BitVec.add_comm, BitVec.sub_add_cancel, rotl_rotr, BitVec.mul_assoc,
    show (0x887493432badb37#64 * PRIME64_1 : W64) = 1#64 by decide, BitVec.mul_one]

/-- The accumulators of two colliding stripes for even and odd second accumulator. -/
def target (odd : Bool) : Accs :=
  if odd then ⟨0x4594e9113a05637e#64, 0x82e63f1e90e7456d#64, 0, 0x9615d6fcc9de985#64⟩
  else ⟨0xda36f69a51c749ff#64, 0x9afb859bbb53c7fb#64, 0, 0x8d5d918e1f73b535#64⟩

@[inherit_doc target]
def target' (odd : Bool) : W64 := if odd then 0x3efe8e36f44be23f#64 else 0x5713d4b41eb864cd#64

theorem converge_target (odd : Bool) : converge (target odd) = converge { target odd with acc2 := target' odd } := by
  cases odd <;> decide

theorem target_lsb (odd : Bool) :
    (((target odd).acc2 * 0x887493432badb37#64).rotateRight 31).getLsbD 0 = odd := by
  cases odd <;> decide

theorem target_next (odd : Bool) : (target' odd * 0x887493432badb37#64).rotateRight 31 =
    ((target odd).acc2 * 0x887493432badb37#64).rotateRight 31 + PRIME64_2 := by
  cases odd <;> decide

theorem lsb_mul_odd (x : W64) : (x * 0xba79078168d4baf#64).getLsbD 0 = x.getLsbD 0 := by
  have h1 : ∀ y : W64, y.getLsbD 0 = decide (y.toNat % 2 = 1) := by
    intro y
    rw [BitVec.getLsbD, Nat.testBit_zero]
  rw [h1, h1, BitVec.toNat_mul]
  congr 1
  rw [show (0xba79078168d4baf#64).toNat = 2 * 419899350488360407 + 1 by decide,
    Nat.mod_mod_of_dvd _ (by decide : 2 ∣ 2^64), Nat.mul_mod]
  simp

theorem lsb_sub (x y : W64) : (x - y).getLsbD 0 = (x.getLsbD 0 ^^ y.getLsbD 0) := by
  have h1 : ∀ y : W64, y.getLsbD 0 = decide (y.toNat % 2 = 1) := by
    intro y
    rw [BitVec.getLsbD, Nat.testBit_zero]
  rw [h1, h1, h1, BitVec.toNat_sub, Nat.mod_mod_of_dvd _ (by decide : 2 ∣ 2^64)]
  have := y.isLt
  rcases Nat.mod_two_eq_zero_or_one x.toNat with hx | hx <;>
    rcases Nat.mod_two_eq_zero_or_one y.toNat with hy | hy <;>
    rw [show (2^64 - y.toNat + x.toNat) % 2 = (y.toNat + x.toNat) % 2 by omega] <;>
    simp [Nat.add_mod, hx, hy]

/-- The second lane is even, and the colliding one is the next number. -/
theorem laneFor_lsb (a : W64) : (laneFor a (target (a.getLsbD 0)).acc2).getLsbD 0 = false := by
  unfold laneFor
  rw [lsb_mul_odd, lsb_sub, target_lsb]
  simp

theorem laneFor_next (a : W64) (odd : Bool) : laneFor a (target' odd) = laneFor a (target odd).acc2 + 1#64 := by
  unfold laneFor
  rw [target_next]
  generalize ((target odd).acc2 * 0x887493432badb37#64).rotateRight 31 = t
  rw [show t + PRIME64_2 - a = (t - a) + PRIME64_2 by
    rw [BitVec.sub_eq_add_neg, BitVec.sub_eq_add_neg]; ac_rfl, BitVec.add_mul,
    show (PRIME64_2 * 0xba79078168d4baf#64 : W64) = 1#64 by decide]

theorem add_one_of_even {x : W64} (h : x.getLsbD 0 = false) : x + 1#64 = x ^^^ 1#64 := by
  have h0 : x &&& 1#64 = 0#64 := by
    apply BitVec.eq_of_getLsbD_eq
    intro i hi
    rw [BitVec.getLsbD_and]
    cases i with
    | zero => rw [h]; rfl
    | succ i => simp [BitVec.getLsbD_one]
  rw [BitVec.add_eq_or_of_and_eq_zero _ _ h0]
  apply BitVec.eq_of_getLsbD_eq
  intro i hi
  rw [BitVec.getLsbD_or, BitVec.getLsbD_xor]
  cases i with
  | zero => rw [h]; rfl
  | succ i => simp [BitVec.getLsbD_one]

/-- The stripe. -/
def bytes (i1 i2 i3 i4 : W64) : List Byte := leBytes 8 i1 ++ (leBytes 8 i2 ++ (leBytes 8 i3 ++ leBytes 8 i4))

theorem bytes_length (i1 i2 i3 i4 : W64) : (bytes i1 i2 i3 i4).length = 32 := by
  simp only [bytes, List.length_append, leBytes_length]

theorem bytes_word (i1 i2 i3 i4 : W64) : word64 (bytes i1 i2 i3 i4) 0 = i1 ∧ word64 (bytes i1 i2 i3 i4) 1 = i2 ∧
    word64 (bytes i1 i2 i3 i4) 2 = i3 ∧ word64 (bytes i1 i2 i3 i4) 3 = i4 := by
  have hl := leBytes_length 8 (w := 64)
  have all : ∀ i : W64, slice (leBytes 8 i) 0 8 = leBytes 8 i := fun i => slice_all _ _ (by rw [hl])
  unfold word64 bytes
  refine ⟨?_, ?_, ?_, ?_⟩
  · rw [slice_append_left _ _ _ _ (by rw [hl]), all, u64_leBytes]
  · rw [slice_append_right _ _ _ _ (by rw [hl]), slice_append_left _ _ _ _ (by rw [hl, hl]), hl]
    simp only [Nat.mul_one, Nat.reduceAdd, Nat.reduceSub]
    rw [all, u64_leBytes]
  · rw [slice_append_right _ _ _ _ (by rw [hl]; decide), slice_append_right _ _ _ _ (by rw [hl, hl]),
      slice_append_left _ _ _ _ (by rw [hl, hl, hl])]
    simp only [hl, Nat.reduceMul, Nat.reduceAdd, Nat.reduceSub]
    rw [all, u64_leBytes]
  · rw [slice_append_right _ _ _ _ (by rw [hl]; decide), slice_append_right _ _ _ _ (by rw [hl, hl]; decide),
      slice_append_right _ _ _ _ (by rw [hl, hl, hl])]
    simp only [hl, Nat.reduceMul, Nat.reduceAdd, Nat.reduceSub]
    rw [all, u64_leBytes]

theorem stripe_bytes (a : Accs) (i1 i2 i3 i4 : W64) : stripe a (bytes i1 i2 i3 i4) =
    ⟨round a.acc1 i1, round a.acc2 i2, round a.acc3 i3, round a.acc4 i4⟩ := by
  obtain ⟨h1, h2, h3, h4⟩ := bytes_word i1 i2 i3 i4
  unfold stripe
  rw [h1, h2, h3, h4]

/-- The first of the two colliding stripes after accumulators `a`. -/
def stripeFor (a : Accs) : List Byte :=
  let t := target (a.acc2.getLsbD 0)
  bytes (laneFor a.acc1 t.acc1) (laneFor a.acc2 t.acc2) (laneFor a.acc3 t.acc3) (laneFor a.acc4 t.acc4)

/-- The second. -/
def stripeFor' (a : Accs) : List Byte :=
  let t := target (a.acc2.getLsbD 0)
  bytes (laneFor a.acc1 t.acc1) (laneFor a.acc2 t.acc2 ^^^ 1#64) (laneFor a.acc3 t.acc3) (laneFor a.acc4 t.acc4)

theorem converge_stripeFor (a : Accs) :
    converge (stripe a (stripeFor a)) = converge (stripe a (stripeFor' a)) := by
  have h2 : round a.acc2 (laneFor a.acc2 (target (a.acc2.getLsbD 0)).acc2 ^^^ 1#64) = target' (a.acc2.getLsbD 0) := by
    rw [← add_one_of_even (laneFor_lsb _), ← laneFor_next, round_laneFor]
  unfold stripeFor stripeFor'
  simp only [stripe_bytes, round_laneFor, h2]
  exact converge_target _

theorem stripes_succ (a : Accs) (m : List Byte) (n : Nat) :
    stripes a m (n+1) = stripe (stripes a m n) (slice m (32*n) (32*n+32)) := by
  simp only [stripes, List.range_succ, List.foldl_append, List.foldl_cons, List.foldl_nil]

/-- Two messages that differ in the last stripe only, with equal convergence. -/
theorem hash_stripe {pre x y post : List Byte} {k : Nat} (hpre : pre.length = 32*k) (hx : x.length = 32)
    (hy : y.length = 32) (hpost : post.length < 32) {seed : W64}
    (h : converge (stripe (stripes (init seed) pre k) x) = converge (stripe (stripes (init seed) pre k) y)) :
    XXH64.hash (pre ++ x ++ post) seed = XXH64.hash (pre ++ y ++ post) seed := by
  have hs (z : List Byte) (hz : z.length = 32) : stripes (init seed) (pre ++ z ++ post) (k+1) =
      stripe (stripes (init seed) pre k) z := by
    rw [stripes_succ, slice_mid hpre.symm (by omega),
      X64.stripes_congr (m := pre ++ z ++ post) (m' := pre) _ (fun i hi => slice_pre (by omega))]
  have hlx : (pre ++ x ++ post).length = 32*k + 32 + post.length := by
    simp only [List.length_append]; omega
  have hly : (pre ++ y ++ post).length = 32*k + 32 + post.length := by
    simp only [List.length_append]; omega
  unfold XXH64.hash
  simp only [hlx, hly]
  rw [show (32*k + 32 + post.length)/32 = k+1 by omega, hs x hx, hs y hy, h,
    drop_post (x := x) (y := y) (by omega) (by omega)]
end X64

/-! ### XXH3 -/
open XXH.Spec.XXH3

theorem mul_zero_left (b : W64) : mulLow 0#64 b ^^^ mulHigh 0#64 b = 0#64 := by
  simp [mulLow, mulHigh]

theorem mul_zero_right (a : W64) : mulLow a 0#64 ^^^ mulHigh a 0#64 = 0#64 := by
  simp [mulLow, mulHigh]

/-- The first 16 bytes cancel one factor of the first product. -/
def Blind (secret : List Byte) (seed : W64) (x : List Byte) : Prop :=
  word64 x 0 = word64 secret 0 + seed ∨ word64 x 1 = word64 secret 1 - seed

theorem Blind.mixStep {secret x : List Byte} {seed : W64} (h : Blind secret seed x) :
    mixStep secret (slice x 0 16) 0 seed = 0 := by
  unfold XXH3.mixStep
  simp only
  rw [word64_slice x 0 16 0 (by omega), word64_slice x 0 16 1 (by omega), word64_slice secret 0 16 0 (by omega),
    word64_slice secret 0 16 1 (by omega)]
  simp only [Nat.zero_add, Nat.mul_zero, Nat.mul_one]
  have h0 : ∀ z : List Byte, u64 (slice z 0 8) = word64 z 0 := fun _ => rfl
  have h1 : ∀ z : List Byte, u64 (slice z 8 (8+8)) = word64 z 1 := fun _ => rfl
  simp only [h0, h1]
  rcases h with h | h
  · rw [h, BitVec.xor_self]; exact mul_zero_left _
  · rw [h, BitVec.xor_self]; exact mul_zero_right _

/-- Lengths for which the first 16 bytes belong to one product only. -/
def MidLen (L : Nat) : Prop := L = 32 ∨ (48 ≤ L ∧ L ≤ 240)

section
variable {x y secret : List Byte} {seed : W64} (hl : x.length = y.length) (hL : MidLen x.length)
  (hs : ∀ a b, 16 ≤ a → slice x a b = slice y a b) (hx : Blind secret seed x) (hy : Blind secret seed y)
include hl hL hs hx hy

theorem hash64_17to128_eq (h : x.length ≤ 128) : hash64_17to128 x secret seed = hash64_17to128 y secret seed := by
  unfold hash64_17to128
  simp only [← hl]
  congr 1
  apply foldl_ext'
  intro acc i hi
  have hi : i < ((x.length - 1) >>> 5) + 1 := by simpa [downFrom] using hi
  rw [Nat.shiftRight_eq_div_pow] at hi
  have h2 : slice x (x.length - i*16 - 16) (x.length - i*16 - 16 + 16) =
      slice y (x.length - i*16 - 16) (x.length - i*16 - 16 + 16) := hs _ _ (by
    rcases hL with h | h
    · omega
    · omega)
  rw [h2]
  congr 2
  cases i with
  | zero =>
    simp only [Nat.zero_mul, Nat.zero_add]
    rw [hx.mixStep, hy.mixStep]
  | succ i => rw [hs _ _ (by omega)]

theorem hash64_129to240_eq (h : 128 < x.length) : hash64_129to240 x secret seed = hash64_129to240 y secret seed := by
  unfold hash64_129to240
  simp only [← hl]
  have e1 : (List.range 8).foldl (fun acc i => acc + mixStep secret (slice x (i*16) (i*16+16)) (i*16) seed)
      (BitVec.ofNat 64 x.length * XXH64.PRIME64_1) =
      (List.range 8).foldl (fun acc i => acc + mixStep secret (slice y (i*16) (i*16+16)) (i*16) seed)
      (BitVec.ofNat 64 x.length * XXH64.PRIME64_1) := by
    apply foldl_ext'
    intro acc i hi
    congr 1
    cases i with
    | zero =>
      simp only [Nat.zero_mul, Nat.zero_add]
      rw [hx.mixStep, hy.mixStep]
    | succ i => rw [hs _ _ (by omega)]
  rw [e1, hs _ _ (by omega)]
  congr 2
  apply foldl_ext'
  intro acc i hi
  have : 8 ≤ i := by rw [List.mem_range'_1] at hi; exact hi.1
  rw [hs _ _ (by omega)]

theorem hash64_mid (l : List Byte) : XXH3.hash64 x seed secret l = XXH3.hash64 y seed secret l := by
  have h1 : ¬ x.length = 0 := by rcases hL with h | h <;> omega
  have h2 : ¬ x.length ≤ 3 := by rcases hL with h | h <;> omega
  have h3 : ¬ x.length ≤ 8 := by rcases hL with h | h <;> omega
  have h4 : ¬ x.length ≤ 16 := by rcases hL with h | h <;> omega
  have h5 : x.length ≤ 240 := by rcases hL with h | h <;> omega
  unfold XXH3.hash64
  simp only [← hl, h1, h2, h3, h4, h5, if_false, if_true]
  by_cases h6 : x.length ≤ 128
  · simp only [h6, if_true]
    exact hash64_17to128_eq hl hL hs hx hy h6
  · simp only [h6, if_false]
    exact hash64_129to240_eq hl hL hs hx hy (by omega)

variable (hsum : word64 x 0 + word64 x 1 = word64 y 0 + word64 y 1)
include hsum

theorem mixTwo_first (acc : W64 × W64) {d : List Byte} : mixTwoChunks secret acc (slice x 0 16) d 0 seed =
    mixTwoChunks secret acc (slice y 0 16) d 0 seed := by
  unfold mixTwoChunks
  simp only
  rw [hx.mixStep, hy.mixStep, word64_slice x 0 16 0 (by omega), word64_slice x 0 16 1 (by omega),
    word64_slice y 0 16 0 (by omega), word64_slice y 0 16 1 (by omega)]
  have h0 : ∀ z : List Byte, u64 (slice z (0 + 8*0) (0 + 8*0+8)) = word64 z 0 := fun _ => rfl
  have h1 : ∀ z : List Byte, u64 (slice z (0 + 8*1) (0+8*1+8)) = word64 z 1 := fun _ => rfl
  rw [h0, h0, h1, h1, hsum]

theorem hash128_17to128_eq (h : x.length ≤ 128) : hash128_17to128 x secret seed = hash128_17to128 y secret seed := by
  unfold hash128_17to128
  simp only [← hl]
  congr 1
  apply foldl_ext'
  intro acc i hi
  have hi : i < ((x.length - 1) >>> 5) + 1 := by simpa [downFrom] using hi
  rw [Nat.shiftRight_eq_div_pow] at hi
  have h2 : slice x (x.length - i*16 - 16) (x.length - i*16 - 16 + 16) =
      slice y (x.length - i*16 - 16) (x.length - i*16 - 16 + 16) := hs _ _ (by
    rcases hL with h | h
    · omega
    · omega)
  rw [h2]
  cases i with
  | zero =>
    simp only [Nat.zero_mul, Nat.zero_add]
    exact mixTwo_first hl hL hs hx hy hsum acc
  | succ i => rw [hs _ _ (by omega)]

theorem hash128_129to240_eq (h : 128 < x.length) : hash128_129to240 x secret seed = hash128_129to240 y secret seed := by
  unfold hash128_129to240
  simp only [← hl]
  have e1 : ∀ a : W64 × W64, (List.range 4).foldl (fun acc i => mixTwoChunks secret acc (slice x (i*32) (i*32+16))
      (slice x (i*32+16) (i*32+32)) (i*32) seed) a =
      (List.range 4).foldl (fun acc i => mixTwoChunks secret acc (slice y (i*32) (i*32+16))
      (slice y (i*32+16) (i*32+32)) (i*32) seed) a := by
    intro a
    apply foldl_ext'
    intro acc i hi
    rw [hs (i*32+16) _ (by omega)]
    cases i with
    | zero =>
      simp only [Nat.zero_mul, Nat.zero_add]
      exact mixTwo_first hl hL hs hx hy hsum acc
    | succ i => rw [hs _ _ (by omega)]
  rw [e1, hs (x.length - 16) _ (by omega), hs (x.length - 32) _ (by omega)]
  congr 2
  apply foldl_ext'
  intro acc i hi
  have : 4 ≤ i := by rw [List.mem_range'_1] at hi; exact hi.1
  rw [hs _ _ (by omega), hs (i*32+16) _ (by omega)]

theorem hash128_mid (l : List Byte) : hash128 x seed secret l = hash128 y seed secret l := by
  have h1 : ¬ x.length = 0 := by rcases hL with h | h <;> omega
  have h2 : ¬ x.length ≤ 3 := by rcases hL with h | h <;> omega
  have h3 : ¬ x.length ≤ 8 := by rcases hL with h | h <;> omega
  have h4 : ¬ x.length ≤ 16 := by rcases hL with h | h <;> omega
  have h5 : x.length ≤ 240 := by rcases hL with h | h <;> omega
  unfold hash128
  simp only [← hl, h1, h2, h3, h4, h5, if_false, if_true]
  by_cases h6 : x.length ≤ 128
  · simp only [h6, if_true]
    exact hash128_17to128_eq hl hL hs hx hy hsum h6
  · simp only [h6, if_false]
    exact hash128_129to240_eq hl hL hs hx hy hsum (by omega)
end

/-! ### XXH3, large inputs -/
section
open XXH.SimdP XXH.XXH3P

theorem product_zero {d k : W64} (h : d.setWidth 32 = k.setWidth 32) : lower32 (d ^^^ k) * higher32 (d ^^^ k) = 0#64 := by
  have h0 : lower32 (d ^^^ k) = 0#64 := by
    apply BitVec.eq_of_getLsbD_eq
    intro i hi
    have := congrArg (fun v : W32 => v.getLsbD i) h
    simp only [BitVec.getLsbD_setWidth] at this
    have h1 : (lower32 (d ^^^ k)).getLsbD i = (decide (i < 32) && (d.getLsbD i ^^ k.getLsbD i)) := by
      rw [← lo32_w, Model.Simd.lo32]
      simp only [BitVec.getLsbD_setWidth, BitVec.getLsbD_xor, hi, decide_true, Bool.true_and]
    rw [h1]
    by_cases h2 : i < 32
    · simp only [h2, decide_true, Bool.true_and] at this
      simp [this]
    · simp [h2]
  rw [h0, BitVec.zero_mul]

/-- Two stripes whose first words are blind, and in which the sum of the first words is the same. -/
theorem accLanes_two (acc : Acc) {d e d' e' k l : Fin 8 → W64} (hd : ∀ i, i ≠ 0 → d i = d' i)
    (he : ∀ i, i ≠ 0 → e i = e' i) (h1 : (d 0).setWidth 32 = (k 0).setWidth 32)
    (h2 : (d' 0).setWidth 32 = (k 0).setWidth 32) (h3 : (e 0).setWidth 32 = (l 0).setWidth 32)
    (h4 : (e' 0).setWidth 32 = (l 0).setWidth 32) (hs : d 0 + e 0 = d' 0 + e' 0) :
    accLanes (accLanes acc d k) e l = accLanes (accLanes acc d' k) e' l := by
  apply Vector.ext
  intro i hi
  obtain ⟨j, rfl⟩ : ∃ j : Fin 8, i = j.val := ⟨⟨i, hi⟩, rfl⟩
  unfold accLanes
  simp only [Vector.getElem_ofFn, Fin.getElem_fin, Fin.eta]
  unfold laneAcc
  by_cases h0 : j = 0
  · subst h0
    rw [product_zero h1, product_zero h2, product_zero h3, product_zero h4, hd _ (by decide), he _ (by decide)]
  · rw [hd j h0, he j h0]
    by_cases hj : j = 1
    · subst hj
      rw [show (1 ^^^ 1 : Fin 8) = 0 by decide]
      generalize lower32 _ * higher32 _ = p, lower32 _ * higher32 _ = q, d 0 = a, e 0 = b, d' 0 = a', e' 0 = b',
        acc[(1 : Fin 8).val] = c at *
      rw [show c + a + q + b + p = c + p + q + (a + b) by ac_rfl, hs]
      ac_rfl
    · have hne : j ^^^ 1 ≠ 0 := by revert j; decide
      rw [hd _ hne, he _ hne]
end

section
open XXH.SimdP XXH.XXH3P
variable {x y sec : List Byte} (hl : x.length = y.length) (hL : 240 < x.length) (h136 : 136 ≤ sec.length)
  (hs : ∀ i, ¬ i < 8 → ¬ (64 ≤ i ∧ i < 72) → x[i]? = y[i]?)
  (hx0 : (word64 x 0).setWidth 32 = (word64 sec 0).setWidth 32)
  (hy0 : (word64 y 0).setWidth 32 = (word64 sec 0).setWidth 32)
  (hx1 : (word64 x 8).setWidth 32 = (word64 sec 1).setWidth 32)
  (hy1 : (word64 y 8).setWidth 32 = (word64 sec 1).setWidth 32)
  (hsum : word64 x 0 + word64 x 8 = word64 y 0 + word64 y 8)

theorem slice_eq_of {x y : List Byte} {a b : Nat} (h : ∀ i, a ≤ i → i < b → x[i]? = y[i]?) :
    slice x a b = slice y a b := by
  apply List.ext_getElem?
  intro i
  simp only [slice, List.getElem?_take, List.getElem?_drop]
  split
  · exact h _ (by omega) (by omega)
  · rfl

include hs hx0 hy0 hx1 hy1 hsum h136

theorem accAfter_two : accAfter sec x 2 = accAfter sec y 2 := by
  have hp : 9 ≤ stripesPerBlock sec := by unfold stripesPerBlock; omega
  have e : ∀ z : List Byte, accAfter sec z 2 = accLanes (accLanes initAcc (laneAt z 0) (laneAt sec 0)) (laneAt z 64)
      (laneAt sec 8) := by
    intro z
    simp only [accAfter]
    rw [if_neg (by rw [Nat.mod_eq_of_lt (by omega)]; omega), if_neg (by rw [Nat.mod_eq_of_lt (by omega)]; omega),
      Nat.mod_eq_of_lt (by omega), Nat.mod_eq_of_lt (by omega), accumulate_closed, accumulate_closed]
  rw [e, e]
  refine accLanes_two _ ?_ ?_ hx0 hy0 hx1 hy1 hsum
  · intro i hi
    have : i.val ≠ 0 := fun h => hi (Fin.ext h)
    unfold laneAt
    rw [slice_eq_of fun j h1 h2 => hs j (by omega) (by omega)]
  · intro i hi
    have : i.val ≠ 0 := fun h => hi (Fin.ext h)
    unfold laneAt
    rw [slice_eq_of fun j h1 h2 => hs j (by omega) (by omega)]

theorem accAfter_more : ∀ k, 2 ≤ k → accAfter sec x k = accAfter sec y k
  | 0, h => absurd h (by omega)
  | 1, h => absurd h (by omega)
  | 2, _ => accAfter_two h136 hs hx0 hy0 hx1 hy1 hsum
  | k+3, _ => by
    have ih := accAfter_more (k+2) (by omega)
    have h := slice_eq_of (x := x) (y := y) (a := (k+2)*64) (b := (k+2)*64+64)
      fun j h1 h2 => hs j (by omega) (by omega)
    show accAfter sec x ((k+2)+1) = accAfter sec y ((k+2)+1)
    generalize k + 2 = m at *
    show accAfter sec x (m+1) = accAfter sec y (m+1)
    rw [accAfter, accAfter, ih, h]

include hl hL
theorem longAccs_two : longAccs x sec = longAccs y sec := by
  rw [longAccs_eq _ _ (by omega) (by omega), longAccs_eq _ _ (by omega) (by omega), ← hl,
    accAfter_more h136 hs hx0 hy0 hx1 hy1 hsum _ (by omega),
    slice_eq_of (x := x) (y := y) fun j h1 h2 => hs j (by omega) (by omega)]

theorem hash64_long (seed : W64) (s : List Byte) : XXH3.hash64 x seed s sec = XXH3.hash64 y seed s sec := by
  unfold XXH3.hash64
  simp only [← hl, show ¬ x.length = 0 by omega, show ¬ x.length ≤ 3 by omega, show ¬ x.length ≤ 8 by omega,
    show ¬ x.length ≤ 16 by omega, show ¬ x.length ≤ 128 by omega, show ¬ x.length ≤ 240 by omega, if_false]
  unfold large64
  rw [longAccs_two hl hL h136 hs hx0 hy0 hx1 hy1 hsum, hl]

theorem hash128_long (seed : W64) (s : List Byte) : XXH3.hash128 x seed s sec = XXH3.hash128 y seed s sec := by
  unfold XXH3.hash128
  simp only [← hl, show ¬ x.length = 0 by omega, show ¬ x.length ≤ 3 by omega, show ¬ x.length ≤ 8 by omega,
    show ¬ x.length ≤ 16 by omega, show ¬ x.length ≤ 128 by omega, show ¬ x.length ≤ 240 by omega, if_false]
  unfold large128
  rw [longAccs_two hl hL h136 hs hx0 hy0 hx1 hy1 hsum, hl]
end
end XXH.Limits
