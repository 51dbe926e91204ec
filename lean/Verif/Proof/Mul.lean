import Verif.Model.XXH3Short
import Verif.Proof.Bytes
/-!
The 64x64 to 128-bit multiplications.
-/
namespace XXH
open Model Spec

theorem shift32_toNat (x : W64) : (x >>> 32).toNat = x.toNat / 2^32 := by
  rw [BitVec.toNat_ushiftRight, Nat.shiftRight_eq_div_pow]

theorem mask32_toNat (x : W64) : (x &&& 0xFFFFFFFF#64).toNat = x.toNat % 2^32 := by
  rw [BitVec.toNat_and]
  exact Nat.and_two_pow_sub_one_eq_mod x.toNat 32

theorem mult32to64_toNat (x y : W64) :
    (XXH3.mult32to64 x y).toNat = (x.toNat % 2^32) * (y.toNat % 2^32) := by
  have h1 : x.toNat % 2^32 < 2^32 := Nat.mod_lt _ (by decide)
  have h2 : y.toNat % 2^32 < 2^32 := Nat.mod_lt _ (by decide)
  have h3 : (x.toNat % 2^32) * (y.toNat % 2^32) ≤ (2^32-1) * (2^32-1) :=
    Nat.mul_le_mul (by omega) (by omega)
  simp only [XXH3.mult32to64, BitVec.toNat_mul, BitVec.toNat_setWidth]
  rw [Nat.mod_eq_of_lt (a := x.toNat % 2^32) (by omega), Nat.mod_eq_of_lt (a := y.toNat % 2^32) (by omega),
    Nat.mod_eq_of_lt (by omega)]

theorem lower32_toNat (x : W64) : (lower32 x).toNat = x.toNat % 2^32 := by
  rw [lower32, BitVec.toNat_ofNat]; omega

theorem higher32_toNat (x : W64) : (higher32 x).toNat = x.toNat / 2^32 := by
  rw [higher32, BitVec.toNat_ofNat]
  have := x.isLt
  omega

theorem mult32to64_eq (x y : W64) : XXH3.mult32to64 x y = lower32 x * lower32 y := by
  apply BitVec.eq_of_toNat_eq
  have h1 : x.toNat % 2^32 < 2^32 := Nat.mod_lt _ (by decide)
  have h2 : y.toNat % 2^32 < 2^32 := Nat.mod_lt _ (by decide)
  have h3 : (x.toNat % 2^32) * (y.toNat % 2^32) ≤ (2^32-1) * (2^32-1) :=
    Nat.mul_le_mul (by omega) (by omega)
  rw [mult32to64_toNat, BitVec.toNat_mul, lower32_toNat, lower32_toNat,
    Nat.mod_eq_of_lt (a := x.toNat % 2^32 * (y.toNat % 2^32)) (by omega)]

theorem lower32_shift (x : W64) : lower32 (x >>> 32) = higher32 x := by
  apply BitVec.eq_of_toNat_eq
  rw [lower32_toNat, higher32_toNat, shift32_toNat]
  have := x.isLt
  omega

theorem mulLow_eq (a b : W64) : mulLow a b = a * b := by
  apply BitVec.eq_of_toNat_eq
  rw [mulLow, BitVec.toNat_ofNat, BitVec.toNat_mul]

/-- The arithmetic of the portable multiplication. -/
theorem portable_arith (a b a0 a1 b0 b1 ll hl lh hh : Nat)
    (ha : a = a1 * 2^32 + a0) (hb : b = b1 * 2^32 + b0)
    (hll : ll = a0 * b0) (hhl : hl = a1 * b0) (hlh : lh = a0 * b1) (hhh : hh = a1 * b1) :
    a * b = hh * 2^64 + (hl + lh) * 2^32 + ll := by
  subst ha hb hll hhl hlh hhh; ring

theorem shl32_or (c l : W64) :
    ((c <<< 32) ||| (l &&& 0xFFFFFFFF#64)).toNat = (c.toNat % 2^32) * 2^32 + l.toNat % 2^32 := by
  have h : (c <<< 32) ||| (l &&& 0xFFFFFFFF#64) = c.setWidth 32 ++ l.setWidth 32 := by
    apply BitVec.eq_of_getLsbD_eq
    intro i hi
    rw [BitVec.getLsbD_append]
    have hm : (0xFFFFFFFF#64).getLsbD i = decide (i < 32) := by
      interval_cases i <;> rfl
    by_cases h : i < 32
    · simp [hm, h]
    · have hi' : i - 32 < 32 := by omega
      simp only [BitVec.getLsbD_or, BitVec.getLsbD_shiftLeft, BitVec.getLsbD_and, hm, h,
        BitVec.getLsbD_setWidth, decide_false, Bool.and_false, Bool.or_false, hi, decide_true,
        Bool.true_and, hi', if_false, Bool.not_false]
  rw [h, BitVec.toNat_append, BitVec.toNat_setWidth, BitVec.toNat_setWidth, Nat.shiftLeft_eq,
    Nat.mul_comm, ← Nat.two_pow_add_eq_or_of_lt (Nat.mod_lt _ (by decide)), Nat.mul_comm]

theorem mult64to128_portable_eq (lhs rhs : W64) :
    XXH3.mult64to128_portable lhs rhs = { low64 := mulLow lhs rhs, high64 := mulHigh lhs rhs } := by
  have hx := lhs.isLt
  have hy := rhs.isLt
  have key := portable_arith lhs.toNat rhs.toNat (lhs.toNat % 2^32) (lhs.toNat / 2^32)
    (rhs.toNat % 2^32) (rhs.toNat / 2^32) _ _ _ _ (by omega) (by omega) rfl rfl rfl rfl
  have b1 : (lhs.toNat % 2^32) * (rhs.toNat % 2^32) ≤ (2^32-1) * (2^32-1) :=
    Nat.mul_le_mul (by omega) (by omega)
  have b2 : (lhs.toNat / 2^32) * (rhs.toNat % 2^32) ≤ (2^32-1) * (2^32-1) :=
    Nat.mul_le_mul (by omega) (by omega)
  have b3 : (lhs.toNat % 2^32) * (rhs.toNat / 2^32) ≤ (2^32-1) * (2^32-1) :=
    Nat.mul_le_mul (by omega) (by omega)
  have b4 : (lhs.toNat / 2^32) * (rhs.toNat / 2^32) ≤ (2^32-1) * (2^32-1) :=
    Nat.mul_le_mul (by omega) (by omega)
  have e1 : (lhs.toNat / 2^32) % 2^32 = lhs.toNat / 2^32 := by omega
  have e2 : (rhs.toNat / 2^32) % 2^32 = rhs.toNat / 2^32 := by omega
  simp only [XXH3.mult64to128_portable, H128.mk.injEq]
  constructor
  · apply BitVec.eq_of_toNat_eq
    rw [shl32_or, mulLow, BitVec.toNat_ofNat, key]
    simp only [BitVec.toNat_add, shift32_toNat, mask32_toNat, mult32to64_toNat, e1, e2, Nat.mod_mod]
    generalize lhs.toNat % 2^32 * (rhs.toNat % 2^32) = ll at *
    generalize lhs.toNat / 2^32 * (rhs.toNat % 2^32) = hl at *
    generalize lhs.toNat % 2^32 * (rhs.toNat / 2^32) = lh at *
    generalize lhs.toNat / 2^32 * (rhs.toNat / 2^32) = hh at *
    clear key e1 e2
    omega
  · apply BitVec.eq_of_toNat_eq
    rw [mulHigh, BitVec.toNat_ofNat, key]
    simp only [BitVec.toNat_add, shift32_toNat, mask32_toNat, mult32to64_toNat, e1, e2, Nat.mod_mod]
    generalize lhs.toNat % 2^32 * (rhs.toNat % 2^32) = ll at *
    generalize lhs.toNat / 2^32 * (rhs.toNat % 2^32) = hl at *
    generalize lhs.toNat % 2^32 * (rhs.toNat / 2^32) = lh at *
    generalize lhs.toNat / 2^32 * (rhs.toNat / 2^32) = hh at *
    clear key e1 e2
    omega

theorem mult64to128_native_eq (lhs rhs : W64) :
    XXH3.mult64to128_native lhs rhs = { low64 := mulLow lhs rhs, high64 := mulHigh lhs rhs } := by
  have hx := lhs.isLt
  have hy := rhs.isLt
  have hp : lhs.toNat * rhs.toNat ≤ (2^64-1) * (2^64-1) := Nat.mul_le_mul (by omega) (by omega)
  have hm : (lhs.setWidth 128 * rhs.setWidth 128 : BitVec 128).toNat = lhs.toNat * rhs.toNat := by
    rw [BitVec.toNat_mul, BitVec.toNat_setWidth, BitVec.toNat_setWidth,
      Nat.mod_eq_of_lt (a := lhs.toNat) (by omega), Nat.mod_eq_of_lt (a := rhs.toNat) (by omega),
      Nat.mod_eq_of_lt (by omega)]
  simp only [XXH3.mult64to128_native, H128.mk.injEq]
  constructor
  · apply BitVec.eq_of_toNat_eq
    rw [BitVec.toNat_setWidth, hm, mulLow, BitVec.toNat_ofNat]
  · apply BitVec.eq_of_toNat_eq
    rw [BitVec.toNat_setWidth, BitVec.toNat_ushiftRight, hm, mulHigh, BitVec.toNat_ofNat,
      Nat.shiftRight_eq_div_pow]

theorem mult64to128_eq (cfg : Cfg) (lhs rhs : W64) :
    XXH3.mult64to128 cfg lhs rhs = { low64 := mulLow lhs rhs, high64 := mulHigh lhs rhs } := by
  unfold XXH3.mult64to128
  split
  · exact mult64to128_portable_eq lhs rhs
  · exact mult64to128_native_eq lhs rhs

theorem mul128_fold64_eq (cfg : Cfg) (lhs rhs : W64) :
    XXH3.mul128_fold64 cfg lhs rhs = mulLow lhs rhs ^^^ mulHigh lhs rhs := by
  simp only [XXH3.mul128_fold64, mult64to128_eq]

end XXH
