import Verif.Proof.SelfTestVec
import Verif.Model.SanityTest
import Mathlib.Tactic.Ring
import Mathlib.Tactic.Linarith
import Mathlib.Data.Nat.ModEq
import Mathlib.Algebra.Ring.Parity
import Mathlib.Data.Nat.Prime.Basic
/-!
The random numbers of the sanity tests: the multiplication by `PRIME64` takes every odd state through all states of its
class modulo 4, so that a number that makes progress comes up.
-/
namespace XXH.SanityP
open Model.SelfTest Model.SanityTest SelfTestP

/-- `PRIME64 ^ (2 ^ j) = 1 + 2 ^ (j + 2) * odd` -/
theorem pow_two_pow (j : Nat) : ∃ u, 11400714785074694797 ^ 2 ^ j = 1 + 2 ^ (j + 2) * (2 * u + 1) := by
  induction j with
  | zero => exact ⟨1425089348134336849, by norm_num⟩
  | succ j ih =>
    obtain ⟨u, hu⟩ := ih
    refine ⟨u + 2 ^ j * (2 * u + 1) ^ 2, ?_⟩
    rw [Nat.pow_succ 2 j, Nat.pow_mul, hu]
    ring

/-- The powers of `PRIME64` modulo `2 ^ (j + 2)` are all numbers that are 1 modulo 4. -/
theorem exists_pow (j x : Nat) (hx : x % 4 = 1) : ∃ k, k < 2 ^ j ∧ 11400714785074694797 ^ k % 2 ^ (j + 2) = x % 2 ^ (j + 2) := by
  induction j with
  | zero => exact ⟨0, by norm_num, by simpa using hx.symm⟩
  | succ j ih =>
    obtain ⟨k, hk, he⟩ := ih
    obtain ⟨u, hu⟩ := pow_two_pow j
    generalize hA : 11400714785074694797 ^ k = A at he
    have hodd : A % 2 = 1 := by
      have : A % 2 ^ (j + 2) % 2 = x % 2 ^ (j + 2) % 2 := by rw [he]
      have hd : (2 : Nat) ∣ 2 ^ (j + 2) := ⟨2 ^ (j + 1), by ring⟩
      rw [Nat.mod_mod_of_dvd _ hd, Nat.mod_mod_of_dvd _ hd] at this
      omega
    have hM : 2 ^ (j + 1 + 2) = 2 * 2 ^ (j + 2) := by ring
    have hpos : 0 < 2 ^ (j + 2) := by positivity
    by_cases hc : A % 2 ^ (j + 1 + 2) = x % 2 ^ (j + 1 + 2)
    · exact ⟨k, by rw [pow_succ]; omega, by rw [hA]; exact hc⟩
    · refine ⟨k + 2 ^ j, by rw [pow_succ]; omega, ?_⟩
      rw [pow_add, hA, hu, hM]
      rw [hM] at hc
      generalize 2 ^ (j + 2) = M at *
      obtain ⟨b, hb⟩ : ∃ b, A = 2 * b + 1 := ⟨A / 2, by omega⟩
      have h1 : A * (1 + M * (2 * u + 1)) = A + M + 2 * M * (b + A * u) := by
        rw [hb]; ring
      rw [h1, Nat.add_mul_mod_self_left]
      have e1 := Nat.div_add_mod A M
      have e2 := Nat.div_add_mod x M
      have l1 := Nat.mod_lt A hpos
      rw [he] at e1 l1
      have key (y r : Nat) (hr : r < M) : (M * y + r) % (2 * M) = M * (y % 2) + r := by
        rw [mul_comm 2 M, Nat.mod_mul, Nat.mul_add_mod, Nat.mod_eq_of_lt hr, Nat.mul_add_div hpos,
          Nat.div_eq_of_lt hr, Nat.add_zero, Nat.add_comm]
      have k1 := key (A / M) (x % M) l1
      have k2 := key (x / M) (x % M) l1
      have k3 := key (A / M + 1) (x % M) l1
      rw [e1] at k1
      rw [e2] at k2
      rw [show M * (A / M + 1) + x % M = A + M by rw [mul_add]; omega] at k3
      rw [k1, k2] at hc
      rw [k3, k2]
      have p1 : A / M % 2 ≠ x / M % 2 := fun h => hc (by rw [h])
      have p2 : (A / M + 1) % 2 = x / M % 2 := by omega
      rw [p2]

/-- The state after `k` numbers. -/
def after (rnd : W64) : Nat → W64
  | 0 => rnd
  | k + 1 => after (rand rnd).2 k

theorem after_toNat (k : Nat) (rnd : W64) : (after rnd k).toNat = rnd.toNat * 11400714785074694797 ^ k % 2 ^ 64 := by
  induction k generalizing rnd with
  | zero =>
    have := rnd.isLt
    rw [after, pow_zero, mul_one, Nat.mod_eq_of_lt this]
  | succ k ih =>
    rw [after, ih]
    show (rnd * PRIME64).toNat * _ % _ = _
    rw [BitVec.toNat_mul]
    show (rnd.toNat * 11400714785074694797 % 2 ^ 64) * _ % _ = _
    conv_lhs => rw [Nat.mul_mod, Nat.mod_mod, ← Nat.mul_mod]
    rw [pow_succ 11400714785074694797 k, mul_assoc, mul_comm 11400714785074694797]

/-- An odd number has an inverse modulo `2 ^ 64`. -/
theorem exists_inv (a : Nat) (h : a % 2 = 1) : ∃ b, a * b % 2 ^ 64 = 1 := by
  have hco : Nat.Coprime a (2 ^ 64) :=
    Nat.Coprime.pow_right _ (Nat.Coprime.symm (by rw [Nat.coprime_two_left, Nat.odd_iff]; exact h))
  obtain ⟨b, hb⟩ := Nat.exists_mul_mod_eq_one_of_coprime hco (by norm_num)
  exact ⟨b, hb.2⟩

/-- From an odd state, a state with the number 1 (the upper 24 bits) is at most `2 ^ 62` numbers away. -/
theorem exists_one (rnd : W64) (h : rnd.toNat % 2 = 1) :
    ∃ k, 1 ≤ k ∧ k ≤ 2 ^ 62 ∧ (after rnd k).toNat / 2 ^ 40 = 1 := by
  obtain ⟨b, hb⟩ := exists_inv (rnd.toNat * 11400714785074694797) (by omega)
  generalize hs : rnd.toNat * 11400714785074694797 = s at hb
  have hsodd : s % 2 = 1 := by omega
  have hs4 : s * b % 4 = 1 := by
    have h1 := Nat.div_add_mod (s * b) (2 ^ 64)
    rw [hb] at h1
    omega
  -- the wanted state
  obtain ⟨t, ht, htd⟩ : ∃ t, t % 4 = s % 4 ∧ t < 2 ^ 64 ∧ t / 2 ^ 40 = 1 := ⟨2 ^ 40 + s % 4, by omega, by omega, by omega⟩
  have hx : t * b % 4 = 1 := by
    rw [Nat.mul_mod, ht, ← Nat.mul_mod]; exact hs4
  obtain ⟨k, hk, he⟩ := exists_pow 62 (t * b) hx
  refine ⟨k + 1, by omega, by omega, ?_⟩
  rw [after_toNat, pow_succ', ← mul_assoc, hs]
  have : s * 11400714785074694797 ^ k % 2 ^ 64 = t := by
    rw [Nat.mul_mod, show (2 : Nat) ^ 64 = 2 ^ (62 + 2) by norm_num, he, ← Nat.mul_mod]
    rw [show s * (t * b) = t * (s * b) by ring, Nat.mul_mod, show (2 : Nat) ^ (62 + 2) = 2 ^ 64 by norm_num, hb, mul_one,
      Nat.mod_mod]
    exact Nat.mod_eq_of_lt htd.1
  rw [this]
  exact htd.2

theorem rand_odd {rnd : W64} (h : rnd.toNat % 2 = 1) : (rand rnd).2.toNat % 2 = 1 := by
  show (rnd * PRIME64).toNat % 2 = 1
  rw [BitVec.toNat_mul]
  show rnd.toNat * 11400714785074694797 % 2 ^ 64 % 2 = 1
  omega

theorem rand_number (rnd : W64) : (rand rnd).1.toNat = (rand rnd).2.toNat / 2 ^ 40 := by
  have h : (rand rnd).1 = ((rand rnd).2 >>> 40).setWidth 32 := rfl
  rw [h, BitVec.toNat_setWidth, BitVec.toNat_ushiftRight, Nat.shiftRight_eq_div_pow]
  have := (rand rnd).2.isLt
  generalize (rand rnd).2.toNat = x at *
  omega

/-- More rounds do no harm. -/
theorem walk_mono {len : Nat} : ∀ {fuel p : Nat} {rnd r : W64} (fuel' : Nat), fuel ≤ fuel' →
    walk len fuel p rnd = some r → walk len fuel' p rnd = some r := by
  intro fuel
  induction fuel with
  | zero =>
    intro p rnd r fuel' _ h
    unfold walk at h ⊢
    split at h
    · cases h
    · next hn => rw [if_neg hn]; exact h
  | succ fuel ih =>
    intro p rnd r fuel' hf h
    obtain ⟨f, rfl⟩ : ∃ f, fuel' = f + 1 := ⟨fuel' - 1, by omega⟩
    unfold walk at h ⊢
    split at h
    · next hlt => rw [if_pos hlt]; exact ih f (by omega) h
    · next hn => rw [if_neg hn]; exact h

/-- The loop makes progress within `B` rounds, so it ends. -/
theorem walk_ends {len B : Nat} (hB : ∀ rnd : W64, rnd.toNat % 2 = 1 →
      ∃ k, 1 ≤ k ∧ k ≤ B ∧ (after rnd k).toNat / 2 ^ 40 = 1) :
    ∀ (n k p : Nat) (rnd : W64), rnd.toNat % 2 = 1 → len ≤ p + n → 1 ≤ k → k ≤ B →
    (after rnd k).toNat / 2 ^ 40 = 1 → ∃ r, walk len ((n - 1) * B + k) p rnd = some r ∧ r.toNat % 2 = 1 := by
  intro n
  induction n with
  | zero =>
    intro k p rnd hodd hn _ _ _
    unfold walk
    rw [if_neg (by omega)]
    exact ⟨rnd, rfl, hodd⟩
  | succ n ih =>
    intro k
    induction k with
    | zero => intro p rnd _ _ h; omega
    | succ k ihk =>
      intro p rnd hodd hn _ hk h1
      unfold walk
      by_cases hlt : p < len
      · rw [if_pos hlt]
        rw [Nat.add_sub_cancel, ← Nat.add_assoc]
        simp only
        generalize hl : (rand rnd).1.toNat % (if len > 2 then len else 2) = l
        have hodd' := rand_odd hodd
        by_cases hl0 : l = 0
        · -- no progress: the number was not 1
          rw [hl0, Nat.add_zero, if_neg (by omega), Nat.add_zero]
          have hk0 : k ≠ 0 := by
            rintro rfl
            have : (rand rnd).1.toNat = 1 := by rw [rand_number]; exact h1
            rw [this] at hl
            split at hl
            · rw [Nat.mod_eq_of_lt (by omega)] at hl; omega
            · omega
          have := ihk p (rand rnd).2 hodd' hn (by omega) (by omega) h1
          rwa [show n + 1 - 1 = n by omega] at this
        · obtain ⟨k', k1, k2, k3⟩ := hB _ hodd'
          generalize hp : (p + if p + l > len then len - p else l) = p'
          have hp' : len ≤ p' + n := by
            rw [← hp]
            split <;> omega
          rcases n with - | n
          · unfold walk
            rw [if_neg (by omega)]
            exact ⟨_, rfl, hodd'⟩
          · obtain ⟨r, hr, ho⟩ := ih k' p' _ hodd' hp' k1 k2 k3
            refine ⟨r, walk_mono _ ?_ hr, ho⟩
            rw [show n + 1 - 1 = n by omega]
            have : (n + 1) * B = n * B + B := by ring
            omega
      · rw [if_neg hlt]
        exact ⟨rnd, rfl, hodd⟩

theorem walk_total (len : Nat) (rnd : W64) (h : rnd.toNat % 2 = 1) :
    ∃ r, walk len (roundsFor len) 0 rnd = some r ∧ r.toNat % 2 = 1 := by
  obtain ⟨k, k1, k2, k3⟩ := exists_one rnd h
  obtain ⟨r, hr, ho⟩ := walk_ends (len := len) exists_one len k 0 rnd h (by omega) k1 k2 k3
  rcases len with - | n
  · unfold walk
    rw [if_neg (by omega)]
    exact ⟨rnd, rfl, h⟩
  · refine ⟨r, walk_mono _ ?_ hr, ho⟩
    unfold roundsFor
    generalize 2 ^ 62 = B at *
    rw [Nat.add_sub_cancel, Nat.succ_mul]
    omega

end XXH.SanityP
