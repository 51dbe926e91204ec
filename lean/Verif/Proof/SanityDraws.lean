import Verif.Proof.SanityRandom
/-!
How many random numbers the tests of tests/sanity_test.c draw with the generated tables: an evaluation by the kernel.
-/
namespace XXH.SanityP
open Model.SelfTest Model.SanityTest SelfTestP

/-- `k n`; the kernel evaluates `n` first. -/
def force (n : Nat) (k : Nat → Nat) : Nat := Nat.rec (motive := fun _ => Nat) (k 0) (fun m _ => k (m + 1)) n

theorem force_eq (n : Nat) (k : Nat → Nat) : force n k = k n := by cases n <;> rfl

/-- `walk` on numbers; 0 if the rounds do not suffice. -/
def walkN (len modulo : Nat) (fuel : Nat) : Nat → Nat → Nat :=
  Nat.rec (motive := fun _ => Nat → Nat → Nat) (fun p s => cond (Nat.ble len p) s 0)
    (fun _ rest p s => cond (Nat.ble len p) s
      (force (s * 11400714785074694797 % 18446744073709551616) fun s =>
        force (p + s / 1099511627776 % modulo) fun p => rest p s)) fuel

/-- All tests of a table, `m` for each length; `n` lengths are left. -/
def runN (m n : Nat) : Nat → Nat :=
  Nat.rec (motive := fun _ => Nat → Nat) (fun s => s)
    (fun i rest s => force (Nat.rec (motive := fun _ => Nat → Nat) (fun s => s)
      (fun _ again s => force (walkN (4160 - i) (cond (Nat.ble (4160 - i) 2) 2 (4160 - i)) 100 0 s) again) m s) rest) n

theorem run1 : Nat.beq (runN 2 4161 (2654435761 * 11400714785074694797 ^ 0 % 18446744073709551616))
    (2654435761 * 11400714785074694797 ^ 22730 % 18446744073709551616) = true := by decide +kernel

theorem run2 : Nat.beq (runN 1 4161 (2654435761 * 11400714785074694797 ^ 22730 % 18446744073709551616))
    (2654435761 * 11400714785074694797 ^ 34068 % 18446744073709551616) = true := by decide +kernel

theorem run3 : Nat.beq (runN 3 4161 (2654435761 * 11400714785074694797 ^ 34068 % 18446744073709551616))
    (2654435761 * 11400714785074694797 ^ 68019 % 18446744073709551616) = true := by decide +kernel

/-! ### The meaning of the evaluation -/

theorem walkN_stop {len modulo p : Nat} (h : len ≤ p) (fuel s : Nat) : walkN len modulo fuel p s = s := by
  have hb : Nat.ble len p = true := Nat.ble_eq.mpr h
  cases fuel with
  | zero => show cond (Nat.ble len p) s 0 = s; rw [hb]; rfl
  | succ f => show cond (Nat.ble len p) s _ = s; rw [hb]; rfl

theorem walkN_succ {len modulo p : Nat} (h : p < len) (fuel s : Nat) : walkN len modulo (fuel + 1) p s =
    walkN len modulo fuel (p + s * 11400714785074694797 % 18446744073709551616 / 1099511627776 % modulo)
      (s * 11400714785074694797 % 18446744073709551616) := by
  have hb : Nat.ble len p = false := by
    rw [← Bool.not_eq_true, Nat.ble_eq]; omega
  show cond (Nat.ble len p) s (force _ fun s => force _ fun p => walkN len modulo fuel p s) = _
  rw [hb, cond_false, force_eq, force_eq]

theorem walkN_zero {len modulo p : Nat} (h : p < len) (s : Nat) : walkN len modulo 0 p s = 0 := by
  have hb : Nat.ble len p = false := by
    rw [← Bool.not_eq_true, Nat.ble_eq]; omega
  show cond (Nat.ble len p) s 0 = 0
  rw [hb, cond_false]

theorem rand_toNat (rnd : W64) : (rand rnd).2.toNat = rnd.toNat * 11400714785074694797 % 18446744073709551616 := by
  have h : (rand rnd).2 = rnd * PRIME64 := rfl
  rw [h, BitVec.toNat_mul]
  rfl

theorem walkN_walk {len : Nat} : ∀ (fuel p : Nat) (rnd r : W64),
    walkN len (if len > 2 then len else 2) fuel p rnd.toNat = r.toNat → r.toNat ≠ 0 → walk len fuel p rnd = some r := by
  intro fuel
  induction fuel with
  | zero =>
    intro p rnd r h hr
    unfold walk
    by_cases hlt : p < len
    · rw [walkN_zero hlt] at h
      exact absurd h.symm hr
    · rw [walkN_stop (by omega)] at h
      rw [if_neg hlt, BitVec.eq_of_toNat_eq h]
  | succ fuel ih =>
    intro p rnd r h hr
    unfold walk
    by_cases hlt : p < len
    · rw [if_pos hlt]
      rw [walkN_succ hlt, ← rand_toNat] at h
      simp only
      rw [rand_number]
      have e : (1099511627776 : Nat) = 2 ^ 40 := by norm_num
      rw [e] at h
      generalize (rand rnd).2.toNat / 2 ^ 40 % (if len > 2 then len else 2) = l at h ⊢
      by_cases hl : p + l > len
      · rw [walkN_stop (by omega)] at h
        rw [if_pos hl]
        unfold walk
        rw [if_neg (by omega), BitVec.eq_of_toNat_eq h]
      · rw [if_neg hl]
        exact ih _ _ _ h hr
    · rw [walkN_stop (by omega)] at h
      rw [if_neg hlt, BitVec.eq_of_toNat_eq h]

theorem walkN_null (len modulo : Nat) : ∀ fuel p : Nat, walkN len modulo fuel p 0 = 0 := by
  intro fuel
  induction fuel with
  | zero =>
    intro p
    by_cases h : p < len
    · exact walkN_zero h 0
    · exact walkN_stop (by omega) 0 0
  | succ fuel ih =>
    intro p
    by_cases h : p < len
    · rw [walkN_succ h, Nat.zero_mul, Nat.zero_mod]; exact ih _
    · exact walkN_stop (by omega) _ 0

theorem walkN_lt (len modulo : Nat) : ∀ fuel p s : Nat, s < 2 ^ 64 → walkN len modulo fuel p s < 2 ^ 64 := by
  intro fuel
  induction fuel with
  | zero =>
    intro p s hs
    by_cases h : p < len
    · rw [walkN_zero h]; decide
    · rw [walkN_stop (by omega)]; exact hs
  | succ fuel ih =>
    intro p s hs
    by_cases h : p < len
    · rw [walkN_succ h]
      exact ih _ _ (Nat.mod_lt _ (by decide))
    · rw [walkN_stop (by omega)]; exact hs

/-- The states of one generator through tests of these lengths. -/
def walkList : W64 → List Nat → Option W64
  | rnd, [] => some rnd
  | rnd, len :: lens => (walk len (roundsFor len) 0 rnd).bind fun rnd => walkList rnd lens

theorem walkList_append (l1 l2 : List Nat) (rnd : W64) :
    walkList rnd (l1 ++ l2) = (walkList rnd l1).bind fun rnd => walkList rnd l2 := by
  induction l1 generalizing rnd with
  | nil => rfl
  | cons len l ih =>
    simp only [List.cons_append, walkList, Option.bind_assoc]
    congr 1
    funext r
    exact ih r

/-- The tests of one length. -/
def againN (len m : Nat) : Nat → Nat :=
  Nat.rec (motive := fun _ => Nat → Nat) (fun s => s)
    (fun _ again s => force (walkN len (cond (Nat.ble len 2) 2 len) 100 0 s) again) m

theorem againN_succ (len m s : Nat) :
    againN len (m + 1) s = againN len m (walkN len (if len > 2 then len else 2) 100 0 s) := by
  have e : cond (Nat.ble len 2) 2 len = if len > 2 then len else 2 := by
    by_cases h : len > 2
    · rw [if_pos h, show Nat.ble len 2 = false by rw [← Bool.not_eq_true, Nat.ble_eq]; omega, cond_false]
    · rw [if_neg h, show Nat.ble len 2 = true by rw [Nat.ble_eq]; omega, cond_true]
  rw [← e]
  show force _ (againN len m) = _
  rw [force_eq]

theorem againN_null (len m : Nat) : againN len m 0 = 0 := by
  induction m with
  | zero => rfl
  | succ m ih => rw [againN_succ, walkN_null, ih]

theorem walk_empty (fuel p : Nat) (rnd : W64) : walk 0 fuel p rnd = some rnd := by
  unfold walk
  rw [if_neg (Nat.not_lt_zero p)]

theorem walk_rounds {len R : Nat} (h : 100 ≤ R ∨ len = 0) {rnd r : W64} (hw : walk len 100 0 rnd = some r) :
    walk len R 0 rnd = some r := by
  rcases h with h | rfl
  · exact walk_mono _ h hw
  · rw [walk_empty] at hw ⊢
    exact hw

theorem again_walk (len m : Nat) (hm : 100 ≤ roundsFor len ∨ len = 0) : ∀ rnd r : W64, againN len m rnd.toNat = r.toNat →
    r.toNat ≠ 0 → walkList rnd (List.replicate m len) = some r := by
  induction m with
  | zero =>
    intro rnd r h _
    rw [List.replicate_zero, walkList, BitVec.eq_of_toNat_eq h]
  | succ m ih =>
    intro rnd r h hr
    rw [againN_succ] at h
    obtain ⟨r1, hr1⟩ : ∃ r1 : W64, r1.toNat = walkN len (if len > 2 then len else 2) 100 0 rnd.toNat :=
      ⟨BitVec.ofNat 64 _, by
        rw [BitVec.toNat_ofNat]; exact Nat.mod_eq_of_lt (walkN_lt _ _ _ _ _ rnd.isLt)⟩
    rw [← hr1] at h
    have h0 : r1.toNat ≠ 0 := fun h0 => hr (by rw [← h, h0, againN_null])
    have hw := walkN_walk 100 0 rnd r1 hr1.symm h0
    have hw' := walk_rounds hm hw
    rw [List.replicate_succ, walkList, hw', Option.bind_some]
    exact ih r1 r h hr

theorem runN_succ (m n s : Nat) : runN m (n + 1) s = runN m n (againN (4160 - n) m s) := by
  show force _ (runN m n) = _
  rw [force_eq]
  rfl

theorem runN_null (m n : Nat) : runN m n 0 = 0 := by
  induction n with
  | zero => rfl
  | succ n ih => rw [runN_succ, againN_null, ih]

theorem againN_lt (len : Nat) : ∀ (m s : Nat), s < 2 ^ 64 → againN len m s < 2 ^ 64
  | 0, s, h => h
  | m + 1, s, h => by rw [againN_succ]; exact againN_lt len m _ (walkN_lt _ _ _ _ _ h)

theorem rounds_enough (len : Nat) : 100 ≤ roundsFor len ∨ len = 0 := by
  unfold roundsFor
  rcases Nat.eq_zero_or_pos len with h | h
  · exact Or.inr h
  · exact Or.inl (by nlinarith)

theorem run_walk (m : Nat) : ∀ (n : Nat) (rnd r : W64), n ≤ 4161 → runN m n rnd.toNat = r.toNat → r.toNat ≠ 0 →
    walkList rnd ((List.range' (4161 - n) n).flatMap fun len => List.replicate m len) = some r := by
  intro n
  induction n with
  | zero =>
    intro rnd r _ h _
    rw [List.range'_zero, List.flatMap_nil, walkList, BitVec.eq_of_toNat_eq h]
  | succ n ih =>
    intro rnd r hn h hr
    rw [runN_succ] at h
    obtain ⟨r1, hr1⟩ : ∃ r1 : W64, r1.toNat = againN (4160 - n) m rnd.toNat :=
      ⟨BitVec.ofNat 64 _, by
        rw [BitVec.toNat_ofNat]; exact Nat.mod_eq_of_lt (againN_lt _ _ _ rnd.isLt)⟩
    rw [← hr1] at h
    have h0 : r1.toNat ≠ 0 := fun h0 => hr (by rw [← h, h0, runN_null])
    rw [List.range'_succ, List.flatMap_cons, walkList_append, show 4161 - (n + 1) = 4160 - n by omega,
      again_walk _ m (rounds_enough _) rnd r1 hr1.symm h0, Option.bind_some, show 4160 - n + 1 = 4161 - n by omega]
    exact ih r1 r (by omega) h hr

theorem computeRandSeed_toNat (k : Nat) :
    (computeRandSeed k).toNat = 2654435761 * 11400714785074694797 ^ k % 18446744073709551616 := by
  induction k with
  | zero => rfl
  | succ k ih => rw [computeRandSeed, rand_toNat, ih, pow_succ, ← mul_assoc, Nat.mod_mul_mod]

theorem seed_pos (k : Nat) : (computeRandSeed k).toNat ≠ 0 := by
  have : (computeRandSeed k).toNat % 2 = 1 := by
    induction k with
    | zero => rfl
    | succ n ih => exact rand_odd ih
  omega

theorem draws {m a b : Nat} (h : Nat.beq (runN m 4161 (2654435761 * 11400714785074694797 ^ a % 18446744073709551616))
    (2654435761 * 11400714785074694797 ^ b % 18446744073709551616) = true) :
    walkList (computeRandSeed a) ((List.range 4161).flatMap fun len => List.replicate m len) =
      some (computeRandSeed b) := by
  have := run_walk m 4161 (computeRandSeed a) (computeRandSeed b) (Nat.le_refl _)
    (by rw [computeRandSeed_toNat, computeRandSeed_toNat]; exact Nat.eq_of_beq_eq_true h) (seed_pos b)
  rwa [Nat.sub_self, ← List.range_eq_range'] at this

attribute [local irreducible] runN walkList computeRandSeed List.range

theorem draws1 : walkList (computeRandSeed 0) ((List.range 4161).flatMap fun len => List.replicate 2 len) =
    some (computeRandSeed 22730) := draws (m := 2) (a := 0) (b := 22730) run1

theorem draws2 : walkList (computeRandSeed 22730) ((List.range 4161).flatMap fun len => List.replicate 1 len) =
    some (computeRandSeed 34068) := draws (m := 1) (a := 22730) (b := 34068) run2

theorem draws3 : walkList (computeRandSeed 34068) ((List.range 4161).flatMap fun len => List.replicate 3 len) =
    some (computeRandSeed 68019) := draws (m := 3) (a := 34068) (b := 68019) run3

end XXH.SanityP
