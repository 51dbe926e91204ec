import Verif.Props.CollideTerms
import Mathlib.Data.List.Dedup
import Mathlib.Tactic.Linarith
import Mathlib.Tactic.NormNum
import Mathlib.Tactic.Positivity
import Mathlib.Tactic.FieldSimp
import Mathlib.Tactic.Ring
import Mathlib.Algebra.Order.Floor.Ring
import Mathlib.Data.Nat.Choose.Bounds
/-!
The collision tester: counting repeated values, and the arithmetic of `double`.
-/
namespace XXH.Proof.Collide
open XXH.Model XXH.Model.Collide XXH.CollideTerms
open Bench (Run Fp)

/-! ### Repeated values -/

section count
variable {α : Type} [DecidableEq α]

/-- How many have been there before. -/
def coll (l : List α) : ℕ := l.length - l.dedup.length

theorem dedup_le (l : List α) : l.dedup.length ≤ l.length := (List.dedup_sublist l).length_le

theorem coll_perm {l l' : List α} (h : l.Perm l') : coll l = coll l' := by
  rw [coll, coll, h.length_eq, h.dedup.length_eq]

theorem coll_map {β : Type} [DecidableEq β] {f : α → β} (hf : Function.Injective f) (l : List α) :
    coll (l.map f) = coll l := by
  rw [coll, coll, List.dedup_map_of_injective hf, List.length_map, List.length_map]

theorem coll_split (p : α → Bool) (l : List α) :
    coll l = coll (l.filter p) + coll (l.filter fun x => !p x) := by
  have h1 : l.length = (l.filter p).length + (l.filter fun x => !p x).length := by
    simpa using List.length_eq_length_filter_add (l := l) p
  have h2 : l.dedup.length = (l.dedup.filter p).length + (l.dedup.filter fun x => !p x).length := by
    simpa using List.length_eq_length_filter_add (l := l.dedup) p
  have key : ∀ q : α → Bool, (l.filter q).dedup.length = (l.dedup.filter q).length := by
    intro q
    apply List.Perm.length_eq
    rw [List.perm_ext_iff_of_nodup (List.nodup_dedup _) ((List.nodup_dedup l).filter _)]
    intro x
    simp
  have h3 := dedup_le (l.filter p)
  have h4 := dedup_le (l.filter fun x => !p x)
  simp only [coll]
  rw [h1, h2, ← key, ← key]
  omega

theorem coll_nodup {l : List α} (h : l.Nodup) : coll l = 0 := by rw [coll, h.dedup, Nat.sub_self]

/-- Values that occur once can be dropped. -/
theorem coll_filter {p : α → Bool} {l : List α} (h : ∀ x ∈ l, p x = false → l.count x = 1) :
    coll (l.filter p) = coll l := by
  rw [coll_split p l]
  have : (l.filter fun x => !p x).Nodup := by
    rw [List.nodup_iff_count_le_one]
    intro x
    by_cases hx : x ∈ l.filter fun x => !p x
    · have := List.mem_filter.1 hx
      rw [← h x this.1 (by simpa using this.2)]
      exact List.filter_sublist.count_le _
    · rw [List.count_eq_zero_of_not_mem hx]; omega
  rw [coll_nodup this, Nat.add_zero]

end count

/-- Neighbours of a sorted list. -/
theorem countEqual_sorted {α : Type} {f : α → ℕ} {eq : α → α → Bool} (heq : ∀ a b, eq b a = decide (f a = f b))
    {l : List α} (h : l.Pairwise (f · ≤ f ·)) : countEqual eq l = coll (l.map f) := by
  induction l with
  | nil => rfl
  | cons a l ih =>
    cases l with
    | nil => simp [countEqual, coll]
    | cons b l =>
      obtain ⟨h1, h2⟩ := List.pairwise_cons.1 h
      have ih := ih h2
      simp only [countEqual, heq]
      rw [ih]
      have hle := dedup_le ((b :: l).map f)
      by_cases hab : f a = f b
      · have hmem : f a ∈ (b :: l).map f := by simp [hab]
        simp only [coll] at *
        rw [show (a :: b :: l).map f = f a :: (b :: l).map f from rfl, List.dedup_cons_of_mem hmem]
        simp only [hab, decide_true, if_true, List.length_cons] at *
        omega
      · have hmem : f a ∉ (b :: l).map f := by
          intro hm
          have hlt : f a < f b := lt_of_le_of_ne (h1 b (by simp)) hab
          rw [List.mem_map] at hm
          obtain ⟨x, hx, hxa⟩ := hm
          rcases List.mem_cons.1 hx with rfl | hx
          · omega
          · have := (List.pairwise_cons.1 h2).1 x hx
            omega
        simp only [coll] at *
        rw [show (a :: b :: l).map f = f a :: (b :: l).map f from rfl, List.dedup_cons_of_notMem hmem]
        simp only [hab, decide_false, Bool.false_eq_true, if_false, List.length_cons]
        omega

/-! ### Numbers -/

theorem rnd_nat {fp : Fp} (h : FpOK fp) {n : ℕ} (hn : n ≤ 2^53) : fp.rnd n = n := by
  have := h.exact n hn 0 (by omega)
  simpa using this

/-- Rounding goes wrong by little. -/
theorem rnd_near {fp : Fp} (h : FpOK fp) {q : ℚ} (hq : 1 / 2^1000 ≤ q) :
    q * (1 - 1/2^53) ≤ fp.rnd q ∧ fp.rnd q ≤ q * (1 + 1/2^53) := by
  have h0 : (0 : ℚ) ≤ q := le_trans (by positivity) hq
  have := h.near q (by rwa [abs_of_nonneg h0])
  rw [abs_of_nonneg h0, abs_le] at this
  constructor <;> nlinarith [this.1, this.2]

theorem tiny {q : ℚ} (h : 1 / 2^900 ≤ q) : 1 / 2^1000 ≤ q := by
  refine le_trans ?_ h
  exact one_div_le_one_div_of_le (by positivity) (pow_le_pow_right₀ (by norm_num) (by norm_num))

theorem ge_one {q : ℚ} (h : 1 ≤ q) : 1 / 2^1000 ≤ q :=
  le_trans (by rw [div_le_one (by positivity)]; exact one_le_pow₀ (by norm_num)) h

theorem power_two {fp : Fp} (h : FpOK fp) {p : ℕ} (hp : p ≤ 900) : power fp 2 p = 2^p := by
  have h2 : fp.rnd ((2 : W64).toNat : ℚ) = 2 := by
    have := rnd_nat h (n := 2) (by norm_num)
    exact_mod_cast this
  induction p with
  | zero => rfl
  | succ p ih =>
    have := ih (by omega)
    simp only [power] at this ⊢
    rw [List.range_succ, List.foldl_append, this]
    simp only [List.foldl_cons, List.foldl_nil]
    rw [h2]
    have := h.exact 1 (by norm_num) (p + 1) hp
    rw [← pow_succ]
    simpa using this

/-- The step of `Cnm`. -/
def cnmStep (fp : Fp) (n : ℕ) (acc : ℚ) (i : ℕ) : ℚ := fp.rnd (fp.rnd (acc * ((n - i : ℕ) : ℚ)) / ((1 + i : ℕ) : ℚ))

theorem cnmStep_exact {fp : Fp} (h : FpOK fp) {n i : ℕ} (hb : n.choose (i + 1) * (i + 1) ≤ 2^53) :
    cnmStep fp n (n.choose i) i = n.choose (i + 1) := by
  have he := Nat.choose_succ_right_eq n i
  have h1 : ((n.choose i : ℕ) : ℚ) * ((n - i : ℕ) : ℚ) = ((n.choose (i + 1) * (i + 1) : ℕ) : ℚ) := by
    rw [he]; push_cast; ring
  rw [cnmStep, h1, rnd_nat h hb]
  have h2 : ((n.choose (i + 1) * (i + 1) : ℕ) : ℚ) / ((1 + i : ℕ) : ℚ) = ((n.choose (i + 1) : ℕ) : ℚ) := by
    have : ((1 + i : ℕ) : ℚ) ≠ 0 := by positivity
    field_simp
    push_cast
    ring
  rw [h2]
  exact rnd_nat h (le_trans (Nat.le_mul_of_pos_right _ (by omega)) hb)

theorem cnm_fold {fp : Fp} (h : FpOK fp) {n m : ℕ} (hb : ∀ i < m, n.choose (i + 1) * (i + 1) ≤ 2^53) :
    (List.range m).foldl (cnmStep fp n) 1 = n.choose m := by
  induction m with
  | zero => simp
  | succ m ih =>
    rw [List.range_succ, List.foldl_append, ih (fun i hi => hb i (by omega))]
    exact cnmStep_exact h (hb m (by omega))

/-- The sets of 1 to `m` of `n`. -/
def upTo (n m : ℕ) : ℕ := ((List.range' 1 m).map fun k => n.choose k).sum

theorem upTo_succ (n m : ℕ) : upTo n (m + 1) = upTo n m + n.choose (m + 1) := by
  simp only [upTo]
  rw [List.range'_concat, List.map_append, List.sum_append]
  simp [Nat.add_comm]

theorem choose_le_upTo {n m k : ℕ} (h1 : 1 ≤ k) (h2 : k ≤ m) : n.choose k ≤ upTo n m := by
  induction m with
  | zero => omega
  | succ m ih =>
    rw [upTo_succ]
    rcases Nat.lt_or_ge m k with h | h
    · have : k = m + 1 := by omega
      subst this; omega
    · have := ih h; omega

theorem upTo_mono {n a b : ℕ} (h : a ≤ b) : upTo n a ≤ upTo n b := by
  induction b with
  | zero => have : a = 0 := by omega
            subst this; exact le_refl _
  | succ b ih =>
    rcases Nat.lt_or_ge b a with hb | hb
    · have : a = b + 1 := by omega
      subst this; exact le_refl _
    · have := ih hb; rw [upTo_succ]; omega

theorem choose_next {n m : ℕ} (hn : n < 2^31) (ha : upTo n m < 2^40) : n.choose (m + 1) * (m + 1) < 2^62 := by
  have he := Nat.choose_succ_right_eq n m
  rw [he]
  rcases Nat.lt_or_ge m 2 with hm | hm
  · obtain rfl | rfl : m = 0 ∨ m = 1 := by omega
    · simp only [Nat.choose_zero_right]; omega
    · simp only [Nat.choose_one_right]
      calc n * (n - 1) ≤ (2^31 - 1) * (2^31 - 1) := Nat.mul_le_mul (by omega) (by omega)
        _ < _ := by norm_num
  · have h2 := choose_le_upTo (n := n) (m := m) (k := 2) (by omega) hm
    have hm' := choose_le_upTo (n := n) (m := m) (k := m) (by omega) (le_refl _)
    rw [Nat.choose_two_right] at h2
    have hn21 : n < 2^21 := by
      by_contra hc
      have : 2^21 * (2^21 - 1) ≤ n * (n - 1) := Nat.mul_le_mul (by omega) (by omega)
      omega
    calc n.choose m * (n - m) ≤ 2^40 * (n - m) := Nat.mul_le_mul_right _ (by omega)
      _ ≤ 2^40 * 2^21 := Nat.mul_le_mul_left _ (by omega)
      _ < _ := by norm_num

theorem Cnm_eq {fp : Fp} {n m : ℕ} (h0 : 0 < m) (h : m ≤ n) :
    Cnm fp n m = .done ((List.range m).foldl (cnmStep fp n) 1) := by
  have h1 : check (0 < n) = .done () := if_pos (by omega)
  have h2 : check (0 < m) = .done () := if_pos h0
  have h3 : check (m ≤ n) = .done () := if_pos h
  unfold Cnm
  rw [h1, h2, h3]
  rfl

/-- The value added for `m + 1` bits: exact, or more than what is asked for anyway. -/
theorem cnm_next {fp : Fp} (h : FpOK fp) {n m : ℕ} (hn : n < 2^31) (hm : m < 14) (hmn : m < n)
    (ha : upTo n m < 2^40) :
    ∃ w : W64, Run.of (toU64 ((List.range (m + 1)).foldl (cnmStep fp n) 1)) = .done w ∧
      (w.toNat = n.choose (m + 1) ∨ 2^40 ≤ w.toNat ∧ w.toNat < 2^63 ∧ 2^40 ≤ n.choose (m + 1)) := by
  have hb : ∀ i < m, n.choose (i + 1) * (i + 1) ≤ 2^53 := by
    intro i hi
    have := choose_le_upTo (n := n) (m := m) (k := i + 1) (by omega) (by omega)
    calc n.choose (i + 1) * (i + 1) ≤ 2^40 * 14 := Nat.mul_le_mul (by omega) (by omega)
      _ ≤ _ := by norm_num
  have hnext := choose_next hn ha
  have htop : ∀ x : ℕ, x < 2^64 → toU64 (x : ℚ) = some (BitVec.ofNat 64 x) := by
    intro x hx
    have h1 : (-1 : ℚ) < x ∧ (x : ℚ) < 2^64 := ⟨by have : (0 : ℚ) ≤ x := Nat.cast_nonneg x
                                                   linarith, by exact_mod_cast hx⟩
    rw [toU64, if_pos h1]
    congr 2
  have hle : n.choose (m + 1) ≤ n.choose (m + 1) * (m + 1) := Nat.le_mul_of_pos_right _ (by omega)
  by_cases hx : n.choose (m + 1) * (m + 1) ≤ 2^53
  · rw [cnm_fold h (m := m + 1) (fun i hi => by
      rcases Nat.lt_or_ge i m with hi' | hi'
      · exact hb i hi'
      · have : i = m := by omega
        subst this; exact hx)]
    refine ⟨BitVec.ofNat 64 (n.choose (m + 1)), ?_, .inl ?_⟩
    · rw [htop _ (by omega)]; rfl
    · rw [BitVec.toNat_ofNat, Nat.mod_eq_of_lt (by omega)]
  · push Not at hx
    rw [List.range_succ, List.foldl_append, cnm_fold h hb]
    simp only [List.foldl_cons, List.foldl_nil]
    have he := Nat.choose_succ_right_eq n m
    have h1 : ((n.choose m : ℕ) : ℚ) * ((n - m : ℕ) : ℚ) = ((n.choose (m + 1) * (m + 1) : ℕ) : ℚ) := by
      rw [he]; push_cast; ring
    rw [cnmStep, h1]
    have hbig : 2^49 ≤ n.choose (m + 1) := by
      by_contra hc
      have : n.choose (m + 1) * (m + 1) ≤ (2^49 - 1) * 14 := Nat.mul_le_mul (by omega) (by omega)
      omega
    generalize hX : n.choose (m + 1) * (m + 1) = X at *
    have hX1 : (2 : ℚ)^53 < X := by exact_mod_cast hx
    have hX2 : (X : ℚ) < 2^62 := by exact_mod_cast hnext
    obtain ⟨r1, r2⟩ := rnd_near h (q := X) (ge_one (by linarith))
    generalize fp.rnd (X : ℚ) = y at *
    have hd : (1 : ℚ) ≤ ((1 + m : ℕ) : ℚ) := by push_cast; have : (0 : ℚ) ≤ m := Nat.cast_nonneg m
                                                linarith
    have hd2 : ((1 + m : ℕ) : ℚ) ≤ 14 := by exact_mod_cast (by omega : 1 + m ≤ 14)
    have hz1 : (2 : ℚ)^48 ≤ y / ((1 + m : ℕ) : ℚ) := by
      rw [le_div_iff₀ (by linarith)]
      nlinarith
    have hz2 : y / ((1 + m : ℕ) : ℚ) ≤ 2^62 * (1 + 1/2^53) := by
      rw [div_le_iff₀ (by linarith)]
      nlinarith
    obtain ⟨s1, s2⟩ := rnd_near h (q := y / ((1 + m : ℕ) : ℚ)) (ge_one (by linarith))
    generalize y / ((1 + m : ℕ) : ℚ) = z at *
    generalize fp.rnd z = v at *
    have hv1 : (2 : ℚ)^47 ≤ v := by nlinarith
    have hv2 : v < 2^63 := by nlinarith
    have hin : -1 < v ∧ v < 2^64 := ⟨by linarith, by linarith⟩
    have hf1 : (2 : ℤ)^47 ≤ ⌊v⌋ := Int.le_floor.2 (by push_cast; exact hv1)
    have hf2 : ⌊v⌋ < (2 : ℤ)^63 := Int.floor_lt.2 (by push_cast; exact hv2)
    have hfl : v.floor = ⌊v⌋ := rfl
    refine ⟨BitVec.ofNat 64 v.floor.toNat, by rw [toU64, if_pos hin]; rfl, .inr ?_⟩
    rw [BitVec.toNat_ofNat, hfl]
    generalize ⌊v⌋ = f at *
    rw [Nat.mod_eq_of_lt (by omega)]
    omega

theorem combosLoop_eq {fp : Fp} (h : FpOK fp) {n : ℕ} (hn : n < 2^31) (hn16 : 16 ≤ n) {htotal : W64}
    (ht : htotal.toNat ≤ 2^40) {fuel m : ℕ} (hf : m + fuel = 15) (hm : m ≤ 14) {acc : W64}
    (hacc : acc.toNat = upTo n m) :
    combosLoop fp n htotal fuel m acc = .done (decide (htotal.toNat ≤ upTo n 14)) := by
  induction fuel generalizing m acc with
  | zero => omega
  | succ fuel ih =>
    simp only [combosLoop]
    have hmono := upTo_mono (n := n) (a := m) (b := 14) hm
    by_cases hlt : acc < htotal
    · rw [if_pos hlt]
      have hlt' : acc.toNat < htotal.toNat := hlt
      by_cases hm1 : SPARSE_LEVEL_MAX ≤ m + 1
      · rw [if_pos hm1]
        have : m = 14 := by unfold SPARSE_LEVEL_MAX at hm1; omega
        subst this
        rw [decide_eq_false (by omega)]
      · rw [if_neg hm1]
        have hm14 : m < 14 := by unfold SPARSE_LEVEL_MAX at hm1; omega
        rw [Cnm_eq (by omega) (by omega)]
        obtain ⟨w, hw, hval⟩ := cnm_next h hn hm14 (by omega) (by rw [← hacc]; omega)
        show (Run.of (toU64 _) >>= fun c => combosLoop fp n htotal fuel (m + 1) (acc + c)) = _
        rw [hw]
        show combosLoop fp n htotal fuel (m + 1) (acc + w) = _
        rcases hval with hval | ⟨h1, h2, h3⟩
        · have hmono' := upTo_mono (n := n) (a := m + 1) (b := 14) (by omega)
          apply ih (by omega) (by omega)
          rw [BitVec.toNat_add, hval, hacc, ← upTo_succ]
          apply Nat.mod_eq_of_lt
          have hle : n.choose (m + 1) < 2^62 := lt_of_le_of_lt (Nat.le_mul_of_pos_right _ (by omega))
            (choose_next hn (m := m) (by rw [← hacc]; omega))
          rw [upTo_succ]
          omega
        · have hs : (acc + w).toNat = acc.toNat + w.toNat := by
            rw [BitVec.toNat_add]; exact Nat.mod_eq_of_lt (by omega)
          have hge : ¬ acc + w < htotal := by
            rw [BitVec.lt_def, hs]; omega
          have hup := upTo_mono (n := n) (a := m + 1) (b := 14) (by omega)
          rw [upTo_succ] at hup
          cases fuel with
          | zero => omega
          | succ fuel =>
            simp only [combosLoop]
            rw [if_neg hge, decide_eq_true (by omega)]
    · rw [if_neg hlt]
      have hge : htotal.toNat ≤ acc.toNat := by rw [BitVec.lt_def] at hlt; omega
      rw [decide_eq_true (by omega)]

/-- `enoughCombos` is exact. -/
theorem enoughCombos_eq {e : Env} (he : EnvOK e) {size : ℕ} (h2 : 2 ≤ size) (hs : 8 * size < 2^31 - 1) {htotal : W64}
    (ht : htotal.toNat ≤ 2^40) : enoughCombos e size htotal = .done (decide (htotal.toNat ≤ reach size)) := by
  have hsz : e.cfg.size (size * 8) = 8 * size := by
    rw [Cfg.size, he.size, Nat.mod_eq_of_lt (by omega)]; omega
  have hc : check (8 * size < 2^31 - 1) = .done () := if_pos hs
  unfold enoughCombos
  rw [if_neg (by omega)]
  simp only [hsz]
  rw [hc]
  exact combosLoop_eq he.fp (by omega) (by omega) ht rfl (by omega) rfl

/-- The estimate, up to one percent. -/
theorem estimate_near {fp : Fp} (h : FpOK fp) {n : W64} (h2 : 2 ≤ n.toNat) (hn : n.toNat ≤ 2^53) {b : ℕ}
    (hb : b ≤ 128) :
    99 / 100 * ((n.toNat : ℚ) * (n.toNat - 1) / 2^(b + 1)) ≤ estimateNbCollisions fp n b ∧
      estimateNbCollisions fp n b ≤ 101 / 100 * ((n.toNat : ℚ) * (n.toNat - 1) / 2^(b + 1)) := by
  have hsub : (n - 1).toNat = n.toNat - 1 := by
    rw [BitVec.toNat_sub]
    show (2^64 - 1 + n.toNat) % 2^64 = _
    omega
  have hcast : ((n.toNat - 1 : ℕ) : ℚ) = (n.toNat : ℚ) - 1 := by
    rw [Nat.cast_sub (by omega)]; simp
  rw [estimateNbCollisions, power_two h (by omega), hsub, rnd_nat h hn, rnd_nat h (by omega : n.toNat - 1 ≤ 2^53), hcast]
  have hx : (2 : ℚ) ≤ n.toNat := by exact_mod_cast h2
  have hx1 : (2 : ℚ) ≤ (n.toNat : ℚ) * (n.toNat - 1) := by nlinarith
  generalize (n.toNat : ℚ) * (n.toNat - 1) = X at *
  obtain ⟨r1, r2⟩ := rnd_near h (q := X) (ge_one (by linarith))
  generalize fp.rnd X = y at *
  have hp : (0 : ℚ) < 2^(b + 1) := by positivity
  have hy : 1 ≤ y := by nlinarith
  have ht : 1 / 2^1000 ≤ y / 2^(b + 1) := by
    refine tiny ?_
    refine le_trans (one_div_le_one_div_of_le hp (pow_le_pow_right₀ (by norm_num) (by omega))) ?_
    exact div_le_div_of_nonneg_right hy hp.le
  obtain ⟨s1, s2⟩ := rnd_near h ht
  have d1 : X / 2^(b + 1) * (1 - 1/2^53) ≤ y / 2^(b + 1) := by
    rw [div_mul_eq_mul_div]; exact div_le_div_of_nonneg_right r1 hp.le
  have d2 : y / 2^(b + 1) ≤ X / 2^(b + 1) * (1 + 1/2^53) := by
    rw [div_mul_eq_mul_div]; exact div_le_div_of_nonneg_right r2 hp.le
  have h0 : 0 ≤ X / 2^(b + 1) := div_nonneg (by linarith) hp.le
  generalize X / 2^(b + 1) = q at *
  generalize y / 2^(b + 1) = z at *
  generalize fp.rnd z = v at *
  constructor <;> nlinarith

theorem estimate_small {fp : Fp} (h : FpOK fp) {n : W64} (hn : n.toNat ≤ 2^35) {b : ℕ} (hb : b ≤ 128)
    (he : 18 < estimateNbCollisions fp n b) : b ≤ 64 := by
  by_contra hc
  rcases Nat.lt_or_ge n.toNat 2 with h2 | h2
  · have h0 : fp.rnd 0 = 0 := by simpa using rnd_nat h (n := 0) (by norm_num)
    obtain h2 | h2 : n.toNat = 0 ∨ n.toNat = 1 := by omega
    · simp [estimateNbCollisions, h2, h0] at he
      linarith
    · have : n = 1 := BitVec.eq_of_toNat_eq h2
      subst this
      simp [estimateNbCollisions, h0] at he
      linarith
  · have := (estimate_near h h2 (by omega) hb).2
    have hx : (n.toNat : ℚ) ≤ 2^35 := by exact_mod_cast hn
    have hx2 : (2 : ℚ) ≤ n.toNat := by exact_mod_cast h2
    have hp : (2 : ℚ)^66 ≤ 2^(b + 1) := pow_le_pow_right₀ (by norm_num) (by omega)
    have hq : (n.toNat : ℚ) * (n.toNat - 1) / 2^(b + 1) ≤ 16 := by
      rw [div_le_iff₀ (by linarith)]
      nlinarith
    linarith

theorem selectLoop_eq {fp : Fp} {b K : ℕ} {target : ℚ} (hK : K ≤ 40)
    (h1 : ∀ j < K, estimateNbCollisions fp (BitVec.ofNat 64 (24 * 2^j)) b < target)
    (h2 : ¬ estimateNbCollisions fp (BitVec.ofNat 64 (24 * 2^K)) b < target) {fuel i : ℕ} (hi : i ≤ K)
    (hf : K < i + fuel) :
    selectLoop fp b target fuel (BitVec.ofNat 64 (24 * 2^i)) = .done (BitVec.ofNat 64 (24 * 2^K)) := by
  induction fuel generalizing i with
  | zero => omega
  | succ fuel ih =>
    simp only [selectLoop]
    rcases Nat.lt_or_ge i K with h | h
    · rw [if_pos (h1 i h)]
      have : BitVec.ofNat 64 (24 * 2^i) * 2 = BitVec.ofNat 64 (24 * 2^(i + 1)) := by
        apply BitVec.eq_of_toNat_eq
        simp only [BitVec.toNat_mul, BitVec.toNat_ofNat]
        rw [Nat.pow_succ]
        show 24 * 2^i % 2^64 * 2 % 2^64 = _
        omega
      rw [this]
      exact ih (by omega) (by omega)
    · have : i = K := by omega
      subst this
      rw [if_neg h2]

theorem select_eq {fp : Fp} (h : FpOK fp) {b : ℕ} (hb : b ∈ [32, 64, 128]) :
    select_nbh fp b = .done (BitVec.ofNat 64 (standard b)) := by
  have hnat : ∀ j ≤ 30, (BitVec.ofNat 64 (24 * 2^j)).toNat = 24 * 2^j := by
    intro j hj
    have : 2^j ≤ 2^30 := Nat.pow_le_pow_right (by norm_num) hj
    rw [BitVec.toNat_ofNat, Nat.mod_eq_of_lt (by omega)]
  have hest : ∀ j ≤ 30, ∀ c ≤ 128,
      99 / 100 * ((24 * 2^j : ℚ) * (24 * 2^j - 1) / 2^(c + 1)) ≤ estimateNbCollisions fp (BitVec.ofNat 64 (24 * 2^j)) c ∧
      estimateNbCollisions fp (BitVec.ofNat 64 (24 * 2^j)) c ≤ 101 / 100 * ((24 * 2^j : ℚ) * (24 * 2^j - 1) / 2^(c + 1)) := by
    intro j hj c hc
    have h1 : 2^j ≤ 2^30 := Nat.pow_le_pow_right (by norm_num) hj
    have h2 : 1 ≤ 2^j := Nat.one_le_two_pow
    have := estimate_near h (n := BitVec.ofNat 64 (24 * 2^j)) (by rw [hnat j hj]; omega) (by rw [hnat j hj]; omega) hc
    rw [hnat j hj] at this
    push_cast at this
    exact this
  have h64 : selectLoop fp 64 17 64 24 = .done (BitVec.ofNat 64 (24 * 2^30)) := by
    refine selectLoop_eq (K := 30) (i := 0) (by norm_num) ?_ ?_ (by norm_num) (by norm_num)
    · intro j hj
      refine lt_of_le_of_lt (hest j (by omega) 64 (by norm_num)).2 ?_
      have hp : (2 : ℚ)^j ≤ 2^29 := pow_le_pow_right₀ (by norm_num) (by omega)
      have hp1 : (1 : ℚ) ≤ 2^j := one_le_pow₀ (by norm_num)
      generalize (2 : ℚ)^j = x at *
      have : 24 * x * (24 * x - 1) ≤ 24 * 2^29 * (24 * 2^29) := by nlinarith
      norm_num at this ⊢
      linarith
    · have := (hest 30 (by omega) 64 (by norm_num)).1
      norm_num at this ⊢
      linarith
  have h32 : selectLoop fp 32 81 64 24 = .done (BitVec.ofNat 64 (24 * 2^16)) := by
    refine selectLoop_eq (K := 16) (i := 0) (by norm_num) ?_ ?_ (by norm_num) (by norm_num)
    · intro j hj
      refine lt_of_le_of_lt (hest j (by omega) 32 (by norm_num)).2 ?_
      have hp : (2 : ℚ)^j ≤ 2^15 := pow_le_pow_right₀ (by norm_num) (by omega)
      have hp1 : (1 : ℚ) ≤ 2^j := one_le_pow₀ (by norm_num)
      generalize (2 : ℚ)^j = x at *
      have : 24 * x * (24 * x - 1) ≤ 24 * 2^15 * (24 * 2^15) := by nlinarith
      norm_num at this ⊢
      linarith
    · have := (hest 16 (by omega) 32 (by norm_num)).1
      norm_num at this ⊢
      linarith
  have e32 : select_nbh fp 32 = selectLoop fp 32 81 64 24 := by
    show selectLoop fp 32 (((145 - (32 : ℕ) * 2 : ℤ) : ℤ) : ℚ) 64 24 = _
    norm_num
  have e64 : select_nbh fp 64 = selectLoop fp 64 17 64 24 := by
    show selectLoop fp 64 (((145 - (64 : ℕ) * 2 : ℤ) : ℤ) : ℚ) 64 24 = _
    norm_num
  have e128 : select_nbh fp 128 = selectLoop fp 64 17 64 24 := by
    show selectLoop fp 64 (((145 - (64 : ℕ) * 2 : ℤ) : ℤ) : ℚ) 64 24 = _
    norm_num
  simp only [List.mem_cons, List.not_mem_nil, or_false] at hb
  rcases hb with rfl | rfl | rfl
  · rw [e32, h32]; rfl
  · rw [e64, h64]; rfl
  · rw [e128, h64]; rfl

end XXH.Proof.Collide
