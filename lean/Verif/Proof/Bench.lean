import Verif.Props.BenchTerms
import Verif.Proof.SelfTest
import Mathlib.Tactic.Linarith
import Mathlib.Tactic.NormNum
import Mathlib.Tactic.Positivity
import Mathlib.Tactic.FieldSimp
import Mathlib.Tactic.Ring
import Mathlib.Data.Int.Log
import Mathlib.Algebra.Order.Round
/-!
Lemmas about the benchmark: the arithmetic on `double`, the loop that measures, the choice of sizes.
-/
namespace XXH.Proof.Bench
open XXH.Model XXH.Model.Bench XXH.Props XXH.BenchTerms

/-! ### Arithmetic -/

theorem near_le {fp : Fp} (h : FpOK fp) {q : ℚ} (hq : q = 0 ∨ 1 / 2^1000 ≤ q) :
    q * (1 - 1/2^53) ≤ fp.rnd q ∧ fp.rnd q ≤ q * (1 + 1/2^53) := by
  have h0 : 0 ≤ q := by
    rcases hq with h | h
    · rw [h]
    · exact le_trans (by positivity) h
  have h1 := h.near q (by rw [abs_of_nonneg h0]; exact hq)
  rw [abs_of_nonneg h0, abs_le] at h1
  constructor <;> linarith [h1.1, h1.2]

theorem rnd_zero {fp : Fp} (h : FpOK fp) : fp.rnd 0 = 0 := by
  have h1 := near_le h (q := 0) (.inl rfl)
  linarith [h1.1, h1.2]

/-- An integer from 0 on as a `double`. -/
theorem rnd_nat {fp : Fp} (h : FpOK fp) (n : ℕ) :
    (n : ℚ) * (1 - 1/2^53) ≤ fp.rnd n ∧ fp.rnd n ≤ (n : ℚ) * (1 + 1/2^53) := by
  refine near_le h ?_
  rcases Nat.eq_zero_or_pos n with h0 | h0
  · exact .inl (by exact_mod_cast h0)
  · have h1 : (1 : ℚ) ≤ n := by exact_mod_cast h0
    refine .inr (le_trans ?_ h1)
    rw [div_le_one (by positivity)]
    exact one_le_pow₀ (by norm_num)

theorem tiny {a : ℚ} (k : ℕ) (hk : k ≤ 1000) (h : 1 / 2^k ≤ a) : 1 / 2^1000 ≤ a :=
  le_trans (one_div_le_one_div_of_le (by positivity) (pow_le_pow_right₀ (by norm_num) hk)) h

/-- The measured seconds per hash for at least one tick and one call. -/
theorem perHash {fp : Fp} (h : FpOK fp) {t P n : ℕ} (ht : 1 ≤ t) (hP : 1 ≤ P) (hP' : P ≤ 2^40) (hn : 1 ≤ n)
    (hn' : n ≤ 2^32) :
    ∃ q : ℚ, fp.div (fp.div (fp.ofInt t) (fp.ofInt P)) (fp.ofInt n) = .fin q ∧
      (t : ℚ) / (P * n) * (1 - 1/2^50) ≤ q ∧ q ≤ (t : ℚ) / (P * n) * (1 + 1/2^50) := by
  have ht1 : (1 : ℚ) ≤ t := by exact_mod_cast ht
  have hP1 : (1 : ℚ) ≤ P := by exact_mod_cast hP
  have hn1 : (1 : ℚ) ≤ n := by exact_mod_cast hn
  have hP2 : (P : ℚ) ≤ 2^40 := by exact_mod_cast hP'
  have hn2 : (n : ℚ) ≤ 2^32 := by exact_mod_cast hn'
  obtain ⟨a1, a2⟩ := rnd_nat h t
  obtain ⟨b1, b2⟩ := rnd_nat h P
  obtain ⟨c1, c2⟩ := rnd_nat h n
  have a0 := h.one t ht1
  have b0 := h.one P hP1
  have c0 := h.one n hn1
  simp only [Fp.ofInt, Int.cast_natCast]
  generalize fp.rnd t = t' at *
  generalize fp.rnd P = P' at *
  generalize fp.rnd n = n' at *
  have hs0 : 1 / 2^41 ≤ t' / P' := by
    rw [div_le_div_iff₀ (by norm_num) (by linarith)]
    nlinarith
  obtain ⟨d1, d2⟩ := near_le h (.inr (tiny 41 (by norm_num) hs0))
  have e1 : fp.div (.fin t') (.fin P') = .fin (fp.rnd (t' / P')) := by
    simp only [Fp.div]; rw [if_neg (by linarith)]
  rw [e1]
  generalize fp.rnd (t' / P') = s at *
  have hs1 : 1 / 2^42 ≤ s := by
    refine le_trans ?_ d1
    refine le_trans ?_ (mul_le_mul_of_nonneg_right hs0 (by norm_num))
    norm_num
  have hq0 : 1 / 2^75 ≤ s / n' := by
    rw [div_le_div_iff₀ (by norm_num) (by linarith)]
    rw [div_le_iff₀ (by norm_num)] at hs1
    nlinarith
  obtain ⟨f1, f2⟩ := near_le h (.inr (tiny 75 (by norm_num) hq0))
  have e2 : fp.div (.fin s) (.fin n') = .fin (fp.rnd (s / n')) := by
    simp only [Fp.div]; rw [if_neg (by linarith)]
  refine ⟨_, e2, ?_, ?_⟩
  · refine le_trans ?_ f1
    -- s / n' ≥ t'/P'(1-ε)/n'
    have g1 : (t : ℚ) / (P * n) * ((1 - 1/2^53) / ((1 + 1/2^53) * (1 + 1/2^53))) ≤ t' / P' / n' := by
      rw [div_div, div_mul_div_comm]
      apply div_le_div₀ (by linarith) a1 (by positivity)
      calc P' * n' ≤ (P * (1 + 1/2^53)) * (n * (1 + 1/2^53)) :=
            mul_le_mul b2 c2 (by linarith) (by positivity)
        _ = _ := by ring
    have g2 : t' / P' / n' * (1 - 1/2^53) ≤ s / n' := by
      rw [div_mul_eq_mul_div]
      exact div_le_div_of_nonneg_right d1 (by linarith)
    have g3 : 0 ≤ (t : ℚ) / (P * n) := by positivity
    generalize (t : ℚ) / (P * n) = τ at *
    have g4 := mul_le_mul_of_nonneg_right g1 (show (0 : ℚ) ≤ 1 - 1/2^53 by norm_num)
    have g5 := mul_le_mul_of_nonneg_right (g4.trans g2) (show (0 : ℚ) ≤ 1 - 1/2^53 by norm_num)
    refine le_trans ?_ g5
    rw [mul_assoc, mul_assoc]
    exact mul_le_mul_of_nonneg_left (by norm_num) g3
  · refine le_trans f2 ?_
    have g1 : t' / P' / n' ≤ (t : ℚ) / (P * n) * ((1 + 1/2^53) / ((1 - 1/2^53) * (1 - 1/2^53))) := by
      rw [div_div, div_mul_div_comm]
      apply div_le_div₀ (by positivity) a2 (mul_pos (by positivity) (by norm_num))
      calc (P : ℚ) * n * ((1 - 1/2^53) * (1 - 1/2^53)) = (P * (1 - 1/2^53)) * (n * (1 - 1/2^53)) := by ring
        _ ≤ P' * n' := mul_le_mul b1 c1 (mul_nonneg (by positivity) (by norm_num)) (by linarith)
    have g2 : s / n' ≤ t' / P' / n' * (1 + 1/2^53) := by
      rw [div_mul_eq_mul_div]
      exact div_le_div_of_nonneg_right d2 (by linarith)
    have g3 : 0 ≤ (t : ℚ) / (P * n) := by positivity
    generalize (t : ℚ) / (P * n) = τ at *
    have g4 := mul_le_mul_of_nonneg_right g1 (show (0 : ℚ) ≤ 1 + 1/2^53 by norm_num)
    have g5 := mul_le_mul_of_nonneg_right (g2.trans g4) (show (0 : ℚ) ≤ 1 + 1/2^53 by norm_num)
    refine le_trans g5 ?_
    rw [mul_assoc, mul_assoc]
    exact mul_le_mul_of_nonneg_left (by norm_num) g3

/-- No tick: zero seconds per hash. -/
theorem perHash_zero {fp : Fp} (h : FpOK fp) {P n : ℕ} (hP : 1 ≤ P) (hn : 1 ≤ n) :
    fp.div (fp.div (fp.ofInt 0) (fp.ofInt P)) (fp.ofInt n) = .fin 0 := by
  have b0 := h.one P (by exact_mod_cast hP)
  have c0 := h.one n (by exact_mod_cast hn)
  simp only [Fp.ofInt, Int.cast_natCast, Int.cast_zero, rnd_zero h, Fp.div]
  rw [if_neg (by linarith), zero_div, rnd_zero h]
  simp only
  rw [if_neg (by linarith), zero_div, rnd_zero h]

/-- No call (after a product that wrapped to zero): no finite result. -/
theorem perHash_none {fp : Fp} (h : FpOK fp) {P : ℕ} (hP : 1 ≤ P) (hP' : P ≤ 2^40) {t : ℕ} :
    fp.div (fp.div (fp.ofInt t) (fp.ofInt P)) (fp.ofInt (0 : ℕ)) = if t = 0 then .nan else .inf false := by
  have b0 := h.one P (by exact_mod_cast hP)
  obtain ⟨-, b2⟩ := rnd_nat h P
  have hP2 : (P : ℚ) ≤ 2^40 := by exact_mod_cast hP'
  have hz : fp.ofInt (0 : ℕ) = .fin 0 := by simp [Fp.ofInt, rnd_zero h]
  rw [hz]
  simp only [Fp.ofInt, Int.cast_natCast, Fp.div]
  rw [if_neg (by linarith)]
  simp only [if_true]
  by_cases ht : t = 0
  · subst ht
    rw [Nat.cast_zero, rnd_zero h, zero_div, rnd_zero h, if_pos rfl, if_pos rfl]
  · have ht1 : (1 : ℚ) ≤ t := by exact_mod_cast Nat.pos_of_ne_zero ht
    have a0 := h.one t ht1
    have hs0 : 1 / 2^41 ≤ fp.rnd t / fp.rnd P := by
      rw [div_le_div_iff₀ (by norm_num) (by linarith)]
      nlinarith
    obtain ⟨d1, -⟩ := near_le h (.inr (tiny 41 (by norm_num) hs0))
    have : 0 < fp.rnd (fp.rnd t / fp.rnd P) := lt_of_lt_of_le (mul_pos (lt_of_lt_of_le (by norm_num) hs0) (by norm_num)) d1
    rw [if_neg this.ne', if_neg ht, decide_eq_false (not_lt.2 this.le)]

theorem toU32_fin {q : ℚ} (h0 : 0 ≤ q) (h1 : q ≤ MAXRATE) :
    ∃ w : W32, Dbl.toU32 (.fin q) = some w ∧ (w.toNat : ℤ) = q.floor := by
  have h2 : q < 2^32 := lt_of_le_of_lt h1 (by norm_num [MAXRATE])
  refine ⟨_, by simp only [Dbl.toU32]; rw [if_pos ⟨by linarith, h2⟩], ?_⟩
  have h3 : 0 ≤ q.floor := Rat.le_floor_iff.2 (by exact_mod_cast h0)
  have h4 : q.floor < 2^32 := by
    have := Rat.floor_le q
    have h5 : (q.floor : ℚ) < 2^32 := lt_of_le_of_lt this h2
    exact_mod_cast h5
  rw [BitVec.toNat_ofNat, Nat.mod_eq_of_lt (by omega)]
  omega

theorem rate_of {fp : Fp} {d : Dbl} {y : ℚ} (h : fp.add (fp.div (.fin 1) d) 1 = .fin y) :
    rate fp d = Dbl.toU32 (.fin (if (MAXRATE : ℚ) < y then MAXRATE else y)) := by
  unfold rate
  rw [h]
  by_cases hc : (MAXRATE : ℚ) < y
  · have : Dbl.lt (.fin MAXRATE) (.fin y) = true := decide_eq_true hc
    simp only [this, if_true, if_pos hc]
  · have : Dbl.lt (.fin MAXRATE) (.fin y) = false := decide_eq_false hc
    simp only [this, if_neg hc]
    rfl

/-- The limited rate, for a time that is not larger than the initial one. -/
theorem rate_fin {fp : Fp} (h : FpOK fp) {q : ℚ} (h0 : 0 ≤ q) (h1 : q ≤ 100000000) :
    ∃ w : W32, rate fp (.fin q) = some w ∧ 1 ≤ w.toNat ∧ w.toNat ≤ MAXRATE ∧
      ∀ m : ℕ, m ≤ MAXRATE → (q = 0 ∨ (m : ℚ) ≤ 1 / q * (1 - 1/2^50)) → m ≤ w.toNat := by
  rcases eq_or_lt_of_le h0 with h2 | h2
  · subst h2
    obtain ⟨w, hw, hv⟩ := toU32_fin (q := MAXRATE) (by norm_num [MAXRATE]) (le_refl _)
    have hf : (MAXRATE : ℚ).floor = MAXRATE := by
      rw [show (MAXRATE : ℚ) = ((MAXRATE : ℤ) : ℚ) by norm_num, Rat.floor_intCast]
    rw [hf] at hv
    refine ⟨w, ?_, ?_, ?_, fun m hm _ => by omega⟩
    · rw [← hw]; simp only [rate, Fp.div, Fp.add, Dbl.lt]; norm_num [Dbl.lt]
    · have : 1 ≤ MAXRATE := by decide
      omega
    · omega
  · have hx : 1 / 2^1000 ≤ 1 / q := by
      refine tiny 27 (by norm_num) (one_div_le_one_div_of_le h2 (le_trans h1 (by norm_num)))
    obtain ⟨a1, a2⟩ := near_le h (.inr hx)
    have hx0 : 0 < 1 / q := by positivity
    have ha0 : 0 < fp.rnd (1 / q) := lt_of_lt_of_le (mul_pos hx0 (by norm_num)) a1
    have e1 : fp.div (.fin 1) (.fin q) = .fin (fp.rnd (1 / q)) := by
      simp only [Fp.div]; rw [if_neg h2.ne']
    have hy := h.one (fp.rnd (1 / q) + 1) (by linarith)
    obtain ⟨b1, b2⟩ := near_le h (q := fp.rnd (1 / q) + 1) (.inr (tiny 0 (by norm_num) (by rw [pow_zero, div_one]; linarith)))
    rw [rate_of (by rw [e1]; rfl)]
    generalize fp.rnd (1 / q) = x at *
    have key : ∀ z : ℚ, 1 ≤ z → z ≤ MAXRATE →
        (∀ m : ℕ, m ≤ MAXRATE → (m : ℚ) ≤ 1 / q * (1 - 1/2^50) → (m : ℚ) ≤ z) →
        ∃ w : W32, Dbl.toU32 (.fin z) = some w ∧ 1 ≤ w.toNat ∧ w.toNat ≤ MAXRATE ∧
          ∀ m : ℕ, m ≤ MAXRATE → (q = 0 ∨ (m : ℚ) ≤ 1 / q * (1 - 1/2^50)) → m ≤ w.toNat := by
      intro z hz1 hz2 hz3
      obtain ⟨w, hw, hv⟩ := toU32_fin (by linarith) hz2
      refine ⟨w, hw, ?_, ?_, fun m hm hq => ?_⟩
      · have : (1 : ℤ) ≤ z.floor := Rat.le_floor_iff.2 (by exact_mod_cast hz1)
        omega
      · have h5 : (z.floor : ℚ) ≤ MAXRATE := le_trans (Rat.floor_le z) hz2
        have h6 : z.floor ≤ (MAXRATE : ℤ) := by exact_mod_cast h5
        omega
      · have h5 := hz3 m hm (hq.resolve_left h2.ne')
        have : (m : ℤ) ≤ z.floor := Rat.le_floor_iff.2 (by exact_mod_cast h5)
        omega
    by_cases hc : (MAXRATE : ℚ) < fp.rnd (x + 1)
    · rw [if_pos hc]
      exact key _ (by norm_num [MAXRATE]) (le_refl _) fun m hm _ => by exact_mod_cast hm
    · rw [if_neg hc]
      refine key _ hy (not_lt.1 hc) fun m hm hmq => ?_
      have hm' : (m : ℚ) ≤ 2^32 := by
        have : m ≤ 2^32 := le_trans hm (by decide)
        exact_mod_cast this
      have g1 : (m : ℚ) ≤ x := le_trans hmq (le_trans (mul_le_mul_of_nonneg_left (by norm_num) hx0.le) a1)
      nlinarith

/-- The rate for infinitely many seconds per hash. -/
theorem rate_inf {fp : Fp} (h : FpOK fp) (s : Bool) : ∃ w : W32, rate fp (.inf s) = some w := by
  have h1 := h.one 1 (le_refl _)
  obtain ⟨_, h3⟩ := near_le h (q := 1) (.inr (tiny 0 (by norm_num) (by norm_num)))
  have h4 : fp.rnd 1 ≤ MAXRATE := le_trans h3 (by norm_num [MAXRATE])
  obtain ⟨w, hw, -⟩ := toU32_fin (by linarith) h4
  refine ⟨w, ?_⟩
  rw [← hw]
  rw [rate_of (y := fp.rnd 1) (by simp only [Fp.div, Fp.add, zero_add]), if_neg (not_lt.2 h4)]

/-! ### One round -/

theorem step_ok {e : Env} (he : EnvOK e) {t : ℕ} {L : ℚ} (hL0 : 0 ≤ L) {st : BSt}
    (hL : 1 ≤ st.nbh.toNat → L ≤ secs e t st.nbh.toNat * (1 - 1/2^50)) {q : ℚ} (hq : st.fastestH = .fin q)
    (hq1 : L ≤ q) (hq2 : q ≤ 100000000) (hi : st.iterationNb < 2^31 - 1) :
    ∃ st' q', step e st t = some st' ∧ st'.fastestH = .fin q' ∧ L ≤ q' ∧ q' ≤ q ∧
      ((¬ Counts e t ∧ st'.iterationNb = st.iterationNb ∧ q' = q ∧
          (t = 0 → st'.nbh = st.nbh * 100) ∧
          (t ≠ 0 → 1 ≤ st.nbh.toNat → min (2 * st.nbh.toNat) MAXRATE ≤ st'.nbh.toNat)) ∨
        (Counts e t ∧ st'.iterationNb = st.iterationNb + 1 ∧ 1 ≤ st'.nbh.toNat ∧
          (1 ≤ st.nbh.toNat → q' ≤ secs e t st.nbh.toNat * (1 + 1/2^50)) ∧
          (q' = q ∨ 1 ≤ st.nbh.toNat ∧ secs e t st.nbh.toNat * (1 - 1/2^50) ≤ q' ∧
            q' ≤ secs e t st.nbh.toNat * (1 + 1/2^50)))) := by
  unfold Counts
  unfold secs at *
  obtain ⟨hP, hP'⟩ := he.perSec
  have hn2 : st.nbh.toNat ≤ 2^32 := st.nbh.isLt.le
  generalize hd : e.fp.div (e.fp.div (e.fp.ofInt t) (e.fp.ofInt e.perSec)) (e.fp.ofInt st.nbh.toNat) = d
  -- a new minimum
  have hA : ∃ q', (if d.lt st.fastestH then d else st.fastestH) = .fin q' ∧ L ≤ q' ∧ q' ≤ q ∧
      (1 ≤ st.nbh.toNat → q' ≤ (t : ℚ) / (e.perSec * st.nbh.toNat) * (1 + 1/2^50)) ∧
      (q' = q ∨ 1 ≤ st.nbh.toNat ∧ (t : ℚ) / (e.perSec * st.nbh.toNat) * (1 - 1/2^50) ≤ q' ∧
        q' ≤ (t : ℚ) / (e.perSec * st.nbh.toNat) * (1 + 1/2^50)) := by
    rcases Nat.eq_zero_or_pos st.nbh.toNat with hn | hn
    · rw [hn, perHash_none he.fp hP hP'] at hd
      refine ⟨q, ?_, hq1, le_refl _, fun h => by omega, .inl rfl⟩
      have : d.lt st.fastestH = false := by
        rw [← hd, hq]; split <;> rfl
      rw [this]; exact hq
    · have hlo : ∃ q', d = .fin q' ∧ (t : ℚ) / (e.perSec * st.nbh.toNat) * (1 - 1/2^50) ≤ q' ∧
          q' ≤ (t : ℚ) / (e.perSec * st.nbh.toNat) * (1 + 1/2^50) := by
        rcases Nat.eq_zero_or_pos t with ht | ht
        · subst ht
          refine ⟨0, ?_, by simp, by simp⟩
          rw [← hd]; exact perHash_zero he.fp hP hn
        · obtain ⟨q', h1, h2, h3⟩ := perHash he.fp ht hP hP' hn hn2
          exact ⟨q', hd.symm.trans h1, h2, h3⟩
      obtain ⟨q', h1, h2, h3⟩ := hlo
      by_cases hc : q' < q
      · have : d.lt st.fastestH = true := by rw [h1, hq]; exact decide_eq_true hc
        exact ⟨q', by rw [this]; exact h1, (hL hn).trans h2, hc.le, fun _ => h3, .inr ⟨hn, h2, h3⟩⟩
      · have : d.lt st.fastestH = false := by rw [h1, hq]; exact decide_eq_false hc
        exact ⟨q, by rw [this]; exact hq, hq1, le_refl _, fun _ => (not_lt.1 hc).trans h3, .inl rfl⟩
  -- more calls in the next round
  have hB : t < e.perSec / 2 → ∃ w : W32, (if (t : ℤ) = 0 then some (st.nbh * 100) else rate e.fp d) = some w ∧
      (t = 0 → w = st.nbh * 100) ∧ (t ≠ 0 → 1 ≤ st.nbh.toNat → min (2 * st.nbh.toNat) MAXRATE ≤ w.toNat) := by
    intro hs
    by_cases ht : t = 0
    · exact ⟨_, by rw [if_pos (by omega)], fun _ => rfl, fun h => absurd ht h⟩
    rw [if_neg (by omega)]
    rcases Nat.eq_zero_or_pos st.nbh.toNat with hn | hn
    · rw [hn, perHash_none he.fp hP hP', if_neg ht] at hd
      obtain ⟨w, hw⟩ := rate_inf he.fp false
      exact ⟨w, by rw [← hd]; exact hw, fun h => absurd h ht, fun _ h => by omega⟩
    obtain ⟨q', h1, h2, h3⟩ := perHash he.fp (Nat.pos_of_ne_zero ht) hP hP' hn hn2
    have ht1 : (1 : ℚ) ≤ t := by exact_mod_cast Nat.pos_of_ne_zero ht
    have hP1 : (1 : ℚ) ≤ e.perSec := by exact_mod_cast hP
    have hn1 : (1 : ℚ) ≤ st.nbh.toNat := by exact_mod_cast hn
    have hP2 : (e.perSec : ℚ) ≤ 2^40 := by exact_mod_cast hP'
    have h2t : 2 * (t : ℚ) + 2 ≤ e.perSec := by
      have : 2 * t + 2 ≤ e.perSec := by omega
      exact_mod_cast this
    generalize (e.perSec : ℚ) = P at *
    generalize hN : (st.nbh.toNat : ℚ) = n at *
    generalize (t : ℚ) = t' at *
    have hτ : 0 < t' / (P * n) := by positivity
    have hq0 : 0 < q' := lt_of_lt_of_le (mul_pos hτ (by norm_num)) h2
    -- 2 n τ ≤ 1 - 2/P
    have hτ2 : t' / (P * n) * (2 * n) ≤ 1 - 1/2^39 := by
      rw [div_mul_eq_mul_div, div_le_iff₀ (by positivity)]
      have : t' * 2 ≤ (1 - 1/2^39) * P := by nlinarith
      nlinarith
    have hle : q' * (2 * n) ≤ 1 - 1/2^50 := by
      calc q' * (2 * n) ≤ t' / (P * n) * (1 + 1/2^50) * (2 * n) := mul_le_mul_of_nonneg_right h3 (by linarith)
        _ = t' / (P * n) * (2 * n) * (1 + 1/2^50) := by ring
        _ ≤ (1 - 1/2^39) * (1 + 1/2^50) := mul_le_mul_of_nonneg_right hτ2 (by norm_num)
        _ ≤ _ := by norm_num
    obtain ⟨w, hw, -, -, hw3⟩ := rate_fin he.fp hq0.le (show q' ≤ 100000000 by nlinarith)
    refine ⟨w, by rw [← hd, h1]; exact hw, fun h => absurd h ht, fun _ _ => ?_⟩
    refine hw3 _ (min_le_right _ _) (.inr ?_)
    refine le_trans (b := 2 * n) ?_ ?_
    · rw [← hN]
      have : min (2 * st.nbh.toNat) MAXRATE ≤ 2 * st.nbh.toNat := min_le_left _ _
      exact_mod_cast this
    · rw [one_div_mul_eq_div, le_div_iff₀ hq0]
      linarith
  obtain ⟨q', hq', hq1', hq2', hq3', hq4'⟩ := hA
  obtain ⟨v, hv, hv1, -, -⟩ := rate_fin he.fp (hL0.trans hq1') (hq2'.trans hq2)
  unfold step
  dsimp only
  rw [hd, hq', hv]
  by_cases hs : t < e.perSec / 2
  · obtain ⟨w, hw, hw1, hw2⟩ := hB hs
    have hs' : (t : ℤ) < (e.perSec : ℤ) / 2 := by omega
    rw [if_pos hs', hw]
    by_cases hp : 0 < e.nbIterations
    · refine ⟨{ st with nbh := w }, q, ?_, hq, hq1, le_refl _, .inl ⟨fun h => h ⟨hs, hp⟩, rfl, rfl, hw1, hw2⟩⟩
      simp only [Option.bind_eq_bind, Option.bind_some]
      rw [if_pos ⟨hs', hp⟩]
      rfl
    · refine ⟨⟨v, .fin q', st.iterationNb + 1⟩, q', ?_, rfl, hq1', hq2', .inr ⟨fun h => hp h.2, rfl, hv1, hq3', hq4'⟩⟩
      simp only [Option.bind_eq_bind, Option.bind_some]
      rw [if_neg fun h => hp h.2, if_neg (by omega)]
      rfl
  · have hs' : ¬ (t : ℤ) < (e.perSec : ℤ) / 2 := by omega
    refine ⟨⟨v, .fin q', st.iterationNb + 1⟩, q', ?_, rfl, hq1', hq2', .inr ⟨fun h => hs h.1, rfl, hv1, hq3', hq4'⟩⟩
    rw [if_neg hs']
    simp only [Option.bind_eq_bind, Option.bind_some]
    rw [if_neg fun h => hs' h.1, if_neg (by omega)]
    rfl

/-! ### The calls -/

theorem calls_eq {h : W32 → Option W32} {g : W32 → W32} (hh : ∀ u, h u = some (g u)) (n : ℕ) :
    calls h n = some (sumOf g n) := by
  unfold calls sumOf
  induction n with
  | zero => rfl
  | succ n ih =>
    rw [List.range_succ, List.foldlM_append, ih, List.map_append, List.sum_append]
    simp [hh]

/-! ### The loop -/

theorem Sat_bind {α β : Type} {P : α → Prop} {Q : β → Prop} {x : Run α} {f : α → Run β} (hx : Sat P x)
    (hf : ∀ a, P a → Sat Q (f a)) : Sat Q (x >>= f) := by
  cases x with
  | done a => exact hf a hx
  | unfinished => trivial
  | _ => exact hx.elim

theorem of_bind {α β : Type} (a : α) (f : α → Run β) : (Run.of (some a) >>= f) = f a := rfl

theorem loop_succ (e : Env) (i : ℕ) (h : W32 → Option W32) (fuel k : ℕ) (st : BSt) :
    benchLoop e i h (fuel + 1) k st =
      if st.iterationNb ≤ wanted e then do
        let r ← Run.of (calls h st.nbh.toNat)
        let st' ← Run.of (step e st (e.ticks i k st.nbh.toNat))
        let x ← benchLoop e i h fuel (k+1) st'
        return (x.1, (st.nbh.toNat, r) :: x.2)
      else .done (st.fastestH, []) := rfl

theorem loop_sat {e : Env} (he : EnvOK e) {i : ℕ} (hclk : ∀ k n, 0 ≤ e.ticks i k n)
    (hnb : e.nbIterations < 2^31 - 1) {h : W32 → Option W32} {g : W32 → W32} (hh : ∀ u, h u = some (g u)) {L : ℚ}
    (hL0 : 0 ≤ L) (hL : ∀ k n, 1 ≤ n → L ≤ secs e (e.ticks i k n).toNat n * (1 - 1/2^50)) :
    ∀ fuel k st q, st.fastestH = .fin q → L ≤ q → q ≤ 100000000 →
      Sat (fun r : Dbl × List (ℕ × W32) => (∃ q', r.1 = .fin q' ∧ L ≤ q' ∧ Measured e i k r.2 q q') ∧
          (∀ p ∈ r.2, p.2 = sumOf g p.1) ∧ counting e i k r.2 = (wanted e + 1 - st.iterationNb).toNat)
        (benchLoop e i h fuel k st) := by
  intro fuel
  induction fuel with
  | zero => intros; trivial
  | succ fuel ih =>
    intro k st q hq hq1 hq2
    rw [loop_succ]
    by_cases hi : st.iterationNb ≤ wanted e
    · rw [if_pos hi, calls_eq hh, of_bind]
      have ht := Int.toNat_of_nonneg (hclk k st.nbh.toNat)
      obtain ⟨st', q', hs, hf, hq1', hle, hcase⟩ := step_ok he hL0 (t := (e.ticks i k st.nbh.toNat).toNat)
        (hL k st.nbh.toNat) hq hq1 hq2 (by unfold wanted at hi; split at hi <;> omega)
      rw [ht] at hs
      rw [hs, of_bind]
      refine Sat_bind (ih (k+1) st' q' hf hq1' (hle.trans hq2)) ?_
      rintro ⟨d, rounds⟩ ⟨⟨qf, h1, h2, h3⟩, h4, h5⟩
      refine ⟨⟨qf, h1, h2, ?_⟩, ?_, ?_⟩
      · refine ⟨h3.le.trans hle, ?_, ?_⟩
        · intro j p hp hc hn
          cases j with
          | zero =>
            simp only [List.getElem?_cons_zero, Option.some.injEq] at hp
            subst hp
            rcases hcase with ⟨hc', -⟩ | ⟨-, -, -, h6, -⟩
            · exact absurd hc hc'
            · exact h3.le.trans (h6 hn)
          | succ j =>
            have := h3.fastest j p (by simpa using hp)
            rw [show k + 1 + j = k + (j + 1) by omega] at this
            exact this hc hn
        · rcases h3.attained with h6 | ⟨j, p, h6, h7⟩
          · rcases hcase with ⟨-, -, h8, -⟩ | ⟨hc, -, -, -, h9⟩
            · exact .inl (h6.trans h8)
            · rcases h9 with h9 | ⟨h9, h10, h11⟩
              · exact .inl (h6.trans h9)
              · refine .inr ⟨0, _, rfl, hc, h9, ?_, ?_⟩
                · rw [h6]; exact h10
                · rw [h6]; exact h11
          · refine .inr ⟨j + 1, p, by simpa using h6, ?_⟩
            rw [show k + 1 + j = k + (j + 1) by omega] at h7
            exact h7
      · intro p hp
        rcases List.mem_cons.1 hp with rfl | hp
        · rfl
        · exact h4 p hp
      · have h5' : counting e i (k + 1) rounds = (wanted e + 1 - st'.iterationNb).toNat := h5
        show (if Counts e (e.ticks i k st.nbh.toNat).toNat then 1 else 0) + counting e i (k + 1) rounds = _
        rcases hcase with ⟨h7, h6, -⟩ | ⟨h7, h6, -⟩
        · rw [if_neg h7]; omega
        · rw [if_pos h7]; omega
    · rw [if_neg hi]
      refine ⟨⟨q, hq, hq1, le_refl _, ?_, .inl rfl⟩, ?_, ?_⟩
      · intro j p hp; simp at hp
      · intro p hp; simp at hp
      · show 0 = (wanted e + 1 - st.iterationNb).toNat
        omega

theorem loop_ends {e : Env} (he : EnvOK e) {i G D : ℕ} (hclk : ∀ k n, 0 ≤ e.ticks i k n)
    (hslow : SlowEnough e i G D)
    (hnb : e.nbIterations < 2^31 - 1) {h : W32 → Option W32} {g : W32 → W32} (hh : ∀ u, h u = some (g u)) :
    ∀ fuel j k st q, st.fastestH = .fin q → 0 ≤ q → q ≤ 100000000 → 1 ≤ st.nbh.toNat →
      MAXRATE ≤ st.nbh.toNat * 2^j → 33 * (wanted e - st.iterationNb).toNat + j + 2 ≤ fuel →
      ∃ r, benchLoop e i h fuel k st = .done r := by
  intro fuel
  induction fuel with
  | zero => intros; omega
  | succ fuel ih =>
    intro j k st q hq hq1 hq2 hn hj hfuel
    rw [loop_succ]
    by_cases hi : st.iterationNb ≤ wanted e
    · have hi' : st.iterationNb ≤ e.nbIterations + (if e.nbIterations = 0 then 1 else 0) := hi
      rw [if_pos hi, calls_eq hh, of_bind]
      have ht := Int.toNat_of_nonneg (hclk k st.nbh.toNat)
      have hcalls := hslow.calls k st.nbh.toNat
      obtain ⟨st', q', hs, hf, hq1', hle, hcase⟩ := step_ok he (le_refl 0) (t := (e.ticks i k st.nbh.toNat).toNat)
        (fun _ => mul_nonneg (by unfold secs; positivity) (by norm_num)) hq hq1 hq2
        (by split at hi' <;> omega)
      rw [ht] at hs
      rw [hs, of_bind]
      suffices hgoal : ∃ r, benchLoop e i h fuel (k+1) st' = .done r by
        obtain ⟨r, hr⟩ := hgoal
        rw [hr]
        exact ⟨_, rfl⟩
      rcases hcase with ⟨hc, h1, -, h2, h3⟩ | ⟨-, h1, h2, -⟩
      · have hc' : (e.ticks i k st.nbh.toNat).toNat < e.perSec / 2 := (not_not.1 hc).1
        generalize (e.ticks i k st.nbh.toNat).toNat = t at *
        rw [← ht] at hcalls
        have hcalls' : st.nbh.toNat ≤ (t + G) * D := by exact_mod_cast hcalls
        have hlim := hslow.limit
        have hres := hslow.resolution
        -- a full round is never short
        have hlt : st.nbh.toNat < MAXRATE := by
          by_contra hge
          have h4 : (e.perSec / 2 + G) * D ≤ (t + G) * D := by omega
          have h5 : (t + G) * D ≤ (e.perSec / 2 + G) * D := Nat.mul_le_mul_right _ (by omega)
          rcases Nat.eq_zero_or_pos D with h6 | h6
          · subst h6; omega
          · have := Nat.le_of_mul_le_mul_right h4 h6
            omega
        have hgrow : min (2 * st.nbh.toNat) MAXRATE ≤ st'.nbh.toNat := by
          by_cases h0 : t = 0
          · subst h0
            rw [h2 rfl, BitVec.toNat_mul, show (100 : W32).toNat = 100 from rfl, Nat.mod_eq_of_lt]
            · omega
            · rw [Nat.zero_add] at hcalls'; omega
          · exact h3 h0 hn
        cases j with
        | zero => omega
        | succ j =>
          refine ih j (k+1) st' q' hf hq1' (hle.trans hq2) ?_ ?_ ?_
          · have : 1 ≤ MAXRATE := by decide
            omega
          · rw [pow_succ] at hj
            have hpos : 1 ≤ 2^j := Nat.one_le_two_pow
            rcases Nat.le_total (2 * st.nbh.toNat) MAXRATE with h4 | h4
            · rw [min_eq_left h4] at hgrow
              have := Nat.mul_le_mul_right (2^j) hgrow
              calc MAXRATE ≤ st.nbh.toNat * (2^j * 2) := hj
                _ = 2 * st.nbh.toNat * 2^j := by ring
                _ ≤ _ := this
            · rw [min_eq_right h4] at hgrow
              exact hgrow.trans (Nat.le_mul_of_pos_right _ hpos)
          · rw [h1]; omega
      · by_cases hmore : st'.iterationNb ≤ wanted e
        · refine ih 32 (k+1) st' q' hf hq1' (hle.trans hq2) h2 ?_ ?_
          · have : MAXRATE ≤ 1 * 2^32 := by decide
            exact this.trans (Nat.mul_le_mul_right _ h2)
          · rw [h1] at hmore ⊢; omega
        · obtain ⟨f, rfl⟩ : ∃ f, fuel = f + 1 := ⟨fuel - 1, by omega⟩
          rw [loop_succ, if_neg hmore]
          exact ⟨_, rfl⟩
    · rw [if_neg hi]
      exact ⟨_, rfl⟩

/-! ### The functions -/

theorem stream3_all {e : Env} (he : EnvOK e) {p : Ptr} {len : ℕ} (hp : Readable e.cfg p len) {a : ResetArg}
    (hok : a.Ok e.cfg) {s : Model.XXH3.State} (ht : s.Typed) (hF : ∀ sd, a = .seed sd → XXH3P.Fresh s) :
    ∃ s1 s2, a.call e.cfg (some s) = some (some s1, .ok) ∧ Model.XXH3.bits64_update e.cfg s1 p len = some (s2, .ok) ∧
      Model.XXH3.bits64_digest e.cfg s2 = some (a.spec64 (contents p)) ∧
      Model.XXH3.bits128_digest e.cfg s2 = some (a.spec128 (contents p)) := by
  obtain ⟨s1, h1, r1⟩ := reset_call_repr he.cfg ht hok hF
  obtain ⟨s2, h2, r2⟩ := update_call_repr he.cfg r1 hp
  refine ⟨s1, s2, h1, h2, ?_, ?_⟩
  · rw [XXH3P.digest64_repr he.cfg r2 (fits_lt he.cfg hp), value64_eq]; rfl
  · rw [XXH3P.digest128_repr he.cfg r2 (fits_lt he.cfg hp), value128_eq]; rfl

theorem localHash_eq {e : Env} (he : EnvOK e) {p : Ptr} {len : ℕ} (hp : Readable e.cfg p len) {f : ℕ} (hf : f < 14)
    (u : W32) : localHash e f p len u = some (namedHash f (contents p) u) := by
  have hlt := fits_lt he.cfg hp
  have hq : Readable e.cfg e.secret 136 :=
    _root_.XXH.SelfTestP.readable_some he.cfg _ (_root_.XXH.SelfTestP.fillLoop_length _ _) (by decide)
  have hI : XXH3P.Fresh (Model.XXH3.INITSTATE e.state3) := 
    ⟨⟨he.typed.align, he.typed.custom, he.typed.buffer⟩, fun _ h => absurd rfl h⟩
  obtain ⟨s1, s2, h1, h2, h3, h4⟩ := stream3_all he hp (a := .default) trivial he.typed (fun _ h => by cases h)
  obtain ⟨t1, t2, g1, g2, g3, g4⟩ := stream3_all he hp (a := .seed (u.setWidth 64)) trivial hI.typed (fun _ _ => hI)
  rcases f with _|_|_|_|_|_|_|_|_|_|_|_|_|_|f
  · exact C01_XXH32_eq_spec he.cfg hp u
  · simp only [localHash, C02_XXH64_eq_spec he.cfg hp]; rfl
  · simp only [localHash, C03_XXH3_64bits_eq_spec he.cfg hp]; rfl
  · simp only [localHash, C03_XXH3_64bits_withSeed_eq_spec he.cfg hp]; rfl
  · simp only [localHash, C03_XXH3_64bits_withSecret_eq_spec he.cfg hp hq (le_refl _)]; rfl
  · simp only [localHash, C04_XXH3_128bits_eq_spec he.cfg hp]; rfl
  · simp only [localHash, C04_XXH3_128bits_withSeed_eq_spec he.cfg hp]; rfl
  · simp only [localHash, C04_XXH3_128bits_withSecret_eq_spec he.cfg hp hq (le_refl _)]; rfl
  · obtain ⟨a1, k1, r1⟩ := Proof.XXH32.reset_repr e.state32 u
    obtain ⟨a2, k2, r2⟩ := Proof.XXH32.update_repr he.cfg r1 hp
    have k3 := Proof.XXH32.digest_repr he.cfg r2
    simp only [localHash, k1, k2, k3, Option.bind_eq_bind, Option.bind_some]; rfl
  · obtain ⟨a1, k1, r1⟩ := Proof.XXH64.reset_repr e.state64 (u.setWidth 64)
    obtain ⟨a2, k2, r2⟩ := Proof.XXH64.update_repr he.cfg r1 hp
    have k3 := Proof.XXH64.digest_repr he.cfg hlt r2
    simp only [localHash, k1, k2, k3, Option.bind_eq_bind, Option.bind_some]; rfl
  · have h1' : Model.XXH3.reset e.cfg (some e.state3) = some (some s1, .ok) := h1
    simp only [localHash, h1', h2, h3, Option.bind_eq_bind, Option.bind_some]; rfl
  · have g1' : Model.XXH3.reset_withSeed e.cfg (some (Model.XXH3.INITSTATE e.state3)) (u.setWidth 64)
      = some (some t1, .ok) := g1
    simp only [localHash, g1', g2, g3, Option.bind_eq_bind, Option.bind_some]; rfl
  · have h1' : Model.XXH3.reset e.cfg (some e.state3) = some (some s1, .ok) := h1
    simp only [localHash, h1', h2, h4, Option.bind_eq_bind, Option.bind_some]; rfl
  · have g1' : Model.XXH3.reset_withSeed e.cfg (some (Model.XXH3.INITSTATE e.state3)) (u.setWidth 64)
      = some (some t1, .ok) := g1
    simp only [localHash, g1', g2, g4, Option.bind_eq_bind, Option.bind_some]; rfl
  · omega

/-! ### `XSUM_benchHash` -/

theorem firstRate_some {cfg : Cfg} {size : ℕ} (h : size + 1 < 2^cfg.sizeBits) :
    ∃ w, firstRate cfg size = some w ∧ 1 ≤ w.toNat := by
  unfold firstRate
  dsimp only
  rw [Nat.mod_eq_of_lt h, if_neg (by omega)]
  refine ⟨_, rfl, ?_⟩
  have h1 : 10 * 2^20 / (size + 1) ≤ 10 * 2^20 := Nat.div_le_self _ _
  rw [BitVec.toNat_add, BitVec.toNat_ofNat]
  show 1 ≤ ((10 * 2^20 / (size + 1)) % 2^32 + 1) % 2^32
  generalize 10 * 2^20 / (size + 1) = m at h1
  omega

theorem benchHash_sat {e : Env} (he : EnvOK e) {i : ℕ} (hclk : ClockOK e i) (hterse : TerseOK e i) {f : ℕ} {p : Ptr}
    {size : ℕ} (hsize : size + 1 < 2^e.cfg.sizeBits) {g : W32 → W32} (hh : ∀ u, localHash e f p size u = some (g u))
    (name : String) (fuel : ℕ) : Sat (ReportOK e i name g) (benchHash e fuel f name i p size) := by
  obtain ⟨w, hw, -⟩ := firstRate_some hsize
  unfold benchHash
  rw [hw, of_bind]
  by_cases hl : e.logLevel < 1
  · have hr := hterse.resolve_left (by omega)
    have hP : (0 : ℚ) < e.perSec := by exact_mod_cast he.perSec.1
    have hL : ∀ k n, 1 ≤ n → (1 : ℚ) / 2^31 * (1 - 1/2^50) ≤ secs e (e.ticks i k n).toNat n * (1 - 1/2^50) := by
      intro k n hn
      refine mul_le_mul_of_nonneg_right ?_ (by norm_num)
      have h1 := hr k n hn
      rw [← Int.toNat_of_nonneg (hclk.forward k n)] at h1
      generalize (e.ticks i k n).toNat = t at *
      have h2 : (n : ℚ) * e.perSec ≤ 2^31 * t := by exact_mod_cast h1
      have hn1 : (0 : ℚ) < n := by exact_mod_cast hn
      unfold secs
      rw [div_le_div_iff₀ (by norm_num) (by positivity)]
      linarith
    refine Sat_bind (loop_sat he hclk.forward hclk.iterations hh (by norm_num) hL fuel 0 _ 100000000 rfl (by norm_num)
      (le_refl _)) ?_
    rintro ⟨d, rounds⟩ ⟨⟨q, h1, h2, h3⟩, h4, h5⟩
    have h1' : d = .fin q := h1
    dsimp only
    rw [if_pos hl, h1']
    have hq0 : 0 < q := lt_of_lt_of_le (by norm_num) h2
    have hx : 1 / 2^1000 ≤ 1 / q :=
      tiny 27 (by norm_num) (one_div_le_one_div_of_le hq0 (le_trans h3.le (by norm_num)))
    obtain ⟨a1, a2⟩ := near_le he.fp (.inr hx)
    have hx0 : 0 < 1 / q := by positivity
    have ha0 : 0 ≤ e.fp.rnd (1 / q) := (mul_nonneg hx0.le (by norm_num)).trans a1
    have hx1 : 1 / q ≤ 1 / ((1 : ℚ) / 2^31 * (1 - 1/2^50)) := one_div_le_one_div_of_le (by norm_num) h2
    have ha1 : e.fp.rnd (1 / q) ≤ MAXRATE := by
      refine a2.trans ((mul_le_mul_of_nonneg_right hx1 (by norm_num)).trans ?_)
      norm_num [MAXRATE]
    obtain ⟨v, hv, -⟩ := toU32_fin ha0 ha1
    have e1 : e.fp.div (.fin 1) (.fin q) = .fin (e.fp.rnd (1 / q)) := by
      simp only [Fp.div]; rw [if_neg hq0.ne']
    rw [e1, hv, of_bind]
    refine ⟨rfl, rfl, ⟨q, rfl, hq0.le, h3⟩, h4, ?_⟩
    have : counting e i 0 rounds = (wanted e + 1 - 1).toNat := h5
    show counting e i 0 rounds = _
    rw [this, Int.add_sub_cancel]
  · refine Sat_bind (loop_sat he hclk.forward hclk.iterations hh (le_refl 0)
      (fun _ _ _ => mul_nonneg (by unfold secs; positivity) (by norm_num)) fuel 0 _ 100000000 rfl (by norm_num)
      (le_refl _)) ?_
    rintro ⟨d, rounds⟩ ⟨⟨q, h1, h2, h3⟩, h4, h5⟩
    dsimp only
    rw [if_neg hl]
    refine ⟨rfl, rfl, ⟨q, h1, h2, h3⟩, h4, ?_⟩
    have : counting e i 0 rounds = (wanted e + 1 - 1).toNat := h5
    show counting e i 0 rounds = _
    rw [this, Int.add_sub_cancel]

theorem benchHash_ends {e : Env} (he : EnvOK e) {i G D : ℕ} (hclk : ClockOK e i) (hslow : SlowEnough e i G D) {f : ℕ}
    {p : Ptr} {size : ℕ} (hsize : size + 1 < 2^e.cfg.sizeBits) {g : W32 → W32}
    (hh : ∀ u, localHash e f p size u = some (g u)) (name : String) {fuel : ℕ}
    (hfuel : 33 * (wanted e).toNat + 34 ≤ fuel) : benchHash e fuel f name i p size ≠ .unfinished := by
  obtain ⟨w, hw, hw1⟩ := firstRate_some hsize
  unfold benchHash
  rw [hw, of_bind]
  obtain ⟨⟨d, rounds⟩, hr⟩ := loop_ends he hclk.forward hslow hclk.iterations hh fuel 32 0 ⟨w, .fin 100000000, 1⟩
    100000000 rfl (by norm_num) (le_refl _) hw1
    ((show MAXRATE ≤ 1 * 2^32 by decide).trans (Nat.mul_le_mul_right _ hw1))
    (by show 33 * (wanted e - 1).toNat + 32 + 2 ≤ fuel; omega)
  rw [hr]
  show (if e.logLevel < 1 then _ else _) ≠ _
  split
  · cases (e.fp.div (.fin 1) d).toU32 <;> exact fun h => by cases h
  · exact fun h => by cases h

/-! ### `XSUM_benchMem` -/

/-- The input of test `i`: odd numbers are the aligned tests. -/
def testInput (block : Buf) (off size i : ℕ) : List Byte :=
  (block.bytes.drop (if i % 2 = 1 then off else off + 3)).take size

theorem bind_ends {α β : Type} {x : Run α} {f : α → Run β} (hx : x ≠ .unfinished) (hf : ∀ a, f a ≠ .unfinished) :
    (x >>= f) ≠ .unfinished := by
  cases x with
  | done a => exact hf a
  | unfinished => exact absurd rfl hx
  | _ => exact fun h => by cases h

theorem view_contents (block : Buf) (off size : ℕ) :
    contents (view block off size) = (block.bytes.drop off).take size := rfl

section
variable {e : Env} (he : EnvOK e) {block : Buf} {n off size : ℕ} (hb : Readable e.cfg (some block) n)
  (hroom : off + 3 + size ≤ n)
include he hb hroom

theorem size_lt : size + 1 < 2^e.cfg.sizeBits := by
  have h1 : block.bytes.length = n := hb.length
  have h2 : block.bytes.length < 2^(e.cfg.sizeBits - 1) := hb.fits
  have h3 : 2^e.cfg.sizeBits = 2 * 2^(e.cfg.sizeBits - 1) := by
    have := he.size
    rw [← pow_succ', Nat.sub_add_cancel (by omega)]
  omega

theorem view_hash {i : ℕ} (hi : i < 29) (u : W32) :
    localHash e ((i - 1) / 2) (view block (if i % 2 = 1 then off else off + 3) size) size u =
      some (namedHash ((i - 1) / 2) (testInput block off size i) u) := by
  have hp : Readable e.cfg (view block (if i % 2 = 1 then off else off + 3) size) size :=
    _root_.XXH.SelfTestP.plus_readable hb (by split <;> omega)
  rw [localHash_eq he hp (by omega), view_contents]
  rfl

omit he hb hroom in
theorem hashNames_eq (f : ℕ) : hashNames.getD f "" = nameOf f := by
  rcases f with _|_|_|_|_|_|_|_|_|_|_|_|_|_|f <;> rfl

omit he hb hroom in
theorem benchTest_eq (fuel : ℕ) {i : ℕ} (nameAlloc : Bool) :
    benchTest e fuel nameAlloc block off size i =
      if i % 2 = 0 ∧ nameAlloc = false then .abort
      else benchHash e fuel ((i - 1) / 2) (testName i) i (view block (if i % 2 = 1 then off else off + 3) size) size := by
  unfold benchTest testName
  dsimp only
  rw [hashNames_eq]
  by_cases h : i % 2 = 1
  · rw [if_pos h, if_neg (by omega), if_pos h, if_pos h, String.append_empty]
  · have h0 : i % 2 = 0 := by omega
    cases nameAlloc
    · simp [h0]
    · simp [h0]

theorem benchTest_sat {i : ℕ} (hclk : ClockOK e i) (hterse : TerseOK e i) (hi : i < 29) (fuel : ℕ) {nameAlloc : Bool}
    (hname : nameAlloc = true) : Sat (ReportOK e i (testName i) (namedHash ((i - 1) / 2) (testInput block off size i)))
      (benchTest e fuel nameAlloc block off size i) := by
  rw [benchTest_eq]
  split
  · next h => rw [hname] at h; cases h.2
  · exact benchHash_sat he hclk hterse (size_lt he hb hroom) (view_hash he hb hroom hi) _ _

theorem benchTest_ends {i G D : ℕ} (hclk : ClockOK e i) (hslow : SlowEnough e i G D) (hi : i < 29) {fuel : ℕ}
    (hfuel : 33 * (wanted e).toNat + 34 ≤ fuel) (nameAlloc : Bool) :
    benchTest e fuel nameAlloc block off size i ≠ .unfinished := by
  rw [benchTest_eq]
  split
  · exact fun h => by cases h
  · exact benchHash_ends he hclk hslow (size_lt he hb hroom) (view_hash he hb hroom hi) _ hfuel

theorem benchTests_sat {testIDs : List Bool} (hclk : ∀ i, testIDs.getD i false = true → ClockOK e i)
    (hterse : ∀ i, testIDs.getD i false = true → TerseOK e i) (fuel : ℕ) {nameAlloc : ℕ → Bool}
    (hname : ∀ i, nameAlloc i = true) : ∀ is : List ℕ, (∀ i ∈ is, i < 29) →
      Sat (ReportsOK e (testInput block off size) testIDs is) (benchTests e fuel nameAlloc testIDs block off size is) := by
  intro is
  induction is with
  | nil => intro _; exact ⟨rfl, fun r hr => by cases hr⟩
  | cons i is ih =>
    intro hi
    have ih := ih fun j hj => hi j (List.mem_cons_of_mem _ hj)
    rw [benchTests]
    by_cases hid : testIDs.getD i false = true
    · rw [if_pos hid]
      refine Sat_bind (benchTest_sat he hb hroom (hclk i hid) (hterse i hid) (hi i List.mem_cons_self) fuel (hname i)) ?_
      intro r hr
      refine Sat_bind ih ?_
      rintro rs ⟨h1, h2⟩
      refine ⟨?_, ?_⟩
      · rw [List.map_cons, h1, List.filter_cons_of_pos (p := fun j => testIDs.getD j false) hid, hr.testID]
      · intro r' hr'
        rcases List.mem_cons.1 hr' with rfl | hr'
        · rw [hr.testID]; exact hr
        · exact h2 r' hr'
    · rw [if_neg hid]
      unfold ReportsOK
      rw [List.filter_cons_of_neg (p := fun j => testIDs.getD j false) hid]
      exact ih

theorem benchTests_ends {testIDs : List Bool} {G D : ℕ} (hclk : ∀ i, testIDs.getD i false = true → ClockOK e i)
    (hslow : ∀ i, testIDs.getD i false = true → SlowEnough e i G D) {fuel : ℕ}
    (hfuel : 33 * (wanted e).toNat + 34 ≤ fuel) (nameAlloc : ℕ → Bool) :
    ∀ is : List ℕ, (∀ i ∈ is, i < 29) → benchTests e fuel nameAlloc testIDs block off size is ≠ .unfinished := by
  intro is
  induction is with
  | nil => intro _ h; cases h
  | cons i is ih =>
    intro hi
    have ih := ih fun j hj => hi j (List.mem_cons_of_mem _ hj)
    rw [benchTests]
    by_cases hid : testIDs.getD i false = true
    · rw [if_pos hid]
      refine bind_ends
        (benchTest_ends he hb hroom (hclk i hid) (hslow i hid) (hi i List.mem_cons_self) hfuel _) fun r => ?_
      exact bind_ends ih fun rs h => by cases h
    · rw [if_neg hid]
      exact ih

end

theorem allTests_lt : ∀ i ∈ allTests, i < 29 := by decide

theorem alignOff_some {block : Buf} (h : 15 ≤ block.bytes.length) :
    ∃ off, alignOff block = some off ∧ off ≤ 15 ∧ (block.addr + off) % 16 = 0 := by
  refine ⟨15 - (block.addr + 15) % 16, by unfold alignOff; rw [if_neg (by omega)], by omega, by omega⟩

theorem benchMem_eq {e : Env} {fuel : ℕ} {nameAlloc : ℕ → Bool} {testIDs : List Bool} {block : Buf} {off size : ℕ}
    (h : (block.addr + off) % 16 = 0) :
    benchMem e fuel nameAlloc testIDs block off size = benchTests e fuel nameAlloc testIDs block off size allTests := by
  unfold benchMem
  rw [if_neg (by omega)]
  rfl

/-! ### The sizes -/

theorem shrink_le (r : BitVec 64) : (shrink r).toNat ≤ r.toNat := by
  have hS : STEP.toNat = 67108864 := rfl
  unfold shrink
  split
  · next h =>
    rw [BitVec.lt_def] at h
    rw [BitVec.toNat_sub_of_le (BitVec.le_def.2 h.le)]
    omega
  · rw [BitVec.toNat_ushiftRight, Nat.shiftRight_eq_div_pow]
    omega

theorem firstMem_le (r : BitVec 64) : (firstMem r).toNat ≤ 2080374784 := by
  unfold firstMem
  dsimp only
  split
  · exact le_refl _
  · next h =>
    rw [BitVec.lt_def] at h
    exact not_lt.1 h

theorem findLoop_sat (cfg : Cfg) (malloc : ℕ → ℕ → Bool) : ∀ fuel k (r : BitVec 64),
    Sat (fun r' : BitVec 64 => r'.toNat ≤ r.toNat ∧ ∃ k', malloc k' (r'.toNat % 2^cfg.sizeBits) = true)
      (findLoop cfg malloc fuel k r) := by
  intro fuel
  induction fuel with
  | zero => intros; trivial
  | succ fuel ih =>
    intro k r
    rw [findLoop]
    split
    · next h => exact ⟨shrink_le r, k, h⟩
    · have := ih (k+1) (shrink r)
      cases hx : findLoop cfg malloc fuel (k+1) (shrink r) with
      | done a =>
        rw [hx] at this
        exact ⟨this.1.trans (shrink_le r), this.2⟩
      | unfinished => trivial
      | _ => rw [hx] at this; exact this.elim

theorem findLoop_small {cfg : Cfg} {malloc : ℕ → ℕ → Bool} (h0 : ∀ k, malloc k 0 = true) :
    ∀ j fuel k (r : BitVec 64), j ≤ 27 → r.toNat < 2^j → j + 1 ≤ fuel → ∃ a, findLoop cfg malloc fuel k r = .done a := by
  have hS : STEP.toNat = 67108864 := rfl
  intro j
  induction j with
  | zero =>
    intro fuel k r _ hr hf
    obtain ⟨f, rfl⟩ : ∃ f, fuel = f + 1 := ⟨fuel - 1, by omega⟩
    have h1 : (shrink r).toNat = 0 := by have := shrink_le r; omega
    rw [findLoop]
    rw [h1, Nat.zero_mod, h0]
    exact ⟨_, rfl⟩
  | succ j ih =>
    intro fuel k r hj hr hf
    obtain ⟨f, rfl⟩ : ∃ f, fuel = f + 1 := ⟨fuel - 1, by omega⟩
    have h1 : (shrink r).toNat < 2^j := by
      unfold shrink
      split
      · next h =>
        rw [BitVec.lt_def] at h
        rw [BitVec.toNat_sub_of_le (BitVec.le_def.2 h.le)]
        rcases Nat.lt_or_ge j 26 with hj' | hj'
        · have : 2^(j+1) ≤ 2^26 := Nat.pow_le_pow_right (by decide) (by omega)
          omega
        · obtain rfl : j = 26 := by omega
          omega
      · rw [BitVec.toNat_ushiftRight, Nat.shiftRight_eq_div_pow]
        rw [pow_succ] at hr
        omega
    rw [findLoop]
    split
    · exact ⟨_, rfl⟩
    · exact ih f (k+1) _ (by omega) h1 (by omega)

theorem findLoop_ends {cfg : Cfg} {malloc : ℕ → ℕ → Bool} (h0 : ∀ k, malloc k 0 = true) :
    ∀ m fuel k (r : BitVec 64), r.toNat < 2^27 + 2^26 * m → m + 28 ≤ fuel →
      ∃ a, findLoop cfg malloc fuel k r = .done a := by
  have hS : STEP.toNat = 67108864 := rfl
  intro m
  induction m with
  | zero => intro fuel k r hr hf; exact findLoop_small h0 27 fuel k r (le_refl _) (by omega) (by omega)
  | succ m ih =>
    intro fuel k r hr hf
    obtain ⟨f, rfl⟩ : ∃ f, fuel = f + 1 := ⟨fuel - 1, by omega⟩
    have h1 : (shrink r).toNat < 2^27 + 2^26 * m := by
      unfold shrink
      split
      · next h =>
        rw [BitVec.lt_def] at h
        rw [BitVec.toNat_sub_of_le (BitVec.le_def.2 h.le)]
        omega
      · next h =>
        rw [BitVec.lt_def] at h
        rw [BitVec.toNat_ushiftRight, Nat.shiftRight_eq_div_pow]
        omega
    rw [findLoop]
    split
    · exact ⟨_, rfl⟩
    · exact ih f (k+1) _ h1 (by omega)

theorem findLoop_never {cfg : Cfg} {malloc : ℕ → ℕ → Bool} (h : ∀ k n, malloc k n = false) :
    ∀ fuel k r, findLoop cfg malloc fuel k r = .unfinished := by
  intro fuel
  induction fuel with
  | zero => intros; rfl
  | succ fuel ih =>
    intro k r
    rw [findLoop]
    rw [h]
    exact ih _ _

theorem findMaxMem_sat (cfg : Cfg) (malloc : ℕ → ℕ → Bool) (fuel : ℕ) (required : BitVec 64) :
    Sat (fun n => n ≤ 2080374784) (findMaxMem cfg malloc fuel required) := by
  unfold findMaxMem
  refine Sat_bind (findLoop_sat cfg malloc fuel 0 _) ?_
  rintro r ⟨h, -⟩
  exact (Nat.mod_le _ _).trans ((shrink_le r).trans (h.trans (firstMem_le _)))

theorem select_sat (cfg : Cfg) (malloc : ℕ → ℕ → Bool) (fuel : ℕ) (f : BFile) :
    Sat (fun n => n ≤ 2080374784 ∧ n ≤ f.size.toNat) (selectBenchedSize cfg malloc fuel f) := by
  unfold selectBenchedSize
  refine Sat_bind (findMaxMem_sat cfg malloc fuel _) ?_
  intro n hn
  show (if f.size.toNat < n then f.size.toNat % 2^cfg.sizeBits else n) ≤ 2080374784 ∧ _
  have := Nat.mod_le f.size.toNat (2^cfg.sizeBits)
  split
  · constructor
    · omega
    · exact this
  · constructor
    · exact hn
    · show n ≤ _
      omega

/-! ### Rounding to 53 bits -/

/-- Rounding to the nearest number with 53 significant bits. -/
def nearest : Fp where
  rnd q := if q = 0 then 0 else round (q / 2^(Int.log 2 |q| - 52)) * 2^(Int.log 2 |q| - 52)

theorem nearest_ok : FpOK nearest := by
  have hlog : ∀ q : ℚ, q ≠ 0 → (2 : ℚ)^(Int.log 2 |q|) ≤ |q| := fun q hq =>
    Int.zpow_log_le_self (by decide) (abs_pos.2 hq)
  constructor
  · intro q _
    by_cases hq : q = 0
    · subst hq; simp [nearest]
    have h1 := hlog q hq
    simp only [nearest]
    rw [if_neg hq]
    generalize Int.log 2 |q| = l at *
    have hp : (0 : ℚ) < 2^(l - 52) := zpow_pos (by norm_num) _
    have h2 := abs_sub_round (q / 2^(l - 52))
    have h3 : (round (q / 2^(l - 52)) : ℚ) * 2^(l - 52) - q = -((q / 2^(l - 52) - round (q / 2^(l - 52))) * 2^(l - 52)) := by
      field_simp
      ring
    rw [h3, abs_neg, abs_mul, abs_of_pos hp]
    have h4 : (2 : ℚ)^(l - 52) = 2^l / 2^52 := by
      rw [zpow_sub₀ (by norm_num)]; norm_num
    calc |q / 2^(l - 52) - round (q / 2^(l - 52))| * 2^(l - 52) ≤ 1/2 * 2^(l - 52) :=
          mul_le_mul_of_nonneg_right h2 hp.le
      _ = 2^l / 2^53 := by rw [h4]; ring
      _ ≤ _ := div_le_div_of_nonneg_right h1 (by norm_num)
  · intro q hq
    have hq0 : q ≠ 0 := by linarith
    have h1 := hlog q hq0
    have h0 : 0 ≤ Int.log 2 |q| := by
      rw [abs_of_nonneg (by linarith)]
      have := (Int.zpow_le_iff_le_log (b := 2) (x := 0) (r := q) (by decide) (by linarith)).1
      exact this (by simpa using hq)
    simp only [nearest]
    rw [if_neg hq0]
    rw [abs_of_nonneg (by linarith)] at *
    generalize Int.log 2 q = l at *
    have hp : (0 : ℚ) < 2^(l - 52) := zpow_pos (by norm_num) _
    have h4 : (2 : ℚ)^(l - 52) = 2^l / 2^52 := by
      rw [zpow_sub₀ (by norm_num)]; norm_num
    have h5 : (2 : ℚ)^52 ≤ q / 2^(l - 52) := by
      rw [le_div_iff₀ hp, h4]
      linarith
    have h6 : (2 : ℤ)^52 ≤ round (q / 2^(l - 52)) := by
      rw [round_eq]
      exact Int.le_floor.2 (by push_cast; linarith)
    have h7 : (2 : ℚ)^52 ≤ round (q / 2^(l - 52)) := by exact_mod_cast h6
    have h8 : (1 : ℚ) ≤ 2^l := one_le_zpow₀ (by norm_num) h0
    calc (1 : ℚ) ≤ 2^52 * 2^(l - 52) := by rw [h4]; linarith
      _ ≤ _ := mul_le_mul_of_nonneg_right h7 hp.le

end XXH.Proof.Bench
