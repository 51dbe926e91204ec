import Verif.Props.TestBenchTerms
import Verif.Proof.Bench
import Verif.Props.XXH3
import Verif.Props.XXH64
import Verif.Props.XXH32
/-!
Lemmas about the benchmark program of the tests.
-/
namespace XXH.Proof.TestBench
open XXH.Model XXH.Model.TestBench XXH.Props XXH.BenchTerms XXH.TestBenchTerms
open XXH.Model.Bench (Fp Run)
open XXH.Proof.Bench (near_le rnd_nat tiny)

/-! ### Arithmetic on `double` -/

/-- `b` is `a` up to `i` units of `2^-53`. -/
def Near (i : ℕ) (a b : ℚ) : Prop := a * (1 - i / 2^53) ≤ b ∧ b ≤ a * (1 + i / 2^53)

theorem Near.pos {i : ℕ} (hi : i ≤ 40) {a b : ℚ} (h : Near i a b) (ha : 0 < a) : 0 < b := by
  have hi' : (i : ℚ) ≤ 40 := by exact_mod_cast hi
  refine lt_of_lt_of_le (mul_pos ha ?_) h.1
  have : (i : ℚ) / 2^53 ≤ 40 / 2^53 := div_le_div_of_nonneg_right hi' (by positivity)
  have h2 : (40 : ℚ) / 2^53 < 1 := by norm_num
  linarith

theorem Near.bounds {i : ℕ} (hi : i ≤ 40) {a b : ℚ} (h : Near i a b) (ha : 0 < a) : a / 2 ≤ b ∧ b ≤ 2 * a := by
  have hi' : (i : ℚ) ≤ 40 := by exact_mod_cast hi
  have h3 : (i : ℚ) / 2^53 ≤ 40 / 2^53 := div_le_div_of_nonneg_right hi' (by positivity)
  have h2 : (40 : ℚ) / 2^53 < 1/2 := by norm_num
  obtain ⟨h4, h5⟩ := h
  constructor
  · refine le_trans ?_ h4
    have : a / 2 = a * (1/2) := by ring
    rw [this]
    exact mul_le_mul_of_nonneg_left (by linarith) ha.le
  · refine le_trans h5 ?_
    rw [mul_comm 2 a]
    exact mul_le_mul_of_nonneg_left (by linarith) ha.le

theorem Near.mul {i j : ℕ} (hi : i ≤ 40) (hj : j ≤ 40) {a a' b b' : ℚ} (h1 : Near i a a') (h2 : Near j b b')
    (ha : 0 < a) (hb : 0 < b) : Near (i + j + 1) (a * b) (a' * b') := by
  have hi' : (i : ℚ) ≤ 40 := by exact_mod_cast hi
  have hj' : (j : ℚ) ≤ 40 := by exact_mod_cast hj
  have hi0 : (0 : ℚ) ≤ i := by positivity
  have hj0 : (0 : ℚ) ≤ j := by positivity
  have hij : (i : ℚ) * j ≤ 1600 := by nlinarith
  have hij0 : (0 : ℚ) ≤ i * j := by positivity
  have ha' := h1.pos hi ha
  have hb' := h2.pos hj hb
  have x1 : (0 : ℚ) ≤ 1 - j / 2^53 := by
    have : (j : ℚ) / 2^53 ≤ 40 / 2^53 := div_le_div_of_nonneg_right hj' (by positivity)
    have h2 : (40 : ℚ) / 2^53 < 1 := by norm_num
    linarith
  unfold Near at *
  push_cast
  constructor
  · calc a * b * (1 - (i + j + 1) / 2^53) ≤ a * b * ((1 - i / 2^53) * (1 - j / 2^53)) := by
          refine mul_le_mul_of_nonneg_left ?_ (mul_pos ha hb).le
          have : (1 - (i : ℚ) / 2^53) * (1 - j / 2^53) = 1 - (i + j) / 2^53 + i * j / 2^53 / 2^53 := by ring
          rw [this]
          have : (0 : ℚ) ≤ i * j / 2^53 / 2^53 := by positivity
          have h3 : ((i : ℚ) + j + 1) / 2^53 = (i + j) / 2^53 + 1 / 2^53 := by ring
          rw [h3]
          have : (0 : ℚ) < 1 / 2^53 := by positivity
          linarith
      _ = (a * (1 - i / 2^53)) * (b * (1 - j / 2^53)) := by ring
      _ ≤ a' * b' := mul_le_mul h1.1 h2.1 (mul_nonneg hb.le x1) ha'.le
  · calc a' * b' ≤ (a * (1 + i / 2^53)) * (b * (1 + j / 2^53)) :=
          mul_le_mul h1.2 h2.2 hb'.le (by positivity)
      _ = a * b * ((1 + i / 2^53) * (1 + j / 2^53)) := by ring
      _ ≤ a * b * (1 + (i + j + 1) / 2^53) := by
          refine mul_le_mul_of_nonneg_left ?_ (mul_pos ha hb).le
          have : (1 + (i : ℚ) / 2^53) * (1 + j / 2^53) = 1 + (i + j) / 2^53 + i * j / 2^53 / 2^53 := by ring
          rw [this]
          have h4 : (i : ℚ) * j / 2^53 / 2^53 ≤ 1600 / 2^53 / 2^53 :=
            div_le_div_of_nonneg_right (div_le_div_of_nonneg_right hij (by positivity)) (by positivity)
          have h5 : (1600 : ℚ) / 2^53 / 2^53 ≤ 1 / 2^53 := by norm_num
          have h3 : ((i : ℚ) + j + 1) / 2^53 = (i + j) / 2^53 + 1 / 2^53 := by ring
          rw [h3]
          linarith

theorem Near.inv {j : ℕ} (hj : j ≤ 40) {b b' : ℚ} (h2 : Near j b b') (hb : 0 < b) : Near (j + 1) (1 / b) (1 / b') := by
  have hj' : (j : ℚ) ≤ 40 := by exact_mod_cast hj
  have hj0 : (0 : ℚ) ≤ j := by positivity
  have hb' := h2.pos hj hb
  have e1 : (j : ℚ) / 2^53 ≤ 40 / 2^53 := div_le_div_of_nonneg_right hj' (by positivity)
  have e2 : (0 : ℚ) ≤ j / 2^53 := by positivity
  have e3 : (40 : ℚ) / 2^53 ≤ 1 / 2^47 := by norm_num
  have e4 : ((j : ℚ) + 1) / 2^53 = j / 2^53 + 1 / 2^53 := by ring
  have e5 : (0 : ℚ) < 1 / 2^53 := by positivity
  have e6 : (1 : ℚ) / 2^47 * (1 / 2^47) + 1 / 2^47 * (1/2^53) ≤ 1 / 2^53 := by norm_num
  unfold Near at *
  push_cast
  rw [e4]
  set x := (j : ℚ) / 2^53 with hx
  set u := (1 : ℚ) / 2^53 with hu
  clear_value x u
  have e7 : x * x + x * u ≤ u := by
    have : x * x ≤ 1 / 2^47 * (1 / 2^47) := mul_le_mul (le_trans e1 e3) (le_trans e1 e3) e2 (by positivity)
    have h' : x * u ≤ 1 / 2^47 * u := mul_le_mul_of_nonneg_right (le_trans e1 e3) e5.le
    exact le_trans (add_le_add this h') e6
  constructor
  · rw [div_mul_eq_mul_div, one_mul, div_le_div_iff₀ hb hb']
    have : (1 - (x + u)) * b' ≤ (1 - (x + u)) * (b * (1 + x)) := by
      refine mul_le_mul_of_nonneg_left h2.2 ?_
      have h1 : x ≤ 1 / 2 := le_trans (le_trans e1 e3) (by norm_num)
      have h2 : u ≤ 1 / 2 := by rw [hu]; norm_num
      linarith only [h1, h2]
    refine le_trans this ?_
    have : (1 - (x + u)) * (b * (1 + x)) = b * (1 - u - x * x - x * u) := by ring
    rw [this, one_mul]
    have hp : 0 ≤ u + x * x + x * u := by positivity
    nlinarith
  · rw [div_mul_eq_mul_div, one_mul, div_le_div_iff₀ hb' hb, one_mul]
    have : (1 + (x + u)) * (b * (1 - x)) ≤ (1 + (x + u)) * b' := mul_le_mul_of_nonneg_left h2.1 (by positivity)
    refine le_trans ?_ this
    have : (1 + (x + u)) * (b * (1 - x)) = b * (1 + (u - x * x - x * u)) := by ring
    rw [this]
    have hp : 0 ≤ u - (x * x + x * u) := by linarith
    nlinarith

theorem Near.rnd {fp : Fp} (hf : FpOK fp) {i : ℕ} (hi : i ≤ 40) {a b : ℚ} (h : Near i a b) (ha : 1 / 2^900 ≤ a) :
    Near (i + 2) a (fp.rnd b) := by
  have ha0 : 0 < a := lt_of_lt_of_le (by positivity) ha
  have hb := (h.bounds hi ha0).1
  have hb2 : 1 / 2^901 ≤ b := by
    refine le_trans ?_ hb
    have : (1 : ℚ) / 2^901 = 1 / 2^900 / 2 := by rw [div_div, ← pow_succ]
    rw [this]
    exact div_le_div_of_nonneg_right ha (by norm_num)
  have hn := near_le hf (q := b) (.inr (tiny 901 (by norm_num) hb2))
  have h1 : Near 1 b (fp.rnd b) := by
    unfold Near
    simpa using hn
  have hi' : (i : ℚ) ≤ 40 := by exact_mod_cast hi
  have hi0 : (0 : ℚ) ≤ i := by positivity
  have hb0 := h.pos hi ha0
  unfold Near at *
  push_cast at *
  have e1 : (i : ℚ) / 2^53 ≤ 40 / 2^53 := div_le_div_of_nonneg_right hi' (by positivity)
  have e2 : (0 : ℚ) ≤ i / 2^53 := by positivity
  have e3 : (40 : ℚ) / 2^53 ≤ 1 := by norm_num
  have e4 : ((i : ℚ) + 2) / 2^53 = i / 2^53 + 2 * (1 / 2^53) := by ring
  have e5 : (0 : ℚ) < 1 / 2^53 := by positivity
  rw [e4]
  set x := (i : ℚ) / 2^53
  set u := (1 : ℚ) / 2^53 with hu
  have e6 : u ≤ 1 := by rw [hu]; norm_num
  have e7 : x * u ≤ u := by nlinarith
  constructor
  · calc a * (1 - (x + 2 * u)) ≤ a * ((1 - x) * (1 - u)) := by
          refine mul_le_mul_of_nonneg_left ?_ ha0.le
          have : 0 ≤ x * u := by positivity
          nlinarith
      _ = (a * (1 - x)) * (1 - u) := by ring
      _ ≤ b * (1 - u) := mul_le_mul_of_nonneg_right h.1 (by linarith)
      _ ≤ _ := h1.1
  · calc fp.rnd b ≤ b * (1 + u) := h1.2
      _ ≤ (a * (1 + x)) * (1 + u) := mul_le_mul_of_nonneg_right h.2 (by linarith)
      _ = a * (1 + x + u + x * u) := by ring
      _ ≤ _ := mul_le_mul_of_nonneg_left (by linarith) ha0.le

theorem Near.div {i j : ℕ} (hi : i ≤ 39) (hj : j ≤ 39) {a a' b b' : ℚ} (h1 : Near i a a') (h2 : Near j b b')
    (ha : 0 < a) (hb : 0 < b) : Near (i + j + 2) (a / b) (a' / b') := by
  have := h1.mul (by omega) (by omega : j + 1 ≤ 40) (h2.inv (by omega) hb) ha (by positivity)
  rw [mul_one_div, mul_one_div] at this
  exact this

theorem near_nat {fp : Fp} (h : FpOK fp) (n : ℕ) : Near 1 n (fp.rnd n) := by
  unfold Near
  simpa using rnd_nat h n

theorem near_mono {i j : ℕ} (hij : i ≤ j) {a b : ℚ} (ha : 0 ≤ a) (h : Near i a b) : Near j a b := by
  have : (i : ℚ) / 2^53 ≤ j / 2^53 := div_le_div_of_nonneg_right (by exact_mod_cast hij) (by positivity)
  exact ⟨le_trans (mul_le_mul_of_nonneg_left (by linarith) ha) h.1, le_trans h.2 (mul_le_mul_of_nonneg_left (by linarith) ha)⟩

/-- Nanoseconds per loop: `t` nanoseconds, `n` loops. -/
theorem near_perRun {fp : Fp} (hf : FpOK fp) {t n : ℕ} (ht : 1 ≤ t) (hn : 1 ≤ n) (hn2 : n < 2^32) :
    Near 6 (t / n) (fp.rnd (fp.rnd t / fp.rnd n)) := by
  have ht' : (1 : ℚ) ≤ t := by exact_mod_cast ht
  have hn' : (1 : ℚ) ≤ n := by exact_mod_cast hn
  have hn3 : (n : ℚ) ≤ 2^32 := by exact_mod_cast hn2.le
  refine (((near_nat hf t).div (by norm_num) (by norm_num) (near_nat hf n) (by linarith) (by linarith)).rnd hf (by norm_num) ?_)
  have : (1 : ℚ) / 2^32 ≤ t / n := by
    rw [div_le_div_iff₀ (by positivity) (by linarith)]
    nlinarith
  exact le_trans (one_div_le_one_div_of_le (by positivity) (pow_le_pow_right₀ (by norm_num) (by norm_num))) this

/-! ### Calls -/

theorem wrapper_eq {e : Env} (h : MachineOK e) {fn : Nat} (hfn : fn < 4) {p : Ptr} {n : Nat} (hp : Readable e.cfg p n) :
    wrapper e.cfg fn p n = some (hashOf e.cfg fn (contents p)) := by
  unfold wrapper hashOf toSize
  match fn, hfn with
  | 0, _ => simp only [C03_XXH3_64bits_eq_spec h.cfg hp, Option.map_some]
  | 1, _ => simp only [C01_XXH32_eq_spec h.cfg hp, Option.map_some]
  | 2, _ => simp only [C02_XXH64_eq_spec h.cfg hp, Option.map_some]
  | 3, _ => simp only [C04_XXH3_128bits_eq_spec h.cfg hp, Option.map_some]

theorem hashed_nil (e : Env) (fn : Nat) (mode : Mode) (buffer : List Byte) (w : World) : Hashed e fn mode buffer [] w w :=
  ⟨rfl, [], rfl, rfl, by simp, rfl⟩

theorem chained_append {mode : Mode} : ∀ {cs : List Call} {h h' h'' : Nat} {ds : List Call}, Chained mode h cs h' →
    Chained mode h' ds h'' → Chained mode h (cs ++ ds) h''
  | [], _, _, _, _, h1, h2 => by
    unfold Chained at h1
    rw [List.nil_append]
    exact h1 ▸ h2
  | c :: cs, _, _, _, _, h1, h2 => by
    cases mode with
    | throughput => exact ⟨h1.1, chained_append h1.2 h2⟩
    | latency => exact ⟨h1.1, chained_append h1.2 h2⟩

theorem hashed_append {e : Env} {fn : Nat} {mode : Mode} {buffer : List Byte} {s t : List Nat} {w w' w'' : World}
    (h1 : Hashed e fn mode buffer s w w') (h2 : Hashed e fn mode buffer t w' w'') :
    Hashed e fn mode buffer (s ++ t) w w'' := by
  obtain ⟨a1, cs, a2, a3, a4, a5⟩ := h1
  obtain ⟨b1, ds, b2, b3, b4, b5⟩ := h2
  refine ⟨b1.trans a1, cs ++ ds, ?_, ?_, ?_, chained_append a5 b5⟩
  · rw [b2, a2, List.reverse_append, List.append_assoc]
  · rw [List.map_append, a3, b3]
  · intro c hc
    rcases List.mem_append.mp hc with hc | hc
    · exact a4 c hc
    · exact b4 c hc

theorem hashed_runs {e : Env} {fn : Nat} {mode : Mode} {buffer : List Byte} {s : List Nat} {w w' : World} (n : Nat)
    (h : Hashed e fn mode buffer s w w') : Hashed e fn mode buffer s w { w' with runs := n } := h

theorem call_eq {e : Env} (h : MachineOK e) {fn : Nat} (hfn : fn < 4) (mode : Mode) {src : Buf}
    (hsrc : src.bytes.length < 2 ^ (e.cfg.sizeBits - 1)) {size : Nat} (hs : size + 1024 ≤ src.bytes.length) (w : World) :
    ∃ r w', call e fn mode src size w = some (r, w') ∧ Hashed e fn mode src.bytes [size] w w' ∧ w'.runs = w.runs := by
  unfold call
  cases mode with
  | throughput =>
    have hp : Readable e.cfg (some ⟨src.addr + 0, (src.bytes.drop 0).take size⟩) size :=
      ⟨by show ((src.bytes.drop 0).take size).length = size; simp; omega, by
        show ((src.bytes.drop 0).take size).length < _
        refine lt_of_le_of_lt ?_ hsrc
        simp⟩
    simp only [slice, if_pos (show 0 + size ≤ src.bytes.length by omega), Option.bind_eq_bind, Option.bind_some,
      wrapper_eq h hfn hp, Option.pure_def]
    refine ⟨_, _, rfl, ⟨rfl, [⟨fn, 0, size, _⟩], rfl, rfl, ?_, rfl, rfl⟩, rfl⟩
    intro c hc
    rw [List.mem_singleton.mp hc]
    exact ⟨rfl, by show 0 + size ≤ _; omega, rfl⟩
  | latency =>
    have ho : w.hash % MARGIN_FOR_LATENCY < 1024 := Nat.mod_lt _ (by decide)
    have hp : Readable e.cfg (some ⟨src.addr + w.hash % MARGIN_FOR_LATENCY,
        (src.bytes.drop (w.hash % MARGIN_FOR_LATENCY)).take size⟩) size :=
      ⟨by show ((src.bytes.drop (w.hash % MARGIN_FOR_LATENCY)).take size).length = size; simp; omega, by
        show ((src.bytes.drop (w.hash % MARGIN_FOR_LATENCY)).take size).length < _
        refine lt_of_le_of_lt ?_ hsrc
        simp⟩
    simp only [slice, if_pos (show w.hash % MARGIN_FOR_LATENCY + size ≤ src.bytes.length by omega), Option.bind_eq_bind,
      Option.bind_some, wrapper_eq h hfn hp, Option.pure_def]
    refine ⟨_, _, rfl, ⟨rfl, [⟨fn, w.hash % MARGIN_FOR_LATENCY, size, _⟩], rfl, rfl, ?_, rfl, rfl⟩, rfl⟩
    intro c hc
    rw [List.mem_singleton.mp hc]
    exact ⟨rfl, by show w.hash % MARGIN_FOR_LATENCY + size ≤ _; omega, rfl⟩

theorem overBlocks_eq {e : Env} (h : MachineOK e) {fn : Nat} (hfn : fn < 4) (mode : Mode) {src : Buf}
    (hsrc : src.bytes.length < 2 ^ (e.cfg.sizeBits - 1)) : ∀ (sizes : List Nat),
    (∀ s ∈ sizes, s + 1024 ≤ src.bytes.length) → ∀ w : World,
    ∃ r w', overBlocks e fn mode src sizes w = some (r, w') ∧ Hashed e fn mode src.bytes sizes w w' ∧ w'.runs = w.runs
  | [], _, w => ⟨0, w, rfl, hashed_nil _ _ _ _ _, rfl⟩
  | s :: ss, hs, w => by
    obtain ⟨r, w1, h1, h2, h3⟩ := call_eq h hfn mode hsrc (hs s List.mem_cons_self) w
    obtain ⟨r', w2, k1, k2, k3⟩ := overBlocks_eq h hfn mode hsrc ss (fun x hx => hs x (List.mem_cons_of_mem _ hx)) w1
    unfold overBlocks
    simp only [h1, Option.bind_eq_bind, Option.bind_some, k1, Option.pure_def]
    exact ⟨_, _, rfl, hashed_append h2 k2, k3.trans h3⟩

theorem overLoops_eq {e : Env} (h : MachineOK e) {fn : Nat} (hfn : fn < 4) (mode : Mode) {src : Buf}
    (hsrc : src.bytes.length < 2 ^ (e.cfg.sizeBits - 1)) {sizes : List Nat}
    (hs : ∀ s ∈ sizes, s + 1024 ≤ src.bytes.length) : ∀ (n : Nat) (w : World),
    ∃ w', overLoops e fn mode src sizes n w = some w' ∧
      Hashed e fn mode src.bytes (List.replicate n sizes).flatten w w' ∧ w'.runs = w.runs
  | 0, w => ⟨w, rfl, hashed_nil _ _ _ _ _, rfl⟩
  | n + 1, w => by
    obtain ⟨r, w1, h1, h2, h3⟩ := overBlocks_eq h hfn mode hsrc sizes hs w
    obtain ⟨w2, k1, k2, k3⟩ := overLoops_eq h hfn mode hsrc hs n w1
    unfold overLoops
    simp only [h1, Option.bind_eq_bind, Option.bind_some, k1]
    refine ⟨_, rfl, ?_, k3.trans h3⟩
    rw [List.replicate_succ, List.flatten_cons]
    exact hashed_append h2 k2

theorem benchFunction_eq {e : Env} (h : MachineOK e) {fn : Nat} (hfn : fn < 4) (mode : Mode) {src : Buf}
    (hsrc : src.bytes.length < 2 ^ (e.cfg.sizeBits - 1)) {sizes : List Nat}
    (hs : ∀ s ∈ sizes, s + 1024 ≤ src.bytes.length) {nbLoops : W32} (hn : 1 ≤ nbLoops.toNat) (w : World) :
    ∃ r w', benchFunction e fn mode src sizes nbLoops w = some (r, w') ∧
      Hashed e fn mode src.bytes (List.replicate nbLoops.toNat sizes).flatten w w' ∧ w'.runs = w.runs + 1 ∧
      r.nanoSecPerRun = e.fp.rnd (e.fp.rnd (e.elapsed w.runs nbLoops.toNat).toNat / e.fp.rnd nbLoops.toNat) := by
  obtain ⟨r, w1, h1, h2, h3⟩ := overBlocks_eq h hfn mode hsrc sizes hs w
  have h0 : nbLoops ≠ 0 := by rintro rfl; simp at hn
  obtain ⟨w2, k1, k2, k3⟩ := overLoops_eq h hfn mode hsrc hs (nbLoops.toNat - 1) w1
  unfold benchFunction
  simp only [if_neg h0, h1, Option.bind_eq_bind, Option.bind_some, k1, Option.pure_def]
  refine ⟨_, _, rfl, ?_, by rw [k3, h3], by rw [k3, h3]⟩
  have : (List.replicate nbLoops.toNat sizes).flatten = sizes ++ (List.replicate (nbLoops.toNat - 1) sizes).flatten := by
    conv_lhs => rw [show nbLoops.toNat = (nbLoops.toNat - 1) + 1 by omega]
    rw [List.replicate_succ, List.flatten_cons]
  rw [this]
  exact hashed_runs _ (hashed_append h2 k2)

/-- A number close to an integer is at least the integer before it, and at most the one after it. -/
theorem near_int {i : ℕ} (hi : i ≤ 20) {a : ℕ} (ha : a < 2 ^ 48) {b : ℚ} (h : Near i a b) : (a : ℚ) - 1 < b ∧ b < a + 1 := by
  have hi' : (i : ℚ) / 2^53 ≤ 20 / 2^53 := div_le_div_of_nonneg_right (by exact_mod_cast hi) (by positivity)
  have ha' : (a : ℚ) < 2^48 := by exact_mod_cast ha
  have h0 : (0 : ℚ) ≤ a := by positivity
  have : (a : ℚ) * (i / 2^53) < 1 := by
    calc (a : ℚ) * (i / 2^53) ≤ a * (20 / 2^53) := mul_le_mul_of_nonneg_left hi' h0
      _ ≤ 2^48 * (20 / 2^53) := mul_le_mul_of_nonneg_right ha'.le (by positivity)
      _ < 1 := by norm_num
  unfold Near at h
  constructor
  · nlinarith [h.1]
  · nlinarith [h.2]

theorem near_lt_of_le {i j : ℕ} {a a' b b' : ℚ} (h1 : Near i a a') (h2 : Near j b b') (hle : a' ≤ b') :
    a * (1 - i / 2^53) ≤ b * (1 + j / 2^53) := le_trans h1.1 (le_trans hle h2.2)

/-- Comparing numbers close to integers compares the integers. -/
theorem near_le_nat {i j : ℕ} (hi : i ≤ 10) (hj : j ≤ 10) {a b : ℕ} (hb : b < 2 ^ 47) {a' b' : ℚ}
    (h1 : Near i a a') (h2 : Near j b b') (hle : a' ≤ b') : a ≤ b := by
  have h := near_lt_of_le h1 h2 hle
  have hi' : (i : ℚ) / 2^53 ≤ 10 / 2^53 := div_le_div_of_nonneg_right (by exact_mod_cast hi) (by positivity)
  have hj' : (j : ℚ) / 2^53 ≤ 10 / 2^53 := div_le_div_of_nonneg_right (by exact_mod_cast hj) (by positivity)
  by_contra hab
  have hab' : (b : ℚ) + 1 ≤ a := by exact_mod_cast Nat.lt_of_not_le hab
  have hb' : (b : ℚ) ≤ 2^47 := by exact_mod_cast hb.le
  have hb0 : (0 : ℚ) ≤ b := by positivity
  have ha0 : (0 : ℚ) ≤ a := by positivity
  have l1 : (a : ℚ) * (1 - 10 / 2^53) ≤ b * (1 + 10 / 2^53) := by
    refine le_trans (le_trans (mul_le_mul_of_nonneg_left ?_ ha0) h) (mul_le_mul_of_nonneg_left ?_ hb0)
    · linarith
    · linarith
  have l2 : ((b : ℚ) + 1) * (1 - 10 / 2^53) ≤ a * (1 - 10 / 2^53) :=
    mul_le_mul_of_nonneg_right hab' (by norm_num)
  have l3 := le_trans l2 l1
  have hb2 : (b : ℚ) ≤ 140737488355328 := by rw [show (140737488355328 : ℚ) = 2^47 by norm_num]; exact hb'
  norm_num at l3
  linarith

/-- What happens after a run that took `T` nanoseconds. -/
theorem afterRun_cases {e : Env} (h : FpOK e.fp) {t : Timed} {new : RunTime} {T : Nat} (hn : 1 ≤ t.nbLoops.toNat)
    (hT : t.nbLoops.toNat ≤ 8 * T) (hT2 : T < 2 ^ 60) (hB : 1000000 ≤ t.runBudget_ns.toNat)
    (hB2 : t.runBudget_ns.toNat ≤ 500000000) (hbest : t.fastestRun.nanoSecPerRun = 2000000000000000000)
    (hnew : new.nanoSecPerRun = e.fp.rnd (e.fp.rnd T / e.fp.rnd t.nbLoops.toNat)) :
    ∃ (d : ℕ) (L : W32) (r : Option RunTime),
      afterRun e t t.fastestRun new =
        .done ({ t with timeSpent_ns := t.timeSpent_ns + BitVec.ofNat 64 d, nbLoops := L }, r) ∧
      (d : ℚ) ≤ T * (1 + 10 / 2^53) ∧ 1 ≤ L.toNat ∧
      ((r = none ∧ 2 * t.nbLoops.toNat ≤ L.toNat ∧ d ≤ t.runBudget_ns.toNat) ∨
       (r = some new ∧ t.runBudget_ns.toNat / 2 ≤ T ∧ t.runBudget_ns.toNat / 2 - 1 ≤ d)) := by
  have hT1 : 1 ≤ T := by omega
  have hn2 : t.nbLoops.toNat < 2 ^ 32 := t.nbLoops.isLt
  set n := t.nbLoops.toNat with hndef
  set B := t.runBudget_ns.toNat with hBdef
  set p := new.nanoSecPerRun with hp
  have np : Near 6 ((T : ℚ) / n) p := hnew ▸ near_perRun h hT1 hn hn2
  have hn0 : (0 : ℚ) < n := by exact_mod_cast hn
  have hT0 : (0 : ℚ) < T := by exact_mod_cast hT1
  have hB0 : (0 : ℚ) < B := by exact_mod_cast (by omega : 0 < B)
  have hTn : (0 : ℚ) < T / n := div_pos hT0 hn0
  have p0 : 0 < p := np.pos (by norm_num) hTn
  -- the duration
  have nd : Near 10 (T : ℚ) (e.fp.rnd (p * e.fp.rnd n)) := by
    have := (np.mul (by norm_num) (by norm_num) (near_nat h n) hTn hn0)
    rw [div_mul_cancel₀ _ hn0.ne'] at this
    refine this.rnd h (by norm_num) ?_
    have h1 : (1 : ℚ) ≤ T := by exact_mod_cast hT1
    refine le_trans ?_ h1
    rw [div_le_one (by positivity)]
    exact one_le_pow₀ (by norm_num)
  set d := e.fp.rnd (p * e.fp.rnd n) with hd
  have d0 : 0 < d := nd.pos (by norm_num) hT0
  have hdT : d ≤ T * (1 + 10 / 2^53) := by simpa using nd.2
  have hT60 : (T : ℚ) ≤ 2 ^ 60 := by exact_mod_cast hT2.le
  have hd64 : d < 2 ^ 64 := by
    refine lt_of_le_of_lt (le_trans hdT (mul_le_mul_of_nonneg_right hT60 (by positivity))) (by norm_num)
  have pbest : p < 2000000000000000000 := by
    refine lt_of_le_of_lt (b := (2^60 : ℚ) * (1 + 6 / 2^53)) ?_ (by norm_num)
    refine le_trans (by simpa using np.2) (mul_le_mul_of_nonneg_right ?_ (by positivity))
    refine le_trans (div_le_self hT0.le ?_) hT60
    exact_mod_cast hn
  have hfl : (0 : ℤ) ≤ d.floor := Int.floor_nonneg.mpr d0.le
  have hflq : ((d.floor.toNat : ℕ) : ℚ) ≤ d := by
    have : ((d.floor.toNat : ℕ) : ℚ) = (d.floor : ℚ) := by
      rw [← Int.cast_natCast, Int.toNat_of_nonneg hfl]
    rw [this]; exact Int.floor_le d
  have nB2 : Near 1 ((B / 2 : ℕ) : ℚ) (e.fp.rnd (B / 2 : ℕ)) := near_nat h _
  have nB50 : Near 1 ((B / 50 : ℕ) : ℚ) (e.fp.rnd (B / 50 : ℕ)) := near_nat h _
  -- the new number of loops
  have nq : Near 11 ((B : ℚ) / (T / n)) (e.fp.rnd (e.fp.rnd B / p)) := by
    refine ((near_nat h B).div (by norm_num) (by norm_num) np hB0 hTn).rnd h (by norm_num) ?_
    rw [le_div_iff₀ hTn]
    refine le_trans (b := (1 : ℚ) / 2^900 * 2^60) ?_ ?_
    · refine mul_le_mul_of_nonneg_left ?_ (by positivity)
      exact le_trans (div_le_self hT0.le (by exact_mod_cast hn)) hT60
    · refine le_trans (b := (1 : ℚ)) ?_ (by exact_mod_cast (by omega : 1 ≤ B))
      rw [one_div_mul_eq_div, div_le_one (by positivity)]
      exact pow_le_pow_right₀ (by norm_num) (by norm_num)
  set q := e.fp.rnd (e.fp.rnd B / p) with hq
  have hquot : (B : ℚ) / (T / n) ≤ 8 * B := by
    rw [div_div_eq_mul_div, div_le_iff₀ hT0]
    have : (n : ℚ) ≤ 8 * T := by exact_mod_cast hT
    nlinarith
  have hquot0 : (0 : ℚ) < B / (T / n) := div_pos hB0 hTn
  have q0 : 0 < q := nq.pos (by norm_num) hquot0
  have hq32 : q < 2 ^ 32 - 1 := by
    refine lt_of_le_of_lt (b := (4000000000 : ℚ) * (1 + 11 / 2^53)) ?_ (by norm_num)
    refine le_trans (by simpa using nq.2) (mul_le_mul_of_nonneg_right (le_trans hquot ?_) (by positivity))
    have : (B : ℚ) ≤ 500000000 := by exact_mod_cast hB2
    linarith
  have hqfl : (0 : ℤ) ≤ q.floor := Int.floor_nonneg.mpr q0.le
  have hqfl2 : q.floor.toNat < 2 ^ 32 - 1 := by
    have h1 : (q.floor : ℚ) ≤ q := Int.floor_le q
    have h2 : (q.floor : ℚ) < ((2 ^ 32 - 1 : ℤ) : ℚ) := by push_cast; linarith
    have h3 : q.floor < 2 ^ 32 - 1 := by exact_mod_cast h2
    omega
  have hL : (BitVec.ofNat 32 q.floor.toNat + 1 : W32).toNat = q.floor.toNat + 1 := by
    rw [BitVec.toNat_add, BitVec.toNat_ofNat]
    simp only [show (1 : W32).toNat = 1 from rfl]
    omega
  unfold afterRun
  simp only [← hndef, ← hBdef, ← hp, ← hd, hbest, min_eq_right pbest.le, ← hq, if_neg (not_not.mpr hd64), pbest, if_true]
  by_cases hA : e.fp.rnd (B / 50 : ℕ) < d
  · rw [if_pos hA, if_neg (by push Not; exact ⟨p0.ne', by linarith⟩)]
    by_cases hC : d < e.fp.rnd (B / 2 : ℕ)
    · have hTB : T ≤ B / 2 := near_le_nat (by norm_num) (by norm_num) (by omega) nd nB2 hC.le
      refine ⟨d.floor.toNat, BitVec.ofNat 32 q.floor.toNat + 1, none, ?_, le_trans hflq hdT, by omega, .inl ⟨rfl, ?_, ?_⟩⟩
      · show (if d < e.fp.rnd (B / 2 : ℕ) then _ else _) = _
        rw [if_pos hC]; rfl
      · rw [hL]
        -- 2n - 1 < q
        have h1 : (2 : ℚ) * n ≤ B / (T / n) := by
          rw [div_div_eq_mul_div, le_div_iff₀ hT0]
          have : (2 : ℚ) * T ≤ B := by exact_mod_cast (by omega : 2 * T ≤ B)
          nlinarith
        have h2 : (2 : ℚ) * n * (1 - 11 / 2^53) ≤ q := by
          refine le_trans (mul_le_mul_of_nonneg_right h1 (by norm_num)) (by simpa using nq.1)
        have h3 : (n : ℚ) ≤ 2 ^ 32 := by exact_mod_cast hn2.le
        have h4 : ((2 * n - 1 : ℤ) : ℚ) < q := by
          push_cast
          norm_num at h2 h3
          linarith
        have h5 : (2 * n - 1 : ℤ) ≤ q.floor := Int.le_floor.mpr h4.le
        omega
      · have h1 : d < (B / 2 : ℕ) + 1 := lt_trans hC (near_int (by norm_num) (by omega) nB2).2
        have h2 : ((d.floor.toNat : ℕ) : ℚ) < ((B / 2 + 1 : ℕ) : ℚ) := by push_cast; linarith
        have h3 : d.floor.toNat < B / 2 + 1 := by exact_mod_cast h2
        omega
    · have hTB : B / 2 ≤ T := by
        rcases Nat.lt_or_ge T (2 ^ 47) with hs | hs
        · exact near_le_nat (by norm_num) (by norm_num) hs nB2 nd (not_lt.mp hC)
        · omega
      refine ⟨d.floor.toNat, BitVec.ofNat 32 q.floor.toNat + 1, some new, ?_, le_trans hflq hdT, by omega,
        .inr ⟨rfl, hTB, ?_⟩⟩
      · show (if d < e.fp.rnd (B / 2 : ℕ) then _ else _) = _
        rw [if_neg hC]; rfl
      · have h1 : ((B / 2 : ℕ) : ℚ) - 1 < d := lt_of_lt_of_le (near_int (by norm_num) (by omega) nB2).1 (not_lt.mp hC)
        have h1' : ((((B / 2 : ℕ) : ℤ) - 1 : ℤ) : ℚ) ≤ d := by
          rw [Int.cast_sub, Int.cast_natCast, Int.cast_one]
          exact h1.le
        have h2 : (((B / 2 : ℕ) : ℤ) - 1 : ℤ) ≤ d.floor := Int.le_floor.mpr h1'
        omega
  · have hTB : T ≤ B / 50 := near_le_nat (by norm_num) (by norm_num) (by omega) nd nB50 (not_lt.mp hA)
    have hn10 : n < (2 ^ 32 - 1) / 10 := by omega
    have hC : d < e.fp.rnd (B / 2 : ℕ) := by
      have h1 := (near_int (by norm_num) (by omega) nB50).2
      have h2 := (near_int (by norm_num) (by omega) nB2).1
      have h3 : (B / 50 : ℕ) + 2 ≤ (B / 2 : ℕ) := by omega
      have h4 : (((B / 50 : ℕ) : ℚ)) + 2 ≤ ((B / 2 : ℕ) : ℚ) := by exact_mod_cast h3
      linarith [not_lt.mp hA]
    have hL10 : (t.nbLoops * 10 : W32).toNat = n * 10 := by
      rw [BitVec.toNat_mul]
      simp only [show (10 : W32).toNat = 10 from rfl]
      omega
    rw [if_neg hA, if_neg (not_not.mpr hn10)]
    refine ⟨d.floor.toNat, t.nbLoops * 10, none, ?_, le_trans hflq hdT, by omega, .inl ⟨rfl, by omega, ?_⟩⟩
    · show (if d < e.fp.rnd (B / 2 : ℕ) then _ else _) = _
      rw [if_pos hC]; rfl
    · have h1 : d < (B / 2 : ℕ) + 1 := lt_trans hC (near_int (by norm_num) (by omega) nB2).2
      have h2 : ((d.floor.toNat : ℕ) : ℚ) < ((B / 2 + 1 : ℕ) : ℚ) := by push_cast; linarith
      have h3 : d.floor.toNat < B / 2 + 1 := by exact_mod_cast h2
      omega

/-! ### The loops -/

/-- Runs with these numbers of loops. -/
def Ran (e : Env) (fn : Nat) (mode : Mode) (buffer : List Byte) (sizes loops : List Nat) (w w' : World) : Prop :=
  Hashed e fn mode buffer (inputsOf sizes loops) w w' ∧ w'.runs = w.runs + loops.length

theorem ran_nil (e : Env) (fn : Nat) (mode : Mode) (buffer : List Byte) (sizes : List Nat) (w : World) :
    Ran e fn mode buffer sizes [] w w := ⟨hashed_nil _ _ _ _ _, rfl⟩

theorem ran_append {e : Env} {fn : Nat} {mode : Mode} {buffer : List Byte} {sizes a b : List Nat} {w w' w'' : World}
    (h1 : Ran e fn mode buffer sizes a w w') (h2 : Ran e fn mode buffer sizes b w' w'') :
    Ran e fn mode buffer sizes (a ++ b) w w'' := by
  refine ⟨?_, by rw [h2.2, h1.2, List.length_append, Nat.add_assoc]⟩
  unfold inputsOf
  rw [List.flatMap_append]
  exact hashed_append h1.1 h2.1

theorem timeOf_append (e : Env) : ∀ (a b : List Nat) (k : Nat),
    timeOf e k (a ++ b) = timeOf e k a + timeOf e (k + a.length) b
  | [], b, k => by simp [timeOf]
  | n :: a, b, k => by
    simp only [List.cons_append, timeOf, timeOf_append e a b (k + 1), List.length_cons]
    rw [show k + 1 + a.length = k + (a.length + 1) by omega, Nat.add_assoc]

theorem benchTimedFn_eq {e : Env} (h : MachineOK e) (hclock : ClockOK e) {fn : Nat} (hfn : fn < 4) (mode : Mode)
    {src : Buf} (hsrc : src.bytes.length < 2 ^ (e.cfg.sizeBits - 1)) {sizes : List Nat}
    (hs : ∀ s ∈ sizes, s + 1024 ≤ src.bytes.length) : ∀ (fuel k : Nat) (t : Timed) (w : World), 33 ≤ fuel + k →
    2 ^ k ≤ t.nbLoops.toNat → 1000000 ≤ t.runBudget_ns.toNat → t.runBudget_ns.toNat ≤ 500000000 →
    t.fastestRun.nanoSecPerRun = 2000000000000000000 → t.timeSpent_ns.toNat + (33 - k) * t.runBudget_ns.toNat ≤ 2 ^ 62 →
    ∃ (r : RunTime) (L : W32) (d : Nat) (w' : World) (loops : List Nat) (n : Nat),
      benchTimedFn e fn mode src sizes fuel t w =
        .done (r, { t with timeSpent_ns := t.timeSpent_ns + BitVec.ofNat 64 d, nbLoops := L }, w') ∧
      Ran e fn mode src.bytes sizes (loops ++ [n]) w w' ∧ 1 ≤ L.toNat ∧ t.timeSpent_ns.toNat + d < 2 ^ 63 ∧
      (d : ℚ) ≤ timeOf e w.runs (loops ++ [n]) * (1 + 10 / 2^53) ∧ t.runBudget_ns.toNat / 2 - 1 ≤ d ∧
      1 ≤ n ∧ n < 2 ^ 32 ∧ t.runBudget_ns.toNat / 2 ≤ (e.elapsed (w'.runs - 1) n).toNat ∧
      r.nanoSecPerRun = e.fp.rnd (e.fp.rnd (e.elapsed (w'.runs - 1) n).toNat / e.fp.rnd n) ∧
      (loops ++ [n]).head? = some t.nbLoops.toNat
  | 0, k, t, w, hf, hk, _, _, _, _ => by
    have := t.nbLoops.isLt
    have : (2 : Nat) ^ 33 ≤ 2 ^ k := Nat.pow_le_pow_right (by norm_num) (by omega)
    omega
  | fuel + 1, k, t, w, hf, hk, hB, hB2, hbest, hspent => by
    have hk1 : 1 ≤ t.nbLoops.toNat := le_trans Nat.one_le_two_pow hk
    have hn2 : t.nbLoops.toNat < 2 ^ 32 := t.nbLoops.isLt
    have hk32 : k < 32 := (Nat.pow_lt_pow_iff_right (by norm_num : 1 < 2)).mp (lt_of_le_of_lt hk hn2)
    obtain ⟨new, w1, a1, a2, a3, a4⟩ := benchFunction_eq h hfn mode hsrc hs hk1 w
    have hc := hclock w.runs t.nbLoops.toNat hn2
    obtain ⟨d, L, r, b1, b2, b3, b4⟩ := afterRun_cases h.fp hk1 hc.1 hc.2 hB hB2 hbest a4
    have hran : Ran e fn mode src.bytes sizes [t.nbLoops.toNat] w w1 := by
      refine ⟨?_, a3⟩
      unfold inputsOf
      simpa using a2
    have hd61 : d < 2 ^ 61 := by
      have h1 : ((e.elapsed w.runs t.nbLoops.toNat).toNat : ℚ) ≤ 2 ^ 60 := by exact_mod_cast hc.2.le
      have h2 : (d : ℚ) < ((2 ^ 61 : ℕ) : ℚ) := by
        refine lt_of_le_of_lt (le_trans b2 (mul_le_mul_of_nonneg_right h1 (by positivity))) (by norm_num)
      exact_mod_cast h2
    unfold benchTimedFn
    rw [a1]
    simp only [Run.of]
    rcases b4 with ⟨rfl, b5, b6⟩ | ⟨rfl, b5, b6⟩
    · have hadd : (t.timeSpent_ns + BitVec.ofNat 64 d).toNat = t.timeSpent_ns.toNat + d := by
        rw [BitVec.toNat_add, BitVec.toNat_ofNat]
        omega
      obtain ⟨r, L', d', w', loops, n, c1, c2, c3, c4, c5, c6, c7, c8, c9, c10⟩ :=
        benchTimedFn_eq h hclock hfn mode hsrc hs fuel (k + 1)
          { t with timeSpent_ns := t.timeSpent_ns + BitVec.ofNat 64 d, nbLoops := L } w1 (by omega)
          (by show 2 ^ (k + 1) ≤ L.toNat; rw [pow_succ]; omega) hB hB2 hbest
          (by
            show (t.timeSpent_ns + BitVec.ofNat 64 d).toNat + (33 - (k + 1)) * t.runBudget_ns.toNat ≤ 2 ^ 62
            rw [hadd]
            have : (33 - k) * t.runBudget_ns.toNat = (33 - (k + 1)) * t.runBudget_ns.toNat + t.runBudget_ns.toNat := by
              rw [show 33 - k = 33 - (k + 1) + 1 by omega]; ring
            omega)
      refine ⟨r, L', d + d', w', t.nbLoops.toNat :: loops, n, ?_, ?_, c3, ?_, ?_, ?_, c7, c8, c9, c10.1, rfl⟩
      · show (Run.bind (afterRun e t t.fastestRun new) _) = _
        rw [b1]
        show benchTimedFn e fn mode src sizes fuel _ w1 = _
        rw [c1]
        simp only [BitVec.ofNat_add, BitVec.add_assoc]
      · have := ran_append hran c2
        simpa using this
      · have c4' : (t.timeSpent_ns + BitVec.ofNat 64 d).toNat + d' < 2 ^ 63 := c4
        omega
      · rw [List.cons_append, timeOf]
        rw [a3] at c5
        push_cast
        linarith
      · have c6' : t.runBudget_ns.toNat / 2 - 1 ≤ d' := c6
        omega
    · refine ⟨new, L, d, w1, [], t.nbLoops.toNat, ?_, hran, b3, ?_, ?_, b6, hk1, hn2, ?_, ?_, rfl⟩
      · show (Run.bind (afterRun e t t.fastestRun new) _) = _
        rw [b1]
        rfl
      · have := hspent
        have : 0 ≤ (33 - k) * t.runBudget_ns.toNat := Nat.zero_le _
        omega
      · simpa [timeOf] using b2
      · rw [a3, Nat.add_sub_cancel]; exact b5
      · rw [a3, Nat.add_sub_cancel]; exact a4

theorem measureLoop_eq {e : Env} (h : MachineOK e) (hclock : ClockOK e) {fn : Nat} (hfn : fn < 4) (mode : Mode)
    {src : Buf} (hsrc : src.bytes.length < 2 ^ (e.cfg.sizeBits - 1)) {sizes : List Nat}
    (hs : ∀ s ∈ sizes, s + 1024 ≤ src.bytes.length) {fuelRuns : Nat} (hfuel : 33 ≤ fuelRuns)
    {w0 : World} : ∀ (fuel : Nat) (t : Timed) (result : Option RunTime) (w : World) (loops : List Nat),
    1 ≤ t.nbLoops.toNat → 1000000 ≤ t.runBudget_ns.toNat → t.runBudget_ns.toNat ≤ 500000000 →
    t.fastestRun.nanoSecPerRun = 2000000000000000000 → t.timeBudget_ns.toNat ≤ 2 ^ 40 →
    t.timeBudget_ns.toNat ≤ t.timeSpent_ns.toNat + fuel * (t.runBudget_ns.toNat / 2 - 1) →
    Ran e fn mode src.bytes sizes loops w0 w →
    (t.timeSpent_ns.toNat : ℚ) ≤ timeOf e w0.runs loops * (1 + 10 / 2^53) →
    ((loops = [] ∧ t.timeSpent_ns.toNat = 0 ∧ 0 < t.timeBudget_ns.toNat ∧ t.nbLoops.toNat = 1) ∨ loops.head? = some 1 ∧ ∃ r n, result = some r ∧ loops.getLast? = some n ∧ 1 ≤ n ∧ n < 2 ^ 32 ∧
      t.runBudget_ns.toNat / 2 ≤ (e.elapsed (w.runs - 1) n).toNat ∧
      r.nanoSecPerRun = e.fp.rnd (e.fp.rnd (e.elapsed (w.runs - 1) n).toNat / e.fp.rnd n)) →
    ∃ r w' loops' n, measureLoop e fn mode src sizes fuelRuns (fuel + 1) t result w = .done (some r, w') ∧
      Ran e fn mode src.bytes sizes loops' w0 w' ∧ loops'.getLast? = some n ∧ 1 ≤ n ∧ n < 2 ^ 32 ∧
      t.runBudget_ns.toNat / 2 ≤ (e.elapsed (w'.runs - 1) n).toNat ∧
      r.nanoSecPerRun = e.fp.rnd (e.fp.rnd (e.elapsed (w'.runs - 1) n).toNat / e.fp.rnd n) ∧
      t.timeBudget_ns.toNat ≤ timeOf e w0.runs loops' ∧ loops'.head? = some 1
  | fuel, t, result, w, loops, hL, hB, hB2, hbest, hT, hfu, hran, hsp, hres => by
    unfold measureLoop
    by_cases hcomp : t.timeBudget_ns.toNat ≤ t.timeSpent_ns.toNat
    · have hc : isCompleted t = true := by
        unfold isCompleted
        rw [decide_eq_true_eq, BitVec.le_def]
        exact hcomp
      rw [if_pos hc]
      rcases hres with ⟨_, h0, h1, _⟩ | ⟨h6, r, n, rfl, h1, h2, h3, h4, h5⟩
      · omega
      · refine ⟨r, w, loops, n, rfl, hran, h1, h2, h3, h4, h5, ?_, h6⟩
        by_contra hlt
        have l1 : ((timeOf e w0.runs loops : ℕ) : ℚ) + 1 ≤ (t.timeBudget_ns.toNat : ℚ) := by
          exact_mod_cast Nat.lt_of_not_le hlt
        have l2 : (t.timeBudget_ns.toNat : ℚ) ≤ t.timeSpent_ns.toNat := by exact_mod_cast hcomp
        have l3 : (t.timeBudget_ns.toNat : ℚ) ≤ 1099511627776 := by exact_mod_cast hT
        norm_num at hsp
        linarith
    · have hc : ¬ isCompleted t = true := by
        unfold isCompleted
        rw [decide_eq_true_eq, BitVec.le_def]
        exact hcomp
      rw [if_neg hc]
      match fuel, hfu with
      | 0, hfu => omega
      | fuel + 1, hfu =>
        obtain ⟨r, L, d, w', ls, n, c1, c2, c3, c4, c5, c6, c7, c8, c9, c10⟩ :=
          benchTimedFn_eq h hclock hfn mode hsrc hs fuelRuns 0 t w (by omega) hL hB hB2 hbest (by omega)
        have hadd : (t.timeSpent_ns + BitVec.ofNat 64 d).toNat = t.timeSpent_ns.toNat + d := by
          rw [BitVec.toNat_add, BitVec.toNat_ofNat]
          omega
        have hran' := ran_append hran c2
        obtain ⟨r', w'', loops', n', d1, d2⟩ := measureLoop_eq h hclock hfn mode hsrc hs hfuel (w0 := w0) fuel
          { t with timeSpent_ns := t.timeSpent_ns + BitVec.ofNat 64 d, nbLoops := L } (some r) w' (loops ++ (ls ++ [n]))
          c3 hB hB2 hbest hT
          (by
            show t.timeBudget_ns.toNat ≤ (t.timeSpent_ns + BitVec.ofNat 64 d).toNat +
              fuel * (t.runBudget_ns.toNat / 2 - 1)
            rw [hadd]
            have : (fuel + 1) * (t.runBudget_ns.toNat / 2 - 1) =
              fuel * (t.runBudget_ns.toNat / 2 - 1) + (t.runBudget_ns.toNat / 2 - 1) := by ring
            omega)
          hran'
          (by
            show ((t.timeSpent_ns + BitVec.ofNat 64 d).toNat : ℚ) ≤ _
            rw [hadd, timeOf_append, ← hran.2]
            push_cast
            linarith)
          (.inr ⟨by
            rcases hres with ⟨rfl, _, _, h1⟩ | ⟨h1, _⟩
            · rw [List.nil_append, c10.2, h1]
            · rw [List.head?_append, h1]
              rfl, r, n, rfl, by simp, c7, c8, c9, c10.1⟩)
        refine ⟨r', w'', loops', n', ?_, d2⟩
        show Run.bind (benchTimedFn e fn mode src sizes fuelRuns t w) _ = _
        rw [c1]
        exact d1

/-! ### One benchmark -/

theorem initBuffer_length : ∀ (n : Nat) (acc : W64), (initBuffer n acc).length = n
  | 0, _ => rfl
  | n + 1, acc => by
    unfold initBuffer
    simp only [List.length_cons, initBuffer_length n]

theorem initBuffer_gen : ∀ (n : Nat) (acc : W64), initBuffer n acc =
    (List.range n).map fun i => BitVec.ofNat 8 (acc.toNat * 11400714785074694791 ^ (i + 1) % 2 ^ 64 / 2 ^ 56)
  | 0, _ => rfl
  | n + 1, acc => by
    unfold initBuffer
    have hk : (11400714785074694791 : W64).toNat = 11400714785074694791 := by simp
    show (((acc * 11400714785074694791) >>> 56).setWidth 8 :: initBuffer n (acc * 11400714785074694791) : List Byte) = _
    rw [List.range_succ_eq_map, List.map_cons, List.map_map, initBuffer_gen n]
    congr 1
    · apply BitVec.eq_of_toNat_eq
      rw [BitVec.toNat_setWidth, BitVec.toNat_ushiftRight, BitVec.toNat_mul, hk, BitVec.toNat_ofNat, Nat.shiftRight_eq_div_pow,
        pow_one]
    · apply List.map_congr_left
      intro i _
      show _ = BitVec.ofNat 8 (acc.toNat * _ ^ (i + 1 + 1) % 2 ^ 64 / 2 ^ 56)
      rw [BitVec.toNat_mul, hk, Nat.mod_mul_mod, Nat.pow_succ' (n := i + 1), Nat.mul_assoc]

theorem initBuffer_eq (n : Nat) : initBuffer n 14029467366897019727 = bufferOf n := by
  rw [initBuffer_gen, show (14029467366897019727 : W64).toNat = 14029467366897019727 by simp]
  rfl

theorem selectSizes_fixed (e : Env) (size : Nat) (w : World) : ∀ n,
    selectSizes e .fixedSize size n w = (List.replicate n size, w)
  | 0 => rfl
  | n + 1 => by
    unfold selectSizes
    simp only [selectSizes_fixed e size w n, List.replicate_succ]

theorem selectSizes_random (e : Env) (size : Nat) : ∀ n (w : World),
    selectSizes e .randomSize size n w =
      ((List.range n).map fun i => (e.rand ((fun s => (e.rand s).2)^[i] w.rnd)).1 % size + 1,
       { w with rnd := (fun s => (e.rand s).2)^[n] w.rnd })
  | 0, w => rfl
  | n + 1, w => by
    unfold selectSizes
    simp only [selectSizes_random e size n, List.range_succ_eq_map, List.map_cons, List.map_map, Function.iterate_succ,
      Function.iterate_zero, Function.comp_def, id_eq]

/-- The state of the generator after the sizes are drawn. -/
theorem selectSizes_eq (e : Env) (sizeMode : SizeMode) (size : Nat) (w : World) :
    ∃ s, selectSizes e sizeMode size (min 1000 (200000 / size + 1)) w = (blockSizes e sizeMode size w.rnd, { w with rnd := s }) := by
  cases sizeMode with
  | fixedSize => exact ⟨w.rnd, by rw [selectSizes_fixed]; simp [blockSizes, List.map_const']⟩
  | randomSize => exact ⟨_, by rw [selectSizes_random]; rfl⟩

theorem blockSizes_le (e : Env) (sizeMode : SizeMode) {size : Nat} (h0 : 0 < size) (s : Nat) :
    ∀ x ∈ blockSizes e sizeMode size s, 1 ≤ x ∧ x ≤ size := by
  intro x hx
  unfold blockSizes at hx
  obtain ⟨i, _, rfl⟩ := List.mem_map.mp hx
  cases sizeMode with
  | fixedSize => exact ⟨h0, le_refl _⟩
  | randomSize =>
    have := Nat.mod_lt (e.rand ((fun s => (e.rand s).2)^[i] s)).1 h0
    exact ⟨by show 1 ≤ _ % size + 1; omega, by show _ % size + 1 ≤ size; omega⟩

theorem ms_to_ns (x : W32) : (x.setWidth 64 * 1000000000 / 1000 : W64).toNat = x.toNat * 1000000 := by
  have a := x.isLt
  have h1 : (x.setWidth 64 : W64).toNat = x.toNat := by
    rw [BitVec.toNat_setWidth]
    exact Nat.mod_eq_of_lt (by omega)
  have h2 : (1000000000 : W64).toNat = 1000000 * 1000 := by simp
  have h3 : (1000 : W64).toNat = 1000 := by simp
  rw [BitVec.toNat_udiv, BitVec.toNat_mul, h1, h2, h3, Nat.mod_eq_of_lt (by omega), ← Nat.mul_assoc,
    Nat.mul_div_cancel _ (by norm_num)]

theorem resetTimed_budgets (cfg : Cfg) {total_ms iter_ms : W32} (h1 : 1 ≤ iter_ms.toNat)
    (h2 : iter_ms.toNat ≤ total_ms.toNat) :
    (resetTimed cfg total_ms iter_ms).timeBudget_ns.toNat = total_ms.toNat * 1000000 ∧
    (resetTimed cfg total_ms iter_ms).runBudget_ns.toNat = iter_ms.toNat * 1000000 := by
  have ht : total_ms ≠ 0 := by rintro rfl; simp at h2; simp [h2] at h1
  have hi : iter_ms ≠ 0 := by rintro rfl; simp at h1
  have hlt : ¬ total_ms < iter_ms := by rw [BitVec.lt_def]; omega
  unfold resetTimed
  simp only [if_neg ht, if_neg hi, if_neg hlt]
  exact ⟨ms_to_ns _, ms_to_ns _⟩

theorem bench_hash_eq {e : Env} (h : MachineOK e) (hclock : ClockOK e) {fn : Nat} (hfn : fn < 4) (mode : Mode)
    (sizeMode : SizeMode) {size : Nat} (h0 : 0 < size) (h31 : size < 2 ^ 31) (ha : e.alloc (size + 1024) = true)
    {fuel : Nat} (hfuel : 33 ≤ fuel) {total_ms iter_ms : W32} (h1 : 1 ≤ iter_ms.toNat) (h500 : iter_ms.toNat ≤ 500)
    (h2 : iter_ms.toNat ≤ total_ms.toNat) (h15 : total_ms.toNat ≤ 15 * iter_ms.toNat) (w : World) :
    ∃ (rate : ℚ) (w' : World) (loops : List Nat) (n : Nat) (s' : Nat),
      bench_hash e fuel fn mode size sizeMode total_ms iter_ms w = .done (rate, w') ∧
      Hashed e fn mode (bufferOf (size + 1024))
        (inputsOf (blockSizes e sizeMode size w.rnd) (loops ++ [n])) { w with rnd := s' } w' ∧
      w'.runs = w.runs + loops.length + 1 ∧ 1 ≤ n ∧
      iter_ms.toNat * 1000000 / 2 ≤ (e.elapsed (w'.runs - 1) n).toNat ∧
      total_ms.toNat * 1000000 ≤ timeOf e w.runs (loops ++ [n]) ∧ (loops ++ [n]).head? = some 1 ∧
      Near 15 (1000000000 / ((e.elapsed (w'.runs - 1) n).toNat / n) * (min 1000 (200000 / size + 1) : ℕ)) rate := by
  have hbits : (2 : Nat) ^ 32 ≤ 2 ^ e.cfg.sizeBits := Nat.pow_le_pow_right (by norm_num) h.size
  have hts : toSize e.cfg (size + MARGIN_FOR_LATENCY) = size + 1024 :=
    Nat.mod_eq_of_lt (by show size + 1024 < _; omega)
  have hq : 200000 / size ≤ 200000 := Nat.div_le_self _ _
  have htn : toSize e.cfg (200000 / size + 1) = 200000 / size + 1 := Nat.mod_eq_of_lt (by omega)
  have hnb : (if 1000 < 200000 / size + 1 then 1000 else 200000 / size + 1) = min 1000 (200000 / size + 1) := by
    split <;> omega
  obtain ⟨b1, b2⟩ := resetTimed_budgets e.cfg h1 h2
  obtain ⟨s', hsel⟩ := selectSizes_eq e sizeMode size w
  have hlen : (initBuffer (size + 1024) 14029467366897019727).length = size + 1024 := initBuffer_length _ _
  obtain ⟨fuel', rfl⟩ : ∃ f, fuel = f + 1 := ⟨fuel - 1, by omega⟩
  obtain ⟨r, w', loops', n, c1, c2, c3, c4, c5, c6, c7, c8, c11⟩ := measureLoop_eq h hclock hfn mode
    (src := ⟨e.srcAddr, initBuffer (size + 1024) 14029467366897019727⟩)
    (by show (initBuffer _ _).length < _; rw [hlen]; exact h.alloc _ ha)
    (sizes := blockSizes e sizeMode size w.rnd)
    (fun x hx => by
      show x + 1024 ≤ (initBuffer _ _).length
      have := blockSizes_le e sizeMode h0 _ x hx
      omega)
    (fuelRuns := fuel' + 1) hfuel (w0 := { w with rnd := s' }) fuel' (resetTimed e.cfg total_ms iter_ms) none
    { w with rnd := s' } [] (le_refl 1) (by rw [b2]; omega) (by rw [b2]; omega) rfl (by rw [b1]; omega)
    (by
      rw [b1, b2]
      have : 32 * (iter_ms.toNat * 1000000 / 2 - 1) ≤ fuel' * (iter_ms.toNat * 1000000 / 2 - 1) :=
        Nat.mul_le_mul_right _ (by omega)
      omega)
    (ran_nil _ _ _ _ _ _) (by simp [resetTimed, timeOf]) (.inl ⟨rfl, rfl, by rw [b1]; omega, rfl⟩)
  rw [b2] at c6
  rw [b1] at c8
  obtain ⟨loops, rfl⟩ : ∃ l, loops' = l ++ [n] := by
    obtain ⟨l, hl⟩ := List.getLast?_eq_some_iff.mp c3
    exact ⟨l, hl⟩
  set T := (e.elapsed (w'.runs - 1) n).toNat with hTdef
  have hT1 : 1 ≤ T := by omega
  have hT0 : (0 : ℚ) < T := by exact_mod_cast hT1
  have hn0 : (0 : ℚ) < n := by exact_mod_cast c4
  have np : Near 6 ((T : ℚ) / n) r.nanoSecPerRun := c7 ▸ near_perRun h.fp hT1 c4 c5
  have hTn : (0 : ℚ) < T / n := div_pos hT0 hn0
  have p0 := np.pos (by norm_num) hTn
  have hT60 : (T : ℚ) ≤ 2 ^ 60 := by exact_mod_cast (hclock _ _ c5).2.le
  set nb := min 1000 (200000 / size + 1) with hnbdef
  have hnb1 : 1 ≤ nb := Nat.le_min.mpr ⟨by norm_num, Nat.succ_pos _⟩
  have hnb2 : nb < 1024 := lt_of_le_of_lt (Nat.min_le_left _ _) (by norm_num)
  have hnb0 : (0 : ℚ) < nb := by exact_mod_cast hnb1
  have hone : (1 : ℚ) / 2^900 * 2^60 ≤ 1 := by
    rw [one_div_mul_eq_div, div_le_one (by positivity)]
    exact pow_le_pow_right₀ (by norm_num) (by norm_num)
  have hg : (1 : ℚ) / 2^900 ≤ 1000000000 / ((T : ℚ) / n) := by
    rw [le_div_iff₀ hTn]
    refine le_trans (mul_le_mul_of_nonneg_left (le_trans (div_le_self hT0.le (by exact_mod_cast c4)) hT60) (by positivity)) (le_trans hone (by norm_num))
  have n1 : Near 1 (1000000000 : ℚ) (e.fp.rnd 1000000000) := by
    have := near_nat h.fp 1000000000
    exact_mod_cast this
  have n2 := (n1.div (by norm_num) (by norm_num) np (by norm_num) hTn).rnd h.fp (by norm_num) hg
  have n3 := (n2.mul (by norm_num) (by norm_num) (near_nat h.fp nb) (div_pos (by norm_num) hTn) hnb0).rnd h.fp (by norm_num)
    (le_trans hg (le_mul_of_one_le_right (div_pos (by norm_num) hTn).le (by exact_mod_cast hnb1)))
  refine ⟨_, w', loops, n, s', ?_, initBuffer_eq (size + 1024) ▸ c2.1, by rw [c2.2]; simp; omega, c4, c6, c8, c11, n3⟩
  unfold bench_hash bench_hash_internal
  simp only [if_neg (show ¬ size = 0 by omega), htn, hnb, hts, ha, not_true_eq_false, if_false,
    if_neg (not_not.mpr hnb2), if_neg (show ¬ ¬ 0 < size by omega), hsel]
  show Run.bind (measureLoop _ _ _ _ _ _ _ _ _ _) _ = _
  rw [c1]
  show (if r.nanoSecPerRun = 0 then _ else _) = _
  rw [if_neg p0.ne']
  rfl
end XXH.Proof.TestBench
