import Verif.Proof.TestBench
import Verif.Proof.CliNum
/-!
Lemmas about the tables and the command line of the benchmark program of the tests.
-/
namespace XXH.Proof.TestBench
open XXH.Model XXH.Model.TestBench XXH.Props XXH.BenchTerms XXH.TestBenchTerms
open XXH.Model.Bench (Fp Run)
open XXH.Spec.Cli (decVal decimal txt)

/-! ### Tables -/

theorem near_abs {i : ℕ} (hi : i ≤ 32) {a b : ℚ} (ha : 0 < a) (h : Near i a b) : |b - a| ≤ a / 2 ^ 48 := by
  have hi' : (i : ℚ) / 2^53 ≤ 32 / 2^53 := div_le_div_of_nonneg_right (by exact_mod_cast hi) (by positivity)
  have h1 : a * (i / 2^53) ≤ a / 2 ^ 48 := by
    refine le_trans (mul_le_mul_of_nonneg_left hi' ha.le) (le_of_eq ?_)
    norm_num
    ring
  obtain ⟨l, r⟩ := h
  rw [abs_le]
  constructor <;> nlinarith

theorem cells_seq {α : Type} {f : α → World → Run (ℚ × World)} {R : α → World → ℚ → World → Prop} : ∀ (as : List α),
    (∀ a ∈ as, ∀ w, ∃ c w', f a w = .done (c, w') ∧ R a w c w') →
    ∀ w, ∃ cs w', cells f as w = .done (cs, w') ∧ Seq R as w cs w'
  | [], _, w => ⟨[], w, rfl, rfl, rfl⟩
  | a :: as, h, w => by
    obtain ⟨c, w1, h1, h2⟩ := h a List.mem_cons_self w
    obtain ⟨cs, w2, h3, h4⟩ := cells_seq as (fun b hb => h b (List.mem_cons_of_mem _ hb)) w1
    refine ⟨c :: cs, w2, ?_, c, cs, w1, rfl, h2, h4⟩
    show Run.bind (f a w) _ = _
    rw [h1]
    show Run.bind (cells f as w1) _ = _
    rw [h3]
    rfl

theorem rows_seq {f : Nat → World → Run (List ℚ × World)} {R : Nat → World → Line → World → Prop} : ∀ (n first : Nat),
    (∀ i, first ≤ i → i < first + n → ∀ w, ∃ cs w', f i w = .done (cs, w') ∧ R i w (.row i cs) w') →
    ∀ w, ∃ ls w', rows f first n w = .done (ls, w') ∧ Seq R (List.range' first n) w ls w'
  | 0, _, _, w => ⟨[], w, rfl, rfl, rfl⟩
  | n + 1, first, h, w => by
    obtain ⟨c, w1, h1, h2⟩ := h first (le_refl _) (by omega) w
    obtain ⟨cs, w2, h3, h4⟩ := rows_seq n (first + 1) (fun i hi hi2 => h i (by omega) (by omega)) w1
    refine ⟨.row first c :: cs, w2, ?_, ?_⟩
    · show Run.bind (f first w) _ = _
      rw [h1]
      show Run.bind (rows f (first + 1) n w1) _ = _
      rw [h3]
      rfl
    · rw [List.range'_succ]
      exact ⟨_, cs, w1, rfl, h2, h4⟩

theorem exact_pos {n t nb : ℕ} (hn : 1 ≤ n) (ht : 1 ≤ t) (hnb : 1 ≤ nb) :
    (0 : ℚ) < (nb : ℚ) * n * 1000000000 / t := by
  have : (0 : ℚ) < n := by exact_mod_cast hn
  have : (0 : ℚ) < t := by exact_mod_cast ht
  have : (0 : ℚ) < nb := by exact_mod_cast hnb
  positivity

theorem exact_eq {n t nb : ℕ} (hn : 1 ≤ n) (ht : 1 ≤ t) :
    (1000000000 : ℚ) / ((t : ℚ) / n) * nb = (nb : ℚ) * n * 1000000000 / t := by
  have : (n : ℚ) ≠ 0 := by exact_mod_cast (by omega : n ≠ 0)
  have : (t : ℚ) ≠ 0 := by exact_mod_cast (by omega : t ≠ 0)
  field_simp

theorem nb_pos (size : Nat) : 1 ≤ min 1000 (200000 / size + 1) := Nat.le_min.mpr ⟨by norm_num, Nat.succ_pos _⟩

theorem smallCell_eq {e : Env} (h : MachineOK e) (hclock : TestBenchTerms.ClockOK e) {fuel : Nat} (hfuel : 33 ≤ fuel)
    {fn : Nat} (hfn : fn < 4) {T : Table} (hT : T.large = false) {size : Nat} (h0 : 0 < size) (h31 : size < 2 ^ 31)
    (ha : e.alloc (size + 1024) = true) (w : World) :
    ∃ c w', bench_hash e fuel fn T.mode size T.sizeMode 490 170
        (match T.sizeMode with
          | .fixedSize => w
          | .randomSize => { w with rnd := e.srand (BitVec.ofNat 32 size) }) = .done (c, w') ∧
      CellOK e T fn size w c w' := by
  cases hm : T.sizeMode with
  | fixedSize =>
    obtain ⟨c, w', loops, n, s', a1, a2, a3, a4, a5, a6, a7, a8⟩ := bench_hash_eq h hclock hfn T.mode .fixedSize h0 h31 ha
      hfuel (total_ms := 490) (iter_ms := 170) (by decide) (by decide) (by decide) (by decide) w
    refine ⟨c, w', a1, loops, n, w.rnd, s', (by rw [hm]; intro x; cases x), ?_, a3, a4, ?_, ?_, ?_⟩
    · rw [hm]; exact a2
    · unfold Table.total; rw [hT]; exact a6
    · unfold Table.iter; rw [hT]
      have : (170 : W32).toNat * 1000000 / 2 ≤ (e.elapsed (w'.runs - 1) n).toNat := a5
      have e1 : (170 : W32).toNat = 170 := rfl
      rw [e1] at this
      exact le_trans (by norm_num) this
    · have ht : 1 ≤ (e.elapsed (w'.runs - 1) n).toNat := by
        have e1 : (170 : W32).toNat = 170 := rfl
        rw [e1] at a5
        exact le_trans (by norm_num) a5
      have hp := exact_pos a4 ht (nb_pos size)
      rw [exact_eq a4 ht] at a8
      simp only [hT, Bool.false_eq_true, if_false, mul_one]
      exact near_abs (by norm_num) hp a8
  | randomSize =>
    obtain ⟨c, w', loops, n, s', a1, a2, a3, a4, a5, a6, a7, a8⟩ := bench_hash_eq h hclock hfn T.mode .randomSize h0 h31 ha
      hfuel (total_ms := 490) (iter_ms := 170) (by decide) (by decide) (by decide) (by decide)
      { w with rnd := e.srand (BitVec.ofNat 32 size) }
    refine ⟨c, w', a1, loops, n, e.srand (BitVec.ofNat 32 size), s', fun _ => rfl, ?_, a3, a4, ?_, ?_, ?_⟩
    · rw [hm]; exact a2
    · unfold Table.total; rw [hT]; exact a6
    · unfold Table.iter; rw [hT]
      have : (170 : W32).toNat * 1000000 / 2 ≤ (e.elapsed (w'.runs - 1) n).toNat := a5
      have e1 : (170 : W32).toNat = 170 := rfl
      rw [e1] at this
      exact le_trans (by norm_num) this
    · have ht : 1 ≤ (e.elapsed (w'.runs - 1) n).toNat := by
        have e1 : (170 : W32).toNat = 170 := rfl
        rw [e1] at a5
        exact le_trans (by norm_num) a5
      have hp := exact_pos a4 ht (nb_pos size)
      rw [exact_eq a4 ht] at a8
      simp only [hT, Bool.false_eq_true, if_false, mul_one]
      exact near_abs (by norm_num) hp a8

theorem largeCell_eq {e : Env} (h : MachineOK e) (hclock : TestBenchTerms.ClockOK e) {fuel : Nat} (hfuel : 33 ≤ fuel)
    {fn : Nat} (hfn : fn < 4) {T : Table} (hT : T.large = true) (hm : T.mode = .throughput) (hs : T.sizeMode = .fixedSize)
    {size : Nat} (h0 : 0 < size) (h31 : size < 2 ^ 31) (ha : e.alloc (size + 1024) = true) (w : World) :
    ∃ rate w', bench_hash e fuel fn .throughput size .fixedSize 1010 490 w = .done (rate, w') ∧
      CellOK e T fn size w (e.fp.rnd (e.fp.rnd (rate * e.fp.rnd size) / e.fp.rnd 1000000)) w' := by
  obtain ⟨c, w', loops, n, s', a1, a2, a3, a4, a5, a6, a7, a8⟩ := bench_hash_eq h hclock hfn .throughput .fixedSize h0 h31 ha
    hfuel (total_ms := 1010) (iter_ms := 490) (by decide) (by decide) (by decide) (by decide) w
  have e1 : (490 : W32).toNat = 490 := rfl
  rw [e1] at a5
  refine ⟨c, w', a1, loops, n, w.rnd, s', (by rw [hs]; intro x; cases x), ?_, a3, a4, ?_, ?_, ?_⟩
  · rw [hm, hs]; exact a2
  · unfold Table.total; rw [hT]; exact a6
  · unfold Table.iter; rw [hT]
    exact le_trans (by norm_num) a5
  · have ht : 1 ≤ (e.elapsed (w'.runs - 1) n).toNat := le_trans (by norm_num) a5
    have hp := exact_pos a4 ht (nb_pos size)
    rw [exact_eq a4 ht] at a8
    simp only [hT, if_true]
    have hT60 : ((e.elapsed (w'.runs - 1) n).toNat : ℚ) ≤ 2 ^ 64 := by exact_mod_cast (e.elapsed (w'.runs - 1) n).isLt.le
    set ex : ℚ := (min 1000 (200000 / size + 1) : ℕ) * n * 1000000000 / (e.elapsed (w'.runs - 1) n).toNat with hex
    have hs0 : (0 : ℚ) < size := by exact_mod_cast h0
    have hs1 : (1 : ℚ) ≤ size := by exact_mod_cast h0
    have hbig : (1 : ℚ) / 2 ^ 64 ≤ ex := by
      rw [hex]
      have hn1 : (1 : ℚ) ≤ n := by exact_mod_cast a4
      have hnb1 : (1 : ℚ) ≤ (min 1000 (200000 / size + 1) : ℕ) := by exact_mod_cast nb_pos size
      have ht0 : (0 : ℚ) < (e.elapsed (w'.runs - 1) n).toNat := by exact_mod_cast ht
      refine div_le_div₀ (by positivity) ?_ ht0 hT60
      nlinarith [mul_le_mul hnb1 hn1 (by norm_num) (by positivity)]
    have tiny1 : (1 : ℚ) / 2 ^ 900 ≤ 1 / 2 ^ 64 / 1000000 := by
      rw [div_div]
      refine one_div_le_one_div_of_le (by positivity) ?_
      refine le_trans (b := (2 : ℚ) ^ 64 * 2 ^ 20) (by norm_num) ?_
      rw [← pow_add]
      exact pow_le_pow_right₀ (by norm_num) (by norm_num)
    have hmul : ex ≤ ex * size := le_mul_of_one_le_right hp.le hs1
    have n1 := (a8.mul (by norm_num) (by norm_num) (near_nat h.fp size) hp hs0).rnd h.fp (by norm_num)
      (le_trans tiny1 (le_trans (div_le_self (by positivity) (by norm_num)) (le_trans hbig hmul)))
    have nm : Near 1 (1000000 : ℚ) (e.fp.rnd 1000000) := by
      have := near_nat h.fp 1000000
      exact_mod_cast this
    have n2 := (n1.div (by norm_num) (by norm_num) nm (by positivity) (by norm_num)).rnd h.fp (by norm_num)
      (le_trans tiny1 (div_le_div_of_nonneg_right (le_trans hbig hmul) (by norm_num)))
    rw [mul_div_assoc] at n2
    exact near_abs (by norm_num) (by positivity) n2

/-- The sizes the tables ask for are possible, and `malloc` provides the buffers. -/
def SizesOK (e : Env) (o : Opts) : Prop := ∀ T ∈ tables o, ∀ s ∈ T.sizes, 0 < s ∧ s < 2 ^ 31 ∧ e.alloc (s + 1024) = true

theorem smallTable_eq {e : Env} (h : MachineOK e) (hclock : TestBenchTerms.ClockOK e) {fuel : Nat} (hfuel : 33 ≤ fuel)
    {o : Opts} (ho : o.hashNb + o.nb_h_test ≤ 4) {T : Table} (hT : T.large = false)
    (hsz : T.sizes = List.range' o.smallTest_size_min (o.smallTest_size_max + 1 - o.smallTest_size_min))
    (hs : ∀ s ∈ T.sizes, 0 < s ∧ s < 2 ^ 31 ∧ e.alloc (s + 1024) = true) (w : World) :
    ∃ ls w', smallTable e fuel T.mode T.sizeMode T.heading o.hashNb o.nb_h_test o.smallTest_size_min o.smallTest_size_max w =
      .done (ls, w') ∧ TableOK e o T w ls w' := by
  obtain ⟨ls, w', h1, h2⟩ := rows_seq (f := smallRow e fuel T.mode T.sizeMode o.smallTest_size_min o.smallTest_size_max)
    (R := RowOK e T) o.nb_h_test o.hashNb (fun i _ hi w => by
      obtain ⟨cs, w', c1, c2⟩ := cells_seq (R := CellOK e T i) T.sizes
        (fun s hmem w => smallCell_eq h hclock hfuel (show i < 4 by omega) hT (hs s hmem).1 (hs s hmem).2.1 (hs s hmem).2.2 w) w
      refine ⟨cs, w', ?_, cs, rfl, c2⟩
      unfold smallRow
      rw [← hsz]
      exact c1) w
  refine ⟨T.heading :: ls, w', ?_, ls, rfl, h2⟩
  show Run.bind (rows _ _ _ _) _ = _
  rw [h1]
  rfl

theorem largeTable_eq {e : Env} (h : MachineOK e) (hclock : TestBenchTerms.ClockOK e) {fuel : Nat} (hfuel : 33 ≤ fuel)
    {o : Opts} (ho : o.hashNb + o.nb_h_test ≤ 4) (hmax : o.largeTest_log_max < 31) {T : Table} (hT : T.large = true)
    (hm : T.mode = .throughput) (hsm : T.sizeMode = .fixedSize)
    (hh : T.heading = .large o.largeTest_log_min o.largeTest_log_max)
    (hsz : T.sizes = (List.range' o.largeTest_log_min (o.largeTest_log_max + 1 - o.largeTest_log_min)).map (2 ^ ·))
    (hs : ∀ s ∈ T.sizes, 0 < s ∧ s < 2 ^ 31 ∧ e.alloc (s + 1024) = true) (w : World) :
    ∃ ls w', bench_largeInput e fuel o.hashNb o.nb_h_test o.largeTest_log_min o.largeTest_log_max w =
      .done (ls, w') ∧ TableOK e o T w ls w' := by
  have seq_map : ∀ {R : Nat → World → ℚ → World → Prop} (l : List Nat) (w : World) (cs : List ℚ) (w' : World),
      Seq (fun k => R (2 ^ k)) l w cs w' → Seq R (l.map (2 ^ ·)) w cs w' := by
    intro R l
    induction l with
    | nil => exact fun _ _ _ h => h
    | cons a l ih =>
      rintro w cs w' ⟨b, bs, w1, h1, h2, h3⟩
      exact ⟨b, bs, w1, h1, h2, ih _ _ _ h3⟩
  obtain ⟨ls, w', h1, h2⟩ := rows_seq (f := largeRow e fuel o.largeTest_log_min o.largeTest_log_max)
    (R := RowOK e T) o.nb_h_test o.hashNb (fun i _ hi w => by
      obtain ⟨cs, w', c1, c2⟩ := cells_seq (R := fun k => CellOK e T i (2 ^ k))
        (f := fun sizelog w => do
          let inputSize := 2 ^ sizelog
          let (nbhps, w) ← bench_hash e fuel i .throughput inputSize .fixedSize 1010 490 w
          return (e.fp.rnd (e.fp.rnd (nbhps * e.fp.rnd inputSize) / e.fp.rnd 1000000), w))
        (List.range' o.largeTest_log_min (o.largeTest_log_max + 1 - o.largeTest_log_min))
        (fun k hmem w => by
          have hmem' : 2 ^ k ∈ T.sizes := by rw [hsz]; exact List.mem_map.mpr ⟨k, hmem, rfl⟩
          obtain ⟨a, b, c⟩ := hs _ hmem'
          obtain ⟨rate, w', d1, d2⟩ := largeCell_eq h hclock hfuel (show i < 4 by omega) hT hm hsm a b c w
          refine ⟨_, w', ?_, d2⟩
          show Run.bind (bench_hash _ _ _ _ _ _ _ _ _) _ = _
          rw [d1]
          show Run.done _ = Run.done _
          push_cast
          rfl) w
      exact ⟨cs, w', c1, cs, rfl, hsz ▸ seq_map _ _ _ _ c2⟩) w
  refine ⟨T.heading :: ls, w', ?_, ls, rfl, h2⟩
  unfold bench_largeInput
  simp only [if_neg (show ¬ ¬ (o.largeTest_log_max : ℤ) < 31 by omega),
    if_neg (show ¬ ¬ (0 : ℤ) ≤ o.largeTest_log_min by omega), Int.toNat_natCast]
  show Run.bind (rows _ _ _ _) _ = _
  rw [h1, hh]
  rfl

/-- The table for large inputs, if asked for. -/
def largeTables (o : Opts) : List Table :=
  if o.largeTest_log_min ≤ o.largeTest_log_max then
    [⟨.large o.largeTest_log_min o.largeTest_log_max, true, .throughput, .fixedSize,
      (List.range' o.largeTest_log_min (o.largeTest_log_max + 1 - o.largeTest_log_min)).map (2 ^ ·)⟩] else []

theorem largePart_eq {e : Env} (h : MachineOK e) (hclock : TestBenchTerms.ClockOK e) {fuel : Nat} (hfuel : 33 ≤ fuel)
    {o : Opts} (ho : o.hashNb + o.nb_h_test ≤ 4)
    (hmax : o.largeTest_log_min ≤ o.largeTest_log_max → o.largeTest_log_max < 31)
    (hs : ∀ T ∈ largeTables o, ∀ s ∈ T.sizes, 0 < s ∧ s < 2 ^ 31 ∧ e.alloc (s + 1024) = true) (w : World) :
    ∃ ls w1, (if o.largeTest_log_min ≤ o.largeTest_log_max then
        bench_largeInput e fuel o.hashNb o.nb_h_test o.largeTest_log_min o.largeTest_log_max w
      else Run.done ([], w)) = .done (ls.flatten, w1) ∧ Seq (TableOK e o) (largeTables o) w ls w1 := by
  unfold largeTables at hs ⊢
  by_cases hle : o.largeTest_log_min ≤ o.largeTest_log_max
  · simp only [if_pos hle] at hs ⊢
    obtain ⟨ls, w1, a, b⟩ := largeTable_eq h hclock hfuel ho (hmax hle)
      (T := ⟨.large o.largeTest_log_min o.largeTest_log_max, true, .throughput, .fixedSize, _⟩) rfl rfl rfl rfl rfl
      (hs _ List.mem_cons_self) w
    exact ⟨[ls], w1, by rw [a]; simp, ls, [], w1, rfl, b, rfl, rfl⟩
  · simp only [if_neg hle]
    exact ⟨[], w, rfl, rfl, rfl⟩

theorem benchmarks_eq {e : Env} (h : MachineOK e) (hclock : TestBenchTerms.ClockOK e) {fuel : Nat} (hfuel : 33 ≤ fuel)
    {o : Opts} (ho : o.hashNb + o.nb_h_test ≤ 4)
    (hmax : o.largeTest_log_min ≤ o.largeTest_log_max → o.largeTest_log_max < 31) (hs : SizesOK e o) (w : World) :
    ∃ tabs w', benchmarks e fuel o w = .done (tabs.flatten, w') ∧ Seq (TableOK e o) (tables o) w tabs w' := by
  unfold SizesOK tables at hs
  unfold benchmarks tables
  have small : o.smallTest_size_min ≤ o.smallTest_size_max → ∀ (heading : Line) (mode : Mode) (sizeMode : SizeMode) (w : World),
      ∃ ls w', smallTable e fuel mode sizeMode heading o.hashNb o.nb_h_test o.smallTest_size_min o.smallTest_size_max w =
        .done (ls, w') ∧ TableOK e o ⟨heading, false, mode, sizeMode,
          List.range' o.smallTest_size_min (o.smallTest_size_max + 1 - o.smallTest_size_min)⟩ w ls w' := by
    intro hle heading mode sizeMode w
    refine smallTable_eq h hclock hfuel ho (T := ⟨heading, false, mode, sizeMode, _⟩) rfl rfl ?_ w
    simp only [if_pos hle] at hs
    exact hs ⟨.throughputSmall o.smallTest_size_min o.smallTest_size_max, false, .throughput, .fixedSize, _⟩
      (List.mem_append_right _ List.mem_cons_self)
  obtain ⟨as, w1, a1, a2⟩ := largePart_eq h hclock hfuel ho hmax (fun T hT => hs T (List.mem_append_left _ hT)) w
  have seq_append : ∀ (l : List Table) (w : World) (a : List (List Line)) (w' : World) (l' : List Table)
      (b : List (List Line)) (w'' : World), Seq (TableOK e o) l w a w' → Seq (TableOK e o) l' w' b w'' →
      Seq (TableOK e o) (l ++ l') w (a ++ b) w'' := by
    intro l
    induction l with
    | nil =>
      rintro w a w' l' b w'' ⟨rfl, rfl⟩ h2
      exact h2
    | cons t l ih =>
      rintro w a w' l' b w'' ⟨x, xs, w1, rfl, h1, h3⟩ h2
      exact ⟨x, xs ++ b, w1, rfl, h1, ih _ _ _ _ _ _ h3 h2⟩
  by_cases hle : o.smallTest_size_min ≤ o.smallTest_size_max
  · obtain ⟨b, w2, b1, b2⟩ := small hle (.throughputSmall o.smallTest_size_min o.smallTest_size_max) .throughput .fixedSize w1
    obtain ⟨c, w3, c1, c2⟩ := small hle .throughputRandom .throughput .randomSize w2
    obtain ⟨d, w4, d1, d2⟩ := small hle .latencySmall .latency .fixedSize w3
    obtain ⟨f, w5, f1, f2⟩ := small hle .latencyRandom .latency .randomSize w4
    refine ⟨as ++ [b, c, d, f], w5, ?_, ?_⟩
    · show Run.bind _ _ = _
      rw [a1]
      show (if o.smallTest_size_min ≤ o.smallTest_size_max then _ else _) = _
      rw [if_pos hle]
      show Run.bind (smallTable _ _ _ _ _ _ _ _ _ _) _ = _
      rw [b1]
      show Run.bind (smallTable _ _ _ _ _ _ _ _ _ _) _ = _
      rw [c1]
      show Run.bind (smallTable _ _ _ _ _ _ _ _ _ _) _ = _
      rw [d1]
      show Run.bind (smallTable _ _ _ _ _ _ _ _ _ _) _ = _
      rw [f1]
      show Run.done _ = Run.done _
      simp
    · refine seq_append _ _ _ _ _ _ _ a2 ?_
      rw [if_pos hle]
      exact ⟨b, _, w2, rfl, b2, c, _, w3, rfl, c2, d, _, w4, rfl, d2, f, _, w5, rfl, f2, rfl, rfl⟩
  · refine ⟨as, w1, ?_, ?_⟩
    · show Run.bind _ _ = _
      rw [a1]
      show (if o.smallTest_size_min ≤ o.smallTest_size_max then _ else _) = _
      rw [if_neg hle]
      rfl
    · rw [if_neg hle, List.append_nil]
      exact a2

/-! ### The command line -/

theorem decVal_iff : ∀ c : Byte, decVal c = if 0x30 ≤ c ∧ c ≤ 0x39 then some (c.toNat - 0x30) else none := by
  decide +kernel

theorem readDigits_eq : ∀ (s : List Byte) (r : Nat),
    readDigits r s =
      if s.takeWhile (fun c => (decVal c).isSome) ≠ [] ∧
          214748363 ≤ (s.takeWhile fun c => (decVal c).isSome).dropLast.foldl (fun n c => 10 * n + (decVal c).getD 0) r then none
      else some ((s.takeWhile fun c => (decVal c).isSome).foldl (fun n c => 10 * n + (decVal c).getD 0) r,
        s.drop (s.takeWhile fun c => (decVal c).isSome).length)
  | [], r => by simp [readDigits]
  | c :: t, r => by
    unfold readDigits
    by_cases hd : 0x30 ≤ c ∧ c ≤ 0x39
    · have hv : decVal c = some (c.toNat - 0x30) := by rw [decVal_iff, if_pos hd]
      have htw : (c :: t).takeWhile (fun c => (decVal c).isSome) = c :: t.takeWhile (fun c => (decVal c).isSome) := by
        rw [List.takeWhile_cons_of_pos (by rw [hv]; rfl)]
      rw [if_pos hd, htw]
      have hlim : ((2 ^ 31 - 1) / 10 - 1 : Nat) = 214748363 := by norm_num
      rw [hlim]
      by_cases hr : r < 214748363
      · rw [if_neg (not_not.mpr hr), readDigits_eq t]
        have hstep : ∀ l : List Byte, (c :: l).foldl (fun n c => 10 * n + (decVal c).getD 0) r =
            l.foldl (fun n c => 10 * n + (decVal c).getD 0) (r * 10 + (c.toNat - 0x30)) := by
          intro l
          rw [List.foldl_cons, hv]
          congr 1
          show 10 * r + (c.toNat - 0x30) = _
          omega
        cases htt : t.takeWhile (fun c => (decVal c).isSome) with
        | nil =>
          rw [if_neg (by simp), if_neg (by
            simp only [List.dropLast_singleton, List.foldl_nil]
            omega), hstep]
          simp
        | cons d l =>
          rw [List.dropLast_cons_cons, hstep, hstep]
          simp only [ne_eq, reduceCtorEq, not_false_eq_true, true_and, List.length_cons, List.drop_succ_cons]
      · rw [if_pos hr, if_pos]
        refine ⟨by simp, le_trans (Nat.le_of_not_lt hr) ?_⟩
        exact CliP.decimal_from _ _
    · have hv : decVal c = none := by rw [decVal_iff, if_neg hd]
      have htw : (c :: t).takeWhile (fun c => (decVal c).isSome) = [] :=
        List.takeWhile_cons_of_neg (by rw [hv]; simp)
      rw [if_neg hd, htw]
      simp

theorem readInt_eq (s : List Byte) : readIntFromChar s = numberOf s := by
  unfold readIntFromChar numberOf
  rw [show readDigits 0 s =
      if s.takeWhile (fun c => (decVal c).isSome) ≠ [] ∧
          214748363 ≤ decimal (s.takeWhile fun c => (decVal c).isSome).dropLast then none
      else some (decimal (s.takeWhile fun c => (decVal c).isSome),
        s.drop (s.takeWhile fun c => (decVal c).isSome).length) from readDigits_eq s 0]
  set ds := s.takeWhile (fun c => (decVal c).isSome) with hds
  simp only
  by_cases hbig : 214748363 ≤ decimal ds.dropLast
  · have hne : ds ≠ [] := by rintro h; rw [h] at hbig; simp [decimal] at hbig
    rw [if_pos ⟨hne, hbig⟩, if_pos hbig]
    rfl
  · rw [if_neg (fun h => hbig h.2), if_neg hbig]
    generalize decimal ds = v
    cases ht : s.drop ds.length with
    | nil => rfl
    | cons c t =>
      simp only [List.head?_cons, Option.some.injEq]
      by_cases hK : c = 0x4B
      · subst hK
        rw [if_pos rfl]
        show (if ¬ v < 2 ^ 21 - 1 then none else some (v * 2 ^ 10)) = _
        by_cases hv : v < 2097151
        · rw [if_neg (by omega), if_pos hv]
        · rw [if_pos (by omega), if_neg hv]
      · rw [if_neg hK]
        by_cases hM : c = 0x4D
        · subst hM
          rw [if_pos rfl]
          show (if ¬ v < 2 ^ 21 - 1 then none else if ¬ v * 2 ^ 10 < 2 ^ 21 - 1 then none else some (v * 2 ^ 10 * 2 ^ 10)) = _
          by_cases hv : v < 2048
          · rw [if_neg (by omega), if_neg (by omega), if_pos hv]
            rw [Nat.mul_assoc, ← pow_add]
          · rw [if_neg hv]
            by_cases h21 : v < 2 ^ 21 - 1
            · rw [if_neg (not_not.mpr h21), if_pos (by omega)]
            · rw [if_pos h21]
        · rw [if_neg hM]
          simp only [Option.bind_eq_bind, Option.bind_some]
          split
          · rename_i heq; injection heq with h _; exact absurd h hK
          · rename_i heq; injection heq with h _; exact absurd h hM
          · rfl

theorem numberOf_lt {s : List Byte} {v : Nat} (h : numberOf s = some v) : v + 4 < 2 ^ 31 := by
  unfold numberOf at h
  simp only at h
  set ds := s.takeWhile (fun c => (decVal c).isSome) with hds
  split at h
  · cases h
  rename_i hb
  split at h
  · split at h <;> [(injection h with h; omega); cases h]
  split at h
  · split at h <;> [(injection h with h; omega); cases h]
  injection h with h
  rcases List.eq_nil_or_concat ds with hnil | ⟨l, c, hc⟩
  · rw [hnil] at h
    simp [decimal] at h
    omega
  · rw [hc] at h hb
    rw [List.concat_eq_append] at h hb
    rw [List.dropLast_concat] at hb
    unfold decimal at h hb
    rw [List.foldl_append] at h
    simp only [List.foldl_cons, List.foldl_nil] at h
    have h9 : (decVal c).getD 0 ≤ 9 := by
      rw [decVal_iff]
      split
      · rename_i hd
        have : c.toNat ≤ 0x39 := BitVec.le_def.mp hd.2
        show c.toNat - 0x30 ≤ 9
        omega
      · exact Nat.zero_le _
    omega

theorem hashID_text : ∀ id, id < 4 → hashID (Setting.hash id).text = some id := by decide

theorem name_eq (s n : List Byte) : (decide (s.length = n.length) && n.isPrefixOf s) = decide (s = n) := by
  rw [Bool.eq_iff_iff, Bool.and_eq_true, decide_eq_true_eq, decide_eq_true_eq, List.isPrefixOf_iff_prefix]
  constructor
  · rintro ⟨h1, h2⟩
    exact (h2.eq_of_length h1.symm).symm
  · rintro rfl
    exact ⟨rfl, List.prefix_refl _⟩

theorem hashID_iff (s : List Byte) (id : Nat) : hashID s = some id ↔ id < 4 ∧ s = (Setting.hash id).text := by
  constructor
  · intro h
    unfold hashID at h
    simp only [name_eq] at h
    have hm := List.mem_of_find?_eq_some h
    have hp := List.find?_some h
    have hlt : id < 4 := List.mem_range.mp hm
    refine ⟨hlt, ?_⟩
    rw [of_decide_eq_true hp]
    exact (show ∀ id, id < 4 → hashNames.getD id [] = (Setting.hash id).text by decide) id hlt
  · rintro ⟨h1, rfl⟩
    exact hashID_text id h1

/-- Not an option with a number, `-h…`, or `--list…`. -/
theorem prefix_false {p s : List Byte} (i : Nat) {a b : Byte} (hp : p[i]? = some a) (hs : s[i]? = some b) (hab : a ≠ b) :
    p.isPrefixOf s = false := by
  rw [Bool.eq_false_iff]
  intro h
  obtain ⟨t, rfl⟩ := List.isPrefixOf_iff_prefix.mp h
  have hi : i < p.length := (List.getElem?_eq_some_iff.mp hp).1
  rw [List.getElem?_append_left hi, hp] at hs
  exact hab (Option.some.inj hs)

theorem prefix_true (p s : List Byte) : p.isPrefixOf (p ++ s) = true :=
  List.isPrefixOf_iff_prefix.mpr (List.prefix_append _ _)

theorem longCommand_true (p s : List Byte) : longCommandWArg (p ++ s) p = some s := by
  unfold longCommandWArg
  rw [prefix_true, if_pos rfl, List.drop_left]

theorem longCommand_false {p s : List Byte} (h : p.isPrefixOf s = false) : longCommandWArg s p = none := by
  unfold longCommandWArg
  rw [h]
  rfl

theorem parseArgs_setting (st : Setting) (hst : st.OK) (args : List (List Byte)) (o : Opts) :
    parseArgs (st.text :: args) o = parseArgs args (st.apply o) := by
  have tn : txt "--n=" = sN := by decide
  have tminl : txt "--minl=" = sMinl := by decide
  have tmaxl : txt "--maxl=" = sMaxl := by decide
  have tmins : txt "--mins=" = sMins := by decide
  have tmaxs : txt "--maxs=" = sMaxs := by decide
  cases st with
  | n s v =>
    have hv : readIntFromChar s = some v := (readInt_eq s).trans hst
    show parseArgs ((txt "--n=" ++ s) :: args) o = _
    rw [tn]
    conv_lhs => unfold parseArgs
    rw [prefix_false (p := sH) (s := sN ++ s) 1 (a := 0x68) (b := 0x2d) rfl rfl (by decide),
      prefix_false (p := sList) (s := sN ++ s) 2 (a := 0x6c) (b := 0x6e) rfl rfl (by decide)]
    simp only [Bool.false_eq_true, if_false, longCommand_true, hv]
    rfl
  | minl s v =>
    have hv : readIntFromChar s = some v := (readInt_eq s).trans hst
    show parseArgs ((txt "--minl=" ++ s) :: args) o = _
    rw [tminl]
    conv_lhs => unfold parseArgs
    rw [prefix_false (p := sH) (s := sMinl ++ s) 1 (a := 0x68) (b := 0x2d) rfl rfl (by decide),
      prefix_false (p := sList) (s := sMinl ++ s) 2 (a := 0x6c) (b := 0x6d) rfl rfl (by decide)]
    simp only [Bool.false_eq_true, if_false, longCommand_true, hv,
      longCommand_false (prefix_false (p := sN) (s := sMinl ++ s) 2 (a := 0x6e) (b := 0x6d) rfl rfl (by decide))]
    rfl
  | maxl s v =>
    have hv : readIntFromChar s = some v := (readInt_eq s).trans hst
    show parseArgs ((txt "--maxl=" ++ s) :: args) o = _
    rw [tmaxl]
    conv_lhs => unfold parseArgs
    rw [prefix_false (p := sH) (s := sMaxl ++ s) 1 (a := 0x68) (b := 0x2d) rfl rfl (by decide),
      prefix_false (p := sList) (s := sMaxl ++ s) 2 (a := 0x6c) (b := 0x6d) rfl rfl (by decide)]
    simp only [Bool.false_eq_true, if_false, longCommand_true, hv,
      longCommand_false (prefix_false (p := sN) (s := sMaxl ++ s) 2 (a := 0x6e) (b := 0x6d) rfl rfl (by decide)),
      longCommand_false (prefix_false (p := sMinl) (s := sMaxl ++ s) 3 (a := 0x69) (b := 0x61) rfl rfl (by decide))]
    rfl
  | mins s v =>
    have hv : readIntFromChar s = some v := (readInt_eq s).trans hst
    show parseArgs ((txt "--mins=" ++ s) :: args) o = _
    rw [tmins]
    conv_lhs => unfold parseArgs
    rw [prefix_false (p := sH) (s := sMins ++ s) 1 (a := 0x68) (b := 0x2d) rfl rfl (by decide),
      prefix_false (p := sList) (s := sMins ++ s) 2 (a := 0x6c) (b := 0x6d) rfl rfl (by decide)]
    simp only [Bool.false_eq_true, if_false, longCommand_true, hv,
      longCommand_false (prefix_false (p := sN) (s := sMins ++ s) 2 (a := 0x6e) (b := 0x6d) rfl rfl (by decide)),
      longCommand_false (prefix_false (p := sMinl) (s := sMins ++ s) 5 (a := 0x6c) (b := 0x73) rfl rfl (by decide)),
      longCommand_false (prefix_false (p := sMaxl) (s := sMins ++ s) 3 (a := 0x61) (b := 0x69) rfl rfl (by decide))]
    rfl
  | maxs s v =>
    have hv : readIntFromChar s = some v := (readInt_eq s).trans hst
    show parseArgs ((txt "--maxs=" ++ s) :: args) o = _
    rw [tmaxs]
    conv_lhs => unfold parseArgs
    rw [prefix_false (p := sH) (s := sMaxs ++ s) 1 (a := 0x68) (b := 0x2d) rfl rfl (by decide),
      prefix_false (p := sList) (s := sMaxs ++ s) 2 (a := 0x6c) (b := 0x6d) rfl rfl (by decide)]
    simp only [Bool.false_eq_true, if_false, longCommand_true, hv,
      longCommand_false (prefix_false (p := sN) (s := sMaxs ++ s) 2 (a := 0x6e) (b := 0x6d) rfl rfl (by decide)),
      longCommand_false (prefix_false (p := sMinl) (s := sMaxs ++ s) 3 (a := 0x69) (b := 0x61) rfl rfl (by decide)),
      longCommand_false (prefix_false (p := sMaxl) (s := sMaxs ++ s) 5 (a := 0x6c) (b := 0x73) rfl rfl (by decide)),
      longCommand_false (prefix_false (p := sMins) (s := sMaxs ++ s) 3 (a := 0x69) (b := 0x61) rfl rfl (by decide))]
    rfl
  | hash id =>
    have hid : id < 4 := hst
    have h1 : ∀ id, id < 4 → ∀ p ∈ [sH, sList, sN, sMinl, sMaxl, sMins, sMaxs], p.isPrefixOf (Setting.hash id).text = false := by
      decide
    conv_lhs => unfold parseArgs
    simp only [h1 id hid sH (by simp), h1 id hid sList (by simp), Bool.false_eq_true, if_false,
      longCommand_false (h1 id hid sN (by simp)), longCommand_false (h1 id hid sMinl (by simp)),
      longCommand_false (h1 id hid sMaxl (by simp)), longCommand_false (h1 id hid sMins (by simp)),
      longCommand_false (h1 id hid sMaxs (by simp)), hashID_text id hid]
    rfl

theorem parseArgs_settings : ∀ (sts : List Setting), (∀ st ∈ sts, st.OK) → ∀ (args : List (List Byte)) (o : Opts),
    parseArgs (sts.map Setting.text ++ args) o = parseArgs args (sts.foldl Setting.apply o)
  | [], _, _, _ => rfl
  | st :: sts, h, args, o => by
    rw [List.map_cons, List.cons_append, parseArgs_setting st (h st List.mem_cons_self),
      parseArgs_settings sts (fun x hx => h x (List.mem_cons_of_mem _ hx))]
    rfl

/-- What any argument is. -/
theorem argument_cases (a : List Byte) :
    (∃ st : Setting, st.OK ∧ a = st.text) ∨ txt "-h" <+: a ∨ txt "--list" <+: a ∨
    (∃ p s, p ∈ [txt "--n=", txt "--minl=", txt "--maxl=", txt "--mins=", txt "--maxs="] ∧ a = p ++ s ∧ numberOf s = none) ∨
    ((∀ p ∈ [txt "-h", txt "--list", txt "--n=", txt "--minl=", txt "--maxl=", txt "--mins=", txt "--maxs="], ¬ p <+: a) ∧
      ∀ id, id < 4 → a ≠ (Setting.hash id).text) := by
  by_cases h1 : txt "-h" <+: a
  · exact .inr (.inl h1)
  by_cases h2 : txt "--list" <+: a
  · exact .inr (.inr (.inl h2))
  have num : ∀ p (mk : List Byte → Nat → Setting), p ∈ [txt "--n=", txt "--minl=", txt "--maxl=", txt "--mins=", txt "--maxs="] →
      (∀ s v, numberOf s = some v → (mk s v).OK ∧ (mk s v).text = p ++ s) → p <+: a →
      (∃ st : Setting, st.OK ∧ a = st.text) ∨ 
      (∃ p s, p ∈ [txt "--n=", txt "--minl=", txt "--maxl=", txt "--mins=", txt "--maxs="] ∧ a = p ++ s ∧ numberOf s = none) := by
    rintro p mk hp hmk ⟨s, rfl⟩
    cases hn : numberOf s with
    | none => exact .inr ⟨p, s, hp, rfl, hn⟩
    | some v => exact .inl ⟨mk s v, (hmk s v hn).1, (hmk s v hn).2.symm⟩
  have fin : ∀ {P Q : Prop}, (P ∨ Q) → ∀ {A B C : Prop}, P ∨ A ∨ B ∨ Q ∨ C := by
    rintro P Q (h | h) A B C
    · exact .inl h
    · exact .inr (.inr (.inr (.inl h)))
  by_cases h3 : txt "--n=" <+: a
  · exact fin (num _ .n (by simp) (fun s v h => ⟨h, rfl⟩) h3)
  by_cases h4 : txt "--minl=" <+: a
  · exact fin (num _ .minl (by simp) (fun s v h => ⟨h, rfl⟩) h4)
  by_cases h5 : txt "--maxl=" <+: a
  · exact fin (num _ .maxl (by simp) (fun s v h => ⟨h, rfl⟩) h5)
  by_cases h6 : txt "--mins=" <+: a
  · exact fin (num _ .mins (by simp) (fun s v h => ⟨h, rfl⟩) h6)
  by_cases h7 : txt "--maxs=" <+: a
  · exact fin (num _ .maxs (by simp) (fun s v h => ⟨h, rfl⟩) h7)
  by_cases h8 : ∃ id, id < 4 ∧ a = (Setting.hash id).text
  · obtain ⟨id, hid, rfl⟩ := h8
    exact .inl ⟨.hash id, hid, rfl⟩
  · refine .inr (.inr (.inr (.inr ⟨?_, fun id hid ha => h8 ⟨id, hid, ha⟩⟩)))
    intro p hp
    simp only [List.mem_cons, List.not_mem_nil, or_false] at hp
    rcases hp with rfl | rfl | rfl | rfl | rfl | rfl | rfl <;> [exact h1; exact h2; exact h3; exact h4; exact h5; exact h6; exact h7]

theorem isPrefixOf_false {p a : List Byte} (h : ¬ p <+: a) : p.isPrefixOf a = false := by
  rw [Bool.eq_false_iff]
  exact fun h' => h (List.isPrefixOf_iff_prefix.mp h')

theorem parseArgs_help {a : List Byte} (h : txt "-h" <+: a) (args : List (List Byte)) (o : Opts) :
    parseArgs (a :: args) o = .done (.stop .help 0) := by
  rw [show txt "-h" = sH by decide] at h
  unfold parseArgs
  simp only [List.isPrefixOf_iff_prefix.mpr h, if_true]

theorem parseArgs_list {a : List Byte} (h : txt "--list" <+: a) (args : List (List Byte)) (o : Opts) :
    parseArgs (a :: args) o = .done (.stop .list 0) := by
  rw [show txt "--list" = sList by decide] at h
  obtain ⟨t, rfl⟩ := h
  unfold parseArgs
  simp only [prefix_false (p := sH) (s := sList ++ t) 1 (a := 0x68) (b := 0x2d) rfl rfl (by decide), prefix_true,
    Bool.false_eq_true, if_false, if_true]

theorem parseArgs_bad {a : List Byte}
    (h : ∀ p ∈ [txt "-h", txt "--list", txt "--n=", txt "--minl=", txt "--maxl=", txt "--mins=", txt "--maxs="], ¬ p <+: a)
    (h2 : ∀ id, id < 4 → a ≠ (Setting.hash id).text) (args : List (List Byte)) (o : Opts) :
    parseArgs (a :: args) o = .done (.stop .badUsage 1) := by
  rw [show [txt "-h", txt "--list", txt "--n=", txt "--minl=", txt "--maxl=", txt "--mins=", txt "--maxs="] =
    [sH, sList, sN, sMinl, sMaxl, sMins, sMaxs] by decide] at h
  have hid : hashID a = none := by
    cases hh : hashID a with
    | none => rfl
    | some id => exact absurd ((hashID_iff a id).mp hh).2 (h2 id ((hashID_iff a id).mp hh).1)
  unfold parseArgs
  simp only [isPrefixOf_false (h sH (by simp)), isPrefixOf_false (h sList (by simp)), Bool.false_eq_true, if_false,
    longCommand_false (isPrefixOf_false (h sN (by simp))), longCommand_false (isPrefixOf_false (h sMinl (by simp))),
    longCommand_false (isPrefixOf_false (h sMaxl (by simp))), longCommand_false (isPrefixOf_false (h sMins (by simp))),
    longCommand_false (isPrefixOf_false (h sMaxs (by simp))), hid]

theorem parseArgs_abort {p s : List Byte}
    (hp : p ∈ [txt "--n=", txt "--minl=", txt "--maxl=", txt "--mins=", txt "--maxs="]) (h : numberOf s = none)
    (args : List (List Byte)) (o : Opts) : parseArgs ((p ++ s) :: args) o = .abort := by
  have hv : readIntFromChar s = none := (readInt_eq s).trans h
  rw [show [txt "--n=", txt "--minl=", txt "--maxl=", txt "--mins=", txt "--maxs="] =
    [sN, sMinl, sMaxl, sMins, sMaxs] by decide] at hp
  simp only [List.mem_cons, List.not_mem_nil, or_false] at hp
  rcases hp with rfl | rfl | rfl | rfl | rfl
  · unfold parseArgs
    rw [prefix_false (p := sH) (s := sN ++ s) 1 (a := 0x68) (b := 0x2d) rfl rfl (by decide),
      prefix_false (p := sList) (s := sN ++ s) 2 (a := 0x6c) (b := 0x6e) rfl rfl (by decide)]
    simp only [Bool.false_eq_true, if_false, longCommand_true, hv]
  · unfold parseArgs
    rw [prefix_false (p := sH) (s := sMinl ++ s) 1 (a := 0x68) (b := 0x2d) rfl rfl (by decide),
      prefix_false (p := sList) (s := sMinl ++ s) 2 (a := 0x6c) (b := 0x6d) rfl rfl (by decide)]
    simp only [Bool.false_eq_true, if_false, longCommand_true, hv,
      longCommand_false (prefix_false (p := sN) (s := sMinl ++ s) 2 (a := 0x6e) (b := 0x6d) rfl rfl (by decide))]
  · unfold parseArgs
    rw [prefix_false (p := sH) (s := sMaxl ++ s) 1 (a := 0x68) (b := 0x2d) rfl rfl (by decide),
      prefix_false (p := sList) (s := sMaxl ++ s) 2 (a := 0x6c) (b := 0x6d) rfl rfl (by decide)]
    simp only [Bool.false_eq_true, if_false, longCommand_true, hv,
      longCommand_false (prefix_false (p := sN) (s := sMaxl ++ s) 2 (a := 0x6e) (b := 0x6d) rfl rfl (by decide)),
      longCommand_false (prefix_false (p := sMinl) (s := sMaxl ++ s) 3 (a := 0x69) (b := 0x61) rfl rfl (by decide))]
  · unfold parseArgs
    rw [prefix_false (p := sH) (s := sMins ++ s) 1 (a := 0x68) (b := 0x2d) rfl rfl (by decide),
      prefix_false (p := sList) (s := sMins ++ s) 2 (a := 0x6c) (b := 0x6d) rfl rfl (by decide)]
    simp only [Bool.false_eq_true, if_false, longCommand_true, hv,
      longCommand_false (prefix_false (p := sN) (s := sMins ++ s) 2 (a := 0x6e) (b := 0x6d) rfl rfl (by decide)),
      longCommand_false (prefix_false (p := sMinl) (s := sMins ++ s) 5 (a := 0x6c) (b := 0x73) rfl rfl (by decide)),
      longCommand_false (prefix_false (p := sMaxl) (s := sMins ++ s) 3 (a := 0x61) (b := 0x69) rfl rfl (by decide))]
  · unfold parseArgs
    rw [prefix_false (p := sH) (s := sMaxs ++ s) 1 (a := 0x68) (b := 0x2d) rfl rfl (by decide),
      prefix_false (p := sList) (s := sMaxs ++ s) 2 (a := 0x6c) (b := 0x6d) rfl rfl (by decide)]
    simp only [Bool.false_eq_true, if_false, longCommand_true, hv,
      longCommand_false (prefix_false (p := sN) (s := sMaxs ++ s) 2 (a := 0x6e) (b := 0x6d) rfl rfl (by decide)),
      longCommand_false (prefix_false (p := sMinl) (s := sMaxs ++ s) 3 (a := 0x69) (b := 0x61) rfl rfl (by decide)),
      longCommand_false (prefix_false (p := sMaxl) (s := sMaxs ++ s) 5 (a := 0x6c) (b := 0x73) rfl rfl (by decide)),
      longCommand_false (prefix_false (p := sMins) (s := sMaxs ++ s) 3 (a := 0x69) (b := 0x61) rfl rfl (by decide))]

/-- Settings keep every number small. -/
theorem settings_lt : ∀ (sts : List Setting), (∀ st ∈ sts, st.OK) → ∀ o : Opts,
    (o.hashNb < 4 ∧ o.nb_h_test + 4 < 2 ^ 31 ∧ o.smallTest_size_max + 4 < 2 ^ 31) →
    let o' := sts.foldl Setting.apply o
    o'.hashNb < 4 ∧ o'.nb_h_test + 4 < 2 ^ 31 ∧ o'.smallTest_size_max + 4 < 2 ^ 31
  | [], _, _, h => h
  | st :: sts, h, o, ho => by
    refine settings_lt sts (fun x hx => h x (List.mem_cons_of_mem _ hx)) (st.apply o) ?_
    have hst := h st List.mem_cons_self
    cases st with
    | n s v => exact ⟨ho.1, numberOf_lt hst, ho.2.2⟩
    | minl s v => exact ho
    | maxl s v => exact ho
    | mins s v => exact ho
    | maxs s v => exact ⟨ho.1, ho.2.1, numberOf_lt hst⟩
    | hash id => exact ⟨hst, by show 1 + 4 < 2 ^ 31; norm_num, ho.2.2⟩

end XXH.Proof.TestBench
