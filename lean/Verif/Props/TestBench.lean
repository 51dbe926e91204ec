import Verif.Proof.TestBenchMain
/-!
C57: the benchmark program of the tests (tests/bench): what it runs, what it shows, what it makes of its arguments, and
when it fails.
-/
namespace XXH.Props
open XXH.Model XXH.Model.TestBench XXH.BenchTerms XXH.TestBenchTerms XXH.Proof.TestBench
open XXH.Model.Bench (Fp Run)
open XXH.Spec.Cli (txt decVal decimal)

/-! ### The command line -/

/-- Numbers are read as documented, and never overflow an `int`. -/
theorem C57_number (s : List Byte) :
    readIntFromChar s = numberOf s ∧ ∀ v, readIntFromChar s = some v → v + 4 < 2 ^ 31 :=
  ⟨readInt_eq s, fun _ h => numberOf_lt ((readInt_eq s) ▸ h)⟩

/-- Every argument is a setting, a request for help or for the list, a setting with too large a number, or none of
these. -/
theorem C57_argument (a : List Byte) :
    (∃ st : Setting, st.OK ∧ a = st.text) ∨ txt "-h" <+: a ∨ txt "--list" <+: a ∨
    (∃ p s, p ∈ [txt "--n=", txt "--minl=", txt "--maxl=", txt "--mins=", txt "--maxs="] ∧ a = p ++ s ∧ numberOf s = none) ∨
    ((∀ p ∈ [txt "-h", txt "--list", txt "--n=", txt "--minl=", txt "--maxl=", txt "--mins=", txt "--maxs="], ¬ p <+: a) ∧
      ∀ id, id < 4 → a ≠ (Setting.hash id).text) := argument_cases a

/-- The first argument that is not a setting ends the program: with the help or the list and code 0, in a failed
assertion if its number is too large, otherwise with a message and code 1; nothing is hashed. -/
theorem C57_first_other (e : Env) (fuel : Nat) {sts : List Setting} (hst : ∀ st ∈ sts, st.OK) (a : List Byte)
    (args : List (List Byte)) (w : World) :
    (txt "-h" <+: a → main e fuel (sts.map Setting.text ++ a :: args) w = .done (0, [.help], w)) ∧
    (txt "--list" <+: a → main e fuel (sts.map Setting.text ++ a :: args) w = .done (0, [.list], w)) ∧
    (∀ p s, p ∈ [txt "--n=", txt "--minl=", txt "--maxl=", txt "--mins=", txt "--maxs="] → a = p ++ s → numberOf s = none →
      main e fuel (sts.map Setting.text ++ a :: args) w = .abort) ∧
    ((∀ p ∈ [txt "-h", txt "--list", txt "--n=", txt "--minl=", txt "--maxl=", txt "--mins=", txt "--maxs="], ¬ p <+: a) →
      (∀ id, id < 4 → a ≠ (Setting.hash id).text) →
      main e fuel (sts.map Setting.text ++ a :: args) w = .done (1, [.badUsage], w)) := by
  have hm : main e fuel (sts.map Setting.text ++ a :: args) w =
      Run.bind (parseArgs (a :: args) (sts.foldl Setting.apply defaults)) (fun r => match r with
        | .stop l code => .done (code, [l], w)
        | .opts o =>
          if 2 ^ 31 ≤ o.hashNb + o.nb_h_test then .undefined
          else if NB_HASHES < o.hashNb + o.nb_h_test then .done (1, [.wrongSelection], w)
          else Run.bind (benchmarks e fuel o w) fun (ls, w) => .done (0, .count o.nb_h_test :: ls, w)) := by
    rw [← parseArgs_settings sts hst (a :: args) defaults]
    rfl
  refine ⟨fun h => ?_, fun h => ?_, fun p s hp ha hn => ?_, fun h1 h2 => ?_⟩
  · rw [hm, parseArgs_help h]; rfl
  · rw [hm, parseArgs_list h]; rfl
  · rw [hm, ha, parseArgs_abort hp hn]; rfl
  · rw [hm, parseArgs_bad h1 h2]; rfl

/-- With settings only, the last one of a kind counts; a selection of more hash functions than there are is refused
with code 1. -/
theorem C57_selection (e : Env) (fuel : Nat) {sts : List Setting} (hst : ∀ st ∈ sts, st.OK) (w : World) :
    let o := sts.foldl Setting.apply defaults
    main e fuel (sts.map Setting.text) w =
      if o.hashNb + o.nb_h_test ≤ 4 then Run.bind (benchmarks e fuel o w) fun r => .done (0, .count o.nb_h_test :: r.1, r.2)
      else .done (1, [.wrongSelection], w) := by
  intro o
  have hlt := settings_lt sts hst defaults (by decide)
  have hm : parseArgs (sts.map Setting.text) defaults = .done (.opts o) := by
    have := parseArgs_settings sts hst [] defaults
    rw [List.append_nil] at this
    exact this
  unfold main
  show Run.bind (parseArgs (sts.map Setting.text) defaults) _ = _
  rw [hm]
  show (if 2 ^ 31 ≤ o.hashNb + o.nb_h_test then _ else if NB_HASHES < o.hashNb + o.nb_h_test then _ else _) = _
  have h1 : o.hashNb < 4 ∧ o.nb_h_test + 4 < 2 ^ 31 ∧ o.smallTest_size_max + 4 < 2 ^ 31 := hlt
  rw [if_neg (by omega)]
  by_cases hs : o.hashNb + o.nb_h_test ≤ 4
  · rw [if_neg (by show ¬ 4 < _; omega), if_pos hs]
    rfl
  · rw [if_pos (by show 4 < _; omega), if_neg hs]
    rfl

/-! ### The tables -/

/-- The program prints the tables asked for, one row for each hash function selected and one cell for each size; each
cell is the result of a benchmark of that function with that size, see `CellOK`. -/
theorem C57_tables {e : Env} (h : MachineOK e) (hclock : TestBenchTerms.ClockOK e) {fuel : Nat} (hfuel : 33 ≤ fuel)
    {sts : List Setting} (hst : ∀ st ∈ sts, st.OK) (w : World) :
    let o := sts.foldl Setting.apply defaults
    o.hashNb + o.nb_h_test ≤ 4 → (o.largeTest_log_min ≤ o.largeTest_log_max → o.largeTest_log_max < 31) →
    (o.smallTest_size_min ≤ o.smallTest_size_max → 1 ≤ o.smallTest_size_min) →
    (∀ T ∈ tables o, ∀ s ∈ T.sizes, e.alloc (s + 1024) = true) →
    ∃ tabs w', main e fuel (sts.map Setting.text) w = .done (0, .count o.nb_h_test :: tabs.flatten, w') ∧
      Seq (TableOK e o) (tables o) w tabs w' := by
  intro o ho hmax hmin ha
  have hlt : o.hashNb < 4 ∧ o.nb_h_test + 4 < 2 ^ 31 ∧ o.smallTest_size_max + 4 < 2 ^ 31 := settings_lt sts hst defaults (by decide)
  have hs : SizesOK e o := by
    intro T hT s hmem
    refine ⟨?_, ?_, ha T hT s hmem⟩ <;>
    · unfold tables at hT
      rcases List.mem_append.mp hT with hT | hT
      · by_cases hle : o.largeTest_log_min ≤ o.largeTest_log_max
        · rw [if_pos hle, List.mem_singleton] at hT
          subst hT
          obtain ⟨k, hk, rfl⟩ := List.mem_map.mp hmem
          have hk2 := List.mem_range'_1.mp hk
          have := hmax hle
          first
            | exact Nat.two_pow_pos k
            | exact Nat.pow_lt_pow_right (by norm_num) (by omega)
        · rw [if_neg hle] at hT
          cases hT
      · by_cases hle : o.smallTest_size_min ≤ o.smallTest_size_max
        · rw [if_pos hle] at hT
          have hsz : T.sizes = List.range' o.smallTest_size_min (o.smallTest_size_max + 1 - o.smallTest_size_min) := by
            simp only [List.mem_cons, List.not_mem_nil, or_false] at hT
            rcases hT with rfl | rfl | rfl | rfl <;> rfl
          rw [hsz] at hmem
          have := List.mem_range'_1.mp hmem
          have := hmin hle
          omega
        · rw [if_neg hle] at hT
          cases hT
  obtain ⟨tabs, w', h1, h2⟩ := benchmarks_eq h hclock hfuel ho hmax hs w
  refine ⟨tabs, w', ?_, h2⟩
  rw [C57_selection e fuel hst w, if_pos ho]
  show Run.bind (benchmarks e fuel o w) _ = _
  rw [h1]
  rfl

/-- A size of 0 is not refused: the program divides by zero. -/
theorem C57_mins_zero {e : Env} (h : MachineOK e) (hclock : TestBenchTerms.ClockOK e) {fuel : Nat} (hfuel : 33 ≤ fuel)
    {sts : List Setting} (hst : ∀ st ∈ sts, st.OK) (w : World) :
    let o := sts.foldl Setting.apply defaults
    o.hashNb + o.nb_h_test ≤ 4 → 1 ≤ o.nb_h_test → (o.largeTest_log_min ≤ o.largeTest_log_max → o.largeTest_log_max < 31) →
    (∀ k, o.largeTest_log_min ≤ k → k ≤ o.largeTest_log_max → e.alloc (2 ^ k + 1024) = true) → o.smallTest_size_min = 0 →
    main e fuel (sts.map Setting.text) w = .undefined := by
  intro o ho hnb hmax ha hmin
  obtain ⟨ls, w1, h1, _⟩ := largePart_eq h hclock hfuel ho hmax (fun T hT s hmem => by
    unfold largeTables at hT
    by_cases hle : o.largeTest_log_min ≤ o.largeTest_log_max
    · rw [if_pos hle, List.mem_singleton] at hT
      subst hT
      obtain ⟨k, hk, rfl⟩ := List.mem_map.mp hmem
      have hk2 := List.mem_range'_1.mp hk
      have := hmax hle
      exact ⟨Nat.two_pow_pos k, Nat.pow_lt_pow_right (by norm_num) (by omega), ha k (by omega) (by omega)⟩
    · rw [if_neg hle] at hT
      cases hT) w
  rw [C57_selection e fuel hst w, if_pos ho]
  show Run.bind (benchmarks e fuel o w) _ = _
  have : benchmarks e fuel o w = .undefined := by
    unfold benchmarks
    show Run.bind _ _ = _
    rw [h1]
    show (if o.smallTest_size_min ≤ o.smallTest_size_max then _ else _) = _
    rw [if_pos (by omega), hmin]
    obtain ⟨n, hn⟩ : ∃ n, o.nb_h_test = n + 1 := ⟨o.nb_h_test - 1, by omega⟩
    rw [hn]
    rfl
  rw [this]
  rfl

/-- So is a size of `2^31` or more for large inputs: an assertion fails. -/
theorem C57_log_limit (e : Env) (fuel : Nat) {sts : List Setting} (hst : ∀ st ∈ sts, st.OK) (w : World) :
    let o := sts.foldl Setting.apply defaults
    o.hashNb + o.nb_h_test ≤ 4 → o.largeTest_log_min ≤ o.largeTest_log_max → 31 ≤ o.largeTest_log_max →
    main e fuel (sts.map Setting.text) w = .abort := by
  intro o ho hle hmax
  rw [C57_selection e fuel hst w, if_pos ho]
  show Run.bind (benchmarks e fuel o w) _ = _
  have : benchmarks e fuel o w = .abort := by
    unfold benchmarks
    show Run.bind _ _ = _
    rw [if_pos hle]
    unfold bench_largeInput
    rw [if_pos (by omega)]
    rfl
  rw [this]
  rfl

/-- Without memory for the buffer an assertion fails. -/
theorem C57_no_memory {e : Env} (hs : 32 ≤ e.cfg.sizeBits) (fuel fn : Nat) (mode : Mode) (sizeMode : SizeMode) {size : Nat}
    (h0 : 0 < size) (h31 : size < 2 ^ 31) (ha : e.alloc (size + 1024) = false) (total_ms iter_ms : W32) (w : World) :
    bench_hash e fuel fn mode size sizeMode total_ms iter_ms w = .abort := by
  have hbits : (2 : Nat) ^ 32 ≤ 2 ^ e.cfg.sizeBits := Nat.pow_le_pow_right (by norm_num) hs
  have hts : toSize e.cfg (size + MARGIN_FOR_LATENCY) = size + 1024 :=
    Nat.mod_eq_of_lt (by show size + 1024 < _; omega)
  unfold bench_hash bench_hash_internal
  rw [if_neg (by omega), hts]
  show (if ¬ e.alloc (size + 1024) = true then _ else _) = _
  rw [if_pos (by rw [ha]; simp)]
  rfl

/-! ### Time -/

/-- The nanoseconds of a point in time. -/
def nanos (t : Timespec) : Int := 1000000000 * t.sec + t.nsec

/-- The nanoseconds between two points in time are exact as long as they fit in 64 bits; if the clock went back by `d`
nanoseconds, they are `2^64 - d`. -/
theorem C57_span {b e : Timespec} :
    (spanNano b e).toNat = (nanos e - nanos b) % 2 ^ 64 ∧
    (0 ≤ nanos e - nanos b → nanos e - nanos b < 2 ^ 64 → (spanNano b e).toNat = nanos e - nanos b) ∧
    (∀ d : Nat, 0 < d → d < 2 ^ 64 → nanos e = nanos b - d → (spanNano b e).toNat = 2 ^ 64 - d) := by
  have key : (spanNano b e).toNat = (nanos e - nanos b) % 2 ^ 64 := by
    unfold spanNano
    rw [← BitVec.ofInt_add, BitVec.toNat_ofInt, Int.toNat_of_nonneg (Int.emod_nonneg _ (by norm_num))]
    unfold spanTime nanos
    split <;> · push_cast; congr 1; ring
  refine ⟨key, fun h1 h2 => ?_, fun d h1 h2 h3 => ?_⟩
  · rw [key, Int.emod_eq_of_lt h1 h2]
  · have : ((spanNano b e).toNat : Int) = 2 ^ 64 - d := by
      rw [key, h3]
      omega
    omega

/-- Microseconds are rounded down. -/
theorem C57_span_micro {b e : Timespec} (hb : 0 ≤ b.nsec ∧ b.nsec < 1000000000) (he : 0 ≤ e.nsec ∧ e.nsec < 1000000000)
    (h0 : nanos b ≤ nanos e) (h1 : nanos e - nanos b < 2 ^ 64) :
    (spanMicro b e).toNat = (nanos e - nanos b) / 1000 := by
  have key : ∀ S N : Int, 0 ≤ N → N < 1000000000 → 0 ≤ 1000000000 * S + N → 1000000000 * S + N < 2 ^ 64 →
      ((BitVec.ofInt 64 (1000000 * S) + BitVec.ofInt 64 N / 1000 : W64).toNat : Int) = (1000000000 * S + N) / 1000 := by
    intro S N hN0 hN1 h0 h1
    obtain ⟨N', rfl⟩ := Int.eq_ofNat_of_zero_le hN0
    obtain ⟨S', rfl⟩ := Int.eq_ofNat_of_zero_le (show 0 ≤ S by omega)
    have hN : N' < 1000000000 := by exact_mod_cast hN1
    have hS : 1000000000 * S' + N' < 2 ^ 64 := by exact_mod_cast h1
    have e0 : (1000000 * (S' : Int)) = ((1000000 * S' : ℕ) : Int) := by push_cast; rfl
    have e1 : ((1000000000 * (S' : Int) + N') / 1000) = (((1000000000 * S' + N') / 1000 : ℕ) : Int) := by push_cast; rfl
    have e2 : (1000000000 * S' + N') / 1000 = 1000000 * S' + N' / 1000 := by
      rw [show 1000000000 * S' = 1000 * (1000000 * S') by ring, Nat.mul_add_div (by norm_num)]
    rw [e0, e1, e2, BitVec.ofInt_natCast, BitVec.ofInt_natCast, BitVec.toNat_add, BitVec.toNat_udiv,
      show (1000 : W64).toNat = 1000 by simp, BitVec.toNat_ofNat, BitVec.toNat_ofNat,
      Nat.mod_eq_of_lt (show N' < 2 ^ 64 by omega), Nat.mod_eq_of_lt (show 1000000 * S' < 2 ^ 64 by omega),
      Nat.mod_eq_of_lt (by omega)]
  have conv : ∃ S N : Int, spanTime b e = ⟨S, N⟩ ∧ 0 ≤ N ∧ N < 1000000000 ∧ nanos e - nanos b = 1000000000 * S + N := by
    unfold spanTime nanos
    by_cases hlt : e.nsec < b.nsec
    · exact ⟨_, _, if_pos hlt, by omega, by omega, by ring⟩
    · exact ⟨_, _, if_neg hlt, by omega, by omega, by ring⟩
  obtain ⟨S, N, h2, h3, h4, h5⟩ := conv
  unfold spanMicro
  rw [h2, h5]
  exact key S N h3 h4 (by omega) (by omega)

/-- On Windows nanoseconds are rounded down as long as the number of ticks is less than `2^64 / 10^9`. -/
theorem C57_span_ticks {ticks perSec : W64} (h : 1000000000 * ticks.toNat < 2 ^ 64) :
    (spanTicks ticks perSec).toNat = 1000000000 * ticks.toNat / perSec.toNat := by
  unfold spanTicks
  rw [BitVec.toNat_udiv, BitVec.toNat_mul, show (1000000000 : W64).toNat = 1000000000 by simp, Nat.mod_eq_of_lt h]

/-- Beyond that they are not: 31 minutes at ten million ticks a second are less than a minute. -/
theorem C57_span_ticks_wrap : (spanTicks (BitVec.ofNat 64 (31 * 60 * 10000000)) 10000000).toNat < 60 * 1000000000 := by
  decide

/-! ### Clocks that are not asked for -/

/-- The first run of a benchmark: everything up to it is well defined. -/
theorem first_run {e : Env} (h : MachineOK e) (fn : Nat) (mode : Mode)
    (sizeMode : SizeMode) {size : Nat} (h0 : 0 < size) (h31 : size < 2 ^ 31) (ha : e.alloc (size + 1024) = true)
    (fuel : Nat) (total_ms iter_ms : W32) (w : World) :
    ∃ (src : Buf) (sizes : List Nat) (w' : World), src.bytes.length < 2 ^ (e.cfg.sizeBits - 1) ∧
      (∀ s ∈ sizes, s + 1024 ≤ src.bytes.length) ∧ w'.runs = w.runs ∧
      bench_hash e fuel fn mode size sizeMode total_ms iter_ms w =
        Run.bind (measureLoop e fn mode src sizes fuel fuel (resetTimed e.cfg total_ms iter_ms) none w') fun (result, w) =>
          if (result.getD ⟨0, 0⟩).nanoSecPerRun = 0 then .abort
          else .done (e.fp.rnd (e.fp.rnd (e.fp.rnd 1000000000 / (result.getD ⟨0, 0⟩).nanoSecPerRun) *
            e.fp.rnd (min 1000 (200000 / size + 1) : ℕ)), w) := by
  have hbits : (2 : Nat) ^ 32 ≤ 2 ^ e.cfg.sizeBits := Nat.pow_le_pow_right (by norm_num) h.size
  have hts : toSize e.cfg (size + MARGIN_FOR_LATENCY) = size + 1024 :=
    Nat.mod_eq_of_lt (by show size + 1024 < _; omega)
  have hq : 200000 / size ≤ 200000 := Nat.div_le_self _ _
  have htn : toSize e.cfg (200000 / size + 1) = 200000 / size + 1 := Nat.mod_eq_of_lt (by omega)
  have hnb : (if 1000 < 200000 / size + 1 then 1000 else 200000 / size + 1) = min 1000 (200000 / size + 1) := by
    split <;> omega
  obtain ⟨s', hsel⟩ := selectSizes_eq e sizeMode size w
  have hlen : (initBuffer (size + 1024) 14029467366897019727).length = size + 1024 := initBuffer_length _ _
  have hnb2 : min 1000 (200000 / size + 1) < 1024 := lt_of_le_of_lt (Nat.min_le_left _ _) (by norm_num)
  refine ⟨⟨e.srcAddr, initBuffer (size + 1024) 14029467366897019727⟩, blockSizes e sizeMode size w.rnd, { w with rnd := s' },
    by show (initBuffer _ _).length < _; rw [hlen]; exact h.alloc _ ha, fun x hx => by
      show x + 1024 ≤ (initBuffer _ _).length
      have := blockSizes_le e sizeMode h0 _ x hx
      omega, rfl, ?_⟩
  unfold bench_hash bench_hash_internal
  simp only [if_neg (show ¬ size = 0 by omega), htn, hnb, hts, ha, not_true_eq_false, if_false,
    if_neg (not_not.mpr hnb2), if_neg (show ¬ ¬ 0 < size by omega), hsel]
  rfl

/-- If the clock goes back by a few nanoseconds in the first run (by so few that `2^64` minus them rounds to `2^64`),
the benchmark is undefined: a `double` of `2^64` is converted to 64 bits. -/
theorem C57_backwards {e : Env} (h : MachineOK e) {fn : Nat} (hfn : fn < 4) (mode : Mode)
    (sizeMode : SizeMode) {size : Nat} (h0 : 0 < size) (h31 : size < 2 ^ 31) (ha : e.alloc (size + 1024) = true)
    {fuel : Nat} (hfuel : 1 ≤ fuel) (total_ms iter_ms : W32) (htotal : 1 ≤ iter_ms.toNat) (hle : iter_ms.toNat ≤ total_ms.toNat)
    (w : World) (hback : e.fp.rnd (e.elapsed w.runs 1).toNat = 2 ^ 64)
    (hpow : e.fp.rnd (2 ^ 64) = 2 ^ 64) (hone : e.fp.rnd 1 = 1) :
    bench_hash e fuel fn mode size sizeMode total_ms iter_ms w = .undefined := by
  obtain ⟨src, sizes, w', b1, b2, b3, b4⟩ := first_run h fn mode sizeMode h0 h31 ha fuel total_ms iter_ms w
  rw [b4]
  obtain ⟨f, rfl⟩ : ∃ f, fuel = f + 1 := ⟨fuel - 1, by omega⟩
  have hnc : ¬ isCompleted (resetTimed e.cfg total_ms iter_ms) = true := by
    unfold isCompleted
    rw [decide_eq_true_eq, BitVec.le_def, (resetTimed_budgets e.cfg htotal hle).1]
    show ¬ _ ≤ 0
    omega
  obtain ⟨r, w1, c1, _, _, c4⟩ := benchFunction_eq h hfn mode b1 b2 (nbLoops := 1) (by decide) w'
  rw [b3, show (1 : W32).toNat = 1 from rfl, hback, Nat.cast_one, hone, div_one, hpow] at c4
  have hL : (resetTimed e.cfg total_ms iter_ms).nbLoops = 1 := rfl
  have : measureLoop e fn mode src sizes (f + 1) (f + 1) (resetTimed e.cfg total_ms iter_ms) none w' = .undefined := by
    unfold measureLoop
    rw [if_neg hnc]
    show Run.bind (benchTimedFn e fn mode src sizes (f + 1) _ w') _ = _
    unfold benchTimedFn
    rw [hL, c1]
    show Run.bind (Run.bind (afterRun e _ _ r) _) _ = _
    have : afterRun e (resetTimed e.cfg total_ms iter_ms) (resetTimed e.cfg total_ms iter_ms).fastestRun r = .undefined := by
      have hd : e.fp.rnd (r.nanoSecPerRun * e.fp.rnd ((resetTimed e.cfg total_ms iter_ms).nbLoops.toNat : ℕ)) = 2 ^ 64 := by
        rw [hL, c4, show (1 : W32).toNat = 1 from rfl, Nat.cast_one, hone, mul_one, hpow]
      unfold afterRun
      show (if ¬ e.fp.rnd (r.nanoSecPerRun * e.fp.rnd ((resetTimed e.cfg total_ms iter_ms).nbLoops.toNat : ℕ)) < 2 ^ 64
        then _ else _) = _
      rw [if_pos (by rw [hd]; exact lt_irrefl _)]
      rfl
    rw [this]
    rfl
  rw [this]
  rfl

/-- With a clock that stands still the number of loops is multiplied by ten until an assertion fails. -/
theorem C57_stopped_clock {e : Env} (h : MachineOK e) {fn : Nat} (hfn : fn < 4) (mode : Mode)
    (sizeMode : SizeMode) {size : Nat} (h0 : 0 < size) (h31 : size < 2 ^ 31) (ha : e.alloc (size + 1024) = true)
    {fuel : Nat} (hfuel : 10 ≤ fuel) (total_ms iter_ms : W32) (htotal : 1 ≤ iter_ms.toNat) (hle : iter_ms.toNat ≤ total_ms.toNat)
    (w : World) (hstop : ∀ k n, e.elapsed k n = 0) :
    bench_hash e fuel fn mode size sizeMode total_ms iter_ms w = .abort := by
  obtain ⟨src, sizes, w', b1, b2, b3, b4⟩ := first_run h fn mode sizeMode h0 h31 ha fuel total_ms iter_ms w
  rw [b4]
  obtain ⟨f, rfl⟩ : ∃ f, fuel = f + 1 := ⟨fuel - 1, by omega⟩
  obtain ⟨bud1, bud2⟩ := resetTimed_budgets e.cfg htotal hle
  have hnc : ¬ isCompleted (resetTimed e.cfg total_ms iter_ms) = true := by
    unfold isCompleted
    rw [decide_eq_true_eq, BitVec.le_def, bud1]
    show ¬ _ ≤ 0
    omega
  have r0 : e.fp.rnd 0 = 0 := by
    have := h.fp.near 0 (.inl rfl)
    simpa using this
  have hB : ∀ n : ℕ, 1 ≤ n → 0 < e.fp.rnd n := fun n hn =>
    lt_of_lt_of_le one_pos (h.fp.one n (by exact_mod_cast hn))
  have loop : ∀ (j fuel : Nat) (t : Timed) (w : World), j ≤ 9 → 10 - j ≤ fuel → t.nbLoops.toNat = 10 ^ j →
      50 ≤ t.runBudget_ns.toNat → benchTimedFn e fn mode src sizes fuel t w = .abort := by
    intro j
    induction hj : 9 - j generalizing j with
    | zero =>
      intro fuel t w hj9 hf ht hb
      obtain rfl : j = 9 := by omega
      obtain ⟨f, rfl⟩ : ∃ f, fuel = f + 1 := ⟨fuel - 1, by omega⟩
      obtain ⟨r, w1, c1, _, _, c4⟩ := benchFunction_eq h hfn mode b1 b2 (nbLoops := t.nbLoops) (by rw [ht]; norm_num) w
      rw [hstop] at c4
      simp only [BitVec.toNat_zero, BitVec.ofNat_eq_ofNat, Nat.cast_zero, r0, zero_div] at c4
      unfold benchTimedFn
      rw [c1]
      show Run.bind (afterRun e t t.fastestRun r) _ = _
      have : afterRun e t t.fastestRun r = .abort := by
        unfold afterRun
        simp only [c4, zero_mul, r0]
        rw [if_neg (by norm_num), if_neg (by
          rw [not_lt]
          exact (hB _ (by omega)).le), if_pos (by rw [ht]; norm_num)]
        rfl
      rw [this]
      rfl
    | succ m ih =>
      intro fuel t w hj9 hf ht hb
      obtain ⟨f, rfl⟩ : ∃ f, fuel = f + 1 := ⟨fuel - 1, by omega⟩
      have hpos : 1 ≤ t.nbLoops.toNat := by rw [ht]; exact Nat.one_le_pow _ _ (by norm_num)
      have hsmall : t.nbLoops.toNat ≤ 10 ^ 8 := by rw [ht]; exact Nat.pow_le_pow_right (by norm_num) (by omega)
      obtain ⟨r, w1, c1, _, _, c4⟩ := benchFunction_eq h hfn mode b1 b2 (nbLoops := t.nbLoops) hpos w
      rw [hstop] at c4
      simp only [BitVec.toNat_zero, BitVec.ofNat_eq_ofNat, Nat.cast_zero, r0, zero_div] at c4
      unfold benchTimedFn
      rw [c1]
      show Run.bind (afterRun e t t.fastestRun r) _ = _
      have : afterRun e t t.fastestRun r = 
          .done ({ t with timeSpent_ns := t.timeSpent_ns + BitVec.ofNat 64 (0 : ℚ).floor.toNat, nbLoops := t.nbLoops * 10 },
            none) := by
        unfold afterRun
        simp only [c4, zero_mul, r0]
        rw [if_neg (by norm_num), if_neg (by
          rw [not_lt]
          exact (hB _ (by omega)).le), if_neg (by omega)]
        show (if (0 : ℚ) < e.fp.rnd (t.runBudget_ns.toNat / 2 : ℕ) then _ else _) = _
        rw [if_pos (hB _ (by omega))]
        rfl
      rw [this]
      show benchTimedFn e fn mode src sizes f _ w1 = _
      refine ih (j + 1) (by omega) f _ w1 (by omega) (by omega) ?_ hb
      show (t.nbLoops * 10 : W32).toNat = 10 ^ (j + 1)
      rw [BitVec.toNat_mul, show (10 : W32).toNat = 10 from rfl, Nat.pow_succ 10 j, ← ht]
      omega
  have : measureLoop e fn mode src sizes (f + 1) (f + 1) (resetTimed e.cfg total_ms iter_ms) none w' = .abort := by
    unfold measureLoop
    rw [if_neg hnc]
    show Run.bind (benchTimedFn e fn mode src sizes (f + 1) _ w') _ = _
    rw [loop 0 (f + 1) _ w' (by norm_num) hfuel rfl (by rw [bud2]; omega)]
    rfl
  rw [this]
  rfl

/-! ### The last run, not the fastest -/

/-- What happens after a run that ends a measurement, with exact arithmetic. -/
theorem afterRun_exact {e : Env} (he : ∀ q, e.fp.rnd q = q) {t : Timed} {r : RunTime} {p : ℚ} {B n d q : ℕ}
    (hr : r.nanoSecPerRun = p) (hbest : t.fastestRun.nanoSecPerRun = 2000000000000000000) (hB : t.runBudget_ns.toNat = B)
    (hn : t.nbLoops.toNat = n) (hd : p * n = d) (hd64 : d < 2 ^ 64) (hlong : B / 2 ≤ d) (hB0 : 100 ≤ B) (hp0 : 0 < p)
    (hp : p < 2000000000000000000) (hq : q ≤ (B : ℚ) / p ∧ (B : ℚ) / p < q + 1) (hq2 : q + 1 < 2 ^ 32) :
    afterRun e t t.fastestRun r =
      .done ({ t with timeSpent_ns := t.timeSpent_ns + BitVec.ofNat 64 d, nbLoops := BitVec.ofNat 32 q + 1 }, some r) := by
  have hfl : ((d : ℕ) : ℚ).floor.toNat = d := by
    have : ((d : ℕ) : ℚ).floor = (d : ℤ) := Int.floor_natCast (R := ℚ) d
    rw [this]
    rfl
  have hqf : ((B : ℚ) / p).floor.toNat = q := by
    have : ((B : ℚ) / p).floor = (q : ℤ) :=
      (Int.floor_eq_iff (a := (B : ℚ) / p)).mpr ⟨by exact_mod_cast hq.1, by exact_mod_cast hq.2⟩
    rw [this]
    rfl
  have h1 : ((B / 50 : ℕ) : ℚ) < d := by exact_mod_cast (by omega : B / 50 < d)
  have h2 : ¬ (d : ℚ) < ((B / 2 : ℕ) : ℚ) := by
    rw [not_lt]
    exact_mod_cast hlong
  have h3 : (B : ℚ) / p < 2 ^ 32 := lt_of_lt_of_le hq.2 (by exact_mod_cast hq2.le)
  unfold afterRun
  simp only [he, hr, hbest, hB, hn, hd, min_eq_right hp.le, hp, if_true, hfl, hqf]
  rw [if_neg (by rw [not_not]; exact_mod_cast hd64), if_pos h1, if_neg (by push Not; exact ⟨hp0.ne', h3⟩)]
  show (if (d : ℚ) < ((t.runBudget_ns.toNat / 2 : ℕ) : ℚ) then _ else _) = _
  rw [hB, if_neg h2]
  rfl

/-- A measurement of two runs. -/
theorem measureLoop_two {e : Env} {fn : Nat} {mode : Mode} {src : Buf} {sizes : List Nat} {f g : Nat} {t0 t1 t2 : Timed}
    {r1 r2 : RunTime} {w0 w1 w2 : World} (h0 : isCompleted t0 = false)
    (c1 : benchFunction e fn mode src sizes t0.nbLoops w0 = some (r1, w1))
    (a1 : afterRun e t0 t0.fastestRun r1 = .done (t1, some r1)) (h1 : isCompleted t1 = false)
    (c2 : benchFunction e fn mode src sizes t1.nbLoops w1 = some (r2, w2))
    (a2 : afterRun e t1 t1.fastestRun r2 = .done (t2, some r2)) (h2 : isCompleted t2 = true) :
    measureLoop e fn mode src sizes (g + 1) (f + 3) t0 none w0 = .done (some r2, w2) := by
  unfold measureLoop
  rw [if_neg (by rw [h0]; decide)]
  show Run.bind (benchTimedFn e fn mode src sizes (g + 1) _ w0) _ = _
  unfold benchTimedFn
  rw [c1]
  show Run.bind (Run.bind (afterRun e _ _ r1) _) _ = _
  rw [a1]
  show measureLoop e fn mode src sizes (g + 1) (f + 2) _ (some r1) w1 = _
  unfold measureLoop
  rw [if_neg (by rw [h1]; decide)]
  show Run.bind (benchTimedFn e fn mode src sizes (g + 1) _ w1) _ = _
  unfold benchTimedFn
  rw [c2]
  show Run.bind (Run.bind (afterRun e _ _ r2) _) _ = _
  rw [a2]
  show measureLoop e fn mode src sizes (g + 1) (f + 1) _ (some r2) w2 = _
  unfold measureLoop
  rw [if_pos h2]

namespace Examples
open XXH.Examples

/-- A machine that becomes slower: the first run takes 0.4 seconds for one loop, later ones a second. -/
def slowing : Env where
  cfg := x64
  fp := ⟨id⟩
  alloc n := decide (n < 2 ^ 40)
  srcAddr := 4096
  elapsed k n := BitVec.ofNat 64 (if k = 0 then max 400000000 n else max (min (1000000000 * n) 1000000000000000) n)
  srand s := s.toNat
  rand s := (s * 7 + 3, s + 1)

theorem slowing_machine : MachineOK slowing := by
  refine ⟨x64_valid, by decide, ⟨fun q _ => ?_, fun q h => h⟩, fun n h => ?_⟩
  · show |q - q| ≤ _
    rw [sub_self, abs_zero]
    positivity
  · have : n < 2 ^ 40 := of_decide_eq_true h
    show n < 2 ^ 63
    omega

theorem slowing_alloc {n : Nat} (h : n < 2 ^ 40) : slowing.alloc n = true := by
  show decide (n < 2 ^ 40) = true
  exact decide_eq_true h

theorem slowing_clock : TestBenchTerms.ClockOK slowing := by
  intro k n hn
  have : (slowing.elapsed k n).toNat =
      (if k = 0 then max 400000000 n else max (min (1000000000 * n) 1000000000000000) n) := by
    show (BitVec.ofNat 64 _).toNat = _
    rw [BitVec.toNat_ofNat]
    split <;> omega
  rw [this]
  split <;> omega

/-- The state of a new process. -/
def start : World := ⟨0, 0, 0, []⟩

end Examples
open Props.Examples

/-- The number shown is that of the last run even if an earlier one was faster, contrary to the name `fastestRun`: here
196 hashes per second are shown, although the first run did 490 per second. -/
theorem C57_not_fastest : ∃ w', bench_hash slowing 33 0 .throughput 1024 .fixedSize 1010 490 start = .done (196, w') ∧
    w'.runs = 2 ∧ (slowing.elapsed 0 1).toNat = 400000000 ∧ (slowing.elapsed 1 2).toNat = 2000000000 ∧
    (490 : ℚ) = 196 * 1 * 1000000000 / (slowing.elapsed 0 1).toNat := by
  have h := slowing_machine
  have el0 : (slowing.elapsed 0 1).toNat = 400000000 := by decide
  have el1 : (slowing.elapsed 1 2).toNat = 2000000000 := by decide
  have he : ∀ q, slowing.fp.rnd q = q := fun _ => rfl
  obtain ⟨src, sizes, w0, b1, b2, b3, b4⟩ := first_run h 0 .throughput .fixedSize (size := 1024) (by norm_num) (by norm_num)
    (by decide) 33 1010 490 start
  obtain ⟨bud1, bud2⟩ := resetTimed_budgets slowing.cfg (total_ms := 1010) (iter_ms := 490) (by decide) (by decide)
  obtain ⟨r1, w1, c1, _, c3, c4⟩ := benchFunction_eq h (fn := 0) (by norm_num) .throughput b1 b2 (nbLoops := 1) (by decide) w0
  obtain ⟨r2, w2, d1, _, d3, d4⟩ := benchFunction_eq h (fn := 0) (by norm_num) .throughput b1 b2 (nbLoops := 2) (by decide) w1
  have hr0 : w0.runs = 0 := b3
  have hr1 : w1.runs = 1 := by rw [c3, hr0]
  simp only [he, hr0, hr1, show (1 : W32).toNat = 1 from rfl, show (2 : W32).toNat = 2 from rfl, el0, el1] at c4 d4
  norm_num at c4 d4
  have a1 := afterRun_exact he (t := resetTimed slowing.cfg 1010 490) (r := r1) (B := 490000000) (n := 1) (d := 400000000)
    (q := 1) c4 rfl bud2 rfl (by norm_num) (by norm_num) (by norm_num) (by norm_num) (by norm_num) (by norm_num)
    (by norm_num) (by norm_num)
  have a2 := afterRun_exact he
    (t := { resetTimed slowing.cfg 1010 490 with timeSpent_ns := 0 + BitVec.ofNat 64 400000000, nbLoops := BitVec.ofNat 32 1 + 1 })
    (r := r2) (B := 490000000) (n := 2) (d := 2000000000)
    (q := 0) d4 rfl bud2 rfl (by norm_num) (by norm_num) (by norm_num) (by norm_num) (by norm_num) (by norm_num)
    (by norm_num) (by norm_num)
  have m : measureLoop slowing 0 .throughput src sizes 33 33 (resetTimed slowing.cfg 1010 490) none w0 =
      .done (some r2, w2) := measureLoop_two (fn := 0) (mode := .throughput) (src := src) (sizes := sizes) (f := 30) (g := 32)
    (t0 := resetTimed slowing.cfg 1010 490) (by decide) c1 a1 (by decide) d1 a2 (by decide)
  refine ⟨w2, ?_, by rw [d3, hr1], el0, el1, by rw [el0]; norm_num⟩
  rw [b4, m]
  show (if r2.nanoSecPerRun = 0 then _ else _) = _
  rw [d4, if_neg (by norm_num)]
  simp only [he, Option.getD_some, d4]
  norm_num

/-! ### Instances -/

/-- A command line: `benchHash --minl=10 --maxl=11 --mins=1 --maxs=2x XXH32 --n=2`, that is two hash functions from
XXH32 on, tables of sizes 1024 and 2048, and of 1 and 2; the `x` is ignored. -/
def Examples.command : List Setting :=
  [.minl (txt "10") 10, .maxl (txt "11") 11, .mins (txt "1") 1, .maxs (txt "2x") 2, .hash 1, .n (txt "2") 2]

theorem Examples.command_ok : ∀ st ∈ Examples.command, st.OK := by
  unfold Examples.command
  simp only [List.forall_mem_cons, Setting.OK]
  exact ⟨by decide +kernel, by decide +kernel, by decide +kernel, by decide +kernel, by decide, by decide +kernel,
    fun _ h => by cases h⟩

example : numberOf (txt "123") = some 123 ∧ numberOf (txt "") = some 0 ∧ numberOf (txt "4Kb") = some 4096 ∧
    numberOf (txt "3M") = some 3145728 ∧ numberOf (txt "2147483629") = some 2147483629 ∧
    numberOf (txt "2147483630") = none ∧ numberOf (txt "2048M") = none ∧ numberOf (txt "12k") = some 12 := by
  decide +kernel

example : ∃ tabs w', main slowing 33 (Examples.command.map Setting.text) start = .done (0, .count 2 :: tabs.flatten, w') ∧
    Seq (TableOK slowing (Examples.command.foldl Setting.apply defaults)) (tables (Examples.command.foldl Setting.apply defaults))
      start tabs w' :=
  C57_tables slowing_machine slowing_clock (le_refl _) Examples.command_ok start (by decide) (by decide) (by decide)
    (by decide)

/-- The five tables of that command line. -/
example : (tables (Examples.command.foldl Setting.apply defaults)).map (fun T => (T.large, T.sizes)) =
    [(true, [1024, 2048]), (false, [1, 2]), (false, [1, 2]), (false, [1, 2]), (false, [1, 2])] := by decide

example : main slowing 33 ([Setting.mins (txt "0") 0].map Setting.text) start = .undefined :=
  C57_mins_zero slowing_machine slowing_clock (le_refl _)
    (fun _ h => by rw [List.mem_singleton.mp h]; show numberOf _ = _; decide +kernel) start (by decide) (by decide)
    (by decide) (fun k _ hk => by
      have : k ≤ 27 := hk
      have : 2 ^ k ≤ 2 ^ 27 := Nat.pow_le_pow_right (by norm_num) this
      exact slowing_alloc (by omega)) rfl

example : main slowing 33 ([Setting.maxl (txt "31") 31].map Setting.text) start = .abort :=
  C57_log_limit slowing 33 (fun _ h => by rw [List.mem_singleton.mp h]; show numberOf _ = _; decide +kernel) start
    (by decide) (by decide) (by decide)

example : main slowing 33 [txt "XXH64", txt "--n=3"] start = .done (1, [.wrongSelection], start) :=
  C57_selection slowing 33 (sts := [.hash 2, .n (txt "3") 3]) (by
    simp only [List.forall_mem_cons, Setting.OK]
    exact ⟨by decide, by decide +kernel, fun _ h => by cases h⟩) start

example : main slowing 33 [txt "XXH64", txt "-help", txt "nonsense"] start = .done (0, [.help], start) :=
  (C57_first_other slowing 33 (sts := [.hash 2]) (by
    simp only [List.forall_mem_cons, Setting.OK]
    exact ⟨by decide, fun _ h => by cases h⟩) (txt "-help") [txt "nonsense"] start).1 (by decide +kernel)

/-- A machine without memory, a clock that goes back by a nanosecond, and one that stands still. -/
example : bench_hash { slowing with alloc := fun _ => false } 33 0 .latency 16 .fixedSize 490 170 start = .abort :=
  C57_no_memory (by decide) 33 0 _ _ (by norm_num) (by norm_num) rfl 490 170 start

example : bench_hash { slowing with elapsed := fun _ _ => 0 } 33 3 .latency 16 .randomSize 490 170 start = .abort :=
  C57_stopped_clock (e := { slowing with elapsed := fun _ _ => 0 }) (size := 16)
    ⟨slowing_machine.cfg, slowing_machine.size, slowing_machine.fp, slowing_machine.alloc⟩ (by norm_num) _ _
    (by norm_num) (by norm_num) (by norm_num [slowing]) (by norm_num) _ _ (by decide) (by decide)
    start fun _ _ => rfl

/-- Arithmetic that is exact except that `2^64 - 1` becomes `2^64`. -/
def Examples.nearly : Fp := ⟨fun q => if q = 2 ^ 64 - 1 then 2 ^ 64 else q⟩

theorem Examples.nearly_ok : FpOK Examples.nearly := by
  refine ⟨fun q _ => ?_, fun q h => ?_⟩
  · show |(if q = 2 ^ 64 - 1 then 2 ^ 64 else q) - q| ≤ _
    split
    next h => rw [h]; norm_num
    next => rw [sub_self, abs_zero]; positivity
  · show 1 ≤ (if q = 2 ^ 64 - 1 then 2 ^ 64 else q)
    split
    · norm_num
    · exact h

example : bench_hash { slowing with fp := Examples.nearly, elapsed := fun _ _ => -1 } 33 3 .latency 16 .randomSize 490 170
    start = .undefined :=
  C57_backwards (e := { slowing with fp := Examples.nearly, elapsed := fun _ _ => -1 }) (size := 16)
    ⟨slowing_machine.cfg, slowing_machine.size, Examples.nearly_ok, slowing_machine.alloc⟩ (by norm_num) _ _
    (by norm_num) (by norm_num) (by norm_num [slowing]) (by norm_num) _ _ (by decide) (by decide) start
    (by show (if ((2 ^ 64 - 1 : ℕ) : ℚ) = 2 ^ 64 - 1 then _ else _) = _
        rw [if_pos (by norm_num)])
    (by show (if ((2 : ℚ) ^ 64) = 2 ^ 64 - 1 then _ else _) = _
        rw [if_neg (by norm_num)])
    (by show (if (1 : ℚ) = 2 ^ 64 - 1 then _ else _) = _
        rw [if_neg (by norm_num)])

example : (spanNano ⟨7, 999999999⟩ ⟨8, 1⟩).toNat = 2 ∧ (spanNano ⟨8, 1⟩ ⟨7, 999999999⟩).toNat = 2 ^ 64 - 2 ∧
    (spanMicro ⟨7, 999000001⟩ ⟨9, 0⟩).toNat = 1000999 := by decide +kernel

/-! ### The theorems applied -/

example : (spanTicks 25000000 10000000).toNat = 2500000000 := by rw [C57_span_ticks (by decide)]; decide

example : ((spanMicro ⟨1, 999999999⟩ ⟨3, 1999⟩).toNat : Int) = 1000002 :=
  (C57_span_micro (by decide) (by decide) (by decide) (by decide)).trans (by decide)

end XXH.Props
