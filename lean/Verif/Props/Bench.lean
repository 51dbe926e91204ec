import Verif.Proof.Bench
/-!
Properties of the benchmark of xxhsum: C48.
-/
namespace XXH.Props
open XXH.Model XXH.Model.Bench XXH.Examples XXH.BenchTerms
open Proof.Bench (Sat_bind of_bind)

/-! ### The internal benchmark -/

/-- What is asked of the machine for all selected tests. -/
structure BenchOK (e : Env) (testIDs : List Bool) : Prop where
  env : EnvOK e
  clock : ∀ i, testIDs.getD i false = true → ClockOK e i
  terse : ∀ i, testIDs.getD i false = true → TerseOK e i

theorem zeros_take {n a s : ℕ} (h : a + s ≤ n) : ((List.replicate n (0 : Byte)).drop a).take s = List.replicate s 0 := by
  rw [List.drop_replicate, List.take_replicate, min_eq_left (by omega)]

/-- The block allocated by `XSUM_benchInternal`. -/
theorem internal_eq {e : Env} {fuel : ℕ} {nameAlloc : ℕ → Bool} {alloc : ℕ → Option ℕ} {testIDs : List Bool}
    {keySize : BitVec 32} {addr : ℕ} (hk : keySize.toNat + 19 < 2^e.cfg.sizeBits)
    (ha : alloc (keySize.toNat + 19) = some addr) :
    ∃ off, off ≤ 15 ∧ benchInternal e fuel nameAlloc alloc testIDs keySize =
      benchTests e fuel nameAlloc testIDs ⟨addr, List.replicate (keySize.toNat + 19) 0⟩ off keySize.toNat allTests := by
  obtain ⟨off, h1, h2, h3⟩ := Proof.Bench.alignOff_some (block := ⟨addr, List.replicate (keySize.toNat + 19) 0⟩)
    (by simp)
  refine ⟨off, h2, ?_⟩
  unfold benchInternal
  dsimp only
  rw [Nat.mod_eq_of_lt (show keySize.toNat < 2^e.cfg.sizeBits by omega),
    show keySize.toNat + 16 + 3 = keySize.toNat + 19 by omega, Nat.mod_eq_of_lt hk, ha]
  show (Run.of (alignOff _) >>= _) = _
  rw [h1, of_bind, Proof.Bench.benchMem_eq h3]

theorem block_readable {cfg : Cfg} {addr n : ℕ} {bytes : List Byte} (hl : bytes.length = n) (hn : n < 2^(cfg.sizeBits - 1)) :
    Readable cfg (some ⟨addr, bytes⟩) n := ⟨hl, by show bytes.length < _; omega⟩

/-- **C48.** The internal benchmark of any size does nothing undefined, and every selected test reports, in order, under
its name: every round summed up the hash of that name over `keySize` zero bytes for the seeds 0, 1, …, as many rounds
counted as were asked for, and the time per hash is that of the fastest of them, to a relative error of `2^-50`. -/
theorem C48_internal {e : Env} {testIDs : List Bool} (he : BenchOK e testIDs) {keySize : BitVec 32}
    (hk : keySize.toNat + 19 < 2^(e.cfg.sizeBits - 1)) {nameAlloc : ℕ → Bool} (hname : ∀ i, nameAlloc i = true)
    {alloc : ℕ → Option ℕ} {addr : ℕ} (ha : alloc (keySize.toNat + 19) = some addr) (fuel : ℕ) :
    Sat (ReportsOK e (fun _ => List.replicate keySize.toNat 0) testIDs allTests)
      (benchInternal e fuel nameAlloc alloc testIDs keySize) := by
  have h2 : 2^(e.cfg.sizeBits - 1) ≤ 2^e.cfg.sizeBits := Nat.pow_le_pow_right (by decide) (by omega)
  obtain ⟨off, ho, hrun⟩ := internal_eq (e := e) (fuel := fuel) (nameAlloc := nameAlloc) (testIDs := testIDs)
    (by omega) ha
  rw [hrun]
  have h := Proof.Bench.benchTests_sat he.env
    (block_readable (addr := addr) (List.length_replicate (n := keySize.toNat + 19) (a := (0 : Byte))) hk) (off := off) (size := keySize.toNat) (by omega) he.clock he.terse fuel hname allTests Proof.Bench.allTests_lt
  have hin : Proof.Bench.testInput ⟨addr, List.replicate (keySize.toNat + 19) 0⟩ off keySize.toNat =
      fun _ => List.replicate keySize.toNat 0 := by
    funext i
    exact zeros_take (by split <;> omega)
  rwa [hin] at h

/-- **C48.** Without memory the internal benchmark ends with status 12. -/
theorem C48_internal_no_memory {e : Env} (fuel : ℕ) (nameAlloc : ℕ → Bool) (testIDs : List Bool) (keySize : BitVec 32)
    {alloc : ℕ → Option ℕ} (ha : ∀ n, alloc n = none) :
    benchInternal e fuel nameAlloc alloc testIDs keySize = .exit 12 := by
  unfold benchInternal
  simp only [ha]

/-- **C48.** The benchmark ends on every machine that is not too fast: every round that does not count at least doubles
the number of calls (the multiplication by 100 included), so at most 33 rounds are needed for one that counts. -/
theorem C48_internal_ends {e : Env} {testIDs : List Bool} (he : BenchOK e testIDs) {G D : ℕ}
    (hslow : ∀ i, testIDs.getD i false = true → SlowEnough e i G D) {keySize : BitVec 32}
    (hk : keySize.toNat + 19 < 2^(e.cfg.sizeBits - 1)) {nameAlloc : ℕ → Bool}
    {alloc : ℕ → Option ℕ} {addr : ℕ} (ha : alloc (keySize.toNat + 19) = some addr) {fuel : ℕ}
    (hfuel : 33 * (wanted e).toNat + 34 ≤ fuel) :
    benchInternal e fuel nameAlloc alloc testIDs keySize ≠ .unfinished := by
  have h2 : 2^(e.cfg.sizeBits - 1) ≤ 2^e.cfg.sizeBits := Nat.pow_le_pow_right (by decide) (by omega)
  obtain ⟨off, ho, hrun⟩ := internal_eq (e := e) (fuel := fuel) (nameAlloc := nameAlloc) (testIDs := testIDs)
    (by omega) ha
  rw [hrun]
  exact Proof.Bench.benchTests_ends he.env (block_readable (addr := addr) List.length_replicate hk)
    (off := off) (size := keySize.toNat) (by omega) he.clock hslow hfuel nameAlloc allTests Proof.Bench.allTests_lt

/-- **C48.** All of it together: with memory and a machine that is not too fast, the benchmark ends with its reports. -/
theorem C48_internal_reports {e : Env} {testIDs : List Bool} (he : BenchOK e testIDs) {G D : ℕ}
    (hslow : ∀ i, testIDs.getD i false = true → SlowEnough e i G D) {keySize : BitVec 32}
    (hk : keySize.toNat + 19 < 2^(e.cfg.sizeBits - 1)) {nameAlloc : ℕ → Bool} (hname : ∀ i, nameAlloc i = true)
    {alloc : ℕ → Option ℕ} {addr : ℕ} (ha : alloc (keySize.toNat + 19) = some addr) {fuel : ℕ}
    (hfuel : 33 * (wanted e).toNat + 34 ≤ fuel) :
    ∃ rs, benchInternal e fuel nameAlloc alloc testIDs keySize = .done rs ∧
      ReportsOK e (fun _ => List.replicate keySize.toNat 0) testIDs allTests rs := by
  have h1 := C48_internal he hk hname ha fuel
  have h2 := C48_internal_ends he hslow hk (nameAlloc := nameAlloc) ha hfuel
  cases h : benchInternal e fuel nameAlloc alloc testIDs keySize with
  | done rs => rw [h] at h1; exact ⟨rs, rfl, h1⟩
  | unfinished => exact absurd h h2
  | _ => rw [h] at h1; exact h1.elim

/-- **C48.** The tests selected by `-b` without a number are the four one-shot functions on aligned data. -/
theorem C48_default_tests :
    (allTests.filter (Cli.testIDs_default.getD · false)).map testName = ["XXH32", "XXH64", "XXH3_64b", "XXH128"] := by
  decide +kernel

/-- **C48.** A test and its streaming sibling sum up the same values. -/
theorem C48_stream_siblings (msg : List Byte) (u : W32) :
    namedHash 8 msg u = namedHash 0 msg u ∧ namedHash 9 msg u = namedHash 1 msg u ∧
    namedHash 10 msg u = namedHash 2 msg u ∧ namedHash 11 msg u = namedHash 3 msg u ∧
    namedHash 12 msg u = namedHash 5 msg u ∧ namedHash 13 msg u = namedHash 6 msg u := ⟨rfl, rfl, rfl, rfl, rfl, rfl⟩

/-! ### Limits of the internal benchmark -/

/-- **C48, a limit.** With a 32-bit `size_t`, the sizes from `2^32 - 19` on wrap in the allocation: the block is too small
even for the alignment. -/
theorem C48_size_wraps {e : Env} (hs : e.cfg.sizeBits = 32) (fuel : ℕ) (nameAlloc : ℕ → Bool) (testIDs : List Bool)
    {keySize : BitVec 32} (hk : 2^32 - 19 ≤ keySize.toNat) (hk' : keySize.toNat < 2^32 - 4)
    {alloc : ℕ → Option ℕ} {addr : ℕ} (ha : alloc (keySize.toNat + 19 - 2^32) = some addr) :
    benchInternal e fuel nameAlloc alloc testIDs keySize = .undefined := by
  unfold benchInternal
  dsimp only
  rw [hs, Nat.mod_eq_of_lt (show keySize.toNat < 2^32 by omega),
    show (keySize.toNat + 16 + 3) % 2^32 = keySize.toNat + 19 - 2^32 by omega, ha]
  show (Run.of (alignOff _) >>= _) = _
  unfold alignOff
  rw [if_pos (by simp only [List.length_replicate]; omega)]
  rfl

/-- **C48, a limit.** With a 32-bit `size_t`, the size `2^32 - 1` makes the first estimate divide by zero. -/
theorem C48_size_divides_by_zero {e : Env} (hs : e.cfg.sizeBits = 32) (fuel f i : ℕ) (name : String) (p : Ptr) :
    benchHash e fuel f name i p (2^32 - 1) = .undefined := by
  unfold benchHash firstRate
  dsimp only
  rw [hs]
  rfl

/-- **C48, a limit.** A negative number of iterations (`-i` with a number from `2^31` on): nothing is measured, and the
report is a time of `10^8` seconds per hash. -/
theorem C48_negative_iterations {e : Env} (hn : e.nbIterations < 0) (hl : 1 ≤ e.logLevel) (fuel f i : ℕ) (name : String)
    (p : Ptr) {size : ℕ} (hsize : size + 1 < 2^e.cfg.sizeBits) :
    benchHash e (fuel + 1) f name i p size = .done ⟨i, name, .fin 100000000, []⟩ := by
  obtain ⟨w, hw, -⟩ := Proof.Bench.firstRate_some hsize
  unfold benchHash
  rw [hw, of_bind, Proof.Bench.loop_succ, if_neg]
  · show (if e.logLevel < 1 then _ else _) = _
    rw [if_neg (by omega)]
    rfl
  · show ¬ (1 : ℤ) ≤ e.nbIterations + _
    rw [if_neg (by omega)]
    omega

/-- **C48, a limit.** In quick mode (`-i0`) with terse output, a first round without a tick ends in the conversion of an
infinity to `unsigned`. -/
theorem C48_quick_terse_undefined {e : Env} (he : EnvOK e) (hn : e.nbIterations = 0) (hl : e.logLevel < 1)
    (hP : 2 ≤ e.perSec) {i : ℕ} (ht : ∀ n, e.ticks i 0 n = 0) {f : ℕ} {p : Ptr} {size : ℕ}
    (hsize : size + 1 < 2^e.cfg.sizeBits) (name : String) (fuel : ℕ) :
    benchHash e (fuel + 2) f name i p size = .undefined := by
  obtain ⟨w, hw, hw1⟩ := Proof.Bench.firstRate_some hsize
  unfold benchHash
  rw [hw, of_bind, Proof.Bench.loop_succ, if_pos (by unfold wanted; rw [hn]; show (1 : ℤ) ≤ 0 + 1; decide), ht]
  dsimp only
  cases calls (localHash e f p size) w.toNat with
  | none => rfl
  | some r =>
    rw [of_bind]
    have hz := Proof.Bench.perHash_zero he.fp he.perSec.1 hw1
    obtain ⟨v, hv, -⟩ := Proof.Bench.rate_fin he.fp (le_refl (0 : ℚ)) (by norm_num)
    have hstep : step e ⟨w, .fin 100000000, 1⟩ 0 = some ⟨v, .fin 0, 2⟩ := by
      have hlt : Dbl.lt (.fin 0) (.fin 100000000) = true := by simp [Dbl.lt]
      unfold step
      dsimp only
      rw [hz]
      have hP' : (0 : ℤ) < (e.perSec : ℤ) / 2 := by have := hP; omega
      simp only [hlt, if_true, hv, if_pos hP', hn, Option.bind_eq_bind, Option.bind_some]
      rw [if_neg (by simp)]
      rfl
    rw [hstep, of_bind, Proof.Bench.loop_succ, if_neg (by unfold wanted; rw [hn]; show ¬ (2 : ℤ) ≤ 0 + 1; decide)]
    show (if e.logLevel < 1 then _ else _) = _
    rw [if_pos hl]
    have : e.fp.div (.fin 1) (.fin 0) = .inf false := by simp [Fp.div]
    rw [this]
    rfl

/-- **C48, a limit.** If no number of calls takes half a second, the loop never ends. -/
theorem C48_too_fast_never_ends {e : Env} (he : EnvOK e) (hn : 0 < e.nbIterations) {i : ℕ}
    (hclk : ClockOK e i) (ht : ∀ k n, e.ticks i k n < e.perSec / 2) {f : ℕ} {p : Ptr} {size : ℕ}
    (hsize : size + 1 < 2^e.cfg.sizeBits) (hp : Readable e.cfg p size) (hf : f < 14) (name : String) (fuel : ℕ) :
    benchHash e fuel f name i p size = .unfinished := by
  have hw : wanted e = e.nbIterations := by unfold wanted; rw [if_neg (by omega)]; omega
  have key : ∀ fuel k st q, st.fastestH = .fin q → 0 ≤ q → q ≤ 100000000 → st.iterationNb = 1 →
      benchLoop e i (localHash e f p size) fuel k st = .unfinished := by
    intro fuel
    induction fuel with
    | zero => intros; rfl
    | succ fuel ih =>
      intro k st q hq hq1 hq2 hi
      rw [Proof.Bench.loop_succ, if_pos (by omega),
        Proof.Bench.calls_eq (g := namedHash f (contents p)) (Proof.Bench.localHash_eq he hp hf), of_bind]
      have h0 := Int.toNat_of_nonneg (hclk.forward k st.nbh.toNat)
      obtain ⟨st', q', hs, hf', hq1', hle, hcase⟩ := Proof.Bench.step_ok he (le_refl 0)
        (t := (e.ticks i k st.nbh.toNat).toNat)
        (fun _ => mul_nonneg (by unfold secs; positivity) (by norm_num)) hq hq1 hq2 (by omega)
      rw [h0] at hs
      rw [hs, of_bind]
      have h1 := ht k st.nbh.toNat
      rcases hcase with ⟨-, h2, -⟩ | ⟨h2, -⟩
      · rw [ih (k+1) st' q' hf' hq1' (hle.trans hq2) (by omega)]
        rfl
      · exact absurd ⟨by omega, hn⟩ h2
  obtain ⟨w, hw', -⟩ := Proof.Bench.firstRate_some hsize
  unfold benchHash
  rw [hw', of_bind, key fuel 0 _ 100000000 rfl (by norm_num) (le_refl _) rfl]
  rfl

/-! ### Sizes for files -/

/-- **C48.** The chosen size is at most the size of the file and at most 1984 MB. -/
theorem C48_size_bound (cfg : Cfg) (malloc : ℕ → ℕ → Bool) (fuel : ℕ) (f : BFile) :
    Sat (fun n => n ≤ 2080374784 ∧ n ≤ f.size.toNat) (selectBenchedSize cfg malloc fuel f) :=
  Proof.Bench.select_sat cfg malloc fuel f

/-- **C48.** With enough memory, files up to 1856 MB are measured as a whole, and of larger ones the first 1856 MB. -/
theorem C48_size_whole {cfg : Cfg} (hs : 32 ≤ cfg.sizeBits) {malloc : ℕ → ℕ → Bool} (hm : ∀ k n, malloc k n = true)
    (fuel : ℕ) {f : BFile} (hf : f.size.toNat < 2^63) :
    selectBenchedSize cfg malloc (fuel + 1) f = .done (min f.size.toNat (29 * 2^26)) := by
  have h32 : 2^32 ≤ 2^cfg.sizeBits := Nat.pow_le_pow_right (by decide) hs
  have hS : STEP.toNat = 67108864 := rfl
  have hM : MAX_MEM.toNat = 2080374784 := rfl
  have hr : ((f.size >>> 26 + 1) <<< 26 + 2 * STEP).toNat = (f.size.toNat / 2^26 + 3) * 2^26 := by
    rw [BitVec.toNat_add, BitVec.toNat_shiftLeft, BitVec.toNat_add, BitVec.toNat_ushiftRight, Nat.shiftRight_eq_div_pow,
      Nat.shiftLeft_eq, show (1 : BitVec 64).toNat = 1 from rfl, show (2 * STEP : BitVec 64).toNat = 2 * 2^26 from rfl]
    omega
  have hfirst : (firstMem f.size).toNat = (min (f.size.toNat / 2^26) 28 + 3) * 2^26 := by
    unfold firstMem
    dsimp only
    split
    · next h =>
      rw [BitVec.lt_def, hr, hM] at h
      rw [hM]
      omega
    · next h =>
      rw [BitVec.lt_def, hr, hM] at h
      rw [hr]
      omega
  have hsh : ∀ (r : BitVec 64) (m : ℕ), r.toNat = (m + 2) * 2^26 → (shrink r).toNat = (m + 1) * 2^26 := by
    intro r m h
    unfold shrink
    have hlt : STEP < r := by rw [BitVec.lt_def, hS, h]; omega
    rw [if_pos hlt, BitVec.toNat_sub_of_le (BitVec.le_def.2 (BitVec.lt_def.1 hlt).le), h, hS]
    omega
  have h1 := hsh (firstMem f.size) (min (f.size.toNat / 2^26) 28 + 1) (by rw [hfirst])
  have h2 := hsh _ (min (f.size.toNat / 2^26) 28) h1
  have hloop : findLoop cfg malloc (fuel + 1) 0 (firstMem f.size) = .done (shrink (firstMem f.size)) := by
    rw [findLoop, hm]
    rfl
  unfold selectBenchedSize findMaxMem
  rw [hloop]
  show Run.done (if f.size.toNat < (shrink (shrink (firstMem f.size))).toNat % 2^cfg.sizeBits
    then f.size.toNat % 2^cfg.sizeBits else (shrink (shrink (firstMem f.size))).toNat % 2^cfg.sizeBits) = _
  rw [h2, Nat.mod_eq_of_lt (show (min (f.size.toNat / 2^26) 28 + 1) * 2^26 < 2^cfg.sizeBits by omega)]
  refine congrArg Run.done ?_
  split
  · rw [Nat.mod_eq_of_lt (by omega)]; omega
  · omega

/-- **C48.** The search for memory ends if an allocation of 0 bytes succeeds. -/
theorem C48_size_found {cfg : Cfg} {malloc : ℕ → ℕ → Bool} (h0 : ∀ k, malloc k 0 = true) {fuel : ℕ} (hf : 60 ≤ fuel)
    (f : BFile) : ∃ n, selectBenchedSize cfg malloc fuel f = .done n := by
  have h1 := Proof.Bench.firstMem_le f.size
  obtain ⟨r, hr⟩ := Proof.Bench.findLoop_ends (cfg := cfg) h0 32 fuel 0 (firstMem f.size) (by omega) (by omega)
  unfold selectBenchedSize findMaxMem
  rw [hr]
  exact ⟨_, rfl⟩

/-- **C48, a limit.** If `malloc` keeps failing and gives NULL for 0 bytes too (which C allows), it never ends. -/
theorem C48_size_never {cfg : Cfg} {malloc : ℕ → ℕ → Bool} (h : ∀ k n, malloc k n = false) (fuel : ℕ) (f : BFile) :
    selectBenchedSize cfg malloc fuel f = .unfinished := by
  unfold selectBenchedSize findMaxMem
  rw [Proof.Bench.findLoop_never h]
  rfl

/-! ### Files -/

/-- The data of test `i` of a file whose first `n` bytes are `got`: the unaligned tests start 3 bytes later and end with
three zero bytes behind the data. -/
def fileInput (got : List Byte) (i : ℕ) : List Byte :=
  if i % 2 = 1 then got else ((got ++ [0, 0, 0]).drop 3).take got.length

theorem block_input {addr off n : ℕ} {got : List Byte} (h : off + got.length + 3 ≤ n) (i : ℕ) :
    Proof.Bench.testInput ⟨addr, List.replicate off 0 ++ got ++ List.replicate (n - off - got.length) 0⟩ off got.length i =
      fileInput got i := by
  have hlen : (List.replicate off (0 : Byte)).length = off := List.length_replicate
  unfold Proof.Bench.testInput fileInput
  dsimp only
  split
  · rw [List.append_assoc, List.drop_append_of_le_length (by omega), List.drop_of_length_le (by omega), List.nil_append,
      List.take_left]
  · have hz : List.replicate (n - off - got.length) (0 : Byte) = [0, 0, 0] ++ List.replicate (n - off - got.length - 3) 0 := by
      rw [show ([0, 0, 0] : List Byte) = List.replicate 3 0 from rfl, ← List.replicate_add]
      congr 1
      omega
    rw [← List.drop_drop, List.append_assoc, List.drop_append_of_le_length (by omega),
      List.drop_of_length_le (l := List.replicate off (0 : Byte)) (by omega), List.nil_append, hz, ← List.append_assoc,
      List.drop_append_of_le_length (by simp), List.take_append_of_le_length (by simp)]

/-- **C48.** The benchmark of a readable file does nothing undefined, and reports on the first bytes of the file. -/
theorem C48_file {e : Env} {testIDs : List Bool} (he : BenchOK e testIDs) {nameAlloc : ℕ → Bool}
    (hname : ∀ i, nameAlloc i = true) {malloc : ℕ → ℕ → Bool} {alloc : ℕ → Option ℕ} (ha : ∀ n, alloc n ≠ none)
    {f : BFile} (ho : f.opens = true) (hd : f.size.toNat ≤ f.data.length) (fuel : ℕ) :
    Sat (fun rs => ∃ n, n ≤ 2080374784 ∧ n ≤ f.size.toNat ∧ ReportsOK e (fileInput (f.data.take n)) testIDs allTests rs)
      (benchFile e fuel nameAlloc malloc alloc testIDs f) := by
  have h31 : 2^31 ≤ 2^(e.cfg.sizeBits - 1) := Nat.pow_le_pow_right (by decide) (by have := he.env.size; omega)
  have h32 : 2^(e.cfg.sizeBits - 1) ≤ 2^e.cfg.sizeBits := Nat.pow_le_pow_right (by decide) (by omega)
  unfold benchFile
  refine Sat_bind (C48_size_bound e.cfg malloc fuel f) ?_
  rintro n ⟨h1, h2⟩
  dsimp only
  rw [show n + 16 + 3 = n + 19 by omega, Nat.mod_eq_of_lt (by omega)]
  cases haddr : alloc (n + 19) with
  | none => exact absurd haddr (ha _)
  | some addr =>
    obtain ⟨off, g1, g2, g3⟩ := Proof.Bench.alignOff_some (block := ⟨addr, List.replicate (n + 19) 0⟩) (by simp)
    have hgot : (f.data.take n).length = n := by rw [List.length_take]; omega
    show Sat _ (Run.of (alignOff _) >>= _)
    rw [g1, of_bind, ho, hgot]
    simp only [Bool.not_true, Bool.false_eq_true, if_false, ne_eq, not_true_eq_false]
    rw [if_neg (by omega), Proof.Bench.benchMem_eq (by exact g3)]
    have hl : (List.replicate off (0 : Byte) ++ f.data.take n ++ List.replicate (n + 19 - off - n) 0).length = n + 19 := by
      simp only [List.length_append, List.length_replicate, hgot]; omega
    have h := Proof.Bench.benchTests_sat he.env (block_readable (addr := addr) hl (by omega)) (off := off) (size := n)
      (by omega) he.clock he.terse fuel hname allTests Proof.Bench.allTests_lt
    have hin : Proof.Bench.testInput
        ⟨addr, List.replicate off 0 ++ f.data.take n ++ List.replicate (n + 19 - off - n) 0⟩ off n =
        fileInput (f.data.take n) := by
      funext i
      have := block_input (addr := addr) (off := off) (n := n + 19) (got := f.data.take n) (by omega) i
      rwa [hgot] at this
    rw [hin] at h
    generalize benchTests e fuel nameAlloc testIDs
      ⟨addr, List.replicate off 0 ++ f.data.take n ++ List.replicate (n + 19 - off - n) 0⟩ off n allTests = x at h ⊢
    cases x with
    | done rs => exact ⟨n, h1, h2, h⟩
    | unfinished => trivial
    | _ => exact h.elim

/-- **C48.** Several files: one list of reports for each, in order. -/
theorem C48_files {e : ℕ → Env} {testIDs : List Bool} (he : ∀ j, BenchOK (e j) testIDs) {nameAlloc : ℕ → ℕ → Bool}
    (hname : ∀ j i, nameAlloc j i = true) {malloc : ℕ → ℕ → ℕ → Bool} {alloc : ℕ → ℕ → Option ℕ}
    (ha : ∀ j n, alloc j n ≠ none) (fuel : ℕ) :
    ∀ (fs : List BFile) (j : ℕ), (∀ f ∈ fs, f.opens = true ∧ f.size.toNat ≤ f.data.length) →
      Sat (fun rss : List (List TestReport) => rss.length = fs.length ∧
          ∀ k f rs, fs[k]? = some f → rss[k]? = some rs → ∃ n, n ≤ 2080374784 ∧ n ≤ f.size.toNat ∧
            ReportsOK (e (j + k)) (fileInput (f.data.take n)) testIDs allTests rs)
        (benchFiles e fuel nameAlloc malloc alloc testIDs j fs) := by
  intro fs
  induction fs with
  | nil => intro j _; exact ⟨rfl, fun k f rs h => by simp at h⟩
  | cons f fs ih =>
    intro j hfs
    obtain ⟨ho, hd⟩ := hfs f List.mem_cons_self
    rw [benchFiles]
    refine Sat_bind (C48_file (he j) (hname j) (ha j) ho hd fuel) fun r hr => ?_
    refine Sat_bind (ih (j + 1) fun g hg => hfs g (List.mem_cons_of_mem _ hg)) ?_
    rintro rss ⟨h1, h2⟩
    refine ⟨by rw [List.length_cons, List.length_cons, h1], ?_⟩
    intro k g rs hg hrs
    cases k with
    | zero =>
      simp only [List.getElem?_cons_zero, Option.some.injEq] at hg hrs
      subst hg hrs
      exact hr
    | succ k =>
      simp only [List.getElem?_cons_succ] at hg hrs
      have := h2 k g rs hg hrs
      rwa [show j + 1 + k = j + (k + 1) by omega] at this

/-- **C48.** A file that cannot be opened: status 11. One that is shorter than reported: status 13. -/
theorem C48_file_errors {e : Env} (hs : 32 ≤ e.cfg.sizeBits) (testIDs : List Bool) (nameAlloc : ℕ → Bool)
    {malloc : ℕ → ℕ → Bool} (hm : ∀ k n, malloc k n = true) {alloc : ℕ → Option ℕ} (ha : ∀ n, alloc n ≠ none)
    {f : BFile} (hsize : f.size.toNat < 2^63) (fuel : ℕ) :
    (f.opens = false → benchFile e (fuel + 1) nameAlloc malloc alloc testIDs f = .exit 11) ∧
    (f.opens = true → f.data.length < min f.size.toNat (29 * 2^26) →
      benchFile e (fuel + 1) nameAlloc malloc alloc testIDs f = .exit 13) := by
  have h32 : 2^32 ≤ 2^e.cfg.sizeBits := Nat.pow_le_pow_right (by decide) hs
  unfold benchFile
  rw [C48_size_whole hs hm fuel hsize]
  generalize hn : min f.size.toNat (29 * 2^26) = n
  show (_ → (match alloc ((n + 16 + 3) % 2^e.cfg.sizeBits) with | none => _ | some addr => _) = _) ∧
    (_ → _ → (match alloc ((n + 16 + 3) % 2^e.cfg.sizeBits) with | none => _ | some addr => _) = _)
  rw [show n + 16 + 3 = n + 19 by omega, Nat.mod_eq_of_lt (by omega)]
  cases haddr : alloc (n + 19) with
  | none => exact absurd haddr (ha _)
  | some addr =>
    obtain ⟨off, g1, g2, g3⟩ := Proof.Bench.alignOff_some (block := ⟨addr, List.replicate (n + 19) 0⟩) (by simp)
    dsimp only
    rw [g1, of_bind]
    constructor
    · intro ho
      rw [ho]
      rfl
    · intro ho hlt
      have hgot : (f.data.take n).length = f.data.length := by rw [List.length_take]; omega
      rw [ho, hgot]
      simp only [Bool.not_true, Bool.false_eq_true, if_false]
      rw [if_neg (by omega), if_pos (by omega)]

/-- **C48, a limit.** Without memory for the data the benchmark of a file adds to a null pointer before it looks. -/
theorem C48_file_no_memory_undefined {e : Env} (hs : 32 ≤ e.cfg.sizeBits) (testIDs : List Bool) (nameAlloc : ℕ → Bool)
    {malloc : ℕ → ℕ → Bool} (hm : ∀ k n, malloc k n = true) {alloc : ℕ → Option ℕ} (ha : ∀ n, alloc n = none)
    {f : BFile} (hsize : f.size.toNat < 2^63) (fuel : ℕ) :
    benchFile e (fuel + 1) nameAlloc malloc alloc testIDs f = .undefined := by
  unfold benchFile
  rw [C48_size_whole hs hm fuel hsize]
  show (match alloc _ with | none => _ | some addr => _) = _
  rw [ha]

/-! ### A machine -/

/-- A machine with a clock of 1 MHz that steps by 1000, on which a hash takes a tenth of a microsecond. -/
def machine : Env where
  cfg := x64
  fp := Proof.Bench.nearest
  perSec := 1000000
  secretAddr := 4096
  state32 := ⟨5, 1, ⟨1, 2, 3, 4⟩, List.replicate 16 9, 3⟩
  state64 := ⟨5, ⟨1, 2, 3, 4⟩, List.replicate 32 9, 3⟩
  state3 := junk
  logLevel := 2
  nbIterations := 3
  ticks _ _ n := n / 10000 * 1000

theorem machine_env : EnvOK machine := ⟨x64_valid, by decide, junk_typed, Proof.Bench.nearest_ok, by decide⟩

theorem machine_ok (testIDs : List Bool) : BenchOK machine testIDs where
  env := machine_env
  clock _ _ := ⟨fun k n => by show (0 : ℤ) ≤ (n : ℤ) / 10000 * 1000; omega, by decide⟩
  terse _ _ := .inl (by decide)

theorem machine_slow (i : ℕ) : SlowEnough machine i 1000 10 where
  calls k n := by show (n : ℤ) ≤ ((n : ℤ) / 10000 * 1000 + 1000) * 10; omega
  limit := by decide
  resolution := by decide

example : ∃ rs, benchInternal machine 200 (fun _ => true) (fun _ => some 1003) Cli.testIDs_default 102400 = .done rs ∧
    ReportsOK machine (fun _ => List.replicate 102400 0) Cli.testIDs_default allTests rs :=
  C48_internal_reports (machine_ok _) (fun i _ => machine_slow i) (by decide) (fun _ => rfl) (addr := 1003) rfl
    (by decide)

/-- A file with three bytes. -/
def abcFile : BFile := ⟨true, 3, [0x61, 0x62, 0x63]⟩

theorem abcFile_length : abcFile.size.toNat ≤ abcFile.data.length := by decide

attribute [local irreducible] Sat in
example : Sat (fun rs => ∃ n, n ≤ 2080374784 ∧ n ≤ abcFile.size.toNat ∧
      ReportsOK machine (fileInput (abcFile.data.take n)) Cli.testIDs_default allTests rs)
    (benchFile machine 200 (fun _ => true) (fun _ _ => true) (fun _ => some 1003) Cli.testIDs_default abcFile) :=
  @C48_file machine Cli.testIDs_default (machine_ok _) (fun _ => true) (fun _ => rfl) (fun _ _ => true)
    (fun _ => some 1003) (fun _ h => Option.some_ne_none _ h) abcFile rfl abcFile_length 200

example : fileInput [0x61, 0x62, 0x63, 0x64] 2 = [0x64, 0, 0, 0] := by decide

example : selectBenchedSize x64 (fun _ _ => true) 1 ⟨true, 3000000000, []⟩ = .done 1946157056 := by
  have h := C48_size_whole (cfg := x64) (by decide) (malloc := fun _ _ => true) (fun _ _ => rfl) 0
    (f := ⟨true, 3000000000, []⟩) (by decide)
  have hn : min (3000000000 : BitVec 64).toNat (29 * 2^26) = 1946157056 := by decide
  rw [hn] at h
  exact h

example : benchHash { machine with nbIterations := 0, logLevel := 0, ticks := fun _ _ _ => 0 } 2 0 "XXH32" 1 abc 3 =
    .undefined :=
  C48_quick_terse_undefined ⟨x64_valid, by decide, junk_typed, Proof.Bench.nearest_ok, by decide⟩ rfl (by decide)
    (by decide) (fun _ => rfl) (by decide) _ 0

example (fuel : ℕ) : benchHash { machine with ticks := fun _ _ _ => 0 } fuel 0 "XXH32" 1 abc 3 = .unfinished :=
  C48_too_fast_never_ends ⟨x64_valid, by decide, junk_typed, Proof.Bench.nearest_ok, by decide⟩ (by decide)
    ⟨fun _ _ => le_refl _, by decide⟩ (fun _ _ => by show (0 : ℤ) < 1000000 / 2; decide) (by decide) abc_readable (by decide) _ fuel

example : benchInternal { machine with cfg := be32 } 200 (fun _ => true) (fun _ => some 1003) Cli.testIDs_default
    4294967280 = .undefined :=
  C48_size_wraps rfl _ _ _ (by decide) (by decide) (addr := 1003) rfl

example : benchHash { machine with nbIterations := -1 } 1 0 "XXH32" 1 abc 3 = .done ⟨1, "XXH32", .fin 100000000, []⟩ :=
  C48_negative_iterations (by decide) (by decide) 0 _ _ _ _ (by decide)

/-! ### The theorems applied -/

example : benchHash { machine with cfg := be32 } 5 5 "XXH32" 0 none (2^32 - 1) = .undefined := C48_size_divides_by_zero rfl _ _ _ _ _

example (f : BFile) : ∃ n, selectBenchedSize x64 (fun _ n => n = 0) 60 f = .done n := C48_size_found (fun _ => by simp) (le_refl _) f

example (f : BFile) : selectBenchedSize x64 (fun _ _ => false) 1000 f = .unfinished := C48_size_never (fun _ _ => rfl) _ f

example : benchInternal machine 9 (fun _ => true) (fun _ => none) [true] 1000 = .exit 12 := C48_internal_no_memory _ _ _ _ (fun _ => rfl)

end XXH.Props
