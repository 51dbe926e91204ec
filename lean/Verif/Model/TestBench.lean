import Verif.Model.Bench
/-!
The benchmark program of the tests: tests/bench (timefn.c, benchfn.c, benchHash.c, bhDisplay.c, hashes.h, main.c).

Simplifications:
* what is printed is recorded as a value (`Line`): the numbers before they are formatted, without the texts around them;
* `double` is a rational with a rounding that is a parameter; all values are finite (a division by zero gives an
  infinity, whose conversion to an integer is undefined, the only use made of it);
* the clock is a parameter: how many nanoseconds the `n` loops of run `k` take, as `UTIL_clockSpanNano` reports it
  (`spanNano` models that function for C11, `spanTicks` for Windows);
* the destination buffer is written by `memset` within its 32 bytes and never read; it is left out, as are `initFn`,
  `errorFn` and `blockResults`, which are all `NULL` here (tests/bench/benchHash.c:93-105);
* the static buffer for the state of the measurement is large enough and aligned (tests/bench/benchfn.c:171 checks
  it while compiling), so that `BMK_initStatic_timedFnState` does not return `NULL`;
* assertions are enabled; a failed one is `abort`.
-/
namespace XXH.Model.TestBench
open Bench (Fp Run)

/-! ### Time, tests/bench/timefn.c -/

/-- `struct timespec`; the members are 64-bit integers. -/
structure Timespec where
  sec : Int
  nsec : Int

/-- `UTIL_getSpanTime`, tests/bench/timefn.c:104-115 -/
def spanTime (b e : Timespec) : Timespec :=
  if e.nsec < b.nsec then ⟨(e.sec - 1) - b.sec, (e.nsec + 1000000000) - b.nsec⟩
  else ⟨e.sec - b.sec, e.nsec - b.nsec⟩

/-- `UTIL_getSpanTimeNano`, tests/bench/timefn.c:126-133: arithmetic modulo `2^64`. -/
def spanNano (b e : Timespec) : W64 :=
  BitVec.ofInt 64 (1000000000 * (spanTime b e).sec) + BitVec.ofInt 64 (spanTime b e).nsec

/-- `UTIL_getSpanTimeMicro`, tests/bench/timefn.c:117-124 -/
def spanMicro (b e : Timespec) : W64 :=
  BitVec.ofInt 64 (1000000 * (spanTime b e).sec) + BitVec.ofInt 64 (spanTime b e).nsec / 1000

/-- `UTIL_getSpanTimeNano` on Windows, tests/bench/timefn.c:42-54: `ticks` counted, `perSec` ticks in a second. -/
def spanTicks (ticks perSec : W64) : W64 := 1000000000 * ticks / perSec

/-! ### The process -/

/-- What the process provides. -/
structure Env where
  cfg : Cfg
  fp : Fp
  /-- whether `malloc` succeeds for a size, and where the buffer lies -/
  alloc : Nat → Bool
  srcAddr : Nat
  /-- nanoseconds for the `n` loops of run `k` of the process -/
  elapsed : (k n : Nat) → W64
  /-- the state of `rand` after `srand`, and one call of `rand` -/
  srand : W32 → Nat
  rand : Nat → Nat × Nat

/-- One call of a hash function: which, where in the buffer, how many bytes, and the result. -/
structure Call where
  fn : Nat
  offset : Nat
  size : Nat
  result : Nat
deriving DecidableEq

/-- What changes while the process runs. -/
structure World where
  /-- number of runs so far -/
  runs : Nat
  /-- the static `hash`, tests/bench/benchHash.c:134 -/
  hash : Nat
  /-- the state of `rand` -/
  rnd : Nat
  /-- all calls so far, the last one first -/
  calls : List Call

/-- Conversion to `size_t`. -/
def toSize (cfg : Cfg) (n : Nat) : Nat := n % 2 ^ cfg.sizeBits

/-! ### Hashes, tests/bench/hashes.h -/

/-- The wrappers in the order of `hashCandidates`, tests/bench/hashes.h:69-94, 110-118. -/
def wrapper (cfg : Cfg) (fn : Nat) (src : Ptr) (srcSize : Nat) : Option Nat :=
  match fn with
  | 0 => (XXH3.XXH3_64bits cfg src srcSize).map (toSize cfg ·.toNat)
  | 1 => (XXH32.XXH32 cfg src srcSize 0).map (toSize cfg ·.toNat)
  | 2 => (XXH64.XXH64 cfg src srcSize 0).map (toSize cfg ·.toNat)
  | 3 => (XXH3.XXH3_128bits cfg src srcSize).map (toSize cfg ·.low64.toNat)
  | _ => none

/-- `NB_HASHES`, tests/bench/hashes.h:104-108 -/
def NB_HASHES : Nat := 4

/-- The names in `hashCandidates`, tests/bench/hashes.h:110-118 -/
def hashNames : List (List Byte) :=
  [[0x78, 0x78, 0x68, 0x33], [0x58, 0x58, 0x48, 0x33, 0x32], [0x58, 0x58, 0x48, 0x36, 0x34],
   [0x58, 0x58, 0x48, 0x31, 0x32, 0x38]]

/-! ### Measuring, tests/bench/benchfn.c -/

inductive Mode where | throughput | latency
deriving DecidableEq

inductive SizeMode where | fixedSize | randomSize
deriving DecidableEq

/-- `MARGIN_FOR_LATENCY`, tests/bench/benchHash.c:49 -/
def MARGIN_FOR_LATENCY : Nat := 1024

/-- The object a hash function may read: `size` bytes from `offset` on; undefined if the buffer ends before. -/
def slice (src : Buf) (offset size : Nat) : Option Ptr :=
  if offset + size ≤ src.bytes.length then some (some ⟨src.addr + offset, (src.bytes.drop offset).take size⟩) else none

/-- One call of `benchFn`: the hash function itself, or `benchLatency` (tests/bench/benchHash.c:127-139), which starts
where the previous result says. -/
def call (e : Env) (fn : Nat) (mode : Mode) (src : Buf) (size : Nat) (w : World) : Option (Nat × World) := do
  let offset := match mode with
    | .throughput => 0
    | .latency => w.hash % MARGIN_FOR_LATENCY
  let r ← wrapper e.cfg fn (← slice src offset size) size
  return (r, { w with hash := (match mode with | .throughput => w.hash | .latency => r),
                      calls := ⟨fn, offset, size, r⟩ :: w.calls })

/-- The loop over the blocks, tests/bench/benchfn.c:123-135; the result is the sum of the results. -/
def overBlocks (e : Env) (fn : Nat) (mode : Mode) (src : Buf) : List Nat → World → Option (Nat × World)
  | [], w => some (0, w)
  | s :: ss, w => do
    let (r, w) ← call e fn mode src s w
    let (t, w) ← overBlocks e fn mode src ss w
    return (toSize e.cfg (r + t), w)

/-- The loop over the loops, tests/bench/benchfn.c:122-136, after the first of which the sum is not changed. -/
def overLoops (e : Env) (fn : Nat) (mode : Mode) (src : Buf) (sizes : List Nat) : Nat → World → Option World
  | 0, w => some w
  | n + 1, w => do
    let (_, w) ← overBlocks e fn mode src sizes w
    overLoops e fn mode src sizes n w

/-- `BMK_runTime_t` -/
structure RunTime where
  nanoSecPerRun : ℚ
  sumOfReturn : Nat

/-- `BMK_benchFunction`, tests/bench/benchfn.c:107-144; `nbLoops` 0 means 1. -/
def benchFunction (e : Env) (fn : Nat) (mode : Mode) (src : Buf) (sizes : List Nat) (nbLoops : W32) (w : World) :
    Option (RunTime × World) := do
  let n := if nbLoops = 0 then 1 else nbLoops.toNat
  let (dstSize, w) ← overBlocks e fn mode src sizes w
  let w ← overLoops e fn mode src sizes (n - 1) w
  let totalTime := e.elapsed w.runs n
  return (⟨e.fp.rnd (e.fp.rnd totalTime.toNat / e.fp.rnd n), dstSize⟩, { w with runs := w.runs + 1 })

/-- `BMK_timedFnState_s`, tests/bench/benchfn.c:149-156, without `coolTime`, which is never read. -/
structure Timed where
  timeSpent_ns : W64
  timeBudget_ns : W64
  runBudget_ns : W64
  fastestRun : RunTime
  nbLoops : W32

/-- `BMK_resetTimedFnState`, tests/bench/benchfn.c:182-194 -/
def resetTimed (cfg : Cfg) (total_ms run_ms : W32) : Timed :=
  let total_ms : W32 := if total_ms = 0 then 1 else total_ms
  let run_ms : W32 := if run_ms = 0 then 1 else run_ms
  let run_ms := if total_ms < run_ms then total_ms else run_ms
  { timeSpent_ns := 0
    timeBudget_ns := total_ms.setWidth 64 * 1000000000 / 1000
    runBudget_ns := run_ms.setWidth 64 * 1000000000 / 1000
    fastestRun := ⟨2000000000000000000, toSize cfg (2 ^ 64 - 1)⟩
    nbLoops := 1 }

/-- `BMK_isCompleted_TimedFn`, tests/bench/benchfn.c:198-201 -/
def isCompleted (t : Timed) : Bool := t.timeBudget_ns ≤ t.timeSpent_ns

/-- What one pass through the loop of `BMK_benchTimedFn` does after the run, tests/bench/benchfn.c:223-249: `none` to go
on, otherwise the result. -/
def afterRun (e : Env) (t : Timed) (bestRunTime newRunTime : RunTime) : Run (Timed × Option RunTime) := do
  let loopDuration_ns := e.fp.rnd (newRunTime.nanoSecPerRun * e.fp.rnd t.nbLoops.toNat)
  -- `(unsigned long long)loopDuration_ns`
  if ¬ loopDuration_ns < 2 ^ 64 then .undefined
  let t := { t with timeSpent_ns := t.timeSpent_ns + BitVec.ofNat 64 loopDuration_ns.floor.toNat }
  let t ←
    if e.fp.rnd (t.runBudget_ns.toNat / 50 : Nat) < loopDuration_ns then do
      let fastestRun_ns := min bestRunTime.nanoSecPerRun newRunTime.nanoSecPerRun
      let q := e.fp.rnd (e.fp.rnd t.runBudget_ns.toNat / fastestRun_ns)
      -- `(unsigned)(runBudget_ns / fastestRun_ns)`
      if fastestRun_ns = 0 ∨ ¬ q < 2 ^ 32 then .undefined
      else Run.done { t with nbLoops := BitVec.ofNat 32 q.floor.toNat + 1 }
    else if ¬ t.nbLoops.toNat < (2 ^ 32 - 1) / 10 then .abort
    else Run.done { t with nbLoops := t.nbLoops * 10 }
  if loopDuration_ns < e.fp.rnd (t.runBudget_ns.toNat / 2 : Nat) then return (t, none)
  return (t, some (if newRunTime.nanoSecPerRun < bestRunTime.nanoSecPerRun then newRunTime else bestRunTime))

/-- `BMK_benchTimedFn`, tests/bench/benchfn.c:209-253. `bestRunTime` is `cont->fastestRun` throughout, as it is changed
only when the loop ends. The first argument bounds the number of runs. -/
def benchTimedFn (e : Env) (fn : Nat) (mode : Mode) (src : Buf) (sizes : List Nat) :
    Nat → Timed → World → Run (RunTime × Timed × World)
  | 0, _, _ => .unfinished
  | fuel + 1, t, w => do
    let (newRunTime, w) ← Run.of (benchFunction e fn mode src sizes t.nbLoops w)
    let (t, r) ← afterRun e t t.fastestRun newRunTime
    match r with
    | some r => return (r, t, w)
    | none => benchTimedFn e fn mode src sizes fuel t w

/-! ### Benchmarking a hash, tests/bench/benchHash.c -/

/-- The contents of the buffer, `initBuffer`, tests/bench/benchHash.c:36-46 -/
def initBuffer : Nat → W64 → List Byte
  | 0, _ => []
  | size + 1, acc =>
    let acc := acc * 11400714785074694791
    (acc >>> 56).setWidth 8 :: initBuffer size acc

/-- `rand_1_N` and `identity`, tests/bench/benchHash.c:123-125, for `nbBlocks` blocks (85-90). -/
def selectSizes (e : Env) (sizeMode : SizeMode) (size : Nat) : Nat → World → List Nat × World
  | 0, w => ([], w)
  | n + 1, w =>
    match sizeMode with
    | .fixedSize =>
      let (ss, w) := selectSizes e sizeMode size n w
      (size :: ss, w)
    | .randomSize =>
      let (r, rnd) := e.rand w.rnd
      let (ss, w) := selectSizes e sizeMode size n { w with rnd := rnd }
      ((r % size + 1) :: ss, w)

/-- The loop in `bench_hash_internal`, tests/bench/benchHash.c:109-112. -/
def measureLoop (e : Env) (fn : Nat) (mode : Mode) (src : Buf) (sizes : List Nat) (fuelRuns : Nat) :
    Nat → Timed → Option RunTime → World → Run (Option RunTime × World)
  | 0, _, _, _ => .unfinished
  | fuel + 1, t, result, w =>
    if isCompleted t then .done (result, w)
    else do
      let (r, t, w) ← benchTimedFn e fn mode src sizes fuelRuns t w
      measureLoop e fn mode src sizes fuelRuns fuel t (some r) w

/-- `bench_hash_internal`, tests/bench/benchHash.c:59-120. A result that was never set is all zero (`memset`). -/
def bench_hash_internal (e : Env) (fuel : Nat) (fn : Nat) (mode : Mode) (nbBlocks : Nat) (sizeMode : SizeMode) (size : Nat)
    (total_ms iter_ms : W32) (w : World) : Run (ℚ × World) := do
  let srcBufferSize := toSize e.cfg (size + MARGIN_FOR_LATENCY)
  if ¬ e.alloc srcBufferSize then .abort
  let src : Buf := ⟨e.srcAddr, initBuffer srcBufferSize 14029467366897019727⟩
  if ¬ nbBlocks < 1024 then .abort
  if ¬ 0 < size then .abort
  let (sizes, w) := selectSizes e sizeMode size nbBlocks w
  let (result, w) ← measureLoop e fn mode src sizes fuel fuel (resetTimed e.cfg total_ms iter_ms) none w
  let nanoSecPerRun := (result.getD ⟨0, 0⟩).nanoSecPerRun
  if nanoSecPerRun = 0 then .abort
  return (e.fp.rnd (e.fp.rnd (e.fp.rnd 1000000000 / nanoSecPerRun) * e.fp.rnd nbBlocks), w)

/-- `bench_hash`, tests/bench/benchHash.c:151-166; a division by zero is undefined. -/
def bench_hash (e : Env) (fuel : Nat) (fn : Nat) (mode : Mode) (size : Nat) (sizeMode : SizeMode) (total_ms iter_ms : W32)
    (w : World) : Run (ℚ × World) :=
  if size = 0 then .undefined
  else
    let nbBlocks := toSize e.cfg (200000 / size + 1)
    let nbBlocks := if 1000 < nbBlocks then 1000 else nbBlocks
    bench_hash_internal e fuel fn mode nbBlocks sizeMode size total_ms iter_ms w

/-! ### Tables, tests/bench/bhDisplay.c -/

/-- What is printed. -/
inductive Line where
  | help
  | list
  | badUsage
  | wrongSelection
  /-- ` ===  benchmarking %i hash functions  === ` -/
  | count (n : Int)
  /-- the heading of a table -/
  | large (minlog maxlog : Int)
  | throughputSmall (min max : Nat)
  | throughputRandom
  | latencySmall
  | latencyRandom
  /-- the name of a hash function and the numbers after it -/
  | row (fn : Nat) (cells : List ℚ)

/-- The cells of a row, one for each element of a list. -/
def cells {α : Type} (f : α → World → Run (ℚ × World)) : List α → World → Run (List ℚ × World)
  | [], w => .done ([], w)
  | a :: as, w => do
    let (c, w) ← f a w
    let (cs, w) ← cells f as w
    return (c :: cs, w)

/-- The rows of a table: `for (int i=0; i<nbHashes; i++)`, e.g. tests/bench/bhDisplay.c:63-64. -/
def rows (f : Nat → World → Run (List ℚ × World)) (first : Nat) : Nat → World → Run (List Line × World)
  | 0, w => .done ([], w)
  | n + 1, w => do
    let (cs, w) ← f first w
    let (ls, w) ← rows f (first + 1) n w
    return (.row first cs :: ls, w)

/-- `bench_oneHash_largeInput`, tests/bench/bhDisplay.c:43-54 -/
def largeRow (e : Env) (fuel : Nat) (minlog maxlog : Nat) (fn : Nat) (w : World) : Run (List ℚ × World) :=
  cells (fun sizelog w => do
    let inputSize := 2 ^ sizelog
    let (nbhps, w) ← bench_hash e fuel fn .throughput inputSize .fixedSize 1010 490 w
    return (e.fp.rnd (e.fp.rnd (nbhps * e.fp.rnd inputSize) / e.fp.rnd 1000000), w))
    (List.range' minlog (maxlog + 1 - minlog)) w

/-- `bench_largeInput`, tests/bench/bhDisplay.c:56-65 -/
def bench_largeInput (e : Env) (fuel : Nat) (first : Nat) (nbHashes : Nat) (minlog maxlog : Int) (w : World) :
    Run (List Line × World) := do
  if ¬ maxlog < 31 then .abort
  if ¬ 0 ≤ minlog then .abort
  let (ls, w) ← rows (largeRow e fuel minlog.toNat maxlog.toNat) first nbHashes w
  return (.large minlog maxlog :: ls, w)

/-- The rows for small inputs, tests/bench/bhDisplay.c:73-83, 97-107, 119-130, 142-153: sizes from `min` to `max`; with
random sizes, `srand` is called before each. -/
def smallRow (e : Env) (fuel : Nat) (mode : Mode) (sizeMode : SizeMode) (min max : Nat) (fn : Nat) (w : World) :
    Run (List ℚ × World) :=
  cells (fun s w =>
    let w := match sizeMode with
      | .fixedSize => w
      | .randomSize => { w with rnd := e.srand (BitVec.ofNat 32 s) }
    bench_hash e fuel fn mode s sizeMode 490 170 w)
    (List.range' min (max + 1 - min)) w

/-- One table for small inputs, tests/bench/bhDisplay.c:85-91, 109-114, 132-137, 155-160 -/
def smallTable (e : Env) (fuel : Nat) (mode : Mode) (sizeMode : SizeMode) (heading : Line) (first nbHashes min max : Nat)
    (w : World) : Run (List Line × World) := do
  let (ls, w) ← rows (smallRow e fuel mode sizeMode min max) first nbHashes w
  return (heading :: ls, w)

/-! ### The command line, tests/bench/main.c -/

/-- The digits of a numeral, tests/bench/main.c:54-59; `none`: a failed assertion. -/
def readDigits : Nat → List Byte → Option (Nat × List Byte)
  | result, [] => some (result, [])
  | result, c :: t =>
    if 0x30 ≤ c ∧ c ≤ 0x39 then
      if ¬ result < (2 ^ 31 - 1) / 10 - 1 then none else readDigits (result * 10 + (c.toNat - 0x30)) t
    else some (result, c :: t)

/-- `readIntFromChar`, tests/bench/main.c:50-73; `none`: a failed assertion. What follows the number is not used. -/
def readIntFromChar (s : List Byte) : Option Nat := do
  let (result, t) ← readDigits 0 s
  match t with
  | 0x4B :: _ =>
    if ¬ result < 2 ^ 21 - 1 then none
    return result * 2 ^ 10
  | 0x4D :: _ =>
    if ¬ result < 2 ^ 21 - 1 then none
    if ¬ result * 2 ^ 10 < 2 ^ 21 - 1 then none
    return result * 2 ^ 10 * 2 ^ 10
  | _ => return result

/-- `longCommandWArg`, tests/bench/main.c:96-104; `isCommand` (81-87) is `isPrefixOf`. -/
def longCommandWArg (s command : List Byte) : Option (List Byte) :=
  if command.isPrefixOf s then some (s.drop command.length) else none

/-- `hashID`, tests/bench/main.c:138-148 -/
def hashID (hname : List Byte) : Option Nat :=
  (List.range NB_HASHES).find? fun id =>
    hname.length = (hashNames.getD id []).length && (hashNames.getD id []).isPrefixOf hname

/-- `-h` -/ def sH : List Byte := [0x2d, 0x68]
/-- `--list` -/ def sList : List Byte := [0x2d, 0x2d, 0x6c, 0x69, 0x73, 0x74]
/-- `--n=` -/ def sN : List Byte := [0x2d, 0x2d, 0x6e, 0x3d]
/-- `--minl=` -/ def sMinl : List Byte := [0x2d, 0x2d, 0x6d, 0x69, 0x6e, 0x6c, 0x3d]
/-- `--maxl=` -/ def sMaxl : List Byte := [0x2d, 0x2d, 0x6d, 0x61, 0x78, 0x6c, 0x3d]
/-- `--mins=` -/ def sMins : List Byte := [0x2d, 0x2d, 0x6d, 0x69, 0x6e, 0x73, 0x3d]
/-- `--maxs=` -/ def sMaxs : List Byte := [0x2d, 0x2d, 0x6d, 0x61, 0x78, 0x73, 0x3d]

/-- The variables of `main`, tests/bench/main.c:175-180 -/
structure Opts where
  hashNb : Nat := 0
  nb_h_test : Nat := 4
  largeTest_log_min : Nat := 9
  largeTest_log_max : Nat := 27
  smallTest_size_min : Nat := 1
  smallTest_size_max : Nat := 127
deriving DecidableEq

/-- How the loop over the arguments ends. -/
inductive Parsed where
  | stop (l : Line) (code : Nat)
  | opts (o : Opts)

/-- The loop over the arguments, tests/bench/main.c:183-200. -/
def parseArgs : List (List Byte) → Opts → Run Parsed
  | [], o => .done (.opts o)
  | arg :: args, o =>
    let number (s : List Byte) (k : Nat → Run Parsed) : Run Parsed :=
      match readIntFromChar s with
      | none => .abort
      | some n => k n
    if sH.isPrefixOf arg then .done (.stop .help 0)
    else if sList.isPrefixOf arg then .done (.stop .list 0)
    else match longCommandWArg arg sN with
    | some s => number s fun n => parseArgs args { o with nb_h_test := n }
    | none =>
    match longCommandWArg arg sMinl with
    | some s => number s fun n => parseArgs args { o with largeTest_log_min := n }
    | none =>
    match longCommandWArg arg sMaxl with
    | some s => number s fun n => parseArgs args { o with largeTest_log_max := n }
    | none =>
    match longCommandWArg arg sMins with
    | some s => number s fun n => parseArgs args { o with smallTest_size_min := n }
    | none =>
    match longCommandWArg arg sMaxs with
    | some s => number s fun n => parseArgs args { o with smallTest_size_max := n }
    | none =>
    match hashID arg with
    | some id => parseArgs args { o with hashNb := id, nb_h_test := 1 }
    | none => .done (.stop .badUsage 1)

/-- The benchmarks, tests/bench/main.c:208-218 -/
def benchmarks (e : Env) (fuel : Nat) (o : Opts) (w : World) : Run (List Line × World) := do
  let (a, w) ←
    (if o.largeTest_log_min ≤ o.largeTest_log_max then
      bench_largeInput e fuel o.hashNb o.nb_h_test o.largeTest_log_min o.largeTest_log_max w
    else Run.done ([], w) : Run (List Line × World))
  if o.smallTest_size_min ≤ o.smallTest_size_max then
    let table (mode : Mode) (sizeMode : SizeMode) (heading : Line) (w : World) :=
      smallTable e fuel mode sizeMode heading o.hashNb o.nb_h_test o.smallTest_size_min o.smallTest_size_max w
    let (b, w) ← table .throughput .fixedSize (.throughputSmall o.smallTest_size_min o.smallTest_size_max) w
    let (c, w) ← table .throughput .randomSize .throughputRandom w
    let (d, w) ← table .latency .fixedSize .latencySmall w
    let (f, w) ← table .latency .randomSize .latencyRandom w
    return (a ++ b ++ c ++ d ++ f, w)
  else return (a, w)

/-- `main`, tests/bench/main.c:172-220: the exit code, what is printed, and all calls of hash functions. An overflow of
`hashNb + nb_h_test` is undefined. -/
def main (e : Env) (fuel : Nat) (args : List (List Byte)) (w : World) : Run (Nat × List Line × World) := do
  match ← parseArgs args {} with
  | .stop l code => return (code, [l], w)
  | .opts o =>
    if 2 ^ 31 ≤ o.hashNb + o.nb_h_test then .undefined
    else if NB_HASHES < o.hashNb + o.nb_h_test then return (1, [.wrongSelection], w)
    else
      let (ls, w) ← benchmarks e fuel o w
      return (0, .count o.nb_h_test :: ls, w)

end XXH.Model.TestBench
