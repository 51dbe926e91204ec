import Verif.Model.SelfTest
import Verif.Model.CliMain
import Mathlib.Data.Rat.Floor
/-!
The benchmark of xxhsum: cli/xsum_bench.c.

Simplifications:
* what is written on the console is left out, except for the one conversion in it that can be undefined;
* `double` is a rational, an infinity or a NaN; the rounding is a parameter; there is one zero, and overflow of a
  finite result is not modelled (no value here exceeds `2^100`);
* the clock is a parameter: how many ticks the calls of a round take (overflow of `clock_t` is left out). The wait
  for the next tick before a round is left out;
* division by zero on `double` gives an infinity or a NaN (IEC 60559).
-/
namespace XXH.Model.Bench
open Cli

/-! ### `double` -/

/-- Values of type `double`. -/
inductive Dbl where
  | nan
  | inf (negative : Bool)
  | fin (q : ℚ)

/-- The arithmetic of the compiler: the rounding of exact results. -/
structure Fp where
  rnd : ℚ → ℚ

/-- Conversion of an integer to `double`. -/
def Fp.ofInt (fp : Fp) (n : Int) : Dbl := .fin (fp.rnd n)

/-- Division of IEEE 754. -/
def Fp.div (fp : Fp) : Dbl → Dbl → Dbl
  | .fin a, .fin b => if b = 0 then (if a = 0 then .nan else .inf (a < 0)) else .fin (fp.rnd (a / b))
  | .fin _, .inf _ => .fin 0
  | .inf s, .fin b => .inf (s != decide (b < 0))
  | .inf _, .inf _ => .nan
  | .nan, _ => .nan
  | _, .nan => .nan

/-- Addition of a finite number. -/
def Fp.add (fp : Fp) : Dbl → ℚ → Dbl
  | .fin a, b => .fin (fp.rnd (a + b))
  | .inf s, _ => .inf s
  | .nan, _ => .nan

/-- `<` -/
def Dbl.lt : Dbl → Dbl → Bool
  | .fin a, .fin b => a < b
  | .fin _, .inf s => !s
  | .inf s, .fin _ => s
  | .inf s, .inf t => s && !t
  | .nan, _ => false
  | _, .nan => false

/-- Conversion to a 32-bit unsigned type; undefined when the integral part is out of range (C11 6.3.1.4). -/
def Dbl.toU32 : Dbl → Option (BitVec 32)
  | .fin q => if -1 < q ∧ q < 2^32 then some (BitVec.ofNat 32 q.floor.toNat) else none
  | _ => none

/-! ### The functions -/

/-- What the process provides. -/
structure Env where
  cfg : Cfg
  fp : Fp
  /-- `CLOCKS_PER_SEC` -/
  perSec : Nat
  /-- address of `g_benchSecretBuf`, cli/xsum_bench.c:98 -/
  secretAddr : Nat
  /-- the uninitialised automatic `state` of the wrappers -/
  state32 : XXH32.State
  state64 : XXH64.State
  state3 : XXH3.State
  /-- `XSUM_logLevel` -/
  logLevel : Int
  /-- `g_nbIterations` -/
  nbIterations : Int
  /-- `XSUM_clockSpan` after the `n` calls of round `k` of test `i` -/
  ticks : (i k n : Nat) → Int

/-- `g_benchSecretBuf` after `XSUM_fillTestBuffer`, cli/xsum_bench.c:98, 354 -/
def Env.secret (e : Env) : Ptr := some ⟨e.secretAddr, SelfTest.fillTestBuffer 136⟩

/-- `localXXH32` and so on in the order of `g_hashesToBench`, cli/xsum_bench.c:108-191, 199-214. -/
def localHash (e : Env) (f : Nat) (buffer : Ptr) (bufferSize : Nat) (seed : W32) : Option W32 :=
  let low (r : Option W64) : Option W32 := r.map (·.setWidth 32)
  let low128 (r : Option H128) : Option W32 := r.map (·.low64.setWidth 32)
  match f with
  | 0 => XXH32.XXH32 e.cfg buffer bufferSize seed
  | 1 => low (XXH64.XXH64 e.cfg buffer bufferSize (seed.setWidth 64))
  | 2 => low (XXH3.XXH3_64bits e.cfg buffer bufferSize)
  | 3 => low (XXH3.XXH3_64bits_withSeed e.cfg buffer bufferSize (seed.setWidth 64))
  | 4 => low (XXH3.XXH3_64bits_withSecret e.cfg buffer bufferSize e.secret 136)
  | 5 => low128 (XXH3.XXH3_128bits e.cfg buffer bufferSize)
  | 6 => low128 (XXH3.XXH3_128bits_withSeed e.cfg buffer bufferSize (seed.setWidth 64))
  | 7 => low128 (XXH3.XXH3_128bits_withSecret e.cfg buffer bufferSize e.secret 136)
  | 8 => do
    let (s, _) ← XXH32.reset (some e.state32) seed
    let (s, _) ← XXH32.update e.cfg s buffer bufferSize
    XXH32.digest e.cfg s
  | 9 => do
    let (s, _) ← XXH64.reset (some e.state64) (seed.setWidth 64)
    let (s, _) ← XXH64.update e.cfg s buffer bufferSize
    low (XXH64.digest e.cfg s)
  | 10 => do
    let (s, _) ← XXH3.reset e.cfg (some e.state3)
    let (s, _) ← XXH3.bits64_update e.cfg (← s) buffer bufferSize
    low (XXH3.bits64_digest e.cfg s)
  | 11 => do
    let (s, _) ← XXH3.reset_withSeed e.cfg (some (XXH3.INITSTATE e.state3)) (seed.setWidth 64)
    let (s, _) ← XXH3.bits64_update e.cfg (← s) buffer bufferSize
    low (XXH3.bits64_digest e.cfg s)
  | 12 => do
    let (s, _) ← XXH3.reset e.cfg (some e.state3)
    let (s, _) ← XXH3.bits64_update e.cfg (← s) buffer bufferSize
    low128 (XXH3.bits128_digest e.cfg s)
  | 13 => do
    let (s, _) ← XXH3.reset_withSeed e.cfg (some (XXH3.INITSTATE e.state3)) (seed.setWidth 64)
    let (s, _) ← XXH3.bits64_update e.cfg (← s) buffer bufferSize
    low128 (XXH3.bits128_digest e.cfg s)
  | _ => none

/-- The names in `g_hashesToBench`, cli/xsum_bench.c:199-214. -/
def hashNames : List String := ["XXH32", "XXH64", "XXH3_64b", "XXH3_64b w/seed", "XXH3_64b w/secret", "XXH128",
  "XXH128 w/seed", "XXH128 w/secret", "XXH32_stream", "XXH64_stream", "XXH3_stream", "XXH3_stream w/seed",
  "XXH128_stream", "XXH128_stream w/seed"]

/-! ### `XSUM_benchHash` -/

/-- How a computation ends. `unfinished`: the fuel of the model was used up. -/
inductive Run (α : Type) where
  | undefined
  | unfinished
  /-- `exit(code)` -/
  | exit (code : Nat)
  /-- a failed `assert` -/
  | abort
  | done (a : α)

def Run.bind {α β : Type} : Run α → (α → Run β) → Run β
  | undefined, _ => undefined
  | unfinished, _ => unfinished
  | exit c, _ => exit c
  | abort, _ => abort
  | done a, f => f a

instance : Monad Run where
  pure := .done
  bind := Run.bind

/-- `none` is undefined. -/
def Run.of {α : Type} : Option α → Run α
  | none => .undefined
  | some a => .done a

/-- The local variables of `XSUM_benchHash`. -/
structure BSt where
  nbh : W32
  fastestH : Dbl
  iterationNb : Int

/-- cli/xsum_bench.c:231: a division by zero is undefined. -/
def firstRate (cfg : Cfg) (bufferSize : Nat) : Option W32 :=
  let d := (bufferSize + 1) % 2^cfg.sizeBits
  if d = 0 then none else some (BitVec.ofNat 32 (10 * 2^20 / d) + 1)

/-- `4000U<<20`, cli/xsum_bench.c:285, 304 -/
def MAXRATE : Nat := 4194304000

/-- cli/xsum_bench.c:284-286 and 303-305: the rate from the time per hash, limited, as an integer. -/
def rate (fp : Fp) (perHash : Dbl) : Option W32 :=
  let nbh_perSecond := fp.add (fp.div (.fin 1) perHash) 1
  let nbh_perSecond := if Dbl.lt (.fin MAXRATE) nbh_perSecond then .fin MAXRATE else nbh_perSecond
  nbh_perSecond.toU32

/-- cli/xsum_bench.c:238, 249-252: the calls of one round and their sum. -/
def calls (h : W32 → Option W32) (n : Nat) : Option W32 :=
  (List.range n).foldlM (fun r u => do return r + (← h (BitVec.ofNat 32 u))) 0

/-- cli/xsum_bench.c:255-306 and `iterationNb++` in line 237: from the measured ticks to the next round. -/
def step (e : Env) (st : BSt) (nbTicks : Int) : Option BSt := do
  let ticksPerHash := e.fp.div (e.fp.div (e.fp.ofInt nbTicks) (e.fp.ofInt e.perSec)) (e.fp.ofInt st.nbh.toNat)
  let short := nbTicks < e.perSec / 2
  let nbh ← if short then (if nbTicks = 0 then some (st.nbh * 100) else rate e.fp ticksPerHash) else some st.nbh
  if short ∧ 0 < e.nbIterations then
    return { st with nbh := nbh }
  let fastestH := if ticksPerHash.lt st.fastestH then ticksPerHash else st.fastestH
  let nbh ← rate e.fp fastestH
  -- `iterationNb++`: overflow is undefined
  if st.iterationNb = 2^31 - 1 then none
  return { nbh := nbh, fastestH := fastestH, iterationNb := st.iterationNb + 1 }

/-- The loop, cli/xsum_bench.c:232-307, for test `i`; `k` is the number of the round. The result is the time per hash
and, for every round, the number of calls and `r`. -/
def benchLoop (e : Env) (i : Nat) (h : W32 → Option W32) : Nat → Nat → BSt → Run (Dbl × List (Nat × W32))
  | 0, _, _ => .unfinished
  | fuel+1, k, st =>
    if st.iterationNb ≤ e.nbIterations + (if e.nbIterations = 0 then 1 else 0) then do
      let r ← Run.of (calls h st.nbh.toNat)
      let st' ← Run.of (step e st (e.ticks i k st.nbh.toNat))
      let (fastestH, rounds) ← benchLoop e i h fuel (k+1) st'
      return (fastestH, (st.nbh.toNat, r) :: rounds)
    else .done (st.fastestH, [])

/-- What one test did: the printed rate is `1 / perHash`. -/
structure TestReport where
  testID : Nat
  name : String
  perHash : Dbl
  rounds : List (Nat × W32)

/-- `XSUM_benchHash`, cli/xsum_bench.c:228-316. The last line converts the rate for the terse output. -/
def benchHash (e : Env) (fuel : Nat) (f : Nat) (hName : String) (testID : Nat) (buffer : Ptr) (bufferSize : Nat) :
    Run TestReport := do
  let nbh ← Run.of (firstRate e.cfg bufferSize)
  let (fastestH, rounds) ← benchLoop e testID (localHash e f buffer bufferSize) fuel 0 ⟨nbh, .fin 100000000, 1⟩
  if e.logLevel < 1 then
    let _ ← Run.of (e.fp.div (.fin 1) fastestH).toU32
    return ⟨testID, hName, fastestH, rounds⟩
  else return ⟨testID, hName, fastestH, rounds⟩

/-! ### `XSUM_benchMem` -/

/-- A pointer into a block, for `size` bytes. Fewer bytes can be read if the block ends before. -/
def view (block : Buf) (off size : Nat) : Ptr := SelfTest.plus (some block) off size

/-- The body of the loop of `XSUM_benchMem`, cli/xsum_bench.c:357-371, for test `i`. -/
def benchTest (e : Env) (fuel : Nat) (nameAlloc : Bool) (block : Buf) (off bufferSize i : Nat) : Run TestReport :=
  let hashFuncID := (i - 1) / 2
  let name := hashNames.getD hashFuncID ""
  if i % 2 = 1 then benchHash e fuel hashFuncID name i (view block off bufferSize) bufferSize
  else if nameAlloc then benchHash e fuel hashFuncID (name ++ " unaligned") i (view block (off + 3) bufferSize) bufferSize
  else .abort

/-- The loop of `XSUM_benchMem`, cli/xsum_bench.c:355-372, over the tests `is`. -/
def benchTests (e : Env) (fuel : Nat) (nameAlloc : Nat → Bool) (testIDs : List Bool) (block : Buf)
    (off bufferSize : Nat) : List Nat → Run (List TestReport)
  | [] => .done []
  | i :: is => do
    if testIDs.getD i false then
      let r ← benchTest e fuel (nameAlloc i) block off bufferSize i
      let rs ← benchTests e fuel nameAlloc testIDs block off bufferSize is
      return r :: rs
    else benchTests e fuel nameAlloc testIDs block off bufferSize is

/-- `XSUM_benchMem`, cli/xsum_bench.c:351-373. -/
def benchMem (e : Env) (fuel : Nat) (nameAlloc : Nat → Bool) (testIDs : List Bool) (block : Buf)
    (off bufferSize : Nat) : Run (List TestReport) :=
  if (block.addr + off) % 16 ≠ 0 then .abort
  else benchTests e fuel nameAlloc testIDs block off bufferSize ((List.range (nbTestFunctions - 1)).map (· + 1))

/-- `(buffer+15) - (((size_t)(buffer+15)) & 0xF)` as an offset, cli/xsum_bench.c:397, 437; `buffer+15` must not be
behind the end of the block. -/
def alignOff (block : Buf) : Option Nat :=
  if block.bytes.length < 15 then none else some (15 - (block.addr + 15) % 16)

/-! ### The two entry points -/

/-- `XSUM_benchInternal`, cli/xsum_bench.c:429-452. `alloc n` is the address given by `calloc`. -/
def benchInternal (e : Env) (fuel : Nat) (nameAlloc : Nat → Bool) (alloc : Nat → Option Nat) (testIDs : List Bool)
    (keySize : BitVec 32) : Run (List TestReport) := do
  let size := keySize.toNat % 2^e.cfg.sizeBits
  let n := (size + 16 + 3) % 2^e.cfg.sizeBits
  match alloc n with
  | none => .exit 12
  | some addr =>
    let block : Buf := ⟨addr, List.replicate n 0⟩
    let off ← Run.of (alignOff block)
    benchMem e fuel nameAlloc testIDs block off size

/-- `step`, cli/xsum_bench.c:69 -/
def STEP : BitVec 64 := 67108864

/-- `MAX_MEM`, cli/xsum_bench.c:60 -/
def MAX_MEM : BitVec 64 := 2080374784

/-- cli/xsum_bench.c:77-78 and 84-85 -/
def shrink (r : BitVec 64) : BitVec 64 := if STEP < r then r - STEP else r >>> 1

/-- cli/xsum_bench.c:76-80; `malloc k n` is the success of attempt `k`. -/
def findLoop (cfg : Cfg) (malloc : Nat → Nat → Bool) : Nat → Nat → BitVec 64 → Run (BitVec 64)
  | 0, _, _ => .unfinished
  | fuel+1, k, r =>
    let r := shrink r
    if malloc k (r.toNat % 2^cfg.sizeBits) then .done r else findLoop cfg malloc fuel (k+1) r

/-- cli/xsum_bench.c:72-74 -/
def firstMem (requiredMem : BitVec 64) : BitVec 64 :=
  let r := ((requiredMem >>> 26) + 1) <<< 26
  let r := r + 2 * STEP
  if MAX_MEM < r then MAX_MEM else r

/-- `XSUM_findMaxMem`, cli/xsum_bench.c:67-88 -/
def findMaxMem (cfg : Cfg) (malloc : Nat → Nat → Bool) (fuel : Nat) (requiredMem : BitVec 64) : Run Nat := do
  let r ← findLoop cfg malloc fuel 0 (firstMem requiredMem)
  return (shrink r).toNat % 2^cfg.sizeBits

/-- A file: whether it can be opened, the size reported by `XSUM_getFileSize` (0 when it is not a regular file) and
the bytes that can be read. -/
structure BFile where
  opens : Bool
  size : BitVec 64
  data : List Byte

/-- `XSUM_selectBenchedSize`, cli/xsum_bench.c:375-384 -/
def selectBenchedSize (cfg : Cfg) (malloc : Nat → Nat → Bool) (fuel : Nat) (f : BFile) : Run Nat := do
  let benchedSize ← findMaxMem cfg malloc fuel f.size
  return if f.size.toNat < benchedSize then f.size.toNat % 2^cfg.sizeBits else benchedSize

/-- The body of the loop of `XSUM_benchFiles`, cli/xsum_bench.c:391-424. When `calloc` fails, `buffer+15`
is undefined (C11 6.5.6): the check comes later. -/
def benchFile (e : Env) (fuel : Nat) (nameAlloc : Nat → Bool) (malloc : Nat → Nat → Bool) (alloc : Nat → Option Nat)
    (testIDs : List Bool) (f : BFile) : Run (List TestReport) := do
  let benchedSize ← selectBenchedSize e.cfg malloc fuel f
  let n := (benchedSize + 16 + 3) % 2^e.cfg.sizeBits
  match alloc n with
  | none => .undefined
  | some addr =>
    let off ← Run.of (alignOff ⟨addr, List.replicate n 0⟩)
    if !f.opens then .exit 11
    else
      let got := f.data.take benchedSize
      -- `fread` writes outside the block
      if n < off + got.length then .undefined
      else if got.length ≠ benchedSize then .exit 13
      else
        let block : Buf := ⟨addr, List.replicate off 0 ++ got ++ List.replicate (n - off - got.length) 0⟩
        benchMem e fuel nameAlloc testIDs block off benchedSize

/-- `XSUM_benchFiles`, cli/xsum_bench.c:387-426; the oracles of file `j` are `nameAlloc j` and so on. -/
def benchFiles (e : Nat → Env) (fuel : Nat) (nameAlloc : Nat → Nat → Bool) (malloc : Nat → Nat → Nat → Bool)
    (alloc : Nat → Nat → Option Nat) (testIDs : List Bool) : Nat → List BFile → Run (List (List TestReport))
  | _, [] => .done []
  | j, f :: fs => do
    let r ← benchFile (e j) fuel (nameAlloc j) (malloc j) (alloc j) testIDs f
    let rs ← benchFiles e fuel nameAlloc malloc alloc testIDs (j+1) fs
    return r :: rs

end XXH.Model.Bench
