import Verif.Model.CliFile
/-!
Model of `XSUM_main` (cli/xxhsum.c:1154-1160, 1202-1370): the command line of xxhsum.

An argument is a byte list without NUL (the characters before the terminating NUL of `argv[i]`); `argv[0]` exists.
Simplifications:
* messages on standard error are left out (`Model/CliTrace` has them);
* benchmarks are not run here: the model stops with the parameters of the benchmark (`Action.bench`); neither is
  `XSUM_sanityCheck`. `Model/CliProgram` adds both;
* `XSUM_isConsole(stdin)` is a parameter.
-/
namespace XXH.Model.Cli

/-- Characters as bytes. -/
abbrev ch (c : Char) : Byte := BitVec.ofNat 8 c.toNat

/-- A string literal. -/
def lit (s : String) : List Byte := s.toList.map fun c => BitVec.ofNat 8 c.toNat

/-- `if (strrchr(name, c)) name = strrchr(name, c) + 1;` -/
def afterLast (c : Byte) (name : List Byte) : List Byte := match lastIdx c name with
  | none => name
  | some i => name.drop (i + 1)

/-- `XSUM_lastNameFromPath`, cli/xxhsum.c:1154-1160. -/
def lastNameFromPath (path : List Byte) : List Byte := afterLast 0x5c (afterLast 0x2f path)

/-- `XSUM_readU32FromChar`, cli/xxhsum.c:1202-1209: the program ends if the number is too large. -/
def readU32FromChar (s : List Byte) : Res (BitVec 32 × List Byte) := match readU32FromCharChecked s with
  | none => .exit 1
  | some r => .ok r

/-- `g_nbTestFunctions`, cli/xsum_bench.c:191-219: `1 + 2 * NB_HASHFUNC` with 14 functions. -/
def nbTestFunctions : Nat := 29

/-- `k_testIDs_default`, cli/xsum_bench.c:220-224 -/
def testIDs_default : List Bool :=
  [false, true, false, true, false, true, false, false, false, false, false, true] ++ List.replicate 17 false

/-- `kBenchAll`, cli/xxhsum.c:1224 -/
def kBenchAll : BitVec 32 := 99

/-- The variables of `XSUM_main` (cli/xxhsum.c:1213-1229) and the globals it changes: `XSUM_logLevel`
(cli/xsum_output.c:29) and `g_testIDs` (cli/xsum_bench.c:219). -/
structure MainSt where
  benchmarkMode : Bool
  fileCheckMode : Bool
  strictMode : Bool
  statusOnly : Bool
  warn : Bool
  ignoreMissing : Bool
  algoBitmask : BitVec 32
  explicitStdin : Bool
  selectBenchIDs : BitVec 32
  keySize : BitVec 32
  algo : Algo
  littleEndian : Bool
  bsd : Bool
  nbIterations : BitVec 32
  logLevel : Int
  testIDs : List Bool
deriving DecidableEq

/-- The initial values, cli/xxhsum.c:1213-1229. -/
def initSt : MainSt where
  benchmarkMode := false
  fileCheckMode := false
  strictMode := false
  statusOnly := false
  warn := false
  ignoreMissing := false
  algoBitmask := bitmask_all
  explicitStdin := false
  selectBenchIDs := 0
  keySize := 100 * 1024
  algo := .xxh64
  littleEndian := false
  bsd := false
  nbIterations := 3
  logLevel := 2
  testIDs := List.replicate nbTestFunctions false

/-- `if (strstr(exename, name) != NULL) { algo = ..; algoBitmask = ..; }` -/
def ifNamed (exename name : List Byte) (a : Algo) (st : MainSt) : MainSt :=
  if occurs name exename then { st with algo := a, algoBitmask := algoBitmask a } else st

/-- The initial values after the special case of the program's name, cli/xxhsum.c:1213-1235. -/
def initMain (argv0 : List Byte) : MainSt :=
  let exename := lastNameFromPath argv0
  let st := ifNamed exename (lit "xxh32sum") .xxh32 initSt
  let st := ifNamed exename (lit "xxh64sum") .xxh64 st
  let st := ifNamed exename (lit "xxh128sum") .xxh128 st
  ifNamed exename (lit "xxh3sum") .xxh3 st

/-- `XSUM_logLevel--` on an `int`. -/
def decLogLevel (st : MainSt) : Res MainSt :=
  if st.logLevel - 1 < -2147483648 then .ub else .ok { st with logLevel := st.logLevel - 1 }

/-- The algorithm selected by `-H#`, cli/xxhsum.c:1283-1294. -/
def algoOfNumber (n : BitVec 32) : Option Algo :=
  if n = 0 ∨ n = 32 then some .xxh32
  else if n = 1 ∨ n = 64 then some .xxh64
  else if n = 2 ∨ n = 128 then some .xxh128
  else if n = 3 then some .xxh3
  else none

/-- The body of the loop of `-b#`, cli/xxhsum.c:1315-1320. The comparison converts to `int`, the index does not; writing
behind the end of `g_testIDs` is undefined. -/
def selectBench (st : MainSt) (id : BitVec 32) : Res MainSt :=
  if id.toInt < nbTestFunctions then
    if id.toNat < st.testIDs.length then .ok { st with selectBenchIDs := id, testIDs := st.testIDs.set id.toNat true }
    else .ub
  else .ok { st with selectBenchIDs := kBenchAll }

/-- The loop of `-b#`, cli/xxhsum.c:1313-1321; every further round consumes a comma. -/
def benchLoop : Nat → List Byte → MainSt → Res (List Byte × MainSt)
  | 0, _, _ => .ub
  | fuel + 1, argument, st => do
    let argument := skip 0x2c argument
    let (id, argument) ← readU32FromChar argument
    let st ← selectBench st id
    if argument.head? = some 0x2c then benchLoop fuel argument st else return (argument, st)

/-- The `return`s of `XSUM_main` while it reads the command line: `XSUM_usage_advanced` (cli/xxhsum.c:1251, 1279), the
version with `XSUM_sanityCheck` (1252, 1272-1275), `XSUM_badusage` (1293, 1343). -/
inductive Stop where
  | help
  | version
  | badUsage
deriving DecidableEq

/-- The value returned; for the version when the self-test passes. -/
def Stop.code : Stop → Nat
  | .help => 0
  | .version => 0
  | .badUsage => 1

/-- The letters of one argument, cli/xxhsum.c:1269-1345. `Except.error` stands for `return`. -/
def shortLoop : Nat → List Byte → MainSt → Res (Except Stop MainSt)
  | _, [], st => return .ok st
  | 0, _ :: _, _ => .ub
  | fuel + 1, c :: argument, st =>
    if c = ch 'V' then return .error .version
    else if c = ch 'h' then return .error .help
    else if c = ch 'H' then do
      let (n, argument) ← readU32FromChar argument
      match algoOfNumber n with
      | some a => shortLoop fuel argument { st with algo := a }
      | none => return .error .badUsage
    else if c = ch 'c' then shortLoop fuel argument { st with fileCheckMode := true }
    else if c = ch 'w' then shortLoop fuel argument { st with warn := true }
    else if c = ch 'b' then do
      let (argument, st) ← benchLoop (argument.length + 1) argument { st with benchmarkMode := true }
      shortLoop fuel argument st
    else if c = ch 'i' then do
      let (n, argument) ← readU32FromChar argument
      shortLoop fuel argument { st with nbIterations := n }
    else if c = ch 'B' then do
      let (n, argument) ← readU32FromChar argument
      shortLoop fuel argument { st with keySize := n }
    else if c = ch 'q' then do
      let st ← decLogLevel st
      shortLoop fuel argument st
    else return .error .badUsage

/-- The loop over the arguments, cli/xxhsum.c:1237-1346. The result is the `return`, or the variables and the file
names (`none`: `filenamesStart` is 0). -/
def argsLoop : List (List Byte) → MainSt → Res (Except Stop (MainSt × Option (List (List Byte))))
  | [], st => return .ok (st, none)
  | argument :: rest, st =>
    if argument = lit "--check" then argsLoop rest { st with fileCheckMode := true }
    else if argument = lit "--benchmark-all" then argsLoop rest { st with benchmarkMode := true, selectBenchIDs := kBenchAll }
    else if argument = lit "--bench-all" then argsLoop rest { st with benchmarkMode := true, selectBenchIDs := kBenchAll }
    else if argument = lit "--quiet" then do
      let st ← decLogLevel st
      argsLoop rest st
    else if argument = lit "--little-endian" then argsLoop rest { st with littleEndian := true }
    else if argument = lit "--strict" then argsLoop rest { st with strictMode := true }
    else if argument = lit "--status" then argsLoop rest { st with statusOnly := true }
    else if argument = lit "--warn" then argsLoop rest { st with warn := true }
    else if argument = lit "--binary" then argsLoop rest st
    else if argument = lit "--ignore-missing" then argsLoop rest { st with ignoreMissing := true }
    else if argument = lit "--help" then return .error .help
    else if argument = lit "--version" then return .error .version
    else if argument = lit "--tag" then argsLoop rest { st with bsd := true }
    else if argument = lit "--" then return .ok (st, if rest.length = 0 then none else some rest)
    else if argument.head? ≠ some 0x2d then return .ok (st, some (argument :: rest))
    else do
      let argument := argument.tail
      let st := if argument.length = 0 then { st with explicitStdin := true } else st
      match ← shortLoop (argument.length + 1) argument st with
      | .error stop => return .error stop
      | .ok st => argsLoop rest st

/-- What the program does once the command line is read. -/
inductive Action where
  /-- one of the `return`s -/
  | stop (s : Stop)
  /-- `XSUM_benchInternal(keySize)` (no files) or `XSUM_benchFiles` -/
  | bench (testIDs : List Bool) (nbIterations keySize : BitVec 32) (logLevel : Int) (files : Option (List (List Byte)))
  /-- `XSUM_checkFiles` -/
  | check (files : List (List Byte)) (opts : CheckOpts)
  /-- `XSUM_hashFiles` -/
  | hash (files : List (List Byte)) (algo : Algo) (littleEndian bsd : Bool)

/-- What follows the loop over the arguments, cli/xxhsum.c:1348-1369. -/
def decideAction (console : Bool) (st : MainSt) (files : Option (List (List Byte))) : Action :=
  if st.benchmarkMode then
    let testIDs := if st.selectBenchIDs = 0 then testIDs_default else st.testIDs
    let testIDs := if st.selectBenchIDs = kBenchAll then List.replicate nbTestFunctions true else testIDs
    .bench testIDs st.nbIterations st.keySize st.logLevel files
  else if files = none ∧ console = true ∧ st.explicitStdin = false then .stop .badUsage
  else
    let files := files.getD []
    if st.fileCheckMode then
      .check files ⟨st.littleEndian, st.strictMode, st.statusOnly, st.ignoreMissing, st.warn, decide (st.logLevel < 2),
        st.algoBitmask⟩
    else .hash files st.algo st.littleEndian st.bsd

/-- `XSUM_main` up to the call that does the work, cli/xxhsum.c:1211-1370. -/
def xsumMain (console : Bool) (argv0 : List Byte) (args : List (List Byte)) : Res Action := do
  match ← argsLoop args (initMain argv0) with
  | .error stop => return .stop stop
  | .ok (st, files) => return decideAction console st files

/-- The whole program without benchmarks (`none`) and without the self-test; see `Model/CliProgram` for these. The lines
of `XSUM_hashFiles` are one record. -/
def program (env : Env) (w : World) (console : Bool) (argv0 : List Byte) (args : List (List Byte)) :
    Res (Option (Nat × List Out × World)) := do
  match ← xsumMain console argv0 args with
  | .stop s => return some (s.code, [], w)
  | .bench .. => return none
  | .check files opts => do
    let r ← checkFiles env w files opts
    return some r
  | .hash files algo le bsd => do
    let (code, out, w) ← hashFiles env w files algo le bsd
    return some (code, [.text out], w)

end XXH.Model.Cli
