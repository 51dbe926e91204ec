import Verif.Model.CliMain
import Verif.Model.Bench
/-!
All of xxhsum: `XSUM_main` (cli/xxhsum.c:1211-1370) with the self-test and the benchmarks it calls.

What the parts need from their surroundings is in `Machine` and `World`; the simplifications are those of the parts
(`Model/CliFile`, `Model/CliMain`, `Model/SelfTest`, `Model/Bench`).
-/
namespace XXH.Model.Cli
open Bench (Run TestReport)

/-- What the parts of the program need. -/
structure Machine where
  /-- for hashing and verifying -/
  env : Env
  /-- for the self-test -/
  test : SelfTest.TestEnv
  /-- for the benchmark of file `j` (0 without files); `logLevel` and `nbIterations` are set by the command line -/
  bench : Nat → Bench.Env
  /-- `calloc` for the name of an unaligned test, per file and test -/
  nameAlloc : Nat → Nat → Bool
  /-- `malloc` of `XSUM_findMaxMem`, per file, attempt and size -/
  malloc : Nat → Nat → Nat → Bool
  /-- `calloc` for the data, per file and size -/
  alloc : Nat → Nat → Option Nat
  /-- `XSUM_getFileSize`, cli/xsum_os_specific.c -/
  fileSize : List Byte → BitVec 64

/-- `Res` as `Run` -/
def Res.run {α : Type} : Res α → Run α
  | .ub => .undefined
  | .exit c => .exit c
  | .ok a => .done a

/-- A file as the benchmark sees it. -/
def Machine.file (m : Machine) (w : World) (name : List Byte) : Bench.BFile :=
  ⟨(w.files name).isSome, m.fileSize name, ((w.files name).map (·.data)).getD []⟩

/-- The environment of a benchmark with `XSUM_logLevel` and `g_nbIterations`, cli/xxhsum.c:1244, 1339, 1352. -/
def Machine.benchEnv (m : Machine) (logLevel : Int) (nbIterations : BitVec 32) (j : Nat) : Bench.Env :=
  { m.bench j with logLevel := logLevel, nbIterations := nbIterations.toInt }

/-- What is left of a run: the value returned by `main`, the output, the reports of the benchmarks. -/
structure Finished where
  code : Nat
  out : List Out
  reports : List (List TestReport)
  w : World

/-- `XSUM_main`, cli/xxhsum.c:1211-1370. -/
def wholeProgram (m : Machine) (fuel : Nat) (w : World) (console : Bool) (argv0 : List Byte) (args : List (List Byte)) :
    Run Finished := do
  match ← (xsumMain console argv0 args).run with
  | .stop .help => return ⟨0, [], [], w⟩
  -- cli/xxhsum.c:1252, 1272-1275
  | .stop .version => do
    (SelfTest.sanityCheck m.test).run
    return ⟨0, [], [], w⟩
  | .stop .badUsage => return ⟨1, [], [], w⟩
  -- cli/xxhsum.c:1348-1356
  | .bench testIDs nbIterations keySize logLevel files => do
    (SelfTest.sanityCheck m.test).run
    match files with
    | none => do
      let r ← Bench.benchInternal (m.benchEnv logLevel nbIterations 0) fuel (m.nameAlloc 0) (m.alloc 0) testIDs keySize
      return ⟨0, [], [r], w⟩
    | some names => do
      let rs ← Bench.benchFiles (m.benchEnv logLevel nbIterations) fuel m.nameAlloc m.malloc m.alloc testIDs 0
        (names.map (m.file w))
      return ⟨0, [], rs, w⟩
  -- cli/xxhsum.c:1363-1366
  | .check files opts => do
    let (code, out, w) ← (checkFiles m.env w files opts).run
    return ⟨code, out, [], w⟩
  -- cli/xxhsum.c:1368
  | .hash files algo le bsd => do
    let (code, out, w) ← (hashFiles m.env w files algo le bsd).run
    return ⟨code, [.text out], [], w⟩

end XXH.Model.Cli
