import Verif.Model.CliMain
import Verif.Model.CliShow
import Verif.Model.SelfTest
/-!
What xxhsum writes, on standard output and on standard error, in the order of the calls, also before a call of `exit`
(cli/xxhsum.c, without the benchmarks).

The functions are those of `Model/CliFile` and `Model/CliMain` again, now with every `XSUM_log` and `XSUM_output`; parts
that write nothing are taken over from there (reading a line, parsing it, hashing, comparing, counting).
Simplifications:
* every write succeeds at once and completely. (The program ignores the results of all its writes, so that this has no
  influence on what it does.) Standard output may be buffered, so that on a terminal the two streams can be interleaved
  differently; within each stream the order is the one given here;
* `strerror(errno)` after a failed `fopen` is a function of the file name; the text of the compiler and of the
  architecture, and the message of a failed self-test, are parameters.
-/
namespace XXH.Model.Cli

/-- The two streams written to. -/
inductive Fd where
  | out
  | err
deriving DecidableEq, Repr

/-- What was written, byte by byte. -/
abbrev Trace := List (Fd × Byte)

/-- Written bytes and the way a function ends. -/
structure Traced (α : Type) where
  trace : Trace
  res : Res α

instance : Monad Traced where
  pure a := ⟨[], .ok a⟩
  bind x f := match x.res with
    | .ub => ⟨x.trace, .ub⟩
    | .exit c => ⟨x.trace, .exit c⟩
    | .ok a => ⟨x.trace ++ (f a).trace, (f a).res⟩

/-- A part that writes nothing. -/
def Traced.of {α : Type} (r : Res α) : Traced α := ⟨[], r⟩

/-- Text on a stream. -/
def onFd (fd : Fd) (text : List Byte) : Trace := text.map (fd, ·)

/-- `XSUM_output`, cli/xsum_output.c:44-52 -/
def output (text : List Byte) : Traced Unit := ⟨onFd .out text, .ok ()⟩

/-- `XSUM_log`, cli/xsum_output.c:32-40 -/
def log (text : List Byte) : Traced Unit := ⟨onFd .err text, .ok ()⟩

/-- Texts that come from outside. -/
structure Texts where
  /-- `strerror(errno)` after the file could not be opened -/
  strerror : List Byte → List Byte
  /-- `XSUM_PROGRAM_VERSION`, cli/xsum_arch.h:38 -/
  version : List Byte
  /-- "compiled as …", cli/xxhsum.c:73 -/
  compiled : List Byte
  /-- what the self-test writes when it fails, cli/xsum_sanity_check.c:231-264, 673-677 -/
  selfTest : List Byte

/-! ### Hashing -/

/-- `XSUM_hashStream`, cli/xxhsum.c:250-310. -/
def hashStreamT (env : Env) (inFile : Stream) (hashType : Algo) (blockSize : Nat) : Traced (Multihash × Stream) := do
  let st ← Traced.of (Res.of (initStates env))
  let (st, inFile) ← Traced.of (Res.of (hashLoop env hashType blockSize (inFile.data.length + 1) inFile st))
  -- cli/xxhsum.c:285-288
  if inFile.ferror then
    log (str "Error: a failure occurred reading the input file.\n")
    Traced.of (.exit 1)
  let h ← Traced.of (Res.of (finalHash env hashType st))
  return (h, inFile)

/-- `XSUM_hashFile`, cli/xxhsum.c:398-473. The name `none` is the special pointer `stdinName`. -/
def hashFileT (env : Env) (t : Texts) (w : World) (fileName : Option (List Byte)) (hashType : Algo)
    (littleEndian bsd : Bool) : Traced (Nat × World) := do
  let blockSize := 64 * 1024
  let opened : Option (List Byte × Stream) ← match fileName with
    | none => pure (some (stdinFileName, w.stdin))
    | some name =>
      -- cli/xxhsum.c:416-419
      if w.isDir name then do
        log (str "xxhsum: " ++ name ++ str ": Is a directory \n")
        pure none
      else match w.files name with
        -- cli/xxhsum.c:421-424
        | none => do
          log (str "Error: Could not open '" ++ name ++ str "': " ++ t.strerror name ++ str ". \n")
          pure none
        | some f => pure (some (name, f))
  match opened with
  | none => return (1, w)
  | some (name, inFile) =>
    let (ok, w) := w.alloc
    if !ok then
      -- cli/xxhsum.c:428-432
      log (str "\nError: Out of memory.\n")
      return (1, if fileName.isNone then { w with stdin := { w.stdin with data := [] } } else w)
    let (hashValue, inFile) ← hashStreamT env inFile hashType blockSize
    let canonical ← Traced.of (Res.of (canonicalOf env hashType hashValue))
    let line ← Traced.of (Res.of (displayLine bsd littleEndian name canonical hashType))
    output line
    return (0, if fileName.isNone then { w with stdin := inFile } else w)

/-- The loop of `XSUM_hashFiles`, cli/xxhsum.c:490-492. -/
def hashFilesLoopT (env : Env) (t : Texts) (hashType : Algo) (littleEndian bsd : Bool) :
    List (List Byte) → World → Nat → Traced (Nat × World)
  | [], w, result => return (result, w)
  | name :: names, w, result => do
    let (r, w) ← hashFileT env t w (some name) hashType littleEndian bsd
    hashFilesLoopT env t hashType littleEndian bsd names w (result ||| r)

/-- `XSUM_hashFiles`, cli/xxhsum.c:480-494. -/
def hashFilesT (env : Env) (t : Texts) (w : World) (fnList : List (List Byte)) (hashType : Algo) (littleEndian bsd : Bool) :
    Traced (Nat × World) :=
  if fnList.length = 0 then hashFileT env t w none hashType littleEndian bsd
  else hashFilesLoopT env t hashType littleEndian bsd fnList w 0

/-! ### Verifying -/

/-- Opening and hashing the file of a line, cli/xxhsum.c:876-914. -/
def verifyEntryT (env : Env) (s : PF) (filename : List Byte) (p : ParsedLine) : Traced (LineStatus × PF) := do
  let fnameIsStdin := decide (filename = stdinFileName)
  let fp := if fnameIsStdin then some s.w.stdin else s.w.files filename
  match fp with
  | none => return (.failedToOpen, s)
  | some fp =>
    let (xxh, fp) ← hashStreamT env fp p.algo (64 * 1024)
    let m ← Traced.of (Res.of (hashMatches env p.algo xxh p.canonical))
    let s := if fnameIsStdin then { s with w := { s.w with stdin := fp } } else s
    return (if m then .hashOk else .hashFailed, s)

/-- The writes of the `switch` at cli/xxhsum.c:916-955 (`reportEntry` has the counters). -/
def showEntry (t : Texts) (opts : CheckOpts) (inFileName : List Byte) (lineNumber : Nat) (filename : List Byte)
    (status : LineStatus) : Traced Unit :=
  match status with
  | .failedToOpen =>
    if !opts.ignoreMissing && !opts.statusOnly then
      -- cli/xxhsum.c:929-930
      output (inFileName ++ str ":" ++ decText lineNumber ++ str ": Could not open or read '" ++ filename ++ str "': " ++
        t.strerror filename ++ str ".\n")
    else pure ()
  | status => do
    let ok := decide (status = .hashOk)
    let b := !(ok && opts.quiet)
    if b && !opts.statusOnly then
      -- cli/xxhsum.c:947-952
      let needsEscape := filenameNeedsEscape filename
      if needsEscape then output [cBSL]
      output (printFilename filename needsEscape)
      output (str ": " ++ str (if ok then "OK" else "FAILED") ++ str "\n")

/-- The body of the loop of `XSUM_parseFile1`, cli/xxhsum.c:814-955. The flag tells to leave the loop by `break`. -/
def parseStepT (env : Env) (t : Texts) (opts : CheckOpts) (inFileName : List Byte) (s : PF) : Traced (Bool × PF) := do
  let s := { s with lineNumber := inc env s.lineNumber }
  if s.lineNumber = 0 then do
    -- cli/xxhsum.c:821
    log (inFileName ++ str ": Error: Too many checksum lines\n")
    return (true, { s with report := { s.report with quit := true } })
  let (r, lineBuf, lineMax, data, mem) ← Traced.of (Res.of (getLine env.junk s.lineBuf s.lineMax s.data s.w.mem))
  let s := { s with lineBuf := lineBuf, lineMax := lineMax, w := { s.w with mem := mem } }
  let s := s.setData data
  match r with
  | .comment => return (false, s)
  | .eof => return (true, s)
  | .ok =>
    let line ← Traced.of (Res.of lineBuf)
    match ← Traced.of (Res.of (parseLine line opts.littleEndian opts.algoBitmask)) with
    | none => do
      -- cli/xxhsum.c:867-870
      if opts.warn then
        log (inFileName ++ str ":" ++ decText s.lineNumber ++ str ": Error: Improperly formatted checksum line.\n")
      return (false, { s with report :=
        { s.report with nImproperlyFormattedLines := inc env s.report.nImproperlyFormattedLines } })
    | some (p, line) => do
      let s := { s with lineBuf := some line }
      let s := { s with report := { s.report with nProperlyFormattedLines := inc env s.report.nProperlyFormattedLines } }
      let filename ← Traced.of (Res.of (cstr (line.drop p.filename)))
      let (status, s) ← verifyEntryT env s filename p
      showEntry t opts inFileName s.lineNumber filename status
      return (false, reportEntry env opts s filename status)
  -- cli/xxhsum.c:853-859
  | .exceedMaxLineLength => do
    log (inFileName ++ str ":" ++ decText s.lineNumber ++ str ": Error: Line too long.\n")
    return (true, { s with report := { s.report with quit := true } })
  | .outOfMemory => do
    log (inFileName ++ str ":" ++ decText s.lineNumber ++ str ": Error: Out of memory.\n")
    return (true, { s with report := { s.report with quit := true } })

/-- The loop of `XSUM_parseFile1`, cli/xxhsum.c:813-956. -/
def parseLoopT (env : Env) (t : Texts) (opts : CheckOpts) (inFileName : List Byte) : Nat → PF → Traced PF
  | 0, _ => Traced.of .ub
  | fuel + 1, s =>
    if s.report.quit then pure s
    else do
      let (stop, s) ← parseStepT env t opts inFileName s
      if stop then return s
      parseLoopT env t opts inFileName fuel s

/-- The messages at the end, cli/xxhsum.c:1033-1052. -/
def showSummary (opts : CheckOpts) (inFileName : List Byte) (r : Report) : Traced Unit := do
  if r.nProperlyFormattedLines = 0 then
    log (inFileName ++ str ": no properly formatted xxHash checksum lines found\n")
  else if !opts.statusOnly then
    if r.nImproperlyFormattedLines ≠ 0 then
      output (decText r.nImproperlyFormattedLines ++ str " " ++
        str (if r.nImproperlyFormattedLines = 1 then "line is" else "lines are") ++ str " improperly formatted\n")
    if r.nOpenOrReadFailures ≠ 0 then
      output (decText r.nOpenOrReadFailures ++ str " listed " ++
        str (if r.nOpenOrReadFailures = 1 then "file" else "files") ++ str " could not be read\n")
    if r.nMismatchedChecksums ≠ 0 then
      output (decText r.nMismatchedChecksums ++ str " computed " ++
        str (if r.nMismatchedChecksums = 1 then "checksum" else "checksums") ++ str " did NOT match\n")

/-- `XSUM_checkFile`, cli/xxhsum.c:976-1070. -/
def checkFileT (env : Env) (t : Texts) (w : World) (inFileName : Option (List Byte)) (opts : CheckOpts) :
    Traced (Bool × World) := do
  let (name, inFile) : List Byte × Option (Option Stream) := match inFileName with
    | none => (stdinFileName, some none)
    | some name => (name, (w.files name).map some)
  match inFile with
  | none => do
    -- cli/xxhsum.c:1003-1006
    log (str "Error: Could not open '" ++ name ++ str "': " ++ t.strerror name ++ str "\n")
    return (false, w)
  | some inp =>
    let (a, w) := w.alloc
    let (b, w) := w.alloc
    if !a || !b then
      -- cli/xxhsum.c:1021-1025
      log (str "Error: : memory allocation failed \n")
      Traced.of (.exit 1)
    let s : PF := ⟨inp, w, some (fresh env.junk DEFAULT_LINE_LENGTH), DEFAULT_LINE_LENGTH,
      ⟨0, 0, 0, 0, 0, 0, false⟩, 0, []⟩
    let s ← parseLoopT env t opts name (s.data.length + 1) s
    showSummary opts name s.report
    let r := s.report
    let result := r.nProperlyFormattedLines ≠ 0 && r.nMismatchedChecksums = 0 && r.nOpenOrReadFailures = 0 &&
      (!opts.strictMode || r.nImproperlyFormattedLines = 0) && !r.quit
    if opts.ignoreMissing && r.nMatchedChecksums = 0 then
      -- cli/xxhsum.c:1064-1067
      output (name ++ str ": no file was verified\n")
      return (false, s.w)
    return (result, s.w)

/-- The loop of `XSUM_checkFiles`, cli/xxhsum.c:1090-1091. -/
def checkFilesLoopT (env : Env) (t : Texts) (opts : CheckOpts) : List (List Byte) → World → Bool → Traced (Bool × World)
  | [], w, ok => return (ok, w)
  | name :: names, w, ok => do
    let (r, w) ← checkFileT env t w (some name) opts
    checkFilesLoopT env t opts names w (ok && r)

/-- `XSUM_checkFiles`, cli/xxhsum.c:1073-1094. -/
def checkFilesT (env : Env) (t : Texts) (w : World) (fnList : List (List Byte)) (opts : CheckOpts) :
    Traced (Nat × World) := do
  let (ok, w) ← if fnList.length = 0 then checkFileT env t w none opts else checkFilesLoopT env t opts fnList w true
  return (if ok then 0 else 1, w)

/-! ### The command line -/

/-- `AlgoSelected` as a number, cli/xxhsum.c:80. -/
def algoNumber : Algo → Nat
  | .xxh32 => 0
  | .xxh64 => 1
  | .xxh128 => 2
  | .xxh3 => 3

/-- `WELCOME_MESSAGE`, cli/xxhsum.c:70-71. -/
def welcome (t : Texts) (exename : List Byte) : List Byte := exename ++ str " " ++ t.version ++ str " by Yann Collet \n"

/-- `XSUM_usage`, cli/xxhsum.c:1101-1116. -/
def usage (t : Texts) (exename : List Byte) (defaultAlgo : Algo) : Traced Unit := do
  log (welcome t exename)
  log (str "Print or verify checksums using fast non-cryptographic algorithm xxHash \n\n")
  log (str "Usage: " ++ exename ++ str " [options] [files] \n\n")
  log (str "When no filename provided or when '-' is provided, uses stdin as input. \n")
  log (str "\nOptions: \n")
  log (str "  -H#          select an xxhash algorithm (default: " ++ decText (algoNumber defaultAlgo) ++ str ") \n")
  log (str "               0: XXH32 \n")
  log (str "               1: XXH64 \n")
  log (str "               2: XXH128 (also called XXH3_128bits) \n")
  log (str "               3: XXH3 (also called XXH3_64bits) \n")
  log (str "  -c, --check  read xxHash checksum from [files] and check them \n")
  log (str "  -h, --help   display a long help page about advanced options \n")

/-- `XSUM_usage_advanced`, cli/xxhsum.c:1119-1139. -/
def usageAdvanced (t : Texts) (exename : List Byte) (defaultAlgo : Algo) : Traced Unit := do
  usage t exename defaultAlgo
  log (str "\nAdvanced :\n")
  log (str "  -V, --version        Display version information \n")
  log (str "      --tag            Produce BSD-style checksum lines \n")
  log (str "      --little-endian  Checksum values use little endian convention (default: big endian) \n")
  log (str "      --binary         Read in binary mode \n")
  log (str "  -b                   Run benchmark \n")
  log (str "  -b#                  Bench only algorithm variant # \n")
  log (str "  -i#                  Number of times to run the benchmark (default: 3) \n")
  log (str "  -q, --quiet          Don't display version header in benchmark mode \n")
  log (str "\n")
  log (str "The following five options are useful only when verifying checksums (-c): \n")
  log (str "  -q, --quiet          Don't print OK for each successfully verified file \n")
  log (str "      --status         Don't output anything, status code shows success \n")
  log (str "      --strict         Exit non-zero for improperly formatted checksum lines \n")
  log (str "      --warn           Warn about improperly formatted checksum lines \n")
  log (str "      --ignore-missing Don't fail or report status for missing files \n")

/-- `XSUM_badusage`, cli/xxhsum.c:1141-1146. -/
def badusage (t : Texts) (exename : List Byte) (defaultAlgo : Algo) : Traced Unit := do
  log (str "Wrong parameters\n\n")
  usage t exename defaultAlgo

/-- `XSUM_sanityCheck`, cli/xsum_sanity_check.c:688-731: silent when it passes (`XSUM_logLevel` is at most 2). -/
def sanityCheckT (t : Texts) (test : SelfTest.TestEnv) : Traced Unit :=
  match SelfTest.sanityCheck test with
  | .ub => Traced.of .ub
  | .exit c => ⟨onFd .err t.selfTest, .exit c⟩
  | .ok () => pure ()

/-- `XSUM_main` without benchmarks (`none`), cli/xxhsum.c:1211-1370. While the command line is read nothing is written,
except before the only `exit` there, `errorOut` (cli/xxhsum.c:1148-1152, 1205-1206). `g_defaultAlgo` is the algorithm after
looking at the program's name (cli/xxhsum.c:1232-1235). -/
def programT (env : Env) (test : SelfTest.TestEnv) (t : Texts) (w : World) (console : Bool) (argv0 : List Byte)
    (args : List (List Byte)) : Traced (Option (Nat × World)) := do
  let exename := lastNameFromPath argv0
  let defaultAlgo := (initMain argv0).algo
  match ← (match xsumMain console argv0 args with
    | .ub => Traced.of .ub
    | .exit c => ⟨onFd .err (str "Error: numeric value too large \n"), .exit c⟩
    | .ok a => pure a) with
  | .stop .help => do
    usageAdvanced t exename defaultAlgo
    return some (0, w)
  | .stop .version => do
    log (welcome t exename ++ t.compiled)
    sanityCheckT t test
    return some (0, w)
  | .stop .badUsage => do
    badusage t exename defaultAlgo
    return some (1, w)
  | .bench .. => return none
  | .check files opts => do
    let r ← checkFilesT env t w files opts
    return some r
  | .hash files algo le bsd => do
    let r ← hashFilesT env t w files algo le bsd
    return some r

end XXH.Model.Cli
