import Verif.Model.CliText
import Verif.Model.XXH32
import Verif.Model.XXH64
import Verif.Model.XXH3Stream
/-!
Model of the file handling of cli/xxhsum.c: hashing files, reading checksum files line by line, verifying them.

The environment is explicit: what can be opened and what reading delivers (`World`), the answers of the allocator
(`World.mem`), the contents of uninitialised memory (`Env`). Simplifications:
* the file system does not change while the program runs, and end of file is final;
* only standard output is recorded (`XSUM_output`), not the messages on standard error (`XSUM_log`), and nothing that
  was printed before a call of `exit` (`Model/CliTrace` has both);
* the uninitialised hash states on the stack are the same in every call; the theorems hold whatever they contain;
* the block handed to the hash functions is the part of the block buffer that was just filled, so that a read of older
  data behind it would count as undefined;
* text mode and binary mode are the same (as on POSIX systems).
-/
namespace XXH.Model.Cli

/-- How a function ends: undefined behaviour, a call of `exit`, or a result. -/
inductive Res (α : Type) where
  | ub
  | exit (code : Nat)
  | ok (a : α)
deriving DecidableEq, Repr

instance : Monad Res where
  pure a := .ok a
  bind x f := match x with
    | .ub => .ub
    | .exit c => .exit c
    | .ok a => f a

/-- A computation that cannot call `exit`. -/
def Res.of {α : Type} : Option α → Res α
  | none => .ub
  | some a => .ok a

/-- An open `FILE*`: the bytes still to be delivered, how much the next calls of `fread` deliver at most, and whether
reading ends with an error instead of the end of the file. -/
structure Stream where
  data : List Byte
  sizes : List Nat
  fail : Bool

/-- `fread(buffer, 1, n, f)` (C11 7.21.8.1): some, but not necessarily all, of the bytes asked for; none only if there
are no more. -/
def Stream.fread (f : Stream) (n : Nat) : List Byte × Stream :=
  let k := match f.sizes.head? with
    | some m => min n (max 1 m)
    | none => n
  (f.data.take k, { f with data := f.data.drop k, sizes := f.sizes.tail })

/-- `ferror(f)` (C11 7.21.10.3) -/
def Stream.ferror (f : Stream) : Bool := f.data.isEmpty && f.fail

/-- The surroundings of the program. -/
structure World where
  /-- `XSUM_fopen(name, …)`, cli/xsum_os_specific.c: `none` is `NULL` -/
  files : List Byte → Option Stream
  /-- `XSUM_isDirectory(name)`, cli/xsum_os_specific.c -/
  isDir : List Byte → Bool
  stdin : Stream
  /-- answers of the next calls of `malloc` and `realloc` (`true`: success); further calls succeed -/
  mem : List Bool

/-- Ask the allocator. -/
def World.alloc (w : World) : Bool × World := (w.mem.headD true, { w with mem := w.mem.tail })

/-- The platform, and the contents of uninitialised objects. -/
structure Env where
  cfg : Cfg
  /-- the states on the stack of `XSUM_hashStream` before their initialisation -/
  state32 : Model.XXH32.State
  state64 : Model.XXH64.State
  state3 : Model.XXH3.State
  /-- address of the block buffer -/
  block : Nat
  /-- address of a canonical hash -/
  canon : Nat
  /-- contents of fresh memory -/
  junk : Nat → Byte
  /-- width of `unsigned long` -/
  ulongBits : Nat

/-! ### Hashing a stream, cli/xxhsum.c:239-310 -/

/-- `Multihash`, cli/xxhsum.c:239-243: the member that was written. -/
inductive Multihash where
  | hash32 (h : W32)
  | hash64 (h : W64)
  | hash128 (h : H128)
deriving DecidableEq

/-- The three states of `XSUM_hashStream`, cli/xxhsum.c:255-257. -/
structure States where
  s32 : Model.XXH32.State
  s64 : Model.XXH64.State
  s3 : Model.XXH3.State

/-- The three resets, cli/xxhsum.c:260-262; `XXHSUM32_DEFAULT_SEED` and `XXHSUM64_DEFAULT_SEED` are 0
(cli/xxhsum.c:219-220). -/
def initStates (env : Env) : Option States := do
  let (s32, _) ← Model.XXH32.reset (some env.state32) 0
  let (s64, _) ← Model.XXH64.reset (some env.state64) 0
  let (s3, _) ← Model.XXH3.reset env.cfg (some env.state3)
  return ⟨s32, s64, ← s3⟩

/-- The `switch` that feeds one block, cli/xxhsum.c:267-283. -/
def updateBlock (env : Env) (hashType : Algo) (st : States) (buffer : Ptr) (readSize : Nat) : Option States :=
  match hashType with
  | .xxh32 => do let (s, _) ← Model.XXH32.update env.cfg st.s32 buffer readSize; return { st with s32 := s }
  | .xxh64 => do let (s, _) ← Model.XXH64.update env.cfg st.s64 buffer readSize; return { st with s64 := s }
  | .xxh128 => do let (s, _) ← Model.XXH3.bits64_update env.cfg st.s3 buffer readSize; return { st with s3 := s }
  | .xxh3 => do let (s, _) ← Model.XXH3.bits64_update env.cfg st.s3 buffer readSize; return { st with s3 := s }

/-- `while ((readSize = fread(buffer, 1, blockSize, inFile)) > 0)`, cli/xxhsum.c:266-284. -/
def hashLoop (env : Env) (hashType : Algo) (blockSize : Nat) : Nat → Stream → States → Option (States × Stream)
  | 0, _, _ => none
  | fuel + 1, inFile, st => do
    let (bytes, inFile) := inFile.fread blockSize
    if bytes.length = 0 then return (st, inFile)
    let st ← updateBlock env hashType st (some ⟨env.block, bytes⟩) bytes.length
    hashLoop env hashType blockSize fuel inFile st

/-- The final `switch`, cli/xxhsum.c:290-309. -/
def finalHash (env : Env) (hashType : Algo) (st : States) : Option Multihash :=
  match hashType with
  | .xxh32 => (Model.XXH32.digest env.cfg st.s32).map .hash32
  | .xxh64 => (Model.XXH64.digest env.cfg st.s64).map .hash64
  | .xxh128 => (Model.XXH3.bits128_digest env.cfg st.s3).map .hash128
  | .xxh3 => (Model.XXH3.bits64_digest env.cfg st.s3).map .hash64

/-- `XSUM_hashStream`, cli/xxhsum.c:250-310. The second result is the stream afterwards. -/
def hashStream (env : Env) (inFile : Stream) (hashType : Algo) (blockSize : Nat) : Res (Multihash × Stream) := do
  let st ← Res.of (initStates env)
  let (st, inFile) ← Res.of (hashLoop env hashType blockSize (inFile.data.length + 1) inFile st)
  if inFile.ferror then .exit 1
  let h ← Res.of (finalHash env hashType st)
  return (h, inFile)

/-- The canonical form displayed for a hash, the `switch` at cli/xxhsum.c:441-470. -/
def canonicalOf (env : Env) (hashType : Algo) (h : Multihash) : Option (List Byte) :=
  match hashType, h with
  | .xxh32, .hash32 h => some (Model.XXH32.canonicalFromHash env.cfg h)
  | .xxh64, .hash64 h => some (Model.XXH64.canonicalFromHash env.cfg h)
  | .xxh128, .hash128 h => some (Model.XXH3.XXH128_canonicalFromHash env.cfg h)
  | .xxh3, .hash64 h => some (Model.XXH64.canonicalFromHash env.cfg h)
  | _, _ => none

/-- `stdinFileName`, cli/xxhsum.c:79 -/
def stdinFileName : List Byte := [0x73, 0x74, 0x64, 0x69, 0x6e]

/-- `XSUM_hashFile`, cli/xxhsum.c:398-473: the result and what is printed. The name `none` is the special pointer
`stdinName`. -/
def hashFile (env : Env) (w : World) (fileName : Option (List Byte)) (hashType : Algo) (littleEndian bsd : Bool) :
    Res (Nat × List Byte × World) := do
  let blockSize := 64 * 1024
  let opened : Option (List Byte × Stream) := match fileName with
    | none => some (stdinFileName, w.stdin)
    | some name => if w.isDir name then none else (w.files name).map (name, ·)
  match opened with
  | none => return (1, [], w)
  | some (name, inFile) =>
    let (ok, w) := w.alloc
    if !ok then return (1, [], if fileName.isNone then { w with stdin := { w.stdin with data := [] } } else w)
    let (hashValue, inFile) ← hashStream env inFile hashType blockSize
    let canonical ← Res.of (canonicalOf env hashType hashValue)
    let line ← Res.of (displayLine bsd littleEndian name canonical hashType)
    return (0, line, if fileName.isNone then { w with stdin := inFile } else w)

/-- The loop of `XSUM_hashFiles`, cli/xxhsum.c:490-492. -/
def hashFilesLoop (env : Env) (hashType : Algo) (littleEndian bsd : Bool) :
    List (List Byte) → World → Nat → List Byte → Res (Nat × List Byte × World)
  | [], w, result, out => return (result, out, w)
  | name :: names, w, result, out => do
    let (r, line, w) ← hashFile env w (some name) hashType littleEndian bsd
    hashFilesLoop env hashType littleEndian bsd names w (result ||| r) (out ++ line)

/-- `XSUM_hashFiles`, cli/xxhsum.c:480-494. -/
def hashFiles (env : Env) (w : World) (fnList : List (List Byte)) (hashType : Algo) (littleEndian bsd : Bool) :
    Res (Nat × List Byte × World) :=
  if fnList.length = 0 then hashFile env w none hashType littleEndian bsd
  else hashFilesLoop env hashType littleEndian bsd fnList w 0 []

/-! ### Reading a line, cli/xxhsum.c:560-621 -/

/-- `GetLineResult`, cli/xxhsum.c:497-503 -/
inductive GetLineResult where
  | ok | comment | eof | exceedMaxLineLength | outOfMemory
deriving DecidableEq, Repr

/-- `DEFAULT_LINE_LENGTH`, cli/xxhsum.c:97 -/
def DEFAULT_LINE_LENGTH : Nat := 8 * 2 + 2 + 4096 + 1

/-- `MAX_LINE_LENGTH`, cli/xxhsum.c:100 -/
def MAX_LINE_LENGTH : Nat := 32 * 1024

/-- Uninitialised memory. -/
def fresh (junk : Nat → Byte) (n : Nat) : CMem := (List.range n).map junk

/-- `realloc` (C11 7.22.3.5): the old contents up to the new size, then uninitialised bytes. -/
def resize (junk : Nat → Byte) (m : CMem) (n : Nat) : CMem := m.take n ++ fresh junk (n - m.length)

/-- The variables of `XSUM_getLine`: `*lineBuf`, `*lineMax`, the rest of the stream, the allocator. -/
structure LineSt where
  buf : CMem
  max : Nat
  data : List Byte
  mem : List Bool

/-- The end of `XSUM_getLine`, cli/xxhsum.c:612-620. -/
def getLineEnd (st : LineSt) (len : Nat) (result : GetLineResult) : Option (GetLineResult × LineSt) := do
  let buf ← wr st.buf len 0
  let st := { st with buf := buf }
  if result = .ok ∧ len > 0 then
    let c ← rd buf 0
    if c = cHASH then return (.comment, st)
  return (result, st)

/-- "Make enough space", cli/xxhsum.c:594-607: `GetLine_ok` and the enlarged buffer, or a failure to return. -/
def makeSpace (junk : Nat → Byte) (st : LineSt) (len : Nat) : GetLineResult × LineSt :=
  if len + 1 ≥ st.max then
    let newBufSize := st.max
    let newBufSize := newBufSize + (newBufSize / 2 + 1)
    let newBufSize := if newBufSize > MAX_LINE_LENGTH then MAX_LINE_LENGTH else newBufSize
    if len + 1 ≥ newBufSize then (.exceedMaxLineLength, st)
    else if st.mem.headD true then
      (.ok, { st with buf := resize junk st.buf newBufSize, max := newBufSize, mem := st.mem.tail })
    else (.outOfMemory, { st with mem := st.mem.tail })
  else (.ok, st)

/-- The loop of `XSUM_getLine`, cli/xxhsum.c:582-610. `fgetc` delivers the next byte of the data; a read error cannot be
told from the end of the file. -/
def getLineLoop (junk : Nat → Byte) : List Byte → CMem → Nat → List Bool → Nat → Option (GetLineResult × LineSt)
  | [], buf, max, mem, len =>
    getLineEnd ⟨buf, max, [], mem⟩ len (if len = 0 then .eof else .ok)
  | c :: data, buf, max, mem, len =>
    let (e, st) := makeSpace junk ⟨buf, max, data, mem⟩ len
    if e ≠ .ok then some (e, st)
    else if c = cNL then getLineEnd st len .ok
    else do
      let buf ← wr st.buf len c
      getLineLoop junk data buf st.max st.mem (len + 1)

/-- `XSUM_getLine`, cli/xxhsum.c:569-621; a NULL buffer is `none`. -/
def getLine (junk : Nat → Byte) (lineBuf : Option CMem) (lineMax : Nat) (data : List Byte) (mem : List Bool) :
    Option (GetLineResult × Option CMem × Nat × List Byte × List Bool) :=
  let run (buf : CMem) (max : Nat) (mem : List Bool) := do
    let (r, st) ← getLineLoop junk data buf max mem 0
    return (r, some st.buf, st.max, st.data, st.mem)
  match lineBuf with
  | some buf =>
    if lineMax < 1 then
      if mem.headD true then run (fresh junk DEFAULT_LINE_LENGTH) DEFAULT_LINE_LENGTH mem.tail
      else some (.outOfMemory, none, 0, data, mem.tail)
    else run buf lineMax mem
  | none =>
    if mem.headD true then run (fresh junk DEFAULT_LINE_LENGTH) DEFAULT_LINE_LENGTH mem.tail
    else some (.outOfMemory, none, 0, data, mem.tail)

/-! ### Verifying, cli/xxhsum.c:801-1094 -/

/-- `ParseFileReport`, cli/xxhsum.c:533-542 (without the counter of mixed lines, which is never used); the counters are
`unsigned long`. -/
structure Report where
  nProperlyFormattedLines : Nat
  nImproperlyFormattedLines : Nat
  nMismatchedChecksums : Nat
  nMatchedChecksums : Nat
  nOpenOrReadFailures : Nat
  nMissing : Nat
  quit : Bool

/-- Options of the check mode: `ParseFileArg`, cli/xxhsum.c:544-558. -/
structure CheckOpts where
  littleEndian : Bool
  strictMode : Bool
  statusOnly : Bool
  ignoreMissing : Bool
  warn : Bool
  quiet : Bool
  algoBitmask : BitVec 32

/-- What is printed on standard output. -/
inductive Out where
  /-- `name: OK` or `name: FAILED`, cli/xxhsum.c:946-953 -/
  | text (line : List Byte)
  /-- `Could not open or read`, cli/xxhsum.c:929-930 -/
  | openFailure (lineNumber : Nat) (name : List Byte)
  /-- the summary, cli/xxhsum.c:1038-1052 -/
  | improper (n : Nat)
  | unreadable (n : Nat)
  | mismatched (n : Nat)
  /-- `no file was verified`, cli/xxhsum.c:1065 -/
  | noneVerified
deriving DecidableEq, Repr

/-- The variables of `XSUM_parseFile1`. `inp` is the checksum file unless that is standard input (`none`). -/
structure PF where
  inp : Option Stream
  w : World
  lineBuf : Option CMem
  lineMax : Nat
  report : Report
  lineNumber : Nat
  out : List Out

/-- Increment an `unsigned long`. -/
def inc (env : Env) (n : Nat) : Nat := (n + 1) % 2 ^ env.ulongBits

/-- The comparison, cli/xxhsum.c:888-911. -/
def hashMatches (env : Env) (algo : Algo) (xxh : Multihash) (canonical : List Byte) : Option Bool :=
  match algo, xxh with
  | .xxh32, .hash32 h => do
    let c ← Model.XXH32.hashFromCanonical env.cfg ⟨env.canon, canonical⟩
    return decide (h = c)
  | .xxh64, .hash64 h => do
    let c ← Model.XXH64.hashFromCanonical env.cfg ⟨env.canon, canonical⟩
    return decide (h = c)
  | .xxh3, .hash64 h => do
    let c ← Model.XXH64.hashFromCanonical env.cfg ⟨env.canon, canonical⟩
    return decide (h = c)
  | .xxh128, .hash128 h => do
    let c ← Model.XXH3.XXH128_hashFromCanonical env.cfg ⟨env.canon, canonical⟩
    return decide (Model.XXH3.XXH128_isEqual env.cfg h c ≠ 0)
  | _, _ => none

/-- `LineStatus`, cli/xxhsum.c:515-519 -/
inductive LineStatus where
  | hashOk | hashFailed | failedToOpen
deriving DecidableEq, Repr

/-- Opening and hashing the file of a line, cli/xxhsum.c:876-914. -/
def verifyEntry (env : Env) (s : PF) (filename : List Byte) (p : ParsedLine) : Res (LineStatus × PF) := do
  let fnameIsStdin := decide (filename = stdinFileName)
  let fp := if fnameIsStdin then some s.w.stdin else s.w.files filename
  match fp with
  | none => return (.failedToOpen, s)
  | some fp =>
    let (xxh, fp) ← hashStream env fp p.algo (64 * 1024)
    let m ← Res.of (hashMatches env p.algo xxh p.canonical)
    let s := if fnameIsStdin then { s with w := { s.w with stdin := fp } } else s
    return (if m then .hashOk else .hashFailed, s)

/-- `": OK\n"` and `": FAILED\n"`, cli/xxhsum.c:952 -/
def verdictText (ok : Bool) : List Byte :=
  if ok then [0x3a, 0x20, 0x4f, 0x4b, 0x0a] else [0x3a, 0x20, 0x46, 0x41, 0x49, 0x4c, 0x45, 0x44, 0x0a]

/-- Counting and printing, the `switch` at cli/xxhsum.c:916-955. -/
def reportEntry (env : Env) (opts : CheckOpts) (s : PF) (filename : List Byte) (status : LineStatus) : PF :=
  match status with
  | .failedToOpen =>
    if opts.ignoreMissing then { s with report := { s.report with nMissing := inc env s.report.nMissing } }
    else
      let s := { s with report := { s.report with nOpenOrReadFailures := inc env s.report.nOpenOrReadFailures } }
      if opts.statusOnly then s else { s with out := s.out ++ [.openFailure s.lineNumber filename] }
  | status =>
    let ok := decide (status = .hashOk)
    let b := !(ok && opts.quiet)
    let r := if ok then { s.report with nMatchedChecksums := inc env s.report.nMatchedChecksums }
      else { s.report with nMismatchedChecksums := inc env s.report.nMismatchedChecksums }
    let s := { s with report := r }
    if b && !opts.statusOnly then
      let needsEscape := filenameNeedsEscape filename
      { s with out := s.out ++ [.text ((if needsEscape then [cBSL] else []) ++ printFilename filename needsEscape ++
        verdictText ok)] }
    else s

/-- What is left of the checksum file. -/
def PF.data (s : PF) : List Byte := match s.inp with
  | some f => f.data
  | none => s.w.stdin.data

/-- Replace what is left of the checksum file. -/
def PF.setData (s : PF) (d : List Byte) : PF := match s.inp with
  | some f => { s with inp := some { f with data := d } }
  | none => { s with w := { s.w with stdin := { s.w.stdin with data := d } } }

/-- The body of the loop of `XSUM_parseFile1`, cli/xxhsum.c:814-955. The flag tells to leave the loop by `break`. -/
def parseStep (env : Env) (opts : CheckOpts) (s : PF) : Res (Bool × PF) := do
  let s := { s with lineNumber := inc env s.lineNumber }
  if s.lineNumber = 0 then return (true, { s with report := { s.report with quit := true } })
  let (r, lineBuf, lineMax, data, mem) ← Res.of (getLine env.junk s.lineBuf s.lineMax s.data s.w.mem)
  let s := { s with lineBuf := lineBuf, lineMax := lineMax, w := { s.w with mem := mem } }
  let s := s.setData data
  match r with
  | .comment => return (false, s)
  | .eof => return (true, s)
  | .ok =>
    let line ← Res.of lineBuf
    match ← Res.of (parseLine line opts.littleEndian opts.algoBitmask) with
    | none => return (false, { s with report :=
        { s.report with nImproperlyFormattedLines := inc env s.report.nImproperlyFormattedLines } })
    | some (p, line) =>
      let s := { s with lineBuf := some line }
      let s := { s with report := { s.report with nProperlyFormattedLines := inc env s.report.nProperlyFormattedLines } }
      let filename ← Res.of (cstr (line.drop p.filename))
      let (status, s) ← verifyEntry env s filename p
      return (false, reportEntry env opts s filename status)
  | _ => return (true, { s with report := { s.report with quit := true } })

/-- The loop of `XSUM_parseFile1`, cli/xxhsum.c:813-956. -/
def parseLoop (env : Env) (opts : CheckOpts) : Nat → PF → Res PF
  | 0, _ => .ub
  | fuel + 1, s =>
    if s.report.quit then .ok s
    else do
      let (stop, s) ← parseStep env opts s
      if stop then return s
      parseLoop env opts fuel s

/-- The summary, cli/xxhsum.c:1033-1052. -/
def summary (opts : CheckOpts) (r : Report) : List Out :=
  if r.nProperlyFormattedLines = 0 then []
  else if opts.statusOnly then []
  else
    (if r.nImproperlyFormattedLines ≠ 0 then [Out.improper r.nImproperlyFormattedLines] else []) ++
    (if r.nOpenOrReadFailures ≠ 0 then [Out.unreadable r.nOpenOrReadFailures] else []) ++
    (if r.nMismatchedChecksums ≠ 0 then [Out.mismatched r.nMismatchedChecksums] else [])

/-- The result, cli/xxhsum.c:1054-1067. -/
def checkResult (opts : CheckOpts) (r : Report) : Bool × List Out :=
  let result := r.nProperlyFormattedLines ≠ 0 && r.nMismatchedChecksums = 0 && r.nOpenOrReadFailures = 0 &&
    (!opts.strictMode || r.nImproperlyFormattedLines = 0) && !r.quit
  if opts.ignoreMissing && r.nMatchedChecksums = 0 then (false, [.noneVerified]) else (result, [])

/-- `XSUM_checkFile`, cli/xxhsum.c:976-1070. -/
def checkFile (env : Env) (w : World) (inFileName : Option (List Byte)) (opts : CheckOpts) :
    Res (Bool × List Out × World) := do
  let inFile : Option (Option Stream) := match inFileName with
    | none => some none
    | some name => (w.files name).map some
  match inFile with
  | none => return (false, [], w)
  | some inp =>
    let (a, w) := w.alloc
    let (b, w) := w.alloc
    if !a || !b then .exit 1
    let s : PF := ⟨inp, w, some (fresh env.junk DEFAULT_LINE_LENGTH), DEFAULT_LINE_LENGTH,
      ⟨0, 0, 0, 0, 0, 0, false⟩, 0, []⟩
    let s ← parseLoop env opts (s.data.length + 1) s
    let (result, out) := checkResult opts s.report
    return (result, s.out ++ summary opts s.report ++ out, s.w)

/-- The loop of `XSUM_checkFiles`, cli/xxhsum.c:1090-1091. -/
def checkFilesLoop (env : Env) (opts : CheckOpts) :
    List (List Byte) → World → Bool → List Out → Res (Bool × List Out × World)
  | [], w, ok, out => return (ok, out, w)
  | name :: names, w, ok, out => do
    let (r, o, w) ← checkFile env w (some name) opts
    checkFilesLoop env opts names w (ok && r) (out ++ o)

/-- `XSUM_checkFiles`, cli/xxhsum.c:1073-1094. -/
def checkFiles (env : Env) (w : World) (fnList : List (List Byte)) (opts : CheckOpts) : Res (Nat × List Out × World) := do
  let (ok, out, w) ← if fnList.length = 0 then checkFile env w none opts else checkFilesLoop env opts fnList w true []
  return (if ok then 0 else 1, out, w)

end XXH.Model.Cli
