import Verif.Spec.Cli
/-!
The command line of xxhsum, after the help text (cli/xxhsum.c:1096-1140) and the manual (cli/xxhsum.1.md), made precise
where they are silent.
-/
namespace XXH.Spec.Cli

/-- The options. -/
inductive Opt where
  | check | quiet | littleEndian | strict | status | warn | binary | ignoreMissing | tag | help | version | benchAll | stdin
  | algorithm (n : Nat) | benchId (n : Nat) | iterations (n : Nat) | blockSize (n : Nat)
  | unknown
deriving DecidableEq, Repr

/-- Options that are a whole argument. -/
def longOptions : List (List Byte × Opt) :=
  [(txt "--check", .check), (txt "--benchmark-all", .benchAll), (txt "--bench-all", .benchAll), (txt "--quiet", .quiet),
   (txt "--little-endian", .littleEndian), (txt "--strict", .strict), (txt "--status", .status), (txt "--warn", .warn),
   (txt "--binary", .binary), (txt "--ignore-missing", .ignoreMissing), (txt "--help", .help), (txt "--version", .version),
   (txt "--tag", .tag), (txt "-", .stdin)]

/-- Options that are a letter. -/
def letters : List (Byte × Opt) := [(0x56, .version), (0x68, .help), (0x63, .check), (0x77, .warn), (0x71, .quiet)]

/-- Options that are a letter followed by a number. -/
def numbers : List (Byte × (Nat → Opt)) := [(0x48, .algorithm), (0x69, .iterations), (0x42, .blockSize)]

/-- The numbers behind `-b`: separated by commas, possibly after a first comma. -/
inductive Ids : List Byte → List Nat → List Byte → Prop where
  | last {s t digits n rest} : (s = 0x2c :: t ∨ s = t ∧ s.head? ≠ some 0x2c) → NumberAt t digits n rest →
      rest.head? ≠ some 0x2c → Ids s [decimal digits * n] rest
  | more {s t digits n rest ids rest'} : (s = 0x2c :: t ∨ s = t ∧ s.head? ≠ some 0x2c) → NumberAt t digits n rest →
      rest.head? = some 0x2c → Ids rest ids rest' → Ids s (decimal digits * n :: ids) rest'

/-- Several letters (with their numbers) may share one dash. -/
inductive Cluster : List Byte → List Opt → Prop where
  | nil : Cluster [] []
  | letter {c o t os} : (c, o) ∈ letters → Cluster t os → Cluster (c :: t) (o :: os)
  | number {c f s digits n rest os} : (c, f) ∈ numbers → NumberAt s digits n rest → Cluster rest os →
      Cluster (c :: s) (f (decimal digits * n) :: os)
  | bench {s ids rest os} : Ids s ids rest → Cluster rest os → Cluster (0x62 :: s) (ids.map .benchId ++ os)
  | unknown {c t} : c ∉ letters.map (·.1) → c ∉ numbers.map (·.1) → c ≠ 0x62 → Cluster (c :: t) [.unknown]

/-- `CommandLine args os files`: the arguments `args` (without the program's name) are the options `os` followed by the
files `files`, `none` if there are none. Everything from the first argument that does not start with a dash, or behind
`--`, is a file. -/
inductive CommandLine : List (List Byte) → List Opt → Option (List (List Byte)) → Prop where
  | nil : CommandLine [] [] none
  | dashes {files} : CommandLine (txt "--" :: files) [] (if files = [] then none else some files)
  | files {f files} : f.head? ≠ some 0x2d → CommandLine (f :: files) [] (some (f :: files))
  | long {a o rest os files} : (a, o) ∈ longOptions → CommandLine rest os files → CommandLine (a :: rest) (o :: os) files
  | short {t os1 rest os2 files} : 0x2d :: t ∉ longOptions.map (·.1) → 0x2d :: t ≠ txt "--" → Cluster t os1 →
      CommandLine rest os2 files → CommandLine ((0x2d :: t) :: rest) (os1 ++ os2) files

/-- The algorithm with this number. -/
def algorithmOf : Nat → Option Alg
  | 0 | 32 => some .xxh32
  | 1 | 64 => some .xxh64
  | 2 | 128 => some .xxh128
  | 3 => some .xxh3
  | _ => none

/-- Numbers from here on are rejected. -/
def numberLimit : Nat := 4294967290

/-- Options that end the program at once, and the exit code. -/
def ends : Opt → Option Nat
  | .help | .version => some 0
  | .unknown => some 1
  | .algorithm n => if algorithmOf n = none then some 1 else none
  | .benchId n | .iterations n | .blockSize n => if numberLimit ≤ n then some 1 else none
  | _ => none

/-- The options before the first that ends the program. -/
def live (os : List Opt) : List Opt := os.takeWhile fun o => (ends o).isNone

/-- The last of the options that say something about `f` decides. -/
def lastOf {β : Type} (f : Opt → Option β) (os : List Opt) : Option β := (os.filterMap f).getLast?

/-- The name of the program without its directory. -/
def programName (path : List Byte) : List Byte := (path.reverse.takeWhile fun c => c ≠ 0x2f ∧ c ≠ 0x5c).reverse

/-- The algorithm a program name stands for. -/
def namedAlg (path : List Byte) : Option Alg :=
  if txt "xxh3sum" <:+: programName path then some .xxh3
  else if txt "xxh128sum" <:+: programName path then some .xxh128
  else if txt "xxh64sum" <:+: programName path then some .xxh64
  else if txt "xxh32sum" <:+: programName path then some .xxh32
  else none

/-- The number of benchmarks, and those that run by default. -/
def benchmarks : Nat := 29
def defaultBenchmarks : List Nat := [1, 3, 5, 11]

/-- What a benchmark option selects: one benchmark, the default ones, or all. -/
def selects : Opt → Option (Option Nat)
  | .benchAll => some none
  | .benchId n => some (if n < benchmarks then some n else none)
  | _ => none

/-- The benchmarks to run: all if the last selection says so; the default ones if the last selection is number 0; else
all those mentioned. -/
def Runs (os : List Opt) (i : Nat) : Prop :=
  i < benchmarks ∧ match lastOf selects os with
    | none => False
    | some none => True
    | some (some 0) => i ∈ defaultBenchmarks
    | some (some _) => .benchId i ∈ os

end XXH.Spec.Cli
