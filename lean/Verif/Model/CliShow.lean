import Verif.Model.CliFile
import Mathlib.Data.Nat.Digits.Defs
/-!
The bytes xxhsum writes on standard output while it verifies checksums (cli/xxhsum.c:916-955, 1033-1067).

`Model/CliFile` records what is printed as a list of `Out`; here these records become text. Simplification: the text of
`strerror(errno)` is a parameter, for every line of the checksum file.
-/
namespace XXH.Model.Cli

/-- `%lu` -/
def decText (n : Nat) : List Byte :=
  if n = 0 then [0x30] else (Nat.digits 10 n).reverse.map fun d => BitVec.ofNat 8 (0x30 + d)

/-- The bytes of a string literal. -/
def str (s : String) : List Byte := s.toList.map fun c => BitVec.ofNat 8 c.toNat

/-- The text of a record. `inFileName` is the name of the checksum file (`stdin` for standard input, cli/xxhsum.c:997),
`error` is `strerror(errno)`. The names are printed as they are by `%s`; only `XSUM_printFilename` escapes. -/
def Out.bytes (inFileName : List Byte) (error : Nat → List Byte) : Out → List Byte
  | .text line => line
  -- cli/xxhsum.c:929-930
  | .openFailure lineNumber name =>
    inFileName ++ str ":" ++ decText lineNumber ++ str ": Could not open or read '" ++ name ++ str "': " ++
      error lineNumber ++ str ".\n"
  -- cli/xxhsum.c:1039-1041
  | .improper n => decText n ++ str " " ++ str (if n = 1 then "line is" else "lines are") ++ str " improperly formatted\n"
  -- cli/xxhsum.c:1044-1046
  | .unreadable n => decText n ++ str " listed " ++ str (if n = 1 then "file" else "files") ++ str " could not be read\n"
  -- cli/xxhsum.c:1049-1051
  | .mismatched n =>
    decText n ++ str " computed " ++ str (if n = 1 then "checksum" else "checksums") ++ str " did NOT match\n"
  -- cli/xxhsum.c:1065
  | .noneVerified => inFileName ++ str ": no file was verified\n"

/-- All of it. -/
def outBytes (inFileName : List Byte) (error : Nat → List Byte) (out : List Out) : List Byte :=
  out.flatMap (Out.bytes inFileName error)

end XXH.Model.Cli
