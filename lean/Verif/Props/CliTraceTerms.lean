import Verif.Model.CliTrace
import Verif.Spec.Cli
/-!
The words of C54: what xxhsum has to write. `Spec.Cli.Outcome` and `Spec.Cli.Ending` are those of C33.
-/
namespace XXH.Props
open Model.Cli

/-- Text on a stream. -/
def writes (fd : Fd) (text : List Byte) : Trace := text.map fun b => (fd, b)

/-- What arrives on a stream. -/
def arrives (fd : Fd) (tr : Trace) : List Byte := (tr.filter (·.1 = fd)).map (·.2)

/-- `file:line: Error: …` -/
def lineError (file : List Byte) (line : Nat) (what : String) : List Byte :=
  file ++ Spec.Cli.txt ":" ++ decText line ++ Spec.Cli.txt ": Error: " ++ Spec.Cli.txt what ++ Spec.Cli.txt "\n"

/-- What is said about a line of a checksum file. -/
def lineMessage (t : Texts) (opts : CheckOpts) (file : List Byte) (line : Nat) : Spec.Cli.Outcome → Trace
  | .comment => []
  | .malformed => if opts.warn then writes .err (lineError file line "Improperly formatted checksum line.") else []
  | .ok name => if opts.statusOnly ∨ opts.quiet then []
      else writes .out (Spec.Cli.marker name ++ Spec.Cli.shownName name ++ Spec.Cli.txt ": OK\n")
  | .mismatch name => if opts.statusOnly then []
      else writes .out (Spec.Cli.marker name ++ Spec.Cli.shownName name ++ Spec.Cli.txt ": FAILED\n")
  | .missing name => if opts.statusOnly ∨ opts.ignoreMissing then []
      else writes .out (file ++ Spec.Cli.txt ":" ++ decText line ++ Spec.Cli.txt ": Could not open or read '" ++ name ++
        Spec.Cli.txt "': " ++ t.strerror name ++ Spec.Cli.txt ".\n")

/-- What is said about the lines, numbered from `n + 1`. -/
def lineMessages (t : Texts) (opts : CheckOpts) (file : List Byte) (n : Nat) (os : List Spec.Cli.Outcome) : Trace :=
  (os.zipIdx (n + 1)).flatMap fun p => lineMessage t opts file p.2 p.1

/-- A number and a text, in the singular or the plural; nothing for 0. -/
def counted (n : Nat) (before singular plural after : String) : List Byte :=
  if n = 0 then []
  else decText n ++ Spec.Cli.txt before ++ Spec.Cli.txt (if n = 1 then singular else plural) ++ Spec.Cli.txt after

/-- What is said at the end of a checksum file. -/
def closing (opts : CheckOpts) (file : List Byte) (os : List Spec.Cli.Outcome) : Trace :=
  (if ∀ o ∈ os, o.entry = false then
    writes .err (file ++ Spec.Cli.txt ": no properly formatted xxHash checksum lines found\n")
  else if opts.statusOnly then []
  else writes .out
    (counted (os.countP (·.isMalformed)) " " "line is" "lines are" " improperly formatted\n" ++
     (if opts.ignoreMissing then []
      else counted (os.countP (·.isMissing)) " listed " "file" "files" " could not be read\n") ++
     counted (os.countP (·.isMismatch)) " computed " "checksum" "checksums" " did NOT match\n")) ++
  (if opts.ignoreMissing = true ∧ ∀ o ∈ os, o.isOk = false then writes .out (file ++ Spec.Cli.txt ": no file was verified\n")
   else [])

/-- Why a verification is given up after `n` lines, where `rest` is left of the checksum file (`none`: it is standard
input). -/
inductive GivesUp (c : Spec.Cli.Setting) (file : List Byte) (n : Nat) (rest : Option (List Byte)) : List Byte → Prop where
  | tooMany : n = c.maxLines → GivesUp c file n rest (file ++ Spec.Cli.txt ": Error: Too many checksum lines\n")
  | tooLong : n < c.maxLines → (∀ x, rest = some x → Spec.Cli.TooLong x) →
      GivesUp c file n rest (lineError file (n + 1) "Line too long.")
  | noMemory : n < c.maxLines → c.lowMemory → GivesUp c file n rest (lineError file (n + 1) "Out of memory.")

/-- The message about a file that cannot be read. -/
def readFailure : List Byte := Spec.Cli.txt "Error: a failure occurred reading the input file.\n"

end XXH.Props
