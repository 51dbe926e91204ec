import Verif.Types
import Verif.Spec.XXH32
import Verif.Spec.XXH64
import Verif.Spec.XXH3
/-!
What xxhsum's checksum files look like and mean, written from the documentation
(cli/xxhsum.1.md, the comment at cli/xxhsum.c:671-689) without reference to the model.

Text is a list of bytes; `txt "…"` is an ASCII literal.
-/
namespace XXH.Spec.Cli

/-- An ASCII literal. -/
def txt (s : String) : List Byte := s.toList.map fun c => BitVec.ofNat 8 c.toNat

/-- The four algorithms. -/
inductive Alg | xxh32 | xxh64 | xxh128 | xxh3
deriving DecidableEq, Repr

/-- The value of a hexadecimal digit of either case. -/
def hexVal (c : Byte) : Option Nat :=
  match (txt "0123456789abcdef").findIdx? (· == c) with
  | some i => some i
  | none => (txt "0123456789ABCDEF").findIdx? (· == c)

/-- The bytes denoted by a string of hexadecimal digits. -/
def unhex : List Byte → Option (List Byte)
  | [] => some []
  | [_] => none
  | a :: b :: t => do
    let x ← hexVal a
    let y ← hexVal b
    let rest ← unhex t
    return BitVec.ofNat 8 (16 * x + y) :: rest

/-- The digest (canonical, most significant byte first) denoted by a string of `2 * n` digits that is written most or
least significant byte first. -/
def digest (n : Nat) (le : Bool) (text : List Byte) : Option (List Byte) :=
  if text.length = 2 * n then (unhex text).map fun d => if le then d.reverse else d else none

/-- Undo the escaping of a file name: `\n`, `\r` and `\\` only. -/
def unescape : List Byte → Option (List Byte)
  | [] => some []
  | c :: t =>
    if c = 0x5c then
      match t with
      | [] => none
      | d :: t =>
        if d = 0x6e then (unescape t).map (0x0a :: ·)
        else if d = 0x72 then (unescape t).map (0x0d :: ·)
        else if d = 0x5c then (unescape t).map (0x5c :: ·)
        else none
    else (unescape t).map (c :: ·)

/-- Escape a file name. -/
def escape : List Byte → List Byte
  | [] => []
  | c :: t =>
    if c = 0x0a then txt "\\n" ++ escape t
    else if c = 0x0d then txt "\\r" ++ escape t
    else if c = 0x5c then txt "\\\\" ++ escape t
    else c :: escape t

/-- The name contains something to escape. -/
def Special (name : List Byte) : Prop := 0x0a ∈ name ∨ 0x0d ∈ name ∨ 0x5c ∈ name

instance (name : List Byte) : Decidable (Special name) := by unfold Special; infer_instance

/-- How a file name is shown: escaped if there is anything to escape. -/
def shownName (name : List Byte) : List Byte := if Special name then escape name else name

/-- The backslash in front of a line whose file name is escaped. -/
def marker (name : List Byte) : List Byte := if Special name then [0x5c] else []

/-- A checksum record. -/
structure Entry where
  alg : Alg
  digest : List Byte
  name : List Byte
deriving DecidableEq, Repr

/-- Two lower case hexadecimal digits for every byte. -/
def hexText (d : List Byte) : List Byte :=
  d.flatMap fun b => [(txt "0123456789abcdef").getD (b.toNat / 16) 0, (txt "0123456789abcdef").getD (b.toNat % 16) 0]

/-- The name of an algorithm. -/
def algName : Alg → List Byte
  | .xxh32 => txt "XXH32"
  | .xxh64 => txt "XXH64"
  | .xxh128 => txt "XXH128"
  | .xxh3 => txt "XXH3"

/-- The line for a record: in the BSD convention (`--tag`) or in the GNU convention, with the digest most or least
significant byte first. -/
def recordLine (bsd le : Bool) (e : Entry) : List Byte :=
  let hash := hexText (if le then e.digest.reverse else e.digest)
  marker e.name ++
  (if bsd then algName e.alg ++ (if le then txt "_LE" else []) ++ txt " (" ++ shownName e.name ++ txt ") = " ++ hash
   else (if e.alg = .xxh3 then txt "XXH3_" else []) ++ hash ++ txt "  " ++ shownName e.name) ++
  txt "\n"

/-- The hash field of a line in the GNU convention: 8, 16 or 32 digits, or `XXH3_` and 16 digits. -/
inductive GnuHash (le : Bool) : List Byte → Alg → List Byte → Prop where
  | xxh32 {h d} : digest 4 le h = some d → GnuHash le h .xxh32 d
  | xxh64 {h d} : digest 8 le h = some d → GnuHash le h .xxh64 d
  | xxh128 {h d} : digest 16 le h = some d → GnuHash le h .xxh128 d
  | xxh3 {h d} : digest 8 le h = some d → GnuHash le (txt "XXH3_" ++ h) .xxh3 d

/-- The algorithm selected by the tag of a line in the BSD convention. Only the beginning of the tag is looked at, and
an unknown tag means XXH64. -/
def tagAlg (tag : List Byte) : Alg :=
  if txt "XXH128" <+: tag then .xxh128
  else if txt "XXH64" <+: tag then .xxh64
  else if txt "XXH32" <+: tag then .xxh32
  else if txt "XXH3" <+: tag then .xxh3
  else .xxh64

/-- The hash field of a line in the BSD convention. For XXH3 the prefix `XXH3_` is optional. -/
inductive BsdHash (le : Bool) : List Byte → Alg → List Byte → Prop where
  | xxh32 {h d} : digest 4 le h = some d → BsdHash le h .xxh32 d
  | xxh64 {h d} : digest 8 le h = some d → BsdHash le h .xxh64 d
  | xxh128 {h d} : digest 16 le h = some d → BsdHash le h .xxh128 d
  | xxh3 {h d} : digest 8 le h = some d → BsdHash le h .xxh3 d
  | xxh3' {h d} : digest 8 le h = some d → BsdHash le (txt "XXH3_" ++ h) .xxh3 d

/-- A line without escape marker: `hash`, a space, one arbitrary character other than `(`, the name; or
`tag (name) = hash`. `le` tells the byte order in the GNU convention; in the BSD convention it is told by the tag. -/
inductive Line (le : Bool) : List Byte → Entry → Prop where
  | gnu {hash sep name alg d} : 0x20 ∉ hash → sep ≠ 0x28 → GnuHash le hash alg d →
      Line le (hash ++ 0x20 :: sep :: name) ⟨alg, d, name⟩
  | bsd {tag hash name d} : 0x20 ∉ tag → 0x20 ∉ hash →
      BsdHash (decide (txt "_LE" <:+: tag)) hash (tagAlg tag) d →
      Line le (tag ++ txt " (" ++ name ++ txt ") = " ++ hash) ⟨tagAlg tag, d, name⟩

/-- The first character after leading blanks is a backslash. -/
def Escaped (s : List Byte) : Prop := (s.dropWhile fun c => c == 0x20 || c == 0x09).head? = some 0x5c

instance (s : List Byte) : Decidable (Escaped s) := by unfold Escaped; infer_instance

/-- The lines `xxhsum --check` accepts, with their meaning; `allowed` are the algorithms the command accepts. In an
escaped line the first character is dropped (also if it is a blank) and the name is unescaped. -/
def Parses (le : Bool) (allowed : Alg → Prop) (s : List Byte) (e : Entry) : Prop :=
  allowed e.alg ∧
  if Escaped s then ∃ n, Line le s.tail ⟨e.alg, e.digest, n⟩ ∧ unescape n = some e.name
  else Line le s e

/-- The value of a decimal digit. -/
def decVal (c : Byte) : Option Nat := (txt "0123456789").findIdx? (· == c)

/-- The value of a decimal number; the empty string counts as 0. -/
def decimal (digits : List Byte) : Nat := digits.foldl (fun n c => 10 * n + (decVal c).getD 0) 0

/-- A number at the start of an argument: decimal digits, then optionally `K` or `M` (times 2^10 or 2^20), which may be
followed by `i` and by `B`. `NumberAt s digits unit rest`: the longest such number in `s` has these digits and this
multiplier, and `rest` is what follows. -/
inductive NumberAt : List Byte → List Byte → Nat → List Byte → Prop where
  | plain {digits rest} : (∀ c ∈ digits, (decVal c).isSome) → (∀ c, rest.head? = some c → decVal c = none) →
      rest.head? ≠ some 0x4b → rest.head? ≠ some 0x4d → NumberAt (digits ++ rest) digits 1 rest
  | unit {digits u i b rest n} : (∀ c ∈ digits, (decVal c).isSome) → (u = txt "K" ∧ n = 2 ^ 10 ∨ u = txt "M" ∧ n = 2 ^ 20) →
      (i = txt "i" ∨ i = [] ∧ (b ++ rest).head? ≠ some 0x69) → (b = txt "B" ∨ b = [] ∧ rest.head? ≠ some 0x42) →
      NumberAt (digits ++ u ++ i ++ b ++ rest) digits n rest

/-- The canonical digest of a file's contents, default seed. -/
def hashOf (a : Alg) (msg : List Byte) : List Byte :=
  match a with
  | .xxh32 => beBytes 4 (Spec.XXH32.hash msg 0)
  | .xxh64 => beBytes 8 (Spec.XXH64.hash msg 0)
  | .xxh128 => let h := Spec.XXH3.XXH3_128 msg; beBytes 8 h.high64 ++ beBytes 8 h.low64
  | .xxh3 => beBytes 8 (Spec.XXH3.XXH3_64 msg)

/-! ### Checksum files -/

/-- The first line of a text, without its newline. -/
def firstLine (text : List Byte) : List Byte := text.takeWhile (· ≠ 0x0a)

/-- What follows the first line (and its newline, if there is one). -/
def otherLines (text : List Byte) : List Byte := (text.dropWhile (· ≠ 0x0a)).tail

/-- The first line does not fit: more than 32766 characters and a newline, or more than 32767 characters. -/
def TooLong (text : List Byte) : Prop :=
  (0x0a ∈ text ∧ 32766 < (firstLine text).length) ∨ 32767 < (firstLine text).length

/-- What there is under a file name. -/
inductive FileState where
  /-- it cannot be opened -/
  | missing
  /-- it can be opened, but reading ends with an error -/
  | unreadable
  | content (c : List Byte)

/-- What becomes of a line of a checksum file. -/
inductive Outcome where
  | comment
  | malformed
  | ok (name : List Byte)
  | mismatch (name : List Byte)
  | missing (name : List Byte)
deriving DecidableEq, Repr

/-- The circumstances of a verification. -/
structure Setting where
  files : List Byte → FileState
  /-- reading standard input ends with an error -/
  stdinFails : Bool
  /-- digests in the GNU convention are least significant byte first -/
  le : Bool
  allowed : Alg → Prop
  /-- how many lines can be counted -/
  maxLines : Nat
  /-- the system may refuse memory -/
  lowMemory : Prop

/-- What is left to read: the checksum file (`none`: it is standard input) and standard input. -/
structure Source where
  text : Option (List Byte)
  stdin : List Byte

/-- What is left of the checksum file. -/
def Source.rest (s : Source) : List Byte := s.text.getD s.stdin

/-- Go on with this rest of the checksum file. -/
def Source.put (s : Source) (t : List Byte) : Source :=
  match s.text with
  | some _ => { s with text := some t }
  | none => { s with stdin := t }

/-- The name `stdin` stands for standard input. -/
def lookup (c : Setting) (s : Source) (name : List Byte) : FileState :=
  if name = txt "stdin" then (if c.stdinFails then .unreadable else .content s.stdin) else c.files name

/-- Reading a file; standard input can be read only once. -/
def Source.afterReading (s : Source) (name : List Byte) : Source :=
  if name = txt "stdin" then { s with stdin := [] } else s

/-- The meaning of a line: its outcome, or `none` if the file it names cannot be read. Only the part before the first
NUL counts. -/
inductive LineMeans (c : Setting) (s : Source) (line : List Byte) : Option Outcome → Source → Prop where
  | comment : line.head? = some 0x23 → LineMeans c s line (some .comment) s
  | malformed : line.head? ≠ some 0x23 → (∀ e, ¬ Parses c.le c.allowed (line.takeWhile (· ≠ 0)) e) →
      LineMeans c s line (some .malformed) s
  | missing {e} : line.head? ≠ some 0x23 → Parses c.le c.allowed (line.takeWhile (· ≠ 0)) e →
      lookup c s e.name = .missing → LineMeans c s line (some (.missing e.name)) s
  | unreadable {e} : line.head? ≠ some 0x23 → Parses c.le c.allowed (line.takeWhile (· ≠ 0)) e →
      lookup c s e.name = .unreadable → LineMeans c s line none (s.afterReading e.name)
  | ok {e d} : line.head? ≠ some 0x23 → Parses c.le c.allowed (line.takeWhile (· ≠ 0)) e →
      lookup c s e.name = .content d → e.digest = hashOf e.alg d →
      LineMeans c s line (some (.ok e.name)) (s.afterReading e.name)
  | mismatch {e d} : line.head? ≠ some 0x23 → Parses c.le c.allowed (line.takeWhile (· ≠ 0)) e →
      lookup c s e.name = .content d → e.digest ≠ hashOf e.alg d →
      LineMeans c s line (some (.mismatch e.name)) (s.afterReading e.name)

/-- How a verification ends. -/
inductive Ending where
  /-- at the end of the checksum file -/
  | complete
  /-- it was given up: a line is too long, there are too many lines, or there is not enough memory -/
  | quit
  /-- a listed file cannot be read -/
  | readError
deriving DecidableEq, Repr

/-- `Checks c n s os e s'`: after `n` lines, verifying what is left in `s` has the outcomes `os` and ends with `e`,
leaving `s'`. -/
inductive Checks (c : Setting) : Nat → Source → List Outcome → Ending → Source → Prop where
  | tooMany {n s} : n = c.maxLines → Checks c n s [] .quit s
  | complete {n s} : n < c.maxLines → s.rest = [] → Checks c n s [] .complete s
  | tooLong {n s s'} : n < c.maxLines → TooLong s.rest → Checks c n s [] .quit s'
  | lowMemory {n s s'} : n < c.maxLines → c.lowMemory → s.rest ≠ [] → Checks c n s [] .quit s'
  | readError {n s s'} : n < c.maxLines → s.rest ≠ [] → ¬ TooLong s.rest →
      LineMeans c (s.put (otherLines s.rest)) (firstLine s.rest) none s' → Checks c n s [] .readError s'
  | line {n s s' s'' o os e} : n < c.maxLines → s.rest ≠ [] → ¬ TooLong s.rest →
      LineMeans c (s.put (otherLines s.rest)) (firstLine s.rest) (some o) s' → Checks c (n + 1) s' os e s'' →
      Checks c n s (o :: os) e s''

/-- A line that names a file. -/
def Outcome.entry : Outcome → Bool
  | .ok _ => true
  | .mismatch _ => true
  | .missing _ => true
  | _ => false

@[inherit_doc Outcome] def Outcome.isOk : Outcome → Bool | .ok _ => true | _ => false
@[inherit_doc Outcome] def Outcome.isMismatch : Outcome → Bool | .mismatch _ => true | _ => false
@[inherit_doc Outcome] def Outcome.isMissing : Outcome → Bool | .missing _ => true | _ => false
@[inherit_doc Outcome] def Outcome.isMalformed : Outcome → Bool | .malformed => true | _ => false

/-- The verification is a success. -/
def Success (strict ignoreMissing : Bool) (os : List Outcome) (e : Ending) : Prop :=
  e = .complete ∧ (∃ o ∈ os, o.entry = true) ∧ (∀ o ∈ os, o.isMismatch = false) ∧
  (ignoreMissing = false → ∀ o ∈ os, o.isMissing = false) ∧
  (ignoreMissing = true → ∃ o ∈ os, o.isOk = true) ∧
  (strict = true → ∀ o ∈ os, o.isMalformed = false)

end XXH.Spec.Cli
