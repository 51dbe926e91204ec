import Verif.Spec.Unicode
import Verif.Model.CliFile
/-!
Model of the Windows side of cli/xsum_os_specific.c (lines 156-496, `XSUM_WIN32_USE_WCHAR`) and of what it means for
cli/xxhsum.c: file names are converted between UTF-8 and UTF-16, messages for a console are converted to UTF-16 call by
call, other output and the checksum files go through streams in text mode.

The functions of Windows and of its C library are modelled from their documentation:
* `MultiByteToWideChar(CP_UTF8, 0, …)` and `WideCharToMultiByte(CP_UTF8, 0, …)` do the conversion given by an `Codec`;
  what they make of ill-formed text depends on the version of Windows. `replacing` is the documented behaviour since
  Windows Vista: U+FFFD for what is ill-formed.
* A stream in text mode writes `\r\n` for `\n`; it delivers `\n` for `\r\n`, and ends at Ctrl-Z (0x1A).

Simplifications:
* a `va_list` is a pointer (as with all compilers for Windows), so that using `ap` a second time at
  cli/xsum_os_specific.c:283 starts from the first argument again; the formatted text is the argument `text` here,
  without NUL;
* `wmain` is used (lines 431-442); the variant with `__wgetmainargs` (443-492) obtains the same arguments;
* the answers of `malloc` are arguments.
-/
namespace XXH.Model.Windows
open XXH.Model.Cli
open XXH.Spec.Unicode (U16)

/-- What the conversion functions of Windows make of a string (without its NUL). -/
structure Codec where
  /-- `MultiByteToWideChar(CP_UTF8, 0, …)` -/
  widen : List Byte → List U16
  /-- `WideCharToMultiByte(CP_UTF8, 0, …)` -/
  narrow : List U16 → List Byte

/-! ### A conversion that replaces ill-formed parts by U+FFFD -/

/-- A byte in a range, as the six low bits of a continuation byte. -/
def continuation (t : List Byte) (i lo hi : Nat) : Option Nat :=
  match t[i]? with
  | some b => if lo ≤ b.toNat ∧ b.toNat ≤ hi then some (b.toNat % 64) else none
  | none => none

/-- The well-formed sequence at the front (Unicode Table 3-7): the scalar value and the number of bytes after the
first. -/
def next8 (b : Byte) (t : List Byte) : Option (Nat × Nat) :=
  let x := b.toNat
  if x < 0x80 then some (x, 0)
  else if 0xC2 ≤ x ∧ x ≤ 0xDF then do
    let a ← continuation t 0 0x80 0xBF
    return (x % 32 * 64 + a, 1)
  else if 0xE0 ≤ x ∧ x ≤ 0xEF then do
    let a ← continuation t 0 (if x = 0xE0 then 0xA0 else 0x80) (if x = 0xED then 0x9F else 0xBF)
    let b ← continuation t 1 0x80 0xBF
    return (x % 16 * 4096 + a * 64 + b, 2)
  else if 0xF0 ≤ x ∧ x ≤ 0xF4 then do
    let a ← continuation t 0 (if x = 0xF0 then 0x90 else 0x80) (if x = 0xF4 then 0x8F else 0xBF)
    let b ← continuation t 1 0x80 0xBF
    let c ← continuation t 2 0x80 0xBF
    return (x % 8 * 262144 + a * 4096 + b * 64 + c, 3)
  else none

/-- UTF-8 to UTF-16; every byte that does not start a well-formed sequence becomes U+FFFD. `fuel` bounds the number of
characters. -/
def widenLoop : Nat → List Byte → List U16
  | _, [] => []
  | 0, _ => []
  | fuel + 1, b :: t =>
    match next8 b t with
    | some (c, k) => Spec.Unicode.utf16 c ++ widenLoop fuel (t.drop k)
    | none => 0xFFFD :: widenLoop fuel t

/-- UTF-16 to UTF-8; a surrogate without its counterpart becomes U+FFFD. -/
def narrowLoop : List U16 → List Byte
  | [] => []
  | [u] => if 0xD800 ≤ u.toNat ∧ u.toNat < 0xE000 then Spec.Unicode.utf8 0xFFFD else Spec.Unicode.utf8 u.toNat
  | u :: v :: t =>
    if 0xD800 ≤ u.toNat ∧ u.toNat < 0xDC00 ∧ 0xDC00 ≤ v.toNat ∧ v.toNat < 0xE000 then
      Spec.Unicode.utf8 (0x10000 + (u.toNat - 0xD800) * 2 ^ 10 + (v.toNat - 0xDC00)) ++ narrowLoop t
    else if 0xD800 ≤ u.toNat ∧ u.toNat < 0xE000 then Spec.Unicode.utf8 0xFFFD ++ narrowLoop (v :: t)
    else Spec.Unicode.utf8 u.toNat ++ narrowLoop (v :: t)

/-- The conversions of Windows Vista and later. -/
def replacing : Codec where
  widen s := widenLoop s.length s
  narrow := narrowLoop

/-! ### Converting strings, cli/xsum_os_specific.c:162-202 -/

/-- The wide C string at the start of some memory; undefined if there is no NUL. -/
def wcstr : List U16 → Option (List U16)
  | [] => none
  | c :: t => if c = 0 then some [] else (wcstr t).map (c :: ·)

/-- `MultiByteToWideChar(CP_UTF8, 0, str, -1, buf, cch)`: the length needed if `cch` is 0; otherwise the conversion
including the NUL, and 0 if it does not fit. There must be room for `cch` units. The length must fit an `int`. -/
def multiByteToWideChar (api : Codec) (str : CMem) (buf : List U16) (cch : Nat) : Option (Nat × List U16) := do
  let s ← cstr str
  let w := api.widen s ++ [0]
  if buf.length < cch then none
  else if 2 ^ 31 ≤ w.length then return (0, buf)
  else if cch = 0 then return (w.length, buf)
  else if cch < w.length then return (0, buf)
  else return (w.length, w ++ buf.drop w.length)

/-- `WideCharToMultiByte(CP_UTF8, 0, str, -1, buf, cb, NULL, NULL)`, likewise. -/
def wideCharToMultiByte (api : Codec) (str : List U16) (buf : CMem) (cb : Nat) : Option (Nat × CMem) := do
  let s ← wcstr str
  let n := api.narrow s ++ [0]
  if buf.length < cb then none
  else if 2 ^ 31 ≤ n.length then return (0, buf)
  else if cb = 0 then return (n.length, buf)
  else if cb < n.length then return (0, buf)
  else return (n.length, n ++ buf.drop n.length)

/-- Fresh memory for units. -/
def freshW (junk : Nat → U16) (n : Nat) : List U16 := (List.range n).map junk

/-- `XSUM_widenString`, cli/xsum_os_specific.c:166-183: the new string (`none`: `NULL`) and `*lenOut`; `alloc` is the
answer of `malloc`. -/
def widenString (api : Codec) (junk : Nat → U16) (alloc : Bool) (str : CMem) : Option (Option (List U16) × Nat) := do
  let (len, _) ← multiByteToWideChar api str [] 0
  if len = 0 then return (none, len)
  if !alloc then return (none, len)
  let (r, buf) ← multiByteToWideChar api str (freshW junk len) len
  if r = 0 then return (none, len)
  return (some buf, len)

/-- `XSUM_narrowString`, cli/xsum_os_specific.c:185-202. -/
def narrowString (api : Codec) (junk : Nat → Byte) (alloc : Bool) (str : List U16) : Option (Option CMem × Nat) := do
  let (len, _) ← wideCharToMultiByte api str [] 0
  if len = 0 then return (none, len)
  if !alloc then return (none, len)
  let (r, buf) ← wideCharToMultiByte api str (fresh junk len) len
  if r = 0 then return (none, len)
  return (some buf, len)

/-! ### Files, cli/xsum_os_specific.c:206-243, 499-512 -/

/-- What the C library writes for some bytes to a stream in text mode. -/
def textOut (s : List Byte) : List Byte := s.flatMap fun c => if c = cNL then [cCR, cNL] else [c]

/-- What the C library delivers from a stream in text mode. -/
def textIn : List Byte → List Byte
  | [] => []
  | [c] => if c = 0x1A then [] else [c]
  | c :: d :: t =>
    if c = 0x1A then []
    else if c = cCR ∧ d = cNL then cNL :: textIn t
    else c :: textIn (d :: t)

/-- What is stored under which name, and what is a directory. -/
structure Disk where
  files : List U16 → Option Stream
  isDir : List U16 → Bool

/-- `L"rb"` -/ def modeRB : List U16 := [0x72, 0x62]

/-- `_wfopen`: binary mode for `L"rb"`, text mode otherwise. -/
def wfopen (disk : Disk) (name mode : List U16) : Option Stream :=
  (disk.files name).map fun f =>
    if mode = modeRB then f else { f with data := textIn f.data, fail := f.fail && !f.data.contains 0x1A }

/-- `XSUM_fopen`, cli/xsum_os_specific.c:216-229; the inner `none` is `NULL`. -/
def fopen (api : Codec) (junk : Nat → U16) (disk : Disk) (alloc1 alloc2 : Bool) (filename mode : CMem) :
    Option (Option Stream) := do
  let (wide_filename, _) ← widenString api junk alloc1 filename
  match wide_filename with
  | none => return none
  | some wide_filename =>
    let (wide_mode, _) ← widenString api junk alloc2 mode
    match wide_mode with
    | none => return none
    | some wide_mode => return wfopen disk (← wcstr wide_filename) (← wcstr wide_mode)

/-- `XSUM_stat` and `XSUM_isDirectory`, cli/xsum_os_specific.c:231-243, 499-512: whether there is a directory of this
name; the result of `_wstat64` for what is no directory does not matter. -/
def isDirectory (api : Codec) (junk : Nat → U16) (disk : Disk) (alloc : Bool) (filename : CMem) : Option Bool := do
  let (wide_filename, _) ← widenString api junk alloc filename
  match wide_filename with
  | none => return false
  | some wide_filename => return disk.isDir (← wcstr wide_filename)

/-- `"rb"`, cli/xxhsum.c:420, 878 -/ def sRB : List Byte := [0x72, 0x62]
/-- `"rt"`, cli/xxhsum.c:1000 -/ def sRT : List Byte := [0x72, 0x74]

/-- The surroundings of the portable part of the program on Windows, as long as the conversions get their memory: the
checksum file `sums` is opened with `"rt"` (cli/xxhsum.c:1000), everything else with `"rb"` (cli/xxhsum.c:420, 878). An
undefined conversion would be a file that cannot be opened; there is none (`C56_open`). -/
def world (api : Codec) (junk : Nat → U16) (disk : Disk) (stdin : Stream) (mem : List Bool) (sums : Option (List Byte)) :
    World where
  files n := (fopen api junk disk true true (n ++ [0]) ((if sums = some n then sRT else sRB) ++ [0])).getD none
  isDir n := (isDirectory api junk disk true (n ++ [0])).getD false
  stdin := stdin
  mem := mem

/-! ### Printing, cli/xsum_os_specific.c:254-358 -/

/-- Where a stream leads. -/
inductive Target where
  /-- `_get_osfhandle` fails -/
  | invalid
  | console
  /-- anything else; the stream is in text mode -/
  | file
deriving DecidableEq

/-- What arrives. -/
structure Sent where
  console : List U16
  file : List Byte
deriving DecidableEq

/-- `XSUM_vasprintf`, cli/xsum_os_specific.c:254-290: the result and the new string. `_vscprintf` fails for a text that
is too long for an `int`. -/
def vasprintf (junk : Nat → Byte) (alloc : Bool) (text : List Byte) : Option (Int × Option CMem) :=
  if 2 ^ 31 ≤ text.length then return (-1, none)
  else
    let size := text.length
    if !alloc then return (-1, none)
    else
      let buf := fresh junk (size + 1)
      let s := text ++ [0]
      if buf.length < s.length then none else return ((text.length : Int), some (s ++ buf.drop s.length))

/-- `XSUM_vfprintf`, cli/xsum_os_specific.c:292-358: the result and what arrives. `alloc1` and `alloc2` are the answers
of `malloc` in `XSUM_vasprintf` and `XSUM_widenString`, `wrote` tells whether `WriteConsoleW` succeeds. -/
def vfprintf (api : Codec) (junk : Nat → Byte) (junkW : Nat → U16) (alloc1 alloc2 wrote : Bool) (target : Target)
    (text : List Byte) : Option (Int × Sent) := do
  let (result, u8_str) ← vasprintf junk alloc1 text
  if result < 0 then return (result, ⟨[], []⟩)
  let u8_str ← u8_str
  let nchar := result.toNat + 1
  match target with
  | .invalid => return (-1, ⟨[], []⟩)
  | .console =>
    let (u16_buf, len) ← widenString api junkW alloc2 u8_str
    match u16_buf with
    | none => return (-1, ⟨[], []⟩)
    | some u16_buf =>
      if u16_buf.length < len - 1 then none
      else if wrote then return ((len : Int) - 1, ⟨u16_buf.take (len - 1), []⟩)
      else return (-1, ⟨[], []⟩)
  | .file =>
    if u8_str.length < nchar - 1 then none
    else
      let bytes := u8_str.take (nchar - 1)
      return (if bytes.length = 0 then -1 else bytes.length, ⟨[], textOut bytes⟩)

/-- Several calls of `XSUM_output` (cli/xsum_output.c:43-52) with these texts, all successful. -/
def outputs (api : Codec) (junk : Nat → Byte) (junkW : Nat → U16) (target : Target) : List (List Byte) → Option Sent
  | [] => some ⟨[], []⟩
  | t :: ts => do
    let (_, s) ← vfprintf api junk junkW true true true target t
    let r ← outputs api junk junkW target ts
    return ⟨s.console ++ r.console, s.file ++ r.file⟩

/-- The calls of `XSUM_output` in `XSUM_printFilename`, cli/xxhsum.c:123-146. -/
def filenameCalls (filename : List Byte) (needsEscape : Bool) : List (List Byte) :=
  if !needsEscape then [filename] else filename.map escapeChar

/-- The calls in `XSUM_display_BigEndian` and `XSUM_display_LittleEndian`, cli/xxhsum.c:223-237: one for each byte. -/
def hashCalls (littleEndian : Bool) (ptr : List Byte) : List (List Byte) :=
  (if littleEndian then ptr.reverse else ptr).map hex02

/-- The calls for one line, cli/xxhsum.c:321-385. -/
def lineCalls (bsd littleEndian : Bool) (filename : List Byte) (canonicalHash : List Byte) (hashType : Algo) :
    List (List Byte) :=
  let needsEscape := filenameNeedsEscape filename
  (if needsEscape then [[cBSL]] else []) ++
  if bsd then
    [(if littleEndian then algoLE_name hashType else algoName hashType) ++ [cSPACE, cLPAR]] ++
      filenameCalls filename needsEscape ++ [[cRPAR, cSPACE, cEQ, cSPACE]] ++ hashCalls littleEndian canonicalHash ++ [[cNL]]
  else
    (if hashType = .xxh3 then [sXXH3_] else []) ++ hashCalls littleEndian canonicalHash ++ [[cSPACE, cSPACE]] ++
      filenameCalls filename needsEscape ++ [[cNL]]

/-! ### Arguments, cli/xsum_os_specific.c:361-442 -/

/-- The loop of `XSUM_convertArgv`, cli/xsum_os_specific.c:371-381; `allocs` are the answers of `malloc`. The inner
`none` is `NULL`. -/
def convertLoop (api : Codec) (junk : Nat → Byte) : List Bool → List (List U16) → Option (Option (List CMem))
  | _, [] => some (some [])
  | allocs, a :: as => do
    let (s, _) ← narrowString api junk (allocs.headD true) a
    match s with
    | none => return none
    | some s =>
      match ← convertLoop api junk allocs.tail as with
      | none => return none
      | some r => return some (s :: r)

/-- `XSUM_convertArgv`, cli/xsum_os_specific.c:365-385. -/
def convertArgv (api : Codec) (junk : Nat → Byte) (allocs : List Bool) (argv : List (List U16)) :
    Option (Option (List CMem)) :=
  if !allocs.headD true then some none else convertLoop api junk allocs.tail argv

end XXH.Model.Windows
