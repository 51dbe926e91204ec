import Verif.Model.Mem
/-!
Model of the text handling of cli/xxhsum.c: printing of checksum lines, (un)escaping of file names, parsing of
checksum lines, numeric options.

Text that is only read by the code is its list of bytes without the terminating NUL. Text that is modified in place
(the line buffer) is a memory object: the list of all bytes of the object, including NUL and whatever follows;
pointers into it are offsets. `none` is undefined behaviour (an access outside the object, a missing NUL).
-/
namespace XXH.Model.Cli

/-- A memory object holding characters. -/
abbrev CMem := List Byte

/-- Read one character. -/
def rd (m : CMem) (i : Nat) : Option Byte := m[i]?

/-- Write one character. -/
def wr (m : CMem) (i : Nat) (x : Byte) : Option CMem := if i < m.length then some (m.set i x) else none

/-- The C string at the start of some memory; undefined if there is no NUL. -/
def cstr : List Byte → Option (List Byte)
  | [] => none
  | c :: t => if c = 0 then some [] else (cstr t).map (c :: ·)

/-- `strlen` (C11 7.24.6.3) -/
def strlen (m : CMem) (p : Nat) : Option Nat := (cstr (m.drop p)).map List.length

/-- Position of the first `c`. -/
def firstIdx (c : Byte) : List Byte → Option Nat
  | [] => none
  | x :: t => if x = c then some 0 else (firstIdx c t).map (· + 1)

/-- Position of the last `c`. -/
def lastIdx (c : Byte) : List Byte → Option Nat
  | [] => none
  | x :: t => match lastIdx c t with
    | some i => some (i + 1)
    | none => if x = c then some 0 else none

/-- `strchr` (C11 7.24.5.2) for a character other than NUL; the inner `none` is `NULL`. -/
def strchr (m : CMem) (p : Nat) (c : Byte) : Option (Option Nat) := do
  let s ← cstr (m.drop p)
  return (firstIdx c s).map (p + ·)

/-- `strrchr` (C11 7.24.5.5) for a character other than NUL. -/
def strrchr (m : CMem) (p : Nat) (c : Byte) : Option (Option Nat) := do
  let s ← cstr (m.drop p)
  return (lastIdx c s).map (p + ·)

/-- `pat` occurs in `s`. -/
def occurs (pat : List Byte) : List Byte → Bool
  | [] => pat.isPrefixOf []
  | x :: t => pat.isPrefixOf (x :: t) || occurs pat t

/-- `strstr(p, pat) != NULL` (C11 7.24.5.7) -/
def strstr (m : CMem) (p : Nat) (pat : List Byte) : Option Bool := do
  let s ← cstr (m.drop p)
  return occurs pat s

/-- `!memcmp(p, pat, n)` with `n` the length of `pat` (C11 7.24.4.1): all `n` bytes must be readable. -/
def memeq (m : CMem) (p : Nat) (pat : List Byte) : Option Bool :=
  if p + pat.length ≤ m.length then some ((m.drop p).take pat.length == pat) else none

/-! ### Characters -/

/-- `' '` -/ def cSPACE : Byte := 0x20
/-- `'\t'` -/ def cTAB : Byte := 0x09
/-- `'\n'` -/ def cNL : Byte := 0x0a
/-- `'\r'` -/ def cCR : Byte := 0x0d
/-- `'\\'` -/ def cBSL : Byte := 0x5c
/-- `'('` -/ def cLPAR : Byte := 0x28
/-- `')'` -/ def cRPAR : Byte := 0x29
/-- `'='` -/ def cEQ : Byte := 0x3d
/-- `'#'` -/ def cHASH : Byte := 0x23
/-- `'n'` -/ def cN : Byte := 0x6e
/-- `'r'` -/ def cR : Byte := 0x72

/-! ### Algorithms, cli/xxhsum.c:80-92, 204-212, 313-315 -/

/-- `AlgoSelected`, cli/xxhsum.c:80 -/
inductive Algo | xxh32 | xxh64 | xxh128 | xxh3
deriving DecidableEq, Repr

/-- The value of the enumeration constant, cli/xxhsum.c:80. -/
def Algo.val : Algo → Nat
  | .xxh32 => 0 | .xxh64 => 1 | .xxh128 => 2 | .xxh3 => 3

/-- `algo_bitmask_all`, cli/xxhsum.c:88-91 -/
def bitmask_all : BitVec 32 := 0xf

/-- `XSUM_algoBitmask_ComputeAlgoBitmaskFromAlgoSelected`, cli/xxhsum.c:204-206 -/
def algoBitmask (a : Algo) : BitVec 32 := 1#32 <<< a.val

/-- `XSUM_algoBitmask_Accepts`, cli/xxhsum.c:209-212 -/
def accepts (mask : BitVec 32) (a : Algo) : Bool := (mask &&& algoBitmask a) != 0

/-- `XSUM_algoName`, cli/xxhsum.c:313: "XXH32", "XXH64", "XXH128", "XXH3". -/
def algoName : Algo → List Byte
  | .xxh32 => [0x58, 0x58, 0x48, 0x33, 0x32]
  | .xxh64 => [0x58, 0x58, 0x48, 0x36, 0x34]
  | .xxh128 => [0x58, 0x58, 0x48, 0x31, 0x32, 0x38]
  | .xxh3 => [0x58, 0x58, 0x48, 0x33]

/-- `"_LE"` -/
def sLE : List Byte := [0x5f, 0x4c, 0x45]

/-- `XSUM_algoLE_name`, cli/xxhsum.c:314: the names followed by "_LE". -/
def algoLE_name : Algo → List Byte
  | .xxh32 => [0x58, 0x58, 0x48, 0x33, 0x32, 0x5f, 0x4c, 0x45]
  | .xxh64 => [0x58, 0x58, 0x48, 0x36, 0x34, 0x5f, 0x4c, 0x45]
  | .xxh128 => [0x58, 0x58, 0x48, 0x31, 0x32, 0x38, 0x5f, 0x4c, 0x45]
  | .xxh3 => [0x58, 0x58, 0x48, 0x33, 0x5f, 0x4c, 0x45]

/-- `XSUM_algoLength`, cli/xxhsum.c:315 -/
def algoLength : Algo → Nat
  | .xxh32 => 4 | .xxh64 => 8 | .xxh128 => 16 | .xxh3 => 8

/-- `"XXH3_"`, cli/xxhsum.c:354, 752 -/
def sXXH3_ : List Byte := [0x58, 0x58, 0x48, 0x33, 0x5f]

/-! ### Escaping, cli/xxhsum.c:108-197 -/

/-- `XSUM_filenameNeedsEscape`, cli/xxhsum.c:108-112 -/
def filenameNeedsEscape (filename : List Byte) : Bool :=
  (firstIdx cBSL filename).isSome || (firstIdx cNL filename).isSome || (firstIdx cCR filename).isSome

/-- `XSUM_lineNeedsUnescape`, cli/xxhsum.c:114-121, on the characters from `line` on: skips blanks. -/
def lineNeedsUnescape : List Byte → Option Bool
  | [] => none
  | c :: t => if c = cSPACE ∨ c = cTAB then lineNeedsUnescape t else some (c == cBSL)

/-- What `XSUM_printFilename` prints for one character, cli/xxhsum.c:129-143. -/
def escapeChar (c : Byte) : List Byte :=
  if c = cNL then [cBSL, cN]
  else if c = cCR then [cBSL, cR]
  else if c = cBSL then [cBSL, cBSL]
  else [c]

/-- `XSUM_printFilename`, cli/xxhsum.c:123-146: the bytes written to standard output. -/
def printFilename (filename : List Byte) (needsEscape : Bool) : List Byte :=
  if !needsEscape then filename else filename.flatMap escapeChar

/-- The loop of `XSUM_filenameUnescape`, cli/xxhsum.c:163-192. `fuel` bounds the number of iterations. The result
`some none` is `return NULL`; otherwise the new memory and the final `p`. -/
def unescapeLoop (filename filenameLen : Nat) : Nat → CMem → Nat → Nat → Option (Option (CMem × Nat))
  | fuel, m, i, p =>
    if i < filenameLen then
      match fuel with
      | 0 => none
      | fuel + 1 => do
        let c ← rd m (filename + i)
        if c = cBSL then
          let i := i + 1
          if i = filenameLen then return none
          let d ← rd m (filename + i)
          if d = cN then
            let m ← wr m p cNL
            unescapeLoop filename filenameLen fuel m (i + 1) (p + 1)
          else if d = cR then
            let m ← wr m p cCR
            unescapeLoop filename filenameLen fuel m (i + 1) (p + 1)
          else if d = cBSL then
            let m ← wr m p cBSL
            unescapeLoop filename filenameLen fuel m (i + 1) (p + 1)
          else return none
        else if c = 0 then return none
        else
          let m ← wr m p c
          unescapeLoop filename filenameLen fuel m (i + 1) (p + 1)
    else some (some (m, p))

/-- `XSUM_filenameUnescape`, cli/xxhsum.c:160-197; `filename` is an offset into `m`. The inner `none` is `NULL`. -/
def filenameUnescape (m : CMem) (filename filenameLen : Nat) : Option (Option CMem) := do
  match ← unescapeLoop filename filenameLen filenameLen m 0 filename with
  | none => return none
  | some (m, p) =>
    if p < filename + filenameLen then
      let m ← wr m p 0
      return some m
    else return some m

/-! ### Printing, cli/xxhsum.c:223-237, 321-396 -/

/-- One digit of `"%02x"`. -/
def hexDigit (n : Nat) : Byte := BitVec.ofNat 8 (if n < 10 then 0x30 + n else 0x61 + (n - 10))

/-- `"%02x"` -/
def hex02 (b : Byte) : List Byte := [hexDigit (b.toNat / 16), hexDigit (b.toNat % 16)]

/-- `XSUM_display_BigEndian` and `XSUM_display_LittleEndian`, cli/xxhsum.c:223-237, of `length` bytes at `ptr`. -/
def displayHash (littleEndian : Bool) (ptr : List Byte) (length : Nat) : Option (List Byte) :=
  if length ≤ ptr.length then
    let p := ptr.take length
    some ((if littleEndian then p.reverse else p).flatMap hex02)
  else none

/-- `XSUM_printLine_BSD_internal`, cli/xxhsum.c:321-338, with the two choices of its callers (340-348). -/
def printLine_BSD (littleEndian : Bool) (filename : List Byte) (canonicalHash : List Byte) (hashType : Algo) :
    Option (List Byte) := do
  let typeString := if littleEndian then algoLE_name hashType else algoName hashType
  let needsEscape := filenameNeedsEscape filename
  let hash ← displayHash littleEndian canonicalHash (algoLength hashType)
  return (if needsEscape then [cBSL] else []) ++ (typeString ++ [cSPACE, cLPAR]) ++
    printFilename filename needsEscape ++ [cRPAR, cSPACE, cEQ, cSPACE] ++ hash ++ [cNL]

/-- `XSUM_displayPrefix`, cli/xxhsum.c:350-356 -/
def displayPrefix (hashType : Algo) : List Byte := if hashType = .xxh3 then sXXH3_ else []

/-- `XSUM_printLine_GNU_internal`, cli/xxhsum.c:358-373, with the two choices of its callers (375-385). -/
def printLine_GNU (littleEndian : Bool) (filename : List Byte) (canonicalHash : List Byte) (hashType : Algo) :
    Option (List Byte) := do
  let needsEscape := filenameNeedsEscape filename
  let hash ← displayHash littleEndian canonicalHash (algoLength hashType)
  return (if needsEscape then [cBSL] else []) ++ displayPrefix hashType ++ hash ++ [cSPACE, cSPACE] ++
    printFilename filename needsEscape ++ [cNL]

/-- `XSUM_kDisplayLine_fTable[convention][displayEndianness]`, cli/xxhsum.c:393-396. -/
def displayLine (bsd littleEndian : Bool) : List Byte → List Byte → Algo → Option (List Byte) :=
  if bsd then printLine_BSD littleEndian else printLine_GNU littleEndian

/-! ### Parsing, cli/xxhsum.c:628-798 -/

/-- `charToHex`, cli/xxhsum.c:628-639. Whether `char` is signed does not matter: bytes from 0x80 on are outside all
three ranges either way. -/
def charToHex (c : Byte) : Int :=
  if 0x30 ≤ c.toNat ∧ c.toNat ≤ 0x39 then (c.toNat : Int) - 0x30
  else if 0x41 ≤ c.toNat ∧ c.toNat ≤ 0x46 then (c.toNat : Int) - 0x41 + 0x0a
  else if 0x61 ≤ c.toNat ∧ c.toNat ≤ 0x66 then (c.toNat : Int) - 0x61 + 0x0a
  else -1

/-- The loop of `XSUM_canonicalFromString`, cli/xxhsum.c:655-666, from index `i` on; `some none` is
`CanonicalFromString_invalidFormat`, otherwise the bytes `dst[i..dstSize)`. -/
def canonicalLoop (m : CMem) (hashStr dstSize : Nat) (reverseBytes : Bool) : Nat → Nat → Option (Option (List Byte))
  | 0, _ => some (some [])
  | n + 1, i => do
    let j := if reverseBytes then dstSize - i - 1 else i
    let h0 := charToHex (← rd m (hashStr + (j * 2 + 0)))
    if h0 < 0 then return none
    let h1 := charToHex (← rd m (hashStr + (j * 2 + 1)))
    if h1 < 0 then return none
    match ← canonicalLoop m hashStr dstSize reverseBytes n (i + 1) with
    | none => return none
    | some rest => return some (BitVec.ofNat 8 ((h0.toNat <<< 4) ||| h1.toNat) :: rest)

/-- `XSUM_canonicalFromString`, cli/xxhsum.c:649-668. -/
def canonicalFromString (m : CMem) (dstSize hashStr : Nat) (reverseBytes : Bool) : Option (Option (List Byte)) :=
  canonicalLoop m hashStr dstSize reverseBytes dstSize 0

/-- `ParsedLine`, cli/xxhsum.c:527-531; of the union `canonical` only the bytes that were written;
`filename` is an offset into the line buffer. -/
structure ParsedLine where
  canonical : List Byte
  filename : Nat
  algo : Algo
deriving DecidableEq, Repr

/-- The algorithm named by the tag of a BSD-style line (NUL-terminated at `line`), cli/xxhsum.c:697, 709-712. -/
def bsdAlgo (m : CMem) (line : Nat) : Option Algo := do
  let algo := Algo.xxh64
  let algo := if ← memeq m line [0x58, 0x58, 0x48, 0x33] then Algo.xxh3 else algo
  let algo := if ← memeq m line [0x58, 0x58, 0x48, 0x33, 0x32] then Algo.xxh32 else algo
  let algo := if ← memeq m line [0x58, 0x58, 0x48, 0x36, 0x34] then Algo.xxh64 else algo
  let algo := if ← memeq m line [0x58, 0x58, 0x48, 0x31, 0x32, 0x38] then Algo.xxh128 else algo
  return algo

/-- The algorithm implied by the length of the hash in a GNU-style line, cli/xxhsum.c:697, 716-719. -/
def gnuAlgo (hash_len : Nat) : Algo :=
  let algo := Algo.xxh64
  let algo := if hash_len = 8 then Algo.xxh32 else algo
  let algo := if hash_len = 16 then Algo.xxh64 else algo
  let algo := if hash_len = 21 then Algo.xxh3 else algo
  let algo := if hash_len = 32 then Algo.xxh128 else algo
  algo

/-- The `switch (hash_len)`, cli/xxhsum.c:727-774. -/
def parseHash (m : CMem) (algo : Algo) (hash_ptr hash_len : Nat) (rev : Bool) : Option (Option (List Byte)) := do
  if hash_len = 8 then
    if algo ≠ .xxh32 then return none
    canonicalFromString m 4 hash_ptr rev
  else if hash_len = 16 then
    if algo ≠ .xxh64 ∧ algo ≠ .xxh3 then return none
    canonicalFromString m 8 hash_ptr rev
  else if hash_len = 21 then
    if algo ≠ .xxh3 then return none
    if !(← memeq m hash_ptr sXXH3_) then return none
    canonicalFromString m 8 (hash_ptr + 5) rev
  else if hash_len = 32 then
    if algo ≠ .xxh128 then return none
    canonicalFromString m 16 hash_ptr rev
  else return none

/-- The first part of `XSUM_parseLine1`, cli/xxhsum.c:692-720: splits the line. The result is the modified memory,
the algorithm, `hash_ptr`, `hash_len`, `rev` and `firstSpace`. `some none` is `ParseLine_invalidFormat`. -/
def splitLine (m : CMem) (line : Nat) (rev : Bool) : Option (Option (CMem × Algo × Nat × Nat × Bool × Nat)) := do
  match ← strchr m line cSPACE with
  | none => return none
  | some firstSpace =>
    let c ← rd m (firstSpace + 1)
    if c = 0 then return none
    if c = cLPAR then
      let lastSpace ← (← strrchr m line cSPACE)
      if lastSpace < firstSpace + 5 then return none
      if (← rd m (lastSpace - 1)) ≠ cEQ then return none
      if (← rd m (lastSpace - 2)) ≠ cSPACE then return none
      if (← rd m (lastSpace - 3)) ≠ cRPAR then return none
      let m ← wr m (lastSpace - 3) 0
      let m ← wr m firstSpace 0
      let rev ← strstr m line sLE
      let hash_ptr := lastSpace + 1
      let hash_len ← strlen m hash_ptr
      let algo ← bsdAlgo m line
      return some (m, algo, hash_ptr, hash_len, rev, firstSpace)
    else
      let hash_len := firstSpace - line
      return some (m, gnuAlgo hash_len, line, hash_len, rev, firstSpace)

/-- `XSUM_parseLine1`, cli/xxhsum.c:690-790. `some none` is `ParseLine_invalidFormat` (the modified line is not used
any more then), otherwise the parsed line and the modified memory. -/
def parseLine1 (m : CMem) (line : Nat) (rev needsUnescape : Bool) (mask : BitVec 32) :
    Option (Option (ParsedLine × CMem)) := do
  match ← splitLine m line rev with
  | none => return none
  | some (m, algo, hash_ptr, hash_len, rev, firstSpace) =>
    if !accepts mask algo then return none
    match ← parseHash m algo hash_ptr hash_len rev with
    | none => return none
    | some canonical =>
      let filename := firstSpace + 2
      let filenameLen ← strlen m filename
      if needsUnescape then
        match ← filenameUnescape m filename filenameLen with
        | none => return none
        | some m => return some (⟨canonical, filename, algo⟩, m)
      else return some (⟨canonical, filename, algo⟩, m)

/-- `XSUM_parseLine`, cli/xxhsum.c:792-798, with the line at the start of the object. -/
def parseLine (m : CMem) (rev : Bool) (mask : BitVec 32) : Option (Option (ParsedLine × CMem)) := do
  let needsUnescape ← lineNeedsUnescape m
  parseLine1 m (if needsUnescape then 1 else 0) rev needsUnescape mask

/-! ### Numeric options, cli/xxhsum.c:1169-1209 -/

/-- The digit loop of `XSUM_readU32FromCharChecked`, cli/xxhsum.c:1173-1178, on the characters up to the NUL;
`none` is the overflow error, otherwise the value and the remaining characters. -/
def readDigits (result : BitVec 32) : List Byte → Option (BitVec 32 × List Byte)
  | [] => some (result, [])
  | c :: t =>
    if 0x30 ≤ c.toNat ∧ c.toNat ≤ 0x39 then
      if result > (0xffffffff#32 / 10#32) - 1 then none
      else readDigits (result * 10 + BitVec.ofNat 32 (c.toNat - 0x30)) t
    else some (result, c :: t)

/-- Skip one character if it is `c`. -/
def skip (c : Byte) (s : List Byte) : List Byte := if s.head? = some c then s.tail else s

/-- `XSUM_readU32FromCharChecked`, cli/xxhsum.c:1169-1193; `none` is the return value 1. -/
def readU32FromCharChecked (s : List Byte) : Option (BitVec 32 × List Byte) := do
  let (result, s) ← readDigits 0 s
  if s.head? = some 0x4b ∨ s.head? = some 0x4d then
    let maxK := 0xffffffff#32 >>> 10
    if result > maxK then none
    let result := result <<< 10
    let result ← if s.head? = some 0x4d then (if result > maxK then none else some (result <<< 10)) else some result
    let s := s.tail
    let s := skip 0x69 s
    let s := skip 0x42 s
    return (result, s)
  else return (result, s)

end XXH.Model.Cli
