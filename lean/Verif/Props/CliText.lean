import Verif.Proof.CliText
import Verif.Proof.CliNum
/-!
The text formats of xxhsum: C31 (printed lines read back), C32 (escaping of file names), C34 (numbers on the command
line), C38 (the lines `--check` accepts).

Strings are byte lists without NUL. In memory a string is followed by a NUL and by arbitrary further bytes of the
object it lives in; the model functions yield `none` on any access outside that object.
-/
namespace XXH.Props
open Model.Cli CliP

/-! ### C31 -/

/-- **C31.** Every printed line (`bsd`: `--tag`; `le`: `--little-endian`) is one line, is no comment, and reading it back
yields the same algorithm, digest and file name. In the GNU convention the reader must be told the byte order, in the
BSD convention it is told by the line itself. -/
theorem C31_roundtrip {filename canonical : List Byte} (h0 : (0 : Byte) ∉ filename) {a : Algo}
    (hl : canonical.length = algoLength a) (bsd le : Bool) :
    ∃ L, displayLine bsd le filename canonical a = some (L ++ [0x0a]) ∧
      (0x0a : Byte) ∉ L ∧ (0x0d : Byte) ∉ L ∧ (0 : Byte) ∉ L ∧ L.head? ≠ some 0x23 ∧
      ∀ (rest : List Byte) (rev : Bool) (mask : BitVec 32), (bsd = true ∨ rev = le) → accepts mask a = true →
        ∃ p m', parseLine (L ++ 0 :: rest) rev mask = some (some (p, m')) ∧
          p.algo = a ∧ p.canonical = canonical ∧ cstr (m'.drop p.filename) = some filename := by
  obtain ⟨L, e, h1, h2, h3, _, h4, _⟩ := print_parses (bsd := bsd) (le := le) (rev := le) (mask := algoBitmask a) h0 hl
    (fun _ => rfl) (by cases a <;> decide)
  refine ⟨L, e, h1, h2, h3, h4, fun rest rev mask hr hm => ?_⟩
  obtain ⟨L', e', _, _, _, _, _, hp⟩ := print_parses (bsd := bsd) (le := le) (rev := rev) (mask := mask) h0 hl
    (fun h => by rcases hr with hr | hr <;> simp_all) hm
  have : L = L' := by rw [e, Option.some.injEq] at e'; exact List.append_cancel_right e'
  subst this
  obtain ⟨r, er, hg, _⟩ := parseLine_eq (rest := rest) h3 rev mask
  obtain ⟨p, m', rfl, ha, hd, hn, _⟩ := hg _ hp
  exact ⟨p, m', er, algOf_inj ha, hd, hn⟩

/-- **C31**, the exact text of the printed lines. -/
theorem C31_format (bsd le : Bool) (name : List Byte) {canonical : List Byte} {a : Algo}
    (hl : canonical.length = algoLength a) :
    displayLine bsd le name canonical a = some (Spec.Cli.recordLine bsd le ⟨algOf a, canonical, name⟩) :=
  displayLine_eq bsd le name hl

/-- The digest lengths are those of the four algorithms, so the hypothesis of `C31_roundtrip` is met by every digest. -/
theorem C31_lengths : algoLength .xxh32 = 4 ∧ algoLength .xxh64 = 8 ∧ algoLength .xxh128 = 16 ∧ algoLength .xxh3 = 8 :=
  ⟨rfl, rfl, rfl, rfl⟩

/-- A name with a line break, printed in the GNU convention with XXH32, and what is read back. -/
example : displayLine false false (Spec.Cli.txt "a\nb") [0x12, 0xab, 0, 0xff] .xxh32 =
    some (Spec.Cli.txt "\\12ab00ff  a\\nb\n") := by decide +kernel

example : displayLine true true (Spec.Cli.txt "f (x)") [0x12, 0xab, 0, 0xff] .xxh32 =
    some (Spec.Cli.txt "XXH32_LE (f (x)) = ff00ab12\n") := by decide +kernel

example : (parseLine (Spec.Cli.txt "\\12ab00ff  a\\nb" ++ [0, 7, 7]) false bitmask_all).map
      (·.map fun r => (r.1.algo, r.1.canonical, cstr (r.2.drop r.1.filename))) =
    some (some (.xxh32, [0x12, 0xab, 0, 0xff], some (Spec.Cli.txt "a\nb"))) := by decide +kernel

/-! ### C32 -/

/-- **C32**, escaping is invertible and the escaped name stays on one line. -/
theorem C32_escape (s : List Byte) (h0 : (0 : Byte) ∉ s) :
    Spec.Cli.unescape (printFilename s true) = some s ∧
    (0x0a : Byte) ∉ printFilename s true ∧ (0x0d : Byte) ∉ printFilename s true ∧ (0 : Byte) ∉ printFilename s true := by
  obtain ⟨h1, h2, h3⟩ := escape_clean h0
  exact ⟨unescape_escape s, h1, h2, h3⟩

/-- **C32**, names printed without escaping contain nothing that needs it. -/
theorem C32_plain (s : List Byte) : filenameNeedsEscape s = false ↔
    (0x5c : Byte) ∉ s ∧ (0x0a : Byte) ∉ s ∧ (0x0d : Byte) ∉ s := by
  refine ⟨needsEscape_false, fun ⟨h1, h2, h3⟩ => ?_⟩
  simp only [filenameNeedsEscape, Bool.or_eq_false_iff, Option.isSome_eq_false_iff, Option.isNone_iff_eq_none, firstIdx_none]
  exact ⟨⟨h1, h2⟩, h3⟩

/-- **C32**, the unescaper in memory: for a name `n` (followed by NUL and any bytes, preceded by any bytes) it fails
exactly on the texts that are no escaped name, and otherwise leaves the unescaped name, NUL terminated, in the place of
the escaped one, touching nothing before it and nothing from the old NUL on. -/
theorem C32_unescape (pre n rest : List Byte) (h0 : (0 : Byte) ∉ n) :
    (Spec.Cli.unescape n = none ∧ filenameUnescape (pre ++ (n ++ 0 :: rest)) pre.length n.length = some none) ∨
    ∃ v tail, Spec.Cli.unescape n = some v ∧ v.length ≤ n.length ∧ (0 : Byte) ∉ v ∧
      filenameUnescape (pre ++ (n ++ 0 :: rest)) pre.length n.length = some (some (pre ++ (v ++ 0 :: tail))) ∧
      (pre ++ (v ++ 0 :: tail)).length = (pre ++ (n ++ 0 :: rest)).length ∧ 0 :: rest <:+ 0 :: tail := by
  have h := filenameUnescape_eq (pre := pre) (rest := rest) h0
  cases hu : Spec.Cli.unescape n with
  | none => rw [hu] at h; exact .inl ⟨rfl, h⟩
  | some v =>
    rw [hu] at h
    obtain ⟨tail, h1, h2, h3⟩ := h
    have := h3.length_le
    simp only [List.length_cons] at this
    refine .inr ⟨v, tail, rfl, by omega, unescape_no0 n v h0 hu, h1, ?_, h3⟩
    simp; omega

/-- **C32**, on text without line breaks exactly the escaped names are accepted. (A raw carriage return, which the
printer never emits, is passed through unchanged.) -/
theorem C32_accepts_exactly (n v : List Byte) (h1 : (0x0a : Byte) ∉ n) (h2 : (0x0d : Byte) ∉ n) :
    Spec.Cli.unescape n = some v ↔ n = printFilename v true := by
  refine ⟨fun h => (escape_unescape n v h1 h2 h).symm, ?_⟩
  rintro rfl
  exact unescape_escape v

example : Spec.Cli.unescape (Spec.Cli.txt "a\\x") = none ∧ Spec.Cli.unescape (Spec.Cli.txt "a\\") = none := by
  decide +kernel

/-! ### C34 -/

/-- **C34.** Every argument starts with a number (possibly without digits, then worth 0); reading it reports overflow
exactly when its value exceeds 4294967289, and otherwise yields that exact value and stops exactly behind the number. -/
theorem C34_exact (s : List Byte) :
    (∃ digits n rest, Spec.Cli.NumberAt s digits n rest) ∧
    ∀ digits n rest, Spec.Cli.NumberAt s digits n rest →
      (readU32FromCharChecked s = none ↔ 4294967290 ≤ Spec.Cli.decimal digits * n) ∧
      ∀ v r, readU32FromCharChecked s = some (v, r) → v.toNat = Spec.Cli.decimal digits * n ∧ r = rest := by
  refine ⟨numberAt_exists s, fun digits n rest h => ?_⟩
  rw [readU32_eq h]
  split
  · rename_i hlt
    refine ⟨by simp; omega, fun v r he => ?_⟩
    simp only [Option.some.injEq, Prod.mk.injEq] at he
    obtain ⟨rfl, rfl⟩ := he
    exact ⟨by rw [BitVec.toNat_ofNat, Nat.mod_eq_of_lt (by omega)], rfl⟩
  · rename_i hge
    exact ⟨by simp; omega, fun v r he => by cases he⟩

/-- **C34**, a finding: the six largest 32-bit numbers are rejected as too large although they fit. -/
theorem C34_largest_rejected : readU32FromCharChecked (Spec.Cli.txt "4294967289") = some (4294967289#32, []) ∧
    ∀ k : Fin 6, readU32FromCharChecked (Spec.Cli.txt (toString (4294967290 + k.val))) = none := by decide +kernel

example : readU32FromCharChecked (Spec.Cli.txt "12MiB,3") = some (12582912#32, Spec.Cli.txt ",3") := by decide +kernel

example : Spec.Cli.NumberAt (Spec.Cli.txt "4096M") (Spec.Cli.txt "4096") (2 ^ 20) [] ∧
    readU32FromCharChecked (Spec.Cli.txt "4096M") = none := by
  refine ⟨?_, by decide +kernel⟩
  exact Spec.Cli.NumberAt.unit (digits := Spec.Cli.txt "4096") (u := Spec.Cli.txt "M") (i := []) (b := []) (rest := [])
    (by decide) (.inr ⟨rfl, rfl⟩) (.inr ⟨rfl, by decide⟩) (.inr ⟨rfl, by decide⟩)

/-! ### C38 -/

/-- The algorithms a command accepts. -/
def Allowed (mask : BitVec 32) (x : Spec.Cli.Alg) : Prop := ∃ al, algOf al = x ∧ accepts mask al = true

/-- **C38.** On every line the reader stays inside the line's object, and it accepts the line exactly if the grammar
gives it a meaning; the record it returns is that meaning. -/
theorem C38_grammar (s rest : List Byte) (h0 : (0 : Byte) ∉ s) (rev : Bool) (mask : BitVec 32) :
    (parseLine (s ++ 0 :: rest) rev mask = some none ∧ ∀ e, ¬ Spec.Cli.Parses rev (Allowed mask) s e) ∨
    ∃ p m' e, parseLine (s ++ 0 :: rest) rev mask = some (some (p, m')) ∧ Spec.Cli.Parses rev (Allowed mask) s e ∧
      algOf p.algo = e.alg ∧ p.canonical = e.digest ∧ cstr (m'.drop p.filename) = some e.name ∧
      m'.length = (s ++ 0 :: rest).length := by
  obtain ⟨r, er, hg, hn⟩ := parseLine_eq (rest := rest) h0 rev mask
  cases r with
  | none =>
    refine .inl ⟨er, fun e he => ?_⟩
    obtain ⟨p, m', h, _⟩ := hg e he
    cases h
  | some r =>
    obtain ⟨e, he⟩ := hn (by simp)
    obtain ⟨p, m', h, h1, h2, h3, h4⟩ := hg e he
    cases h
    exact .inr ⟨p, m', e, er, he, h1, h2, h3, h4⟩

/-- **C38**, the grammar is unambiguous: a line has at most one meaning. -/
theorem C38_unambiguous {s : List Byte} (h0 : (0 : Byte) ∉ s) {rev : Bool} {mask : BitVec 32} {e e' : Spec.Cli.Entry}
    (h : Spec.Cli.Parses rev (Allowed mask) s e) (h' : Spec.Cli.Parses rev (Allowed mask) s e') : e = e' := by
  obtain ⟨r, _, hg, _⟩ := parseLine_eq (rest := []) h0 rev mask
  obtain ⟨p, m, hr, h1, h2, h3, _⟩ := hg e h
  obtain ⟨p', m', hr', h1', h2', h3', _⟩ := hg e' h'
  rw [hr] at hr'
  simp only [Option.some.injEq, Prod.mk.injEq] at hr'
  obtain ⟨rfl, rfl⟩ := hr'
  rw [h3] at h3'
  cases e; cases e'
  simp only [Option.some.injEq] at h1 h2 h1' h2' h3'
  simp only [Spec.Cli.Entry.mk.injEq]
  exact ⟨h1.symm.trans h1', h2.symm.trans h2', h3'⟩

/-- **C38**, the masks: `xxhsum` accepts every algorithm, `xxh32sum` etc. only their own. -/
theorem C38_masks (a : Algo) (x : Spec.Cli.Alg) : Allowed bitmask_all x ∧ (Allowed (algoBitmask a) x ↔ x = algOf a) := by
  refine ⟨?_, ?_⟩
  · cases x
    · exact ⟨.xxh32, rfl, rfl⟩
    · exact ⟨.xxh64, rfl, rfl⟩
    · exact ⟨.xxh128, rfl, rfl⟩
    · exact ⟨.xxh3, rfl, rfl⟩
  · have key : ∀ a b : Algo, accepts (algoBitmask a) b = true ↔ a = b := by intro a b; cases a <;> cases b <;> decide
    constructor
    · rintro ⟨al, rfl, h⟩; rw [(key a al).mp h]
    · rintro rfl; exact ⟨a, rfl, (key a a).mpr rfl⟩

/-- A line in the BSD convention with an unknown tag is read as XXH64, and a line with seven digits is rejected. -/
example : (parseLine (Spec.Cli.txt "SHA (f) = 0123456789abcdef" ++ [0]) false bitmask_all).map (·.map (·.1.algo)) =
      some (some .xxh64) ∧
    parseLine (Spec.Cli.txt "0123456  f" ++ [0]) false bitmask_all = some none := by decide +kernel

/-! ### The theorems applied -/

example : ∃ L, displayLine true false (Spec.Cli.txt "a\\b") (List.replicate 16 0xab) .xxh128 = some (L ++ [0x0a]) := by
  obtain ⟨L, h, -⟩ := C31_roundtrip (filename := Spec.Cli.txt "a\\b") (canonical := List.replicate 16 0xab) (by decide +kernel) (a := .xxh128) rfl true false
  exact ⟨L, h⟩

example := C31_format false true (Spec.Cli.txt "f") (canonical := [1, 2, 3, 4]) (a := .xxh32) rfl

example := (C32_escape (Spec.Cli.txt "a\nb\\") (by decide +kernel)).1

example := C32_unescape [1] (Spec.Cli.txt "a\\nb") [9] (by decide +kernel)

example : Spec.Cli.unescape (Spec.Cli.txt "a\\nb") = some (Spec.Cli.txt "a\nb") :=
  (C32_accepts_exactly _ _ (by decide +kernel) (by decide +kernel)).mpr (by decide +kernel)

example (mask : BitVec 32) := C38_grammar (Spec.Cli.txt "0a1b2c3d  f") [] (by decide +kernel) false mask

end XXH.Props
