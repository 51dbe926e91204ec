import Verif.Proof.CliCheck
import Verif.Props.CliText
import Verif.Props.Examples
import Verif.Props.XXH3Stream
/-!
Files in xxhsum: C33 (verdict of `--check`), C35 (hashing a file), C37 (reading lines).

`EnvOk env`: a supported platform with at least 32-bit `size_t`; the contents of uninitialised memory are arbitrary.
`SmallFiles w`: every file of the world is shorter than 2^64 bytes.
-/
namespace XXH.Props
open Model.Cli CliP Examples

/-! ### C37 -/

/-- **C37.** Reading a line into a buffer of the nominal size (at most 32 KB; without buffer one is allocated) stays
inside the buffer, which keeps its nominal size and never exceeds 32 KB. It ends in one of five ways: a refused
allocation; a line that is too long; end of file, exactly if nothing is left; a comment or an ordinary line, told apart
by the first character, in which case the buffer holds exactly the first line and NUL, and exactly this line and its
newline have been consumed. -/
theorem C37_line (junk : Nat → Byte) (buf : Option CMem) (max : Nat) (data : List Byte) (mem : List Bool)
    (hb : ∀ b, buf = some b → b.length = max) (hm : max ≤ 32768) :
    ∃ r buf' max' data' mem', getLine junk buf max data mem = some (r, buf', max', data', mem') ∧
      (∀ b, buf' = some b → b.length = max' ∧ max' ≤ 32768) ∧ data' <:+ data ∧ mem' <:+ mem ∧
      ((r = .outOfMemory ∧ false ∈ mem) ∨
       (r = .exceedMaxLineLength ∧ Spec.Cli.TooLong data) ∨
       (r = .eof ∧ data = [] ∧ data' = []) ∨
       (r = (if (Spec.Cli.firstLine data).head? = some 0x23 then .comment else .ok) ∧ data ≠ [] ∧
          ¬ Spec.Cli.TooLong data ∧ data' = Spec.Cli.otherLines data ∧
          ∃ b, buf' = some b ∧ Spec.Cli.firstLine data ++ [0] <+: b)) := by
  have run : ∀ (b : CMem) (m : Nat) (mem1 : List Bool), b.length = m → 1 ≤ m → m ≤ 32768 → mem1 <:+ mem →
      ∃ r buf' max' data' mem', (do
        let (r, st) ← getLineLoop junk data b m mem1 0
        return (r, some st.buf, st.max, st.data, st.mem)) = some (r, buf', max', data', mem') ∧
      (∀ b, buf' = some b → b.length = max' ∧ max' ≤ 32768) ∧ data' <:+ data ∧ mem' <:+ mem ∧
      ((r = .outOfMemory ∧ false ∈ mem) ∨
       (r = .exceedMaxLineLength ∧ Spec.Cli.TooLong data) ∨
       (r = .eof ∧ data = [] ∧ data' = []) ∨
       (r = (if (Spec.Cli.firstLine data).head? = some 0x23 then .comment else .ok) ∧ data ≠ [] ∧
          ¬ Spec.Cli.TooLong data ∧ data' = Spec.Cli.otherLines data ∧
          ∃ b, buf' = some b ∧ Spec.Cli.firstLine data ++ [0] <+: b)) := by
    intro b m mem1 h1 h2 h3 h4
    obtain ⟨r, st, e, g⟩ := getLineLoop_eq junk data b m mem1 [] h1 h2 h3 List.nil_prefix
    rw [show (0 : Nat) = ([] : List Byte).length from rfl, e]
    refine ⟨r, some st.buf, st.max, st.data, st.mem, rfl, ?_, g.dsuff, g.suff.trans h4, ?_⟩
    · rintro b ⟨⟩; exact ⟨g.len, g.le⟩
    · rcases g.kind with ⟨k1, k2, _⟩ | ⟨k1, k2⟩ | ⟨k1, k2, k3⟩ | ⟨k1, k2, k3, k4, k5⟩
      · exact .inl ⟨k1, h4.subset k2⟩
      · exact .inr (.inl ⟨k1, k2⟩)
      · exact .inr (.inr (.inl ⟨k1, k2, k3⟩))
      · exact .inr (.inr (.inr ⟨k1, k2, k3, k4, _, rfl, k5⟩))
  have alloc : ∃ r buf' max' data' mem', (if mem.headD true then (do
        let (r, st) ← getLineLoop junk data (fresh junk DEFAULT_LINE_LENGTH) DEFAULT_LINE_LENGTH mem.tail 0
        return (r, some st.buf, st.max, st.data, st.mem))
      else some (.outOfMemory, none, 0, data, mem.tail)) = some (r, buf', max', data', mem') ∧
      (∀ b, buf' = some b → b.length = max' ∧ max' ≤ 32768) ∧ data' <:+ data ∧ mem' <:+ mem ∧
      ((r = .outOfMemory ∧ false ∈ mem) ∨
       (r = .exceedMaxLineLength ∧ Spec.Cli.TooLong data) ∨
       (r = .eof ∧ data = [] ∧ data' = []) ∨
       (r = (if (Spec.Cli.firstLine data).head? = some 0x23 then .comment else .ok) ∧ data ≠ [] ∧
          ¬ Spec.Cli.TooLong data ∧ data' = Spec.Cli.otherLines data ∧
          ∃ b, buf' = some b ∧ Spec.Cli.firstLine data ++ [0] <+: b)) := by
    cases hh : mem.headD true with
    | true =>
      rw [if_pos rfl]
      exact run _ _ _ (fresh_length _ _) (by decide) (by decide) (List.tail_suffix _)
    | false =>
      exact ⟨_, _, _, _, _, rfl, by simp, List.suffix_refl _, List.tail_suffix _, .inl ⟨rfl, headD_false hh⟩⟩
  unfold getLine
  cases buf with
  | none => exact alloc
  | some b =>
    simp only
    by_cases h1 : max < 1
    · rw [if_pos h1]; exact alloc
    · rw [if_neg h1]; exact run b max mem (hb b rfl) (by omega) hm (List.suffix_refl _)

/-- **C37**, the lines taken one after the other make up the file: nothing is lost and nothing is read twice. -/
theorem C37_split (data : List Byte) :
    data = Spec.Cli.firstLine data ++ (if 0x0a ∈ data then [0x0a] else []) ++ Spec.Cli.otherLines data ∧
    (0x0a : Byte) ∉ Spec.Cli.firstLine data := by
  induction data with
  | nil => exact ⟨rfl, by simp [Spec.Cli.firstLine]⟩
  | cons c d ih =>
    by_cases hc : c = 0x0a
    · subst hc
      rw [(firstLine_nl d).1, (firstLine_nl d).2, if_pos (by simp)]
      exact ⟨rfl, by simp⟩
    · rw [(firstLine_cons hc).1, (firstLine_cons hc).2]
      have hm : (0x0a : Byte) ∈ c :: d ↔ 0x0a ∈ d := by
        simp only [List.mem_cons]
        exact ⟨fun h => h.elim (fun h => absurd h.symm hc) id, .inr⟩
      simp only [hm]
      refine ⟨?_, ?_⟩
      · rw [List.cons_append, List.cons_append, ← ih.1]
      · intro h
        rcases List.mem_cons.mp h with h | h
        · exact hc h.symm
        · exact ih.2 h

/-- Two lines, the first a comment; a buffer of one byte grows as needed. -/
example : (getLine (fun _ => 7) (some [9]) 1 (Spec.Cli.txt "#a\nbc") []).map (fun r => (r.1, r.2.2.2.1)) =
    some (.comment, Spec.Cli.txt "bc") := by decide +kernel

example : (getLine (fun _ => 7) (some [9]) 1 (Spec.Cli.txt "bc") []).map (fun r => (r.1, r.2.1.map (·.take 3), r.2.2.2.1)) =
    some (.ok, some (Spec.Cli.txt "bc" ++ [0]), []) := by decide +kernel

example : (getLine (fun _ => 7) (some [9]) 1 (Spec.Cli.txt "bc") [false]).map (·.1) = some .outOfMemory := by decide +kernel

/-- The limit is met exactly: 32766 characters and a newline fit. -/
example : ¬ Spec.Cli.TooLong (List.replicate 32766 0x61 ++ [0x0a]) ∧ Spec.Cli.TooLong (List.replicate 32767 0x61 ++ [0x0a]) := by
  have h : ∀ n, Spec.Cli.firstLine (List.replicate n 0x61 ++ [0x0a]) = List.replicate n 0x61 := by
    intro n
    induction n with
    | zero => rfl
    | succ n ih => rw [List.replicate_succ, List.cons_append, (firstLine_cons (by decide)).1, ih]
  unfold Spec.Cli.TooLong
  rw [h, h, List.length_replicate, List.length_replicate]
  exact ⟨by omega, .inl ⟨List.mem_append_right _ (List.mem_singleton.mpr rfl), by omega⟩⟩

/-! ### C35 -/

/-- **C35.** Hashing a file prints the line for the one-shot hash of its contents, however reading is split up
(`f.sizes` is arbitrary). -/
theorem C35_hash {env : Env} (hE : EnvOk env) {w : World} {name : List Byte} {f : Stream}
    (hd : w.isDir name = false) (hf : w.files name = some f) (hr : f.fail = false) (hl : f.data.length < 2 ^ 64)
    (hm : w.mem.headD true = true) (a : Algo) (le bsd : Bool) :
    hashFile env w (some name) a le bsd =
      .ok (0, Spec.Cli.recordLine bsd le ⟨algOf a, Spec.Cli.hashOf (algOf a) f.data, name⟩, { w with mem := w.mem.tail }) := by
  rcases hashStream_eq hE f a hl with ⟨h, _⟩ | ⟨_, h, f', he, _, _, hc, _⟩
  · rw [hr] at h; cases h
  · unfold hashFile
    simp only [hd, hf, Bool.false_eq_true, if_false, Option.map_some, World.alloc, hm, he, ok_bind, hc, of_some_bind,
      displayLine_eq bsd le name (hashOf_length a f.data)]
    rfl

/-- **C35**, standard input is reported under the name `stdin`. -/
theorem C35_stdin {env : Env} (hE : EnvOk env) {w : World} (hr : w.stdin.fail = false) (hl : w.stdin.data.length < 2 ^ 64)
    (hm : w.mem.headD true = true) (a : Algo) (le bsd : Bool) :
    ∃ w', hashFile env w none a le bsd = .ok (0, Spec.Cli.recordLine bsd le
      ⟨algOf a, Spec.Cli.hashOf (algOf a) w.stdin.data, Spec.Cli.txt "stdin"⟩, w') := by
  rcases hashStream_eq hE w.stdin a hl with ⟨h, _⟩ | ⟨_, h, f', he, _, _, hc, _⟩
  · rw [hr] at h; cases h
  · unfold hashFile
    simp only [World.alloc, hm, he, ok_bind, hc, of_some_bind, stdinFileName_eq,
      displayLine_eq bsd le _ (hashOf_length a w.stdin.data)]
    exact ⟨_, rfl⟩

/-- **C35**, failures: nothing is printed for a directory, for a file that cannot be opened, or without memory, and the
result is 1; a read error ends the program with exit code 1. There is no undefined behaviour. -/
theorem C35_failures {env : Env} (hE : EnvOk env) (w : World) (name : List Byte) (a : Algo) (le bsd : Bool) :
    (w.isDir name = true ∨ w.files name = none → hashFile env w (some name) a le bsd = .ok (1, [], w)) ∧
    ∀ f, w.isDir name = false → w.files name = some f →
      (w.mem.headD true = false → hashFile env w (some name) a le bsd = .ok (1, [], { w with mem := w.mem.tail })) ∧
      (w.mem.headD true = true → f.fail = true → f.data.length < 2 ^ 64 →
        hashFile env w (some name) a le bsd = .exit 1) := by
  refine ⟨?_, fun f hd hf => ⟨?_, ?_⟩⟩
  · intro h
    unfold hashFile
    by_cases hd : w.isDir name = true
    · simp only [hd, if_true]; rfl
    · rcases h with h | h
      · exact absurd h hd
      · simp only [hd, h, Option.map_none]; rfl
  · intro hm
    unfold hashFile
    simp only [hd, Bool.false_eq_true, if_false, hf, Option.map_some, World.alloc, hm]
    rfl
  · intro hm hr hl
    rcases hashStream_eq hE f a hl with ⟨_, he⟩ | ⟨h, _⟩
    · unfold hashFile
      simp only [hd, Bool.false_eq_true, if_false, hf, Option.map_some, World.alloc, hm, he]
      rfl
    · rw [hr] at h; cases h

/-- What is printed for a list of files. -/
def listing (w : World) (a : Algo) (le bsd : Bool) (names : List (List Byte)) : List Byte :=
  names.flatMap fun n =>
    match w.isDir n, w.files n with
    | false, some f => Spec.Cli.recordLine bsd le ⟨algOf a, Spec.Cli.hashOf (algOf a) f.data, n⟩
    | _, _ => []

/-- **C35**, several files: they are reported in order, a file that is a directory or cannot be opened is skipped and
makes the result 1 (if there is memory and no read error). -/
theorem C35_files {env : Env} (hE : EnvOk env) {w : World} (hw : SmallFiles w) {names : List (List Byte)} (hn : names ≠ [])
    (hm : false ∉ w.mem) (hr : ∀ n ∈ names, ∀ f, w.files n = some f → f.fail = false) (a : Algo) (le bsd : Bool) :
    ∃ w', hashFiles env w names a le bsd =
      .ok (if ∀ n ∈ names, w.isDir n = false ∧ w.files n ≠ none then 0 else 1, listing w a le bsd names, w') := by
  have key : ∀ (names : List (List Byte)) (w1 : World) (r : Nat) (out : List Byte), w1.files = w.files →
      w1.isDir = w.isDir → false ∉ w1.mem → r ≤ 1 → (∀ n ∈ names, ∀ f, w.files n = some f → f.fail = false) →
      ∃ w', hashFilesLoop env a le bsd names w1 r out =
        .ok (if r = 0 ∧ ∀ n ∈ names, w.isDir n = false ∧ w.files n ≠ none then 0 else 1,
          out ++ listing w a le bsd names, w') := by
    intro names
    induction names with
    | nil =>
      intro w1 r out _ _ _ h1 _
      refine ⟨w1, ?_⟩
      have : r = 0 ∨ r = 1 := by omega
      rcases this with rfl | rfl <;> simp [hashFilesLoop, listing, pure]
    | cons n names ih =>
      intro w1 r out hf hi hm h1 hr
      have hhead : w1.mem.headD true = true := by
        cases hh : w1.mem.headD true with
        | true => rfl
        | false => exact absurd (headD_false hh) hm
      have hor : r ||| 0 = r ∧ r ||| 1 = 1 := by
        have : r = 0 ∨ r = 1 := by omega
        rcases this with rfl | rfl <;> decide
      have hr' : ∀ n ∈ names, ∀ f, w.files n = some f → f.fail = false :=
        fun n hn => hr n (List.mem_cons_of_mem _ hn)
      by_cases hgood : w.isDir n = false ∧ w.files n ≠ none
      · obtain ⟨hd, hfn⟩ := hgood
        obtain ⟨f, hfn⟩ := Option.ne_none_iff_exists'.mp hfn
        have h := C35_hash hE (w := w1) (name := n) (f := f) (by rw [hi]; exact hd) (by rw [hf]; exact hfn)
          (hr n (by simp) f hfn) (hw n f hfn) hhead a le bsd
        obtain ⟨w', h'⟩ := ih { w1 with mem := w1.mem.tail } r
          (out ++ Spec.Cli.recordLine bsd le ⟨algOf a, Spec.Cli.hashOf (algOf a) f.data, n⟩) hf hi
          (fun h => hm (List.mem_of_mem_tail h)) h1 hr'
        refine ⟨w', ?_⟩
        unfold hashFilesLoop
        rw [h, ok_bind]
        simp only [hor.1]
        rw [h']
        simp [listing, hd, hfn]
      · have h := (C35_failures hE w1 n a le bsd).1 (by
          rw [hf, hi]
          by_cases hd : w.isDir n = true
          · exact .inl hd
          · right
            by_contra h
            exact hgood ⟨by simpa using hd, h⟩)
        obtain ⟨w', h'⟩ := ih w1 1 out hf hi hm (Nat.le_refl _) hr'
        refine ⟨w', ?_⟩
        unfold hashFilesLoop
        rw [h, ok_bind]
        simp only [hor.2, List.append_nil]
        rw [h']
        have hL : listing w a le bsd (n :: names) = listing w a le bsd names := by
          unfold listing
          rw [List.flatMap_cons]
          cases hd : w.isDir n <;> cases hfn : w.files n <;> simp_all
        rw [hL, if_neg (by simp), if_neg]
        rintro ⟨_, h⟩
        exact hgood (h n (by simp))
  obtain ⟨w', h⟩ := key names w 0 [] rfl rfl hm (by omega) hr
  refine ⟨w', ?_⟩
  unfold hashFiles
  rw [if_neg (by simpa using hn), h]
  simp

/-! ### C33 -/

/-- What a file of the world is to the specification. -/
def stateOf : Option Stream → Spec.Cli.FileState
  | none => .missing
  | some f => if f.fail then .unreadable else .content f.data

/-- The circumstances of a verification. Two allocations take place before the first line is read. -/
def circumstances (env : Env) (opts : CheckOpts) (w : World) : Spec.Cli.Setting where
  files name := stateOf (w.files name)
  stdinFails := w.stdin.fail
  le := opts.littleEndian
  allowed := Allowed opts.algoBitmask
  maxLines := 2 ^ env.ulongBits - 1
  lowMemory := false ∈ w.mem.drop 2

/-- What is printed about a line. -/
def message (opts : CheckOpts) (lineNumber : Nat) : Spec.Cli.Outcome → List Out
  | .ok name => if opts.statusOnly ∨ opts.quiet then []
      else [.text (Spec.Cli.marker name ++ Spec.Cli.shownName name ++ Spec.Cli.txt ": OK\n")]
  | .mismatch name => if opts.statusOnly then []
      else [.text (Spec.Cli.marker name ++ Spec.Cli.shownName name ++ Spec.Cli.txt ": FAILED\n")]
  | .missing name => if opts.statusOnly ∨ opts.ignoreMissing then [] else [.openFailure lineNumber name]
  | _ => []

/-- The numbers printed at the end, unless no line names a file: malformed lines, missing files, mismatches. -/
def totals (opts : CheckOpts) (os : List Spec.Cli.Outcome) : List Out :=
  if opts.statusOnly ∨ ∀ o ∈ os, o.entry = false then []
  else
    (if os.countP (·.isMalformed) = 0 then [] else [.improper (os.countP (·.isMalformed))]) ++
    (if opts.ignoreMissing ∨ os.countP (·.isMissing) = 0 then [] else [.unreadable (os.countP (·.isMissing))]) ++
    (if os.countP (·.isMismatch) = 0 then [] else [.mismatched (os.countP (·.isMismatch))])

/-- The message of `--ignore-missing` when no file could be verified. -/
def nothingVerified (opts : CheckOpts) (os : List Spec.Cli.Outcome) : List Out :=
  if opts.ignoreMissing = true ∧ ∀ o ∈ os, o.isOk = false then [.noneVerified] else []

/-- All that is printed. -/
def report (opts : CheckOpts) (os : List Spec.Cli.Outcome) : List Out :=
  (os.zipIdx 1).flatMap (fun p => message opts p.2 p.1) ++ totals opts os ++ nothingVerified opts os

theorem messages_eq (opts : CheckOpts) : ∀ (os : List Spec.Cli.Outcome) (n : Nat),
    (os.zipIdx (n + 1)).flatMap (fun p => message opts p.2 p.1) = printed opts n os
  | [], _ => rfl
  | o :: os, n => by
    rw [List.zipIdx_cons, List.flatMap_cons, messages_eq opts os (n + 1)]
    have : message opts (n + 1) o = printedFor opts (n + 1) o := by
      cases o <;> simp only [message, printedFor, verdictLine_eq] <;> rfl
    rw [this]
    rfl

theorem report_eq {opts : CheckOpts} {r : Report} {os : List Spec.Cli.Outcome} (hc : Counts r opts os) :
    printed opts 0 os ++ summary opts r ++ (checkResult opts r).2 = report opts os := by
  obtain ⟨h1, h2, h3, h4, h5, h6⟩ := hc
  have hz : ∀ p : Spec.Cli.Outcome → Bool, (∀ o ∈ os, p o = false) ↔ os.countP p = 0 := by
    intro p; rw [List.countP_eq_zero]; simp
  unfold report
  rw [← messages_eq opts os 0]
  congr 1
  · congr 1
    unfold summary totals
    simp only [hz (·.entry), ← h1, ← h2, ← h3, h5]
    generalize os.countP (·.isMissing) = k
    by_cases hp : r.nProperlyFormattedLines = 0 <;> cases hs : opts.statusOnly <;> cases hi : opts.ignoreMissing <;>
      simp [hp]
  · unfold nothingVerified checkResult
    simp only [hz (·.isOk), ← h4]
    by_cases hm : r.nMatchedChecksums = 0 <;> cases hi : opts.ignoreMissing <;> simp [hm]

/-- **C33.** Verifying a checksum file that can be opened (`none`: standard input), with memory for the two buffers,
follows the specification: a read error of a listed file ends the program with exit code 1; otherwise the result is
success exactly if `Success`, the report is the specified one, and files are left alone. -/
theorem C33_verdict {env : Env} (hE : EnvOk env) (opts : CheckOpts) {w : World} (hw : SmallFiles w)
    (hs : w.stdin.data.length < 2 ^ 64) (name : Option (List Byte)) (text : Option (List Byte))
    (ht : match name with | none => text = none | some n => ∃ f, w.files n = some f ∧ text = some f.data)
    (hm : w.mem.headD true = true ∧ w.mem.tail.headD true = true) :
    ∃ os e src', Spec.Cli.Checks (circumstances env opts w) 0 ⟨text, w.stdin.data⟩ os e src' ∧
      (e = .readError → checkFile env w name opts = .exit 1) ∧
      (e ≠ .readError → ∃ ok w', checkFile env w name opts = .ok (ok, report opts os, w') ∧
        (ok = true ↔ Spec.Cli.Success opts.strictMode opts.ignoreMissing os e) ∧
        w'.files = w.files ∧ w'.isDir = w.isDir ∧ w'.stdin.fail = w.stdin.fail ∧ w'.stdin.data = src'.stdin ∧
        w'.stdin.data.length ≤ w.stdin.data.length ∧ w'.mem <:+ w.mem) := by
  obtain ⟨inp, hi, rfl⟩ : ∃ inp : Option Stream, openCheck w name = some inp ∧ inp.map (·.data) = text := by
    cases name with
    | none => exact ⟨none, rfl, ht.symm⟩
    | some n =>
      obtain ⟨f, h1, h2⟩ := ht
      exact ⟨some f, by simp [openCheck, h1], h2.symm⟩
  have hc : circumstances env opts w = settingOf env opts w (false ∈ w.mem.drop 2) := rfl
  obtain ⟨os, e, src', h1, h2, h3⟩ := checkFile_eq hE opts hw hs name inp hi hm hc
  refine ⟨os, e, src', h1, h2, fun he => ?_⟩
  obtain ⟨r, w', g1, g2, g3, g4, g5⟩ := h3 he
  rw [report_eq g3] at g1
  exact ⟨_, w', g1, success_iff g3 he g4, g2.files, g2.isDir, g2.fail, g5.symm, g2.small, g2.mem⟩

/-- **C33**, a checksum file that cannot be opened is a failure; without memory for the buffers the program ends. -/
theorem C33_no_file (env : Env) (opts : CheckOpts) (w : World) (name : List Byte) :
    (w.files name = none → checkFile env w (some name) opts = .ok (false, [], w)) ∧
    (w.files name ≠ none → (w.mem.headD true = false ∨ w.mem.tail.headD true = false) →
      checkFile env w (some name) opts = .exit 1) := by
  refine ⟨fun h => ?_, fun h hm => ?_⟩
  · unfold checkFile
    simp only [h, Option.map_none]
    rfl
  · obtain ⟨f, hf⟩ := Option.ne_none_iff_exists'.mp h
    unfold checkFile
    simp only [hf, Option.map_some, World.alloc]
    rcases hm with hm | hm
    · simp only [hm]; rfl
    · simp only [hm]; cases w.mem.headD true <;> rfl

/-- **C33**, the specification is unambiguous: with enough memory the outcomes and the ending are determined by the
checksum file, the files and the options. -/
theorem C33_determined (env : Env) (opts : CheckOpts) (w : World) (hm : false ∉ w.mem.drop 2) {n : Nat}
    {s : Spec.Cli.Source} {os os' : List Spec.Cli.Outcome} {e e' : Spec.Cli.Ending} {s1 s2 : Spec.Cli.Source}
    (h : Spec.Cli.Checks (circumstances env opts w) n s os e s1)
    (h' : Spec.Cli.Checks (circumstances env opts w) n s os' e' s2) : os = os' ∧ e = e' :=
  checks_unique (fun _ _ _ h0 h1 h2 => C38_unambiguous h0 h1 h2) hm h h'

/-- Several checksum files are verified one after the other. -/
inductive Sequence (env : Env) (opts : CheckOpts) : World → List (List Byte) → List (Bool × List Out) → World → Prop where
  | nil {w} : Sequence env opts w [] [] w
  | cons {w w' w'' n ns r o rs} : checkFile env w (some n) opts = .ok (r, o, w') → Sequence env opts w' ns rs w'' →
      Sequence env opts w (n :: ns) ((r, o) :: rs) w''

/-- **C33**, several checksum files: either all are verified, each with its own verdict, and the exit code is 0 exactly
if all verdicts are positive; or one of them ends the program with exit code 1. -/
theorem C33_files {env : Env} (hE : EnvOk env) (opts : CheckOpts) {w : World} (hw : SmallFiles w)
    (hs : w.stdin.data.length < 2 ^ 64) {names : List (List Byte)} (hn : names ≠ []) :
    (∃ rs w', Sequence env opts w names rs w' ∧
      checkFiles env w names opts = .ok (if ∀ r ∈ rs, r.1 = true then 0 else 1, rs.flatMap (·.2), w')) ∨
    (checkFiles env w names opts = .exit 1 ∧ ∃ before n after rs w', names = before ++ n :: after ∧
      Sequence env opts w before rs w' ∧ checkFile env w' (some n) opts = .exit 1) := by
  have one : ∀ (w : World) (n : List Byte), SmallFiles w → w.stdin.data.length < 2 ^ 64 →
      checkFile env w (some n) opts = .exit 1 ∨
      ∃ r o w', checkFile env w (some n) opts = .ok (r, o, w') ∧ SmallFiles w' ∧ w'.stdin.data.length < 2 ^ 64 := by
    intro w n hw hs
    by_cases hf : w.files n = none
    · exact .inr ⟨_, _, _, (C33_no_file env opts w n).1 hf, hw, hs⟩
    · by_cases hm : w.mem.headD true = true ∧ w.mem.tail.headD true = true
      · obtain ⟨f, hf⟩ := Option.ne_none_iff_exists'.mp hf
        obtain ⟨os, e, src', _, h2, h3⟩ := C33_verdict hE opts hw hs (some n) (some f.data) ⟨f, hf, rfl⟩ hm
        by_cases he : e = .readError
        · exact .inl (h2 he)
        · obtain ⟨ok, w', g1, _, g3, _, _, _, g7, _⟩ := h3 he
          exact .inr ⟨_, _, _, g1, by unfold SmallFiles; rw [g3]; exact hw, by omega⟩
      · refine .inl ((C33_no_file env opts w n).2 hf ?_)
        by_cases h1 : w.mem.headD true = true
        · right
          cases h2 : w.mem.tail.headD true with
          | false => rfl
          | true => exact absurd ⟨h1, h2⟩ hm
        · left; simpa using h1
  have key : ∀ (names : List (List Byte)) (w : World) (ok : Bool) (out : List Out), SmallFiles w →
      w.stdin.data.length < 2 ^ 64 →
      (∃ rs w', Sequence env opts w names rs w' ∧
        checkFilesLoop env opts names w ok out = .ok (ok && rs.all (·.1), out ++ rs.flatMap (·.2), w')) ∨
      (checkFilesLoop env opts names w ok out = .exit 1 ∧ ∃ before n after rs w', names = before ++ n :: after ∧
        Sequence env opts w before rs w' ∧ checkFile env w' (some n) opts = .exit 1) := by
    intro names
    induction names with
    | nil => intro w ok out _ _; exact .inl ⟨[], w, .nil, by simp [checkFilesLoop, pure]⟩
    | cons n names ih =>
      intro w ok out hw hs
      rcases one w n hw hs with h | ⟨r, o, w', h, hw', hs'⟩
      · refine .inr ⟨?_, [], n, names, [], w, rfl, .nil, h⟩
        unfold checkFilesLoop
        rw [h]; rfl
      · have hrun : checkFilesLoop env opts (n :: names) w ok out =
            checkFilesLoop env opts names w' (ok && r) (out ++ o) := by
          conv_lhs => unfold checkFilesLoop
          rw [h]; rfl
        rcases ih w' (ok && r) (out ++ o) hw' hs' with ⟨rs, w'', g1, g2⟩ | ⟨g1, before, m, after, rs, w'', g2, g3, g4⟩
        · left
          refine ⟨(r, o) :: rs, w'', .cons h g1, ?_⟩
          rw [hrun, g2]
          simp [Bool.and_assoc]
        · right
          exact ⟨by rw [hrun, g1], n :: before, m, after, (r, o) :: rs, w'', by rw [g2]; rfl, .cons h g3, g4⟩
  unfold checkFiles
  rw [if_neg (by simpa using hn)]
  rcases key names w true [] hw hs with ⟨rs, w', g1, g2⟩ | ⟨g1, g2⟩
  · left
    refine ⟨rs, w', g1, ?_⟩
    rw [g2, ok_bind]
    simp only [Bool.true_and, List.nil_append, List.all_eq_true]
    rfl
  · right
    refine ⟨?_, g2⟩
    rw [g1]; rfl

/-! ### Cases -/

/-- A platform with arbitrary bytes in uninitialised memory. -/
def exEnv : Env where
  cfg := x64
  state32 := ⟨1, 2, ⟨3, 4, 5, 6⟩, [7], 8⟩
  state64 := ⟨1, ⟨3, 4, 5, 6⟩, [7], 8⟩
  state3 := junk
  block := 1
  canon := 3
  junk n := BitVec.ofNat 8 n
  ulongBits := 64

theorem exEnv_ok : EnvOk exEnv := ⟨x64_valid, by decide, junk_typed⟩

/-- An empty file `e`, which is delivered at once, a file `ab` that is delivered byte by byte, a file `bad` that cannot
be read, and a checksum file `sums` whose reading ends with an error. -/
def exWorld : World where
  files n :=
    if n = Spec.Cli.txt "e" then some ⟨[], [], false⟩
    else if n = Spec.Cli.txt "ab" then some ⟨Spec.Cli.txt "ab", [1, 0], false⟩
    else if n = Spec.Cli.txt "bad" then some ⟨Spec.Cli.txt "ab", [1], true⟩
    else if n = Spec.Cli.txt "sums" then some ⟨Spec.Cli.txt "# sums\n02cc5d05  e\nxyz\n4999fc53  ab\n02cc5d05  no", [], true⟩
    else none
  isDir _ := false
  stdin := ⟨[], [], false⟩
  mem := []

theorem exWorld_small : SmallFiles exWorld := by
  intro n f h
  unfold exWorld at h
  simp only at h
  split at h
  · cases h; decide
  · split at h
    · cases h; decide
    · split at h
      · cases h; decide
      · split at h
        · cases h; decide
        · cases h

/-- The result without the world. -/
def result {α β : Type} : Res (α × β × World) → Option (α × β)
  | .ok (a, b, _) => some (a, b)
  | _ => none

/-- `ab` is delivered in two pieces; its checksum line is the one for the whole contents. -/
example : result (hashFile exEnv exWorld (some (Spec.Cli.txt "ab")) .xxh32 false false) =
    some (0, Spec.Cli.txt "4999fc53  ab\n") := by decide +kernel

example : hashFile exEnv exWorld (some (Spec.Cli.txt "bad")) .xxh32 false false = .exit 1 :=
  ((C35_failures exEnv_ok exWorld (Spec.Cli.txt "bad") .xxh32 false false).2 _ rfl rfl).2 rfl rfl (by decide)

/-- A comment, two good lines, a malformed line, and a missing file that is ignored. -/
theorem exCheck : result (checkFile exEnv exWorld (some (Spec.Cli.txt "sums"))
      ⟨false, false, false, true, false, false, bitmask_all⟩) =
    some (true, [.text (Spec.Cli.txt "e: OK\n"), .text (Spec.Cli.txt "ab: OK\n"), .improper 1]) := by decide +kernel

/-- The same without `--ignore-missing`, in which case the last line (number 5) makes the difference, and with
`--strict`. -/
example : result (checkFile exEnv exWorld (some (Spec.Cli.txt "sums"))
      ⟨false, false, false, false, false, false, bitmask_all⟩) =
    some (false, [.text (Spec.Cli.txt "e: OK\n"), .text (Spec.Cli.txt "ab: OK\n"),
      .openFailure 5 (Spec.Cli.txt "no"), .improper 1, .unreadable 1]) := by decide +kernel

example : (result (checkFile exEnv exWorld (some (Spec.Cli.txt "sums"))
      ⟨false, true, false, true, false, false, bitmask_all⟩)).map (·.1) = some false := by decide +kernel

/-- **C33**, a finding: an error while reading the checksum file itself goes unnoticed. Here reading `sums` ends with an
error, so lines may have been lost, and yet the verdict is success. -/
theorem C33_unreadable_check_file_accepted : ∃ (env : Env) (w : World) (name : List Byte) (f : Stream) (opts : CheckOpts)
    (out : List Out), EnvOk env ∧ w.files name = some f ∧ f.fail = true ∧
    result (checkFile env w (some name) opts) = some (true, out) :=
  ⟨exEnv, exWorld, Spec.Cli.txt "sums", _, _, _, exEnv_ok, rfl, rfl, exCheck⟩

end XXH.Props
