import Verif.Model.CliShow
import Verif.Props.CliEnd
import Mathlib.Data.Nat.Digits.Lemmas
/-!
C51: what a program that reads the output of `xxhsum --check` line by line may conclude.
-/
namespace XXH.Props
open Model.Cli CliP Examples

/-! ### Reading the output -/

/-- The lines of a text. -/
def linesOf : List Byte → List (List Byte)
  | [] => []
  | c :: t => if c = 0x0a then [] :: linesOf t else match linesOf t with
    | [] => [[c]]
    | l :: ls => (c :: l) :: ls

/-- Takes a suffix away. -/
def stripSuffix (suffix l : List Byte) : Option (List Byte) :=
  if suffix <:+ l then some (l.take (l.length - suffix.length)) else none

/-- The name shown: after a backslash it is escaped. -/
def readName : List Byte → Option (List Byte)
  | [] => some []
  | c :: t => if c = 0x5c then Spec.Cli.unescape t else some (c :: t)

/-- What a line says about a file: its name, and whether it is `OK`. -/
def readVerdict (line : List Byte) : Option (Bool × List Byte) :=
  match stripSuffix (Spec.Cli.txt ": OK") line with
  | some n => (readName n).map (true, ·)
  | none => match stripSuffix (Spec.Cli.txt ": FAILED") line with
    | some n => (readName n).map (false, ·)
    | none => none

/-- The verdicts in a text. -/
def readVerdicts (text : List Byte) : List (Bool × List Byte) := (linesOf text).filterMap readVerdict

/-- What should be read about a line of the checksum file. -/
def verdictOf (quiet : Bool) : Spec.Cli.Outcome → Option (Bool × List Byte)
  | .ok name => if quiet then none else some (true, name)
  | .mismatch name => some (false, name)
  | _ => none

/-! ### Lemmas -/

theorem linesOf_append : ∀ {l : List Byte}, (0x0a : Byte) ∉ l → ∀ t, linesOf (l ++ 0x0a :: t) = l :: linesOf t
  | [], _, t => by simp [linesOf]
  | c :: l, h, t => by
    have hc : c ≠ 0x0a := fun e => h (by simp [e])
    have := linesOf_append (fun e => h (List.mem_cons_of_mem _ e) : (0x0a : Byte) ∉ l) t
    rw [List.cons_append, linesOf, if_neg hc, this]

theorem stripSuffix_append (a s : List Byte) : stripSuffix s (a ++ s) = some a := by
  simp [stripSuffix]

theorem stripSuffix_last {s l : List Byte} {x y : Byte} (hs : s.getLast? = some x) (hl : l.getLast? = some y) (h : x ≠ y) :
    stripSuffix s l = none := by
  unfold stripSuffix
  rw [if_neg]
  rintro ⟨t, rfl⟩
  rw [List.getLast?_append, hs] at hl
  simp at hl
  exact h hl

theorem no_newline_shown (name : List Byte) :
    (0x0a : Byte) ∉ Spec.Cli.marker name ++ Spec.Cli.shownName name := by
  unfold Spec.Cli.marker Spec.Cli.shownName
  have hesc : ∀ n : List Byte, (0x0a : Byte) ∉ Spec.Cli.escape n := by
    intro n
    induction n with
    | nil => simp [Spec.Cli.escape]
    | cons c n ih =>
      unfold Spec.Cli.escape
      split
      · exact fun h => (List.mem_append.mp h).elim (by decide) ih
      · split
        · exact fun h => (List.mem_append.mp h).elim (by decide) ih
        · split
          · exact fun h => (List.mem_append.mp h).elim (by decide) ih
          · rename_i h _ _
            simp only [List.mem_cons, not_or]
            exact ⟨fun e => h e.symm, ih⟩
  by_cases h : Spec.Cli.Special name
  · rw [if_pos h, if_pos h]
    exact fun h => (List.mem_append.mp h).elim (by decide) (hesc name)
  · rw [if_neg h, if_neg h, List.nil_append]
    intro hm
    exact h (Or.inl hm)

theorem unescape_spec : ∀ n : List Byte, Spec.Cli.unescape (Spec.Cli.escape n) = some n
  | [] => rfl
  | c :: n => by
    unfold Spec.Cli.escape
    split
    · next h => simp [Spec.Cli.txt, Spec.Cli.unescape, unescape_spec n, h]
    · split
      · next h => simp [Spec.Cli.txt, Spec.Cli.unescape, unescape_spec n, h]
      · split
        · next h => simp [Spec.Cli.txt, Spec.Cli.unescape, unescape_spec n, h]
        · next h =>
          unfold Spec.Cli.unescape
          simp only [h, if_false, unescape_spec n, Option.map_some]

theorem readName_shown (name : List Byte) : readName (Spec.Cli.marker name ++ Spec.Cli.shownName name) = some name := by
  unfold Spec.Cli.marker Spec.Cli.shownName
  by_cases h : Spec.Cli.Special name
  · simp [h, readName, unescape_spec]
  · simp only [h, if_false, List.nil_append]
    cases name with
    | nil => rfl
    | cons c t =>
      rw [readName.eq_2, if_neg]
      rintro rfl
      exact h (Or.inr (Or.inr (by simp)))

theorem readVerdict_ok (name : List Byte) :
    readVerdict (Spec.Cli.marker name ++ Spec.Cli.shownName name ++ Spec.Cli.txt ": OK") = some (true, name) := by
  unfold readVerdict
  rw [stripSuffix_append]
  simp only [readName_shown, Option.map_some]

theorem readVerdict_failed (name : List Byte) :
    readVerdict (Spec.Cli.marker name ++ Spec.Cli.shownName name ++ Spec.Cli.txt ": FAILED") = some (false, name) := by
  unfold readVerdict
  rw [stripSuffix_last (x := 0x4b) (y := 0x44) (by decide) (by rw [List.getLast?_append]; rfl) (by decide)]
  simp only [stripSuffix_append, readName_shown, Option.map_some]

/-- A line that ends in neither `K` nor `D` says nothing. -/
theorem readVerdict_other {l : List Byte} {y : Byte} (hl : l.getLast? = some y) (h1 : y ≠ 0x4b) (h2 : y ≠ 0x44) :
    readVerdict l = none := by
  unfold readVerdict
  rw [stripSuffix_last (x := 0x4b) (by decide) hl h1.symm]
  simp only
  rw [stripSuffix_last (x := 0x44) (by decide) hl h2.symm]

/-- A line: without newline, then a newline. -/
theorem readVerdicts_line {l : List Byte} (h : (0x0a : Byte) ∉ l) (t : List Byte) :
    readVerdicts (l ++ 0x0a :: t) = (readVerdict l).toList ++ readVerdicts t := by
  unfold readVerdicts
  rw [linesOf_append h]
  simp only [List.filterMap_cons]
  cases readVerdict l <;> rfl

theorem decText_digit (n : ℕ) : ∀ c ∈ decText n, ∃ d < 10, c = BitVec.ofNat 8 (0x30 + d) := by
  intro c hc
  unfold decText at hc
  split at hc
  · exact ⟨0, by decide, by simpa using hc⟩
  · obtain ⟨d, hd, rfl⟩ := List.mem_map.mp hc
    exact ⟨d, Nat.digits_lt_base (by decide) (List.mem_reverse.mp hd), rfl⟩

theorem decText_newline (n : ℕ) : (0x0a : Byte) ∉ decText n := by
  intro h
  obtain ⟨d, hd, he⟩ := decText_digit n _ h
  interval_cases d <;> exact absurd he (by decide)

/-- Records that are whole lines and say only what they should. -/
theorem readVerdicts_record {file : List Byte} {error : ℕ → List Byte} (hf : (0x0a : Byte) ∉ file)
    (he : ∀ n, (0x0a : Byte) ∉ error n) {o : Out} (ho : ∀ l, o ≠ .text l)
    (hn : ∀ k n, o = .openFailure k n → (0x0a : Byte) ∉ n) (t : List Byte) :
    readVerdicts (o.bytes file error ++ t) = readVerdicts t := by
  have key : ∀ (l : List Byte) (y : Byte), (0x0a : Byte) ∉ l → l.getLast? = some y → y ≠ 0x4b → y ≠ 0x44 →
      readVerdicts (l ++ 0x0a :: t) = readVerdicts t := by
    intro l y h1 h2 h3 h4
    rw [readVerdicts_line h1, readVerdict_other h2 h3 h4]
    rfl
  cases o with
  | text l => exact absurd rfl (ho l)
  | openFailure k n =>
    have := hn k n rfl
    have h := key (file ++ str ":" ++ decText k ++ str ": Could not open or read '" ++ n ++ str "': " ++ error k ++ str ".")
      0x2e (by
        simp only [List.mem_append, not_or]
        exact ⟨⟨⟨⟨⟨⟨⟨hf, by decide⟩, decText_newline k⟩, by decide⟩, this⟩, by decide⟩, he k⟩, by decide⟩)
      (by rw [List.getLast?_append]; rfl) (by decide) (by decide)
    rw [← h]
    simp only [Out.bytes, List.append_assoc]
    rfl
  | improper n =>
    have h := key (decText n ++ str " " ++ str (if n = 1 then "line is" else "lines are") ++ str " improperly formatted")
      0x64 (by
        simp only [List.mem_append, not_or]
        refine ⟨⟨⟨decText_newline n, by decide⟩, ?_⟩, by decide⟩
        split <;> decide)
      (by rw [List.getLast?_append]; rfl) (by decide) (by decide)
    rw [← h]
    simp only [Out.bytes, List.append_assoc]
    rfl
  | unreadable n =>
    have h := key (decText n ++ str " listed " ++ str (if n = 1 then "file" else "files") ++ str " could not be read")
      0x64 (by
        simp only [List.mem_append, not_or]
        refine ⟨⟨⟨decText_newline n, by decide⟩, ?_⟩, by decide⟩
        split <;> decide)
      (by rw [List.getLast?_append]; rfl) (by decide) (by decide)
    rw [← h]
    simp only [Out.bytes, List.append_assoc]
    rfl
  | mismatched n =>
    have h := key (decText n ++ str " computed " ++ str (if n = 1 then "checksum" else "checksums") ++ str " did NOT match")
      0x68 (by
        simp only [List.mem_append, not_or]
        refine ⟨⟨⟨decText_newline n, by decide⟩, ?_⟩, by decide⟩
        split <;> decide)
      (by rw [List.getLast?_append]; rfl) (by decide) (by decide)
    rw [← h]
    simp only [Out.bytes, List.append_assoc]
    rfl
  | noneVerified =>
    have h := key (file ++ str ": no file was verified") 0x64 (by
        simp only [List.mem_append, not_or]
        exact ⟨hf, by decide⟩)
      (by rw [List.getLast?_append]; rfl) (by decide) (by decide)
    rw [← h]
    simp only [Out.bytes, List.append_assoc]
    rfl

theorem readVerdicts_records {file : List Byte} {error : ℕ → List Byte} (hf : (0x0a : Byte) ∉ file)
    (he : ∀ n, (0x0a : Byte) ∉ error n) : ∀ (os : List Out), (∀ o ∈ os, (∀ l, o ≠ .text l) ∧
      ∀ k n, o = .openFailure k n → (0x0a : Byte) ∉ n) → ∀ t,
    readVerdicts (outBytes file error os ++ t) = readVerdicts t
  | [], _, t => rfl
  | o :: os, h, t => by
    unfold outBytes
    rw [List.flatMap_cons, List.append_assoc, readVerdicts_record hf he (h o (by simp)).1 (h o (by simp)).2]
    exact readVerdicts_records hf he os (fun o ho => h o (List.mem_cons_of_mem _ ho)) t

theorem readVerdicts_messages {file : List Byte} {error : ℕ → List Byte} (hf : (0x0a : Byte) ∉ file)
    (he : ∀ n, (0x0a : Byte) ∉ error n) {opts : CheckOpts} (hs : opts.statusOnly = false) :
    ∀ (os : List Spec.Cli.Outcome) (k : ℕ),
      (opts.ignoreMissing = true ∨ ∀ n, Spec.Cli.Outcome.missing n ∈ os → (0x0a : Byte) ∉ n) → ∀ t,
    readVerdicts (outBytes file error ((os.zipIdx k).flatMap fun p => message opts p.2 p.1) ++ t) =
      os.filterMap (verdictOf opts.quiet) ++ readVerdicts t
  | [], k, _, t => rfl
  | o :: os, k, h, t => by
    have ih := readVerdicts_messages hf he hs os (k + 1) (h.imp id fun h n hn => h n (List.mem_cons_of_mem _ hn)) t
    rw [List.zipIdx_cons, List.flatMap_cons]
    unfold outBytes at ih ⊢
    rw [List.flatMap_append, List.append_assoc]
    have line : ∀ (l : List Byte) (v : Bool × List Byte), (0x0a : Byte) ∉ l → readVerdict l = some v →
        ∀ u, readVerdicts (List.flatMap (Out.bytes file error) [Out.text (l ++ [0x0a])] ++ u) = v :: readVerdicts u := by
      intro l v h1 h2 u
      simp only [List.flatMap_cons, List.flatMap_nil, Out.bytes, List.append_nil, List.append_assoc, List.singleton_append]
      rw [readVerdicts_line h1, h2]
      rfl
    generalize hrest : List.flatMap (Out.bytes file error) ((os.zipIdx (k + 1)).flatMap fun p => message opts p.2 p.1) ++ t =
      rest at ih ⊢
    have skip : ∀ o : Spec.Cli.Outcome, message opts k o = [] → verdictOf opts.quiet o = none →
        readVerdicts (List.flatMap (Out.bytes file error) (message opts k o) ++ rest) =
          (o :: os).filterMap (verdictOf opts.quiet) ++ readVerdicts t := by
      intro o h1 h2
      rw [h1, List.filterMap_cons, h2, ← ih]
      rfl
    cases o with
    | ok name =>
      by_cases hq : opts.quiet = true
      · exact skip _ (by simp [message, hq]) (by simp [verdictOf, hq])
      · have h1 : message opts k (.ok name) =
            [.text (Spec.Cli.marker name ++ Spec.Cli.shownName name ++ Spec.Cli.txt ": OK" ++ [0x0a])] := by
          show (if _ then _ else _) = _
          rw [if_neg (by rw [hs]; simp [hq])]
          simp only [List.append_assoc]
          rfl
        rw [h1, line _ (true, name) (by
            rw [List.mem_append, not_or]
            exact ⟨no_newline_shown name, by decide⟩) (readVerdict_ok name), ih, List.filterMap_cons,
          show verdictOf opts.quiet (.ok name) = some (true, name) by simp [verdictOf, hq]]
        rfl
    | mismatch name =>
      have h1 : message opts k (.mismatch name) =
          [.text (Spec.Cli.marker name ++ Spec.Cli.shownName name ++ Spec.Cli.txt ": FAILED" ++ [0x0a])] := by
        show (if _ then _ else _) = _
        rw [if_neg (by rw [hs]; decide)]
        simp only [List.append_assoc]
        rfl
      rw [h1, line _ (false, name) (by
          rw [List.mem_append, not_or]
          exact ⟨no_newline_shown name, by decide⟩) (readVerdict_failed name), ih]
      rfl
    | missing name =>
      by_cases hi : opts.ignoreMissing = true
      · exact skip _ (by simp [message, hi]) rfl
      · have hn := (h.resolve_left hi) name (by simp)
        have h1 : message opts k (.missing name) = [.openFailure k name] := by
          show (if _ then _ else _) = _
          rw [if_neg (by rw [hs]; simp [hi])]
        rw [h1, List.flatMap_cons, List.flatMap_nil, List.append_nil, readVerdicts_record hf he (by simp) (by
          intro k n hkn
          injection hkn with _ h2
          rw [← h2]; exact hn), ih]
        rfl
    | comment => exact skip _ rfl rfl
    | malformed => exact skip _ rfl rfl

theorem readVerdicts_report {file : List Byte} {error : ℕ → List Byte} (hf : (0x0a : Byte) ∉ file)
    (he : ∀ n, (0x0a : Byte) ∉ error n) {opts : CheckOpts} (hs : opts.statusOnly = false) {os : List Spec.Cli.Outcome}
    (hm : opts.ignoreMissing = true ∨ ∀ n, Spec.Cli.Outcome.missing n ∈ os → (0x0a : Byte) ∉ n) :
    readVerdicts (outBytes file error (report opts os)) = os.filterMap (verdictOf opts.quiet) := by
  unfold report
  rw [List.append_assoc]
  have h1 := readVerdicts_messages hf he hs os 1 hm (outBytes file error (totals opts os ++ nothingVerified opts os))
  unfold outBytes at h1 ⊢
  rw [List.flatMap_append, h1]
  have h2 := readVerdicts_records hf he (totals opts os ++ nothingVerified opts os) (by
    intro o ho
    rw [List.mem_append] at ho
    rcases ho with ho | ho
    · unfold totals at ho
      split at ho
      · simp at ho
      · rw [List.mem_append, List.mem_append] at ho
        rcases ho with (ho | ho) | ho <;> split at ho <;> simp at ho <;> subst ho <;> simp
    · unfold nothingVerified at ho
      split at ho
      · simp at ho; subst ho; simp
      · simp at ho) []
  unfold outBytes at h2
  rw [List.append_nil] at h2
  rw [h2]
  simp [readVerdicts, linesOf]

/-! ### C51 -/

/-- The name under which the checksum file appears in messages. -/
def checkName (name : Option (List Byte)) : List Byte := name.getD (Spec.Cli.txt "stdin")

/-- **C51.** The verdicts can be read from the output: the lines that end in `: OK` and `: FAILED` give, in order, exactly
the files verified and what was found (only the failures with `--quiet`), provided that no missing file that is reported
has a line break in its name. -/
theorem C51_readback {env : Env} (hE : EnvOk env) {opts : CheckOpts} (hst : opts.statusOnly = false) {w : World}
    (hw : SmallFiles w) (hs : w.stdin.data.length < 2 ^ 64) (name : Option (List Byte)) (text : Option (List Byte))
    (ht : match name with | none => text = none | some n => ∃ f, w.files n = some f ∧ text = some f.data)
    (hm : w.mem.headD true = true ∧ w.mem.tail.headD true = true)
    {ok : Bool} {out : List Out} {w' : World} (h : checkFile env w name opts = .ok (ok, out, w'))
    {error : ℕ → List Byte} (hn : (0x0a : Byte) ∉ checkName name) (he : ∀ n, (0x0a : Byte) ∉ error n) :
    ∃ os e src', Spec.Cli.Checks (circumstances env opts w) 0 ⟨text, w.stdin.data⟩ os e src' ∧
      ((opts.ignoreMissing = true ∨ ∀ n, Spec.Cli.Outcome.missing n ∈ os → (0x0a : Byte) ∉ n) →
        readVerdicts (outBytes (checkName name) error out) = os.filterMap (verdictOf opts.quiet)) := by
  obtain ⟨os, e, src', hc, h1, h2⟩ := C33_verdict hE opts hw hs name text ht hm
  refine ⟨os, e, src', hc, fun hmiss => ?_⟩
  have hne : e ≠ .readError := fun h' => by rw [h1 h'] at h; cases h
  obtain ⟨ok', w'', h3, -⟩ := h2 hne
  rw [h3] at h
  injection h with h
  injection h with _ h
  injection h with h _
  subst h
  exact readVerdicts_report hn he hst hmiss

/-- **C51.** When the verification is a success, the output needs no further condition, whatever names there are: its
lines say `OK` for exactly the files that were verified, in order, and `FAILED` for none. -/
theorem C51_success {env : Env} (hE : EnvOk env) {opts : CheckOpts} (hst : opts.statusOnly = false)
    (hq : opts.quiet = false) {w : World} (hw : SmallFiles w) (hs : w.stdin.data.length < 2 ^ 64)
    (name : Option (List Byte)) (text : Option (List Byte))
    (ht : match name with | none => text = none | some n => ∃ f, w.files n = some f ∧ text = some f.data)
    (hm : w.mem.headD true = true ∧ w.mem.tail.headD true = true)
    {out : List Out} {w' : World} (h : checkFile env w name opts = .ok (true, out, w')) (error : ℕ → List Byte) :
    ∃ os src', Spec.Cli.Checks (circumstances env opts w) 0 ⟨text, w.stdin.data⟩ os .complete src' ∧
      (∀ o ∈ os, o.isMismatch = false) ∧ (opts.ignoreMissing = false → ∀ o ∈ os, o.isMissing = false) ∧
      readVerdicts (outBytes (checkName name) error out) =
        os.filterMap fun o => match o with | .ok n => some (true, n) | _ => none := by
  obtain ⟨os, e, src', hc, h1, h2⟩ := C33_verdict hE opts hw hs name text ht hm
  have hne : e ≠ .readError := fun h' => by rw [h1 h'] at h; cases h
  obtain ⟨ok', w'', h3, h4, -⟩ := h2 hne
  rw [h3] at h
  injection h with h
  injection h with hok h
  injection h with h _
  subst h
  subst hok
  obtain ⟨h5, h6, h7, h8, h9, -⟩ := h4.mp rfl
  subst h5
  refine ⟨os, src', hc, h7, h8, ?_⟩
  -- nothing that is printed mentions a name or an error
  have hsame : ∀ o ∈ report opts os, Out.bytes (checkName name) error o = Out.bytes [] (fun _ => []) o := by
    intro o ho
    unfold report at ho
    rw [List.mem_append, List.mem_append] at ho
    have hnv : nothingVerified opts os = [] := by
      unfold nothingVerified
      rw [if_neg]
      rintro ⟨hi, hall⟩
      obtain ⟨o, h10, h11⟩ := h9 hi
      rw [hall o h10] at h11
      cases h11
    rcases ho with (ho | ho) | ho
    · obtain ⟨⟨o', k⟩, hmem, hin⟩ := List.mem_flatMap.mp ho
      have hmem' : o' ∈ os := by
        have := List.mem_zipIdx hmem
        rw [this.2.2]
        exact List.getElem_mem _
      cases o' with
      | ok n => simp only [message, hst, hq] at hin; simp at hin; subst hin; rfl
      | mismatch n => have := h7 _ hmem'; cases this
      | missing n =>
        by_cases hi : opts.ignoreMissing = true
        · simp [message, hi] at hin
        · rw [Bool.not_eq_true] at hi
          have := h8 hi _ hmem'
          cases this
      | comment => simp [message] at hin
      | malformed => simp [message] at hin
    · unfold totals at ho
      split at ho
      · simp at ho
      · rw [List.mem_append, List.mem_append] at ho
        rcases ho with (ho | ho) | ho <;> split at ho <;> simp at ho <;> subst ho <;> rfl
    · rw [hnv] at ho
      simp at ho
  have heq : outBytes (checkName name) error (report opts os) = outBytes [] (fun _ => []) (report opts os) := by
    unfold outBytes
    rw [List.flatMap_def, List.flatMap_def, List.map_congr_left hsame]
  rw [heq, readVerdicts_report (by simp) (by simp) hst]
  · refine List.filterMap_congr fun o ho => ?_
    rw [hq]
    cases o with
    | mismatch n => have := h7 _ ho; cases this
    | _ => rfl
  · by_cases hi : opts.ignoreMissing = true
    · exact .inl hi
    · rw [Bool.not_eq_true] at hi
      refine .inr fun n hn => ?_
      have := h8 hi _ hn
      cases this

/-- **C51.** The numbers in the output are written in decimal, without leading zeros and never as nothing. -/
theorem C51_numbers (n : ℕ) : Spec.Cli.decimal (decText n) = n ∧ (∀ c ∈ decText n, (Spec.Cli.decVal c).isSome) ∧
    decText n ≠ [] ∧ ((decText n).head? = some 0x30 → decText n = [0x30]) := by
  have hval : ∀ d < 10, Spec.Cli.decVal (BitVec.ofNat 8 (0x30 + d)) = some d := by decide +kernel
  have hfold : ∀ (l : List ℕ) (_ : ∀ d ∈ l, d < 10),
      (l.reverse.map fun d => BitVec.ofNat 8 (0x30 + d)).foldl (fun n c => 10 * n + (Spec.Cli.decVal c).getD 0) 0 =
        Nat.ofDigits 10 l := by
    intro l
    induction l with
    | nil => intro _; rfl
    | cons d t ih =>
      intro hd
      rw [List.reverse_cons, List.map_append, List.foldl_append, ih fun x hx => hd x (List.mem_cons_of_mem _ hx),
        Nat.ofDigits_cons]
      simp only [List.map_cons, List.map_nil, List.foldl_cons, List.foldl_nil, hval d (hd d (by simp)), Option.getD_some]
      exact Nat.add_comm _ _
  refine ⟨?_, fun c hc => ?_, ?_, fun hz => ?_⟩
  · unfold decText
    split
    · next h => rw [h]; decide
    · unfold Spec.Cli.decimal
      rw [hfold _ fun d hd => Nat.digits_lt_base (by decide) hd, Nat.ofDigits_digits]
  · obtain ⟨d, hd, rfl⟩ := decText_digit n c hc
    rw [hval d hd]
    rfl
  · unfold decText
    split
    · exact nofun
    · next h => simpa using Nat.digits_ne_nil_iff_ne_zero.mpr h
  · unfold decText at hz ⊢
    split
    · rfl
    · next h =>
      exfalso
      have hd : Nat.digits 10 n ≠ [] := Nat.digits_ne_nil_iff_ne_zero.mpr h
      rw [if_neg h, List.head?_map, List.head?_reverse, List.getLast?_eq_getLast_of_ne_nil hd] at hz
      have h2 := Nat.getLast_digit_ne_zero 10 h
      have h3 : (Nat.digits 10 n).getLast hd < 10 := Nat.digits_lt_base (by decide) (List.getLast_mem hd)
      generalize (Nat.digits 10 n).getLast hd = d at *
      simp only [Option.map_some, Option.some.injEq] at hz
      have := congrArg Spec.Cli.decVal hz
      rw [hval d h3, show Spec.Cli.decVal 0x30 = some 0 by decide] at this
      exact h2 (Option.some.inj this)

/-! ### The limit -/

/-- A checksum file `list` with one line, `\00000000  a\nb: OK\nc`, whose file does not exist; `b` does not exist
either. -/
def forgedWorld : World where
  files n :=
    if n = Spec.Cli.txt "list" then some ⟨Spec.Cli.txt "\\00000000  a\\nb: OK\\nc\n", [], false⟩ else none
  isDir _ := false
  stdin := ⟨[], [], false⟩
  mem := []

/-- The message about the missing file shows its name as it is. -/
theorem forged : result (checkFile exEnv forgedWorld (some (Spec.Cli.txt "list"))
      ⟨false, false, false, false, false, false, bitmask_all⟩) =
    some (false, [.openFailure 1 (Spec.Cli.txt "a\nb: OK\nc"), .unreadable 1]) := by decide +kernel

/-- **C51**, a finding: names are escaped in the lines `OK` and `FAILED`, not in the message about a missing file, so that
a checksum file can make the output contain the line `b: OK` although no such file was verified or even exists (the
verification as a whole fails). -/
theorem C51_forged : ∃ (env : Env) (w : World) (name b : List Byte) (opts : CheckOpts) (out : List Out), EnvOk env ∧
    opts.statusOnly = false ∧ opts.quiet = false ∧ w.files b = none ∧
    result (checkFile env w (some name) opts) = some (false, out) ∧
    readVerdicts (outBytes name (fun _ => Spec.Cli.txt "No such file or directory") out) = [(true, b)] :=
  ⟨exEnv, forgedWorld, Spec.Cli.txt "list", Spec.Cli.txt "b", _, _, exEnv_ok, rfl, rfl, rfl, forged, by decide +kernel⟩

/-! ### Examples -/

/-- `exCheck` succeeds, and the two files are read from its output; the count of malformed lines is no verdict. -/
example : readVerdicts (outBytes (Spec.Cli.txt "sums") (fun _ => [])
      [.text (Spec.Cli.txt "e: OK\n"), .text (Spec.Cli.txt "ab: OK\n"), .improper 1]) =
    [(true, Spec.Cli.txt "e"), (true, Spec.Cli.txt "ab")] := by decide +kernel

/-- A name with a line break and one that ends in `: OK`, in the lines of good and bad files. -/
example : readVerdicts (outBytes (Spec.Cli.txt "sums") (fun _ => [])
      [.text (Spec.Cli.txt "\\a\\nb: OK\n"), .text (Spec.Cli.txt "x: OK: FAILED\n"), .mismatched 1]) =
    [(true, Spec.Cli.txt "a\nb"), (false, Spec.Cli.txt "x: OK")] := by decide +kernel

/-- The hypotheses of `C51_success` hold for `exCheck`. -/
example (hw : SmallFiles exWorld) : ∃ out w', checkFile exEnv exWorld (some (Spec.Cli.txt "sums"))
      ⟨false, false, false, true, false, false, bitmask_all⟩ = .ok (true, out, w') ∧
    ∃ os src', Spec.Cli.Checks (circumstances exEnv ⟨false, false, false, true, false, false, bitmask_all⟩ exWorld) 0
      ⟨some (Spec.Cli.txt "# sums\n02cc5d05  e\nxyz\n4999fc53  ab\n02cc5d05  no"), []⟩ os .complete src' := by
  have h := exCheck
  unfold result at h
  split at h
  · next a b w' e =>
    simp only [Option.some.injEq, Prod.mk.injEq] at h
    obtain ⟨rfl, -⟩ := h
    refine ⟨_, _, e, ?_⟩
    obtain ⟨os, src', h1, -⟩ := C51_success exEnv_ok rfl rfl hw (by decide) (some (Spec.Cli.txt "sums"))
      (some _) ⟨_, rfl, rfl⟩ ⟨rfl, rfl⟩ e fun _ => []
    exact ⟨os, src', h1⟩
  · cases h

example : decText 1204 = Spec.Cli.txt "1204" := by norm_num [decText]; decide

end XXH.Props
