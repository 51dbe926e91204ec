import Verif.Proof.CliTrace
import Verif.Props.CliShow
import Verif.Props.CliProgram
/-!
C54: what xxhsum writes, on which stream, and in which order; what an exit code and an empty standard error mean.
-/
namespace XXH.Props
open Model.Cli CliP Examples
open Spec.Cli (Opt CommandLine)

/-! ### Lemmas about streams -/

theorem writes_nil (fd : Fd) : writes fd [] = [] := rfl

theorem writes_append (fd : Fd) (a b : List Byte) : writes fd (a ++ b) = writes fd a ++ writes fd b := List.map_append

theorem writes_ne {fd : Fd} {x : List Byte} (h : x ≠ []) : writes fd x ≠ [] := by
  intro h'
  exact h (List.map_eq_nil_iff.mp h')

theorem arrives_nil (fd : Fd) : arrives fd [] = [] := rfl

theorem out_err (x : List Byte) : arrives .out (writes .err x) = [] := arrives_other (by decide) x

theorem err_out (x : List Byte) : arrives .err (writes .out x) = [] := arrives_other (by decide) x

/-! ### C54, hashing -/

/-- What is written when a list of files is hashed, and the end: `none` if a file cannot be read, which ends the program;
otherwise whether all files were hashed. `mem` are the answers of the allocator. -/
def listed (t : Texts) (w : World) (a : Algo) (le bsd : Bool) : List Bool → List (List Byte) → Trace × Option Bool
  | _, [] => ([], some true)
  | mem, n :: ns =>
    if w.isDir n then
      (writes .err (Spec.Cli.txt "xxhsum: " ++ n ++ Spec.Cli.txt ": Is a directory \n") ++ (listed t w a le bsd mem ns).1,
        (listed t w a le bsd mem ns).2.map fun _ => false)
    else match w.files n with
      | none =>
        (writes .err (Spec.Cli.txt "Error: Could not open '" ++ n ++ Spec.Cli.txt "': " ++ t.strerror n ++ Spec.Cli.txt ". \n") ++
          (listed t w a le bsd mem ns).1, (listed t w a le bsd mem ns).2.map fun _ => false)
      | some f =>
        if mem.headD true = false then
          (writes .err (Spec.Cli.txt "\nError: Out of memory.\n") ++ (listed t w a le bsd mem.tail ns).1,
            (listed t w a le bsd mem.tail ns).2.map fun _ => false)
        else if f.fail then (writes .err readFailure, none)
        else
          (writes .out (Spec.Cli.recordLine bsd le ⟨algOf a, Spec.Cli.hashOf (algOf a) f.data, n⟩) ++
            (listed t w a le bsd mem.tail ns).1, (listed t w a le bsd mem.tail ns).2)

/-- How a run ends. -/
def ended {α : Type} : Res (Nat × α) → Option Nat
  | .ok (c, _) => some c
  | .exit c => some c
  | .ub => none

/-- One file. -/
theorem hashFileT_eq {env : Env} (hE : EnvOk env) (t : Texts) {w : World} (hw : SmallFiles w) (n : List Byte) (a : Algo)
    (le bsd : Bool) :
    (w.isDir n = true → hashFileT env t w (some n) a le bsd =
      ⟨writes .err (Spec.Cli.txt "xxhsum: " ++ n ++ Spec.Cli.txt ": Is a directory \n"), .ok (1, w)⟩) ∧
    (w.isDir n = false → w.files n = none → hashFileT env t w (some n) a le bsd =
      ⟨writes .err (Spec.Cli.txt "Error: Could not open '" ++ n ++ Spec.Cli.txt "': " ++ t.strerror n ++ Spec.Cli.txt ". \n"),
        .ok (1, w)⟩) ∧
    ∀ f, w.isDir n = false → w.files n = some f →
      (w.mem.headD true = false → hashFileT env t w (some n) a le bsd =
        ⟨writes .err (Spec.Cli.txt "\nError: Out of memory.\n"), .ok (1, { w with mem := w.mem.tail })⟩) ∧
      (w.mem.headD true = true → f.fail = true → hashFileT env t w (some n) a le bsd =
        ⟨writes .err readFailure, .exit 1⟩) ∧
      (w.mem.headD true = true → f.fail = false → hashFileT env t w (some n) a le bsd =
        ⟨writes .out (Spec.Cli.recordLine bsd le ⟨algOf a, Spec.Cli.hashOf (algOf a) f.data, n⟩),
          .ok (0, { w with mem := w.mem.tail })⟩) := by
  refine ⟨fun hd => ?_, fun hd hf => ?_, fun f hd hf => ⟨fun hm => ?_, fun hm hr => ?_, fun hm hr => ?_⟩⟩
  · unfold hashFileT
    simp only [hd, if_true, log_bind, mk_ok_bind, tpure_eq, List.append_nil]
    rfl
  · unfold hashFileT
    simp only [hd, hf, Bool.false_eq_true, if_false, log_bind, mk_ok_bind, tpure_eq, List.append_nil]
    rfl
  · unfold hashFileT
    simp only [hd, hf, Bool.false_eq_true, if_false, World.alloc, hm, Bool.not_false, if_true, log_bind, tpure_eq,
      List.append_nil, Option.isNone_some]
    rfl
  · rcases hashStream_eq hE f a (hw n f hf) with ⟨_, he⟩ | ⟨h, _⟩
    · unfold hashFileT
      simp only [hd, hf, Bool.false_eq_true, if_false, tpure_bind, World.alloc, hm, Bool.not_true, hashStreamT_eq, he,
        mk_exit_bind]
      rfl
    · rw [hr] at h; cases h
  · rcases hashStream_eq hE f a (hw n f hf) with ⟨h, _⟩ | ⟨_, h, f', he, _, _, hc, _⟩
    · rw [hr] at h; cases h
    · unfold hashFileT
      simp only [hd, hf, Bool.false_eq_true, if_false, World.alloc, hm, Bool.not_true, hashStreamT_eq, he,
        mk_ok_bind, hc, of_some, tof_ok_bind, displayLine_eq bsd le n (hashOf_length a f.data), output_bind, tpure_eq,
        List.append_nil, Option.isNone_some, streamTrace, List.nil_append]
      rfl

theorem listed_eq {env : Env} (hE : EnvOk env) (t : Texts) {w0 : World} (hw : SmallFiles w0) (a : Algo) (le bsd : Bool) :
    ∀ (names : List (List Byte)) (w : World) (r : Nat), w.files = w0.files → w.isDir = w0.isDir → r ≤ 1 →
      (hashFilesLoopT env t a le bsd names w r).trace = (listed t w0 a le bsd w.mem names).1 ∧
      ended (hashFilesLoopT env t a le bsd names w r).res =
        some (if r = 0 ∧ (listed t w0 a le bsd w.mem names).2 = some true then 0 else 1) ∧
      ((∃ c, (hashFilesLoopT env t a le bsd names w r).res = .exit c) ↔ (listed t w0 a le bsd w.mem names).2 = none)
  | [], w, r, _, _, hr => by
    refine ⟨rfl, ?_, ?_⟩
    · have : r = 0 ∨ r = 1 := by omega
      rcases this with rfl | rfl <;> rfl
    · simp [hashFilesLoopT, listed, tpure_eq]
  | n :: names, w, r, hf, hi, hr => by
    have hw' : SmallFiles w := by unfold SmallFiles; rw [hf]; exact hw
    obtain ⟨g1, g2, g3⟩ := hashFileT_eq hE t hw' n a le bsd
    have hor : r ||| 0 = r ∧ r ||| 1 = 1 := by
      have : r = 0 ∨ r = 1 := by omega
      rcases this with rfl | rfl <;> decide
    have bad : ∀ (x : Trace) (w1 : World) (mem : List Bool), w1.files = w0.files → w1.isDir = w0.isDir → w1.mem = mem →
        hashFileT env t w (some n) a le bsd = ⟨x, .ok (1, w1)⟩ →
        listed t w0 a le bsd w.mem (n :: names) = (x ++ (listed t w0 a le bsd mem names).1,
          (listed t w0 a le bsd mem names).2.map fun _ => false) →
        (hashFilesLoopT env t a le bsd (n :: names) w r).trace = (listed t w0 a le bsd w.mem (n :: names)).1 ∧
        ended (hashFilesLoopT env t a le bsd (n :: names) w r).res =
          some (if r = 0 ∧ (listed t w0 a le bsd w.mem (n :: names)).2 = some true then 0 else 1) ∧
        ((∃ c, (hashFilesLoopT env t a le bsd (n :: names) w r).res = .exit c) ↔
          (listed t w0 a le bsd w.mem (n :: names)).2 = none) := by
      intro x w1 mem h1 h2 h3 h4 h5
      subst h3
      obtain ⟨i1, i2, i3⟩ := listed_eq hE t hw a le bsd names w1 1 h1 h2 (Nat.le_refl _)
      have hrun : hashFilesLoopT env t a le bsd (n :: names) w r =
          ⟨x ++ (hashFilesLoopT env t a le bsd names w1 1).trace, (hashFilesLoopT env t a le bsd names w1 1).res⟩ := by
        conv_lhs => unfold hashFilesLoopT
        rw [h4, mk_ok_bind]
        simp only [hor.2]
      rw [hrun, h5]
      refine ⟨by rw [i1], ?_, ?_⟩
      · rw [i2]
        cases (listed t w0 a le bsd w1.mem names).2 <;> simp
      · rw [i3]
        cases (listed t w0 a le bsd w1.mem names).2 <;> simp
    cases hd : w.isDir n with
    | true =>
      refine bad _ w w.mem hf hi rfl (g1 hd) ?_
      conv_lhs => unfold listed
      rw [if_pos (by rw [← hi]; exact hd)]
    | false =>
      have hd0 : ¬ (w0.isDir n = true) := by rw [← hi, hd]; exact Bool.false_ne_true
      cases hfn : w.files n with
      | none =>
        refine bad _ w w.mem hf hi rfl (g2 hd hfn) ?_
        conv_lhs => unfold listed
        rw [if_neg hd0, show w0.files n = none by rw [← hf]; exact hfn]
      | some f =>
        have hfn0 : w0.files n = some f := by rw [← hf]; exact hfn
        obtain ⟨k1, k2, k3⟩ := g3 f hd hfn
        cases hm : w.mem.headD true with
        | false =>
          refine bad _ { w with mem := w.mem.tail } w.mem.tail hf hi rfl (k1 hm) ?_
          conv_lhs => unfold listed
          rw [if_neg hd0, hfn0]
          simp only [hm, if_true]
        | true =>
          cases hr : f.fail with
          | true =>
            have hl : listed t w0 a le bsd w.mem (n :: names) = (writes .err readFailure, none) := by
              conv_lhs => unfold listed
              rw [if_neg hd0, hfn0]
              simp only [hm, hr, Bool.true_eq_false, if_false, if_true]
            have hrun : hashFilesLoopT env t a le bsd (n :: names) w r = ⟨writes .err readFailure, .exit 1⟩ := by
              conv_lhs => unfold hashFilesLoopT
              rw [k2 hm hr]
              rfl
            rw [hl, hrun]
            exact ⟨rfl, by simp [ended], by simp⟩
          | false =>
            obtain ⟨i1, i2, i3⟩ := listed_eq hE t hw a le bsd names { w with mem := w.mem.tail } r hf hi (by omega)
            have hl : listed t w0 a le bsd w.mem (n :: names) =
                (writes .out (Spec.Cli.recordLine bsd le ⟨algOf a, Spec.Cli.hashOf (algOf a) f.data, n⟩) ++
                  (listed t w0 a le bsd w.mem.tail names).1, (listed t w0 a le bsd w.mem.tail names).2) := by
              conv_lhs => unfold listed
              rw [if_neg hd0, hfn0]
              simp only [hm, hr, Bool.true_eq_false, Bool.false_eq_true, if_false]
            have hrun : hashFilesLoopT env t a le bsd (n :: names) w r =
                ⟨writes .out (Spec.Cli.recordLine bsd le ⟨algOf a, Spec.Cli.hashOf (algOf a) f.data, n⟩) ++
                  (hashFilesLoopT env t a le bsd names { w with mem := w.mem.tail } r).trace,
                  (hashFilesLoopT env t a le bsd names { w with mem := w.mem.tail } r).res⟩ := by
              conv_lhs => unfold hashFilesLoopT
              rw [k3 hm hr, mk_ok_bind]
              simp only [hor.1]
            rw [hl, hrun]
            exact ⟨by rw [i1], i2, i3⟩

/-- **C54.** Hashing files writes exactly `listed`: one line on standard output for each file that could be hashed, one
message on standard error for each other, in the order of the files; the exit code is 0 exactly if all were hashed; a
file that cannot be read (and only that) ends the program at once, with 1. -/
theorem C54_hash {env : Env} (hE : EnvOk env) (t : Texts) {w : World} (hw : SmallFiles w) {names : List (List Byte)}
    (hn : names ≠ []) (a : Algo) (le bsd : Bool) :
    (hashFilesT env t w names a le bsd).trace = (listed t w a le bsd w.mem names).1 ∧
    ended (hashFilesT env t w names a le bsd).res =
      some (if (listed t w a le bsd w.mem names).2 = some true then 0 else 1) ∧
    ((∃ c, (hashFilesT env t w names a le bsd).res = .exit c) ↔ (listed t w a le bsd w.mem names).2 = none) := by
  have := listed_eq hE t hw a le bsd names w 0 rfl rfl (by omega)
  unfold hashFilesT
  rw [if_neg (by simpa using hn)]
  simpa using this

/-- Standard error is empty exactly if all files were hashed. -/
theorem listed_err (t : Texts) (w : World) (a : Algo) (le bsd : Bool) : ∀ (names : List (List Byte)) (mem : List Bool),
    (listed t w a le bsd mem names).2 = some true ↔ arrives .err (listed t w a le bsd mem names).1 = []
  | [], _ => by simp [listed, arrives_nil]
  | n :: names, mem => by
    have hne : ∀ (x : List Byte) (tr : Trace), x ≠ [] → arrives .err (writes .err x ++ tr) ≠ [] := by
      intro x tr hx h
      rw [arrives_append, arrives_same] at h
      exact hx (List.append_eq_nil_iff.mp h).1
    have hnot : ∀ o : Option Bool, (o.map fun _ => false) ≠ some true := by intro o; cases o <;> simp
    unfold listed
    split
    · exact iff_of_false (hnot _) (hne _ _ (by simp [Spec.Cli.txt]))
    · split
      · exact iff_of_false (hnot _) (hne _ _ (by simp [Spec.Cli.txt]))
      · split
        · exact iff_of_false (hnot _) (hne _ _ (by simp [Spec.Cli.txt]))
        · split
          · refine iff_of_false (by simp) ?_
            rw [arrives_same]
            simp [readFailure, Spec.Cli.txt]
          · simp only [arrives_append, err_out, List.nil_append]
            exact listed_err t w a le bsd names mem.tail

/-- **C54**, an empty standard error is as good as exit code 0. -/
theorem C54_hash_stderr {env : Env} (hE : EnvOk env) (t : Texts) {w : World} (hw : SmallFiles w) {names : List (List Byte)}
    (hn : names ≠ []) (a : Algo) (le bsd : Bool) :
    ended (hashFilesT env t w names a le bsd).res = some 0 ↔
      arrives .err (hashFilesT env t w names a le bsd).trace = [] := by
  obtain ⟨h1, h2, _⟩ := C54_hash hE t hw hn a le bsd
  rw [h1, h2, ← listed_err]
  split <;> simp_all

/-- Nothing behind a file that cannot be read matters. -/
theorem listed_stops (t : Texts) (w : World) (a : Algo) (le bsd : Bool) {n : List Byte} {f : Stream} (hd : w.isDir n = false)
    (hf : w.files n = some f) (hr : f.fail = true) (after after' : List (List Byte)) :
    ∀ (before : List (List Byte)) (mem : List Bool), false ∉ mem →
      listed t w a le bsd mem (before ++ n :: after) = listed t w a le bsd mem (before ++ n :: after') ∧
      (listed t w a le bsd mem (before ++ n :: after)).2 = none
  | [], mem, hm => by
    have hh : ¬ (mem.headD true = false) := fun h => hm (headD_false h)
    simp only [List.nil_append]
    unfold listed
    simp only [hd, Bool.false_eq_true, if_false, hf, hh, hr, if_true]
    exact ⟨rfl, rfl⟩
  | m :: before, mem, hm => by
    obtain ⟨i1, i2⟩ := listed_stops t w a le bsd hd hf hr after after' before mem hm
    obtain ⟨j1, j2⟩ := listed_stops t w a le bsd hd hf hr after after' before mem.tail (fun h => hm (List.mem_of_mem_tail h))
    simp only [List.cons_append]
    unfold listed
    rw [← i1, ← j1, i2, j2]
    refine ⟨rfl, ?_⟩
    split
    · rfl
    · split
      · rfl
      · split
        · rfl
        · split <;> rfl

/-- **C54**, a finding: one file that cannot be read (not: opened) ends the program, so that the files named after it are
neither listed nor mentioned. -/
theorem C54_hash_stops {env : Env} (hE : EnvOk env) (t : Texts) {w : World} (hw : SmallFiles w) (hm : false ∉ w.mem)
    {n : List Byte} {f : Stream} (hd : w.isDir n = false) (hf : w.files n = some f) (hr : f.fail = true)
    (before after : List (List Byte)) (a : Algo) (le bsd : Bool) :
    (hashFilesT env t w (before ++ n :: after) a le bsd).trace = (hashFilesT env t w (before ++ [n]) a le bsd).trace ∧
    (∃ c, (hashFilesT env t w (before ++ n :: after) a le bsd).res = .exit c) ∧
    ended (hashFilesT env t w (before ++ n :: after) a le bsd).res = some 1 := by
  obtain ⟨h1, h2, h3⟩ := C54_hash hE t hw (names := before ++ n :: after) (by simp) a le bsd
  obtain ⟨g1, -⟩ := C54_hash hE t hw (names := before ++ [n]) (by simp) a le bsd
  obtain ⟨k1, k2⟩ := listed_stops t w a le bsd hd hf hr after [] before w.mem hm
  refine ⟨by rw [h1, g1, k1], h3.mpr k2, ?_⟩
  rw [h2, k2]
  rfl

/-- **C54**, standard input is hashed under the name `stdin`; a failure is reported on standard error, with exit code 1. -/
theorem C54_stdin {env : Env} (hE : EnvOk env) (t : Texts) {w : World} (hl : w.stdin.data.length < 2 ^ 64) (a : Algo)
    (le bsd : Bool) :
    (w.mem.headD true = false → (hashFilesT env t w [] a le bsd).trace = writes .err (Spec.Cli.txt "\nError: Out of memory.\n") ∧
      ended (hashFilesT env t w [] a le bsd).res = some 1) ∧
    (w.mem.headD true = true → w.stdin.fail = true →
      hashFilesT env t w [] a le bsd = ⟨writes .err readFailure, .exit 1⟩) ∧
    (w.mem.headD true = true → w.stdin.fail = false →
      (hashFilesT env t w [] a le bsd).trace = writes .out (Spec.Cli.recordLine bsd le
        ⟨algOf a, Spec.Cli.hashOf (algOf a) w.stdin.data, Spec.Cli.txt "stdin"⟩) ∧
      ended (hashFilesT env t w [] a le bsd).res = some 0) := by
  have he : hashFilesT env t w [] a le bsd = hashFileT env t w none a le bsd := rfl
  rw [he]
  refine ⟨fun hm => ?_, fun hm hr => ?_, fun hm hr => ?_⟩
  · unfold hashFileT
    simp only [World.alloc, hm, Bool.not_false, if_true, log_bind, tpure_eq, List.append_nil]
    exact ⟨rfl, rfl⟩
  · rcases hashStream_eq hE w.stdin a hl with ⟨_, he⟩ | ⟨h, _⟩
    · unfold hashFileT
      simp only [tpure_bind, World.alloc, hm, Bool.not_true, Bool.false_eq_true, if_false, hashStreamT_eq, he, mk_exit_bind]
      rfl
    · rw [hr] at h; cases h
  · rcases hashStream_eq hE w.stdin a hl with ⟨h, _⟩ | ⟨_, h, f', he, _, _, hc, _⟩
    · rw [hr] at h; cases h
    · unfold hashFileT
      simp only [World.alloc, hm, Bool.not_true, Bool.false_eq_true, if_false, hashStreamT_eq, he,
        mk_ok_bind, hc, of_some, tof_ok_bind, stdinFileName_eq, displayLine_eq bsd le _ (hashOf_length a w.stdin.data),
        output_bind, tpure_eq, List.append_nil, streamTrace, List.nil_append]
      exact ⟨rfl, rfl⟩

/-! ### C54, verifying -/

theorem callName_eq (name : Option (List Byte)) : callName name = checkName name := by cases name <;> rfl

theorem openCheck_of {w : World} {name : Option (List Byte)} {text : Option (List Byte)}
    (ht : match name with | none => text = none | some n => ∃ f, w.files n = some f ∧ text = some f.data) :
    ∃ inp : Option Stream, openCheck w name = some inp ∧ inp.map (·.data) = text := by
  cases name with
  | none => exact ⟨none, rfl, ht.symm⟩
  | some n =>
    obtain ⟨f, h1, h2⟩ := ht
    exact ⟨some f, by simp [openCheck, h1], h2.symm⟩

theorem check_cases (w : World) (name : Option (List Byte)) :
    (∃ n, name = some n ∧ w.files n = none) ∨ ∃ text : Option (List Byte),
      (match name with | none => text = none | some n => ∃ f, w.files n = some f ∧ text = some f.data) := by
  cases name with
  | none => exact .inr ⟨none, rfl⟩
  | some n =>
    cases hf : w.files n with
    | none => exact .inl ⟨n, rfl, hf⟩
    | some f => exact .inr ⟨some f.data, f, hf, rfl⟩

/-- **C54.** Verifying a checksum file that can be opened, with memory for the two buffers, follows the specification of
C33 and writes exactly this: for each line its message (`lineMessage`; warnings on standard error, all else on standard
output); then, if a listed file cannot be read, `readFailure` on standard error, and the program ends; otherwise, if the
verification is given up, the reason on standard error; and at the end the totals (`closing`). -/
theorem C54_check {env : Env} (hE : EnvOk env) (t : Texts) (opts : CheckOpts) {w : World} (hw : SmallFiles w)
    (hs : w.stdin.data.length < 2 ^ 64) (name : Option (List Byte)) (text : Option (List Byte))
    (ht : match name with | none => text = none | some n => ∃ f, w.files n = some f ∧ text = some f.data)
    (hm : w.mem.headD true = true ∧ w.mem.tail.headD true = true) :
    ∃ os e src', Spec.Cli.Checks (circumstances env opts w) 0 ⟨text, w.stdin.data⟩ os e src' ∧
      (e = .readError → checkFileT env t w name opts =
        ⟨lineMessages t opts (checkName name) 0 os ++ writes .err readFailure, .exit 1⟩) ∧
      (e ≠ .readError → ∃ tr ok w', checkFileT env t w name opts =
          ⟨lineMessages t opts (checkName name) 0 os ++ tr ++ closing opts (checkName name) os, .ok (ok, w')⟩ ∧
        (ok = true ↔ Spec.Cli.Success opts.strictMode opts.ignoreMissing os e) ∧
        checkFile env w name opts = .ok (ok, report opts os, w') ∧
        w'.files = w.files ∧ w'.isDir = w.isDir ∧ w'.stdin.data.length ≤ w.stdin.data.length ∧
        (e = .complete → tr = []) ∧
        (e = .quit → ∃ m, GivesUp (circumstances env opts w) (checkName name) os.length
          (text.map (Spec.Cli.otherLines^[os.length])) m ∧ tr = writes .err m)) := by
  obtain ⟨inp, hi, rfl⟩ := openCheck_of ht
  have hc : circumstances env opts w = settingOf env opts w (false ∈ w.mem.drop 2) := rfl
  obtain ⟨os, e, src', h1, h2, h3⟩ := checkFileT_eq hE t opts hw hs name inp hi hm hc
  rw [callName_eq] at *
  refine ⟨os, e, src', h1, h2, fun he => ?_⟩
  obtain ⟨tr, ok, w', g1, g2, g3, g4, ⟨r, g5, g6⟩, g7, g8⟩ := h3 he
  rw [report_eq g5] at g6
  exact ⟨tr, ok, w', g1, g2, g6, g3.files, g3.isDir, g3.small, g7, g8⟩

/-- **C54**, a checksum file that is not verified: the reason is given on standard error. -/
theorem C54_check_no_file (env : Env) (t : Texts) (opts : CheckOpts) (w : World) :
    (∀ n, w.files n = none → checkFileT env t w (some n) opts =
      ⟨writes .err (Spec.Cli.txt "Error: Could not open '" ++ n ++ Spec.Cli.txt "': " ++ t.strerror n ++ Spec.Cli.txt "\n"),
        .ok (false, w)⟩) ∧
    (∀ name, (∀ n, name = some n → w.files n ≠ none) → (w.mem.headD true = false ∨ w.mem.tail.headD true = false) →
      checkFileT env t w name opts = ⟨writes .err (Spec.Cli.txt "Error: : memory allocation failed \n"), .exit 1⟩) := by
  refine ⟨fun n h => checkFileT_none h, fun name hn hm => ?_⟩
  have : ∃ inp, openCheck w name = some inp := by
    cases name with
    | none => exact ⟨none, rfl⟩
    | some n =>
      obtain ⟨f, hf⟩ := Option.ne_none_iff_exists'.mp (hn n rfl)
      exact ⟨some f, by simp [openCheck, hf]⟩
  obtain ⟨inp, hi⟩ := this
  refine checkFileT_noMemory hi ?_
  rintro ⟨h1, h2⟩
  rcases hm with hm | hm
  · rw [h1] at hm; cases hm
  · rw [h2] at hm; cases hm

/-- `strerror` for the lines of a checksum file. -/
def lineErrors (t : Texts) (os : List Spec.Cli.Outcome) (n : Nat) : List Byte :=
  match os[n - 1]? with
  | some (.missing name) => t.strerror name
  | _ => []

theorem out_message (t : Texts) (opts : CheckOpts) (file : List Byte) (error : Nat → List Byte) (k : Nat)
    (o : Spec.Cli.Outcome) (he : ∀ n, o = .missing n → error k = t.strerror n) :
    arrives .out (lineMessage t opts file k o) = outBytes file error (message opts k o) := by
  cases o with
  | comment => rfl
  | malformed =>
    unfold lineMessage message
    cases opts.warn with
    | true => exact out_err _
    | false => rfl
  | ok name =>
    simp only [lineMessage, message]
    split
    · rfl
    · rw [arrives_same]; simp [outBytes, Out.bytes]
  | mismatch name =>
    simp only [lineMessage, message]
    split
    · rfl
    · rw [arrives_same]; simp [outBytes, Out.bytes]
  | missing name =>
    simp only [lineMessage, message]
    split
    · rfl
    · rw [arrives_same]; simp [outBytes, Out.bytes, he name rfl, str, Spec.Cli.txt]

theorem outBytes_append (file : List Byte) (error : Nat → List Byte) (a b : List Out) :
    outBytes file error (a ++ b) = outBytes file error a ++ outBytes file error b := List.flatMap_append

theorem out_messages (t : Texts) (opts : CheckOpts) (file : List Byte) (error : Nat → List Byte) :
    ∀ (os : List Spec.Cli.Outcome) (k : Nat),
      (∀ i n, os[i]? = some (.missing n) → error (k + 1 + i) = t.strerror n) →
      arrives .out (lineMessages t opts file k os) =
        outBytes file error ((os.zipIdx (k + 1)).flatMap fun p => message opts p.2 p.1)
  | [], _, _ => rfl
  | o :: os, k, h => by
    rw [lineMessages_cons, arrives_append, List.zipIdx_cons, List.flatMap_cons, outBytes_append,
      out_message t opts file error (k + 1) o (fun n hn => h 0 n (by simp [hn])),
      out_messages t opts file error os (k + 1) (fun i n hn => by
        have := h (i + 1) n (by simpa using hn)
        rw [← this]; congr 1; omega)]

theorem out_closing (opts : CheckOpts) (file : List Byte) (error : Nat → List Byte) (os : List Spec.Cli.Outcome) :
    arrives .out (closing opts file os) = outBytes file error (totals opts os ++ nothingVerified opts os) := by
  have hcount : ∀ (n : Nat) (b s p a : String) (mk : Nat → Out),
      (Out.bytes file error (mk n) = decText n ++ str b ++ str (if n = 1 then s else p) ++ str a) →
      counted n b s p a = outBytes file error (if n = 0 then [] else [mk n]) := by
    intro n b s p a mk h
    unfold counted
    split
    · rfl
    · simp only [outBytes, List.flatMap_cons, List.flatMap_nil, List.append_nil, h]
      rfl
  unfold closing totals nothingVerified
  rw [arrives_append, outBytes_append]
  congr 1
  · by_cases h0 : ∀ o ∈ os, o.entry = false
    · rw [if_pos h0, if_pos (.inr h0), out_err]; rfl
    · rw [if_neg h0]
      cases hst : opts.statusOnly with
      | true => simp [arrives, outBytes]
      | false =>
        rw [if_neg Bool.false_ne_true, if_neg (show ¬ (false = true ∨ ∀ o ∈ os, o.entry = false) from fun h =>
          h.elim Bool.false_ne_true h0), arrives_same, outBytes_append, outBytes_append]
        congr 1
        · congr 1
          · exact hcount _ _ _ _ _ .improper rfl
          · cases opts.ignoreMissing with
            | true => simp [outBytes]
            | false =>
              simp only [Bool.false_eq_true, if_false, false_or]
              exact hcount _ _ _ _ _ .unreadable rfl
        · exact hcount _ _ _ _ _ .mismatched rfl
  · split
    · rw [arrives_same]; simp [outBytes, Out.bytes, str, Spec.Cli.txt]
    · rfl

/-- **C54**, standard output is the report of C33 as bytes: so C51 applies to what really arrives. -/
theorem C54_check_stdout {env : Env} (hE : EnvOk env) (t : Texts) (opts : CheckOpts) {w : World} (hw : SmallFiles w)
    (hs : w.stdin.data.length < 2 ^ 64) (name : Option (List Byte))
    {ok : Bool} {out : List Out} {w' : World} (h : checkFile env w name opts = .ok (ok, out, w')) :
    (checkFileT env t w name opts).res = .ok (ok, w') ∧
    ∃ error : Nat → List Byte, (∀ n, error n = [] ∨ ∃ name, error n = t.strerror name) ∧
      arrives .out (checkFileT env t w name opts).trace = outBytes (checkName name) error out := by
  refine ⟨by rw [checkFileT_res, h]; rfl, ?_⟩
  rcases check_cases w name with ⟨n, rfl, hf⟩ | ⟨text, ht⟩
  · rw [(C33_no_file env opts w n).1 hf] at h
    cases h
    exact ⟨fun _ => [], fun _ => .inl rfl, by rw [checkFileT_none hf]; exact out_err _⟩
  · by_cases hm : w.mem.headD true = true ∧ w.mem.tail.headD true = true
    · obtain ⟨os, e, src', h1, h2, h3⟩ := C54_check hE t opts hw hs name text ht hm
      have hne : e ≠ .readError := by
        intro he
        have := checkFileT_res env t w name opts
        rw [h2 he, h] at this
        cases this
      obtain ⟨tr, ok', w'', g1, _, g3, _, _, _, g7, g8⟩ := h3 hne
      rw [g3] at h
      cases h
      refine ⟨lineErrors t os, fun n => ?_, ?_⟩
      · unfold lineErrors
        split
        · exact .inr ⟨_, rfl⟩
        · exact .inl rfl
      · rw [g1]
        have htr : arrives .out tr = [] := by
          cases e with
          | readError => exact absurd rfl hne
          | complete => rw [g7 rfl]; rfl
          | quit => obtain ⟨m, _, rfl⟩ := g8 rfl; exact out_err m
        simp only [arrives_append, htr, List.append_nil]
        rw [out_messages t opts (checkName name) (lineErrors t os) os 0 (fun i n hi => by simp [lineErrors, hi]),
          out_closing opts (checkName name) (lineErrors t os) os, ← outBytes_append, report, List.append_assoc]
    · obtain ⟨inp, hi, -⟩ := openCheck_of ht
      have := checkFileT_res env t w name opts
      rw [checkFileT_noMemory hi hm, h] at this
      cases this

theorem lineMessages_nil {t : Texts} {opts : CheckOpts} {file : List Byte} : ∀ {os : List Spec.Cli.Outcome} {k : Nat},
    lineMessages t opts file k os = [] ↔ ∀ i o, os[i]? = some o → lineMessage t opts file (k + 1 + i) o = []
  | [], k => by simp [lineMessages]
  | o :: os, k => by
    rw [lineMessages_cons, List.append_eq_nil_iff, lineMessages_nil]
    constructor
    · rintro ⟨h1, h2⟩ i o' hi
      cases i with
      | zero => simp only [List.getElem?_cons_zero, Option.some.injEq] at hi; subst hi; exact h1
      | succ i =>
        rw [List.getElem?_cons_succ] at hi
        have := h2 i o' hi
        rwa [show k + 1 + (i + 1) = k + 1 + 1 + i by omega]
    · intro h
      refine ⟨h 0 o rfl, fun i o' hi => ?_⟩
      have := h (i + 1) o' (by simpa using hi)
      rwa [show k + 1 + (i + 1) = k + 1 + 1 + i by omega] at this

theorem givesUp_ne {c : Spec.Cli.Setting} {file : List Byte} {n : Nat} {rest : Option (List Byte)} {m : List Byte}
    (h : GivesUp c file n rest m) : m ≠ [] := by
  cases h <;> simp [lineError, Spec.Cli.txt]

theorem counted_ne {n : Nat} (h : n ≠ 0) (b s p a : String) (ha : Spec.Cli.txt a ≠ []) : counted n b s p a ≠ [] := by
  unfold counted
  rw [if_neg h]
  simp [ha]

/-- **C54**, a failure is explained: unless `--status` is given, a verification that is no success has written something. -/
theorem C54_check_explained {env : Env} (hE : EnvOk env) (t : Texts) {opts : CheckOpts} (hst : opts.statusOnly = false)
    {w : World} (hw : SmallFiles w) (hs : w.stdin.data.length < 2 ^ 64) (name : Option (List Byte))
    (h : ∀ w', (checkFileT env t w name opts).res ≠ .ok (true, w')) :
    (checkFileT env t w name opts).trace ≠ [] := by
  rcases check_cases w name with ⟨n, rfl, hf⟩ | ⟨text, ht⟩
  · rw [checkFileT_none hf]
    exact writes_ne (by simp [Spec.Cli.txt])
  · by_cases hm : w.mem.headD true = true ∧ w.mem.tail.headD true = true
    · obtain ⟨os, e, src', h1, h2, h3⟩ := C54_check hE t opts hw hs name text ht hm
      by_cases hne : e = .readError
      · rw [h2 hne]
        simp only [ne_eq, List.append_eq_nil_iff, not_and]
        exact fun _ => writes_ne (by simp [readFailure, Spec.Cli.txt])
      · obtain ⟨tr, ok, w', g1, g2, _, _, _, _, g7, g8⟩ := h3 hne
        rw [g1] at h ⊢
        simp only [ne_eq, List.append_eq_nil_iff, not_and]
        rintro ⟨-, htr⟩ hcl
        cases he : e with
        | readError => exact hne he
        | quit =>
          obtain ⟨m, hg, rfl⟩ := g8 he
          exact writes_ne (givesUp_ne hg) htr
        | complete =>
          have hok : ok = true := by
            rw [g2]
            unfold closing at hcl
            rw [List.append_eq_nil_iff] at hcl
            obtain ⟨c1, c2⟩ := hcl
            by_cases hentry : ∀ o ∈ os, o.entry = false
            · rw [if_pos hentry] at c1
              exact absurd c1 (writes_ne (by simp [Spec.Cli.txt]))
            · rw [if_neg hentry, hst, if_neg Bool.false_ne_true] at c1
              have c1 := List.map_eq_nil_iff.mp c1
              rw [List.append_eq_nil_iff, List.append_eq_nil_iff] at c1
              obtain ⟨⟨d1, d2⟩, d3⟩ := c1
              have zero : ∀ (p : Spec.Cli.Outcome → Bool) (b s q a : String), Spec.Cli.txt a ≠ [] →
                  counted (os.countP p) b s q a = [] → ∀ o ∈ os, p o = false := by
                intro p b s q a ha hc o ho
                by_contra hp
                refine counted_ne (fun h0 => ?_) b s q a ha hc
                rw [List.countP_eq_zero] at h0
                exact h0 o ho (by simpa using hp)
              refine ⟨he, ?_, ?_, ?_, ?_, ?_⟩
              · push Not at hentry
                obtain ⟨o, ho, hx⟩ := hentry
                exact ⟨o, ho, by simpa using hx⟩
              · exact zero _ _ _ _ _ (by simp [Spec.Cli.txt]) d3
              · intro hi
                rw [hi, if_neg Bool.false_ne_true] at d2
                exact zero _ _ _ _ _ (by simp [Spec.Cli.txt]) d2
              · intro hi
                by_contra hno
                push Not at hno
                rw [if_pos ⟨hi, fun o ho => by simpa using hno o ho⟩] at c2
                exact writes_ne (by simp [Spec.Cli.txt]) c2
              · intro _
                exact zero _ _ _ _ _ (by simp [Spec.Cli.txt]) d1
          exact h w' (by rw [hok])
    · obtain ⟨inp, hi, -⟩ := openCheck_of ht
      rw [checkFileT_noMemory hi hm]
      exact writes_ne (by simp [Spec.Cli.txt])

/-- **C54**, `--status` ("Don't output anything, status code shows success"): what is written all the same. A verification
with `--status` is silent exactly if it reaches the end of the checksum file, a line names a file, no line is malformed
(or `--warn` is not given), and some file is verified (or `--ignore-missing` is not given). -/
theorem C54_status {env : Env} (hE : EnvOk env) (t : Texts) {opts : CheckOpts} (hst : opts.statusOnly = true)
    {w : World} (hw : SmallFiles w) (hs : w.stdin.data.length < 2 ^ 64) (name : Option (List Byte)) (text : Option (List Byte))
    (ht : match name with | none => text = none | some n => ∃ f, w.files n = some f ∧ text = some f.data)
    (hm : w.mem.headD true = true ∧ w.mem.tail.headD true = true) :
    ∃ os e src', Spec.Cli.Checks (circumstances env opts w) 0 ⟨text, w.stdin.data⟩ os e src' ∧
      ((checkFileT env t w name opts).trace = [] ↔ e = .complete ∧ (∃ o ∈ os, o.entry = true) ∧
        (opts.warn = true → ∀ o ∈ os, o.isMalformed = false) ∧ (opts.ignoreMissing = true → ∃ o ∈ os, o.isOk = true)) := by
  obtain ⟨os, e, src', h1, h2, h3⟩ := C54_check hE t opts hw hs name text ht hm
  refine ⟨os, e, src', h1, ?_⟩
  by_cases hne : e = .readError
  · rw [h2 hne]
    refine iff_of_false ?_ ?_
    · simp only [List.append_eq_nil_iff, not_and]
      exact fun _ => writes_ne (by simp [readFailure, Spec.Cli.txt])
    · rintro ⟨h, _⟩; rw [hne] at h; cases h
  · obtain ⟨tr, ok, w', g1, _, _, _, _, _, g7, g8⟩ := h3 hne
    rw [g1]
    simp only [List.append_eq_nil_iff]
    have htr : tr = [] ↔ e = .complete := by
      cases he : e with
      | readError => exact absurd he hne
      | complete => simp [g7 he]
      | quit =>
        obtain ⟨m, hg, rfl⟩ := g8 he
        exact iff_of_false (writes_ne (givesUp_ne hg)) (by simp)
    have hlm : lineMessages t opts (checkName name) 0 os = [] ↔ (opts.warn = true → ∀ o ∈ os, o.isMalformed = false) := by
      rw [lineMessages_nil]
      constructor
      · intro h hwn o ho
        obtain ⟨i, hi⟩ := List.mem_iff_getElem?.mp ho
        have := h i o hi
        cases o with
        | malformed =>
          simp only [lineMessage, hwn, if_true] at this
          exact absurd this (writes_ne (by simp [lineError, Spec.Cli.txt]))
        | _ => rfl
      · intro h i o hi
        have ho := List.mem_of_getElem? hi
        cases o with
        | malformed =>
          cases hwn : opts.warn with
          | true => exact absurd (h hwn _ ho) (by simp [Spec.Cli.Outcome.isMalformed])
          | false => simp [lineMessage, hwn]
        | _ => simp [lineMessage, hst]
    have hcl : closing opts (checkName name) os = [] ↔
        (∃ o ∈ os, o.entry = true) ∧ (opts.ignoreMissing = true → ∃ o ∈ os, o.isOk = true) := by
      unfold closing
      rw [List.append_eq_nil_iff]
      constructor
      · rintro ⟨c1, c2⟩
        constructor
        · by_contra hno
          push Not at hno
          rw [if_pos (fun o ho => by simpa using hno o ho)] at c1
          exact writes_ne (by simp [Spec.Cli.txt]) c1
        · intro hi
          by_contra hno
          push Not at hno
          rw [if_pos ⟨hi, fun o ho => by simpa using hno o ho⟩] at c2
          exact writes_ne (by simp [Spec.Cli.txt]) c2
      · rintro ⟨⟨o, ho, hx⟩, h2⟩
        refine ⟨?_, ?_⟩
        · rw [if_neg (fun h => by rw [h o ho] at hx; cases hx), hst, if_pos rfl]
        · rw [if_neg]
          rintro ⟨hi, hno⟩
          obtain ⟨o', ho', hx'⟩ := h2 hi
          rw [hno o' ho'] at hx'
          cases hx'
    rw [htr, hlm, hcl]
    exact ⟨fun h => ⟨h.1.2, h.2.1, h.1.1, h.2.2⟩, fun h => ⟨⟨h.2.2.1, h.1⟩, h.2.1, h.2.2.2⟩⟩

theorem err_messages (t : Texts) (opts : CheckOpts) (file : List Byte) (hwn : opts.warn = false) :
    ∀ (os : List Spec.Cli.Outcome) (k : Nat), arrives .err (lineMessages t opts file k os) = []
  | [], _ => rfl
  | o :: os, k => by
    rw [lineMessages_cons, arrives_append, err_messages t opts file hwn os, List.append_nil]
    cases o with
    | comment => rfl
    | malformed => simp [lineMessage, hwn, arrives]
    | ok name => simp only [lineMessage]; split; rfl; exact err_out _
    | mismatch name => simp only [lineMessage]; split; rfl; exact err_out _
    | missing name => simp only [lineMessage]; split; rfl; exact err_out _

/-- **C54**, without `--warn` standard error stays empty exactly if the whole checksum file was read, every file it names
that could be opened was read to its end, and at least one line names a file; so after a success it is empty. -/
theorem C54_check_stderr {env : Env} (hE : EnvOk env) (t : Texts) {opts : CheckOpts} (hwn : opts.warn = false)
    {w : World} (hw : SmallFiles w) (hs : w.stdin.data.length < 2 ^ 64) (name : Option (List Byte)) (text : Option (List Byte))
    (ht : match name with | none => text = none | some n => ∃ f, w.files n = some f ∧ text = some f.data)
    (hm : w.mem.headD true = true ∧ w.mem.tail.headD true = true) :
    (∃ os e src', Spec.Cli.Checks (circumstances env opts w) 0 ⟨text, w.stdin.data⟩ os e src' ∧
      (arrives .err (checkFileT env t w name opts).trace = [] ↔ e = .complete ∧ ∃ o ∈ os, o.entry = true)) ∧
    ((∃ w', (checkFileT env t w name opts).res = .ok (true, w')) →
      arrives .err (checkFileT env t w name opts).trace = []) := by
  obtain ⟨os, e, src', h1, h2, h3⟩ := C54_check hE t opts hw hs name text ht hm
  have key : arrives .err (checkFileT env t w name opts).trace = [] ↔ e = .complete ∧ ∃ o ∈ os, o.entry = true := by
    by_cases hne : e = .readError
    · rw [h2 hne]
      refine iff_of_false ?_ ?_
      · simp only [arrives_append, arrives_same, List.append_eq_nil_iff, not_and]
        exact fun _ => by simp [readFailure, Spec.Cli.txt]
      · rintro ⟨h, _⟩; rw [hne] at h; cases h
    · obtain ⟨tr, ok, w', g1, _, _, _, _, _, g7, g8⟩ := h3 hne
      rw [g1]
      simp only [arrives_append, err_messages t opts _ hwn, List.nil_append, List.append_eq_nil_iff]
      have htr : arrives .err tr = [] ↔ e = .complete := by
        cases he : e with
        | readError => exact absurd he hne
        | complete => simp [g7 he, arrives]
        | quit =>
          obtain ⟨m, hg, rfl⟩ := g8 he
          rw [arrives_same]
          exact iff_of_false (givesUp_ne hg) (by simp)
      have hcl : arrives .err (closing opts (checkName name) os) = [] ↔ ∃ o ∈ os, o.entry = true := by
        unfold closing
        rw [arrives_append]
        have h2 : arrives .err (if opts.ignoreMissing = true ∧ ∀ o ∈ os, o.isOk = false then
            writes .out (checkName name ++ Spec.Cli.txt ": no file was verified\n") else []) = [] := by
          split
          · exact err_out _
          · rfl
        rw [h2, List.append_nil]
        by_cases hentry : ∀ o ∈ os, o.entry = false
        · rw [if_pos hentry, arrives_same]
          refine iff_of_false (by simp [Spec.Cli.txt]) ?_
          rintro ⟨o, ho, hx⟩
          rw [hentry o ho] at hx
          cases hx
        · rw [if_neg hentry]
          refine iff_of_true ?_ ?_
          · split
            · rfl
            · exact err_out _
          · push Not at hentry
            obtain ⟨o, ho, hx⟩ := hentry
            exact ⟨o, ho, by simpa using hx⟩
      rw [htr, hcl]
  refine ⟨⟨os, e, src', h1, key⟩, ?_⟩
  rintro ⟨w', hres⟩
  rw [key]
  by_cases hne : e = .readError
  · rw [h2 hne] at hres; cases hres
  · obtain ⟨tr, ok, w'', g1, g2, _⟩ := h3 hne
    rw [g1] at hres
    injection hres with hres
    injection hres with hok _
    obtain ⟨s1, s2, _⟩ := g2.mp hok
    exact ⟨s1, s2⟩

/-! ### C54, options -/

/-- `y` does what `x` does and writes the same on standard output, but possibly less on standard error. -/
structure Quieter {α : Type} (x y : Traced α) : Prop where
  res : y.res = x.res
  out : arrives .out y.trace = arrives .out x.trace
  less : y.trace.Sublist x.trace

theorem Quieter.refl {α : Type} (x : Traced α) : Quieter x x := ⟨rfl, rfl, List.Sublist.refl _⟩

theorem Quieter.bind {α β : Type} {x y : Traced α} {f g : α → Traced β} (h : Quieter x y) (hf : ∀ a, Quieter (f a) (g a)) :
    Quieter (x >>= f) (y >>= g) := by
  obtain ⟨h1, h2, h3⟩ := h
  refine ⟨?_, ?_, ?_⟩
  · rw [tbind_res, tbind_res, h1]
    cases x.res with
    | ok a => exact (hf a).res
    | _ => rfl
  · rw [tbind_trace, tbind_trace, h1]
    cases x.res with
    | ok a => simp only [arrives_append, h2, (hf a).out]
    | _ => simp only [arrives_append, h2]
  · rw [tbind_trace, tbind_trace, h1]
    cases x.res with
    | ok a => exact h3.append (hf a).less
    | _ => exact h3.append (List.Sublist.refl _)

theorem quieter_log {α : Type} (b : Bool) (m : List Byte) (k : Traced α) :
    Quieter (if b then log m >>= fun _ => k else k) k := by
  cases b with
  | false => exact Quieter.refl k
  | true =>
    refine ⟨rfl, ?_, ?_⟩
    · show arrives .out k.trace = arrives .out (writes .err m ++ k.trace)
      rw [arrives_append, out_err, List.nil_append]
    · exact List.sublist_append_right _ _

theorem quieter_step (env : Env) (t : Texts) (opts : CheckOpts) (file : List Byte) (s : PF) :
    Quieter (parseStepT env t opts file s) (parseStepT env t { opts with warn := false } file s) := by
  unfold parseStepT
  dsimp only
  by_cases h0 : inc env s.lineNumber = 0
  · simp only [h0, if_true]
    exact Quieter.refl _
  · simp only [h0, if_false]
    refine Quieter.bind (Quieter.refl _) ?_
    rintro ⟨r, lineBuf, lineMax, data, mem⟩
    dsimp only
    cases r with
    | ok =>
      refine Quieter.bind (Quieter.refl _) fun line => ?_
      refine Quieter.bind (Quieter.refl _) fun p => ?_
      cases p with
      | none =>
        simp only [Bool.false_eq_true, if_false]
        exact quieter_log _ _ _
      | some p => exact Quieter.refl _
    | _ => exact Quieter.refl _

theorem quieter_loop (env : Env) (t : Texts) (opts : CheckOpts) (file : List Byte) : ∀ (fuel : Nat) (s : PF),
    Quieter (parseLoopT env t opts file fuel s) (parseLoopT env t { opts with warn := false } file fuel s)
  | 0, _ => Quieter.refl _
  | fuel + 1, s => by
    unfold parseLoopT
    split
    · exact Quieter.refl _
    · refine Quieter.bind (quieter_step env t opts file s) ?_
      rintro ⟨stop, s⟩
      dsimp only
      split
      · exact Quieter.refl _
      · exact quieter_loop env t opts file fuel s

/-- The rest of `checkFileT` once the checksum file is open. -/
def checkBody (env : Env) (t : Texts) (opts : CheckOpts) (name : List Byte) (inp : Option Stream) (w : World) :
    Traced (Bool × World) := do
  let (a, w) := w.alloc
  let (b, w) := w.alloc
  if !a || !b then
    log (str "Error: : memory allocation failed \n")
    Traced.of (.exit 1)
  let s : PF := ⟨inp, w, some (fresh env.junk DEFAULT_LINE_LENGTH), DEFAULT_LINE_LENGTH,
    ⟨0, 0, 0, 0, 0, 0, false⟩, 0, []⟩
  let s ← parseLoopT env t opts name (s.data.length + 1) s
  showSummary opts name s.report
  let r := s.report
  let result := r.nProperlyFormattedLines ≠ 0 && r.nMismatchedChecksums = 0 && r.nOpenOrReadFailures = 0 &&
    (!opts.strictMode || r.nImproperlyFormattedLines = 0) && !r.quit
  if opts.ignoreMissing && r.nMatchedChecksums = 0 then
    output (name ++ str ": no file was verified\n")
    return (false, s.w)
  return (result, s.w)

theorem checkBody_eq (env : Env) (t : Texts) (opts : CheckOpts) (w : World) {name : Option (List Byte)} {inp : Option Stream}
    (h : openCheck w name = some inp) : checkFileT env t w name opts = checkBody env t opts (checkName name) inp w := by
  cases name with
  | none => simp only [openCheck, Option.some.injEq] at h; subst h; rfl
  | some n =>
    simp only [openCheck] at h
    unfold checkFileT
    simp only [h]
    rfl

theorem open_none {w : World} {name : Option (List Byte)} (h : openCheck w name = none) :
    ∃ n, name = some n ∧ w.files n = none := by
  cases name with
  | none => cases h
  | some n => exact ⟨n, rfl, by simpa [openCheck] using h⟩

theorem quieter_file (env : Env) (t : Texts) (opts : CheckOpts) (w : World) (name : Option (List Byte)) :
    Quieter (checkFileT env t w name opts) (checkFileT env t w name { opts with warn := false }) := by
  cases h : openCheck w name with
  | none =>
    obtain ⟨n, rfl, hf⟩ := open_none h
    rw [checkFileT_none hf, checkFileT_none hf]
    exact Quieter.refl _
  | some inp =>
    rw [checkBody_eq env t opts w h, checkBody_eq env t { opts with warn := false } w h]
    unfold checkBody
    dsimp only
    by_cases hm : (!w.alloc.1 || !w.alloc.2.alloc.1) = true
    · simp only [hm, if_true]
      exact Quieter.refl _
    · simp only [hm, Bool.false_eq_true, if_false]
      exact Quieter.bind (quieter_loop env t opts _ _ _) fun s => Quieter.refl _

theorem quieter_files (env : Env) (t : Texts) (opts : CheckOpts) : ∀ (names : List (List Byte)) (w : World) (ok : Bool),
    Quieter (checkFilesLoopT env t opts names w ok) (checkFilesLoopT env t { opts with warn := false } names w ok)
  | [], _, _ => Quieter.refl _
  | n :: names, w, ok => by
    unfold checkFilesLoopT
    refine Quieter.bind (quieter_file env t opts w (some n)) ?_
    rintro ⟨r, w'⟩
    exact quieter_files env t opts names w' (ok && r)

/-- **C54**, `--warn` changes nothing but that there is more on standard error: the same exit code, the same standard
output, whatever the files and the memory. -/
theorem C54_warn (env : Env) (t : Texts) (opts : CheckOpts) (w : World) (names : List (List Byte)) :
    (checkFilesT env t w names { opts with warn := false }).res = (checkFilesT env t w names opts).res ∧
    arrives .out (checkFilesT env t w names { opts with warn := false }).trace =
      arrives .out (checkFilesT env t w names opts).trace ∧
    (arrives .err (checkFilesT env t w names { opts with warn := false }).trace).Sublist
      (arrives .err (checkFilesT env t w names opts).trace) := by
  have : Quieter (checkFilesT env t w names opts) (checkFilesT env t w names { opts with warn := false }) := by
    unfold checkFilesT
    dsimp only
    split
    · exact Quieter.bind (quieter_file env t opts w none) fun _ => Quieter.refl _
    · exact Quieter.bind (quieter_files env t opts names w true) fun _ => Quieter.refl _
  exact ⟨this.res, this.out, (this.less.filter _).map _⟩

/-- **C54**, `--strict` changes nothing in what is written about a checksum file. -/
theorem C54_strict (env : Env) (t : Texts) (opts : CheckOpts) (strict : Bool) (w : World) (name : Option (List Byte)) :
    (checkFileT env t w name { opts with strictMode := strict }).trace = (checkFileT env t w name opts).trace := by
  have hloop : ∀ (file : List Byte) (fuel : Nat) (s : PF),
      parseLoopT env t { opts with strictMode := strict } file fuel s = parseLoopT env t opts file fuel s := by
    intro file fuel
    induction fuel with
    | zero => intro s; rfl
    | succ fuel ih =>
      intro s
      unfold parseLoopT
      simp only [ih]
      rfl
  cases h : openCheck w name with
  | none =>
    obtain ⟨n, rfl, hf⟩ := open_none h
    rw [checkFileT_none hf, checkFileT_none hf]
  | some inp =>
    rw [checkBody_eq env t opts w h, checkBody_eq env t { opts with strictMode := strict } w h]
    unfold checkBody
    dsimp only
    by_cases hm : (!w.alloc.1 || !w.alloc.2.alloc.1) = true
    · simp only [hm, if_true]
      rfl
    · simp only [hm, Bool.false_eq_true, if_false]
      rw [tbind_trace, tbind_trace, hloop]
      cases (parseLoopT env t opts (checkName name) _ _).res with
      | ok s =>
        dsimp only
        rw [tbind_trace, tbind_trace, summaryT_res, summaryT_res]
        dsimp only
        split <;> rfl
      | _ => rfl

/-! ### C54, several checksum files -/

/-- Checksum files verified one after the other, with what is written. -/
inductive SequenceT (env : Env) (t : Texts) (opts : CheckOpts) : World → List (List Byte) → List (Bool × Trace) → World → Prop where
  | nil {w} : SequenceT env t opts w [] [] w
  | cons {w w' w'' n ns r o rs} : checkFileT env t w (some n) opts = ⟨o, .ok (r, w')⟩ → SequenceT env t opts w' ns rs w'' →
      SequenceT env t opts w (n :: ns) ((r, o) :: rs) w''

theorem checkFileT_ends {env : Env} (hE : EnvOk env) (t : Texts) (opts : CheckOpts) {w : World} (hw : SmallFiles w)
    (hs : w.stdin.data.length < 2 ^ 64) (name : Option (List Byte)) :
    (∃ tr, checkFileT env t w name opts = ⟨tr, .exit 1⟩) ∨
    ∃ tr r w', checkFileT env t w name opts = ⟨tr, .ok (r, w')⟩ ∧ SmallFiles w' ∧ w'.stdin.data.length < 2 ^ 64 := by
  rcases check_cases w name with ⟨n, rfl, hf⟩ | ⟨text, ht⟩
  · exact .inr ⟨_, _, _, checkFileT_none hf, hw, hs⟩
  · by_cases hm : w.mem.headD true = true ∧ w.mem.tail.headD true = true
    · obtain ⟨os, e, src', h1, h2, h3⟩ := C54_check hE t opts hw hs name text ht hm
      by_cases hne : e = .readError
      · exact .inl ⟨_, h2 hne⟩
      · obtain ⟨tr, ok, w', g1, _, _, g4, _, g6, _⟩ := h3 hne
        exact .inr ⟨_, _, _, g1, by unfold SmallFiles; rw [g4]; exact hw, by omega⟩
    · obtain ⟨inp, hi, -⟩ := openCheck_of ht
      exact .inl ⟨_, checkFileT_noMemory hi hm⟩

/-- **C54**, several checksum files: what is written about each comes in the order of the files; the exit code is 0
exactly if all verdicts are positive; or one of them ends the program with exit code 1. -/
theorem C54_checks {env : Env} (hE : EnvOk env) (t : Texts) (opts : CheckOpts) {w : World} (hw : SmallFiles w)
    (hs : w.stdin.data.length < 2 ^ 64) {names : List (List Byte)} (hn : names ≠ []) :
    (∃ rs w', SequenceT env t opts w names rs w' ∧
      checkFilesT env t w names opts = ⟨rs.flatMap (·.2), .ok (if ∀ r ∈ rs, r.1 = true then 0 else 1, w')⟩) ∨
    (∃ before n after rs w' tr, names = before ++ n :: after ∧ SequenceT env t opts w before rs w' ∧
      checkFileT env t w' (some n) opts = ⟨tr, .exit 1⟩ ∧
      checkFilesT env t w names opts = ⟨rs.flatMap (·.2) ++ tr, .exit 1⟩) := by
  have key : ∀ (names : List (List Byte)) (w : World) (ok : Bool), SmallFiles w → w.stdin.data.length < 2 ^ 64 →
      (∃ rs w', SequenceT env t opts w names rs w' ∧
        checkFilesLoopT env t opts names w ok = ⟨rs.flatMap (·.2), .ok (ok && rs.all (·.1), w')⟩) ∨
      (∃ before n after rs w' tr, names = before ++ n :: after ∧ SequenceT env t opts w before rs w' ∧
        checkFileT env t w' (some n) opts = ⟨tr, .exit 1⟩ ∧
        checkFilesLoopT env t opts names w ok = ⟨rs.flatMap (·.2) ++ tr, .exit 1⟩) := by
    intro names
    induction names with
    | nil => intro w ok _ _; exact .inl ⟨[], w, .nil, by simp [checkFilesLoopT, tpure_eq]⟩
    | cons n names ih =>
      intro w ok hw hs
      rcases checkFileT_ends hE t opts hw hs (some n) with ⟨tr, h⟩ | ⟨tr, r, w', h, hw', hs'⟩
      · refine .inr ⟨[], n, names, [], w, tr, rfl, .nil, h, ?_⟩
        unfold checkFilesLoopT
        rw [h]; rfl
      · have hrun : checkFilesLoopT env t opts (n :: names) w ok =
            ⟨tr ++ (checkFilesLoopT env t opts names w' (ok && r)).trace,
              (checkFilesLoopT env t opts names w' (ok && r)).res⟩ := by
          conv_lhs => unfold checkFilesLoopT
          rw [h]; rfl
        rcases ih w' (ok && r) hw' hs' with ⟨rs, w'', g1, g2⟩ | ⟨before, m, after, rs, w'', tr', g2, g3, g4, g5⟩
        · left
          refine ⟨(r, tr) :: rs, w'', .cons h g1, ?_⟩
          rw [hrun, g2]
          simp [Bool.and_assoc]
        · right
          refine ⟨n :: before, m, after, (r, tr) :: rs, w'', tr', by rw [g2]; rfl, .cons h g3, g4, ?_⟩
          rw [hrun, g5]
          simp
  unfold checkFilesT
  rw [if_neg (by simpa using hn)]
  rcases key names w true hw hs with ⟨rs, w', g1, g2⟩ | ⟨before, n, after, rs, w', tr, g1, g2, g3, g4⟩
  · left
    refine ⟨rs, w', g1, ?_⟩
    rw [g2, mk_ok_bind]
    simp only [Bool.true_and, tpure_eq, List.append_nil, List.all_eq_true]
  · right
    refine ⟨before, n, after, rs, w', tr, g1, g2, g3, ?_⟩
    rw [g4]; rfl

theorem sequenceT_explained {env : Env} (hE : EnvOk env) (t : Texts) {opts : CheckOpts} (hst : opts.statusOnly = false)
    {w : World} {names : List (List Byte)} {rs : List (Bool × Trace)} {w' : World} (h : SequenceT env t opts w names rs w') :
    SmallFiles w → w.stdin.data.length < 2 ^ 64 →
      SmallFiles w' ∧ w'.stdin.data.length < 2 ^ 64 ∧ ∀ r ∈ rs, r.1 = false → r.2 ≠ [] := by
  induction h with
  | nil => exact fun h1 h2 => ⟨h1, h2, by simp⟩
  | @cons w w1 w2 n ns r o rs hc _ ih =>
    intro hw hs
    rcases checkFileT_ends hE t opts hw hs (some n) with ⟨tr, h⟩ | ⟨tr, r', w'', h, hw', hs'⟩
    · rw [hc] at h; injection h with _ h; cases h
    · have he := h
      rw [hc] at he
      injection he with e1 e2
      injection e2 with e2
      injection e2 with e2 e3
      subst e1 e2 e3
      obtain ⟨i1, i2, i3⟩ := ih hw' hs'
      refine ⟨i1, i2, fun x hx hf => ?_⟩
      rcases List.mem_cons.mp hx with rfl | hx
      · have := C54_check_explained hE t hst hw hs (some n) (fun w0 h0 => by
          rw [hc] at h0
          injection h0 with h0
          injection h0 with h0
          rw [h0] at hf
          cases hf)
        rwa [hc] at this
      · exact i3 x hx hf

theorem checks_explained {env : Env} (hE : EnvOk env) (t : Texts) {opts : CheckOpts} (hst : opts.statusOnly = false)
    {w : World} (hw : SmallFiles w) (hs : w.stdin.data.length < 2 ^ 64) (names : List (List Byte))
    (h : ∀ w', (checkFilesT env t w names opts).res ≠ .ok (0, w')) : (checkFilesT env t w names opts).trace ≠ [] := by
  by_cases hn : names = []
  · subst hn
    have hrun : checkFilesT env t w [] opts =
        (checkFileT env t w none opts >>= fun x => pure (if x.1 then 0 else 1, x.2)) := rfl
    rw [hrun] at h ⊢
    have := C54_check_explained hE t hst hw hs none (fun w' h' => h w' (by rw [tbind_res, h']; rfl))
    rw [tbind_trace]
    simp [this]
  · rcases C54_checks hE t opts hw hs hn with ⟨rs, w', g1, g2⟩ | ⟨before, n, after, rs, w', tr, g1, g2, g3, g4⟩
    · rw [g2] at h ⊢
      obtain ⟨_, _, hx⟩ := sequenceT_explained hE t hst g1 hw hs
      have hno : ¬ ∀ r ∈ rs, r.1 = true := fun hall => h w' (by simp only [if_pos hall])
      push Not at hno
      obtain ⟨r, hr, hf⟩ := hno
      intro hnil
      exact hx r hr (by simpa using hf) (List.flatMap_eq_nil_iff.mp hnil r hr)
    · rw [g4]
      obtain ⟨i1, i2, _⟩ := sequenceT_explained hE t hst g2 hw hs
      have := C54_check_explained hE t hst i1 i2 (some n) (fun w0 h0 => by rw [g3] at h0; cases h0)
      rw [g3] at this
      simp [this]

/-! ### C54, the command line -/

theorem mid (a b c d e f p n q r : List Byte) :
    a ++ (b ++ (c ++ (d ++ (e ++ (f ++ p ++ n ++ q ++ r))))) = a ++ b ++ c ++ d ++ e ++ f ++ p ++ n ++ q ++ r := by
  simp only [List.append_assoc]

theorem usage_out (t : Texts) (exename : List Byte) (a : Algo) :
    (usage t exename a).res = .ok () ∧ arrives .out (usage t exename a).trace = [] ∧
    ∃ pre post, arrives .err (usage t exename a).trace = pre ++ Spec.Cli.txt "(default: " ++ decText (algoNumber a) ++
      Spec.Cli.txt ") \n" ++ post := by
  refine ⟨rfl, ?_, ?_⟩
  · simp only [usage, log_bind, ← writes_eq, arrives_append, out_err, List.nil_append]
    exact out_err _
  · simp only [usage, log_bind, ← writes_eq, arrives_append, arrives_same]
    rw [show str "  -H#          select an xxhash algorithm (default: " =
      str "  -H#          select an xxhash algorithm " ++ Spec.Cli.txt "(default: " by decide +kernel]
    generalize arrives .err (log _).trace = last
    exact ⟨_, _, mid _ _ _ _ _ _ _ _ _ _⟩

theorem usageAdvanced_out (t : Texts) (exename : List Byte) (a : Algo) :
    (usageAdvanced t exename a).res = .ok () ∧ arrives .out (usageAdvanced t exename a).trace = [] ∧
    ∃ pre post, arrives .err (usageAdvanced t exename a).trace = pre ++ Spec.Cli.txt "(default: " ++
      decText (algoNumber a) ++ Spec.Cli.txt ") \n" ++ post := by
  obtain ⟨h1, h2, pre, post, h3⟩ := usage_out t exename a
  unfold usageAdvanced
  refine ⟨?_, ?_, ?_⟩
  · rw [tbind_res, h1]; rfl
  · rw [tbind_trace, h1, arrives_append, h2]
    simp only [log_bind, ← writes_eq, arrives_append, out_err, List.nil_append]
    exact out_err _
  · rw [tbind_trace, h1, arrives_append, h3, List.append_assoc _ post]
    exact ⟨pre, _, rfl⟩

/-- The name the program is called by in its messages. -/
theorem exename_eq (argv0 : List Byte) : lastNameFromPath argv0 = Spec.Cli.programName argv0 := lastNameFromPath_eq argv0

theorem algoNumber_eq (a : Algo) : Spec.Cli.algorithmOf (algoNumber a) = some (algOf a) := by cases a <;> rfl

/-- **C54**, options that end the program: nothing is written on standard output. `--help` shows the number of the
algorithm that is used without `-H#`; `--version` shows the program's name and version (after a self-test that passes);
all other cases are explained by one of two messages. -/
theorem C54_stops (env : Env) {test : Model.SelfTest.TestEnv} (htest : Model.SelfTest.sanityCheck test = .ok ()) (t : Texts)
    (w : World) (console : Bool) (argv0 : List Byte) {args : List (List Byte)} {os : List Opt}
    {files : Option (List (List Byte))} (h : CommandLine args os files) (hb : InBounds os) {o : Opt}
    (ho : os[(Spec.Cli.live os).length]? = some o) :
    arrives .out (programT env test t w console argv0 args).trace = [] ∧
    (o = .help → (programT env test t w console argv0 args).res = .ok (some (0, w)) ∧
      ∃ N < 4, ∃ pre post, Spec.Cli.algorithmOf N = some ((Spec.Cli.namedAlg argv0).getD .xxh64) ∧
        arrives .err (programT env test t w console argv0 args).trace =
          pre ++ Spec.Cli.txt "(default: " ++ decText N ++ Spec.Cli.txt ") \n" ++ post) ∧
    (o = .version → (programT env test t w console argv0 args).res = .ok (some (0, w)) ∧
      arrives .err (programT env test t w console argv0 args).trace =
        Spec.Cli.programName argv0 ++ Spec.Cli.txt " " ++ t.version ++ Spec.Cli.txt " by Yann Collet \n" ++ t.compiled) ∧
    (o ≠ .help → o ≠ .version →
      ((programT env test t w console argv0 args).res = .ok (some (1, w)) ∧
        ∃ rest, arrives .err (programT env test t w console argv0 args).trace = Spec.Cli.txt "Wrong parameters\n\n" ++ rest) ∨
      ((programT env test t w console argv0 args).res = .exit 1 ∧
        arrives .err (programT env test t w console argv0 args).trace = Spec.Cli.txt "Error: numeric value too large \n")) := by
  obtain ⟨c, hc, he, hv, hk⟩ := C41_ends console argv0 h hb.ids hb.quiet ho
  have halg := (init_facts argv0).2.2.2.2.2.2.2.2.2.2.2.2.2.2.1
  have hzero : o = .help ∨ o = .version ↔ c = 0 := by
    cases o <;> simp_all [Spec.Cli.ends] <;> omega
  unfold programT
  cases hx : xsumMain console argv0 args with
  | ub => rw [hx] at he; cases he
  | exit k =>
    rw [hx] at he
    injection he with he
    have hk1 := hk k hx
    subst hk1
    subst he
    have hno : ¬ (o = .help ∨ o = .version) := fun h => by have := hzero.mp h; cases this
    refine ⟨out_err _, fun h => absurd (.inl h) hno, fun h => absurd (.inr h) hno, fun _ _ => .inr ⟨rfl, arrives_same _ _⟩⟩
  | ok act =>
    obtain ⟨s, rfl, hs⟩ := hv act hx
    rw [hx] at he
    injection he with he
    subst he
    simp only [tpure_bind]
    cases s with
    | help =>
      have hnv : o ≠ .version := fun h => by cases hs.mpr h
      have hoh : o = .help := (hzero.mpr rfl).resolve_right hnv
      obtain ⟨u1, u2, pre, post, u3⟩ := usageAdvanced_out t (lastNameFromPath argv0) (initMain argv0).algo
      have hrun : (usageAdvanced t (lastNameFromPath argv0) (initMain argv0).algo >>= fun _ =>
          (pure (some (0, w)) : Traced (Option (Nat × World)))) =
          ⟨(usageAdvanced t (lastNameFromPath argv0) (initMain argv0).algo).trace, .ok (some (0, w))⟩ := by
        show (match (usageAdvanced t (lastNameFromPath argv0) (initMain argv0).algo).res with
          | .ub => (⟨(usageAdvanced t (lastNameFromPath argv0) (initMain argv0).algo).trace, .ub⟩ : Traced (Option (Nat × World)))
          | .exit c => ⟨(usageAdvanced t (lastNameFromPath argv0) (initMain argv0).algo).trace, .exit c⟩
          | .ok _ => ⟨(usageAdvanced t (lastNameFromPath argv0) (initMain argv0).algo).trace ++ [], .ok (some (0, w))⟩) = _
        rw [u1]
        simp
      rw [hrun]
      exact ⟨u2, fun _ => ⟨rfl, _, by cases (initMain argv0).algo <;> decide, pre, post, by rw [algoNumber_eq, halg], u3⟩, fun h => absurd h hnv, fun h => absurd hoh h⟩
    | version =>
      have hov : o = .version := hs.mp rfl
      have hnh : o ≠ .help := fun h => by rw [hov] at h; cases h
      have hrun : (log (welcome t (lastNameFromPath argv0) ++ t.compiled) >>= fun _ => sanityCheckT t test >>= fun _ =>
          (pure (some (0, w)) : Traced (Option (Nat × World)))) =
          ⟨writes .err (welcome t (lastNameFromPath argv0) ++ t.compiled), .ok (some (0, w))⟩ := by
        unfold sanityCheckT
        rw [htest]
        simp only [log_bind, tpure_eq, mk_ok_bind, List.append_nil]
        rfl
      rw [hrun]
      refine ⟨out_err _, fun h => absurd h hnh, fun _ => ⟨rfl, ?_⟩, fun _ h => absurd hov h⟩
      rw [arrives_same, exename_eq]
      rfl
    | badUsage =>
      have hno : ¬ (o = .help ∨ o = .version) := fun h => by have := hzero.mp h; cases this
      obtain ⟨u1, u2, -⟩ := usage_out t (lastNameFromPath argv0) (initMain argv0).algo
      have hrun : (badusage t (lastNameFromPath argv0) (initMain argv0).algo >>= fun _ =>
          (pure (some (1, w)) : Traced (Option (Nat × World)))) =
          ⟨writes .err (Spec.Cli.txt "Wrong parameters\n\n") ++
            (usage t (lastNameFromPath argv0) (initMain argv0).algo).trace, .ok (some (1, w))⟩ := by
        rw [← List.append_nil (_ ++ _)]
        rfl
      rw [hrun]
      refine ⟨?_, fun h => absurd (.inl h) hno, fun h => absurd (.inr h) hno, fun _ _ => .inl ⟨rfl, ?_⟩⟩
      · rw [arrives_append, out_err, u2]; rfl
      · rw [arrives_append, arrives_same]; exact ⟨_, rfl⟩

/-- **C54**, exit code and world are those of the program without its messages (C42, C52). -/
theorem C54_program (env : Env) {test : Model.SelfTest.TestEnv} (htest : Model.SelfTest.sanityCheck test = .ok ()) (t : Texts)
    (w : World) (console : Bool) (argv0 : List Byte) (args : List (List Byte)) :
    (programT env test t w console argv0 args).res = (do
      let r ← program env w console argv0 args
      return r.map fun x => (x.1, x.2.2)) := by
  unfold programT program
  cases xsumMain console argv0 args with
  | ub => rfl
  | exit c => rfl
  | ok a =>
    simp only [tpure_bind, ok_bind]
    cases a with
    | stop s =>
      cases s with
      | help => rfl
      | version =>
        simp only [log_bind]
        unfold sanityCheckT
        rw [htest]
        rfl
      | badUsage => rfl
    | bench => rfl
    | check files opts =>
      show (checkFilesT env t w files opts >>= _).res = _
      rw [tbind_res, checkFilesT_res]
      dsimp only
      cases checkFiles env w files opts <;> rfl
    | hash files a le bsd =>
      show (hashFilesT env t w files a le bsd >>= _).res = _
      rw [tbind_res, (hashFilesT_res env t w files a le bsd).1]
      dsimp only
      cases hashFiles env w files a le bsd <;> rfl

/-- **C54**, the functions that write do what those of C33 and C35 do, and hashing delivers the same standard output. -/
theorem C54_result (env : Env) (t : Texts) (w : World) (names : List (List Byte)) (a : Algo) (le bsd : Bool)
    (opts : CheckOpts) :
    (hashFilesT env t w names a le bsd).res = (do
      let (c, _, w') ← hashFiles env w names a le bsd
      return (c, w')) ∧
    (∀ c out w', hashFiles env w names a le bsd = .ok (c, out, w') →
      arrives .out (hashFilesT env t w names a le bsd).trace = out) ∧
    (checkFilesT env t w names opts).res = (do
      let (c, _, w') ← checkFiles env w names opts
      return (c, w')) :=
  ⟨(hashFilesT_res env t w names a le bsd).1, (hashFilesT_res env t w names a le bsd).2, checkFilesT_res env t w names opts⟩

/-- **C54**, no unexplained failure: a run without benchmarks whose exit code is not 0 has written something, except for
`--check` with `--status`. -/
theorem C54_explained {env : Env} (hE : EnvOk env) {test : Model.SelfTest.TestEnv}
    (htest : Model.SelfTest.sanityCheck test = .ok ()) (t : Texts) {w : World} (hw : SmallFiles w)
    (hs : w.stdin.data.length < 2 ^ 64) (console : Bool) (argv0 : List Byte) {args : List (List Byte)} {os : List Opt}
    {files : Option (List (List Byte))} (h : CommandLine args os files) (hb : InBounds os)
    (hnb : (∃ o ∈ os, Spec.Cli.ends o ≠ none) ∨ ∀ o ∈ os, Spec.Cli.selects o = none)
    (hst : ¬ (.check ∈ os ∧ .status ∈ os)) (hfail : ∀ w', (programT env test t w console argv0 args).res ≠ .ok (some (0, w'))) :
    (programT env test t w console argv0 args).trace ≠ [] := by
  cases hnext : os[(Spec.Cli.live os).length]? with
  | some o =>
    obtain ⟨-, h1, h2, h3⟩ := C54_stops env htest t w console argv0 h hb hnext
    intro hnil
    rw [hnil] at h3
    by_cases hh : o = .help
    · exact hfail w (h1 hh).1
    · by_cases hv : o = .version
      · exact hfail w (h2 hv).1
      · rcases h3 hh hv with ⟨_, rest, h⟩ | ⟨_, h⟩
        · rw [arrives_nil] at h
          have := congrArg List.length h
          simp [Spec.Cli.txt] at this
        · rw [arrives_nil] at h
          have := congrArg List.length h
          simp [Spec.Cli.txt] at this
  | none =>
    have hall := live_all hnext
    have hn := live_none os
    obtain ⟨h1, h2⟩ := hb
    rw [hall] at hn h1 h2
    have hsel : ∀ o ∈ os, Spec.Cli.selects o = none := by
      rcases hnb with ⟨o, ho, hne⟩ | hnb
      · exact absurd (hn o ho) hne
      · exact hnb
    obtain ⟨c1, c2⟩ := (C41_command console argv0 h hn h1 h2).2 hsel
    unfold programT at hfail ⊢
    by_cases hd : files = none ∧ console = true ∧ .stdin ∉ os
    · have he := c1 hd
      cases hx : xsumMain console argv0 args with
      | ub => rw [hx] at he; cases he
      | exit k => exact writes_ne (by simp [str])
      | ok a =>
        rw [hx] at he
        cases a with
        | stop s =>
          injection he with he
          cases s with
          | help => cases he
          | version => cases he
          | badUsage =>
            intro hnil
            have : (writes .err (Spec.Cli.txt "Wrong parameters\n\n") ++
              (usage t (lastNameFromPath argv0) (initMain argv0).algo).trace) ++ [] = [] := hnil
            rw [List.append_nil] at this
            exact writes_ne (by simp [Spec.Cli.txt]) (List.append_eq_nil_iff.mp this).1
        | _ => cases he
    · by_cases hc : .check ∈ os
      · obtain ⟨opts, hx, _, _, hstat, _⟩ := (c2 hd).1 hc
        have hso : opts.statusOnly = false := by
          cases hso : opts.statusOnly with
          | false => rfl
          | true => exact absurd ⟨hc, hstat.mp hso⟩ hst
        rw [hx] at hfail ⊢
        simp only [tpure_bind] at hfail ⊢
        have := checks_explained hE t hso hw hs (files.getD []) (fun w' hw' => hfail w' (by
          rw [tbind_res, hw']; rfl))
        rw [tbind_trace]
        simp [this]
      · obtain ⟨a, hx, _⟩ := (c2 hd).2 hc
        rw [hx] at hfail ⊢
        simp only [tpure_bind] at hfail ⊢
        rw [tbind_trace]
        suffices hne : (hashFilesT env t w (files.getD []) a (decide (.littleEndian ∈ os)) (decide (.tag ∈ os))).trace ≠ [] by
          simp [hne]
        have hfail' : ended (hashFilesT env t w (files.getD []) a (decide (.littleEndian ∈ os)) (decide (.tag ∈ os))).res ≠ some 0 := by
          intro h0
          cases hres : (hashFilesT env t w (files.getD []) a (decide (.littleEndian ∈ os)) (decide (.tag ∈ os))).res with
          | ub => rw [hres] at h0; cases h0
          | exit c =>
            have := (hashFilesT_res env t w (files.getD []) a (decide (.littleEndian ∈ os)) (decide (.tag ∈ os))).1
            rw [hres] at this h0
            injection h0 with h0
            subst h0
            rcases hashFiles_ends hE hw hs (files.getD []) a (decide (.littleEndian ∈ os)) (decide (.tag ∈ os)) with
              hr | ⟨r, out, w', hr, hle⟩
            · rw [hr] at this
              have h01 : (Res.exit 0 : Res (Nat × World)) = .exit 1 := this
              cases h01
            · rw [hr] at this
              cases this
          | ok x =>
            rw [hres] at h0
            injection h0 with h0
            refine hfail x.2 ?_
            rw [tbind_res, hres, ← h0]
            rfl
        by_cases hnames : files.getD [] = []
        · rw [hnames] at hfail' ⊢
          obtain ⟨g1, g2, g3⟩ := C54_stdin hE t hs a (decide (.littleEndian ∈ os)) (decide (.tag ∈ os))
          rcases Bool.eq_false_or_eq_true (w.mem.headD true) with hm | hm
          · rcases Bool.eq_false_or_eq_true w.stdin.fail with hr | hr
            · rw [g2 hm hr]
              exact writes_ne (by simp [readFailure, Spec.Cli.txt])
            · exact absurd (g3 hm hr).2 hfail'
          · rw [(g1 hm).1]
            exact writes_ne (by simp [Spec.Cli.txt])
        · intro hnil
          refine hfail' ((C54_hash_stderr hE t hw hnames a _ _).mpr ?_)
          rw [hnil]
          rfl

/-! ### Cases -/

/-- The exit code of a run. -/
def _root_.XXH.Model.Cli.Res.isCode (n : Nat) : Res (Option (Nat × World)) → Bool
  | .ok (some (c, _)) => c == n
  | .exit c => c == n
  | _ => false

/-- Messages of a system. -/
def exTexts : Texts where
  strerror _ := Spec.Cli.txt "No such file or directory"
  version := Spec.Cli.txt "0.8.3"
  compiled := Spec.Cli.txt "compiled as 64-bit x86_64\n"
  selfTest := Spec.Cli.txt "Error: XXH32 test failed!\n"

/-- A file that does not exist, one that can be hashed, and one that cannot be read, after which `e` is forgotten. -/
theorem exListed : (hashFilesT exEnv exTexts exWorld
      [Spec.Cli.txt "no", Spec.Cli.txt "ab", Spec.Cli.txt "bad", Spec.Cli.txt "e"] .xxh32 false false).trace =
    writes .err (Spec.Cli.txt "Error: Could not open 'no': No such file or directory. \n") ++
    writes .out (Spec.Cli.txt "4999fc53  ab\n") ++
    writes .err (Spec.Cli.txt "Error: a failure occurred reading the input file.\n") := by decide +kernel

example : ended (hashFilesT exEnv exTexts exWorld [Spec.Cli.txt "no", Spec.Cli.txt "ab", Spec.Cli.txt "bad", Spec.Cli.txt "e"]
    .xxh32 false false).res = some 1 :=
  (C54_hash_stops exEnv_ok exTexts exWorld_small (n := Spec.Cli.txt "bad") (by simp [exWorld]) rfl rfl rfl
    [Spec.Cli.txt "no", Spec.Cli.txt "ab"] [Spec.Cli.txt "e"] .xxh32 false false).2.2

/-- No message, exit code 0. -/
example : ended (hashFilesT exEnv exTexts exWorld [Spec.Cli.txt "ab", Spec.Cli.txt "e"] .xxh32 false false).res = some 0 := by
  rw [C54_hash_stderr exEnv_ok exTexts exWorld_small (by simp)]
  decide +kernel

/-- `sums` with `--warn`: line 3 is malformed, the file of line 5 is missing. -/
theorem exWarned : (checkFileT exEnv exTexts exWorld (some (Spec.Cli.txt "sums"))
      ⟨false, false, false, false, true, false, bitmask_all⟩).trace =
    writes .out (Spec.Cli.txt "e: OK\n") ++
    writes .err (Spec.Cli.txt "sums:3: Error: Improperly formatted checksum line.\n") ++
    writes .out (Spec.Cli.txt "ab: OK\n" ++
      Spec.Cli.txt "sums:5: Could not open or read 'no': No such file or directory.\n" ++
      Spec.Cli.txt "1 line is improperly formatted\n1 listed file could not be read\n") := by decide +kernel

/-- The first checksum file cannot be opened; the second is not a checksum file. -/
example : (checkFilesT exEnv exTexts exWorld [Spec.Cli.txt "no", Spec.Cli.txt "ab"]
      ⟨false, false, false, false, false, false, bitmask_all⟩).trace =
    writes .err (Spec.Cli.txt "Error: Could not open 'no': No such file or directory\n" ++
      Spec.Cli.txt "ab: no properly formatted xxHash checksum lines found\n") := by decide +kernel

/-- A checksum file that names a file that cannot be read. -/
def exUnreadable : World :=
  { exWorld with files := fun n => if n = Spec.Cli.txt "list" then some ⟨Spec.Cli.txt "02cc5d05  e\n02cc5d05  bad\nx", [], false⟩
      else exWorld.files n }

example : checkFileT exEnv exTexts exUnreadable (some (Spec.Cli.txt "list"))
      ⟨false, false, false, false, false, false, bitmask_all⟩ =
    ⟨writes .out (Spec.Cli.txt "e: OK\n") ++ writes .err readFailure, .exit 1⟩ := by
  have h : (checkFileT exEnv exTexts exUnreadable (some (Spec.Cli.txt "list"))
      ⟨false, false, false, false, false, false, bitmask_all⟩).trace =
      writes .out (Spec.Cli.txt "e: OK\n") ++ writes .err readFailure ∧
    (match (checkFileT exEnv exTexts exUnreadable (some (Spec.Cli.txt "list"))
      ⟨false, false, false, false, false, false, bitmask_all⟩).res with | .exit c => c == 1 | _ => false) = true := by
    decide +kernel
  generalize checkFileT exEnv exTexts exUnreadable _ _ = x at h ⊢
  obtain ⟨tr, res⟩ := x
  obtain ⟨h1, h2⟩ := h
  cases res with
  | exit c => simp only [beq_iff_eq] at h2; rw [h2, ← h1]
  | _ => cases h2

/-- **C54**, a finding: `--status` is described as "Don't output anything", but messages on standard error remain. -/
theorem C54_status_not_silent : ∃ (env : Env) (t : Texts) (w : World) (name : List Byte) (opts : CheckOpts), EnvOk env ∧
    opts.statusOnly = true ∧ w.files name ≠ none ∧ arrives .err (checkFileT env t w (some name) opts).trace ≠ [] :=
  ⟨exEnv, exTexts, exWorld, Spec.Cli.txt "ab", ⟨false, false, true, false, false, false, bitmask_all⟩, exEnv_ok, rfl,
    by decide +kernel, by decide +kernel⟩

/-- **C54**, a finding: file names appear in messages as they are, so that the name of a file that cannot be opened can
forge another message; here one missing file looks like two. -/
theorem C54_forged_message : ∃ (env : Env) (t : Texts) (w : World) (n a b : List Byte), EnvOk env ∧
    w.files n = none ∧ w.files a = none ∧ w.files b = none ∧
    (hashFilesT env t w [n] .xxh64 false false).trace = (hashFilesT env t w [a, b] .xxh64 false false).trace :=
  ⟨exEnv, exTexts, exWorld, Spec.Cli.txt "x': No such file or directory. \nError: Could not open 'y", Spec.Cli.txt "x",
    Spec.Cli.txt "y", exEnv_ok, by decide +kernel, by decide +kernel, by decide +kernel, by decide +kernel⟩

/-- The help of `xxh32sum` names algorithm 0; an unknown option is explained. -/
example : Spec.Cli.txt "(default: 0) " <:+: arrives .err (programT exEnv exMachine.test exTexts exWorld true
    (Spec.Cli.txt "/usr/bin/xxh32sum") [Spec.Cli.txt "-h"]).trace := by decide +kernel

example : Spec.Cli.txt "Wrong parameters\n\nxxhsum 0.8.3 by Yann Collet \n" <+: arrives .err (programT exEnv exMachine.test exTexts
    exWorld true (Spec.Cli.txt "xxhsum") [Spec.Cli.txt "-x"]).trace := by decide +kernel

example : (programT exEnv exMachine.test exTexts exWorld true (Spec.Cli.txt "xxhsum") [Spec.Cli.txt "-c", Spec.Cli.txt "-q",
      Spec.Cli.txt "sums"]).trace ≠ [] := by
  have hl : CommandLine [Spec.Cli.txt "-c", Spec.Cli.txt "-q", Spec.Cli.txt "sums"] [.check, .quiet]
      (some [Spec.Cli.txt "sums"]) :=
    .short (t := Spec.Cli.txt "c") (os1 := [.check]) (os2 := [.quiet]) (by decide) (by decide) (.letter (by decide) .nil)
      (.short (t := Spec.Cli.txt "q") (os1 := [.quiet]) (os2 := []) (by decide) (by decide) (.letter (by decide) .nil)
        (.files (by decide)))
  have hx : (programT exEnv exMachine.test exTexts exWorld true (Spec.Cli.txt "xxhsum") [Spec.Cli.txt "-c",
      Spec.Cli.txt "-q", Spec.Cli.txt "sums"]).res.isCode 1 = true := by decide +kernel
  refine C54_explained exEnv_ok (selftest exMachine_ok) exTexts exWorld_small (by decide) true _ hl
    ⟨by simp [Spec.Cli.live, Spec.Cli.ends, OutOfBounds], by decide⟩ (.inr (by decide)) (by decide) (fun w' h => ?_)
  rw [h] at hx
  cases hx

end XXH.Props
