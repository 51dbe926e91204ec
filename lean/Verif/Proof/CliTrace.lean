import Verif.Props.CliTraceTerms
import Verif.Proof.CliCheck
/-!
Helper lemmas for C54: the traced functions do what the functions of `Model/CliFile` do, and write what they should.
-/
namespace XXH.CliP
open Model.Cli Props

theorem tr_eta {α : Type} (x : Traced α) : (⟨[] ++ x.trace, x.res⟩ : Traced α) = x := rfl

@[simp] theorem tof_ok_bind {α β : Type} (a : α) (f : α → Traced β) : (Traced.of (.ok a) >>= f) = f a := rfl
@[simp] theorem tof_exit_bind {α β : Type} (c : ℕ) (f : α → Traced β) : (Traced.of (.exit c) >>= f) = Traced.of (.exit c) := rfl
@[simp] theorem tof_ub_bind {α β : Type} (f : α → Traced β) : (Traced.of .ub >>= f) = Traced.of .ub := rfl
@[simp] theorem tpure_bind {α β : Type} (a : α) (f : α → Traced β) : ((pure a : Traced α) >>= f) = f a := rfl
@[simp] theorem log_bind {β : Type} (x : List Byte) (f : Unit → Traced β) :
    (log x >>= f) = ⟨onFd .err x ++ (f ()).trace, (f ()).res⟩ := rfl
@[simp] theorem output_bind {β : Type} (x : List Byte) (f : Unit → Traced β) :
    (output x >>= f) = ⟨onFd .out x ++ (f ()).trace, (f ()).res⟩ := rfl
theorem mk_ok_bind {α β : Type} (tr : Trace) (a : α) (f : α → Traced β) :
    ((⟨tr, .ok a⟩ : Traced α) >>= f) = ⟨tr ++ (f a).trace, (f a).res⟩ := rfl
theorem mk_exit_bind {α β : Type} (tr : Trace) (c : ℕ) (f : α → Traced β) :
    ((⟨tr, .exit c⟩ : Traced α) >>= f) = ⟨tr, .exit c⟩ := rfl
theorem mk_ub_bind {α β : Type} (tr : Trace) (f : α → Traced β) :
    ((⟨tr, .ub⟩ : Traced α) >>= f) = ⟨tr, .ub⟩ := rfl
theorem tpure_eq {α : Type} (a : α) : (pure a : Traced α) = ⟨[], .ok a⟩ := rfl

theorem onFd_append (fd : Fd) (a b : List Byte) : onFd fd (a ++ b) = onFd fd a ++ onFd fd b := List.map_append

theorem writes_eq (fd : Fd) (a : List Byte) : writes fd a = onFd fd a := rfl

/-- What `hashStreamT` writes. -/
def streamTrace {α : Type} : Res α → Trace
  | .exit _ => onFd .err readFailure
  | _ => []

theorem hashStreamT_eq (env : Env) (f : Stream) (a : Algo) (b : ℕ) :
    hashStreamT env f a b = ⟨streamTrace (hashStream env f a b), hashStream env f a b⟩ := by
  unfold hashStreamT hashStream
  cases initStates env with
  | none => rfl
  | some st =>
    simp only [of_some, tof_ok_bind, ok_bind]
    cases hashLoop env a b (f.data.length + 1) f st with
    | none => rfl
    | some p =>
      obtain ⟨st', f'⟩ := p
      simp only [of_some, tof_ok_bind, ok_bind]
      cases f'.ferror with
      | true => rfl
      | false =>
        simp only [Bool.false_eq_true, if_false]
        cases finalHash env a st' <;> rfl

theorem verifyEntryT_eq (env : Env) (s : PF) (name : List Byte) (p : ParsedLine) :
    (verifyEntryT env s name p).res = verifyEntry env s name p ∧
    ((∃ c, verifyEntry env s name p = .exit c) → (verifyEntryT env s name p).trace = onFd .err readFailure) ∧
    (∀ x, verifyEntry env s name p = .ok x → (verifyEntryT env s name p).trace = []) := by
  unfold verifyEntryT verifyEntry
  dsimp only
  generalize (if decide (name = stdinFileName) = true then some s.w.stdin else s.w.files name) = fp
  cases fp with
  | none => exact ⟨rfl, fun ⟨c, h⟩ => (by cases h), fun _ _ => rfl⟩
  | some fp =>
    simp only [hashStreamT_eq]
    cases hashStream env fp p.algo (64 * 1024) with
    | ub => exact ⟨rfl, fun ⟨c, h⟩ => (by cases h), fun _ h => by cases h⟩
    | exit c => exact ⟨rfl, fun _ => rfl, fun _ h => by cases h⟩
    | ok x =>
      obtain ⟨h, f'⟩ := x
      simp only [mk_ok_bind, ok_bind]
      cases hashMatches env p.algo h p.canonical with
      | none => exact ⟨rfl, fun ⟨c, h⟩ => (by cases h), fun _ h => by cases h⟩
      | some m => exact ⟨rfl, fun ⟨c, h⟩ => (by cases h), fun _ _ => rfl⟩

theorem showEntry_eq (t : Texts) (opts : CheckOpts) (file : List Byte) (k : ℕ) (name : List Byte) (st : LineStatus) :
    showEntry t opts file k name st = ⟨lineMessage t opts file k (outcomeOf st name), .ok ()⟩ := by
  cases st with
  | failedToOpen =>
    simp only [showEntry, outcomeOf, lineMessage]
    cases opts.ignoreMissing <;> cases opts.statusOnly <;> rfl
  | hashOk =>
    simp only [showEntry, outcomeOf, lineMessage]
    cases opts.quiet <;> cases opts.statusOnly <;> first | rfl | skip
    rw [show Spec.Cli.marker name ++ Spec.Cli.shownName name ++ Spec.Cli.txt ": OK\n" = verdictLine name true from
      (verdictLine_eq name true).symm]
    unfold verdictLine
    cases filenameNeedsEscape name <;> simp [writes, onFd, verdictText, str, output, mk_ok_bind]
  | hashFailed =>
    simp only [showEntry, outcomeOf, lineMessage]
    cases opts.quiet <;> cases opts.statusOnly <;> first | rfl | skip
    all_goals
      rw [show Spec.Cli.marker name ++ Spec.Cli.shownName name ++ Spec.Cli.txt ": FAILED\n" = verdictLine name false from
        (verdictLine_eq name false).symm]
      unfold verdictLine
      cases filenameNeedsEscape name <;> simp [writes, onFd, verdictText, str, output, mk_ok_bind]

/-- How a line ends without a result. -/
inductive StepStops (env : Env) (file : List Byte) (s : PF) : PF → Trace → Prop where
  | eof {s'} : s'.report = s.report → StepStops env file s s' []
  | tooMany {s'} : inc env s.lineNumber = 0 → s'.report.quit = true →
      StepStops env file s s' (writes .err (file ++ Spec.Cli.txt ": Error: Too many checksum lines\n"))
  | tooLong {s' b m d r} : inc env s.lineNumber ≠ 0 → s'.report.quit = true →
      getLine env.junk s.lineBuf s.lineMax s.data s.w.mem = some (.exceedMaxLineLength, b, m, d, r) →
      StepStops env file s s' (writes .err (lineError file (inc env s.lineNumber) "Line too long."))
  | noMemory {s' b m d r} : inc env s.lineNumber ≠ 0 → s'.report.quit = true →
      getLine env.junk s.lineBuf s.lineMax s.data s.w.mem = some (.outOfMemory, b, m, d, r) →
      StepStops env file s s' (writes .err (lineError file (inc env s.lineNumber) "Out of memory."))

/-- How a line is done. -/
inductive StepDone (env : Env) (t : Texts) (opts : CheckOpts) (file : List Byte) (s : PF) : PF → Trace → Prop where
  | comment {s'} : s'.report = s.report → s'.out = s.out → StepDone env t opts file s s' []
  | malformed {s'} : s'.report = bump env opts s.report .malformed → s'.out = s.out →
      StepDone env t opts file s s' (lineMessage t opts file (inc env s.lineNumber) .malformed)
  | entry {s' name st} : s'.report = bump env opts s.report (outcomeOf st name) →
      s'.out = s.out ++ printedFor opts (inc env s.lineNumber) (outcomeOf st name) →
      StepDone env t opts file s s' (lineMessage t opts file (inc env s.lineNumber) (outcomeOf st name))

theorem verifyEntry_keeps {env : Env} {s : PF} {name : List Byte} {p : ParsedLine} {st : LineStatus} {s' : PF}
    (h : verifyEntry env s name p = .ok (st, s')) :
    s'.report = s.report ∧ s'.out = s.out ∧ s'.lineNumber = s.lineNumber := by
  unfold verifyEntry at h
  dsimp only at h
  generalize (if decide (name = stdinFileName) = true then some s.w.stdin else s.w.files name) = fp at h
  cases fp with
  | none => cases h; exact ⟨rfl, rfl, rfl⟩
  | some fp =>
    simp only at h
    cases hh : hashStream env fp p.algo (64 * 1024) with
    | ub => rw [hh] at h; cases h
    | exit c => rw [hh] at h; cases h
    | ok x =>
      obtain ⟨v, f'⟩ := x
      rw [hh] at h
      simp only [ok_bind] at h
      cases hm : hashMatches env p.algo v p.canonical with
      | none => rw [hm] at h; cases h
      | some m =>
        rw [hm] at h
        simp only [of_some_bind] at h
        cases h
        split <;> exact ⟨rfl, rfl, rfl⟩

theorem parseStepT_eq (env : Env) (t : Texts) (opts : CheckOpts) (file : List Byte) (s : PF) :
    (parseStepT env t opts file s).res = parseStep env opts s ∧
    (∀ c, parseStep env opts s = .exit c → (parseStepT env t opts file s).trace = writes .err readFailure) ∧
    (∀ s', parseStep env opts s = .ok (true, s') → StepStops env file s s' (parseStepT env t opts file s).trace) ∧
    (∀ s', parseStep env opts s = .ok (false, s') →
      StepDone env t opts file s s' (parseStepT env t opts file s).trace) := by
  unfold parseStepT parseStep
  by_cases h0 : inc env s.lineNumber = 0
  · simp only [h0, if_true, log_bind]
    refine ⟨rfl, fun c h => (by cases h), fun s' h => ?_, fun s' h => by cases h⟩
    cases h
    have := StepStops.tooMany (file := file) (s := s) (s' := { s with lineNumber := 0, report := { s.report with quit := true } }) h0 rfl
    simpa [writes, onFd, tpure_eq, str, Spec.Cli.txt] using this
  · simp only [h0, if_false]
    cases hg : getLine env.junk s.lineBuf s.lineMax s.data s.w.mem with
    | none =>
      have hg' : getLine env.junk s.lineBuf s.lineMax
        (PF.data { s with lineNumber := inc env s.lineNumber }) s.w.mem = none := hg
      rw [hg']
      exact ⟨rfl, fun c h => (by cases h), fun s' h => (by cases h), fun s' h => by cases h⟩
    | some x =>
      obtain ⟨r, lineBuf, lineMax, data, mem⟩ := x
      have hg' : getLine env.junk s.lineBuf s.lineMax
        (PF.data { s with lineNumber := inc env s.lineNumber }) s.w.mem = some (r, lineBuf, lineMax, data, mem) := hg
      rw [hg']
      simp only [of_some, tof_ok_bind, ok_bind]
      obtain ⟨i, w, hs⟩ := setData_eq ({ s with
        lineNumber := inc env s.lineNumber, lineBuf := lineBuf, lineMax := lineMax, w := { s.w with mem := mem } } : PF) data
      simp only [hs]
      cases r with
      | comment =>
        refine ⟨rfl, fun c h => (by cases h), fun s' h => (by cases h), fun s' h => ?_⟩
        cases h
        exact .comment rfl rfl
      | eof =>
        refine ⟨rfl, fun c h => (by cases h), fun s' h => ?_, fun s' h => by cases h⟩
        cases h
        exact .eof rfl
      | exceedMaxLineLength =>
        refine ⟨rfl, fun c h => (by cases h), fun s' h => ?_, fun s' h => by cases h⟩
        cases h
        have := StepStops.tooLong (file := file) (s := s) (s' := ⟨i, w, lineBuf, lineMax, { s.report with quit := true }, inc env s.lineNumber, s.out⟩) h0 rfl hg
        simpa [writes, onFd, tpure_eq, lineError, str, Spec.Cli.txt] using this
      | outOfMemory =>
        refine ⟨rfl, fun c h => (by cases h), fun s' h => ?_, fun s' h => by cases h⟩
        cases h
        have := StepStops.noMemory (file := file) (s := s) (s' := ⟨i, w, lineBuf, lineMax, { s.report with quit := true }, inc env s.lineNumber, s.out⟩) h0 rfl hg
        simpa [writes, onFd, tpure_eq, lineError, str, Spec.Cli.txt] using this
      | ok =>
        cases lineBuf with
        | none => exact ⟨rfl, fun c h => (by cases h), fun s' h => (by cases h), fun s' h => by cases h⟩
        | some line =>
          simp only [of_some, tof_ok_bind, ok_bind]
          cases parseLine line opts.littleEndian opts.algoBitmask with
          | none => exact ⟨rfl, fun c h => (by cases h), fun s' h => (by cases h), fun s' h => by cases h⟩
          | some pr =>
            simp only [of_some, tof_ok_bind, ok_bind]
            cases pr with
            | none =>
              simp only
              refine ⟨(by cases opts.warn <;> rfl), fun c h => (by cases h), fun s' h => (by cases h), fun s' h => ?_⟩
              cases h
              have := StepDone.malformed (t := t) (opts := opts) (file := file) (s := s) (s' := ⟨i, w, some line, lineMax, bump env opts s.report .malformed, inc env s.lineNumber, s.out⟩) rfl rfl
              cases hw : opts.warn <;> simpa [lineMessage, hw, bump, writes, onFd, tpure_eq, lineError, str, Spec.Cli.txt] using this
            | some q =>
              obtain ⟨p, line'⟩ := q
              simp only
              cases cstr (line'.drop p.filename) with
              | none => exact ⟨rfl, fun c h => (by cases h), fun s' h => (by cases h), fun s' h => by cases h⟩
              | some name =>
                simp only [of_some, tof_ok_bind, ok_bind]
                generalize hs2 : (⟨i, w, some line', lineMax, { s.report with
                  nProperlyFormattedLines := inc env s.report.nProperlyFormattedLines }, inc env s.lineNumber, s.out⟩ : PF) = s2
                obtain ⟨v1, v2, v3⟩ := verifyEntryT_eq env s2 name p
                cases hv : verifyEntry env s2 name p with
                | ub =>
                  rw [hv] at v1
                  rcases hx : verifyEntryT env s2 name p with ⟨tr, rs⟩
                  rw [hx] at v1; simp only at v1; subst v1
                  exact ⟨rfl, fun c h => (by cases h), fun s' h => (by cases h), fun s' h => by cases h⟩
                | exit c =>
                  rw [hv] at v1
                  have v2 := v2 ⟨c, hv⟩
                  rcases hx : verifyEntryT env s2 name p with ⟨tr, rs⟩
                  rw [hx] at v1 v2; simp only at v1 v2; subst v1 v2
                  exact ⟨rfl, fun c h => rfl, fun s' h => (by cases h), fun s' h => by cases h⟩
                | ok y =>
                  obtain ⟨st, s3⟩ := y
                  rw [hv] at v1
                  have v3 := v3 _ hv
                  rcases hx : verifyEntryT env s2 name p with ⟨tr, rs⟩
                  rw [hx] at v1 v3; simp only at v1 v3; subst v1 v3
                  simp only [mk_ok_bind, ok_bind, showEntry_eq]
                  obtain ⟨k1, k2, k3⟩ := verifyEntry_keeps hv
                  have k4 : reportEntry env opts s3 name st =
                      { s3 with report := bump env opts s.report (outcomeOf st name),
                                out := s.out ++ printedFor opts (inc env s.lineNumber) (outcomeOf st name) } := by
                    have := reportEntry_eq env opts { s3 with report := s.report } name st
                    have h3 : ({ s3 with report := { s.report with
                        nProperlyFormattedLines := inc env s.report.nProperlyFormattedLines } } : PF) = s3 := by
                      rw [← hs2] at k1; cases s3; simp_all
                    rw [h3] at this
                    rw [this]
                    have hn : s3.lineNumber = inc env s.lineNumber := by rw [k3, ← hs2]
                    have ho : s3.out = s.out := by rw [k2, ← hs2]
                    rw [hn, ho]
                  refine ⟨rfl, fun c h => (by cases h), fun s' h => (by cases h), fun s' h => ?_⟩
                  have hn : s3.lineNumber = inc env s.lineNumber := by rw [k3, ← hs2]
                  rw [hn, tpure_eq, List.append_nil, List.nil_append]
                  cases h
                  rw [k4]
                  exact .entry rfl rfl

theorem same_message {t : Texts} {opts : CheckOpts} {file : List Byte} {k : ℕ} {o o' : Spec.Cli.Outcome}
    (h1 : o.entry = o'.entry) (h2 : o.isMalformed = o'.isMalformed) (h3 : o.isMismatch = o'.isMismatch)
    (h4 : o.isOk = o'.isOk) (hp : printedFor opts k o = printedFor opts k o') :
    lineMessage t opts file k o = lineMessage t opts file k o' := by
  cases o <;> cases o' <;> first
    | rfl
    | exact absurd (show false = true from h1) Bool.false_ne_true
    | exact absurd (show true = false from h1) (Ne.symm Bool.false_ne_true)
    | exact absurd (show false = true from h2) Bool.false_ne_true
    | exact absurd (show true = false from h2) (Ne.symm Bool.false_ne_true)
    | exact absurd (show false = true from h3) Bool.false_ne_true
    | exact absurd (show true = false from h3) (Ne.symm Bool.false_ne_true)
    | exact absurd (show false = true from h4) Bool.false_ne_true
    | exact absurd (show true = false from h4) (Ne.symm Bool.false_ne_true)
    | skip
  · simp only [printedFor, lineMessage, verdictLine_eq] at hp ⊢
    split at hp
    · rename_i h; rw [if_pos h, if_pos h]
    · rename_i h; rw [if_neg h, if_neg h]; simp only [List.cons.injEq, Out.text.injEq, and_true, if_true] at hp; rw [hp]
  · simp only [printedFor, lineMessage, verdictLine_eq] at hp ⊢
    split at hp
    · rename_i h; rw [if_pos h, if_pos h]
    · rename_i h; rw [if_neg h, if_neg h]; simp only [List.cons.injEq, Out.text.injEq, and_true, Bool.false_eq_true, if_false] at hp; rw [hp]
  · simp only [printedFor, lineMessage] at hp ⊢
    split at hp
    · rename_i h; rw [if_pos h, if_pos h]
    · rename_i h; rw [if_neg h, if_neg h]; simp only [List.cons.injEq, Out.openFailure.injEq, true_and, and_true] at hp; rw [hp]

theorem lineMessages_cons (t : Texts) (opts : CheckOpts) (file : List Byte) (n : ℕ) (o : Spec.Cli.Outcome)
    (os : List Spec.Cli.Outcome) : lineMessages t opts file n (o :: os) =
      lineMessage t opts file (n + 1) o ++ lineMessages t opts file (n + 1) os := by
  unfold lineMessages
  rw [List.zipIdx_cons, List.flatMap_cons]

/-- A line that is done: what is written is the message about its outcome. -/
theorem stepDone_message {env : Env} {t : Texts} {opts : CheckOpts} {file : List Byte} {w0 : World} {s s' : PF} {tr : Trace}
    {done : List Spec.Cli.Outcome} {o : Spec.Cli.Outcome} (hI : Inv env opts w0 s done) (hI' : Inv env opts w0 s' (done ++ [o]))
    (h : StepDone env t opts file s s' tr) : tr = lineMessage t opts file (done.length + 1) o := by
  have hb : done.length + 1 < 2 ^ env.ulongBits := by have := hI'.bound; simpa using this
  have hi : inc env s.lineNumber = done.length + 1 := by rw [hI.number]; exact inc_eq hb
  have key : ∀ o' : Spec.Cli.Outcome, s'.report = bump env opts s.report o' →
      s'.out = s.out ++ printedFor opts (done.length + 1) o' →
      lineMessage t opts file (done.length + 1) o' = lineMessage t opts file (done.length + 1) o := by
    intro o' hr ho
    have c1 := (counts_bump (env := env) hI.counts hb o').1
    rw [← hr] at c1
    have c2 := hI'.counts
    have hcl : ∀ p : Spec.Cli.Outcome → Bool, (done ++ [o']).countP p = (done ++ [o]).countP p → p o' = p o := by
      intro p hp
      rw [countP_snoc, countP_snoc] at hp
      cases h1 : p o' <;> cases h2 : p o <;> simp_all
    refine same_message (hcl _ (c1.proper.symm.trans c2.proper)) (hcl _ (c1.improper.symm.trans c2.improper))
      (hcl _ (c1.mismatched.symm.trans c2.mismatched)) (hcl _ (c1.matched.symm.trans c2.matched)) ?_
    have h1 := hI'.out
    rw [ho, hI.out, printed_append, Nat.zero_add] at h1
    have h2 := List.append_cancel_left h1
    simpa [printed] using h2
  cases h with
  | comment h1 h2 =>
    have := key .comment h1 (by rw [h2]; simp [printedFor])
    rw [← this]; rfl
  | malformed h1 h2 =>
    rw [hi]
    exact key .malformed h1 (by rw [h2]; simp [printedFor])
  | entry h1 h2 =>
    rw [hi] at h2 ⊢
    exact key _ h1 h2

theorem noMemory_low {env : Env} {opts : CheckOpts} {w0 : World} {s : PF} {done : List Spec.Cli.Outcome}
    (hI : Inv env opts w0 s done) {b : Option CMem} {m : ℕ} {d : List Byte} {r : List Bool}
    (h : getLine env.junk s.lineBuf s.lineMax s.data s.w.mem = some (.outOfMemory, b, m, d, r)) : false ∈ w0.mem := by
  obtain ⟨buf, hb1, hb2⟩ := hI.buf
  obtain ⟨r', st, hg, hG⟩ := getLineLoop_eq env.junk s.data buf s.lineMax s.w.mem [] hb2 hI.lo hI.hi List.nil_prefix
  have hgl := getLine_some env.junk (b := buf) hI.lo s.data s.w.mem
  rw [show (0 : Nat) = ([] : List Byte).length from rfl, hg, Option.map_some, ← hb1, h] at hgl
  simp only [Option.some.injEq, Prod.mk.injEq] at hgl
  have hr := hgl.1
  rcases hG.kind with ⟨_, h2, _⟩ | ⟨h1, _⟩ | ⟨h1, _⟩ | ⟨h1, _⟩
  · exact hI.world.mem.subset h2
  · rw [h1] at hr; cases hr
  · rw [h1] at hr; cases hr
  · rw [h1] at hr
    unfold lineClass at hr
    split at hr <;> cases hr

theorem tooLong_of {env : Env} {opts : CheckOpts} {w0 : World} {s : PF} {done : List Spec.Cli.Outcome}
    (hI : Inv env opts w0 s done) {b : Option CMem} {m : ℕ} {d : List Byte} {r : List Bool}
    (h : getLine env.junk s.lineBuf s.lineMax s.data s.w.mem = some (.exceedMaxLineLength, b, m, d, r)) :
    Spec.Cli.TooLong s.data := by
  obtain ⟨buf, hb1, hb2⟩ := hI.buf
  obtain ⟨r', st, hg, hG⟩ := getLineLoop_eq env.junk s.data buf s.lineMax s.w.mem [] hb2 hI.lo hI.hi List.nil_prefix
  have hgl := getLine_some env.junk (b := buf) hI.lo s.data s.w.mem
  rw [show (0 : Nat) = ([] : List Byte).length from rfl, hg, Option.map_some, ← hb1, h] at hgl
  simp only [Option.some.injEq, Prod.mk.injEq] at hgl
  have hr := hgl.1
  rcases hG.kind with ⟨h1, _⟩ | ⟨_, h2⟩ | ⟨h1, _⟩ | ⟨h1, _⟩
  · rw [h1] at hr; cases hr
  · exact h2
  · rw [h1] at hr; cases hr
  · rw [h1] at hr
    unfold lineClass at hr
    split at hr <;> cases hr

theorem text_data {s : PF} {x : List Byte} (h : (sourceOf s).text = some x) : s.data = x := by
  unfold sourceOf at h
  unfold PF.data
  cases hi : s.inp with
  | none => rw [hi] at h; cases h
  | some f => rw [hi] at h; simpa using h

theorem lineMeans_text {c : Spec.Cli.Setting} {s s' : Spec.Cli.Source} {l : List Byte} {o : Option Spec.Cli.Outcome}
    (h : Spec.Cli.LineMeans c s l o s') : s'.text = s.text := by
  have ha : ∀ n, (s.afterReading n).text = s.text := by
    intro n; unfold Spec.Cli.Source.afterReading; split <;> rfl
  cases h <;> first | rfl | exact ha _

/-- The loop, with what it writes. -/
theorem parseLoopT_eq {env : Env} (hE : EnvOk env) (t : Texts) {opts : CheckOpts} (file : List Byte) {w0 : World}
    (hw : SmallFiles w0) (hs : w0.stdin.data.length < 2 ^ 64) {c : Spec.Cli.Setting}
    (hc : c = settingOf env opts w0 (false ∈ w0.mem)) :
    ∀ (fuel : Nat) (s : PF) (done : List Spec.Cli.Outcome), Inv env opts w0 s done → s.data.length < fuel →
      ∃ os e src', Spec.Cli.Checks c done.length (sourceOf s) os e src' ∧
        (e = .readError → parseLoopT env t opts file fuel s =
          ⟨lineMessages t opts file done.length os ++ writes .err readFailure, .exit 1⟩) ∧
        (e ≠ .readError → ∃ s' tr, parseLoopT env t opts file fuel s =
            ⟨lineMessages t opts file done.length os ++ tr, .ok s'⟩ ∧ Keeps w0 s'.w ∧
          Counts s'.report opts (done ++ os) ∧ (s'.report.quit = true ↔ e = .quit) ∧ src'.stdin = s'.w.stdin.data ∧
          s'.out = printed opts 0 (done ++ os) ∧ (e = .complete → tr = []) ∧
          (e = .quit → ∃ m, GivesUp c file (done.length + os.length)
            ((sourceOf s).text.map (Spec.Cli.otherLines^[os.length])) m ∧ tr = writes .err m)) := by
  intro fuel
  induction fuel with
  | zero => intro s done _ h; omega
  | succ fuel ih =>
    intro s done hI hf
    have hmax : c.maxLines = 2 ^ env.ulongBits - 1 := by rw [hc]; rfl
    have hpow : 0 < 2 ^ env.ulongBits := Nat.two_pow_pos _
    have hq : Counts { s.report with quit := true } opts done := by
      obtain ⟨a1, a2, a3, a4, a5, a6⟩ := hI.counts
      exact ⟨a1, a2, a3, a4, a5, a6⟩
    obtain ⟨t1, t2, t3, t4⟩ := parseStepT_eq env t opts file s
    have hnil : lineMessages t opts file done.length [] = [] := rfl
    have hstop : ∀ s' , parseStep env opts s = .ok (true, s') →
        parseLoopT env t opts file (fuel + 1) s = ⟨(parseStepT env t opts file s).trace, .ok s'⟩ := by
      intro s' h
      unfold parseLoopT
      rw [hI.quit]
      simp only [Bool.false_eq_true, if_false]
      rw [h] at t1
      rcases hx : parseStepT env t opts file s with ⟨tr, rs⟩
      rw [hx] at t1
      simp only at t1
      subst t1
      simp only [mk_ok_bind, if_true, tpure_eq, List.append_nil]
    rcases parseStep_eq hE hw hs hI hc with ⟨h1, s', e, k, r, o, src⟩ | ⟨h1, h2, s', e, k, r, o, src⟩ |
      ⟨h1, h2, s', e, k, r, o⟩ | ⟨h1, h2, h3, e, src', hm⟩ | ⟨h1, h2, h3, o, s', e, k, hl, hm⟩
    · refine ⟨[], .quit, sourceOf s, .tooMany h1, by simp, fun _ => ⟨s', _, by rw [hnil, List.nil_append]; exact hstop s' e, k, ?_, ?_, ?_, ?_, by simp, ?_⟩⟩
      · rw [List.append_nil, r]; exact hq
      · rw [r]; simp
      · rw [← src]; rfl
      · rw [List.append_nil, o]; exact hI.out
      · intro _
        have hz : inc env s.lineNumber = 0 := by
          unfold inc; rw [hI.number, h1, hmax, Nat.sub_add_cancel hpow, Nat.mod_self]
        generalize hgen : (parseStepT env t opts file s).trace = tr
        have hst := t3 s' e
        rw [hgen] at hst
        cases hst with
        | eof hh => rw [r] at hh; have := congrArg Report.quit hh; rw [hI.quit] at this; cases this
        | tooMany _ _ => exact ⟨_, .tooMany (by simpa using h1), rfl⟩
        | tooLong hh => exact absurd hz hh
        | noMemory hh => exact absurd hz hh
    · refine ⟨[], .complete, sourceOf s, .complete h1 (by rw [rest_sourceOf]; exact h2), by simp,
        fun _ => ⟨s', _, by rw [hnil, List.nil_append]; exact hstop s' e, k, ?_, ?_, ?_, ?_, ?_, by simp⟩⟩
      · rw [List.append_nil, r]; exact hI.counts
      · rw [r, hI.quit]; simp
      · rw [← src]; rfl
      · rw [List.append_nil, o]; exact hI.out
      · intro _
        generalize hgen : (parseStepT env t opts file s).trace = tr
        have hst := t3 s' e
        rw [hgen] at hst
        have hqf : s'.report.quit = false := by rw [r, hI.quit]
        cases hst with
        | eof hh => rfl
        | tooMany _ hh => rw [hqf] at hh; cases hh
        | tooLong _ hh => rw [hqf] at hh; cases hh
        | noMemory _ hh => rw [hqf] at hh; cases hh
    · have hch : Spec.Cli.Checks c done.length (sourceOf s) [] .quit (sourceOf s') := by
        rcases h2 with h2 | ⟨h2, h3⟩
        · exact .tooLong h1 (by rw [rest_sourceOf]; exact h2)
        · exact .lowMemory h1 h2 (by rw [rest_sourceOf]; exact h3)
      refine ⟨[], .quit, _, hch, by simp, fun _ => ⟨s', _, by rw [hnil, List.nil_append]; exact hstop s' e, k, ?_, ?_, rfl, ?_, by simp, ?_⟩⟩
      · rw [List.append_nil, r]; exact hq
      · rw [r]; simp
      · rw [List.append_nil, o]; exact hI.out
      · intro _
        have hi : inc env s.lineNumber = done.length + 1 := by rw [hI.number]; exact inc_eq (by omega)
        generalize hgen : (parseStepT env t opts file s).trace = tr
        have hst := t3 s' e
        rw [hgen] at hst
        cases hst with
        | eof hh => rw [r] at hh; have := congrArg Report.quit hh; rw [hI.quit] at this; cases this
        | tooMany hh _ => rw [hi] at hh; omega
        | tooLong _ _ hh =>
          refine ⟨_, .tooLong (by simpa using h1) ?_, by rw [hi]; rfl⟩
          intro x hx
          simp only [List.length_nil, Function.iterate_zero, Option.map_id_fun, id_eq] at hx
          rw [← text_data hx]
          exact tooLong_of hI hh
        | noMemory _ _ hh =>
          have hlow : c.lowMemory := by rw [hc]; exact noMemory_low hI hh
          exact ⟨_, .noMemory (by simpa using h1) hlow, by rw [hi]; rfl⟩
    · rw [← rest_sourceOf] at h2 h3 hm
      refine ⟨[], .readError, src', .readError h1 h2 h3 hm, fun _ => ?_, fun h => absurd rfl h⟩
      rw [hnil, List.nil_append]
      unfold parseLoopT
      rw [hI.quit]
      simp only [Bool.false_eq_true, if_false]
      have t2 := t2 1 e
      rw [e] at t1
      rcases hx : parseStepT env t opts file s with ⟨tr, rs⟩
      rw [hx] at t1 t2
      simp only at t1 t2
      subst t1 t2
      rfl
    · obtain ⟨os, e', src', g1, g2, g3⟩ := ih s' (done ++ [o]) k (by omega)
      rw [← rest_sourceOf] at h2 h3 hm
      have hmsg := stepDone_message hI k (t4 s' e)
      have hrun : parseLoopT env t opts file (fuel + 1) s = ⟨lineMessage t opts file (done.length + 1) o ++
          (parseLoopT env t opts file fuel s').trace, (parseLoopT env t opts file fuel s').res⟩ := by
        conv_lhs => unfold parseLoopT
        rw [hI.quit]
        simp only [Bool.false_eq_true, if_false]
        rw [e] at t1
        rcases hx : parseStepT env t opts file s with ⟨tr, rs⟩
        rw [hx] at t1 hmsg
        simp only at t1 hmsg
        subst t1 hmsg
        simp only [mk_ok_bind, Bool.false_eq_true, if_false]
      have hlen : (done ++ [o]).length = done.length + 1 := by simp
      rw [hlen] at g1 g2 g3
      refine ⟨o :: os, e', src', .line h1 h2 h3 hm g1, ?_, ?_⟩
      · intro h; rw [hrun, g2 h, lineMessages_cons, List.append_assoc]
      · intro h
        obtain ⟨s'', tr, l1, l2, l3, l4, l5, l5', l6, l7⟩ := g3 h
        refine ⟨s'', tr, by rw [hrun, l1, lineMessages_cons, List.append_assoc], l2, ?_, l4, l5, ?_, l6, ?_⟩
        · simpa using l3
        · simpa using l5'
        · intro hh
          obtain ⟨m, n1, n2⟩ := l7 hh
          refine ⟨m, ?_, n2⟩
          have ht : (sourceOf s').text = (sourceOf s).text.map Spec.Cli.otherLines := by
            rw [lineMeans_text hm]
            unfold Spec.Cli.Source.put Spec.Cli.Source.rest
            cases (sourceOf s).text <;> rfl
          rw [ht, Option.map_map] at n1
          rw [List.length_cons, ← Nat.add_assoc, Nat.add_right_comm]
          exact n1

/-! ### Results -/

theorem tbind_res {α β : Type} (x : Traced α) (f : α → Traced β) : (x >>= f).res = (x.res >>= fun a => (f a).res) := by
  obtain ⟨tr, r⟩ := x
  cases r <;> rfl

theorem tbind_trace {α β : Type} (x : Traced α) (f : α → Traced β) :
    (x >>= f).trace = x.trace ++ (match x.res with | .ok a => (f a).trace | _ => []) := by
  obtain ⟨tr, r⟩ := x
  cases r <;> simp [Bind.bind]

theorem parseLoopT_res (env : Env) (t : Texts) (opts : CheckOpts) (file : List Byte) :
    ∀ fuel s, (parseLoopT env t opts file fuel s).res = parseLoop env opts fuel s
  | 0, _ => rfl
  | fuel + 1, s => by
    unfold parseLoopT parseLoop
    split
    · rfl
    · rw [tbind_res, (parseStepT_eq env t opts file s).1]
      congr 1
      funext p
      obtain ⟨stop, s'⟩ := p
      cases stop
      · exact parseLoopT_res env t opts file fuel s'
      · rfl

theorem showSummary_eq {opts : CheckOpts} (file : List Byte) {r : Report} {os : List Spec.Cli.Outcome}
    (hc : Counts r opts os) : showSummary opts file r = ⟨(if ∀ o ∈ os, o.entry = false then
        writes .err (file ++ Spec.Cli.txt ": no properly formatted xxHash checksum lines found\n")
      else if opts.statusOnly then []
      else writes .out
        (counted (os.countP (·.isMalformed)) " " "line is" "lines are" " improperly formatted\n" ++
         (if opts.ignoreMissing then []
          else counted (os.countP (·.isMissing)) " listed " "file" "files" " could not be read\n") ++
         counted (os.countP (·.isMismatch)) " computed " "checksum" "checksums" " did NOT match\n")), .ok ()⟩ := by
  obtain ⟨h1, h2, h3, h4, h5, h6⟩ := hc
  have hz : ∀ p : Spec.Cli.Outcome → Bool, (∀ o ∈ os, p o = false) ↔ os.countP p = 0 := by
    intro p; rw [List.countP_eq_zero]; simp
  unfold showSummary
  simp only [hz (·.entry), ← h1, ← h2, ← h3]
  have h5' : (if opts.ignoreMissing = true then []
      else counted (os.countP (·.isMissing)) " listed " "file" "files" " could not be read\n") =
      counted r.nOpenOrReadFailures " listed " "file" "files" " could not be read\n" := by
    rw [h5]; split <;> rfl
  rw [h5']
  by_cases hp : r.nProperlyFormattedLines = 0
  · simp only [hp, if_true]; rfl
  · simp only [hp, if_false]
    cases opts.statusOnly with
    | true => rfl
    | false =>
      have key : ∀ (n : ℕ) (b sg pl a : String) (k : Traced Unit),
          (if n ≠ 0 then (output (decText n ++ str b ++ str (if n = 1 then sg else pl) ++ str a) >>= fun _ => k)
            else k) = ⟨writes .out (counted n b sg pl a) ++ k.trace, k.res⟩ := by
        intro n b sg pl a k
        unfold counted
        by_cases hn : n = 0
        · simp only [hn, ne_eq, not_true_eq_false, if_false, if_true]; rfl
        · simp only [hn, ne_eq, not_false_eq_true, if_false, if_true]; rfl
      have key' : ∀ (n : ℕ) (b sg pl a : String),
          (if n ≠ 0 then output (decText n ++ str b ++ str (if n = 1 then sg else pl) ++ str a) else pure ()) =
            (⟨writes .out (counted n b sg pl a), .ok ()⟩ : Traced Unit) := by
        intro n b sg pl a
        unfold counted
        by_cases hn : n = 0
        · simp only [hn, ne_eq, not_true_eq_false, if_false, if_true]; rfl
        · simp only [hn, ne_eq, not_false_eq_true, if_false, if_true]; rfl
      simp only [Bool.not_false, if_true, Bool.false_eq_true, if_false]
      rw [key, key, key']
      simp only [writes, List.map_append, List.append_assoc]

/-- The name a checksum file is called by. -/
def callName : Option (List Byte) → List Byte
  | none => Spec.Cli.txt "stdin"
  | some n => n

/-- The whole checksum file, with what is written. -/
theorem checkFileT_eq {env : Env} (hE : EnvOk env) (t : Texts) (opts : CheckOpts) {w : World} (hw : SmallFiles w)
    (hs : w.stdin.data.length < 2 ^ 64) (name : Option (List Byte)) (inp : Option Stream)
    (hinp : openCheck w name = some inp)
    (hm : w.mem.headD true = true ∧ w.mem.tail.headD true = true) {c : Spec.Cli.Setting}
    (hc : c = settingOf env opts w (false ∈ w.mem.drop 2)) :
    ∃ os e src', Spec.Cli.Checks c 0 ⟨inp.map (·.data), w.stdin.data⟩ os e src' ∧
      (e = .readError → checkFileT env t w name opts =
        ⟨lineMessages t opts (callName name) 0 os ++ writes .err readFailure, .exit 1⟩) ∧
      (e ≠ .readError → ∃ tr ok w', checkFileT env t w name opts =
          ⟨lineMessages t opts (callName name) 0 os ++ tr ++ closing opts (callName name) os, .ok (ok, w')⟩ ∧
        (ok = true ↔ Spec.Cli.Success opts.strictMode opts.ignoreMissing os e) ∧ Keeps w w' ∧ src'.stdin = w'.stdin.data ∧
        (∃ r, Counts r opts os ∧
          checkFile env w name opts = .ok (ok, printed opts 0 os ++ summary opts r ++ (checkResult opts r).2, w')) ∧
        (e = .complete → tr = []) ∧
        (e = .quit → ∃ m, GivesUp c (callName name) os.length
          ((inp.map (·.data)).map (Spec.Cli.otherLines^[os.length])) m ∧ tr = writes .err m)) := by
  let w2 : World := { w with mem := w.mem.drop 2 }
  have hw2 : SmallFiles w2 := hw
  let s : PF := ⟨inp, w2, some (fresh env.junk DEFAULT_LINE_LENGTH), DEFAULT_LINE_LENGTH,
      ⟨0, 0, 0, 0, 0, 0, false⟩, 0, []⟩
  have hI : Inv env opts w2 s [] := by
    refine ⟨⟨_, rfl, fresh_length _ _⟩, show 1 ≤ DEFAULT_LINE_LENGTH by decide,
      show DEFAULT_LINE_LENGTH ≤ 32768 by decide, rfl, rfl, ?_, ?_, rfl,
      ⟨rfl, rfl, rfl, List.suffix_refl _, Nat.le_refl _⟩⟩
    · exact Nat.two_pow_pos _
    · exact ⟨rfl, rfl, rfl, rfl, by simp [s], by simp [s]⟩
  have hform : checkFileT env t w name opts = (do
      let s ← parseLoopT env t opts (callName name) (s.data.length + 1) s
      showSummary opts (callName name) s.report
      if opts.ignoreMissing && s.report.nMatchedChecksums = 0 then
        output (callName name ++ str ": no file was verified\n")
        return (false, s.w)
      return (s.report.nProperlyFormattedLines ≠ 0 && s.report.nMismatchedChecksums = 0 &&
        s.report.nOpenOrReadFailures = 0 && (!opts.strictMode || s.report.nImproperlyFormattedLines = 0) &&
        !s.report.quit, s.w)) := by
    unfold checkFileT
    have h1 := hm.1
    have h2 := hm.2
    have : w.mem.tail.tail = w.mem.drop 2 := by cases w.mem with
      | nil => rfl
      | cons a t => cases t <;> rfl
    cases name with
    | none =>
      simp only [openCheck, Option.some.injEq] at hinp
      subst hinp
      simp only [World.alloc, h1, h2, this]
      rfl
    | some n =>
      simp only [openCheck] at hinp
      simp only [hinp, World.alloc, h1, h2, this]
      rfl
  have hform' : checkFile env w name opts = (do
      let s ← parseLoop env opts (s.data.length + 1) s
      return ((checkResult opts s.report).1, s.out ++ summary opts s.report ++ (checkResult opts s.report).2, s.w)) := by
    unfold checkFile
    have h1 := hm.1
    have h2 := hm.2
    have : w.mem.tail.tail = w.mem.drop 2 := by cases w.mem with
      | nil => rfl
      | cons a t => cases t <;> rfl
    cases name with
    | none =>
      simp only [openCheck, Option.some.injEq] at hinp
      subst hinp
      simp only [World.alloc, h1, h2, this]
      rfl
    | some n =>
      simp only [openCheck] at hinp
      simp only [hinp, World.alloc, h1, h2, this]
      rfl
  obtain ⟨os, e, src', h1, h2, h3⟩ := parseLoopT_eq hE t (callName name) hw2 hs (c := c) (by rw [hc]; rfl)
    (s.data.length + 1) s [] hI (Nat.lt_succ_self _)
  refine ⟨os, e, src', h1, ?_, ?_⟩
  · intro he; rw [hform, h2 he]; rfl
  · intro he
    obtain ⟨s', tr, g1, g2, g3, g4, g5, g5', g6, g7⟩ := h3 he
    simp only [List.nil_append, List.length_nil, Nat.zero_add] at g3 g7 g5'
    have hloop : parseLoop env opts (s.data.length + 1) s = .ok s' := by
      rw [← parseLoopT_res env t opts (callName name), g1]
    have hz : (∀ o ∈ os, o.isOk = false) ↔ s'.report.nMatchedChecksums = 0 := by
      rw [g3.matched, List.countP_eq_zero]; simp
    refine ⟨tr, (checkResult opts s'.report).1, s'.w, ?_, success_iff g3 he g4,
      ⟨g2.files, g2.isDir, g2.fail, g2.mem.trans (List.drop_suffix _ _), g2.small⟩, g5, ⟨s'.report, g3, by rw [hform', hloop, ← g5']; rfl⟩, g6, g7⟩
    rw [hform, g1, mk_ok_bind, showSummary_eq _ g3, mk_ok_bind]
    unfold closing
    simp only [hz]
    by_cases hi : opts.ignoreMissing = true ∧ s'.report.nMatchedChecksums = 0
    · have hi' : (opts.ignoreMissing && decide (s'.report.nMatchedChecksums = 0)) = true := by simp [hi]
      have hx : (checkResult opts s'.report).1 = false := by unfold checkResult; rw [if_pos hi']
      rw [if_pos hi, if_pos hi', hx]
      simp only [output_bind, tpure_eq, List.append_nil, List.append_assoc]
      rfl
    · have hi' : ¬ ((opts.ignoreMissing && decide (s'.report.nMatchedChecksums = 0)) = true) := by simpa using hi
      have hx : (checkResult opts s'.report).1 = (s'.report.nProperlyFormattedLines ≠ 0 &&
          s'.report.nMismatchedChecksums = 0 && s'.report.nOpenOrReadFailures = 0 &&
          (!opts.strictMode || s'.report.nImproperlyFormattedLines = 0) && !s'.report.quit) := by
        unfold checkResult; rw [if_neg hi']
      rw [if_neg hi, if_neg hi', hx]
      simp only [tpure_eq, List.append_nil, List.append_assoc]
      rfl

/-- What is said and done about a checksum file that is not verified. -/
theorem checkFileT_none {env : Env} {t : Texts} {opts : CheckOpts} {w : World} {n : List Byte} (h : w.files n = none) :
    checkFileT env t w (some n) opts =
      ⟨writes .err (Spec.Cli.txt "Error: Could not open '" ++ n ++ Spec.Cli.txt "': " ++ t.strerror n ++ Spec.Cli.txt "\n"),
        .ok (false, w)⟩ := by
  unfold checkFileT
  simp only [h, Option.map_none, log_bind, tpure_eq, List.append_nil]
  rfl

theorem checkFileT_noMemory {env : Env} {t : Texts} {opts : CheckOpts} {w : World} {name : Option (List Byte)}
    {inp : Option Stream} (h : openCheck w name = some inp)
    (hm : ¬ (w.mem.headD true = true ∧ w.mem.tail.headD true = true)) :
    checkFileT env t w name opts =
      ⟨writes .err (Spec.Cli.txt "Error: : memory allocation failed \n"), .exit 1⟩ := by
  unfold checkFileT
  have hab : (!w.mem.headD true || !w.mem.tail.headD true) = true := by
    cases h1 : w.mem.headD true <;> cases h2 : w.mem.tail.headD true <;> simp_all
  cases name with
  | none =>
    simp only [World.alloc, hab, if_true, log_bind]
    rfl
  | some n =>
    simp only [openCheck] at h
    simp only [h, World.alloc, hab, if_true, log_bind]
    rfl

theorem summaryT_res (opts : CheckOpts) (file : List Byte) (r : Report) : (showSummary opts file r).res = .ok () := by
  unfold showSummary
  repeat' split
  all_goals rfl

theorem checkFileT_res (env : Env) (t : Texts) (w : World) (name : Option (List Byte)) (opts : CheckOpts) :
    (checkFileT env t w name opts).res = (do
      let (ok, _, w') ← checkFile env w name opts
      return (ok, w')) := by
  have key : ∀ (file : List Byte) (inp : Option Stream),
      (do
        let (a, w) := w.alloc
        let (b, w) := w.alloc
        if !a || !b then
          log (str "Error: : memory allocation failed \n")
          Traced.of (.exit 1)
        let s : PF := ⟨inp, w, some (fresh env.junk DEFAULT_LINE_LENGTH), DEFAULT_LINE_LENGTH,
          ⟨0, 0, 0, 0, 0, 0, false⟩, 0, []⟩
        let s ← parseLoopT env t opts file (s.data.length + 1) s
        showSummary opts file s.report
        let r := s.report
        let result := r.nProperlyFormattedLines ≠ 0 && r.nMismatchedChecksums = 0 && r.nOpenOrReadFailures = 0 &&
          (!opts.strictMode || r.nImproperlyFormattedLines = 0) && !r.quit
        if opts.ignoreMissing && r.nMatchedChecksums = 0 then
          output (file ++ str ": no file was verified\n")
          return (false, s.w)
        return (result, s.w) : Traced (Bool × World)).res = (do
      let (ok, _, w') ← (do
        let (a, w) := w.alloc
        let (b, w) := w.alloc
        if !a || !b then .exit 1
        let s : PF := ⟨inp, w, some (fresh env.junk DEFAULT_LINE_LENGTH), DEFAULT_LINE_LENGTH,
          ⟨0, 0, 0, 0, 0, 0, false⟩, 0, []⟩
        let s ← parseLoop env opts (s.data.length + 1) s
        let (result, out) := checkResult opts s.report
        return (result, s.out ++ summary opts s.report ++ out, s.w) : Res (Bool × List Out × World))
      return (ok, w')) := by
    intro file inp
    simp only [World.alloc]
    by_cases hmem : (!w.mem.headD true || !w.mem.tail.headD true) = true
    · simp only [hmem, ↓reduceIte]; rfl
    · simp only [hmem, Bool.false_eq_true, ↓reduceIte]
      rw [tbind_res, parseLoopT_res]
      generalize parseLoop env opts _ _ = x
      cases x with
      | ub => rfl
      | exit c => rfl
      | ok s =>
        simp only [ok_bind, tbind_res, summaryT_res]
        unfold checkResult
        split <;> rfl
  cases name with
  | none => exact key _ none
  | some n =>
    unfold checkFileT checkFile
    cases hf : w.files n with
    | none => simp only [hf]; rfl
    | some f =>
      simp only [hf, Option.map_some]
      exact key n (some f)

theorem checkFilesLoopT_res (env : Env) (t : Texts) (opts : CheckOpts) : ∀ names w ok out,
    (checkFilesLoopT env t opts names w ok).res = (do
      let (ok, _, w') ← checkFilesLoop env opts names w ok out
      return (ok, w'))
  | [], _, _, _ => rfl
  | n :: names, w, ok, out => by
    unfold checkFilesLoopT checkFilesLoop
    rw [tbind_res, checkFileT_res]
    cases checkFile env w (some n) opts with
    | ub => rfl
    | exit c => rfl
    | ok x =>
      obtain ⟨r, o, w'⟩ := x
      exact checkFilesLoopT_res env t opts names w' (ok && r) (out ++ o)

theorem checkFilesT_res (env : Env) (t : Texts) (w : World) (names : List (List Byte)) (opts : CheckOpts) :
    (checkFilesT env t w names opts).res = (do
      let (c, _, w') ← checkFiles env w names opts
      return (c, w')) := by
  unfold checkFilesT checkFiles
  by_cases h : names.length = 0
  · simp only [h, if_true, tbind_res]
    rw [checkFileT_res]
    cases checkFile env w none opts <;> rfl
  · simp only [h, if_false, tbind_res]
    rw [checkFilesLoopT_res env t opts names w true []]
    cases checkFilesLoop env opts names w true [] <;> rfl

/-! ### Hashing -/

theorem arrives_append (fd : Fd) (a b : Trace) : arrives fd (a ++ b) = arrives fd a ++ arrives fd b := by
  simp [arrives]

theorem arrives_same (fd : Fd) (x : List Byte) : arrives fd (writes fd x) = x := by
  induction x with
  | nil => rfl
  | cons b x ih => simp only [arrives, writes, List.map_cons, List.filter_cons, decide_true, if_true] at ih ⊢; rw [ih]

theorem arrives_other {fd fd' : Fd} (h : fd' ≠ fd) (x : List Byte) : arrives fd (writes fd' x) = [] := by
  simp [arrives, writes, h]

/-- Hashing a file: the same result, and on standard output the line. -/
theorem hashFileT_res (env : Env) (t : Texts) (w : World) (name : Option (List Byte)) (a : Algo) (le bsd : Bool) :
    (hashFileT env t w name a le bsd).res = (do
      let (c, _, w') ← hashFile env w name a le bsd
      return (c, w')) ∧
    ∀ c out w', hashFile env w name a le bsd = .ok (c, out, w') →
      arrives .out (hashFileT env t w name a le bsd).trace = out := by
  have key : ∀ (shown : List Byte) (f : Stream) (std : Bool),
      (do
        let (ok, w) := w.alloc
        if !ok then
          log (str "\nError: Out of memory.\n")
          return (1, if std then { w with stdin := { w.stdin with data := [] } } else w)
        let (hashValue, inFile) ← hashStreamT env f a (64 * 1024)
        let canonical ← Traced.of (Res.of (canonicalOf env a hashValue))
        let line ← Traced.of (Res.of (displayLine bsd le shown canonical a))
        output line
        return (0, if std then { w with stdin := inFile } else w) : Traced (Nat × World)).res = (do
      let (c, _, w') ← (do
        let (ok, w) := w.alloc
        if !ok then return (1, [], if std then { w with stdin := { w.stdin with data := [] } } else w)
        let (hashValue, inFile) ← hashStream env f a (64 * 1024)
        let canonical ← Res.of (canonicalOf env a hashValue)
        let line ← Res.of (displayLine bsd le shown canonical a)
        return (0, line, if std then { w with stdin := inFile } else w) : Res (Nat × List Byte × World))
      return (c, w')) ∧
      ∀ c out w', (do
        let (ok, w) := w.alloc
        if !ok then return (1, [], if std then { w with stdin := { w.stdin with data := [] } } else w)
        let (hashValue, inFile) ← hashStream env f a (64 * 1024)
        let canonical ← Res.of (canonicalOf env a hashValue)
        let line ← Res.of (displayLine bsd le shown canonical a)
        return (0, line, if std then { w with stdin := inFile } else w) : Res (Nat × List Byte × World)) =
          .ok (c, out, w') → arrives .out (do
        let (ok, w) := w.alloc
        if !ok then
          log (str "\nError: Out of memory.\n")
          return (1, if std then { w with stdin := { w.stdin with data := [] } } else w)
        let (hashValue, inFile) ← hashStreamT env f a (64 * 1024)
        let canonical ← Traced.of (Res.of (canonicalOf env a hashValue))
        let line ← Traced.of (Res.of (displayLine bsd le shown canonical a))
        output line
        return (0, if std then { w with stdin := inFile } else w) : Traced (Nat × World)).trace = out := by
    intro shown f std
    simp only [World.alloc]
    rcases Bool.eq_false_or_eq_true (w.mem.headD true) with hm | hm
    rotate_left
    · simp only [hm, Bool.not_false, ↓reduceIte]
      refine ⟨rfl, fun c out w' h => ?_⟩
      cases h
      rfl
    · simp only [hm, Bool.not_true, Bool.false_eq_true, ↓reduceIte, hashStreamT_eq]
      cases hashStream env f a (64 * 1024) with
      | ub => exact ⟨rfl, fun _ _ _ h => by cases h⟩
      | exit c => exact ⟨rfl, fun _ _ _ h => by cases h⟩
      | ok x =>
        obtain ⟨v, f'⟩ := x
        simp only [mk_ok_bind, ok_bind]
        cases canonicalOf env a v with
        | none => exact ⟨rfl, fun _ _ _ h => by cases h⟩
        | some d =>
          simp only [of_some, tof_ok_bind, ok_bind]
          cases displayLine bsd le shown d a with
          | none => exact ⟨rfl, fun _ _ _ h => by cases h⟩
          | some line =>
            simp only [of_some, tof_ok_bind, ok_bind]
            refine ⟨rfl, fun c out w' h => ?_⟩
            cases h
            simp only [output_bind, tpure_eq, List.append_nil, streamTrace, List.nil_append]
            exact arrives_same .out line
  cases name with
  | none => exact key stdinFileName w.stdin true
  | some n =>
    unfold hashFileT hashFile
    cases hd : w.isDir n with
    | true =>
      simp only [hd, if_true]
      refine ⟨rfl, fun c out w' h => ?_⟩
      cases h
      simp only [log_bind, mk_ok_bind, tpure_eq, List.append_nil]
      exact arrives_other (fd := .out) (fd' := .err) (by decide) _
    | false =>
      cases hf : w.files n with
      | none =>
        simp only [hd, hf, Bool.false_eq_true, if_false]
        refine ⟨rfl, fun c out w' h => ?_⟩
        cases h
        simp only [log_bind, mk_ok_bind, tpure_eq, List.append_nil]
        exact arrives_other (fd := .out) (fd' := .err) (by decide) _
      | some f =>
        simp only [hd, hf, Bool.false_eq_true, if_false, Option.map_some]
        exact key n f false

theorem hashFilesLoopT_res (env : Env) (t : Texts) (a : Algo) (le bsd : Bool) : ∀ names w r out,
    (hashFilesLoopT env t a le bsd names w r).res = (do
      let (c, _, w') ← hashFilesLoop env a le bsd names w r out
      return (c, w')) ∧
    ∀ c out' w', hashFilesLoop env a le bsd names w r out = .ok (c, out', w') →
      out ++ arrives .out (hashFilesLoopT env t a le bsd names w r).trace = out'
  | [], _, _, out => ⟨rfl, fun c out' w' h => by cases h; exact List.append_nil _⟩
  | n :: names, w, r, out => by
    obtain ⟨h1, h2⟩ := hashFileT_res env t w (some n) a le bsd
    unfold hashFilesLoopT hashFilesLoop
    rw [tbind_res, tbind_trace, h1]
    cases hx : hashFile env w (some n) a le bsd with
    | ub => exact ⟨rfl, fun _ _ _ h => by cases h⟩
    | exit c => exact ⟨rfl, fun _ _ _ h => by cases h⟩
    | ok x =>
      obtain ⟨c, line, w1⟩ := x
      obtain ⟨g1, g2⟩ := hashFilesLoopT_res env t a le bsd names w1 (r ||| c) (out ++ line)
      refine ⟨g1, fun c' out' w' h => ?_⟩
      rw [arrives_append, h2 _ _ _ hx, ← List.append_assoc]
      exact g2 _ _ _ h

theorem hashFilesT_res (env : Env) (t : Texts) (w : World) (names : List (List Byte)) (a : Algo) (le bsd : Bool) :
    (hashFilesT env t w names a le bsd).res = (do
      let (c, _, w') ← hashFiles env w names a le bsd
      return (c, w')) ∧
    ∀ c out w', hashFiles env w names a le bsd = .ok (c, out, w') →
      arrives .out (hashFilesT env t w names a le bsd).trace = out := by
  unfold hashFilesT hashFiles
  split
  · exact hashFileT_res env t w none a le bsd
  · have := hashFilesLoopT_res env t a le bsd names w 0 []
    simpa using this

end XXH.CliP
