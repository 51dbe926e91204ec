import Verif.Proof.CliLine
import Verif.Proof.CliHash
/-!
Verifying a checksum file (C33).
-/
namespace XXH.CliP
open Model.Cli

/-- What a stream is to the specification. -/
def stateOf : Option Stream → Spec.Cli.FileState
  | none => .missing
  | some f => if f.fail then .unreadable else .content f.data

/-- Files are shorter than 2^64 bytes. -/
def SmallFiles (w : World) : Prop := ∀ name f, w.files name = some f → f.data.length < 2 ^ 64

/-- The setting of the specification. -/
def settingOf (env : Env) (opts : CheckOpts) (w : World) (low : Prop) : Spec.Cli.Setting where
  files name := stateOf (w.files name)
  stdinFails := w.stdin.fail
  le := opts.littleEndian
  allowed x := ∃ al, algOf al = x ∧ accepts opts.algoBitmask al = true
  maxLines := 2 ^ env.ulongBits - 1
  lowMemory := low

/-- The source of the specification. -/
def sourceOf (s : PF) : Spec.Cli.Source := ⟨s.inp.map (·.data), s.w.stdin.data⟩

theorem rest_sourceOf (s : PF) : (sourceOf s).rest = s.data := by
  unfold sourceOf Spec.Cli.Source.rest PF.data
  cases s.inp <;> rfl

theorem sourceOf_setData (s : PF) (d : List Byte) : sourceOf (s.setData d) = (sourceOf s).put d := by
  unfold sourceOf Spec.Cli.Source.put PF.setData
  cases h : s.inp <;> simp

/-- The counters agree with the outcomes so far. -/
structure Counts (r : Report) (opts : CheckOpts) (os : List Spec.Cli.Outcome) : Prop where
  proper : r.nProperlyFormattedLines = os.countP (·.entry)
  improper : r.nImproperlyFormattedLines = os.countP (·.isMalformed)
  mismatched : r.nMismatchedChecksums = os.countP (·.isMismatch)
  matched : r.nMatchedChecksums = os.countP (·.isOk)
  failures : r.nOpenOrReadFailures = if opts.ignoreMissing then 0 else os.countP (·.isMissing)
  missing : r.nMissing = if opts.ignoreMissing then os.countP (·.isMissing) else 0

/-- The line printed for a verified file. -/
def verdictLine (name : List Byte) (ok : Bool) : List Byte :=
  (if filenameNeedsEscape name then [cBSL] else []) ++ printFilename name (filenameNeedsEscape name) ++ verdictText ok

/-- What is printed for an outcome. -/
def printedFor (opts : CheckOpts) (lineNumber : Nat) : Spec.Cli.Outcome → List Out
  | .ok name => if opts.statusOnly ∨ opts.quiet then [] else [.text (verdictLine name true)]
  | .mismatch name => if opts.statusOnly then [] else [.text (verdictLine name false)]
  | .missing name => if opts.statusOnly ∨ opts.ignoreMissing then [] else [.openFailure lineNumber name]
  | _ => []

/-- What is printed while lines are verified, counting lines from `n + 1`. -/
def printed (opts : CheckOpts) : Nat → List Spec.Cli.Outcome → List Out
  | _, [] => []
  | n, o :: os => printedFor opts (n + 1) o ++ printed opts (n + 1) os

theorem printed_append (opts : CheckOpts) (os os' : List Spec.Cli.Outcome) (n : Nat) :
    printed opts n (os ++ os') = printed opts n os ++ printed opts (n + os.length) os' := by
  induction os generalizing n with
  | nil => simp [printed]
  | cons o os ih =>
    have e : n + (os.length + 1) = n + 1 + os.length := by omega
    simp [printed, ih, e]

/-- What remains of the world `w0`. -/
structure Keeps (w0 w : World) : Prop where
  files : w.files = w0.files
  isDir : w.isDir = w0.isDir
  fail : w.stdin.fail = w0.stdin.fail
  mem : w.mem <:+ w0.mem
  small : w.stdin.data.length ≤ w0.stdin.data.length

/-- The invariant of the loop: `done` are the outcomes so far. -/
structure Inv (env : Env) (opts : CheckOpts) (w0 : World) (s : PF) (done : List Spec.Cli.Outcome) : Prop where
  buf : ∃ b, s.lineBuf = some b ∧ b.length = s.lineMax
  lo : 1 ≤ s.lineMax
  hi : s.lineMax ≤ 32768
  quit : s.report.quit = false
  number : s.lineNumber = done.length
  bound : done.length < 2 ^ env.ulongBits
  counts : Counts s.report opts done
  out : s.out = printed opts 0 done
  world : Keeps w0 s.w

theorem inc_eq {env : Env} {n : Nat} (h : n + 1 < 2 ^ env.ulongBits) : inc env n = n + 1 := Nat.mod_eq_of_lt h

theorem countP_le (p : Spec.Cli.Outcome → Bool) (os : List Spec.Cli.Outcome) : os.countP p ≤ os.length :=
  List.countP_le_length

theorem countP_snoc (p : Spec.Cli.Outcome → Bool) (os : List Spec.Cli.Outcome) (o : Spec.Cli.Outcome) :
    (os ++ [o]).countP p = os.countP p + if p o then 1 else 0 := by
  rw [List.countP_append, List.countP_singleton]

theorem getLine_some (junk : Nat → Byte) {b : CMem} {max : Nat} (h : 1 ≤ max) (data : List Byte) (mem : List Bool) :
    getLine junk (some b) max data mem = (getLineLoop junk data b max mem 0).map
      fun r => (r.1, some r.2.buf, r.2.max, r.2.data, r.2.mem) := by
  unfold getLine
  simp only
  rw [if_neg (by omega)]
  cases getLineLoop junk data b max mem 0 <;> rfl

theorem otherLines_lt {d : List Byte} (h : d ≠ []) : (Spec.Cli.otherLines d).length < d.length := by
  induction d with
  | nil => exact absurd rfl h
  | cons c d ih =>
    by_cases hc : c = 0x0a
    · subst hc; rw [(firstLine_nl d).2]; simp
    · rw [(firstLine_cons hc).2]
      by_cases hd : d = []
      · subst hd; simp [Spec.Cli.otherLines]
      · have := ih hd; simp; omega

theorem takeWhile_no0 (l : List Byte) : (0 : Byte) ∉ l.takeWhile (· ≠ 0) := by
  intro h
  have := List.all_takeWhile (p := fun c : Byte => decide (c ≠ 0)) (l := l)
  have := List.all_eq_true.mp this 0 h
  simp at this

/-- A NUL-terminated line in its buffer, cut at the first NUL. -/
theorem buffer_split {l buf : List Byte} (h : l ++ [0] <+: buf) :
    ∃ rest, buf = l.takeWhile (· ≠ 0) ++ 0 :: rest := by
  obtain ⟨t, rfl⟩ := h
  induction l with
  | nil => exact ⟨t, rfl⟩
  | cons c l ih =>
    by_cases hc : c = 0
    · subst hc
      exact ⟨l ++ [0] ++ t, by rw [List.takeWhile_cons_of_neg (by simp)]; simp⟩
    · obtain ⟨r, hr⟩ := ih
      refine ⟨r, ?_⟩
      rw [List.takeWhile_cons_of_pos (by simpa using hc), List.cons_append, List.cons_append, List.cons_append, ← hr]

theorem unhex_length : ∀ {t d : List Byte}, Spec.Cli.unhex t = some d → t.length = 2 * d.length
  | [], d, h => by simp [Spec.Cli.unhex] at h; subst h; rfl
  | [_], d, h => by simp [Spec.Cli.unhex] at h
  | a :: b :: t, d, h => by
    unfold Spec.Cli.unhex at h
    simp only [Option.bind_eq_bind, Option.bind_eq_some_iff] at h
    obtain ⟨x, _, y, _, r, hr, e⟩ := h
    injection e with e
    subst e
    have := unhex_length hr
    simp; omega

theorem digest_length' {n : Nat} {le : Bool} {h d : List Byte} (hd : Spec.Cli.digest n le h = some d) :
    d.length = n := by
  have h1 := digest_length hd
  unfold Spec.Cli.digest at hd
  rw [if_pos h1] at hd
  simp only [Option.map_eq_some_iff] at hd
  obtain ⟨r, hr, e⟩ := hd
  have h2 := unhex_length hr
  have : d.length = r.length := by subst e; split <;> simp
  omega

/-- The canonical bytes of a meaningful line have the right length. -/
theorem parses_length {le : Bool} {allowed : Spec.Cli.Alg → Prop} {s : List Byte} {e : Spec.Cli.Entry}
    (h : Spec.Cli.Parses le allowed s e) {a : Algo} (ha : algOf a = e.alg) : e.digest.length = algoLength a := by
  have key : ∀ {l : List Byte} {e : Spec.Cli.Entry}, Spec.Cli.Line le l e → algOf a = e.alg →
      e.digest.length = algoLength a := by
    intro l e hl ha
    cases hl with
    | gnu _ _ hg =>
      cases hg <;> (rename_i hd; have hd := digest_length' hd; cases a <;> simp_all [algOf, algoLength])
    | bsd _ _ hb =>
      rename_i tag hash name d _ _
      generalize Spec.Cli.tagAlg tag = x at hb ha
      cases hb <;> (rename_i hd; have hd := digest_length' hd; cases a <;> simp_all [algOf, algoLength])
  obtain ⟨_, h⟩ := h
  split at h
  · obtain ⟨n, hl, _⟩ := h
    exact key (e := ⟨e.alg, e.digest, n⟩) hl ha
  · exact key h ha

theorem stdinFileName_eq : stdinFileName = Spec.Cli.txt "stdin" := by decide

theorem verifyEntry_eq {env : Env} (hE : EnvOk env) {opts : CheckOpts} {w0 : World} (hw : SmallFiles w0)
    (hs : w0.stdin.data.length < 2 ^ 64) {low : Prop} {s : PF} (hk : Keeps w0 s.w) (name : List Byte) {p : ParsedLine}
    (hp : p.canonical.length = algoLength p.algo) :
    match Spec.Cli.lookup (settingOf env opts w0 low) (sourceOf s) name with
    | .missing => verifyEntry env s name p = .ok (.failedToOpen, s)
    | .unreadable => verifyEntry env s name p = .exit 1
    | .content d => ∃ st, verifyEntry env s name p =
          .ok (if p.canonical = Spec.Cli.hashOf (algOf p.algo) d then .hashOk else .hashFailed,
            { s with w := { s.w with stdin := st } }) ∧
        st.fail = s.w.stdin.fail ∧ st.data = (if name = Spec.Cli.txt "stdin" then [] else s.w.stdin.data) := by
  unfold Spec.Cli.lookup verifyEntry
  rw [stdinFileName_eq]
  by_cases hn : name = Spec.Cli.txt "stdin"
  · simp only [hn, if_true, decide_true]
    have h64 : s.w.stdin.data.length < 2 ^ 64 := by have := hk.small; omega
    rcases hashStream_eq hE s.w.stdin p.algo h64 with ⟨hf, he⟩ | ⟨hf, h, f', he, d', g', _, hm⟩
    · have : (settingOf env opts w0 low).stdinFails = true := by rw [← hf, hk.fail]; rfl
      simp only [this, if_true, he]
      rfl
    · have : (settingOf env opts w0 low).stdinFails = false := by rw [← hf, hk.fail]; rfl
      simp only [this, Bool.false_eq_true, if_false, he, ok_bind, hm _ hp, of_some_bind]
      refine ⟨f', ?_, by rw [g', hf], d'⟩
      by_cases hd : p.canonical = Spec.Cli.hashOf (algOf p.algo) s.w.stdin.data
      · rw [if_pos (by simpa using hd)]
        rw [if_pos (by exact hd)]; rfl
      · rw [if_neg (by simpa using hd)]
        rw [if_neg (by exact hd)]; rfl
  · simp only [hn, if_false, decide_false, Bool.false_eq_true]
    show match stateOf (w0.files name) with
      | .missing => _
      | .unreadable => _
      | .content d => _
    rw [← hk.files]
    cases hf : s.w.files name with
    | none => rfl
    | some f =>
      have h64 := hw name f (by rw [← hk.files]; exact hf)
      simp only [stateOf]
      rcases hashStream_eq hE f p.algo h64 with ⟨hf, he⟩ | ⟨hf, h, f', he, d', g', _, hm⟩
      · simp only [hf, if_true, he]; rfl
      · simp only [hf, Bool.false_eq_true, if_false, he, ok_bind, hm _ hp, of_some_bind]
        refine ⟨s.w.stdin, ?_, rfl, rfl⟩
        by_cases hd : p.canonical = Spec.Cli.hashOf (algOf p.algo) f.data
        · rw [if_pos (by simpa using hd), if_pos hd]; rfl
        · rw [if_neg (by simpa using hd), if_neg hd]; rfl

/-- How the counters change with an outcome. -/
def bump (env : Env) (opts : CheckOpts) (r : Report) : Spec.Cli.Outcome → Report
  | .comment => r
  | .malformed => { r with nImproperlyFormattedLines := inc env r.nImproperlyFormattedLines }
  | .ok _ => { r with nProperlyFormattedLines := inc env r.nProperlyFormattedLines,
                      nMatchedChecksums := inc env r.nMatchedChecksums }
  | .mismatch _ => { r with nProperlyFormattedLines := inc env r.nProperlyFormattedLines,
                            nMismatchedChecksums := inc env r.nMismatchedChecksums }
  | .missing _ =>
    if opts.ignoreMissing then { r with nProperlyFormattedLines := inc env r.nProperlyFormattedLines,
                                        nMissing := inc env r.nMissing }
    else { r with nProperlyFormattedLines := inc env r.nProperlyFormattedLines,
                  nOpenOrReadFailures := inc env r.nOpenOrReadFailures }

theorem counts_bump {env : Env} {opts : CheckOpts} {r : Report} {done : List Spec.Cli.Outcome} (h : Counts r opts done)
    (hb : done.length + 1 < 2 ^ env.ulongBits) (o : Spec.Cli.Outcome) :
    Counts (bump env opts r o) opts (done ++ [o]) ∧ (bump env opts r o).quit = r.quit := by
  obtain ⟨h1, h2, h3, h4, h5, h6⟩ := h
  have l1 := countP_le (·.entry) done
  have l2 := countP_le (·.isMalformed) done
  have l3 := countP_le (·.isMismatch) done
  have l4 := countP_le (·.isOk) done
  have l5 := countP_le (·.isMissing) done
  have i1 : inc env r.nProperlyFormattedLines = r.nProperlyFormattedLines + 1 := inc_eq (by omega)
  have i2 : inc env r.nImproperlyFormattedLines = r.nImproperlyFormattedLines + 1 := inc_eq (by omega)
  have i3 : inc env r.nMismatchedChecksums = r.nMismatchedChecksums + 1 := inc_eq (by omega)
  have i4 : inc env r.nMatchedChecksums = r.nMatchedChecksums + 1 := inc_eq (by omega)
  have i5 : inc env r.nOpenOrReadFailures = r.nOpenOrReadFailures + 1 := inc_eq (by split at h5 <;> omega)
  have i6 : inc env r.nMissing = r.nMissing + 1 := inc_eq (by split at h6 <;> omega)
  cases hi : opts.ignoreMissing <;> simp only [hi, if_true, if_false, Bool.false_eq_true] at h5 h6 <;>
    cases o <;> simp only [bump, hi, if_true, if_false, Bool.false_eq_true, i1, i2, i3, i4, i5, i6] <;>
    refine ⟨⟨?_, ?_, ?_, ?_, ?_, ?_⟩, by first | rfl | trivial⟩ <;>
    simp [hi, h1, h2, h3, h4, h5, h6, Spec.Cli.Outcome.entry, Spec.Cli.Outcome.isMalformed,
      Spec.Cli.Outcome.isMismatch, Spec.Cli.Outcome.isOk, Spec.Cli.Outcome.isMissing]

/-- The outcome of a line that names a file. -/
def outcomeOf (status : LineStatus) (name : List Byte) : Spec.Cli.Outcome :=
  match status with
  | .hashOk => .ok name
  | .hashFailed => .mismatch name
  | .failedToOpen => .missing name

theorem reportEntry_eq (env : Env) (opts : CheckOpts) (s : PF) (name : List Byte) (status : LineStatus) :
    reportEntry env opts { s with report :=
        { s.report with nProperlyFormattedLines := inc env s.report.nProperlyFormattedLines } } name status =
      { s with report := bump env opts s.report (outcomeOf status name),
               out := s.out ++ printedFor opts s.lineNumber (outcomeOf status name) } := by
  cases status <;> cases h1 : opts.ignoreMissing <;> cases h2 : opts.statusOnly <;> cases h3 : opts.quiet <;>
    simp [reportEntry, outcomeOf, bump, printedFor, verdictLine, h1, h2, h3]

theorem suffix_setData {w0 : World} {s : PF} (hk : Keeps w0 s.w) {d : List Byte} (hd : d <:+ s.data) :
    Keeps w0 (s.setData d).w := by
  unfold PF.setData
  unfold PF.data at hd
  obtain ⟨h1, h2, h3, h4, h5⟩ := hk
  cases h : s.inp with
  | some f => exact ⟨h1, h2, h3, h4, h5⟩
  | none =>
    rw [h] at hd
    exact ⟨h1, h2, h3, h4, Nat.le_trans hd.length_le h5⟩

theorem setData_data (s : PF) (d : List Byte) : (s.setData d).data = d := by
  unfold PF.setData PF.data
  cases h : s.inp <;> simp

theorem setData_eq (s : PF) (d : List Byte) : ∃ i w, s.setData d = { s with inp := i, w := w } := by
  unfold PF.setData
  cases h : s.inp
  · exact ⟨_, _, rfl⟩
  · exact ⟨_, _, rfl⟩

/-- One line. -/
theorem parseStep_eq {env : Env} (hE : EnvOk env) {opts : CheckOpts} {w0 : World} (hw : SmallFiles w0)
    (hs : w0.stdin.data.length < 2 ^ 64) {s : PF} {done : List Spec.Cli.Outcome} (hI : Inv env opts w0 s done)
    {c : Spec.Cli.Setting} (hc : c = settingOf env opts w0 (false ∈ w0.mem)) :
    (done.length = c.maxLines ∧ ∃ s', parseStep env opts s = .ok (true, s') ∧ Keeps w0 s'.w ∧
      s'.report = { s.report with quit := true } ∧ s'.out = s.out ∧ sourceOf s' = sourceOf s) ∨
    (done.length < c.maxLines ∧ s.data = [] ∧ ∃ s', parseStep env opts s = .ok (true, s') ∧ Keeps w0 s'.w ∧
      s'.report = s.report ∧ s'.out = s.out ∧ sourceOf s' = sourceOf s) ∨
    (done.length < c.maxLines ∧ (Spec.Cli.TooLong s.data ∨ (c.lowMemory ∧ s.data ≠ [])) ∧
      ∃ s', parseStep env opts s = .ok (true, s') ∧ Keeps w0 s'.w ∧
      s'.report = { s.report with quit := true } ∧ s'.out = s.out) ∨
    (done.length < c.maxLines ∧ s.data ≠ [] ∧ ¬ Spec.Cli.TooLong s.data ∧ parseStep env opts s = .exit 1 ∧
      ∃ src', Spec.Cli.LineMeans c ((sourceOf s).put (Spec.Cli.otherLines s.data)) (Spec.Cli.firstLine s.data) none src') ∨
    (done.length < c.maxLines ∧ s.data ≠ [] ∧ ¬ Spec.Cli.TooLong s.data ∧
      ∃ o s', parseStep env opts s = .ok (false, s') ∧ Inv env opts w0 s' (done ++ [o]) ∧
      s'.data.length < s.data.length ∧
      Spec.Cli.LineMeans c ((sourceOf s).put (Spec.Cli.otherLines s.data)) (Spec.Cli.firstLine s.data) (some o)
        (sourceOf s')) := by
  subst hc
  have hmax : (settingOf env opts w0 (false ∈ w0.mem)).maxLines = 2 ^ env.ulongBits - 1 := rfl
  have hbd := hI.bound
  by_cases hlast : done.length + 1 = 2 ^ env.ulongBits
  · left
    have hz : inc env s.lineNumber = 0 := by unfold inc; rw [hI.number, hlast, Nat.mod_self]
    refine ⟨by rw [hmax]; omega,
      { s with lineNumber := inc env s.lineNumber, report := { s.report with quit := true } }, ?_, hI.world, rfl, rfl, rfl⟩
    unfold parseStep
    simp only [hz, if_true]
    rfl
  · right
    have hlt : done.length < (settingOf env opts w0 (false ∈ w0.mem)).maxLines := by rw [hmax]; omega
    have hi : inc env s.lineNumber = done.length + 1 := by rw [hI.number]; exact inc_eq (by omega)
    obtain ⟨b, hb1, hb2⟩ := hI.buf
    obtain ⟨r, st, hg, hG⟩ := getLineLoop_eq env.junk s.data b s.lineMax s.w.mem [] hb2 hI.lo hI.hi List.nil_prefix
    have hgl := getLine_some env.junk (b := b) hI.lo s.data s.w.mem
    rw [show (0 : Nat) = ([] : List Byte).length from rfl, hg, Option.map_some] at hgl
    -- the state after reading the line
    let s0 : PF :=
      ⟨s.inp, { s.w with mem := st.mem }, some st.buf, st.max, s.report, done.length + 1, s.out⟩
    have hk0 : Keeps w0 s0.w :=
      ⟨hI.world.files, hI.world.isDir, hI.world.fail, hG.suff.trans hI.world.mem, hI.world.small⟩
    have hsrc0 : sourceOf s0 = sourceOf s := rfl
    have hdata0 : s0.data = s.data := rfl
    let s1 : PF := s0.setData st.data
    have hk1 : Keeps w0 s1.w := suffix_setData hk0 (by rw [hdata0]; exact hG.dsuff)
    have hsrc1 : sourceOf s1 = (sourceOf s).put st.data := sourceOf_setData s0 st.data
    have hdata1 : s1.data = st.data := setData_data s0 st.data
    obtain ⟨i1, w1, hs1⟩ := setData_eq s0 st.data
    have hr1 : s1.report = s.report := by show (s0.setData st.data).report = _; rw [hs1]
    have ho1 : s1.out = s.out := by show (s0.setData st.data).out = _; rw [hs1]
    have hn1 : s1.lineNumber = done.length + 1 := by show (s0.setData st.data).lineNumber = _; rw [hs1]
    have hb1' : s1.lineBuf = some st.buf := by show (s0.setData st.data).lineBuf = _; rw [hs1]
    have hm1 : s1.lineMax = st.max := by show (s0.setData st.data).lineMax = _; rw [hs1]
    have hstep : parseStep env opts s = (match r with
        | .comment => .ok (false, s1)
        | .eof => .ok (true, s1)
        | .ok => (do
          match ← Res.of (parseLine st.buf opts.littleEndian opts.algoBitmask) with
          | none => return (false, { s1 with report :=
              { s1.report with nImproperlyFormattedLines := inc env s1.report.nImproperlyFormattedLines } })
          | some (p, line) =>
            let s := { s1 with lineBuf := some line }
            let s := { s with report := { s.report with
              nProperlyFormattedLines := inc env s.report.nProperlyFormattedLines } }
            let filename ← Res.of (cstr (line.drop p.filename))
            let (status, s) ← verifyEntry env s filename p
            return (false, reportEntry env opts s filename status))
        | _ => .ok (true, { s1 with report := { s1.report with quit := true } })) := by
      unfold parseStep
      simp only [hi, Nat.add_eq_zero_iff, one_ne_zero, and_false, if_false]
      show (Res.of (getLine env.junk s.lineBuf s.lineMax s.data s.w.mem) >>= _) = _
      have hgl' : getLine env.junk s.lineBuf s.lineMax s.data s.w.mem =
          some (r, some st.buf, st.max, st.data, st.mem) := by rw [hb1]; exact hgl
      refine (congrArg (fun o => Res.of o >>= _) hgl').trans ?_
      cases r <;> rfl
    clear_value s1
    have hlo : 1 ≤ st.max := Nat.le_trans hI.lo hG.grows
    -- the next invariant
    have hnext : ∀ (o : Spec.Cli.Outcome) (s' : PF), s'.report = bump env opts s.report o →
        s'.out = s.out ++ printedFor opts (done.length + 1) o → s'.lineNumber = done.length + 1 → Keeps w0 s'.w →
        s'.lineMax = st.max → (∃ b', s'.lineBuf = some b' ∧ b'.length = st.max) → Inv env opts w0 s' (done ++ [o]) := by
      intro o s' g1 g2 g3 g4 g5 g6
      obtain ⟨c1, c2⟩ := counts_bump (env := env) hI.counts (by omega) o
      refine ⟨by rw [g5]; exact g6, by rw [g5]; exact hlo, by rw [g5]; exact hG.le, by rw [g1, c2]; exact hI.quit,
        by rw [g3]; simp, by simp; omega, by rw [g1]; exact c1, ?_, g4⟩
      rw [g2, hI.out, printed_append]
      simp [printed]
    have hTL : ∀ d, Spec.Cli.TooLong d ↔ ((0x0a ∈ d ∧ 32766 < (([] : List Byte) ++ Spec.Cli.firstLine d).length) ∨
      32767 < (([] : List Byte) ++ Spec.Cli.firstLine d).length) := fun d => Iff.rfl
    rcases hG.kind with ⟨h1, h2, h3⟩ | ⟨h1, h2⟩ | ⟨h1, h2, h3⟩ | ⟨h1, h2, h3, h4, h5⟩
    · right; left
      subst h1
      exact ⟨hlt, .inr ⟨hI.world.mem.subset h2, h3⟩, _, hstep, hk1, by rw [← hr1], ho1⟩
    · right; left
      subst h1
      exact ⟨hlt, .inl ((hTL _).mpr h2), _, hstep, hk1, by rw [← hr1], ho1⟩
    · left
      subst h1
      rw [List.nil_append] at h2
      refine ⟨hlt, h2, _, hstep, hk1, hr1, ho1, ?_⟩
      rw [hsrc1, h3, ← h2, ← rest_sourceOf]
      unfold Spec.Cli.Source.put Spec.Cli.Source.rest
      cases h : (sourceOf s).text with
      | none => cases hx : sourceOf s; rw [hx] at h; simp_all
      | some t => cases hx : sourceOf s; rw [hx] at h; simp_all
    · right; right
      rw [List.nil_append] at h1 h2 h5
      rw [← hTL] at h3
      rw [h4] at hsrc1 hdata1
      have hdl : s1.data.length < s.data.length := by rw [hdata1]; exact otherLines_lt h2
      unfold lineClass at h1
      by_cases hh : (Spec.Cli.firstLine s.data).head? = some 0x23
      · right
        rw [if_pos hh] at h1
        subst h1
        refine ⟨hlt, h2, h3, .comment, s1, hstep, ?_, hdl, ?_⟩
        · exact hnext _ _ hr1 (by rw [ho1]; simp [printedFor]) hn1 hk1 hm1 ⟨_, hb1', hG.len⟩
        · rw [hsrc1]; exact .comment hh
      · rw [if_neg hh] at h1
        subst h1
        obtain ⟨rest, hrest⟩ := buffer_split h5
        obtain ⟨pr, q1, q2, q3⟩ := parseLine_eq (takeWhile_no0 (Spec.Cli.firstLine s.data)) (rest := rest)
          opts.littleEndian opts.algoBitmask
        rw [← hrest] at q1 q2
        simp only [q1, of_some_bind] at hstep
        by_cases hpr : pr = none
        · right
          subst hpr
          refine ⟨hlt, h2, h3, .malformed, _, hstep, ?_, hdl, ?_⟩
          · exact hnext _ _ (by rw [hr1]; rfl) (by rw [← ho1]; simp [printedFor]) hn1 hk1 hm1 ⟨_, hb1', hG.len⟩
          · refine (?_ : Spec.Cli.LineMeans _ _ _ _ (sourceOf s1))
            rw [hsrc1]
            refine .malformed hh fun e he => ?_
            obtain ⟨p, m', g, _⟩ := q2 e he
            cases g
        · obtain ⟨e, he⟩ := q3 hpr
          obtain ⟨p, m', g1, g2, g3, g4, g5⟩ := q2 e he
          subst g1
          simp only [g4, of_some_bind] at hstep
          have hpl : p.canonical.length = algoLength p.algo := by rw [g3]; exact parses_length he g2
          let s2 : PF := { s1 with lineBuf := some m' }
          have hv := verifyEntry_eq hE (opts := opts) hw hs (low := false ∈ w0.mem)
            (s := { s2 with report := { s2.report with
              nProperlyFormattedLines := inc env s2.report.nProperlyFormattedLines } }) hk1 e.name hpl
          have hsrc2 : ∀ x, sourceOf { s2 with report := x } = (sourceOf s).put (Spec.Cli.otherLines s.data) := by
            intro x; rw [← hsrc1]; rfl
          rw [hsrc2] at hv
          -- the state after the line
          have hlast : ∀ (status : LineStatus) (st' : Stream), st'.fail = s1.w.stdin.fail →
              st'.data.length ≤ s1.w.stdin.data.length →
              ∃ s' : PF, Res.ok (false, reportEntry env opts { s2 with
                  report := { s2.report with nProperlyFormattedLines := inc env s2.report.nProperlyFormattedLines },
                  w := { s2.w with stdin := st' } } e.name status) = Res.ok (false, s') ∧
                Inv env opts w0 s' (done ++ [outcomeOf status e.name]) ∧ s'.inp = s1.inp ∧ s'.w.stdin = st' := by
            intro status st' k1 k2
            have k3 := reportEntry_eq env opts { s2 with w := { s2.w with stdin := st' } } e.name status
            refine ⟨_, rfl, ?_⟩
            rw [show reportEntry env opts _ e.name status = _ from k3]
            refine ⟨hnext _ _ ?_ ?_ hn1 ⟨hk1.files, hk1.isDir, k1.trans hk1.fail, hk1.mem, Nat.le_trans k2 hk1.small⟩ hm1
              ⟨m', rfl, by rw [g5]; exact hG.len⟩, rfl, rfl⟩
            · show bump env opts s1.report _ = _; rw [hr1]
            · show s1.out ++ printedFor opts s1.lineNumber _ = _; rw [ho1, hn1]
          have hdle : ∀ s' : PF, s'.inp = s1.inp → s'.w.stdin.data.length ≤ s1.w.stdin.data.length →
              s'.data.length < s.data.length := by
            intro s' k1 k2
            refine Nat.lt_of_le_of_lt ?_ hdl
            unfold PF.data
            rw [k1]
            cases s1.inp with
            | none => exact k2
            | some _ => exact Nat.le_refl _
          cases hlk : Spec.Cli.lookup (settingOf env opts w0 (false ∈ w0.mem))
              ((sourceOf s).put (Spec.Cli.otherLines s.data)) e.name with
          | missing =>
            right
            rw [hlk] at hv
            have hv : verifyEntry env _ e.name p = _ := hv
            obtain ⟨s', k1, k2, k3, k4⟩ := hlast .failedToOpen s1.w.stdin rfl (Nat.le_refl _)
            refine ⟨hlt, h2, h3, _, s', ?_, k2, hdle s' k3 (by rw [k4]), ?_⟩
            · rw [hstep, hv]; exact k1
            · have : sourceOf s' = sourceOf s1 := by unfold sourceOf; rw [k3, k4]
              rw [this, hsrc1]
              exact .missing hh he hlk
          | unreadable =>
            left
            rw [hlk] at hv
            have hv : verifyEntry env _ e.name p = _ := hv
            refine ⟨hlt, h2, h3, ?_, _, .unreadable hh he hlk⟩
            rw [hstep, hv]; rfl
          | content d =>
            right
            rw [hlk] at hv
            obtain ⟨st', hv, v1, v2⟩ := hv
            have v2 : st'.data = (if e.name = Spec.Cli.txt "stdin" then [] else s1.w.stdin.data) := v2
            have v3 : st'.data.length ≤ s1.w.stdin.data.length := by rw [v2]; split <;> simp
            obtain ⟨s', k1, k2, k3, k4⟩ := hlast (if p.canonical = Spec.Cli.hashOf (algOf p.algo) d then .hashOk
              else .hashFailed) st' v1 v3
            refine ⟨hlt, h2, h3, _, s', ?_, k2, hdle s' k3 (by rw [k4]; exact v3), ?_⟩
            · rw [hstep, hv]; exact k1
            · have : sourceOf s' = (sourceOf s1).afterReading e.name := by
                unfold sourceOf Spec.Cli.Source.afterReading; rw [k3, k4, v2]; split <;> rfl
              rw [this, hsrc1]
              by_cases hd : p.canonical = Spec.Cli.hashOf (algOf p.algo) d
              · rw [if_pos hd]
                exact .ok hh he hlk (by rw [← g3, ← g2]; exact hd)
              · rw [if_neg hd]
                exact .mismatch hh he hlk (by rw [← g3, ← g2]; exact hd)

/-- The loop: what remains to be read is verified as specified. -/
theorem parseLoop_eq {env : Env} (hE : EnvOk env) {opts : CheckOpts} {w0 : World} (hw : SmallFiles w0)
    (hs : w0.stdin.data.length < 2 ^ 64) {c : Spec.Cli.Setting} (hc : c = settingOf env opts w0 (false ∈ w0.mem)) :
    ∀ (fuel : Nat) (s : PF) (done : List Spec.Cli.Outcome), Inv env opts w0 s done → s.data.length < fuel →
      ∃ os e src', Spec.Cli.Checks c done.length (sourceOf s) os e src' ∧
        (e = .readError → parseLoop env opts fuel s = .exit 1) ∧
        (e ≠ .readError → ∃ s', parseLoop env opts fuel s = .ok s' ∧ Keeps w0 s'.w ∧
          Counts s'.report opts (done ++ os) ∧ (s'.report.quit = true ↔ e = .quit) ∧
          s'.out = printed opts 0 (done ++ os) ∧ src'.stdin = s'.w.stdin.data) := by
  intro fuel
  induction fuel with
  | zero => intro s done _ h; omega
  | succ fuel ih =>
    intro s done hI hf
    have hq : Counts { s.report with quit := true } opts done := by
      obtain ⟨a1, a2, a3, a4, a5, a6⟩ := hI.counts
      exact ⟨a1, a2, a3, a4, a5, a6⟩
    unfold parseLoop
    rw [hI.quit]
    simp only [Bool.false_eq_true, if_false]
    rcases parseStep_eq hE hw hs hI hc with ⟨h1, s', e, k, r, o, src⟩ | ⟨h1, h2, s', e, k, r, o, src⟩ |
      ⟨h1, h2, s', e, k, r, o⟩ | ⟨h1, h2, h3, e, src', hm⟩ | ⟨h1, h2, h3, o, s', e, k, hl, hm⟩
    · refine ⟨[], .quit, sourceOf s, .tooMany h1, by simp, fun _ => ⟨s', by rw [e]; rfl, k, ?_, ?_, ?_, ?_⟩⟩
      · rw [List.append_nil, r]; exact hq
      · rw [r]; simp
      · rw [List.append_nil, o, hI.out]
      · rw [← src]; rfl
    · refine ⟨[], .complete, sourceOf s, .complete h1 (by rw [rest_sourceOf]; exact h2), by simp,
        fun _ => ⟨s', by rw [e]; rfl, k, ?_, ?_, ?_, ?_⟩⟩
      · rw [List.append_nil, r]; exact hI.counts
      · rw [r, hI.quit]; simp
      · rw [List.append_nil, o, hI.out]
      · rw [← src]; rfl
    · have hch : Spec.Cli.Checks c done.length (sourceOf s) [] .quit (sourceOf s') := by
        rcases h2 with h2 | ⟨h2, h3⟩
        · exact .tooLong h1 (by rw [rest_sourceOf]; exact h2)
        · exact .lowMemory h1 h2 (by rw [rest_sourceOf]; exact h3)
      refine ⟨[], .quit, _, hch, by simp, fun _ => ⟨s', by rw [e]; rfl, k, ?_, ?_, ?_, rfl⟩⟩
      · rw [List.append_nil, r]; exact hq
      · rw [r]; simp
      · rw [List.append_nil, o, hI.out]
    · rw [← rest_sourceOf] at h2 h3 hm
      exact ⟨[], .readError, src', .readError h1 h2 h3 hm, fun _ => by rw [e]; rfl, fun h => absurd rfl h⟩
    · obtain ⟨os, e', src', g1, g2, g3⟩ := ih s' (done ++ [o]) k (by omega)
      rw [← rest_sourceOf] at h2 h3 hm
      have hrun : (do let (stop, s) ← parseStep env opts s
                      if stop = true then pure s else parseLoop env opts fuel s) = parseLoop env opts fuel s' := by
        rw [e]; rfl
      refine ⟨o :: os, e', src', .line h1 h2 h3 hm (by simpa using g1), ?_, ?_⟩
      · intro h; rw [← g2 h]; exact hrun
      · intro h
        obtain ⟨s'', l1, l2, l3, l4, l5, l6⟩ := g3 h
        refine ⟨s'', by rw [← l1]; exact hrun, l2, ?_, l4, ?_, l6⟩
        · simpa using l3
        · simpa using l5

/-- The checksum file that is opened; standard input is `some none`. -/
def openCheck (w : World) : Option (List Byte) → Option (Option Stream)
  | none => some none
  | some n => (w.files n).map some

/-- The whole checksum file. -/
theorem checkFile_eq {env : Env} (hE : EnvOk env) (opts : CheckOpts) {w : World} (hw : SmallFiles w)
    (hs : w.stdin.data.length < 2 ^ 64) (name : Option (List Byte)) (inp : Option Stream)
    (hinp : openCheck w name = some inp)
    (hm : w.mem.headD true = true ∧ w.mem.tail.headD true = true) {c : Spec.Cli.Setting}
    (hc : c = settingOf env opts w (false ∈ w.mem.drop 2)) :
    ∃ os e src', Spec.Cli.Checks c 0 ⟨inp.map (·.data), w.stdin.data⟩ os e src' ∧
      (e = .readError → checkFile env w name opts = .exit 1) ∧
      (e ≠ .readError → ∃ r w', checkFile env w name opts = .ok ((checkResult opts r).1,
          printed opts 0 os ++ summary opts r ++ (checkResult opts r).2, w') ∧ Keeps w w' ∧ Counts r opts os ∧
          (r.quit = true ↔ e = .quit) ∧ src'.stdin = w'.stdin.data) := by
  let w2 : World := { w with mem := w.mem.drop 2 }
  have hw2 : SmallFiles w2 := hw
  let s : PF := ⟨inp, w2, some (fresh env.junk DEFAULT_LINE_LENGTH), DEFAULT_LINE_LENGTH,
      ⟨0, 0, 0, 0, 0, 0, false⟩, 0, []⟩
  have hI : Inv env opts w2 s [] := by
    refine ⟨⟨_, rfl, fresh_length _ _⟩, show 1 ≤ DEFAULT_LINE_LENGTH by decide,
      show DEFAULT_LINE_LENGTH ≤ 32768 by decide, rfl, rfl, ?_, ?_, rfl,
      ⟨rfl, rfl, rfl, List.suffix_refl _, Nat.le_refl _⟩⟩
    · exact Nat.two_pow_pos _
    · exact ⟨rfl, rfl, rfl, rfl, by simp [s], by simp [s]⟩
  have hform : checkFile env w name opts = (do
      let s ← parseLoop env opts (s.data.length + 1) s
      return ((checkResult opts s.report).1, s.out ++ summary opts s.report ++ (checkResult opts s.report).2, s.w)) := by
    unfold checkFile
    have h1 := hm.1
    have h2 := hm.2
    have : w.mem.tail.tail = w.mem.drop 2 := by cases w.mem with
      | nil => rfl
      | cons a t => cases t <;> rfl
    cases name with
    | none =>
      simp only [openCheck, Option.some.injEq] at hinp
      subst hinp
      simp only [World.alloc, h1, h2, this]
      rfl
    | some n =>
      simp only [openCheck] at hinp
      simp only [hinp, World.alloc, h1, h2, this]
      rfl
  obtain ⟨os, e, src', h1, h2, h3⟩ := parseLoop_eq hE hw2 hs (c := c) (by rw [hc]; rfl) (s.data.length + 1) s [] hI
    (Nat.lt_succ_self _)
  refine ⟨os, e, src', h1, ?_, ?_⟩
  · intro he; rw [hform, h2 he]; rfl
  · intro he
    obtain ⟨s', g1, g2, g3, g4, g5, g6⟩ := h3 he
    refine ⟨s'.report, s'.w, ?_, ⟨g2.files, g2.isDir, g2.fail, g2.mem.trans (List.drop_suffix _ _), g2.small⟩, g3, g4, g6⟩
    rw [hform, g1, ok_bind, g5]
    rfl

theorem verdictLine_eq (name : List Byte) (ok : Bool) :
    verdictLine name ok = Spec.Cli.marker name ++ Spec.Cli.shownName name ++
      Spec.Cli.txt (if ok then ": OK\n" else ": FAILED\n") := by
  unfold verdictLine
  have hv : verdictText ok = Spec.Cli.txt (if ok then ": OK\n" else ": FAILED\n") := by cases ok <;> decide
  rw [hv, shownName_eq, marker_eq]

theorem success_iff {opts : CheckOpts} {r : Report} {os : List Spec.Cli.Outcome} {e : Spec.Cli.Ending}
    (hc : Counts r opts os) (he : e ≠ .readError) (hq : r.quit = true ↔ e = .quit) :
    (checkResult opts r).1 = true ↔ Spec.Cli.Success opts.strictMode opts.ignoreMissing os e := by
  obtain ⟨h1, h2, h3, h4, h5, h6⟩ := hc
  have hz : ∀ p : Spec.Cli.Outcome → Bool, os.countP p = 0 ↔ ∀ o ∈ os, p o = false := by
    intro p; rw [List.countP_eq_zero]; simp
  have hp : ∀ p : Spec.Cli.Outcome → Bool, os.countP p ≠ 0 ↔ ∃ o ∈ os, p o = true := by
    intro p; rw [← Nat.pos_iff_ne_zero, List.countP_pos_iff]
  have hcomp : e = .complete ↔ r.quit = false := by
    cases e <;> cases hr : r.quit <;> simp_all
  unfold checkResult Spec.Cli.Success
  rw [hcomp, ← hz (·.isMismatch), ← hz (·.isMissing), ← hz (·.isMalformed), ← hp (·.entry), ← hp (·.isOk), ← h1, ← h2, ← h3, ← h4]
  cases hi : opts.ignoreMissing <;> cases hst : opts.strictMode <;>
    simp only [hi, if_true, if_false, Bool.false_eq_true] at h5 h6 <;> simp only [← h5, ← h6] <;>
    by_cases hm : r.nMatchedChecksums = 0 <;> simp [hm, h5] <;> tauto

/-- The meaning of a line is unique. -/
theorem lineMeans_unique {c : Spec.Cli.Setting} (hp : ∀ s e e', (0 : Byte) ∉ s → Spec.Cli.Parses c.le c.allowed s e →
    Spec.Cli.Parses c.le c.allowed s e' → e = e') {s : Spec.Cli.Source} {l : List Byte} {o o' : Option Spec.Cli.Outcome}
    {s1 s2 : Spec.Cli.Source} (h : Spec.Cli.LineMeans c s l o s1) (h' : Spec.Cli.LineMeans c s l o' s2) :
    o = o' ∧ s1 = s2 := by
  have hu := fun e e' => hp (l.takeWhile (· ≠ 0)) e e' (takeWhile_no0 l)
  cases h <;> cases h' <;>
    first
    | exact ⟨rfl, rfl⟩
    | (exfalso; simp_all; done)
    | (rename_i e _ h1 h2 h3 _ e' _ h1' h2' h3' _
       have := hu _ _ h2 h2'
       subst this
       simp_all)
    | (rename_i e h1 h2 h3 e' h1' h2' h3'
       have := hu _ _ h2 h2'
       subst this
       simp_all)
    | (rename_i e _ h1 h2 h3 _ e' h1' h2' h3'
       have := hu _ _ h2 h2'
       subst this
       simp_all)
    | (rename_i e h1 h2 h3 e' _ h1' h2' h3' _
       have := hu _ _ h2 h2'
       subst this
       simp_all)

/-- With enough memory, so is the course of a verification. -/
theorem checks_unique {c : Spec.Cli.Setting} (hp : ∀ s e e', (0 : Byte) ∉ s → Spec.Cli.Parses c.le c.allowed s e →
    Spec.Cli.Parses c.le c.allowed s e' → e = e') (hl : ¬ c.lowMemory) {n : Nat} {s : Spec.Cli.Source}
    {os os' : List Spec.Cli.Outcome} {e e' : Spec.Cli.Ending} {s1 s2 : Spec.Cli.Source}
    (h : Spec.Cli.Checks c n s os e s1) (h' : Spec.Cli.Checks c n s os' e' s2) : os = os' ∧ e = e' := by
  have hnt : ∀ s : Spec.Cli.Source, s.rest = [] → ¬ Spec.Cli.TooLong s.rest := by
    intro s hs; rw [hs]; unfold Spec.Cli.TooLong Spec.Cli.firstLine; simp
  induction h generalizing os' with
  | tooMany h => cases h' <;> first | exact ⟨rfl, rfl⟩ | omega
  | complete h h1 =>
    cases h' <;> first | exact ⟨rfl, rfl⟩ | omega | contradiction | exact absurd ‹_› (hnt _ h1)
  | tooLong h h1 =>
    cases h' <;> first | exact ⟨rfl, rfl⟩ | omega | contradiction | exact absurd h1 (hnt _ ‹_›)
  | lowMemory h h1 => exact absurd h1 hl
  | readError h h1 h2 h3 =>
    cases h' with
    | tooMany h => omega
    | complete => contradiction
    | tooLong => contradiction
    | lowMemory _ h => exact absurd h hl
    | readError => exact ⟨rfl, rfl⟩
    | line _ _ _ h4 => exact absurd (lineMeans_unique hp h3 h4).1 (by simp)
  | line h h1 h2 h3 h4 ih =>
    cases h' with
    | tooMany h => omega
    | complete => contradiction
    | tooLong => contradiction
    | lowMemory _ h => exact absurd h hl
    | readError _ _ _ h5 => exact absurd (lineMeans_unique hp h3 h5).1 (by simp)
    | line _ _ _ h5 h6 =>
      obtain ⟨e1, e2⟩ := lineMeans_unique hp h3 h5
      cases e1
      subst e2
      obtain ⟨e3, e4⟩ := ih h6
      exact ⟨by rw [e3], e4⟩

end XXH.CliP
