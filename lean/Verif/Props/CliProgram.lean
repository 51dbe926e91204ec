import Verif.Model.CliProgram
import Verif.Props.CliMain
import Verif.Props.SelfTestFails
import Verif.Props.Bench
/-!
C52: xxhsum as a whole, from the command line to the exit code, with the self-test and the benchmarks.
-/
namespace XXH.Props
open Model.Cli CliP Examples
open Spec.Cli (Opt CommandLine)
open Model.Bench (Run)
open BenchTerms (Sat ReportsOK allTests SlowEnough wanted)

/-- A correct build; memory and addresses are arbitrary. -/
structure MachineOk (m : Machine) : Prop where
  env : EnvOk m.env
  test : m.test.cfg.Valid
  secret : m.test.secretJunk.length = 192
  typed : m.test.state3.Typed

/-- A command line within the bounds of C36. -/
structure InBounds (os : List Opt) : Prop where
  ids : ∀ o ∈ Spec.Cli.live os, ¬ OutOfBounds o
  quiet : (Spec.Cli.live os).count .quiet ≤ 2 ^ 31 + 2

/-- The run is over: `main` returns 0 or 1, or `exit(1)` was called. -/
def Ends : Run Finished → Prop
  | .done f => f.code ≤ 1
  | .exit c => c = 1
  | _ => False

theorem selftest {m : Machine} (hm : MachineOk m) : Model.SelfTest.sanityCheck m.test = .ok () :=
  C44_selftest_passes m.test hm.test hm.secret hm.typed

/-! ### Hashing -/

theorem hashFile_ends {env : Env} (hE : EnvOk env) {w : World} (hw : SmallFiles w) (hs : w.stdin.data.length < 2 ^ 64)
    (name : Option (List Byte)) (a : Algo) (le bsd : Bool) :
    hashFile env w name a le bsd = .exit 1 ∨ ∃ r line w', hashFile env w name a le bsd = .ok (r, line, w') ∧ r ≤ 1 ∧
      (name ≠ none → w'.files = w.files ∧ w'.isDir = w.isDir ∧ w'.stdin = w.stdin) := by
  cases name with
  | none =>
    cases hm : w.mem.headD true with
    | false =>
      refine .inr ⟨1, [], { w with mem := w.mem.tail, stdin := { w.stdin with data := [] } }, ?_, le_refl _,
        fun h => absurd rfl h⟩
      unfold hashFile
      simp only [World.alloc, hm]
      rfl
    | true =>
      cases hf : w.stdin.fail with
      | false =>
        obtain ⟨w', h⟩ := C35_stdin hE hf hs hm a le bsd
        exact .inr ⟨0, _, w', h, by omega, fun h => absurd rfl h⟩
      | true =>
        left
        rcases hashStream_eq hE w.stdin a hs with ⟨_, h⟩ | ⟨h, _⟩
        · unfold hashFile
          simp only [World.alloc, hm, h]
          rfl
        · rw [hf] at h; cases h
  | some n =>
    obtain ⟨f1, f2⟩ := C35_failures hE w n a le bsd
    by_cases hd : w.isDir n = true ∨ w.files n = none
    · exact .inr ⟨1, [], w, f1 hd, le_refl _, fun _ => ⟨rfl, rfl, rfl⟩⟩
    · push Not at hd
      obtain ⟨hd1, hd2⟩ := hd
      rw [ne_eq, Bool.not_eq_true] at hd1
      obtain ⟨f, hf⟩ := Option.ne_none_iff_exists'.mp hd2
      obtain ⟨g1, g2⟩ := f2 f hd1 hf
      cases hm : w.mem.headD true with
      | false => exact .inr ⟨1, [], _, g1 hm, le_refl _, fun _ => ⟨rfl, rfl, rfl⟩⟩
      | true =>
        cases hr : f.fail with
        | true => exact .inl (g2 hm hr (hw n f hf))
        | false => exact .inr ⟨0, _, _, C35_hash hE hd1 hf hr (hw n f hf) hm a le bsd, by omega, fun _ => ⟨rfl, rfl, rfl⟩⟩

theorem hashFiles_ends {env : Env} (hE : EnvOk env) {w : World} (hw : SmallFiles w) (hs : w.stdin.data.length < 2 ^ 64)
    (names : List (List Byte)) (a : Algo) (le bsd : Bool) :
    hashFiles env w names a le bsd = .exit 1 ∨ ∃ r out w', hashFiles env w names a le bsd = .ok (r, out, w') ∧ r ≤ 1 := by
  have key : ∀ (names : List (List Byte)) (w : World) (r : ℕ) (out : List Byte), SmallFiles w →
      w.stdin.data.length < 2 ^ 64 → r ≤ 1 → hashFilesLoop env a le bsd names w r out = .exit 1 ∨
        ∃ r' out' w', hashFilesLoop env a le bsd names w r out = .ok (r', out', w') ∧ r' ≤ 1 := by
    intro names
    induction names with
    | nil => intro w r out _ _ hr; exact .inr ⟨r, out, w, rfl, hr⟩
    | cons n names ih =>
      intro w r out hw hs hr
      rcases hashFile_ends hE hw hs (some n) a le bsd with h | ⟨r', line, w', h, hr', hsame⟩
      · left; unfold hashFilesLoop; rw [h]; rfl
      · obtain ⟨e1, e2, e3⟩ := hsame (by simp)
        have hrun : hashFilesLoop env a le bsd (n :: names) w r out =
            hashFilesLoop env a le bsd names w' (r ||| r') (out ++ line) := by
          conv_lhs => unfold hashFilesLoop
          rw [h]; rfl
        rw [hrun]
        refine ih w' _ _ (by unfold SmallFiles; rw [e1]; exact hw) (by rw [e3]; exact hs) ?_
        interval_cases r <;> interval_cases r' <;> decide
  unfold hashFiles
  split
  · rcases hashFile_ends hE hw hs none a le bsd with h | ⟨r, out, w', h, hr, _⟩
    · exact .inl h
    · exact .inr ⟨r, out, w', h, hr⟩
  · exact key names w 0 [] hw hs (by omega)

/-! ### Verifying -/

theorem checkFiles_ends {env : Env} (hE : EnvOk env) (opts : CheckOpts) {w : World} (hw : SmallFiles w)
    (hs : w.stdin.data.length < 2 ^ 64) (names : List (List Byte)) :
    checkFiles env w names opts = .exit 1 ∨ ∃ r out w', checkFiles env w names opts = .ok (r, out, w') ∧ r ≤ 1 := by
  by_cases hn : names = []
  · subst hn
    by_cases hm : w.mem.headD true = true ∧ w.mem.tail.headD true = true
    · obtain ⟨os, e, src', _, h2, h3⟩ := C33_verdict hE opts hw hs none none rfl hm
      by_cases he : e = .readError
      · left; show (checkFile env w none opts >>= _) = _; rw [h2 he]; rfl
      · obtain ⟨ok, w', g1, _⟩ := h3 he
        refine .inr ⟨if ok then 0 else 1, report opts os, w', ?_, by split <;> omega⟩
        show (checkFile env w none opts >>= _) = _; rw [g1]; rfl
    · left
      have hno : checkFile env w none opts = .exit 1 := by
        have hor : w.mem.headD true = false ∨ w.mem.tail.headD true = false := by
          cases h1 : w.mem.headD true with
          | false => exact .inl rfl
          | true =>
            cases h2 : w.mem.tail.headD true with
            | false => exact .inr rfl
            | true => exact absurd ⟨h1, h2⟩ hm
        unfold checkFile
        simp only [World.alloc]
        rcases hor with h | h
        · simp only [h]; rfl
        · simp only [h]; cases w.mem.headD true <;> rfl
      show (checkFile env w none opts >>= _) = _; rw [hno]; rfl
  · rcases C33_files hE opts hw hs hn with ⟨rs, w', _, h⟩ | ⟨h, _⟩
    · exact .inr ⟨_, _, w', h, by split <;> omega⟩
    · exact .inl h

/-! ### C52 -/

/-- The exit code of the process. -/
def exitCode : Run Finished → Option ℕ
  | .done f => some f.code
  | .exit c => some c
  | _ => none

/-- **C52**, options that end the program: the exit code of the run is that of the first of them, on every correct build;
the self-test of `--version` does not stand in the way. -/
theorem C52_stops {m : Machine} (hm : MachineOk m) (fuel : ℕ) (w : World) (console : Bool) (argv0 : List Byte)
    {args : List (List Byte)} {os : List Opt} {files : Option (List (List Byte))} (h : CommandLine args os files)
    (hb : InBounds os) {o : Opt} (ho : os[(Spec.Cli.live os).length]? = some o) :
    exitCode (wholeProgram m fuel w console argv0 args) = Spec.Cli.ends o ∧
    Ends (wholeProgram m fuel w console argv0 args) := by
  obtain ⟨c, hc, he, hv, hk⟩ := C41_ends console argv0 h hb.ids hb.quiet ho
  rw [hc]
  unfold wholeProgram
  cases hx : xsumMain console argv0 args with
  | ub => rw [hx] at he; cases he
  | exit k =>
    rw [hx] at he
    injection he with he
    subst he
    exact ⟨rfl, hk _ hx⟩
  | ok a =>
    obtain ⟨s, rfl, -⟩ := hv a hx
    rw [hx] at he
    injection he with he
    subst he
    cases s with
    | help => exact ⟨rfl, Nat.zero_le _⟩
    | version =>
      show exitCode ((Model.SelfTest.sanityCheck m.test).run >>= _) = _ ∧ Ends ((Model.SelfTest.sanityCheck m.test).run >>= _)
      rw [selftest hm]
      exact ⟨rfl, Nat.zero_le _⟩
    | badUsage => exact ⟨rfl, le_refl _⟩

/-- All options are live when none ends the program. -/
theorem live_all {os : List Opt} (h : os[(Spec.Cli.live os).length]? = none) : Spec.Cli.live os = os := by
  obtain ⟨r, hr⟩ : Spec.Cli.live os <+: os := List.takeWhile_prefix _
  rw [List.getElem?_eq_none_iff] at h
  have := congrArg List.length hr
  rw [List.length_append] at this
  rw [List.length_eq_zero_iff.mp (show r.length = 0 by omega), List.append_nil] at hr
  exact hr

/-- **C52.** Without benchmarks the program always ends, with exit code 0 or 1, and does nothing undefined: whatever the
command line, the files (the checksum files included), their names, the sizes in which they are delivered, read errors,
and the answers of the allocator. -/
theorem C52_ends {m : Machine} (hm : MachineOk m) (fuel : ℕ) {w : World} (hw : SmallFiles w)
    (hs : w.stdin.data.length < 2 ^ 64) (console : Bool) (argv0 : List Byte) {args : List (List Byte)} {os : List Opt}
    {files : Option (List (List Byte))} (h : CommandLine args os files) (hb : InBounds os)
    (hnb : (∃ o ∈ os, Spec.Cli.ends o ≠ none) ∨ ∀ o ∈ os, Spec.Cli.selects o = none) :
    Ends (wholeProgram m fuel w console argv0 args) := by
  cases hnext : os[(Spec.Cli.live os).length]? with
  | some o => exact (C52_stops hm fuel w console argv0 h hb hnext).2
  | none =>
    have hall := live_all hnext
    have hn := live_none os
    obtain ⟨h1, h2⟩ := hb
    rw [hall] at hn h1 h2
    have hsel : ∀ o ∈ os, Spec.Cli.selects o = none := by
      rcases hnb with ⟨o, ho, hne⟩ | hnb
      · exact absurd (hn o ho) hne
      · exact hnb
    obtain ⟨c1, c2⟩ := (C41_command console argv0 h hn h1 h2).2 hsel
    unfold wholeProgram
    by_cases hd : files = none ∧ console = true ∧ .stdin ∉ os
    · have he := c1 hd
      cases hx : xsumMain console argv0 args with
      | ub => rw [hx] at he; cases he
      | exit k => rw [hx] at he; injection he
      | ok a =>
        rw [hx] at he
        cases a with
        | stop s =>
          injection he with he
          cases s with
          | help => cases he
          | version => cases he
          | badUsage => exact le_refl _
        | _ => cases he
    · by_cases hc : .check ∈ os
      · obtain ⟨opts, hx, _⟩ := (c2 hd).1 hc
        rw [hx]
        show Ends ((checkFiles m.env w (files.getD []) opts).run >>= _)
        rcases checkFiles_ends hm.env opts hw hs (files.getD []) with hr | ⟨r, out, w', hr, hle⟩
        · rw [hr]; exact rfl
        · rw [hr]; exact hle
      · obtain ⟨a, hx, _⟩ := (c2 hd).2 hc
        rw [hx]
        show Ends ((hashFiles m.env w (files.getD []) a _ _).run >>= _)
        rcases hashFiles_ends hm.env hw hs (files.getD []) a (decide (.littleEndian ∈ os)) (decide (.tag ∈ os)) with
          hr | ⟨r, out, w', hr, hle⟩
        · rw [hr]; exact rfl
        · rw [hr]; exact hle

/-- **C52**, exit code and output of runs without benchmarks are those of C42 (`C42_list`, `C42_list_then_check`), which
leaves the self-test out. -/
theorem C52_program {m : Machine} (hm : MachineOk m) (fuel : ℕ) (w : World) (console : Bool) (argv0 : List Byte)
    (args : List (List Byte)) :
    (∀ c out w', program m.env w console argv0 args = .ok (some (c, out, w')) →
      wholeProgram m fuel w console argv0 args = .done ⟨c, out, [], w'⟩) ∧
    (∀ c, program m.env w console argv0 args = .exit c → wholeProgram m fuel w console argv0 args = .exit c) := by
  unfold program wholeProgram
  cases xsumMain console argv0 args with
  | ub => exact ⟨fun _ _ _ h => (by cases h), fun _ h => by cases h⟩
  | exit k => exact ⟨fun _ _ _ h => (by cases h), fun c h => by cases h; rfl⟩
  | ok a =>
    cases a with
    | stop s =>
      refine ⟨fun c out w' h => ?_, fun _ h => by cases h⟩
      cases h
      cases s with
      | help => rfl
      | version =>
        show ((Model.SelfTest.sanityCheck m.test).run >>= _) = _
        rw [selftest hm]
        rfl
      | badUsage => rfl
    | bench => exact ⟨fun _ _ _ h => (by cases h), fun _ h => by cases h⟩
    | check files opts =>
      show (∀ c out w', (checkFiles m.env w files opts >>= fun r => .ok (some r)) = .ok (some (c, out, w')) →
          ((checkFiles m.env w files opts).run >>= _) = _) ∧
        (∀ c, (checkFiles m.env w files opts >>= fun r => .ok (some r)) = .exit c →
          ((checkFiles m.env w files opts).run >>= _) = _)
      cases checkFiles m.env w files opts with
      | ub => exact ⟨fun _ _ _ h => (by cases h), fun _ h => by cases h⟩
      | exit k => exact ⟨fun _ _ _ h => (by cases h), fun c h => by cases h; rfl⟩
      | ok r => exact ⟨fun c out w' h => (by cases h; rfl), fun _ h => by cases h⟩
    | hash files a le bsd =>
      show (∀ c out w', (hashFiles m.env w files a le bsd >>= fun r => .ok (some (r.1, [Out.text r.2.1], r.2.2))) =
            .ok (some (c, out, w')) → ((hashFiles m.env w files a le bsd).run >>= _) = _) ∧
        (∀ c, (hashFiles m.env w files a le bsd >>= fun r => .ok (some (r.1, [Out.text r.2.1], r.2.2))) = .exit c →
          ((hashFiles m.env w files a le bsd).run >>= _) = _)
      cases hashFiles m.env w files a le bsd with
      | ub => exact ⟨fun _ _ _ h => (by cases h), fun _ h => by cases h⟩
      | exit k => exact ⟨fun _ _ _ h => (by cases h), fun c h => by cases h; rfl⟩
      | ok r => exact ⟨fun c out w' h => (by cases h; rfl), fun _ h => by cases h⟩

/-! ### Benchmarks -/

/-- The environment of the benchmark of file `j` when the options are `os`. -/
def benchEnvOf (m : Machine) (os : List Opt) (j : ℕ) : Model.Bench.Env :=
  { m.bench j with logLevel := 2 - os.count .quiet, nbIterations := (Spec.Cli.lastOf iterationsOf os).getD 3 }

/-- A command line that selects benchmarks, within the limits of C36 and C48. -/
structure BenchLine (os : List Opt) : Prop where
  goes : ∀ o ∈ os, Spec.Cli.ends o = none
  ids : ∀ o ∈ os, ¬ OutOfBounds o
  bench : ∃ o ∈ os, Spec.Cli.selects o ≠ none
  /-- the terse output of `-qq` has limits of its own (`C48_quick_terse_undefined`) -/
  quiet : os.count .quiet ≤ 1
  iterations : (Spec.Cli.lastOf iterationsOf os).getD 3 < 2 ^ 31 - 1

/-- A machine whose clock does not go back. -/
structure BenchMachine (m : Machine) (j : ℕ) : Prop where
  env : BenchTerms.EnvOK (m.bench j)
  forward : ∀ i k n, 0 ≤ (m.bench j).ticks i k n

theorem benchOK {m : Machine} {j : ℕ} (hj : BenchMachine m j) {os : List Opt} (hl : BenchLine os) (ids : List Bool) :
    BenchOK (benchEnvOf m os j) ids where
  env := ⟨hj.env.cfg, hj.env.size, hj.env.typed, hj.env.fp, hj.env.perSec⟩
  clock i _ := ⟨hj.forward i, by
    show (((Spec.Cli.lastOf iterationsOf os).getD 3 : ℕ) : ℤ) < _
    have := hl.iterations
    omega⟩
  terse i _ := .inl (by
    show (1 : ℤ) ≤ 2 - os.count .quiet
    have := hl.quiet
    omega)

theorem bench_run {m : Machine} (hm : MachineOk m) (fuel : ℕ) (w : World) (console : Bool) (argv0 : List Byte)
    {args : List (List Byte)} {os : List Opt} {files : Option (List (List Byte))} (h : CommandLine args os files)
    (hl : BenchLine os) : ∃ (ids : List Bool) (bs : BitVec 32), (∀ i, ids[i]? = some true ↔ Spec.Cli.Runs os i) ∧
      bs.toNat = (Spec.Cli.lastOf blockSizeOf os).getD 102400 ∧
      wholeProgram m fuel w console argv0 args = (match files with
        | none => Model.Bench.benchInternal (benchEnvOf m os 0) fuel (m.nameAlloc 0) (m.alloc 0) ids bs >>= fun r =>
            .done ⟨0, [], [r], w⟩
        | some names => Model.Bench.benchFiles (benchEnvOf m os) fuel m.nameAlloc m.malloc m.alloc ids 0
            (names.map (m.file w)) >>= fun rs => .done ⟨0, [], rs, w⟩) := by
  obtain ⟨ids, it, bs, hx, -, hids, hit, hbs⟩ := (C41_command console argv0 h hl.goes hl.ids (by have := hl.quiet; omega)).1 hl.bench
  refine ⟨ids, bs, hids, hbs, ?_⟩
  have henv : m.benchEnv (2 - os.count .quiet) it = benchEnvOf m os := by
    funext j
    unfold Machine.benchEnv benchEnvOf
    have : it.toInt = ((Spec.Cli.lastOf iterationsOf os).getD 3 : ℕ) := by
      rw [BitVec.toInt_eq_toNat_of_lt (by have := hl.iterations; omega), hit]
    rw [this]
  unfold wholeProgram
  rw [hx]
  show ((Model.SelfTest.sanityCheck m.test).run >>= _) = _
  rw [selftest hm]
  cases files with
  | none =>
    show (Model.Bench.benchInternal (m.benchEnv (2 - os.count .quiet) it 0) _ _ _ _ _ >>= _) = _
    rw [henv]
    rfl
  | some names =>
    show (Model.Bench.benchFiles (m.benchEnv (2 - os.count .quiet) it) _ _ _ _ _ _ _ >>= _) = _
    rw [henv]
    rfl

/-- **C52**, `xxhsum -b…`: the reports are those of the tests selected on the command line, on as many zero bytes as it
says, and the exit code is 0. -/
theorem C52_bench {m : Machine} (hm : MachineOk m) (hj : BenchMachine m 0) (fuel : ℕ) (w : World) (console : Bool)
    (argv0 : List Byte) {args : List (List Byte)} {os : List Opt} (h : CommandLine args os none) (hl : BenchLine os)
    {size addr : ℕ} (hsize : size = (Spec.Cli.lastOf blockSizeOf os).getD 102400)
    (hk : size + 19 < 2 ^ ((m.bench 0).cfg.sizeBits - 1)) (ha : m.alloc 0 (size + 19) = some addr)
    (hname : ∀ i, m.nameAlloc 0 i = true) :
    Sat (fun f => f.code = 0 ∧ f.out = [] ∧ ∃ ids rs, f.reports = [rs] ∧ (∀ i, ids[i]? = some true ↔ Spec.Cli.Runs os i) ∧
        ReportsOK (benchEnvOf m os 0) (fun _ => List.replicate size 0) ids allTests rs)
      (wholeProgram m fuel w console argv0 args) := by
  obtain ⟨ids, bs, hids, hbs, hrun⟩ := bench_run hm fuel w console argv0 h hl
  rw [← hsize] at hbs
  subst hbs
  rw [hrun]
  exact Proof.Bench.Sat_bind (C48_internal (e := benchEnvOf m os 0) (benchOK hj hl ids) hk hname ha fuel) fun r hr =>
    ⟨rfl, rfl, ids, r, rfl, hids, hr⟩

/-- **C52**, `xxhsum -b…` ends on every machine that is not too fast. -/
theorem C52_bench_ends {m : Machine} (hm : MachineOk m) (hj : BenchMachine m 0) {fuel : ℕ} (w : World) (console : Bool)
    (argv0 : List Byte) {args : List (List Byte)} {os : List Opt} (h : CommandLine args os none) (hl : BenchLine os)
    {size addr : ℕ} (hsize : size = (Spec.Cli.lastOf blockSizeOf os).getD 102400)
    (hk : size + 19 < 2 ^ ((m.bench 0).cfg.sizeBits - 1)) (ha : m.alloc 0 (size + 19) = some addr)
    (hname : ∀ i, m.nameAlloc 0 i = true) {G D : ℕ} (hslow : ∀ i, SlowEnough (m.bench 0) i G D)
    (hfuel : 33 * ((Spec.Cli.lastOf iterationsOf os).getD 3 + 1) + 34 ≤ fuel) :
    exitCode (wholeProgram m fuel w console argv0 args) = some 0 := by
  obtain ⟨ids, bs, hids, hbs, hrun⟩ := bench_run hm fuel w console argv0 h hl
  rw [← hsize] at hbs
  subst hbs
  obtain ⟨rs, hr, -⟩ := C48_internal_reports (e := benchEnvOf m os 0) (benchOK hj hl ids)
    (fun i _ => ⟨(hslow i).calls, (hslow i).limit, (hslow i).resolution⟩) hk hname ha (fuel := fuel) (by
      have : (wanted (benchEnvOf m os 0)).toNat ≤ (Spec.Cli.lastOf iterationsOf os).getD 3 + 1 := by
        unfold wanted
        show (((Spec.Cli.lastOf iterationsOf os).getD 3 : ℕ) + (if _ then _ else _) : ℤ).toNat ≤ _
        split <;> omega
      omega)
  rw [hrun]
  dsimp only
  rw [hr]
  rfl

/-- **C52**, `xxhsum -b… files`: one list of reports per file, each on the first bytes of the file. -/
theorem C52_bench_files {m : Machine} (hm : MachineOk m) (hj : ∀ j, BenchMachine m j) (fuel : ℕ) {w : World}
    (console : Bool) (argv0 : List Byte) {args : List (List Byte)} {os : List Opt} {names : List (List Byte)}
    (h : CommandLine args os (some names)) (hl : BenchLine os) (ha : ∀ j n, m.alloc j n ≠ none)
    (hname : ∀ j i, m.nameAlloc j i = true)
    (hf : ∀ n ∈ names, ∃ f, w.files n = some f ∧ (m.fileSize n).toNat ≤ f.data.length) :
    Sat (fun f => f.code = 0 ∧ f.out = [] ∧ ∃ ids, (∀ i, ids[i]? = some true ↔ Spec.Cli.Runs os i) ∧
        f.reports.length = names.length ∧
        ∀ j name g rs, names[j]? = some name → w.files name = some g → f.reports[j]? = some rs →
          ∃ n, n ≤ 2080374784 ∧ n ≤ (m.fileSize name).toNat ∧
            ReportsOK (benchEnvOf m os j) (fileInput (g.data.take n)) ids allTests rs)
      (wholeProgram m fuel w console argv0 args) := by
  obtain ⟨ids, bs, hids, -, hrun⟩ := bench_run hm fuel w console argv0 h hl
  rw [hrun]
  refine Proof.Bench.Sat_bind (C48_files (e := benchEnvOf m os) (fun j => benchOK (hj j) hl ids) hname ha fuel
    (names.map (m.file w)) 0 ?_) ?_
  · intro f hmem
    obtain ⟨n, hn, rfl⟩ := List.mem_map.mp hmem
    obtain ⟨g, hg, hlen⟩ := hf n hn
    unfold Machine.file
    rw [hg]
    exact ⟨rfl, hlen⟩
  · rintro rss ⟨h1, h2⟩
    refine ⟨rfl, rfl, ids, hids, by rw [h1, List.length_map], ?_⟩
    intro j name g rs hj' hg hrs
    obtain ⟨n, n1, n2, n3⟩ := h2 j (m.file w name) rs (by rw [List.getElem?_map, hj']; rfl) hrs
    refine ⟨n, n1, n2, ?_⟩
    rw [Nat.zero_add] at n3
    unfold Machine.file at n3
    rw [hg] at n3
    exact n3

theorem benchFile_missing {e : Model.Bench.Env} {fuel : ℕ} {na : ℕ → Bool} {ma : ℕ → ℕ → Bool} {al : ℕ → Option ℕ}
    {ids : List Bool} {f : Model.Bench.BFile} (hf : f.opens = false) (r : List Model.Bench.TestReport) :
    Model.Bench.benchFile e fuel na ma al ids f ≠ .done r := by
  unfold Model.Bench.benchFile
  cases Model.Bench.selectBenchedSize e.cfg ma fuel f with
  | done n =>
    show (match al ((n + 16 + 3) % 2^e.cfg.sizeBits) with | none => _ | some addr => _) ≠ _
    split
    · exact nofun
    · rw [hf]
      rename_i addr _
      cases Model.Bench.alignOff ⟨addr, List.replicate ((n + 16 + 3) % 2^e.cfg.sizeBits) 0⟩ <;> exact nofun
  | _ => exact nofun

theorem benchFiles_missing {e : ℕ → Model.Bench.Env} {fuel : ℕ} {na : ℕ → ℕ → Bool} {ma : ℕ → ℕ → ℕ → Bool}
    {al : ℕ → ℕ → Option ℕ} {ids : List Bool} : ∀ (fs : List Model.Bench.BFile) (j : ℕ), (∃ f ∈ fs, f.opens = false) →
      ∀ r, Model.Bench.benchFiles e fuel na ma al ids j fs ≠ .done r := by
  intro fs
  induction fs with
  | nil => rintro j ⟨f, hf, -⟩; cases hf
  | cons f fs ih =>
    intro j hf r h
    rw [Model.Bench.benchFiles] at h
    cases h1 : Model.Bench.benchFile (e j) fuel (na j) (ma j) (al j) ids f with
    | done r1 =>
      rw [h1] at h
      have hf' : ∃ f ∈ fs, f.opens = false := by
        obtain ⟨g, hg, hgo⟩ := hf
        rcases List.mem_cons.mp hg with rfl | hg
        · exact absurd h1 (benchFile_missing hgo r1)
        · exact ⟨g, hg, hgo⟩
      cases h2 : Model.Bench.benchFiles e fuel na ma al ids (j+1) fs with
      | done r2 => exact ih (j+1) hf' r2 h2
      | _ =>
        have h : (Model.Bench.benchFiles e fuel na ma al ids (j+1) fs >>= _) = _ := h
        rw [h2] at h
        cases h
    | _ => rw [h1] at h; cases h

/-- **C52**, `xxhsum -b… files` never ends with 0 if one of the files does not exist; if it is the first one, the exit
code is 11. -/
theorem C52_bench_missing {m : Machine} (hm : MachineOk m) (fuel : ℕ) {w : World} (console : Bool) (argv0 : List Byte)
    {args : List (List Byte)} {os : List Opt} {names : List (List Byte)} (h : CommandLine args os (some names))
    (hl : BenchLine os) :
    (∀ n ∈ names, w.files n = none → ∀ f, wholeProgram m fuel w console argv0 args ≠ .done f) ∧
    (∀ n, names.head? = some n → w.files n = none → 32 ≤ (m.bench 0).cfg.sizeBits → (m.fileSize n).toNat < 2^63 →
      (∀ k s, m.malloc 0 k s = true) → (∀ s, m.alloc 0 s ≠ none) →
      wholeProgram m (fuel + 1) w console argv0 args = .exit 11) := by
  refine ⟨?_, ?_⟩
  · obtain ⟨ids, bs, hids, -, hrun⟩ := bench_run hm fuel w console argv0 h hl
    intro n hn hw f
    rw [hrun]
    dsimp only
    intro hd
    cases hb : Model.Bench.benchFiles (benchEnvOf m os) fuel m.nameAlloc m.malloc m.alloc ids 0 (names.map (m.file w)) with
    | done r =>
      refine benchFiles_missing _ 0 ⟨m.file w n, List.mem_map_of_mem hn, ?_⟩ r hb
      unfold Machine.file
      rw [hw]; rfl
    | _ => rw [hb] at hd; cases hd
  · intro n hn hw hs hsz hma hal
    obtain ⟨ids, bs, hids, -, hrun⟩ := bench_run hm (fuel + 1) w console argv0 h hl
    rw [hrun]
    dsimp only
    cases names with
    | nil => cases hn
    | cons x xs =>
      cases hn
      rw [List.map_cons, Model.Bench.benchFiles]
      have := (C48_file_errors (e := benchEnvOf m os 0) hs ids (m.nameAlloc 0) hma hal (f := m.file w n) hsz fuel).1
        (by unfold Machine.file; rw [hw]; rfl)
      rw [this]
      rfl

/-- **C52**, the self-test stands before `--version` and before every benchmark: a build that fails it (its hashes are
wrong, C44) says so with exit code 1 and measures nothing. -/
theorem C52_selftest {m : Machine} (ht : Model.SelfTest.sanityCheck m.test = .exit 1) (fuel : ℕ) (w : World)
    (console : Bool) (argv0 : List Byte) {args : List (List Byte)} {os : List Opt}
    {files : Option (List (List Byte))} (h : CommandLine args os files) (hb : InBounds os)
    (hv : os[(Spec.Cli.live os).length]? = some .version ∨
      os[(Spec.Cli.live os).length]? = none ∧ ∃ o ∈ os, Spec.Cli.selects o ≠ none) :
    wholeProgram m fuel w console argv0 args = .exit 1 := by
  rcases hv with ho | ⟨ho, hs⟩
  · obtain ⟨c, hc, he, hv, hk⟩ := C41_ends console argv0 h hb.ids hb.quiet ho
    unfold wholeProgram
    cases hx : xsumMain console argv0 args with
    | ub => rw [hx] at he; cases he
    | exit k => rw [hk _ hx]; rfl
    | ok a =>
      obtain ⟨s, rfl, hs⟩ := hv a hx
      rw [hs.mpr rfl]
      show ((Model.SelfTest.sanityCheck m.test).run >>= _) = _
      rw [ht]
      rfl
  · have hall := live_all ho
    have hn := live_none os
    obtain ⟨h1, h2⟩ := hb
    rw [hall] at hn h1 h2
    obtain ⟨ids, it, bs, hx, -⟩ := (C41_command console argv0 h hn h1 h2).1 hs
    unfold wholeProgram
    rw [hx]
    show ((Model.SelfTest.sanityCheck m.test).run >>= _) = _
    rw [ht]
    rfl

/-! ### Exit codes of benchmarks -/

theorem bind_exit {α β : Type} {x : Run α} {f : α → Run β} {c : ℕ} (h : (x >>= f) = .exit c) :
    x = .exit c ∨ ∃ a, x = .done a ∧ f a = .exit c := by
  cases x with
  | exit k => exact .inl (by injection (show Run.exit k = .exit c from h) with h; rw [h])
  | done a => exact .inr ⟨a, rfl, h⟩
  | _ => cases h

theorem of_exit {α : Type} {o : Option α} {c : ℕ} : Run.of o ≠ .exit c := by
  cases o <;> simp [Model.Bench.Run.of]

theorem benchLoop_exit {e : Model.Bench.Env} {i : ℕ} {g : W32 → Option W32} {c : ℕ} :
    ∀ (fuel k : ℕ) (st : Model.Bench.BSt), Model.Bench.benchLoop e i g fuel k st ≠ .exit c := by
  intro fuel
  induction fuel with
  | zero => intro k st h; cases h
  | succ fuel ih =>
    intro k st h
    rw [Proof.Bench.loop_succ] at h
    split at h
    · rcases bind_exit h with h | ⟨a, -, h⟩
      · exact of_exit h
      · rcases bind_exit h with h | ⟨b, -, h⟩
        · exact of_exit h
        · rcases bind_exit h with h | ⟨r, -, h⟩
          · exact ih _ _ h
          · cases h
    · cases h

theorem benchHash_exit {e : Model.Bench.Env} {fuel f i size c : ℕ} {name : String} {p : Model.Ptr} :
    Model.Bench.benchHash e fuel f name i p size ≠ .exit c := by
  intro h
  unfold Model.Bench.benchHash at h
  rcases bind_exit h with h | ⟨a, -, h⟩
  · exact of_exit h
  · rcases bind_exit h with h | ⟨⟨q, r⟩, -, h⟩
    · exact benchLoop_exit _ _ _ h
    · dsimp only at h
      split at h
      · rcases bind_exit h with h | ⟨b, -, h⟩
        · exact of_exit h
        · cases h
      · cases h

theorem benchMem_exit {e : Model.Bench.Env} {fuel : ℕ} {nameAlloc : ℕ → Bool} {ids : List Bool} {block : Model.Buf}
    {off size c : ℕ} : Model.Bench.benchMem e fuel nameAlloc ids block off size ≠ .exit c := by
  have key : ∀ is : List ℕ, Model.Bench.benchTests e fuel nameAlloc ids block off size is ≠ .exit c := by
    intro is
    induction is with
    | nil => intro h; cases h
    | cons i is ih =>
      intro h
      unfold Model.Bench.benchTests at h
      split at h
      · rcases bind_exit h with h | ⟨a, -, h⟩
        · unfold Model.Bench.benchTest at h
          dsimp only at h
          split at h
          · exact benchHash_exit h
          · split at h
            · exact benchHash_exit h
            · cases h
        · rcases bind_exit h with h | ⟨b, -, h⟩
          · exact ih h
          · cases h
      · exact ih h
  intro h
  unfold Model.Bench.benchMem at h
  split at h
  · cases h
  · exact key _ h

theorem findLoop_exit {cfg : Model.Cfg} {malloc : ℕ → ℕ → Bool} {c : ℕ} :
    ∀ (fuel k : ℕ) (r : BitVec 64), Model.Bench.findLoop cfg malloc fuel k r ≠ .exit c := by
  intro fuel
  induction fuel with
  | zero => intro k r h; cases h
  | succ fuel ih =>
    intro k r h
    unfold Model.Bench.findLoop at h
    dsimp only at h
    split at h
    · cases h
    · exact ih _ _ h

theorem benchFile_exit {e : Model.Bench.Env} {fuel : ℕ} {nameAlloc : ℕ → Bool} {malloc : ℕ → ℕ → Bool}
    {alloc : ℕ → Option ℕ} {ids : List Bool} {f : Model.Bench.BFile} {c : ℕ}
    (h : Model.Bench.benchFile e fuel nameAlloc malloc alloc ids f = .exit c) : c = 11 ∨ c = 13 := by
  unfold Model.Bench.benchFile at h
  rcases bind_exit h with h | ⟨n, -, h⟩
  · exfalso
    unfold Model.Bench.selectBenchedSize at h
    rcases bind_exit h with h | ⟨b, -, h⟩
    · unfold Model.Bench.findMaxMem at h
      rcases bind_exit h with h | ⟨r, -, h⟩
      · exact findLoop_exit _ _ _ h
      · cases h
    · cases h
  · dsimp only at h
    split at h
    · cases h
    · rcases bind_exit h with h | ⟨off, -, h⟩
      · exact absurd h of_exit
      · split at h
        · injection h with h; exact .inl h.symm
        · split at h
          · cases h
          · split at h
            · injection h with h; exact .inr h.symm
            · exact absurd h benchMem_exit

/-- **C52**, the exit codes of a benchmark are 0, 11 (a file cannot be opened), 12 (no memory) and 13 (a file is shorter
than the system says), on every machine with a correct build. -/
theorem C52_bench_codes {m : Machine} (hm : MachineOk m) (fuel : ℕ) (w : World) (console : Bool) (argv0 : List Byte)
    {args : List (List Byte)} {os : List Opt} {files : Option (List (List Byte))} (h : CommandLine args os files)
    (hl : BenchLine os) {c : ℕ} (hc : exitCode (wholeProgram m fuel w console argv0 args) = some c) :
    c = 0 ∨ (files = none ∧ c = 12) ∨ (files ≠ none ∧ (c = 11 ∨ c = 13)) := by
  obtain ⟨ids, bs, -, -, hrun⟩ := bench_run hm fuel w console argv0 h hl
  rw [hrun] at hc
  cases files with
  | none =>
    dsimp only at hc
    cases hr : Model.Bench.benchInternal (benchEnvOf m os 0) fuel (m.nameAlloc 0) (m.alloc 0) ids bs with
    | done r => rw [hr] at hc; injection hc with hc; exact .inl hc.symm
    | exit k =>
      rw [hr] at hc
      injection hc with hc
      subst hc
      refine .inr (.inl ⟨rfl, ?_⟩)
      unfold Model.Bench.benchInternal at hr
      dsimp only at hr
      split at hr
      · injection hr with hr; exact hr.symm
      · rcases bind_exit hr with hr | ⟨off, -, hr⟩
        · exact absurd hr of_exit
        · exact absurd hr benchMem_exit
    | _ => rw [hr] at hc; cases hc
  | some names =>
    dsimp only at hc
    have key : ∀ (fs : List Model.Bench.BFile) (j k : ℕ),
        Model.Bench.benchFiles (benchEnvOf m os) fuel m.nameAlloc m.malloc m.alloc ids j fs = .exit k → k = 11 ∨ k = 13 := by
      intro fs
      induction fs with
      | nil => intro j k h; cases h
      | cons f fs ih =>
        intro j k h
        unfold Model.Bench.benchFiles at h
        rcases bind_exit h with h | ⟨a, -, h⟩
        · exact benchFile_exit h
        · rcases bind_exit h with h | ⟨b, -, h⟩
          · exact ih _ _ h
          · cases h
    cases hr : Model.Bench.benchFiles (benchEnvOf m os) fuel m.nameAlloc m.malloc m.alloc ids 0 (names.map (m.file w)) with
    | done r => rw [hr] at hc; injection hc with hc; exact .inl hc.symm
    | exit k =>
      rw [hr] at hc
      injection hc with hc
      subst hc
      exact .inr (.inr ⟨by simp, key _ _ _ hr⟩)
    | _ => rw [hr] at hc; cases hc

/-! ### Cases -/

/-- A machine that runs all parts of the program. -/
def exMachine : Machine where
  env := exEnv
  test := someEnv x64
  bench _ := machine
  nameAlloc _ _ := true
  malloc _ _ _ := true
  alloc _ _ := some 1003
  fileSize _ := 2

theorem exMachine_ok : MachineOk exMachine := ⟨exEnv_ok, x64_valid, List.length_replicate, junk_typed⟩

theorem exMachine_bench (j : ℕ) : BenchMachine exMachine j :=
  ⟨machine_env, fun _ _ n => by show (0 : ℤ) ≤ (n : ℤ) / 10000 * 1000; omega⟩

/-- `xxhsum -b3i1` -/
theorem exBench {rest : List (List Byte)} {files : Option (List (List Byte))} (h : CommandLine rest [] files) :
    CommandLine (Spec.Cli.txt "-b3i1" :: rest) [.benchId 3, .iterations 1] files := by
  have h3 : Spec.Cli.NumberAt (Spec.Cli.txt "3i1") (Spec.Cli.txt "3") 1 (Spec.Cli.txt "i1") :=
    .plain (digits := Spec.Cli.txt "3") (by decide) (by decide) (by decide) (by decide)
  have h1 : Spec.Cli.NumberAt (Spec.Cli.txt "1") (Spec.Cli.txt "1") 1 [] :=
    .plain (digits := Spec.Cli.txt "1") (by decide) (by simp) (by simp) (by simp)
  have hc : Spec.Cli.Cluster (Spec.Cli.txt "b3i1") [.benchId 3, .iterations 1] :=
    .bench (ids := [3]) (.last (.inr ⟨rfl, by decide⟩) h3 (by decide))
      (.number (f := .iterations) (by unfold Spec.Cli.numbers; exact List.mem_cons_of_mem _ List.mem_cons_self) h1 .nil)
  exact .short (t := Spec.Cli.txt "b3i1") (os1 := [.benchId 3, .iterations 1]) (by decide) (by decide) hc h

theorem exBenchLine : BenchLine [.benchId 3, .iterations 1] :=
  ⟨by decide, by simp [OutOfBounds], by decide, by decide, by decide⟩

example (console : Bool) : exitCode (wholeProgram exMachine 200 exWorld console (Spec.Cli.txt "xxhsum")
    [Spec.Cli.txt "-b3i1"]) = some 0 :=
  C52_bench_ends exMachine_ok (exMachine_bench 0) exWorld console _ (exBench .nil) exBenchLine rfl (by decide) rfl
    (fun _ => rfl) machine_slow (by decide)

/-- Test 3 and no other runs. -/
example (i : ℕ) (hi : 1 ≤ i ∧ i ≤ 28) : Spec.Cli.Runs [.benchId 3, .iterations 1] i ↔ i = 3 := by
  obtain ⟨h1, h2⟩ := hi
  have hl : Spec.Cli.lastOf Spec.Cli.selects [.benchId 3, .iterations 1] = some (some 3) := rfl
  unfold Spec.Cli.Runs
  rw [hl]
  interval_cases i <;> simp [Spec.Cli.benchmarks]

/-- A file that cannot be opened. -/
example (console : Bool) : exitCode (wholeProgram exMachine 200 exWorld console (Spec.Cli.txt "xxhsum")
    [Spec.Cli.txt "-b3i1", Spec.Cli.txt "no"]) = some 11 := by
  obtain ⟨ids, bs, -, -, h⟩ := bench_run exMachine_ok 200 exWorld console (Spec.Cli.txt "xxhsum")
    (exBench (.files (f := Spec.Cli.txt "no") (files := []) (by decide))) exBenchLine
  rw [h]
  rfl

/-- No memory for the data. -/
example (console : Bool) : exitCode (wholeProgram { exMachine with alloc := fun _ _ => none } 200 exWorld console
    (Spec.Cli.txt "xxhsum") [Spec.Cli.txt "-b3i1"]) = some 12 := by
  obtain ⟨ids, bs, -, -, h⟩ := bench_run (m := { exMachine with alloc := fun _ _ => none })
    ⟨exEnv_ok, x64_valid, List.length_replicate, junk_typed⟩ 200 exWorld console (Spec.Cli.txt "xxhsum")
    (exBench .nil) exBenchLine
  rw [h]
  rfl

/-- `xxhsum --version --warn`: the self-test runs and passes, the second option is not looked at. -/
example (console : Bool) : exitCode (wholeProgram exMachine 0 exWorld console (Spec.Cli.txt "xxhsum")
    [Spec.Cli.txt "--version", Spec.Cli.txt "--warn"]) = some 0 :=
  (C52_stops exMachine_ok 0 exWorld console _ (.long (o := .version) (by decide) (.long (o := .warn) (by decide) .nil))
    ⟨by simp [Spec.Cli.live, Spec.Cli.ends], by decide⟩ (o := .version) rfl).1

/-- `xxhsum --check sums` -/
theorem exCheckLine : CommandLine [Spec.Cli.txt "--check", Spec.Cli.txt "sums"] [.check] (some [Spec.Cli.txt "sums"]) :=
  .long (o := .check) (by decide) (.files (by decide))

attribute [local irreducible] Ends in
/-- The reading of this checksum file ends with an error. -/
example : Ends (wholeProgram exMachine 0 exWorld true (Spec.Cli.txt "xxhsum")
    [Spec.Cli.txt "--check", Spec.Cli.txt "sums"]) := by
  have hs : exWorld.stdin.data.length < 2 ^ 64 := by
    show 0 < 2 ^ 64
    norm_num
  have hb : InBounds [.check] := ⟨by simp [Spec.Cli.live, Spec.Cli.ends, OutOfBounds], by decide⟩
  exact C52_ends exMachine_ok 0 exWorld_small hs true _ exCheckLine hb (.inr (by decide))

/-- A build for big-endian AArch64 with SVE, whose hashes of long inputs are wrong (`C44_sve_big_endian_detected`),
refuses to show its version. -/
example (console : Bool) : wholeProgram { exMachine with test := someEnv sveBE } 0 exWorld console (Spec.Cli.txt "xxhsum")
    [Spec.Cli.txt "--version"] = .exit 1 :=
  C52_selftest (m := { exMachine with test := someEnv sveBE }) C44_sve_big_endian_detected 0 exWorld console _
    (.long (o := .version) (by decide) .nil) ⟨by simp [Spec.Cli.live, Spec.Cli.ends], by decide⟩ (.inl rfl)

/-- A list of two checksums is verified, with one failure. -/
example : ∃ w', wholeProgram exMachine 0 exLater true (Spec.Cli.txt "xxhsum")
      [Spec.Cli.txt "--little-endian", Spec.Cli.txt "-c", Spec.Cli.txt "sums"] =
    .done ⟨1, [.text (Spec.Cli.txt "e: OK\n"), .text (Spec.Cli.txt "ab: FAILED\n"), .mismatched 1], [], w'⟩ := by
  obtain ⟨w', h⟩ : ∃ w', program exEnv exLater true (Spec.Cli.txt "xxhsum")
      [Spec.Cli.txt "--little-endian", Spec.Cli.txt "-c", Spec.Cli.txt "sums"] =
      .ok (some (1, [.text (Spec.Cli.txt "e: OK\n"), .text (Spec.Cli.txt "ab: FAILED\n"), .mismatched 1], w')) := by
    have hd := exLater_run
    split at hd
    · rename_i c o w' h
      obtain ⟨rfl, rfl⟩ := of_decide_eq_true hd
      exact ⟨w', h⟩
    · cases hd
  exact ⟨w', (C52_program exMachine_ok 0 exLater true _ _).1 _ _ _ h⟩

end XXH.Props
