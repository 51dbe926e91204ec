import Verif.Proof.CliMain
import Verif.Props.CliEnd
/-!
The command line of xxhsum: C36 (the benchmark table), C41 (the meaning of a command line), C42 (whole runs of the
program).
-/
namespace XXH.Props
open Model.Cli CliP Examples
open Spec.Cli (Opt CommandLine)

/-- The exit code of a run that ends before it does any work. -/
def endsWith : Res Action → Option Nat
  | .exit c => some c
  | .ok (.stop s) => some s.code
  | _ => none

/-- Benchmark numbers that are mistaken for negative ones. -/
def OutOfBounds : Opt → Prop
  | .benchId n => 2 ^ 31 ≤ n ∧ n < Spec.Cli.numberLimit
  | _ => False

theorem outOfBounds_iff (o : Opt) : OutOfBounds o ↔ Bad o := by cases o <;> rfl

/-- The name changes nothing but the algorithm and the mask. -/
theorem ifNamed_eq (exename name : List Byte) (a : Algo) (st : MainSt) : ifNamed exename name a st =
    { st with algo := if occurs name exename then a else st.algo,
              algoBitmask := if occurs name exename then algoBitmask a else st.algoBitmask } := by
  unfold ifNamed
  cases occurs name exename <;> rfl

theorem init_eq (argv0 : List Byte) : ∃ a mask, initMain argv0 = { initSt with algo := a, algoBitmask := mask } ∧
    algOf a = (Spec.Cli.namedAlg argv0).getD .xxh64 ∧
    ∀ b, accepts mask b = true ↔ ∀ x, Spec.Cli.namedAlg argv0 = some x → algOf b = x := by
  unfold initMain
  simp only [ifNamed_eq]
  refine ⟨_, _, rfl, ?_⟩
  have e1 := occurs_iff (lit "xxh32sum") (Spec.Cli.programName argv0)
  have e2 := occurs_iff (lit "xxh64sum") (Spec.Cli.programName argv0)
  have e3 := occurs_iff (lit "xxh128sum") (Spec.Cli.programName argv0)
  have e4 := occurs_iff (lit "xxh3sum") (Spec.Cli.programName argv0)
  rw [lastNameFromPath_eq]
  unfold Spec.Cli.namedAlg
  rw [lit_eq] at *
  simp only [← e1, ← e2, ← e3, ← e4]
  have key : ∀ b1 b2 b3 b4 : Bool,
      algOf (if b4 then .xxh3 else if b3 then .xxh128 else if b2 then .xxh64 else if b1 then .xxh32 else initSt.algo) =
        (if b4 then some .xxh3 else if b3 then some .xxh128 else if b2 then some .xxh64 else if b1 then some .xxh32 else
          none : Option Spec.Cli.Alg).getD .xxh64 ∧
      ∀ b, accepts (if b4 then algoBitmask .xxh3 else if b3 then algoBitmask .xxh128 else if b2 then algoBitmask .xxh64 else
          if b1 then algoBitmask .xxh32 else initSt.algoBitmask) b = true ↔
        ∀ x, (if b4 then some .xxh3 else if b3 then some .xxh128 else if b2 then some .xxh64 else if b1 then some .xxh32 else
          none : Option Spec.Cli.Alg) = some x → algOf b = x := by
    intro b1 b2 b3 b4
    refine ⟨by cases b1 <;> cases b2 <;> cases b3 <;> cases b4 <;> rfl, fun b => ?_⟩
    cases b1 <;> cases b2 <;> cases b3 <;> cases b4 <;> cases b <;>
      simp [accepts, algoBitmask, Algo.val, bitmask_all, algOf, initSt]
  exact key _ _ _ _

theorem init_facts (argv0 : List Byte) :
    let st := initMain argv0
    st.benchmarkMode = false ∧ st.fileCheckMode = false ∧ st.strictMode = false ∧ st.statusOnly = false ∧ st.warn = false ∧
    st.ignoreMissing = false ∧ st.explicitStdin = false ∧ st.selectBenchIDs = 0 ∧ st.keySize = 102400 ∧
    st.littleEndian = false ∧ st.bsd = false ∧ st.nbIterations = 3 ∧ st.logLevel = 2 ∧
    st.testIDs = List.replicate 29 false ∧ algOf st.algo = (Spec.Cli.namedAlg argv0).getD .xxh64 ∧
    ∀ a, accepts st.algoBitmask a = true ↔ ∀ x, Spec.Cli.namedAlg argv0 = some x → algOf a = x := by
  obtain ⟨a, mask, h, h1, h2⟩ := init_eq argv0
  rw [h]
  exact ⟨rfl, rfl, rfl, rfl, rfl, rfl, rfl, rfl, rfl, rfl, rfl, rfl, rfl, rfl, h1, h2⟩

/-! ### C41 -/

/-- What `-i#`, `-B#` and `-H#` say. -/
def iterationsOf : Opt → Option Nat
  | .iterations n => some n
  | _ => none
def blockSizeOf : Opt → Option Nat
  | .blockSize n => some n
  | _ => none
def algorithmOf : Opt → Option Spec.Cli.Alg
  | .algorithm n => Spec.Cli.algorithmOf n
  | _ => none

/-- **C41.** Every command line can be read. -/
theorem C41_readable (args : List (List Byte)) : ∃ os files, CommandLine args os files := commandLine_exists args

theorem live_split {os : List Opt} {o : Opt} (ho : os[(Spec.Cli.live os).length]? = some o) :
    ∃ post, os = Spec.Cli.live os ++ o :: post := by
  have hp : Spec.Cli.live os <+: os := List.takeWhile_prefix _
  obtain ⟨r, hr⟩ := hp
  cases r with
  | nil =>
    rw [List.append_nil] at hr
    rw [hr, List.getElem?_eq_none (by omega)] at ho
    cases ho
  | cons x r =>
    refine ⟨r, ?_⟩
    have : os[(Spec.Cli.live os).length]? = some x := by
      have := List.getElem?_append_right (l₁ := Spec.Cli.live os) (l₂ := x :: r) (Nat.le_refl _)
      rw [hr, Nat.sub_self] at this
      exact this
    rw [this] at ho
    cases ho
    exact hr.symm

theorem live_none (os : List Opt) : ∀ o ∈ Spec.Cli.live os, Spec.Cli.ends o = none := by
  intro o ho
  have := List.all_takeWhile (p := fun o => (Spec.Cli.ends o).isNone) (l := os)
  have := List.all_eq_true.mp this o ho
  simpa using this

theorem live_next {os : List Opt} {o : Opt} (ho : os[(Spec.Cli.live os).length]? = some o) :
    ∃ c, Spec.Cli.ends o = some c := by
  induction os with
  | nil => simp at ho
  | cons x os ih =>
    by_cases hx : (Spec.Cli.ends x).isNone = true
    · have hl : Spec.Cli.live (x :: os) = x :: Spec.Cli.live os := by
        exact List.takeWhile_cons_of_pos (p := fun o => (Spec.Cli.ends o).isNone) hx
      rw [hl] at ho
      exact ih (by simpa using ho)
    · have hl : Spec.Cli.live (x :: os) = [] := by
        exact List.takeWhile_cons_of_neg (p := fun o => (Spec.Cli.ends o).isNone) hx
      rw [hl] at ho
      simp at ho
      subst ho
      cases he : Spec.Cli.ends x with
      | none => rw [he] at hx; exact absurd rfl hx
      | some c => exact ⟨c, rfl⟩

/-- **C41**, options that end the program: the first one (help or version: 0; unknown options, unknown algorithms and
numbers that are too large: 1) decides the exit code, whatever follows; only the version calls for the self-test. -/
theorem C41_ends (console : Bool) (argv0 : List Byte) {args : List (List Byte)} {os : List Opt}
    {files : Option (List (List Byte))} (h : CommandLine args os files)
    (hb : ∀ o ∈ Spec.Cli.live os, ¬ OutOfBounds o) (hq : (Spec.Cli.live os).count .quiet ≤ 2 ^ 31 + 2)
    {o : Opt} (ho : os[(Spec.Cli.live os).length]? = some o) :
    ∃ c, Spec.Cli.ends o = some c ∧ endsWith (xsumMain console argv0 args) = some c ∧
      (∀ a, xsumMain console argv0 args = .ok a → ∃ s, a = .stop s ∧ (s = .version ↔ o = .version)) ∧
      ∀ k, xsumMain console argv0 args = .exit k → k = 1 := by
  obtain ⟨c, hc⟩ := live_next ho
  obtain ⟨post, hpost⟩ := live_split ho
  have hi := init_facts argv0
  refine ⟨c, hc, ?_⟩
  unfold xsumMain
  rw [argsLoop_eq h]
  have hu := (steps_until (post := post) (fun o ho => ⟨live_none os o ho, fun hbad => hb o ho ((outOfBounds_iff o).mpr hbad)⟩)
    (st := initMain argv0) (by rw [hi.2.2.2.2.2.2.2.2.2.2.2.2.2.1]; rfl)
    (by rw [hi.2.2.2.2.2.2.2.2.2.2.2.2.1]; omega)).1 c hc
  rw [← hpost] at hu
  rcases hu with ⟨s, h1, h2, hu⟩ | ⟨hu, h1⟩
  · rw [hu]
    refine ⟨congrArg some h1, fun a ha => ?_, fun k hk => by cases hk⟩
    injection ha with ha
    exact ⟨s, ha.symm, h2⟩
  · rw [hu]
    exact ⟨rfl, fun a ha => (by cases ha), fun k hk => by injection hk with hk; rw [← hk, h1]⟩

/-- **C41**, all other command lines: what the program does, in terms of the options given and the file names. The order
of options does not matter except that the last `-H#`, `-i#`, `-B#` and benchmark selection count. -/
theorem C41_command (console : Bool) (argv0 : List Byte) {args : List (List Byte)} {os : List Opt}
    {files : Option (List (List Byte))} (h : CommandLine args os files)
    (hn : ∀ o ∈ os, Spec.Cli.ends o = none) (hb : ∀ o ∈ os, ¬ OutOfBounds o) (hq : os.count .quiet ≤ 2 ^ 31 + 2) :
    -- benchmarks
    ((∃ o ∈ os, Spec.Cli.selects o ≠ none) → ∃ ids it bs,
      xsumMain console argv0 args = .ok (.bench ids it bs (2 - os.count .quiet) files) ∧ ids.length = 29 ∧ (∀ i, ids[i]? = some true ↔ Spec.Cli.Runs os i) ∧
      it.toNat = (Spec.Cli.lastOf iterationsOf os).getD 3 ∧ bs.toNat = (Spec.Cli.lastOf blockSizeOf os).getD 102400) ∧
    ((∀ o ∈ os, Spec.Cli.selects o = none) →
      -- nothing to do
      (files = none ∧ console = true ∧ .stdin ∉ os → endsWith (xsumMain console argv0 args) = some 1) ∧
      (¬ (files = none ∧ console = true ∧ .stdin ∉ os) →
        -- verify checksum files
        (.check ∈ os → ∃ opts, xsumMain console argv0 args = .ok (.check (files.getD []) opts) ∧
          (opts.littleEndian = true ↔ .littleEndian ∈ os) ∧ (opts.strictMode = true ↔ .strict ∈ os) ∧
          (opts.statusOnly = true ↔ .status ∈ os) ∧ (opts.ignoreMissing = true ↔ .ignoreMissing ∈ os) ∧
          (opts.warn = true ↔ .warn ∈ os) ∧ (opts.quiet = true ↔ .quiet ∈ os) ∧
          ∀ a, accepts opts.algoBitmask a = true ↔ ∀ x, Spec.Cli.namedAlg argv0 = some x → algOf a = x) ∧
        -- list files
        (.check ∉ os → ∃ a, xsumMain console argv0 args =
            .ok (.hash (files.getD []) a (decide (.littleEndian ∈ os)) (decide (.tag ∈ os))) ∧
          algOf a = (Spec.Cli.lastOf algorithmOf os).getD ((Spec.Cli.namedAlg argv0).getD .xxh64)))) := by
  obtain ⟨i1, i2, i3, i4, i5, i6, i7, i8, i9, i10, i11, i12, i13, i14, i15, i16⟩ := init_facts argv0
  have hlen : (initMain argv0).testIDs.length = 29 := by rw [i14]; rfl
  have hrun : xsumMain console argv0 args = .ok (decideAction console (os.foldl upd (initMain argv0)) files) := by
    unfold xsumMain
    rw [argsLoop_eq h, steps_ok os _ (fun o ho => ⟨hn o ho, fun hbad => hb o ho ((outOfBounds_iff o).mpr hbad)⟩) hlen
      (by rw [i13]; omega)]
    rfl
  rw [hrun]
  -- the variables
  have flag : ∀ (get : MainSt → Bool) (x : Opt), get (initMain argv0) = false →
      (∀ st o, get (upd st o) = (get st || decide (o = x))) →
      get (os.foldl upd (initMain argv0)) = decide (x ∈ os) := by
    intro get x h0 hu
    rw [fold_flag get (fun o => decide (o = x)) hu, h0, Bool.false_or, Bool.eq_iff_iff]
    simp
  have upds : ∀ (st : MainSt) (o : Opt), (upd st o).fileCheckMode = (st.fileCheckMode || decide (o = .check)) ∧
      (upd st o).strictMode = (st.strictMode || decide (o = .strict)) ∧
      (upd st o).statusOnly = (st.statusOnly || decide (o = .status)) ∧
      (upd st o).ignoreMissing = (st.ignoreMissing || decide (o = .ignoreMissing)) ∧
      (upd st o).warn = (st.warn || decide (o = .warn)) ∧
      (upd st o).explicitStdin = (st.explicitStdin || decide (o = .stdin)) ∧
      (upd st o).littleEndian = (st.littleEndian || decide (o = .littleEndian)) ∧
      (upd st o).bsd = (st.bsd || decide (o = .tag)) ∧
      (upd st o).benchmarkMode = (st.benchmarkMode || (Spec.Cli.selects o).isSome) ∧
      (upd st o).algoBitmask = st.algoBitmask := by
    intro st o
    cases o with
    | benchId n => unfold upd; simp only; split <;> simp [Spec.Cli.selects]
    | algorithm n => unfold upd; simp only; split <;> simp [Spec.Cli.selects]
    | _ => simp [upd, Spec.Cli.selects]
  have f1 := flag (·.fileCheckMode) .check i2 (fun st o => (upds st o).1)
  have f2 := flag (·.strictMode) .strict i3 (fun st o => (upds st o).2.1)
  have f3 := flag (·.statusOnly) .status i4 (fun st o => (upds st o).2.2.1)
  have f4 := flag (·.ignoreMissing) .ignoreMissing i6 (fun st o => (upds st o).2.2.2.1)
  have f5 := flag (·.warn) .warn i5 (fun st o => (upds st o).2.2.2.2.1)
  have f6 := flag (·.explicitStdin) .stdin i7 (fun st o => (upds st o).2.2.2.2.2.1)
  have f7 := flag (·.littleEndian) .littleEndian i10 (fun st o => (upds st o).2.2.2.2.2.2.1)
  have f8 := flag (·.bsd) .tag i11 (fun st o => (upds st o).2.2.2.2.2.2.2.1)
  have f9 := fold_flag (·.benchmarkMode) (fun o => (Spec.Cli.selects o).isSome) (fun st o => (upds st o).2.2.2.2.2.2.2.2.1)
    os (initMain argv0)
  have f10 : (os.foldl upd (initMain argv0)).algoBitmask = (initMain argv0).algoBitmask := by
    have : ∀ (os : List Opt) (st : MainSt), (os.foldl upd st).algoBitmask = st.algoBitmask := by
      intro os
      induction os with
      | nil => intro st; rfl
      | cons o os ih => intro st; rw [List.foldl_cons, ih, (upds st o).2.2.2.2.2.2.2.2.2]
    exact this os _
  have f11 := fold_logLevel os (initMain argv0)
  have lim : ∀ o ∈ os, ∀ n, (o = .iterations n ∨ o = .blockSize n ∨ o = .benchId n ∨ o = .algorithm n) → n < 2 ^ 32 := by
    intro o ho n hon
    have := hn o ho
    have small : ∀ {n : Nat}, (if Spec.Cli.numberLimit ≤ n then some 1 else none) = none → n < 2 ^ 32 := by
      intro n hh
      split at hh
      · cases hh
      · rename_i hh'; unfold Spec.Cli.numberLimit at hh'; omega
    rcases hon with rfl | rfl | rfl | rfl
    · exact small this
    · exact small this
    · exact small this
    · simp only [Spec.Cli.ends] at this
      split at this
      · cases this
      · rename_i hne
        by_contra hge
        apply hne
        unfold Spec.Cli.algorithmOf
        split <;> first | omega | rfl
  have g1 := fold_last (fun st => st.nbIterations.toNat) iterationsOf os (initMain argv0) (by
    intro o ho st
    cases o with
    | iterations n =>
      show (BitVec.ofNat 32 n).toNat = n
      rw [BitVec.toNat_ofNat, Nat.mod_eq_of_lt (lim _ ho n (.inl rfl))]
    | benchId n => unfold upd; simp only; split <;> rfl
    | algorithm n => unfold upd; simp only; split <;> rfl
    | _ => rfl)
  have g2 := fold_last (fun st => st.keySize.toNat) blockSizeOf os (initMain argv0) (by
    intro o ho st
    cases o with
    | blockSize n =>
      show (BitVec.ofNat 32 n).toNat = n
      rw [BitVec.toNat_ofNat, Nat.mod_eq_of_lt (lim _ ho n (.inr (.inl rfl)))]
    | benchId n => unfold upd; simp only; split <;> rfl
    | algorithm n => unfold upd; simp only; split <;> rfl
    | _ => rfl)
  have g3 := fold_last (fun st => algOf st.algo) algorithmOf os (initMain argv0) (by
    intro o ho st
    cases o with
    | algorithm n =>
      have := algoOfNumber_eq (lim _ ho n (.inr (.inr (.inr rfl))))
      show algOf (match algoOfNumber (BitVec.ofNat 32 n) with | some a => { st with algo := a } | none => st).algo =
        (Spec.Cli.algorithmOf n).getD _
      rw [← this]
      cases algoOfNumber (BitVec.ofNat 32 n) <;> rfl
    | benchId n => unfold upd; simp only; split <;> rfl
    | _ => rfl)
  let num : Option Nat → BitVec 32 := fun x => match x with
    | none => 99
    | some n => BitVec.ofNat 32 n
  have g4 := fold_last (·.selectBenchIDs) (fun o => (Spec.Cli.selects o).map num) os (initMain argv0) (by
    intro o ho st
    cases o with
    | benchId n =>
      unfold upd Spec.Cli.selects Spec.Cli.benchmarks
      simp only
      split <;> rfl
    | algorithm n => unfold upd; simp only; split <;> rfl
    | _ => rfl)
  rw [lastOf_map, i8] at g4
  have g5 := fold_testIDs os (initMain argv0) hlen
  have g6 := fold_testIDs_length os (initMain argv0)
  rw [i1, Bool.false_or] at f9
  generalize os.foldl upd (initMain argv0) = st at *
  refine ⟨?_, fun hnb => ?_⟩
  · rintro ⟨o, ho, hs⟩
    have hbm : st.benchmarkMode = true := by
      rw [f9, List.any_eq_true]
      exact ⟨o, ho, Option.isSome_iff_ne_none.mpr hs⟩
    unfold decideAction
    rw [if_pos hbm]
    have hl : ∃ x, Spec.Cli.lastOf Spec.Cli.selects os = some x ∧ ∀ n, x = some n → n < 29 ∧ .benchId n ∈ os := by
      unfold Spec.Cli.lastOf
      cases hh : (os.filterMap Spec.Cli.selects).getLast? with
      | none =>
        rw [List.getLast?_eq_none_iff, List.filterMap_eq_nil_iff] at hh
        exact absurd (hh o ho) hs
      | some x =>
        refine ⟨x, rfl, fun n hx => ?_⟩
        obtain ⟨o', ho', hx'⟩ := List.mem_filterMap.mp (List.mem_of_getLast? hh)
        subst hx
        cases o' with
        | benchId m =>
          unfold Spec.Cli.selects Spec.Cli.benchmarks at hx'
          simp only [Option.some.injEq] at hx'
          split at hx'
          · cases hx'; exact ⟨by assumption, ho'⟩
          · cases hx'
        | benchAll => cases hx'
        | _ => cases hx'
    obtain ⟨x, hx, hx'⟩ := hl
    rw [hx] at g4
    rw [f11, i13]
    refine ⟨_, _, _, rfl, ?_, ?_, by rw [g1, i12]; rfl, by rw [g2, i9]; rfl⟩
    · split
      · rfl
      · split
        · rfl
        · rw [g6, hlen]
    · intro i
      unfold Spec.Cli.Runs Spec.Cli.benchmarks
      rw [hx]
      cases x with
      | none =>
        rw [if_pos (by rw [g4]; rfl)]
        show (List.replicate 29 true)[i]? = some true ↔ i < 29 ∧ True
        rw [List.getElem?_replicate]
        by_cases hi : i < 29 <;> simp [hi]
      | some n =>
        obtain ⟨hn29, hmem⟩ := hx' n rfl
        have hsel : st.selectBenchIDs = BitVec.ofNat 32 n := g4
        rw [if_neg (by
          rw [hsel]
          intro e
          have := congrArg BitVec.toNat e
          rw [BitVec.toNat_ofNat, Nat.mod_eq_of_lt (by omega)] at this
          rw [show kBenchAll.toNat = 99 from rfl] at this
          omega)]
        cases n with
        | zero =>
          rw [if_pos (by rw [hsel]; rfl)]
          show testIDs_default[i]? = some true ↔ i < 29 ∧ i ∈ Spec.Cli.defaultBenchmarks
          by_cases hi : i < 29
          · have : ∀ j : Fin 29, testIDs_default[j.val]? = some true ↔ j.val < 29 ∧ j.val ∈ Spec.Cli.defaultBenchmarks := by
              decide +kernel
            exact this ⟨i, hi⟩
          · rw [List.getElem?_eq_none (by rw [show testIDs_default.length = 29 from rfl]; omega)]
            simp [hi]
        | succ m =>
          rw [if_neg (by
            rw [hsel]
            intro e
            have := congrArg BitVec.toNat e
            rw [BitVec.toNat_ofNat, Nat.mod_eq_of_lt (by omega)] at this
            simp at this)]
          show st.testIDs[i]? = some true ↔ i < 29 ∧ .benchId i ∈ os
          by_cases hi : i < 29
          · rw [g5 i hi, i14]
            have : (List.replicate 29 false)[i]? = some false := by rw [List.getElem?_replicate, if_pos hi]
            rw [this]
            constructor
            · rintro (h | h)
              · cases h
              · exact ⟨hi, h⟩
            · exact fun h => .inr h.2
          · rw [List.getElem?_eq_none (by rw [g6, hlen]; omega)]
            simp [hi]
  · have hbm : st.benchmarkMode = false := by
      rw [f9, List.any_eq_false]
      intro o ho
      rw [hnb o ho]; simp
    unfold decideAction
    rw [if_neg (by rw [hbm]; simp)]
    have hstd : st.explicitStdin = false ↔ .stdin ∉ os := by rw [f6]; simp
    refine ⟨fun hd => ?_, fun hd => ?_⟩
    · rw [if_pos ⟨hd.1, hd.2.1, hstd.mpr hd.2.2⟩]; rfl
    · rw [if_neg (fun hc => hd ⟨hc.1, hc.2.1, hstd.mp hc.2.2⟩)]
      refine ⟨fun hc => ?_, fun hc => ?_⟩
      · simp only
        rw [if_pos (by rw [f1]; simpa using hc)]
        refine ⟨_, rfl, by simp only [f7]; simp, by simp only [f2]; simp, by simp only [f3]; simp, by simp only [f4]; simp,
          by simp only [f5]; simp, ?_, by simp only [f10]; exact i16⟩
        simp only [f11, i13, decide_eq_true_eq]
        rw [← List.count_pos_iff]
        omega
      · simp only
        rw [if_neg (by rw [f1]; simpa using hc), f7, f8]
        exact ⟨st.algo, rfl, by rw [g3, i15]⟩

/-- Undefined behaviour of a command line. -/
def isUB {α : Type} : Res α → Bool
  | .ub => true
  | _ => false

/-- `xxh128sum -cqH2 --tag -- -c`: several letters share a dash, and `-c` behind `--` is a file. -/
theorem exArgs : CommandLine [Spec.Cli.txt "-cqH2", Spec.Cli.txt "--tag", Spec.Cli.txt "--", Spec.Cli.txt "-c"]
    [.check, .quiet, .algorithm 2, .tag] (some [Spec.Cli.txt "-c"]) := by
  have hn : Spec.Cli.NumberAt (Spec.Cli.txt "2") (Spec.Cli.txt "2") 1 [] :=
    .plain (digits := Spec.Cli.txt "2") (by decide) (by simp) (by simp) (by simp)
  have hc : Spec.Cli.Cluster (Spec.Cli.txt "cqH2") [.check, .quiet, .algorithm 2] :=
    .letter (by decide) (.letter (by decide) (.number (f := .algorithm) (by unfold Spec.Cli.numbers; exact List.mem_cons_self) hn .nil))
  exact .short (t := Spec.Cli.txt "cqH2") (os1 := [.check, .quiet, .algorithm 2]) (by decide) (by decide) hc
    (.long (by decide) (.dashes (files := [Spec.Cli.txt "-c"])))

example : ∃ opts, xsumMain true (Spec.Cli.txt "/usr/bin/xxh128sum")
    [Spec.Cli.txt "-cqH2", Spec.Cli.txt "--tag", Spec.Cli.txt "--", Spec.Cli.txt "-c"] = .ok (.check [Spec.Cli.txt "-c"] opts) ∧
    opts.quiet = true ∧ opts.strictMode = false := by
  obtain ⟨opts, h1, _, h2, _, _, _, h3, _⟩ := ((C41_command true (Spec.Cli.txt "/usr/bin/xxh128sum") exArgs (by decide)
    (by simp [OutOfBounds]) (by decide)).2 (by decide)).2 (by decide) |>.1 (by decide)
  refine ⟨opts, h1, h3.mpr (by decide), ?_⟩
  cases hs : opts.strictMode with
  | false => rfl
  | true => exact absurd (h2.mp hs) (by decide)

/-- **C41**, a finding: the manual says that a file `-` stands for standard input. Behind another file name it is the
file with the name `-`, and in front of one it has no effect. -/
theorem C41_dash_is_no_file (console : Bool) (argv0 f : List Byte) (hf : f.head? ≠ some 0x2d) :
    (∃ a, xsumMain console argv0 [f, Spec.Cli.txt "-"] = .ok (.hash [f, Spec.Cli.txt "-"] a false false)) ∧
    (∃ a, xsumMain console argv0 [Spec.Cli.txt "-", f] = .ok (.hash [f] a false false)) := by
  constructor
  · obtain ⟨a, h, _⟩ := ((C41_command console argv0 (.files (files := [Spec.Cli.txt "-"]) hf) (by simp) (by simp)
      (by simp)).2 (by simp)).2 (by simp) |>.2 (by simp)
    exact ⟨a, h⟩
  · have hc : CommandLine [Spec.Cli.txt "-", f] [.stdin] (some [f]) := .long (by decide) (.files hf)
    obtain ⟨a, h, _⟩ := ((C41_command console argv0 hc (by decide) (by simp [OutOfBounds])
      (by decide)).2 (by decide)).2 (by simp) |>.2 (by decide)
    exact ⟨a, h⟩

/-! ### C36 -/

/-- **C36** does not hold: a benchmark number from 2^31 to 4294967289 is mistaken for a negative number, passes the
comparison, and is used as an index into the table. -/
theorem C36_out_of_bounds : isUB (xsumMain true (Spec.Cli.txt "xxhsum") [Spec.Cli.txt "-b3000000000"]) = true := by
  decide +kernel

/-- **C36**, exactly which command lines have undefined behaviour: those with such a number in front of any option that
ends the program (the number of `-q` being within reason). -/
theorem C36_exactly (console : Bool) (argv0 : List Byte) {args : List (List Byte)} {os : List Opt}
    {files : Option (List (List Byte))} (h : CommandLine args os files)
    (hq : (Spec.Cli.live os).count .quiet ≤ 2 ^ 31 + 2) :
    isUB (xsumMain console argv0 args) = true ↔ ∃ o ∈ Spec.Cli.live os, OutOfBounds o := by
  classical
  constructor
  · intro hub
    by_contra hno
    have hb : ∀ o ∈ Spec.Cli.live os, ¬ OutOfBounds o := fun o ho hbad => hno ⟨o, ho, hbad⟩
    cases hnext : os[(Spec.Cli.live os).length]? with
    | some o =>
      obtain ⟨c, _, hc, _⟩ := C41_ends console argv0 h hb hq hnext
      cases hx : xsumMain console argv0 args with
      | ub => rw [hx] at hc; cases hc
      | exit c => rw [hx] at hub; cases hub
      | ok a => rw [hx] at hub; cases hub
    | none =>
      have hall : Spec.Cli.live os = os := by
        obtain ⟨r, hr⟩ : Spec.Cli.live os <+: os := List.takeWhile_prefix _
        rw [List.getElem?_eq_none_iff] at hnext
        have := congrArg List.length hr
        rw [List.length_append] at this
        rw [List.length_eq_zero_iff.mp (show r.length = 0 by omega), List.append_nil] at hr
        exact hr
      have hn := live_none os
      rw [hall] at hb hq hn
      have hcmd := C41_command console argv0 h hn hb hq
      by_cases hs : ∃ o ∈ os, Spec.Cli.selects o ≠ none
      · obtain ⟨ids, it, bs, hx, _⟩ := hcmd.1 hs
        rw [hx] at hub; cases hub
      · have hs' : ∀ o ∈ os, Spec.Cli.selects o = none := fun o ho => by
          by_contra hne; exact hs ⟨o, ho, hne⟩
        by_cases hd : files = none ∧ console = true ∧ .stdin ∉ os
        · have := (hcmd.2 hs').1 hd
          cases hx : xsumMain console argv0 args with
          | ub => rw [hx] at this; cases this
          | exit c => rw [hx] at hub; cases hub
          | ok a => rw [hx] at hub; cases hub
        · have := (hcmd.2 hs').2 hd
          by_cases hc : .check ∈ os
          · obtain ⟨opts, hx, _⟩ := this.1 hc
            rw [hx] at hub; cases hub
          · obtain ⟨a, hx, _⟩ := this.2 hc
            rw [hx] at hub; cases hub
  · rintro ⟨o, ho, hbad⟩
    -- the first of them
    have first : ∀ l : List Opt, (∃ o ∈ l, OutOfBounds o) →
        ∃ pre o post, l = pre ++ o :: post ∧ OutOfBounds o ∧ ∀ x ∈ pre, ¬ OutOfBounds x := by
      intro l
      induction l with
      | nil => rintro ⟨o, ho, _⟩; cases ho
      | cons x l ih =>
        rintro ⟨o, ho, hbad⟩
        by_cases hx : OutOfBounds x
        · exact ⟨[], x, l, rfl, hx, by simp⟩
        · rcases List.mem_cons.mp ho with rfl | ho
          · exact absurd hbad hx
          · obtain ⟨pre, y, post, h1, h2, h3⟩ := ih ⟨o, ho, hbad⟩
            refine ⟨x :: pre, y, post, by rw [h1]; rfl, h2, fun z hz => ?_⟩
            rcases List.mem_cons.mp hz with rfl | hz
            · exact hx
            · exact h3 z hz
    obtain ⟨pre, y, post, h1, h2, h3⟩ := first _ ⟨o, ho, hbad⟩
    obtain ⟨r, hr⟩ : Spec.Cli.live os <+: os := List.takeWhile_prefix _
    have hos : os = pre ++ y :: (post ++ r) := by rw [← hr, h1]; simp
    have hi := init_facts argv0
    unfold xsumMain
    rw [argsLoop_eq h]
    have hu := (steps_until (pre := pre) (o := y) (post := post ++ r) (st := initMain argv0)
      (fun x hx => ⟨live_none os x (by rw [h1]; exact List.mem_append_left _ hx), fun hb => h3 x hx ((outOfBounds_iff x).mpr hb)⟩)
      (by rw [hi.2.2.2.2.2.2.2.2.2.2.2.2.2.1]; rfl)
      (by
        rw [hi.2.2.2.2.2.2.2.2.2.2.2.2.1]
        rw [h1, List.count_append] at hq
        omega)).2 ((outOfBounds_iff y).mp h2)
    rw [← hos] at hu
    rw [hu]
    rfl

/-- **C36**, what remains: with benchmark numbers below 2^31 the table is never left. Missing is the range from 2^31 to
4294967289, for which the property is false. -/
theorem C36_in_bounds_partial (console : Bool) (argv0 : List Byte) {args : List (List Byte)} {os : List Opt}
    {files : Option (List (List Byte))} (h : CommandLine args os files) (hb : ∀ n, .benchId n ∈ os → n < 2 ^ 31)
    (hq : os.count .quiet ≤ 2 ^ 31 + 2) : isUB (xsumMain console argv0 args) = false := by
  have hsub : (Spec.Cli.live os).Sublist os := (List.takeWhile_prefix _).sublist
  rw [← Bool.not_eq_true, C36_exactly console argv0 h (Nat.le_trans (hsub.count_le _) hq)]
  rintro ⟨o, ho, hbad⟩
  cases o with
  | benchId n => have := hb n (hsub.subset ho); obtain ⟨h1, _⟩ := hbad; omega
  | _ => cases hbad

example : (match xsumMain true (Spec.Cli.txt "xxhsum") [Spec.Cli.txt "-b3,28,5i1B2K"] with
    | .ok (.bench ids it bs 2 none) => decide (ids.count true = 3 ∧ it = 1 ∧ bs = 2048)
    | _ => false) = true := by decide +kernel

/-! ### C42 -/

/-- What the options say about the convention and the byte order. -/
structure Listing (argv0 : List Byte) (os : List Opt) (a : Algo) : Prop where
  goes : ∀ o ∈ os, Spec.Cli.ends o = none
  plain : ∀ o ∈ os, Spec.Cli.selects o = none
  few : os.count .quiet ≤ 2 ^ 31 + 2
  alg : algOf a = (Spec.Cli.lastOf algorithmOf os).getD ((Spec.Cli.namedAlg argv0).getD .xxh64)

theorem plain_in_bounds {os : List Opt} (h : ∀ o ∈ os, Spec.Cli.selects o = none) : ∀ o ∈ os, ¬ OutOfBounds o := by
  intro o ho hbad
  cases o with
  | benchId n => cases h _ ho
  | _ => cases hbad

/-- **C42.** A run `xxhsum options files`: exit code 0 exactly if every file can be opened and is no directory, and the
output is one line per such file, in order, in the selected format (with memory and no read error). -/
theorem C42_list {env : Env} (hE : EnvOk env) {w : World} (hw : SmallFiles w) (hm : false ∉ w.mem) (console : Bool)
    {argv0 : List Byte} {args : List (List Byte)} {os : List Opt} {names : List (List Byte)} {a : Algo}
    (h : CommandLine args os (some names)) (hl : Listing argv0 os a) (hc : .check ∉ os) (hn : names ≠ [])
    (hr : ∀ n ∈ names, ∀ f, w.files n = some f → f.fail = false) :
    ∃ w', program env w console argv0 args = .ok (some
      (if ∀ n ∈ names, w.isDir n = false ∧ w.files n ≠ none then 0 else 1,
        [.text (listing w a (decide (.littleEndian ∈ os)) (decide (.tag ∈ os)) names)], w')) := by
  obtain ⟨a', hx, ha⟩ := ((C41_command console argv0 h hl.goes (plain_in_bounds hl.plain) hl.few).2 hl.plain).2
    (by simp) |>.2 hc
  rw [← hl.alg] at ha
  obtain rfl : a' = a := algOf_inj ha
  obtain ⟨w', hh⟩ := C35_files hE hw hn hm hr a' (decide (.littleEndian ∈ os)) (decide (.tag ∈ os))
  refine ⟨w', ?_⟩
  unfold program
  rw [hx]
  show hashFiles env w names a' _ _ >>= _ = _
  rw [hh]
  rfl

/-- **C42**, two runs: `xxhsum options files > sums`, then `xxhsum options --check sums` at a later time and possibly by
another name, with the same `--little-endian` unless the list was made with `--tag`. The second run ends with exit code
0 exactly if no file has a changed hash, no file is missing (unless ignored), and at least one file was verified. -/
theorem C42_list_then_check {env : Env} (hE : EnvOk env) {w1 w2 : World} (hw1 : SmallFiles w1) (hw2 : SmallFiles w2)
    (hs2 : w2.stdin.data.length < 2 ^ 64) (hm1 : false ∉ w1.mem) (hm2 : false ∉ w2.mem) (console : Bool)
    {argv0 argv0' : List Byte} {args args' : List (List Byte)} {os os' : List Opt} {names : List (List Byte)}
    {sums : List Byte} {a b : Algo}
    (h : CommandLine args os (some names)) (hl : Listing argv0 os a) (hc : .check ∉ os) (hn : names ≠ [])
    (h' : CommandLine args' os' (some [sums])) (hl' : Listing argv0' os' b) (hc' : .check ∈ os')
    (hsame : .tag ∈ os ∨ (.littleEndian ∈ os ↔ .littleEndian ∈ os'))
    (hname : ∀ x, Spec.Cli.namedAlg argv0' = some x → algOf a = x)
    (hn2 : names.length < 2 ^ env.ulongBits - 1)
    (hx : ∀ x ∈ names, (0 : Byte) ∉ x ∧ x ≠ Spec.Cli.txt "stdin" ∧ w1.isDir x = false ∧
      (∃ f, w1.files x = some f ∧ f.fail = false ∧ (Spec.Cli.recordLine (decide (.tag ∈ os)) (decide (.littleEndian ∈ os))
        ⟨algOf a, Spec.Cli.hashOf (algOf a) f.data, x⟩).length ≤ 32767) ∧
      ∀ g, w2.files x = some g → g.fail = false) :
    ∃ output w1', program env w1 console argv0 args = .ok (some (0, [.text output], w1')) ∧
      ∀ f, w2.files sums = some f → f.data = output →
        ∃ code out w2', program env w2 console argv0' args' = .ok (some (code, out, w2')) ∧
          (code = 0 ↔ (∀ x ∈ names, fate w1 w2 a x = .ok x ∨ (.ignoreMissing ∈ os' ∧ fate w1 w2 a x = .missing x)) ∧
            ∃ x ∈ names, fate w1 w2 a x = .ok x) := by
  obtain ⟨w1', hrun⟩ := C42_list hE hw1 hm1 console h hl hc hn (fun x hxn f hf => by
    obtain ⟨_, _, _, ⟨f', h1, h2, _⟩, _⟩ := hx x hxn
    rw [hf] at h1; cases h1; exact h2)
  rw [if_pos (fun x hxn => by
    obtain ⟨_, _, h1, ⟨f', h2, _⟩, _⟩ := hx x hxn
    exact ⟨h1, by rw [h2]; simp⟩)] at hrun
  refine ⟨_, w1', hrun, fun f hf hd => ?_⟩
  obtain ⟨opts, hm, o1, _, _, o4, _, _, o7⟩ :=
    ((C41_command console argv0' h' hl'.goes (plain_in_bounds hl'.plain) hl'.few).2 hl'.plain).2 (by simp) |>.1 hc'
  obtain ⟨output, w1'', e1, e2⟩ := C39_list_then_check hE hw1 hw2 hs2 hm1 hm2 opts a (decide (.littleEndian ∈ os))
    (decide (.tag ∈ os)) (fun ht => by
      rcases hsame with hs | hs
      · simp [hs] at ht
      · rw [Bool.eq_iff_iff, o1, ← hs]; simp) ((o7 a).mpr hname) hn hn2 hx
  have hout : output = listing w1 a (decide (.littleEndian ∈ os)) (decide (.tag ∈ os)) names := by
    obtain ⟨w', hh⟩ := C35_files hE hw1 hn hm1 (fun x hxn f hf => by
      obtain ⟨_, _, _, ⟨f', h1, h2, _⟩, _⟩ := hx x hxn
      rw [hf] at h1; cases h1; exact h2) a (decide (.littleEndian ∈ os)) (decide (.tag ∈ os))
    rw [e1] at hh
    simp only [Res.ok.injEq, Prod.mk.injEq] at hh
    exact hh.2.1
  obtain ⟨ok, w2', k1, k2⟩ := e2 sums f hf (by rw [hd, hout])
  refine ⟨if ok then 0 else 1, report opts (names.map (fate w1 w2 a)), w2', ?_, ?_⟩
  · unfold program
    rw [hm]
    show (checkFilesLoop env opts [sums] w2 true [] >>= _) >>= _ = _
    unfold checkFilesLoop
    rw [k1]
    show (checkFilesLoop env opts [] w2' (true && ok) ([] ++ _) >>= _) >>= _ = _
    simp only [Bool.true_and, List.nil_append]
    rfl
  · simp only [o4] at k2
    rw [← k2]
    cases ok <;> simp

example : Listing (Spec.Cli.txt "xxhsum") [.algorithm 0, .littleEndian] .xxh32 :=
  ⟨by decide, by decide, by decide, by decide⟩

theorem exLater_run : (match program exEnv exLater true (Spec.Cli.txt "xxhsum")
      [Spec.Cli.txt "--little-endian", Spec.Cli.txt "-c", Spec.Cli.txt "sums"] with
    | .ok (some (code, out, _)) => decide (code = 1 ∧ out =
        [.text (Spec.Cli.txt "e: OK\n"), .text (Spec.Cli.txt "ab: FAILED\n"), .mismatched 1])
    | _ => false) = true := by decide +kernel

end XXH.Props
