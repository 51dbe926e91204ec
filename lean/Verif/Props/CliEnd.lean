import Verif.Props.CliFile
/-!
xxhsum from end to end: C39 (a printed list verifies), C40 (what `--quiet` and `--status` change).
-/
namespace XXH.Props
open Model.Cli CliP Examples

/-! ### C39 -/

/-- What becomes of a file between the listing in `w1` and the verification in `w2`. -/
def fate (w1 w2 : World) (a : Algo) (n : List Byte) : Spec.Cli.Outcome :=
  match w1.files n, w2.files n with
  | some f, some g => if Spec.Cli.hashOf (algOf a) f.data = Spec.Cli.hashOf (algOf a) g.data then .ok n else .mismatch n
  | _, _ => .missing n

/-- The first line of a text that starts with a record. -/
theorem recordLine_first {bsd le rev : Bool} {a : Algo} {mask : BitVec 32} {d n : List Byte} (h0 : (0 : Byte) ∉ n)
    (hl : d.length = algoLength a) (hr : bsd = false → rev = le) (hm : accepts mask a = true) (rest : List Byte) :
    ∃ L, Spec.Cli.recordLine bsd le ⟨algOf a, d, n⟩ = L ++ [0x0a] ∧
      Spec.Cli.firstLine (Spec.Cli.recordLine bsd le ⟨algOf a, d, n⟩ ++ rest) = L ∧
      Spec.Cli.otherLines (Spec.Cli.recordLine bsd le ⟨algOf a, d, n⟩ ++ rest) = rest ∧ L.head? ≠ some 0x23 ∧
      Spec.Cli.Parses rev (Allowed mask) (L.takeWhile (· ≠ 0)) ⟨algOf a, d, n⟩ := by
  obtain ⟨L, e, h1, h2, h3, h5, h4, hp⟩ := print_parses (bsd := bsd) (le := le) (rev := rev) (mask := mask) h0 hl hr hm
  rw [displayLine_eq bsd le n hl, Option.some.injEq] at e
  have hsplit : ∀ L : List Byte, cNL ∉ L → Spec.Cli.firstLine (L ++ [0x0a] ++ rest) = L ∧
      Spec.Cli.otherLines (L ++ [0x0a] ++ rest) = rest := by
    intro L
    induction L with
    | nil => intro _; exact firstLine_nl rest
    | cons c L ih =>
      intro hL
      have hc : c ≠ 0x0a := fun h => hL (by rw [h]; exact List.mem_cons_self)
      obtain ⟨i1, i2⟩ := ih (fun h => hL (List.mem_cons_of_mem _ h))
      obtain ⟨j1, j2⟩ := firstLine_cons (d := L ++ [0x0a] ++ rest) hc
      exact ⟨by rw [List.cons_append, List.cons_append, j1, i1], by rw [List.cons_append, List.cons_append, j2, i2]⟩
  obtain ⟨s1, s2⟩ := hsplit L h1
  have htw : L.takeWhile (· ≠ 0) = L := by
    clear e hp s1 s2 h4 h2 h5
    induction L with
    | nil => rfl
    | cons c L ih =>
      have hc : c ≠ 0 := fun h => h3 (by rw [h]; exact List.mem_cons_self)
      rw [List.takeWhile_cons_of_pos (by simpa using hc),
        ih (fun h => h1 (List.mem_cons_of_mem _ h)) (fun h => h3 (List.mem_cons_of_mem _ h))]
  refine ⟨L, e, by rw [e]; exact s1, by rw [e]; exact s2, h4, ?_⟩
  rw [htw]
  exact hp

theorem listing_checks {env : Env} {opts : CheckOpts} {w1 w2 : World} {a : Algo} {le bsd : Bool}
    (hr : bsd = false → opts.littleEndian = le) (hm : accepts opts.algoBitmask a = true) (stdin : List Byte) :
    ∀ (names : List (List Byte)) (n : Nat), n + names.length < 2 ^ env.ulongBits - 1 →
      (∀ x ∈ names, (0 : Byte) ∉ x ∧ x ≠ Spec.Cli.txt "stdin" ∧ w1.isDir x = false ∧
        (∃ f, w1.files x = some f ∧
          (Spec.Cli.recordLine bsd le ⟨algOf a, Spec.Cli.hashOf (algOf a) f.data, x⟩).length ≤ 32767) ∧
        ∀ g, w2.files x = some g → g.fail = false) →
      Spec.Cli.Checks (circumstances env opts w2) n ⟨some (listing w1 a le bsd names), stdin⟩ (names.map (fate w1 w2 a))
        .complete ⟨some [], stdin⟩ := by
  intro names
  induction names with
  | nil => intro n hn _; exact .complete hn rfl
  | cons x names ih =>
    intro n hn hx
    obtain ⟨x0, xs, xd, ⟨f, xf, xl⟩, xg⟩ := hx x (by simp)
    simp only [List.length_cons] at hn
    have hlist : listing w1 a le bsd (x :: names) =
        Spec.Cli.recordLine bsd le ⟨algOf a, Spec.Cli.hashOf (algOf a) f.data, x⟩ ++ listing w1 a le bsd names := by
      simp [listing, xd, xf]
    obtain ⟨L, e1, e2, e3, e4, e5⟩ := recordLine_first (rev := opts.littleEndian) (mask := opts.algoBitmask) x0
      (hashOf_length a f.data) hr hm (listing w1 a le bsd names)
    have hlen : L.length ≤ 32766 := by rw [e1] at xl; simp at xl; omega
    have hrest : Spec.Cli.Source.rest ⟨some (listing w1 a le bsd (x :: names)), stdin⟩ = listing w1 a le bsd (x :: names) := rfl
    have hne : listing w1 a le bsd (x :: names) ≠ [] := by rw [hlist, e1]; simp
    have hnt : ¬ Spec.Cli.TooLong (listing w1 a le bsd (x :: names)) := by
      unfold Spec.Cli.TooLong
      rw [hlist, e2]
      omega
    have hlook : ∀ s : Spec.Cli.Source, Spec.Cli.lookup (circumstances env opts w2) s x = stateOf (w2.files x) := by
      intro s; unfold Spec.Cli.lookup; rw [if_neg xs]; rfl
    have haft : ∀ s : Spec.Cli.Source, s.afterReading x = s := by
      intro s; unfold Spec.Cli.Source.afterReading; rw [if_neg xs]
    have hcs : (circumstances env opts w2).maxLines = 2 ^ env.ulongBits - 1 := rfl
    refine .line (by rw [hcs]; omega) hne hnt (s' := ⟨some (listing w1 a le bsd names), stdin⟩) ?_
      (ih (n + 1) (by omega) (fun y hy => hx y (List.mem_cons_of_mem _ hy)))
    rw [hrest, hlist, e2, e3]
    show Spec.Cli.LineMeans _ ⟨some (listing w1 a le bsd names), stdin⟩ _ _ _
    unfold fate
    rw [xf]
    cases hg : w2.files x with
    | none =>
      have hl0 : Spec.Cli.lookup (circumstances env opts w2) ⟨some (listing w1 a le bsd names), stdin⟩ x = .missing := by
        rw [hlook, hg]; rfl
      exact Spec.Cli.LineMeans.missing (c := circumstances env opts w2) (e := ⟨_, _, x⟩) e4 e5 hl0
    | some g =>
      have hl1 : Spec.Cli.lookup (circumstances env opts w2) ⟨some (listing w1 a le bsd names), stdin⟩ x = .content g.data := by
        rw [hlook, hg]; simp [stateOf, xg g hg]
      simp only
      by_cases hd : Spec.Cli.hashOf (algOf a) f.data = Spec.Cli.hashOf (algOf a) g.data
      · rw [if_pos hd]
        have := Spec.Cli.LineMeans.ok (c := circumstances env opts w2) (s := ⟨some (listing w1 a le bsd names), stdin⟩) e4 e5
          hl1 hd
        rwa [haft] at this
      · rw [if_neg hd]
        have := Spec.Cli.LineMeans.mismatch (c := circumstances env opts w2) (s := ⟨some (listing w1 a le bsd names), stdin⟩) e4 e5
          hl1 hd
        rwa [haft] at this

/-- **C39.** `xxhsum` lists the files `names` in one world, its output is stored in a file `sums`, and `xxhsum --check`
verifies it in another world (with the same display convention, enough memory, and no read error). Then the exit code of
the listing is 0, every file gets the outcome it deserves (`fate`), the report says so, and the verdict is success
exactly if every file (that is not missing and ignored) still has the same hash, and at least one has.

Excluded are names the format cannot express: `stdin`, which means standard input, and names for which the line exceeds
32767 bytes. -/
theorem C39_list_then_check {env : Env} (hE : EnvOk env) {w1 w2 : World} (hw1 : SmallFiles w1) (hw2 : SmallFiles w2)
    (hs2 : w2.stdin.data.length < 2 ^ 64) (hm1 : false ∉ w1.mem) (hm2 : false ∉ w2.mem) (opts : CheckOpts) (a : Algo)
    (le bsd : Bool) (hr : bsd = false → opts.littleEndian = le) (ha : accepts opts.algoBitmask a = true)
    {names : List (List Byte)} (hn : names ≠ []) (hn2 : names.length < 2 ^ env.ulongBits - 1)
    (hx : ∀ x ∈ names, (0 : Byte) ∉ x ∧ x ≠ Spec.Cli.txt "stdin" ∧ w1.isDir x = false ∧
      (∃ f, w1.files x = some f ∧ f.fail = false ∧
        (Spec.Cli.recordLine bsd le ⟨algOf a, Spec.Cli.hashOf (algOf a) f.data, x⟩).length ≤ 32767) ∧
      ∀ g, w2.files x = some g → g.fail = false) :
    ∃ output w1', hashFiles env w1 names a le bsd = .ok (0, output, w1') ∧
      ∀ sums f, w2.files sums = some f → f.data = output →
        ∃ ok w2', checkFile env w2 (some sums) opts = .ok (ok, report opts (names.map (fate w1 w2 a)), w2') ∧
          (ok = true ↔ (∀ x ∈ names, fate w1 w2 a x = .ok x ∨ (opts.ignoreMissing = true ∧ fate w1 w2 a x = .missing x)) ∧
            ∃ x ∈ names, fate w1 w2 a x = .ok x) := by
  obtain ⟨w1', hh⟩ := C35_files hE hw1 hn hm1 (fun x hxn f hf => by
    obtain ⟨_, _, _, ⟨f', h1, h2, _⟩, _⟩ := hx x hxn
    rw [hf] at h1; cases h1; exact h2) a le bsd
  rw [if_pos (fun x hxn => by
    obtain ⟨_, _, h1, ⟨f', h2, _⟩, _⟩ := hx x hxn
    exact ⟨h1, by rw [h2]; simp⟩)] at hh
  refine ⟨_, w1', hh, fun sums f hf hd => ?_⟩
  have hch := listing_checks (env := env) (opts := opts) (w1 := w1) (w2 := w2) (a := a) (le := le) (bsd := bsd) hr ha
    w2.stdin.data names 0 (by omega) (fun x hxn => by
      obtain ⟨h1, h2, h3, ⟨f', h4, h5, h6⟩, h7⟩ := hx x hxn
      exact ⟨h1, h2, h3, ⟨f', h4, h6⟩, h7⟩)
  have hhead : ∀ l : List Bool, false ∉ l → l.headD true = true := by
    intro l hl
    cases hh : l.headD true with
    | true => rfl
    | false => exact absurd (headD_false hh) hl
  have hmt : false ∉ w2.mem.tail := fun h => hm2 (List.mem_of_mem_tail h)
  obtain ⟨os, e, src', h1, h2, h3⟩ := C33_verdict hE opts hw2 hs2 (some sums) (some f.data) ⟨f, hf, rfl⟩
    ⟨hhead _ hm2, hhead _ hmt⟩
  rw [hd] at h1
  obtain ⟨rfl, rfl⟩ := C33_determined env opts w2 (fun h => hm2 ((List.drop_suffix _ _).subset h)) h1 hch
  obtain ⟨ok, w', g1, g2, _⟩ := h3 (by simp)
  refine ⟨ok, w', g1, g2.trans ?_⟩
  have hshape : ∀ x, fate w1 w2 a x = .ok x ∨ fate w1 w2 a x = .mismatch x ∨ fate w1 w2 a x = .missing x := by
    intro x
    unfold fate
    split
    · split
      · exact .inl rfl
      · exact .inr (.inl rfl)
    · exact .inr (.inr rfl)
  unfold Spec.Cli.Success
  simp only [List.mem_map, exists_exists_and_eq_and, forall_exists_index, and_imp, forall_apply_eq_imp_iff₂]
  constructor
  · rintro ⟨_, ⟨y, hy, _⟩, k2, k3, k4, _⟩
    have hall : ∀ x ∈ names, fate w1 w2 a x = .ok x ∨ (opts.ignoreMissing = true ∧ fate w1 w2 a x = .missing x) := by
      intro x hxn
      rcases hshape x with h | h | h
      · exact .inl h
      · have := k2 x hxn; rw [h] at this; cases this
      · cases hi : opts.ignoreMissing with
        | true => exact .inr ⟨rfl, h⟩
        | false => have := k3 hi x hxn; rw [h] at this; cases this
    refine ⟨hall, ?_⟩
    cases hi : opts.ignoreMissing with
    | false =>
      rcases hall y hy with h | ⟨h, _⟩
      · exact ⟨y, hy, h⟩
      · rw [hi] at h; cases h
    | true =>
      obtain ⟨z, hz, hzo⟩ := k4 hi
      rcases hshape z with h | h | h
      · exact ⟨z, hz, h⟩
      · rw [h] at hzo; cases hzo
      · rw [h] at hzo; cases hzo
  · rintro ⟨k1, y, hy, k2⟩
    refine ⟨trivial, ⟨y, hy, by rw [k2]; rfl⟩, ?_, ?_, fun _ => ⟨y, hy, by rw [k2]; rfl⟩, ?_⟩
    · intro x hxn; rcases k1 x hxn with h | ⟨_, h⟩ <;> rw [h] <;> rfl
    · intro hi x hxn
      rcases k1 x hxn with h | ⟨h', h⟩
      · rw [h]; rfl
      · rw [hi] at h'; cases h'
    · intro _ x hxn; rcases k1 x hxn with h | ⟨_, h⟩ <;> rw [h] <;> rfl

/-- **C39**, unchanged files: everything is reported as OK. -/
theorem C39_unchanged {w1 w2 : World} {a : Algo} {names : List (List Byte)}
    (h : ∀ x ∈ names, ∃ f g, w1.files x = some f ∧ w2.files x = some g ∧ f.data = g.data) :
    (∀ x ∈ names, fate w1 w2 a x = .ok x) ∧
    ∀ opts : CheckOpts, report { opts with statusOnly := false, quiet := false, ignoreMissing := false }
      (names.map (fate w1 w2 a)) =
      names.map fun x => .text (Spec.Cli.marker x ++ Spec.Cli.shownName x ++ Spec.Cli.txt ": OK\n") := by
  have h1 : ∀ x ∈ names, fate w1 w2 a x = .ok x := by
    intro x hx
    obtain ⟨f, g, e1, e2, e3⟩ := h x hx
    simp [fate, e1, e2, e3]
  refine ⟨h1, fun opts => ?_⟩
  have h2 : names.map (fate w1 w2 a) = names.map .ok := List.map_congr_left h1
  rw [h2]
  have hc : ∀ p : Spec.Cli.Outcome → Bool, (∀ x, p (.ok x) = false) → (names.map Spec.Cli.Outcome.ok).countP p = 0 := by
    intro p hp
    rw [List.countP_eq_zero]
    intro o ho
    obtain ⟨x, _, rfl⟩ := List.mem_map.mp ho
    rw [hp]; simp
  unfold report totals nothingVerified
  rw [hc (·.isMalformed) (fun _ => rfl), hc (·.isMissing) (fun _ => rfl), hc (·.isMismatch) (fun _ => rfl)]
  have hm : ∀ (names : List (List Byte)) (n : Nat), (((names.map Spec.Cli.Outcome.ok).zipIdx n).flatMap fun p =>
      message { opts with statusOnly := false, quiet := false, ignoreMissing := false } p.2 p.1) =
      names.map fun x => .text (Spec.Cli.marker x ++ Spec.Cli.shownName x ++ Spec.Cli.txt ": OK\n") := by
    intro names
    induction names with
    | nil => intro n; rfl
    | cons x names ih =>
      intro n
      rw [List.map_cons, List.zipIdx_cons, List.flatMap_cons, ih]
      rfl
  rw [hm]
  simp

/-- **C39**, a change that changes the hash of a file is a failure, reported with the file's name. -/
theorem C39_changed {w1 w2 : World} {a : Algo} {x : List Byte} {f g : Stream} (h1 : w1.files x = some f)
    (h2 : w2.files x = some g) (h : Spec.Cli.hashOf (algOf a) f.data ≠ Spec.Cli.hashOf (algOf a) g.data) :
    fate w1 w2 a x = .mismatch x := by simp [fate, h1, h2, h]

/-- The later world of the examples: `ab` now contains `ax`, and `sums` is the output of the listing. -/
def exLater : World where
  files n :=
    if n = Spec.Cli.txt "e" then some ⟨[], [], false⟩
    else if n = Spec.Cli.txt "ab" then some ⟨Spec.Cli.txt "ax", [], false⟩
    else if n = Spec.Cli.txt "sums" then
      some ⟨listing exWorld .xxh32 true false [Spec.Cli.txt "e", Spec.Cli.txt "ab"], [], false⟩
    else none
  isDir _ := false
  stdin := ⟨[], [], false⟩
  mem := []

/-- The hypotheses of `C39_list_then_check` about the names hold for `e` and `ab`. -/
example : ∀ x ∈ [Spec.Cli.txt "e", Spec.Cli.txt "ab"], (0 : Byte) ∉ x ∧ x ≠ Spec.Cli.txt "stdin" ∧ exWorld.isDir x = false ∧
    (∃ f, exWorld.files x = some f ∧ f.fail = false ∧
      (Spec.Cli.recordLine false true ⟨algOf .xxh32, Spec.Cli.hashOf (algOf .xxh32) f.data, x⟩).length ≤ 32767) ∧
    ∀ g, exLater.files x = some g → g.fail = false := by
  intro x hx
  simp only [List.mem_cons, List.not_mem_nil, or_false] at hx
  rcases hx with rfl | rfl
  · refine ⟨by decide, by decide, rfl, ⟨⟨[], [], false⟩, rfl, rfl, by decide +kernel⟩, fun g hg => ?_⟩
    cases hg; rfl
  · refine ⟨by decide, by decide, rfl, ⟨⟨Spec.Cli.txt "ab", [1, 0], false⟩, rfl, rfl, by decide +kernel⟩, fun g hg => ?_⟩
    cases hg; rfl

example : [Spec.Cli.txt "e", Spec.Cli.txt "ab"].map (fate exWorld exLater .xxh32) =
    [.ok (Spec.Cli.txt "e"), .mismatch (Spec.Cli.txt "ab")] := by decide +kernel

example : result (checkFile exEnv exLater (some (Spec.Cli.txt "sums")) ⟨true, false, false, false, false, false, bitmask_all⟩) =
    some (false, [.text (Spec.Cli.txt "e: OK\n"), .text (Spec.Cli.txt "ab: FAILED\n"), .mismatched 1]) := by decide +kernel

/-! ### C40 -/

/-- **C40.** The verdict does not depend on `--quiet`, `--status` and `--warn` (with enough memory). -/
theorem C40_verdict_independent {env : Env} (hE : EnvOk env) (opts : CheckOpts) (status quiet warn : Bool) {w : World}
    (hw : SmallFiles w) (hs : w.stdin.data.length < 2 ^ 64) (hm : false ∉ w.mem) (name : Option (List Byte)) :
    checkFile env w name { opts with statusOnly := status, quiet := quiet, warn := warn } = .exit 1 ∧
      checkFile env w name opts = .exit 1 ∨
    ∃ ok out out' w1 w2, checkFile env w name { opts with statusOnly := status, quiet := quiet, warn := warn } = .ok (ok, out, w1) ∧
      checkFile env w name opts = .ok (ok, out', w2) := by
  have hhead : ∀ l : List Bool, false ∉ l → l.headD true = true := by
    intro l hl
    cases hh : l.headD true with
    | true => rfl
    | false => exact absurd (headD_false hh) hl
  have hmt : false ∉ w.mem.tail := fun h => hm (List.mem_of_mem_tail h)
  have main : ∀ text : Option (List Byte),
      (match name with | none => text = none | some n => ∃ f, w.files n = some f ∧ text = some f.data) →
      checkFile env w name { opts with statusOnly := status, quiet := quiet, warn := warn } = .exit 1 ∧
        checkFile env w name opts = .exit 1 ∨
      ∃ ok out out' w1 w2, checkFile env w name { opts with statusOnly := status, quiet := quiet, warn := warn } =
        .ok (ok, out, w1) ∧ checkFile env w name opts = .ok (ok, out', w2) := by
    intro text ht
    obtain ⟨os, e, src, a1, a2, a3⟩ := C33_verdict hE opts hw hs name text ht ⟨hhead _ hm, hhead _ hmt⟩
    obtain ⟨os', e', src', b1, b2, b3⟩ := C33_verdict hE { opts with statusOnly := status, quiet := quiet, warn := warn }
      hw hs name text ht ⟨hhead _ hm, hhead _ hmt⟩
    obtain ⟨rfl, rfl⟩ := C33_determined env opts w (fun h => hm ((List.drop_suffix _ _).subset h)) a1 b1
    by_cases he : e = .readError
    · exact .inl ⟨b2 he, a2 he⟩
    · obtain ⟨ok, w', c1, c2, _⟩ := a3 he
      obtain ⟨ok', w'', d1, d2, _⟩ := b3 he
      have : ok = ok' := by
        have := c2.trans d2.symm
        cases ok <;> cases ok' <;> simp_all
      subst this
      exact .inr ⟨ok, _, _, _, _, d1, c1⟩
  cases name with
  | none => exact main none rfl
  | some n =>
    cases hf : w.files n with
    | none => exact .inr ⟨_, _, _, _, _, (C33_no_file env _ w n).1 hf, (C33_no_file env _ w n).1 hf⟩
    | some f => exact main (some f.data) ⟨f, hf, rfl⟩

/-- **C40**, `--quiet` only drops the lines that say OK. -/
theorem C40_quiet (opts : CheckOpts) (os : List Spec.Cli.Outcome) :
    report { opts with quiet := true } os =
      (os.zipIdx 1).flatMap (fun p => if p.1.isOk then [] else message opts p.2 p.1) ++ totals opts os ++
        nothingVerified opts os := by
  have h : (fun p : Spec.Cli.Outcome × Nat => message { opts with quiet := true } p.2 p.1) =
      fun p => if p.1.isOk then [] else message opts p.2 p.1 := by
    funext p
    cases hp : p.1 <;> simp [message, Spec.Cli.Outcome.isOk]
  unfold report
  rw [h]
  rfl

/-- **C40**, `--status` suppresses everything but the message that no file was verified, which only `--ignore-missing`
can cause. -/
theorem C40_status (opts : CheckOpts) (os : List Spec.Cli.Outcome) (hs : opts.statusOnly = true) :
    report opts os = (if opts.ignoreMissing = true ∧ ∀ o ∈ os, o.isOk = false then [.noneVerified] else []) ∧
    (opts.ignoreMissing = false → report opts os = []) := by
  have h : report opts os = nothingVerified opts os := by
    unfold report totals
    have : ∀ n (o : Spec.Cli.Outcome), message opts n o = [] := by
      intro n o; cases o <;> simp [message, hs]
    simp [this, hs]
  exact ⟨h, fun hi => by rw [h]; simp [nothingVerified, hi]⟩

/-- **C40**, a finding: with `--ignore-missing` as well, a message is printed if no file could be verified, although
`--status` promises no output. -/
theorem C40_status_not_silent : ∃ (opts : CheckOpts) (out : List Out), opts.statusOnly = true ∧ out ≠ [] ∧
    result (checkFile exEnv exWorld none opts) = some (false, out) :=
  ⟨⟨false, false, true, true, false, false, bitmask_all⟩, [.noneVerified], rfl, by simp, by decide +kernel⟩

/-! ### The theorems applied -/

example : fate exWorld exLater .xxh32 (Spec.Cli.txt "ab") = .mismatch (Spec.Cli.txt "ab") :=
  C39_changed (f := ⟨Spec.Cli.txt "ab", [1, 0], false⟩) (g := ⟨Spec.Cli.txt "ax", [], false⟩) rfl rfl (by decide +kernel)

example : fate exWorld exLater .xxh128 (Spec.Cli.txt "e") = .ok (Spec.Cli.txt "e") :=
  (C39_unchanged (names := [Spec.Cli.txt "e"]) (by
    intro x hx
    rw [List.mem_singleton.mp hx]
    exact ⟨⟨[], [], false⟩, ⟨[], [], false⟩, rfl, rfl, rfl⟩)).1 _ (List.mem_singleton.mpr rfl)

example (os : List Spec.Cli.Outcome) : report ⟨false, false, true, false, false, false, bitmask_all⟩ os = [] :=
  (C40_status _ os rfl).2 rfl

end XXH.Props
