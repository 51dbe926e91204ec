import Verif.Proof.IncludeRun
/-!
**C62.** Including xxhash.h, once or several times, with or without `XXH_INLINE_ALL`, `XXH_NAMESPACE`, `XXH_STATIC_LINKING_ONLY` and
`XXH_IMPLEMENTATION`, in any order and interleaved with other inclusions: the unit compiles, every function of the interface has one
name, and units with different prefixes can be linked together.
-/
namespace XXH.Props
open Model.Include XXH.Include
open XXH.Proof.IncludeP

/-- **C62.** The lists of the header agree: each function of the interface is declared once, in the stable or in the advanced part,
is defined once by the implementation, and is renamed by `XXH_NAMESPACE`. Its name is its own. -/
theorem C62_lists :
    (∀ f : Fn, (mainFns ++ staticFns).count f = 1 ∧ implFns.count f = 1 ∧ nsFns.count f = 1) ∧
    (∀ f g : Fn, f.name = g.name → f = g) ∧
    (∀ t : Ty, (mainTys ++ staticTys).count t = 1) ∧ (∀ t u : Ty, t.name = u.name → t = u) := by
  refine ⟨?_, fun f g h => name_inj h, ?_, ?_⟩
  · intro f; cases f <;> decide +kernel
  · intro t; cases t <;> decide +kernel
  · intro t u h
    have : ∀ a ∈ mainTys ++ staticTys, ∀ b ∈ mainTys ++ staticTys, a.name = b.name → a = b := by decide +kernel
    refine this t ?_ u ?_ h
    · cases t <;> decide +kernel
    · cases u <;> decide +kernel

/-- **C62 (finding).** Three functions are missing in the list of `#undef`s before inlining. (It does no harm, `C62_no_conflict`:
they can only be defined in the way they are defined afterwards.) -/
theorem C62_undef_incomplete (f : Fn) :
    f ∉ undefFns ↔ f = .XXH3_64bits_reset_withSecretandSeed ∨ f = .XXH3_generateSecret_fromSeed ∨
      f = .XXH3_128bits_withSecretandSeed := by
  cases f <;> decide +kernel

/-- **C62.** Names with prefixes are different if the prefixes or the functions are, whatever the prefixes are. -/
theorem C62_prefixes (p q : String) (f g : Fn) (h : p ++ f.name = q ++ g.name) : p = q ∧ f = g := prefixed_inj h

/-- The names of no two functions are equal up to prefixes although many begin alike. -/
example : "XXH_INLINE_" ++ Fn.XXH3_64bits.name ≠ "my_" ++ Fn.XXH64.name := fun h => by
  have := (C62_prefixes _ _ _ _ h).2; cases this

/-! ## Any sequence of inclusions -/

private theorem valid_keeps {l : List Step} (h : Valid l) : ∃ one, ∀ t ∈ l, Keeps one t := by
  rcases h with h | h
  · exact ⟨false, h⟩
  · exact ⟨true, h⟩

/-- **C62.** No macro is redefined differently, however often and with whatever macros the headers are included (unless
`XXH_IMPLEMENTATION` is defined as `1` and something is inlined). -/
theorem C62_no_conflict {l : List Step} (h : Valid l) : (run l).isSome = true := by
  obtain ⟨one, hk⟩ := valid_keeps h
  obtain ⟨s, e, -⟩ := run_good l hk
  rw [e]; rfl

/-- tests/multiInclude.c, and more. -/
example : Valid [.xxhash, .set .staticLinkingOnly false, .xxhash, .setNamespace "TESTN_", .xxhash, .dispatch,
    .set .inlineAll true, .xxhash, .set .privateApi false, .xxhash, .dispatch] := by
  left; intro t ht; simp at ht; rcases ht with h | h | h | h | h | h | h | h | h | h | h <;> simp [h]

example : (run [.xxhash, .set .staticLinkingOnly false, .xxhash, .setNamespace "TESTN_", .xxhash, .dispatch,
    .set .inlineAll true, .xxhash, .set .privateApi false, .xxhash, .dispatch]).isSome = true := by decide +kernel

/-- **C62 (finding).** With `-DXXH_IMPLEMENTATION` on the command line, which gives it the value `1`, `XXH_INLINE_ALL` makes the
header define it again with another value. -/
theorem C62_conflict (b : Bool) :
    run [.set .implementation true, .set .inlineAll b, .xxhash] = none ∧
      run [.set .implementation true, .set .privateApi b, .xxhash] = none := by
  cases b <;> exact ⟨Option.isNone_iff_eq_none.1 (by decide +kernel), Option.isNone_iff_eq_none.1 (by decide +kernel)⟩

/-- The names of types that may be seen twice. -/
private theorem types_table (b : Bool) : ∀ n ∈ plainNames b ++ inlNames,
    (plainNames b ++ inlNames).count n ≤ if n = "XXH32_hash_t" ∨ n = "XXH64_hash_t" then 2 else 1 := by
  cases b <;> decide +kernel

private theorem types_table' (b : Bool) : ∀ n ∈ plainNames b, (plainNames b).count n ≤ 1 := by
  cases b <;> decide +kernel

private theorem inl_table : ∀ n ∈ inlNames, inlNames.count n ≤ 1 := by decide +kernel

private theorem count_of_mem {l : List String} {k : String → Nat} (h : ∀ n ∈ l, l.count n ≤ k n) (n : String) : l.count n ≤ k n := by
  by_cases hn : n ∈ l
  · exact h n hn
  · rw [List.count_eq_zero_of_not_mem hn]; exact Nat.zero_le _

/-- **C62.** No type and no enumerator is defined twice in a unit, whatever the sequence of inclusions; only the names `XXH32_hash_t`
and `XXH64_hash_t` for integer types may be given twice. Neither is the part of the implementation that is not in the interface. -/
theorem C62_types_once {l : List Step} (h : Valid l) :
    ∃ s, run l = some s ∧ internals s.out ≤ 1 ∧
      ∀ n, (types s.out).count n ≤ if n = "XXH32_hash_t" ∨ n = "XXH64_hash_t" then 2 else 1 := by
  obtain ⟨one, hk⟩ := valid_keeps h
  obtain ⟨s, e, hG, -⟩ := run_good l hk
  have weak : ∀ n : String, 1 ≤ if n = "XXH32_hash_t" ∨ n = "XXH64_hash_t" then 2 else 1 := by
    intro n; split <;> decide
  refine ⟨s, e, ?_, ?_⟩
  · rcases hG with h | ⟨-, -, h⟩ | ⟨-, -, h⟩
    · rw [h.out]; decide
    · rw [h]; split <;> decide
    · rw [h]; exact Nat.le_refl 1
  · intro n
    rcases hG with h | ⟨-, h, -⟩ | ⟨-, h | ⟨b, h⟩, -⟩
    · rw [h.out, types_nil, List.count_nil]; exact Nat.zero_le _
    · rw [h]; exact Nat.le_trans (count_of_mem (types_table' _) n) (weak n)
    · rw [h]; exact Nat.le_trans (count_of_mem inl_table n) (weak n)
    · rw [h]; exact count_of_mem (types_table b) n

/-- They are given twice: plain inclusion and then inlining. In C99 this is an error; C11 and C++ allow it. -/
theorem C62_typedef_twice :
    (run [.xxhash, .set .inlineAll false, .xxhash]).map (fun s => (types s.out).count "XXH64_hash_t") = some 2 := by decide +kernel

/-- **C62.** No function of the interface is defined twice in a unit that does not use xxh_x86dispatch.h. -/
theorem C62_functions_once {l : List Step} (h : Valid l) (hd : ∀ t ∈ l, t ≠ .dispatch) :
    ∃ s, run l = some s ∧ (definitions s.out).Nodup := by
  obtain ⟨one, hk⟩ := valid_keeps h
  obtain ⟨s, e, -, -, hu⟩ := run_good l hk
  exact ⟨s, e, (hu hd).2.2⟩

/-- There are definitions. -/
example : (run [.setNamespace "a_", .xxhash, .set .staticLinkingOnly true, .set .implementation true, .xxhash, .setNamespace "b_",
    .xxhash]).map (fun s => ((definitions s.out).length, (definitions s.out).count "a_XXH128_cmp")) = some (49, 1) := by decide +kernel

/-- **C62 (finding).** With it, a function may be defined twice: after xxh_x86dispatch.h, `XXH128` and `XXH3_128bits_withSeed` have
the same name. -/
theorem C62_dispatch_twice :
    (run [.dispatch, .set .staticLinkingOnly false, .set .implementation false, .xxhash]).map (fun s =>
      (definitions s.out).count "XXH3_128bits_withSeed_dispatch") = some 2 := by decide +kernel

/-! ## Units that do not inline the library -/

private theorem nodup_decl : (mainFns ++ staticFns).Nodup := by decide +kernel

private theorem nodup_main : mainFns.Nodup := by decide +kernel

private theorem count_symbol (ns : Option String) {l : List Fn} (hl : l.Nodup) {f : Fn} (hf : f ∈ l) :
    (l.map (symbol ns)).count (symbol ns f) = 1 := by
  have h1 : (l.map (symbol ns)).Nodup := nodup_prefixed (ns.getD "") hl
  rw [h1.count, if_pos (List.mem_map.2 ⟨f, hf, rfl⟩)]

private theorem not_mem_symbol (ns : Option String) {l : List Fn} {f : Fn} (hf : f ∉ l) : symbol ns f ∉ l.map (symbol ns) := by
  intro h
  obtain ⟨g, hg, e⟩ := List.mem_map.1 h
  exact hf ((prefixed_inj e).2 ▸ hg)

/-- What was declared and defined. -/
private theorem shape_facts {ns : Option String} {s : Pre} (h : Shape ns s) :
    (declarations s.out = mainFns.map (symbol ns) ∨ declarations s.out = (mainFns ++ staticFns).map (symbol ns)) ∧
      (s.env .guardStatic = some .empty → declarations s.out = (mainFns ++ staticFns).map (symbol ns)) ∧
      definitions s.out = externals s.out ∧
      (externals s.out = [] ∨ externals s.out = implFns.map (symbol ns)) ∧
      (s.env .guardImpl = some .empty → externals s.out = implFns.map (symbol ns)) := by
  obtain ⟨x, ho, hx⟩ := h
  rw [ho]
  simp only [declarations_append, definitions_append, externals_append, declarations_block, definitions_block, externals_block,
    List.nil_append, List.map_append]
  rcases hx with ⟨a, b, rfl⟩ | ⟨a, b, rfl⟩ | ⟨a, b, rfl⟩ | ⟨a, b, rfl | rfl⟩ <;>
    simp [a, b, declarations_append, definitions_append, externals_append, declarations_block, definitions_block, externals_block,
      declarations_bodies, definitions_bodies, externals_bodies_false, declarations_nil, definitions_nil, externals_nil]

/-- **C62.** In a unit that does not inline, with `XXH_NAMESPACE` defined before the first inclusion (or not at all), each function name
of the interface stands for the name with that prefix, type names for themselves; the functions of the stable part are declared once
under that name, those of the advanced part at most once; the functions defined are external; all of them are, or none. -/
theorem C62_ordinary (ns : Option String) (a c : List Step) (ha : ∀ t ∈ a, Ordinary t) (hc : ∀ t ∈ c, Ordinary t) :
    ∃ s, run (namespaced ns ++ a ++ .xxhash :: c) = some s ∧ (∀ f, s.resolve f = ns.getD "" ++ f.name) ∧
      (∀ t, s.resolveTy t = t.name) ∧
      (∀ f ∈ mainFns, (declarations s.out).count (ns.getD "" ++ f.name) = 1) ∧
      (∀ f ∈ staticFns, (declarations s.out).count (ns.getD "" ++ f.name) ≤ 1) ∧
      definitions s.out = externals s.out ∧
      (externals s.out = [] ∨ externals s.out = implFns.map fun f => ns.getD "" ++ f.name) := by
  obtain ⟨s, e, h, hm⟩ := ns_run ns a c ha hc
  obtain ⟨hP, hr, hsh⟩ := h.included hm
  obtain ⟨h1, -, h2, h3, -⟩ := shape_facts hsh
  refine ⟨s, e, fun f => by rw [hr]; rfl, plain_ty hP, ?_, ?_, h2, h3⟩
  · intro f hf
    rcases h1 with h1 | h1 <;> rw [h1]
    · exact count_symbol ns nodup_main hf
    · exact count_symbol ns nodup_decl (List.mem_append_left _ hf)
  · intro f hf
    rcases h1 with h1 | h1 <;> rw [h1]
    · refine Nat.le_trans (Nat.le_of_eq (List.count_eq_zero_of_not_mem (not_mem_symbol ns ?_))) (Nat.zero_le 1)
      exact fun hm => (List.nodup_append.1 nodup_decl).2.2 f hm f hf rfl
    · exact Nat.le_of_eq (count_symbol ns nodup_decl (List.mem_append_right _ hf))

example : ∀ t ∈ [Step.set .staticLinkingOnly true, .xxhash, .set .implementation true, .unset .inlineAll], Ordinary t := by
  intro t ht; simp at ht; rcases ht with h | h | h | h <;> simp [h, Ordinary]

/-- **C62.** With `XXH_STATIC_LINKING_ONLY` at some inclusion, all functions of the interface are declared, once each. -/
theorem C62_advanced (ns : Option String) (a c : List Step) (b : Bool) (ha : ∀ t ∈ a, Ordinary t) (hc : ∀ t ∈ c, Ordinary t) :
    ∃ s, run (namespaced ns ++ a ++ .set .staticLinkingOnly b :: .xxhash :: c) = some s ∧
      ∀ f : Fn, (declarations s.out).count (ns.getD "" ++ f.name) = 1 := by
  obtain ⟨s, e, h, hm, -, hst⟩ := ns_run_set ns a c .staticLinkingOnly b (by simp [Ordinary]) ha hc
  obtain ⟨-, -, hsh⟩ := h.included hm
  obtain ⟨-, h1, -⟩ := shape_facts hsh
  refine ⟨s, e, fun f => ?_⟩
  rw [h1 (hst rfl)]
  exact count_symbol ns nodup_decl (List.mem_append.2 (mem_decl f))

/-- **C62.** With `XXH_IMPLEMENTATION` at some inclusion, the unit gives all functions of the interface to the linker, each once, under
the names with the prefix, and no others. -/
theorem C62_implementation (ns : Option String) (a c : List Step) (b : Bool) (ha : ∀ t ∈ a, Ordinary t) (hc : ∀ t ∈ c, Ordinary t) :
    ∃ s, run (namespaced ns ++ a ++ .set .implementation b :: .xxhash :: c) = some s ∧
      (∀ f : Fn, (externals s.out).count (ns.getD "" ++ f.name) = 1) ∧ ∀ n ∈ externals s.out, ∃ f : Fn, n = ns.getD "" ++ f.name := by
  obtain ⟨s, e, h, hm, hi, -⟩ := ns_run_set ns a c .implementation b (by simp [Ordinary]) ha hc
  obtain ⟨-, -, hsh⟩ := h.included hm
  obtain ⟨-, -, -, -, h1⟩ := shape_facts hsh
  refine ⟨s, e, fun f => ?_, ?_⟩
  · rw [h1 (hi rfl)]; exact count_symbol ns nodup_implFns (mem_implFns f)
  · intro n hn
    rw [h1 (hi rfl)] at hn
    obtain ⟨f, -, rfl⟩ := List.mem_map.1 hn
    exact ⟨f, rfl⟩

/-- xxhash.c with and without a prefix. -/
theorem C62_xxhash_c (ns : Option String) :
    ∃ s, run (xxhash_c (namespaced ns)) = some s ∧
      (∀ f : Fn, (declarations s.out).count (ns.getD "" ++ f.name) = 1 ∧ (externals s.out).count (ns.getD "" ++ f.name) = 1) ∧
      ∃ before after, s.out = before ++ .internals :: after ∧ ∀ t : Ty, .type t.name ∈ before := by
  have hi' : ∀ t ∈ [Step.set .staticLinkingOnly false], Ordinary t := by simp [Ordinary]
  obtain ⟨s, e, h1, -⟩ := C62_implementation ns [.set .staticLinkingOnly false] [] false hi' (by simp)
  have hrun : run (xxhash_c (namespaced ns)) = some s := by
    rw [← e, xxhash_c, List.append_assoc]; rfl
  obtain ⟨s0, e0, h0, hF0⟩ := fresh_namespaced ns
  obtain ⟨s1, e1, o1, a1, x1⟩ := step_setting (t := .set .staticLinkingOnly false) trivial s0
  obtain ⟨s2, e2, o2, a2, x2⟩ := step_setting (t := .set .implementation false) trivial s1
  have hn1 : NS ns s1 := ns_setting (t := .set .staticLinkingOnly false) h0 ⟨by simp, by simp⟩ trivial o1 a1 x1
  have hn2 : NS ns s2 := ns_setting (t := .set .implementation false) hn1 ⟨by simp, by simp⟩ trivial o2 a2 x2
  have hF2 : Fresh s2 := (hF0.congr o1 (fun m hm => setting_opt x1 m hm)).congr o2 (fun m hm => setting_opt x2 m hm)
  obtain ⟨s3, e3, hP, ho, -, -, -, hx3⟩ := xxhash_h_first hF2 hn2.inl hn2.prv
  have hs : s3 = s := by
    rw [xxhash_c, run_append, e0] at hrun
    change [Step.set .staticLinkingOnly false, .set .implementation false, .xxhash].foldlM step s0 = some s at hrun
    rw [List.foldlM_cons, e1] at hrun
    change [Step.set .implementation false, .xxhash].foldlM step s1 = some s at hrun
    rw [List.foldlM_cons, e2] at hrun
    change [Step.xxhash].foldlM step s2 = some s at hrun
    rw [List.foldlM_cons, show step s2 .xxhash = some s3 from e3] at hrun
    exact Option.some.inj hrun
  subst hs
  have d1 : s2.defd .staticLinkingOnly = true := by
    rw [Pre.defd, x2 _ (by simp [about, Opt.macro]), show s1.env .staticLinkingOnly = _ from a1]; rfl
  have d2 : s2.defd .implementation = true := by
    rw [Pre.defd, show s2.env .implementation = _ from a2]; rfl
  rw [d1, d2, if_pos rfl, if_pos rfl] at ho
  refine ⟨s3, hrun, fun f => ⟨?_, h1 f⟩, mainEvents s3 ++ staticEvents s3, _, ho, fun t => ?_⟩
  · have hres : s3.resolve = symbol ns := by
      obtain ⟨s5, e5, h5, m5, -⟩ := ns_xxhash hn2
      obtain rfl : s5 = s3 := by rw [e3] at e5; exact (Option.some.inj e5).symm
      exact (h5.included m5).2.1
    rw [ho, main_block hP, static_block hP, impl_bodies hP, declarations_append, declarations_append, declarations_block,
      declarations_block, declarations_bodies, List.append_nil, ← List.map_append, hres]
    exact count_symbol ns nodup_decl (List.mem_append.2 (mem_decl f))
  · rw [main_block hP, static_block hP]
    have : t ∈ mainTys ∨ t ∈ staticTys := by cases t <;> decide +kernel
    rcases this with h | h
    · exact List.mem_append_left _ (List.mem_append_left _ (List.mem_map.2 ⟨t, h, rfl⟩))
    · exact List.mem_append_right _ (List.mem_append_left _ (List.mem_map.2 ⟨t, h, rfl⟩))

/-- **C62.** Any unit that does not inline can be linked with xxhash.c compiled with the same prefix: every call refers to a function
it defines. -/
theorem C62_link (ns : Option String) (a c : List Step) (ha : ∀ t ∈ a, Ordinary t) (hc : ∀ t ∈ c, Ordinary t) (a' c' : List Step)
    (b : Bool) (ha' : ∀ t ∈ a', Ordinary t) (hc' : ∀ t ∈ c', Ordinary t) :
    ∃ client lib, run (namespaced ns ++ a ++ .xxhash :: c) = some client ∧
      run (namespaced ns ++ a' ++ .set .implementation b :: .xxhash :: c') = some lib ∧
      ∀ f : Fn, client.resolve f ∈ externals lib.out := by
  obtain ⟨s, e, hr, -⟩ := C62_ordinary ns a c ha hc
  obtain ⟨l, e', h1, -⟩ := C62_implementation ns a' c' b ha' hc'
  refine ⟨s, l, e, e', fun f => ?_⟩
  rw [hr]
  exact List.one_le_count_iff.1 (Nat.le_of_eq (h1 f).symm)

/-- **C62.** Two libraries built with different prefixes have no symbol in common. -/
theorem C62_disjoint (ns ns' : Option String) (hne : ns.getD "" ≠ ns'.getD "") (a c a' c' : List Step) (ha : ∀ t ∈ a, Ordinary t)
    (hc : ∀ t ∈ c, Ordinary t) (ha' : ∀ t ∈ a', Ordinary t) (hc' : ∀ t ∈ c', Ordinary t) :
    ∃ s s', run (namespaced ns ++ a ++ .xxhash :: c) = some s ∧ run (namespaced ns' ++ a' ++ .xxhash :: c') = some s' ∧
      ∀ n ∈ externals s.out, n ∉ externals s'.out := by
  obtain ⟨s, e, -, -, -, -, -, h⟩ := C62_ordinary ns a c ha hc
  obtain ⟨s', e', -, -, -, -, -, h'⟩ := C62_ordinary ns' a' c' ha' hc'
  refine ⟨s, s', e, e', fun n hn hn' => ?_⟩
  rcases h with h | h <;> rw [h] at hn
  · cases hn
  · rcases h' with h' | h' <;> rw [h'] at hn'
    · cases hn'
    · obtain ⟨f, -, rfl⟩ := List.mem_map.1 hn
      obtain ⟨g, -, hg⟩ := List.mem_map.1 hn'
      exact hne (prefixed_inj hg).1.symm

/-- **C62 (finding).** `XXH_NAMESPACE` defined after the first inclusion has no effect, without notice. -/
theorem C62_late_namespace (a c : List Step) (ha : ∀ t ∈ a, Ordinary t) (hc : ∀ t ∈ c, Ordinary t) (p : String) :
    ∃ s, run (a ++ .xxhash :: c ++ [.setNamespace p, .xxhash]) = some s ∧ ∀ f, s.resolve f = f.name := by
  obtain ⟨s, e, h, hm⟩ := ns_run none a c ha hc
  rw [show namespaced none ++ a = a from rfl] at e
  obtain ⟨s1, e1, o1, a1, x1⟩ := step_setting (t := .setNamespace p) trivial s
  rcases h.phase with hF | ⟨hP, hf, -⟩
  · rw [hF.main] at hm; cases hm
  · have hP1 : Plain s1 := hP.congr (fun m hm => setting_opt x1 m hm)
    obtain ⟨s2, e2, -, -, -, -, x2⟩ := xxhash_h_again hP1 (by rw [x1 _ (by simp [about]), h.inl]) (by rw [x1 _ (by simp [about]), h.prv])
    refine ⟨s2, ?_, fun f => ?_⟩
    · rw [run_append, e]
      show [Step.setNamespace p, .xxhash].foldlM step s = _
      rw [List.foldlM_cons, e1]
      show [Step.xxhash].foldlM step s1 = _
      rw [List.foldlM_cons, show step s1 .xxhash = some s2 from e2]
      rfl
    · rw [Pre.resolve, x2 _ (by simp) (by simp), x1 _ (by simp [about]), hf]
      rfl

/-- **C62 (finding).** `XXH_NAMESPACE` changed after the first inclusion: the function names stand for names that were never
declared. -/
theorem C62_changed_namespace (p q : String) (hpq : p ≠ q) (a c : List Step) (ha : ∀ t ∈ a, Ordinary t) (hc : ∀ t ∈ c, Ordinary t) :
    ∃ s, run (.setNamespace p :: a ++ .xxhash :: c ++ [.setNamespace q]) = some s ∧
      ∀ f, s.resolve f = q ++ f.name ∧ s.resolve f ∉ declarations s.out := by
  obtain ⟨s, e, h, hm⟩ := ns_run (some p) a c ha hc
  rw [show namespaced (some p) ++ a = .setNamespace p :: a from rfl] at e
  obtain ⟨-, -, hsh⟩ := h.included hm
  obtain ⟨hd, -⟩ := shape_facts hsh
  obtain ⟨s1, e1, o1, a1, x1⟩ := step_setting (t := .setNamespace q) trivial s
  rcases h.phase with hF | ⟨hP, hf, -⟩
  · rw [hF.main] at hm; cases hm
  · have hr : ∀ f, s1.resolve f = q ++ f.name := by
      intro f
      rw [Pre.resolve, x1 _ (by simp [about]), hf, Pre.prefix, show s1.env .namespace_ = _ from a1]
      rfl
    refine ⟨s1, ?_, fun f => ⟨hr f, ?_⟩⟩
    · rw [run_append, e]
      show [Step.setNamespace q].foldlM step s = _
      rw [List.foldlM_cons, e1]; rfl
    · rw [hr, o1]
      rcases hd with hd | hd <;> rw [hd] <;> intro hmem <;> obtain ⟨g, -, hg⟩ := List.mem_map.1 hmem <;>
        exact hpq (prefixed_inj hg).1

/-- **C62 (finding).** `XXH_NAMESPACE` removed after the first inclusion: the function names stand for names that begin with
`XXH_NAMESPACE` and were never declared. -/
theorem C62_removed_namespace (p : String) (hp : p ≠ "XXH_NAMESPACE") (a c : List Step) (ha : ∀ t ∈ a, Ordinary t)
    (hc : ∀ t ∈ c, Ordinary t) :
    ∃ s, run (.setNamespace p :: a ++ .xxhash :: c ++ [.unsetNamespace]) = some s ∧
      ∀ f, s.resolve f = "XXH_NAMESPACE" ++ f.name ∧ s.resolve f ∉ declarations s.out := by
  obtain ⟨s, e, h, hm⟩ := ns_run (some p) a c ha hc
  rw [show namespaced (some p) ++ a = .setNamespace p :: a from rfl] at e
  obtain ⟨-, -, hsh⟩ := h.included hm
  obtain ⟨hd, -⟩ := shape_facts hsh
  obtain ⟨s1, e1, o1, a1, x1⟩ := step_setting (t := .unsetNamespace) trivial s
  rcases h.phase with hF | ⟨hP, hf, -⟩
  · rw [hF.main] at hm; cases hm
  · have hr : ∀ f, s1.resolve f = "XXH_NAMESPACE" ++ f.name := by
      intro f
      rw [Pre.resolve, x1 _ (by simp [about]), hf, Pre.prefix, show s1.env .namespace_ = _ from a1]
      rfl
    refine ⟨s1, ?_, fun f => ⟨hr f, ?_⟩⟩
    · rw [run_append, e]
      show [Step.unsetNamespace].foldlM step s = _
      rw [List.foldlM_cons, e1]; rfl
    · rw [hr, o1]
      rcases hd with hd | hd <;> rw [hd] <;> intro hmem <;> obtain ⟨g, -, hg⟩ := List.mem_map.1 hmem <;>
        exact hp (prefixed_inj hg).1

example : ∃ s, run [.setNamespace "lib_", .xxhash, .set .staticLinkingOnly true, .xxhash, .unsetNamespace] = some s ∧
      ∀ f, s.resolve f = "XXH_NAMESPACE" ++ f.name ∧ s.resolve f ∉ declarations s.out :=
  C62_removed_namespace "lib_" (by decide) [] [.set .staticLinkingOnly true, .xxhash] (by simp) (by simp [Ordinary])

/-- **C62.** The test of the project for this, tests/multiInclude.c:31-59: a plain inclusion twice, the advanced part, and `XXH_INLINE_ALL`
twice, compiles, and what its function uses are static functions that are defined. -/
theorem C62_multiInclude :
    (run [.xxhash, .xxhash, .set .staticLinkingOnly false, .xxhash, .set .inlineAll false, .xxhash, .set .inlineAll false, .xxhash]).map
      (fun s => [Fn.XXH3_64bits_reset, .XXH3_64bits_update, .XXH3_64bits_digest].all fun f =>
        s.out.count (.define (s.resolve f) true) == 1 && s.out.count (.declare (s.resolve f) true) == 1) = some true := by
  decide +kernel

/-- **C62 (finding).** `XXH_IMPLEMENTATION` needs `XXH_STATIC_LINKING_ONLY`: without it the functions are defined, but the structs of
the states, which they use, are not. -/
theorem C62_implementation_alone :
    (run [.set .implementation false, .xxhash]).map (fun s =>
      ((externals s.out).count "XXH32_update", (types s.out).count "XXH32_state_s", (types s.out).count "XXH3_state_s")) =
      some (1, 0, 0) := by decide +kernel

/-! ## Units that inline the library -/

/-- **C62.** Whatever was included before, other than the implementation, and with whatever prefix: a unit that then defines
`XXH_INLINE_ALL` (or `XXH_PRIVATE_API`) and includes xxhash.h gets the functions of the interface with static linkage and a
prefix of their own, each declared and defined once, with types of their own; it gives no function to the linker. Later inclusions
change nothing. -/
theorem C62_inline (l : List Step) (hl : ∀ t ∈ l, ∀ b, t ≠ .set .inlineAll b ∧ t ≠ .set .privateApi b ∧ t ≠ .set .implementation b)
    {o : Opt} (ho : o = .inlineAll ∨ o = .privateApi) (b : Bool) (c : List Step)
    (hc : ∀ t ∈ c, t ≠ .dispatch ∧ t ≠ .unsetNamespace ∧ ∀ p, t ≠ .setNamespace p) :
    ∃ s, run (l ++ .set o b :: .xxhash :: c) = some s ∧ (∀ f, s.resolve f = "XXH_INLINE_" ++ f.name) ∧
      (∀ f : Fn, .declare ("XXH_INLINE_" ++ f.name) true ∈ s.out ∧
        .define ("XXH_INLINE_" ++ f.name) true ∈ s.out ∧ (definitions s.out).count ("XXH_INLINE_" ++ f.name) = 1) ∧
      externals s.out = [] ∧
      ∀ t : Ty, .type (s.resolveTy t) ∈ s.out := by
  obtain ⟨s0, e0, hG, hN⟩ := noImpl_run l hl
  obtain ⟨s, e, hr, ht, hout⟩ := enter_run e0 hG (fun h => by have := hN.impl; rw [h.impl] at this; cases this) (Or.inl hN.im) ho b c hc
  rw [if_pos hN.impl] at hout
  refine ⟨s, e, hr, fun f => ⟨?_, ?_, ?_⟩, ?_, fun t => ?_⟩
  · rw [hout]
    rcases mem_decl f with hf | hf
    · simp only [List.mem_append]
      exact Or.inl (Or.inl (Or.inr (List.mem_append_right _ (List.mem_map.2 ⟨f, hf, rfl⟩))))
    · simp only [List.mem_append]
      exact Or.inl (Or.inr (List.mem_append_right _ (List.mem_map.2 ⟨f, hf, rfl⟩)))
  · rw [hout]
    exact List.mem_append_right _ (List.mem_cons_of_mem _ (List.mem_map.2 ⟨f, mem_implFns f, rfl⟩))
  · rw [hout, inlMain_block, inlStatic_block, inlImpl_bodies]
    simp only [definitions_append, definitions_block, definitions_bodies, hN.out.1, List.nil_append]
    exact count_symbol (some "XXH_INLINE_") nodup_implFns (mem_implFns f)
  · rw [hout, inlMain_block, inlStatic_block, inlImpl_bodies]
    simp only [externals_append, externals_block, externals_bodies_true, hN.out.2, List.append_nil]
  · rw [hout, ht]
    have : t ∈ mainTys ∨ t ∈ staticTys := by cases t <;> decide +kernel
    rcases this with h | h
    · simp only [List.mem_append]
      exact Or.inl (Or.inl (Or.inr (List.mem_append_left _ (List.mem_map.2 ⟨t, h, rfl⟩))))
    · simp only [List.mem_append]
      exact Or.inl (Or.inr (List.mem_append_left _ (List.mem_map.2 ⟨t, h, rfl⟩)))

/-- A plain inclusion with a prefix and xxh_x86dispatch.h come before; other inclusions follow. -/
example : (∀ t ∈ [Step.setNamespace "lib_", .xxhash, .dispatch, .set .staticLinkingOnly true, .xxhash],
      ∀ b, t ≠ .set .inlineAll b ∧ t ≠ .set .privateApi b ∧ t ≠ .set .implementation b) ∧
    ∀ t ∈ [Step.xxhash, .set .implementation true, .xxhash, .unset .inlineAll, .xxhash],
      t ≠ .dispatch ∧ t ≠ .unsetNamespace ∧ ∀ p, t ≠ .setNamespace p := by
  constructor
  · intro t ht; simp at ht; rcases ht with h | h | h | h | h <;> simp [h]
  · intro t ht; simp at ht; rcases ht with h | h | h | h | h <;> simp [h]

example : (run ([.setNamespace "lib_", .xxhash, .dispatch, .set .staticLinkingOnly true, .xxhash] ++ .set .inlineAll false :: .xxhash ::
      [.xxhash, .set .implementation true, .xxhash, .unset .inlineAll, .xxhash])).map (fun s =>
      (s.resolve .XXH3_64bits, s.resolveTy .XXH3_state_t, (definitions s.out).length, (externals s.out).length)) =
    some ("XXH_INLINE_XXH3_64bits", "XXH_NAMESPACEXXH3_state_t", 49, 0) := by decide +kernel

/-- **C62 (finding).** If the unit has included the implementation before, inlining declares static functions that are never defined:
every call refers to one of them. (The header says that previous inclusions do not matter.) -/
theorem C62_inline_undefined (ns : Option String) (a c : List Step) (ha : ∀ t ∈ a, Ordinary t) (hc : ∀ t ∈ c, Ordinary t) (b b' : Bool)
    {o : Opt} (ho : o = .inlineAll ∨ o = .privateApi) (hns : ns.getD "" ≠ "XXH_INLINE_") :
    ∃ s, run (namespaced ns ++ a ++ .set .implementation b :: .xxhash :: c ++ [.unset .implementation, .set o b', .xxhash]) = some s ∧
      ∀ f, s.resolve f = "XXH_INLINE_" ++ f.name ∧ .declare (s.resolve f) true ∈ s.out ∧ s.resolve f ∉ definitions s.out := by
  obtain ⟨s0, e0, h0, hm0, hi0, -⟩ := ns_run_set ns a c .implementation b (by simp [Ordinary]) ha hc
  obtain ⟨s1, e1, h1, k1, -⟩ := ns_step (t := .unset .implementation) h0 trivial
  have hm1 := k1.1 hm0
  have hi1 := k1.2.1 (hi0 rfl)
  have e1' : run (namespaced ns ++ a ++ .set .implementation b :: .xxhash :: c ++ [.unset .implementation]) = some s1 := by
    rw [run_append, e0]
    show [Step.unset .implementation].foldlM step s0 = _
    rw [List.foldlM_cons, e1]; rfl
  have him : s1.env .implementation = none := by
    have : s1 = undef .implementation s0 := (Option.some.inj e1).symm
    rw [this, undef_env]
  obtain ⟨hP, -, hsh⟩ := h1.included hm1
  obtain ⟨-, -, hde, -, hex⟩ := shape_facts hsh
  obtain ⟨one, hG⟩ : ∃ one : Bool, Good s1 := by
    have hv : ∀ t ∈ namespaced ns ++ a ++ .set .implementation b :: .xxhash :: c ++ [.unset .implementation], Keeps true t := by
      intro t ht
      have hor : Ordinary t ∨ ∃ p, t = .setNamespace p := by
        simp only [List.mem_append, List.mem_cons, List.not_mem_nil, or_false] at ht
        rcases ht with ((h | h) | h | h | h) | h
        · cases ns with
          | none => cases h
          | some p => exact Or.inr ⟨p, by simpa [namespaced] using h⟩
        · exact Or.inl (ha t h)
        · subst h; exact Or.inl (by simp [Ordinary])
        · subst h; exact Or.inl trivial
        · exact Or.inl (hc t h)
        · subst h; exact Or.inl trivial
      intro b'
      rcases hor with h | ⟨p, rfl⟩
      · constructor <;> (rintro rfl; simp [Ordinary] at h)
      · simp
    obtain ⟨s', e', hG, -⟩ := run_good _ hv
    rw [e1'] at e'
    obtain rfl := Option.some.inj e'
    exact ⟨true, hG⟩
  obtain ⟨s, e, hr, -, hout⟩ := enter_run e1' hG (fun h => by have := hP.inl; rw [h.inl] at this; cases this) (Or.inl him) ho b' []
    (by simp)
  rw [if_neg (by rw [hi1]; simp), List.append_nil] at hout
  refine ⟨s, ?_, fun f => ⟨hr f, ?_, ?_⟩⟩
  · rw [← e, List.append_assoc]
    simp
  · rw [hr, hout]
    rcases mem_decl f with hf | hf
    · simp only [List.mem_append]
      exact Or.inl (Or.inr (List.mem_append_right _ (List.mem_map.2 ⟨f, hf, rfl⟩)))
    · simp only [List.mem_append]
      exact Or.inr (List.mem_append_right _ (List.mem_map.2 ⟨f, hf, rfl⟩))
  · rw [hr, hout, inlMain_block, inlStatic_block]
    simp only [definitions_append, definitions_block, List.append_nil]
    rw [hde, hex hi1]
    intro hmem
    obtain ⟨g, -, hg⟩ := List.mem_map.1 hmem
    exact hns (prefixed_inj hg).1

/-- Such a unit: the implementation first, with a prefix, and then `XXH_INLINE_ALL`. -/
example : ∃ s, run [.setNamespace "lib_", .set .staticLinkingOnly true, .set .implementation true, .xxhash, .unset .implementation,
      .set .inlineAll true, .xxhash] = some s ∧ ∀ f, s.resolve f = "XXH_INLINE_" ++ f.name ∧ .declare (s.resolve f) true ∈ s.out ∧
      s.resolve f ∉ definitions s.out :=
  C62_inline_undefined (some "lib_") [.set .staticLinkingOnly true] [] (by simp [Ordinary]) (by simp) true true (Or.inl rfl) (by decide)

/-! ## xxh_x86dispatch.h -/

private theorem replacement_unique : ∀ r ∈ replacements, ∀ r' ∈ replacements, r.1 = r'.1 → r.2 = r'.2 := by decide +kernel

/-- **C62.** A unit that does not inline and includes xxh_x86dispatch.h: the nine names stand for the dispatching functions, the others
for the names with the prefix. -/
theorem C62_dispatch (ns : Option String) (a : List Step) (ha : ∀ t ∈ a, Ordinary t) (hb : ∀ t ∈ a, ∀ b, t ≠ .set .disableReplace b) :
    ∃ s, run (namespaced ns ++ a ++ [.dispatch]) = some s ∧
      (∀ r ∈ replacements, s.resolve r.1 = r.2.name ++ "_dispatch") ∧
      (∀ f : Fn, (∀ r ∈ replacements, r.1 ≠ f) → s.resolve f = ns.getD "" ++ f.name) ∧
      ∀ f ∈ dispatchFns, .declare (f.name ++ "_dispatch") false ∈ s.out := by
  obtain ⟨s0, e0, h0, g0, d0⟩ := ns_before ns a ha
  have d0 := d0 hb
  obtain ⟨s1, e1, o1, dd1, x1⟩ := define_none .guardDispatch .empty s0 g0
  have h1 : NS ns s1 := by
    have he : ∀ m, isOpt m = false → s1.env m = s0.env m := fun m hm => x1 m (fun h => by rw [h] at hm; cases hm)
    refine ⟨by rw [x1 _ (by simp), h0.space], by rw [x1 _ (by simp), h0.inl], by rw [x1 _ (by simp), h0.prv], ?_⟩
    rcases h0.phase with hF | ⟨hP, hf, hsh⟩
    · exact Or.inl (hF.congr o1 he)
    · exact Or.inr ⟨hP.congr he, fun f => by rw [he _ rfl, hf], hsh.congr o1 he⟩
  obtain ⟨s2, e2, h2, m2, -, -, -, -, x2⟩ := ns_xxhash h1
  obtain ⟨hP2, hr2, -⟩ := h2.included m2
  have hd2 : (emit (dispatchEvents s2.priv) s2).defd .disableReplace = false := by
    show (s2.env .disableReplace).isSome = false
    rw [x2 _ rfl, x1 _ (by simp), d0]; rfl
  obtain ⟨s3, e3, o3, x3, f3, r3⟩ := dispatch_rest (emit (dispatchEvents s2.priv) s2)
  refine ⟨s3, ?_, ?_, ?_, ?_⟩
  · rw [run_append, e0]
    show [Step.dispatch].foldlM step s0 = _
    rw [List.foldlM_cons, show step s0 .dispatch = some s3 from by
      show dispatch_h s0 = _
      rw [dispatch_unfold g0 e1 e2, e3]]
    rfl
  · intro r hr
    obtain ⟨r', hr', he, hv⟩ := r3 r.1 hd2 ⟨r, hr, rfl⟩
    rw [Pre.resolve, hv, replacement_unique r' hr' r hr he]
  · intro f hf
    have : s3.resolve f = s2.resolve f := by
      rw [Pre.resolve, Pre.resolve, f3 f (Or.inr hf), Pre.prefix, Pre.prefix, x3 _ (by simp)]
      rfl
    rw [this, hr2]; rfl
  · intro f hf
    rw [o3]
    show _ ∈ s2.out ++ dispatchEvents s2.priv
    rw [plain_priv hP2]
    exact List.mem_append_right _ (List.mem_map.2 ⟨f, hf, rfl⟩)

/-- A unit with a prefix that has included xxhash.h before. -/
example : ∃ s, run [.setNamespace "lib_", .xxhash, .set .staticLinkingOnly true, .dispatch] = some s ∧
      (∀ r ∈ replacements, s.resolve r.1 = r.2.name ++ "_dispatch") ∧
      (∀ f : Fn, (∀ r ∈ replacements, r.1 ≠ f) → s.resolve f = "lib_" ++ f.name) ∧
      ∀ f ∈ dispatchFns, .declare (f.name ++ "_dispatch") false ∈ s.out :=
  C62_dispatch (some "lib_") [.xxhash, .set .staticLinkingOnly true] (by simp [Ordinary]) (by simp)

example : (replacements.length, (nsFns.filter fun f => replacements.all fun r => r.1 != f).length) = (9, 40) := by decide +kernel

/-- **C62.** The dispatching functions are those xxh_x86dispatch.c defines, and nothing else of it is external. They do not collide with
the functions of any build of xxhash.c. -/
theorem C62_dispatch_unit :
    ∃ s, xxh_x86dispatch_c [] = some s ∧ externals s.out = dispatchFns.map (fun f => f.name ++ "_dispatch") ∧
      (∀ r ∈ replacements, r.2.name ++ "_dispatch" ∈ externals s.out) ∧
      ∀ (p : String) (f : Fn), p ++ f.name ∉ externals s.out := by
  obtain ⟨s, e, -, -, hx, -⟩ := C62_inline [] (by simp) (o := .inlineAll) (Or.inl rfl) false [] (by simp)
  have he : externals (s.out ++ dispatchFns.map fun f => .define (f.name ++ "_dispatch") false) =
      dispatchFns.map (fun f => f.name ++ "_dispatch") := by
    rw [externals_append, hx, List.nil_append, externals,
      filterMap_map_some (fun f : Fn => Event.define (f.name ++ "_dispatch") false) exportedBy (fun f => f.name ++ "_dispatch") (fun _ => rfl)]
  refine ⟨_, by rw [xxh_x86dispatch_c, e]; rfl, he, ?_, ?_⟩
  · intro r hr
    show _ ∈ externals (s.out ++ _)
    rw [he]
    have : ∀ r ∈ replacements, r.2 ∈ dispatchFns := by decide +kernel
    exact List.mem_map.2 ⟨r.2, this r hr, rfl⟩
  · intro p f hmem
    change _ ∈ externals (s.out ++ _) at hmem
    rw [he] at hmem
    obtain ⟨g, hg, h⟩ := List.mem_map.1 hmem
    exact prefixed_ne_dispatch p f hg h.symm

/-- **C62 (finding).** `XXH_NAMESPACE` does not rename the dispatching functions: two libraries that contain xxh_x86dispatch.c collide
whatever prefixes they are built with. -/
theorem C62_dispatch_collides (p : String) :
    ∃ s, xxh_x86dispatch_c [.setNamespace p] = some s ∧ externals s.out = dispatchFns.map (fun f => f.name ++ "_dispatch") := by
  obtain ⟨s, e, -, -, hx, -⟩ := C62_inline [.setNamespace p] (by simp) (o := .inlineAll) (Or.inl rfl) false [] (by simp)
  refine ⟨_, by rw [xxh_x86dispatch_c, e]; rfl, ?_⟩
  show externals (s.out ++ _) = _
  rw [externals_append, hx, List.nil_append, externals,
    filterMap_map_some (fun f : Fn => Event.define (f.name ++ "_dispatch") false) exportedBy (fun f => f.name ++ "_dispatch") (fun _ => rfl)]

/-- **C62 (finding).** In a unit that inlines, xxh_x86dispatch.h declares static functions that are never defined, and makes the
functions of the interface stand for them. -/
theorem C62_dispatch_inline :
    (run [.set .inlineAll false, .dispatch]).map (fun s => (s.resolve .XXH3_64bits, s.out.count (.declare "XXH3_64bits_dispatch" true),
      (definitions s.out).count "XXH3_64bits_dispatch")) = some ("XXH3_64bits_dispatch", 1, 0) := by decide +kernel

/-! ## Parts left out -/

/-- The word occurs in the name. -/
def occurs (word name : String) : Bool := (List.range (name.toList.length + 1)).any fun i => word.toList.isPrefixOf (name.toList.drop i)

/-- Functions on states, by their names. -/
def isStreaming (f : Fn) : Bool := ["State", "_reset", "_update", "_digest"].any fun w => occurs w f.name

/-- Functions of XXH3 and XXH128, by their names. -/
def isXXH3 (f : Fn) : Bool := ["XXH3_", "XXH128"].any fun w => w.toList.isPrefixOf f.name.toList

/-- Functions that need 64-bit integers: all others than those of XXH32. -/
def is64 (f : Fn) : Bool := isXXH3 f || "XXH64".toList.isPrefixOf f.name.toList

/-- **C62.** `XXH_NO_STREAM`, `XXH_NO_LONG_LONG` and `XXH_NO_XXH3`, in any combination, remove what their names say, and nothing else; a
function is declared if and only if it is defined. -/
theorem C62_parts (c : Cut) (f : Fn) :
    c.keeps (declLine f) = (!(c.noStream && isStreaming f) && !(c.noLongLong && is64 f) && !(c.noXXH3 && isXXH3 f)) ∧
    c.keeps (implLine f) = c.keeps (declLine f) := by
  have h : ∀ a b d : Bool, ∀ f ∈ nsFns, Cut.keeps ⟨a, b, d⟩ (declLine f) =
        (!(a && isStreaming f) && !(b && is64 f) && !(d && isXXH3 f)) ∧ Cut.keeps ⟨a, b, d⟩ (implLine f) = Cut.keeps ⟨a, b, d⟩ (declLine f) := by
    decide +kernel
  exact h c.noStream c.noLongLong c.noXXH3 f (mem_nsFns f)

/-- How many remain. -/
example : ([(⟨false, false, false⟩ : Cut), ⟨true, false, false⟩, ⟨false, true, false⟩, ⟨false, false, true⟩, ⟨true, false, true⟩,
    ⟨true, true, true⟩].map fun c => (nsFns.countP fun f => c.keeps (declLine f))) = [49, 22, 10, 19, 7, 4] := by decide +kernel

/-- **C62 (finding).** xxh_x86dispatch.h names functions of XXH3 streaming without regard to these macros: with any of them, some of what
it declares has no counterpart in xxhash.h. -/
theorem C62_dispatch_parts (c : Cut) (hc : c ≠ ⟨false, false, false⟩) : ∃ f ∈ dispatchFns, c.keeps (declLine f) = false := by
  obtain ⟨a, b, d⟩ := c
  cases a <;> cases b <;> cases d <;> first | exact absurd rfl hc | decide +kernel

/-! ## The theorems applied -/

/-- A unit of which several things are said below: a plain inclusion, the advanced part, the implementation. -/
def unitA : List Step := [.set .staticLinkingOnly true, .xxhash]
def unitC : List Step := [.set .implementation true, .xxhash, .unset .implementation, .xxhash]

theorem unitA_ordinary : ∀ t ∈ unitA, Ordinary t := by simp [unitA, Ordinary]
theorem unitC_ordinary : ∀ t ∈ unitC, Ordinary t := by simp [unitC, Ordinary]

/-- Nothing is inlined in this one; in the next one `XXH_IMPLEMENTATION` is not defined as `1`. -/
theorem unit_valid : Valid (unitA ++ unitC) := by
  right; intro t ht b; simp [unitA, unitC] at ht; rcases ht with h | h | h | h | h | h <;> simp [h]

theorem unit_valid' : Valid [.setNamespace "a_", .xxhash, .set .implementation false, .set .inlineAll true, .xxhash, .setNamespace "b_", .xxhash] := by
  left; intro t ht; simp at ht; rcases ht with h | h | h | h | h | h | h <;> simp [h]

example : (run (unitA ++ unitC)).isSome = true ∧
    (run [.setNamespace "a_", .xxhash, .set .implementation false, .set .inlineAll true, .xxhash, .setNamespace "b_", .xxhash]).isSome = true :=
  ⟨C62_no_conflict unit_valid, C62_no_conflict unit_valid'⟩

example : ∃ s, run (unitA ++ unitC) = some s ∧ internals s.out ≤ 1 ∧ (types s.out).count "XXH3_state_s" ≤ 1 := by
  obtain ⟨s, e, h1, h2⟩ := C62_types_once unit_valid
  exact ⟨s, e, h1, h2 _⟩

example : ∃ s, run (unitA ++ unitC) = some s ∧ (definitions s.out).Nodup :=
  C62_functions_once unit_valid (by simp [unitA, unitC])

example : ∃ s, run (.setNamespace "lib_" :: unitA ++ .xxhash :: unitC) = some s ∧ s.resolve .XXH3_64bits = "lib_XXH3_64bits" ∧
    s.resolveTy .XXH3_state_t = "XXH3_state_t" ∧ (declarations s.out).count "lib_XXH32" = 1 := by
  obtain ⟨s, e, h1, h2, h3, -⟩ := C62_ordinary (some "lib_") unitA unitC unitA_ordinary unitC_ordinary
  exact ⟨s, e, h1 _, h2 _, h3 .XXH32 (by decide +kernel)⟩

example : ∃ s, run (unitA ++ .set .staticLinkingOnly false :: .xxhash :: unitC) = some s ∧
    (declarations s.out).count "XXH3_generateSecret" = 1 := by
  obtain ⟨s, e, h⟩ := C62_advanced none unitA unitC false unitA_ordinary unitC_ordinary
  exact ⟨s, e, h .XXH3_generateSecret⟩

example : ∃ s, run (.setNamespace "lib_" :: unitA ++ .set .implementation false :: .xxhash :: unitC) = some s ∧
    (externals s.out).count "lib_XXH128_cmp" = 1 := by
  obtain ⟨s, e, h, -⟩ := C62_implementation (some "lib_") unitA unitC false unitA_ordinary unitC_ordinary
  exact ⟨s, e, h .XXH128_cmp⟩

example : ∃ client lib, run [.setNamespace "lib_", .xxhash] = some client ∧
    run (.setNamespace "lib_" :: unitA ++ .set .implementation true :: .xxhash :: []) = some lib ∧
    ∀ f : Fn, client.resolve f ∈ externals lib.out :=
  C62_link (some "lib_") [] [] (by simp) (by simp) unitA [] true unitA_ordinary (by simp)

example : ∃ s s', run (.setNamespace "a_" :: unitA ++ .xxhash :: unitC) = some s ∧ run (.setNamespace "b_" :: unitA ++ .xxhash :: unitC) = some s' ∧
    ∀ n ∈ externals s.out, n ∉ externals s'.out :=
  C62_disjoint (some "a_") (some "b_") (by decide) unitA unitC unitA unitC unitA_ordinary unitC_ordinary unitA_ordinary unitC_ordinary

/-- Both do export functions. -/
example : (run (.setNamespace "a_" :: unitA ++ .xxhash :: unitC)).map (fun s => (externals s.out).length) = some 49 := by decide +kernel

example : ∃ s, run (unitA ++ .xxhash :: unitC ++ [.setNamespace "lib_", .xxhash]) = some s ∧ ∀ f, s.resolve f = f.name :=
  C62_late_namespace unitA unitC unitA_ordinary unitC_ordinary "lib_"

example : ∃ s, run (.setNamespace "a_" :: unitA ++ .xxhash :: unitC ++ [.setNamespace "b_"]) = some s ∧
    ∀ f, s.resolve f = "b_" ++ f.name ∧ s.resolve f ∉ declarations s.out :=
  C62_changed_namespace "a_" "b_" (by decide) unitA unitC unitA_ordinary unitC_ordinary

example : ∃ s, run ([.setNamespace "lib_", .xxhash] ++ .set .privateApi true :: .xxhash :: []) = some s ∧
    s.resolve .XXH64 = "XXH_INLINE_XXH64" ∧ .define "XXH_INLINE_XXH64" true ∈ s.out ∧ externals s.out = [] := by
  obtain ⟨s, e, h1, h2, h3, -⟩ := C62_inline [.setNamespace "lib_", .xxhash] (by simp) (o := .privateApi) (Or.inr rfl) true [] (by simp)
  exact ⟨s, e, h1 _, (h2 .XXH64).2.1, h3⟩

example : ∃ f ∈ dispatchFns, Cut.keeps ⟨true, false, false⟩ (declLine f) = false := C62_dispatch_parts _ (by decide)

end XXH.Props
