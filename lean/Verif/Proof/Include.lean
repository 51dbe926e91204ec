import Verif.Model.Include

/-! Lemmas for `Verif/Props/Include.lean`: what the sections of xxhash.h do to the macros, and the three phases of a unit. -/
namespace XXH.Proof.IncludeP
open XXH.Model.Include

theorem mem_nsFns (f : Fn) : f ∈ nsFns := by cases f <;> decide +kernel

theorem mem_decl (f : Fn) : f ∈ mainFns ∨ f ∈ staticFns := by cases f <;> decide +kernel

theorem mem_implFns (f : Fn) : f ∈ implFns := by cases f <;> decide +kernel

theorem suffix_table : ∀ a ∈ (nsFns.map fun f => (f, f.name.toList.reverse)),
    ∀ b ∈ (nsFns.map fun f => (f, f.name.toList.reverse)), List.isPrefixOf a.2 b.2 = true → a.1 = b.1 := by decide +kernel

theorem suffix_eq {f g : Fn} (h : f.name.toList <:+ g.name.toList) : f = g := by
  have := suffix_table (f, _) (List.mem_map.2 ⟨f, mem_nsFns f, rfl⟩) (g, _) (List.mem_map.2 ⟨g, mem_nsFns g, rfl⟩)
  apply this
  rw [List.isPrefixOf_iff_prefix]
  exact List.reverse_prefix.2 h

theorem name_inj {f g : Fn} (h : f.name = g.name) : f = g := suffix_eq (h ▸ List.suffix_refl _)

theorem prefixed_inj {p q : String} {f g : Fn} (h : p ++ f.name = q ++ g.name) : p = q ∧ f = g := by
  have h' : p.toList ++ f.name.toList = q.toList ++ g.name.toList := by
    rw [← String.toList_append, ← String.toList_append, h]
  have hs : f = g := by
    rcases List.suffix_or_suffix_of_suffix (List.suffix_append p.toList f.name.toList)
      (h' ▸ List.suffix_append q.toList g.name.toList) with h1 | h1
    · exact suffix_eq h1
    · exact (suffix_eq h1).symm
  subst hs
  exact ⟨String.toList_inj.1 (List.append_cancel_right h'), rfl⟩

theorem nodup_prefixed (p : String) {l : List Fn} (hl : l.Nodup) : (l.map fun f => p ++ f.name).Nodup :=
  List.Pairwise.map _ (fun _ _ hne h => hne (prefixed_inj h).2) hl

theorem dispatch_table : ∀ a ∈ (nsFns.map fun f => f.name.toList.reverse),
    ∀ b ∈ (dispatchFns.map fun f => (f.name ++ "_dispatch").toList.reverse), List.isPrefixOf a b = false := by decide +kernel

theorem prefixed_ne_dispatch (p : String) (f : Fn) {g : Fn} (hg : g ∈ dispatchFns) : p ++ f.name ≠ g.name ++ "_dispatch" := by
  intro h
  have := dispatch_table _ (List.mem_map.2 ⟨f, mem_nsFns f, rfl⟩) _ (List.mem_map.2 ⟨g, hg, rfl⟩)
  have hp : f.name.toList.reverse <+: (g.name ++ "_dispatch").toList.reverse := by
    rw [List.reverse_prefix, ← h, String.toList_append]
    exact List.suffix_append _ _
  rw [List.isPrefixOf_iff_prefix.2 hp] at this
  cases this

/-! ## Macros -/

/-- Many definitions. -/
theorem foldlM_define {α : Type} (m : α → Macro) (b : α → Body) (hb : ∀ x y, m x = m y → b x = b y) :
    ∀ (l : List α) (s : Pre), (∀ a ∈ l, s.env (m a) = none ∨ s.env (m a) = some (b a)) →
      ∃ s', l.foldlM (fun s a => define (m a) (b a) s) s = some s' ∧ s'.out = s.out ∧
        (∀ a ∈ l, s'.env (m a) = some (b a)) ∧ ∀ x, (∀ a ∈ l, m a ≠ x) → s'.env x = s.env x
  | [], s, _ => ⟨s, rfl, rfl, by simp, by simp⟩
  | a :: l, s, h => by
    obtain ⟨s1, h1, ho, ha, hx⟩ : ∃ s1, define (m a) (b a) s = some s1 ∧ s1.out = s.out ∧ s1.env (m a) = some (b a) ∧
        ∀ x, m a ≠ x → s1.env x = s.env x := by
      rcases h a (by simp) with h0 | h0
      · refine ⟨{ s with env := fun x => if x = m a then some (b a) else s.env x }, by simp only [define, h0], rfl, by simp, ?_⟩
        intro x hx
        simp [Ne.symm hx]
      · exact ⟨s, by simp [define, h0], rfl, h0, fun _ _ => rfl⟩
    have h2 : ∀ c ∈ l, s1.env (m c) = none ∨ s1.env (m c) = some (b c) := by
      intro c hc
      by_cases hac : m a = m c
      · right; rw [← hac, ha, hb _ _ hac]
      · rw [hx _ hac]; exact h c (by simp [hc])
    obtain ⟨s', h3, ho', hd, hn⟩ := foldlM_define m b hb l s1 h2
    refine ⟨s', ?_, by rw [ho', ho], ?_, ?_⟩
    · rw [List.foldlM_cons, h1]; exact h3
    · intro c hc
      by_cases hcl : ∃ d ∈ l, m d = m c
      · obtain ⟨d, hd1, hd2⟩ := hcl
        rw [← hd2, hd d hd1, hb _ _ hd2]
      · have hca : c = a := by
          rcases List.mem_cons.1 hc with h | h
          · exact h
          · exact absurd ⟨c, h, rfl⟩ hcl
        subst hca
        rw [hn _ (fun d hd1 hd2 => hcl ⟨d, hd1, hd2⟩), ha]
    · intro x hx'
      rw [hn x (fun c hc => hx' c (by simp [hc])), hx x (hx' a (by simp))]

theorem foldl_undef : ∀ (l : List Fn) (s : Pre),
    (l.foldl (fun s f => undef (.fn f) s) s).out = s.out ∧
      (∀ f ∈ l, (l.foldl (fun s f => undef (.fn f) s) s).env (.fn f) = none) ∧
      ∀ x, (∀ f ∈ l, Macro.fn f ≠ x) → (l.foldl (fun s f => undef (.fn f) s) s).env x = s.env x
  | [], s => ⟨rfl, by simp, by simp⟩
  | a :: l, s => by
    obtain ⟨h1, h2, h3⟩ := foldl_undef l (undef (.fn a) s)
    refine ⟨h1, ?_, ?_⟩
    · intro f hf
      by_cases hfl : f ∈ l
      · exact h2 f hfl
      · have : f = a := by simpa [hfl] using hf
        subst this
        rw [List.foldl_cons, h3 _ (by intro g hg h; injection h with h; exact hfl (h ▸ hg))]
        simp [undef]
    · intro x hx
      rw [List.foldl_cons, h3 x (fun f hf => hx f (by simp [hf]))]
      simp [undef, Ne.symm (hx a (by simp))]

/-- The replacements of xxh_x86dispatch.h. -/
theorem foldlM_replace : ∀ (l : List (Fn × Fn)) (s : Pre),
      ∃ s', l.foldlM (fun s r => define (.fn r.1) (.dispatch r.2) (undef (.fn r.1) s)) s = some s' ∧ s'.out = s.out ∧
        (∀ f, (∀ r ∈ l, r.1 ≠ f) → s'.env (.fn f) = s.env (.fn f)) ∧
        (∀ f, (∃ r ∈ l, r.1 = f) → ∃ r ∈ l, r.1 = f ∧ s'.env (.fn f) = some (.dispatch r.2)) ∧
        ∀ x, (∀ f, Macro.fn f ≠ x) → s'.env x = s.env x
  | [], s => ⟨s, rfl, rfl, by simp, by simp, by simp⟩
  | a :: l, s => by
    obtain ⟨s', h1, h2, h3, h4, h5⟩ := foldlM_replace l
      { env := fun x => if x = .fn a.1 then some (.dispatch a.2) else if x = .fn a.1 then none else s.env x, out := s.out }
    refine ⟨s', ?_, h2, ?_, ?_, ?_⟩
    · rw [List.foldlM_cons]
      rw [show define (.fn a.1) (.dispatch a.2) (undef (.fn a.1) s) = some { env := fun x =>
        (if x = .fn a.1 then some (.dispatch a.2) else if x = .fn a.1 then none else s.env x), out := s.out } from by
          simp [define, undef]]
      exact h1
    · intro f hf
      rw [h3 f (fun r hr => hf r (by simp [hr]))]
      have : f ≠ a.1 := Ne.symm (hf a (by simp))
      simp [this]
    · intro f ⟨r, hr, hrf⟩
      by_cases hl : ∃ r ∈ l, r.1 = f
      · obtain ⟨r', hr', h⟩ := h4 f hl
        exact ⟨r', by simp [hr'], h⟩
      · have hra : r = a := by
          rcases List.mem_cons.1 hr with h | h
          · exact h
          · exact absurd ⟨r, h, hrf⟩ hl
        subst hra
        refine ⟨r, by simp, hrf, ?_⟩
        rw [h3 f (fun r' hr' h => hl ⟨r', hr', h⟩)]
        simp [hrf]
    · intro x hx
      rw [h5 x hx]
      simp [Ne.symm (hx a.1)]

/-! ## Sections -/

theorem define_none (m : Macro) (b : Body) (s : Pre) (h : s.env m = none) :
    ∃ s', define m b s = some s' ∧ s'.out = s.out ∧ s'.env m = some b ∧ ∀ x, x ≠ m → s'.env x = s.env x :=
  ⟨{ s with env := fun x => if x = m then some b else s.env x }, by simp only [define, h], rfl, by simp,
    fun x hx => by simp [hx]⟩

theorem undef_env (m : Macro) (s : Pre) : (undef m s).env m = none := by simp [undef]

theorem undef_other (m : Macro) (s : Pre) (x : Macro) (h : x ≠ m) : (undef m s).env x = s.env x := by simp [undef, h]

theorem undef_out (m : Macro) (s : Pre) : (undef m s).out = s.out := rfl

theorem inline_spec (s : Pre) (hg : s.env .guardInline = none) (ht : ∀ t, s.env (.ty t) = none) :
    ∃ s', inlineSection s = some s' ∧ s'.out = s.out ∧ s'.env .guardInline = some .empty ∧
      s'.env .staticLinkingOnly = some .empty ∧ s'.env .publicApi = some .private_ ∧
      s'.env .namespace_ = some (.ident "XXH_INLINE_") ∧ s'.env .guardMain = none ∧ s'.env .guardStatic = none ∧
      (∀ f ∈ undefFns, s'.env (.fn f) = none) ∧ (∀ f, f ∉ undefFns → s'.env (.fn f) = s.env (.fn f)) ∧
      (∀ t ∈ iprefTys, s'.env (.ty t) = some (.ipref t)) ∧ (∀ t, t ∉ iprefTys → s'.env (.ty t) = none) ∧
      ∀ m ∈ [Macro.inlineAll, .privateApi, .implementation, .disableReplace, .guardImpl, .guardDispatch], s'.env m = s.env m := by
  obtain ⟨s1, e1, o1, d1, x1⟩ := define_none .guardInline .empty s hg
  obtain ⟨s2, e2, o2, d2, x2⟩ := define_none .staticLinkingOnly .empty (undef .staticLinkingOnly s1) (undef_env _ _)
  obtain ⟨s3, e3, o3, d3, x3⟩ := define_none .publicApi .private_ (undef .publicApi s2) (undef_env _ _)
  obtain ⟨o4, d4, x4⟩ := foldl_undef undefFns s3
  generalize hs4 : undefFns.foldl (fun s f => undef (.fn f) s) s3 = s4 at o4 d4 x4
  obtain ⟨s5, e5, o5, d5, x5⟩ := define_none .namespace_ (.ident "XXH_INLINE_") (undef .namespace_ s4) (undef_env _ _)
  have k5 : ∀ t, s5.env (.ty t) = none := by
    intro t
    rw [x5 _ (by simp), undef_other _ _ _ (by simp), x4 _ (by simp), x3 _ (by simp), undef_other _ _ _ (by simp),
      x2 _ (by simp), undef_other _ _ _ (by simp), x1 _ (by simp), ht]
  obtain ⟨s6, e6, o6, d6, x6⟩ := foldlM_define Macro.ty Body.ipref (by intro x y h; injection h with h; rw [h]) iprefTys s5
    (fun t _ => Or.inl (k5 t))
  refine ⟨undef .guardStatic (undef .guardMain s6), ?_, ?_, ?_, ?_, ?_, ?_, ?_, ?_, ?_, ?_, ?_, ?_, ?_⟩
  · unfold inlineSection
    rw [e1]; simp only [Option.bind_eq_bind, Option.bind_some]
    rw [e2]; simp only [Option.bind_some]
    rw [e3]; simp only [Option.bind_some, hs4]
    rw [e5]; simp only [Option.bind_some]
    rw [e6]; rfl
  · simp only [undef_out, o6, o5, o4, o3, o2, o1]
  · rw [undef_other _ _ _ (by simp), undef_other _ _ _ (by simp), x6 _ (by simp), x5 _ (by simp), undef_other _ _ _ (by simp),
      x4 _ (by simp), x3 _ (by simp), undef_other _ _ _ (by simp), x2 _ (by simp), undef_other _ _ _ (by simp), d1]
  · rw [undef_other _ _ _ (by simp), undef_other _ _ _ (by simp), x6 _ (by simp), x5 _ (by simp), undef_other _ _ _ (by simp),
      x4 _ (by simp), x3 _ (by simp), undef_other _ _ _ (by simp), d2]
  · rw [undef_other _ _ _ (by simp), undef_other _ _ _ (by simp), x6 _ (by simp), x5 _ (by simp), undef_other _ _ _ (by simp),
      x4 _ (by simp), d3]
  · rw [undef_other _ _ _ (by simp), undef_other _ _ _ (by simp), x6 _ (by simp), d5]
  · rw [undef_other _ _ _ (by simp), undef_env]
  · rw [undef_env]
  · intro f hf
    rw [undef_other _ _ _ (by simp), undef_other _ _ _ (by simp), x6 _ (by simp), x5 _ (by simp), undef_other _ _ _ (by simp),
      d4 f hf]
  · intro f hf
    rw [undef_other _ _ _ (by simp), undef_other _ _ _ (by simp), x6 _ (by simp), x5 _ (by simp), undef_other _ _ _ (by simp),
      x4 _ (by intro g hg h; injection h with h; exact hf (h ▸ hg)), x3 _ (by simp), undef_other _ _ _ (by simp),
      x2 _ (by simp), undef_other _ _ _ (by simp), x1 _ (by simp)]
  · intro t h
    rw [undef_other _ _ _ (by simp), undef_other _ _ _ (by simp), d6 t h]
  · intro t h
    rw [undef_other _ _ _ (by simp), undef_other _ _ _ (by simp),
      x6 _ (by intro u hu e; injection e with e; exact h (e ▸ hu)), k5]
  · intro m hm
    have : m ≠ .guardInline ∧ m ≠ .staticLinkingOnly ∧ m ≠ .publicApi ∧ m ≠ .namespace_ ∧ m ≠ .guardMain ∧ m ≠ .guardStatic ∧
        (∀ f, Macro.fn f ≠ m) ∧ ∀ t, Macro.ty t ≠ m := by
      simp only [List.mem_cons, List.not_mem_nil, or_false] at hm
      rcases hm with rfl | rfl | rfl | rfl | rfl | rfl <;> simp
    obtain ⟨a1, a2, a3, a4, a5, a6, a7, a8⟩ := this
    rw [undef_other _ _ _ a6, undef_other _ _ _ a5, x6 _ (fun t _ => a8 t), x5 _ a4, undef_other _ _ _ a4,
      x4 _ (fun f _ => a7 f), x3 _ a3, undef_other _ _ _ a3, x2 _ a2, undef_other _ _ _ a2, x1 _ a1]

/-- The declarations of the stable part. -/
def mainEvents (s : Pre) : List Event :=
  (mainTys.map fun t => .type (s.resolveTy t)) ++ mainFns.map fun f => .declare (s.resolve f) s.priv

/-- The declarations of the advanced part. -/
def staticEvents (s : Pre) : List Event :=
  (staticTys.map fun t => .type (s.resolveTy t)) ++ staticFns.map fun f => .declare (s.resolve f) s.priv

/-- The implementation. -/
def implEvents (s : Pre) : List Event := .internals :: implFns.map fun f => .define (s.resolve f) s.priv

theorem main_spec (s : Pre) (hg : s.env .guardMain = none)
    (hp : s.env .inlineAll = none → s.env .privateApi = none → s.env .publicApi = none)
    (hf : ∀ f, s.env (.fn f) = none ∨ s.env (.fn f) = some (.name2 f)) :
    ∃ s', mainSection s = some s' ∧ s'.out = s.out ++ mainEvents s' ∧ s'.env .guardMain = some .one ∧
      (s'.env .publicApi = if s.defd .inlineAll || s.defd .privateApi then s.env .publicApi else some .empty) ∧
      (∀ f, s'.env (.fn f) = if s.defd .namespace_ then some (.name2 f) else s.env (.fn f)) ∧
      ∀ m, m ≠ .guardMain → m ≠ .publicApi → (∀ f, m ≠ .fn f) → s'.env m = s.env m := by
  obtain ⟨s1, e1, o1, d1, x1⟩ := define_none .guardMain .one s hg
  obtain ⟨s2, e2, o2, d2, x2⟩ : ∃ s2, guarded (!(s1.defd .inlineAll || s1.defd .privateApi)) (define .publicApi .empty) s1
      = some s2 ∧ s2.out = s1.out ∧
        (s2.env .publicApi = if s.defd .inlineAll || s.defd .privateApi then s.env .publicApi else some .empty) ∧
        ∀ m, m ≠ .publicApi → s2.env m = s1.env m := by
    have hc : (s1.defd .inlineAll || s1.defd .privateApi) = (s.defd .inlineAll || s.defd .privateApi) := by
      simp only [Pre.defd, x1 .inlineAll (by simp), x1 .privateApi (by simp)]
    rw [hc]
    cases hi : (s.defd .inlineAll || s.defd .privateApi)
    · rw [Bool.or_eq_false_iff] at hi
      have : s1.env .publicApi = none := by
        rw [x1 _ (by simp)]
        exact hp (by simpa [Pre.defd] using hi.1) (by simpa [Pre.defd] using hi.2)
      obtain ⟨s2, h⟩ := define_none .publicApi .empty s1 this
      exact ⟨s2, by simpa [guarded] using h.1, h.2.1, by simpa using h.2.2.1, h.2.2.2⟩
    · exact ⟨s1, by simp [guarded], rfl, by simp [x1], fun _ _ => rfl⟩
  have hns : s2.defd .namespace_ = s.defd .namespace_ := by
    simp only [Pre.defd, x2 .namespace_ (by simp), x1 .namespace_ (by simp)]
  have hf2 : ∀ f, s2.env (.fn f) = s.env (.fn f) := fun f => by rw [x2 _ (by simp), x1 _ (by simp)]
  obtain ⟨s3, e3, o3, d3, x3⟩ : ∃ s3, guarded (s2.defd .namespace_) (nsFns.foldlM fun s f => define (.fn f) (.name2 f) s) s2 = some s3 ∧ s3.out = s2.out ∧
        (∀ f, s3.env (.fn f) = if s.defd .namespace_ then some (.name2 f) else s.env (.fn f)) ∧
        ∀ m, (∀ f, m ≠ .fn f) → s3.env m = s2.env m := by
    rw [hns]
    cases s.defd .namespace_
    · exact ⟨s2, by simp [guarded], rfl, by simpa using hf2, fun _ _ => rfl⟩
    · obtain ⟨s3, h1, h2, h3, h4⟩ := foldlM_define Macro.fn Body.name2 (by intro x y h; injection h with h; rw [h]) nsFns s2
        (fun f _ => by rw [hf2]; exact hf f)
      exact ⟨s3, by simpa [guarded] using h1, h2, fun f => by simpa using h3 f (mem_nsFns f),
        fun m hm => h4 m (fun f _ h => hm f h.symm)⟩
  refine ⟨emit (mainEvents s3) s3, ?_, ?_, ?_, ?_, ?_, ?_⟩
  · unfold mainSection
    rw [e1]; simp only [Option.bind_eq_bind, Option.bind_some]
    rw [e2]; simp only [Option.bind_some]
    rw [e3]; rfl
  · show s3.out ++ mainEvents s3 = s.out ++ mainEvents s3
    rw [o3, o2, o1]
  · show s3.env _ = _
    rw [x3 _ (by simp), x2 _ (by simp), d1]
  · show s3.env _ = _
    rw [x3 _ (by simp), d2]
  · exact d3
  · intro m h1 h2 h3
    show s3.env m = _
    rw [x3 _ h3, x2 _ h2, x1 _ h1]

theorem static_spec (s : Pre) (hg : s.env .guardStatic = none)
    (hi : (s.defd .inlineAll || s.defd .privateApi) = true → s.env .implementation = none ∨ s.env .implementation = some .empty) :
    ∃ s', staticSection s = some s' ∧ s'.out = s.out ++ staticEvents s' ∧ s'.env .guardStatic = some .empty ∧
      (s'.env .implementation = if s.defd .inlineAll || s.defd .privateApi then some .empty else s.env .implementation) ∧
      ∀ m, m ≠ .guardStatic → m ≠ .implementation → s'.env m = s.env m := by
  obtain ⟨s1, e1, o1, d1, x1⟩ := define_none .guardStatic .empty s hg
  have hc : ((emit (staticEvents s1) s1).defd .inlineAll || (emit (staticEvents s1) s1).defd .privateApi) =
      (s.defd .inlineAll || s.defd .privateApi) := by
    simp only [Pre.defd, emit, x1 .inlineAll (by simp), x1 .privateApi (by simp)]
  have hs : staticSection s = guarded (s.defd .inlineAll || s.defd .privateApi) (define .implementation .empty) (emit (staticEvents s1) s1) := by
    rw [← hc]
    unfold staticSection
    rw [e1]; rfl
  rw [hs]
  have hev : ∀ t : Pre, (∀ m, m ≠ .implementation → t.env m = s1.env m) → staticEvents t = staticEvents s1 := by
    intro t ht
    have h1 : ∀ f, t.resolve f = s1.resolve f := by
      intro f; simp only [Pre.resolve, Pre.prefix, ht (.fn f) (by simp), ht .namespace_ (by simp)]
    have h2 : ∀ f, t.resolveTy f = s1.resolveTy f := by
      intro f; simp only [Pre.resolveTy, ht (.ty f) (by simp)]
    simp only [staticEvents, h1, h2, Pre.priv, ht .publicApi (by simp)]
  cases hb : (s.defd .inlineAll || s.defd .privateApi)
  · refine ⟨emit (staticEvents s1) s1, by simp [guarded], ?_, d1, (by simp only [Bool.false_eq_true, if_false]; exact x1 .implementation (by simp)), ?_⟩
    · show s1.out ++ staticEvents s1 = s.out ++ staticEvents s1
      rw [o1]
    · intro m h1 _
      exact x1 m h1
  · have hi1 : (emit (staticEvents s1) s1).env .implementation = s.env .implementation := x1 _ (by simp)
    rcases hi hb with h | h
    · obtain ⟨s2, e2, o2, d2, x2⟩ := define_none .implementation .empty (emit (staticEvents s1) s1) (by rw [hi1, h])
      refine ⟨s2, by simpa [guarded] using e2, ?_, ?_, by simpa using d2, ?_⟩
      · rw [hev s2 (fun m hm => x2 m hm), o2]
        show s1.out ++ _ = _
        rw [o1]
      · rw [x2 _ (by simp)]; exact d1
      · intro m h1 h2
        rw [x2 m h2]; exact x1 m h1
    · refine ⟨emit (staticEvents s1) s1, ?_, ?_, d1, by simpa [h] using hi1, fun m h1 _ => x1 m h1⟩
      · simp [guarded, define, hi1, h]
      · show s1.out ++ staticEvents s1 = s.out ++ staticEvents s1
        rw [o1]

theorem impl_spec (s : Pre) (hg : s.env .guardImpl = none) :
    ∃ s', implSection s = some s' ∧ s'.out = s.out ++ implEvents s' ∧ s'.env .guardImpl = some .empty ∧
      ∀ m, m ≠ .guardImpl → s'.env m = s.env m := by
  obtain ⟨s1, e1, o1, d1, x1⟩ := define_none .guardImpl .empty s hg
  refine ⟨emit (implEvents s1) s1, ?_, ?_, d1, x1⟩
  · unfold implSection
    rw [e1]; rfl
  · show s1.out ++ implEvents s1 = s.out ++ implEvents s1
    rw [o1]

/-- What a name stands for depends on few macros. -/
theorem events_congr {s t : Pre} (hf : ∀ f, t.env (.fn f) = s.env (.fn f)) (ht : ∀ f, t.env (.ty f) = s.env (.ty f))
    (hn : t.env .namespace_ = s.env .namespace_) (hp : t.env .publicApi = s.env .publicApi) :
    mainEvents t = mainEvents s ∧ staticEvents t = staticEvents s ∧ implEvents t = implEvents s := by
  have h1 : ∀ f, t.resolve f = s.resolve f := by
    intro f; simp only [Pre.resolve, Pre.prefix, hf, hn]
  have h2 : ∀ f, t.resolveTy f = s.resolveTy f := by
    intro f; simp only [Pre.resolveTy, ht]
  simp only [mainEvents, staticEvents, implEvents, h1, h2, Pre.priv, hp, and_self]

/-- Undefined, or defined as nothing. -/
def Flag (s : Pre) (m : Macro) : Prop := s.env m = none ∨ s.env m = some .empty

/-- The end of xxhash.h: the advanced part and the implementation. -/
def tail (s : Pre) : Option Pre := do
  let s ← guarded (s.defd .staticLinkingOnly && !s.defd .guardStatic) staticSection s
  guarded ((s.defd .inlineAll || s.defd .privateApi || s.defd .implementation) && !s.defd .guardImpl) implSection s

theorem tail_spec (s : Pre) (hi : (s.defd .inlineAll || s.defd .privateApi) = true → Flag s .implementation) :
    ∃ s', tail s = some s' ∧
      (s'.out = s.out ++ (if s.defd .staticLinkingOnly && !s.defd .guardStatic then staticEvents s else []) ++
        if (s.defd .inlineAll || s.defd .privateApi || s.defd .implementation) && !s.defd .guardImpl then implEvents s else []) ∧
      (s'.env .guardStatic = if s.defd .staticLinkingOnly && !s.defd .guardStatic then some .empty else s.env .guardStatic) ∧
      (s'.env .guardImpl = if (s.defd .inlineAll || s.defd .privateApi || s.defd .implementation) && !s.defd .guardImpl
        then some .empty else s.env .guardImpl) ∧ (Flag s .implementation → Flag s' .implementation) ∧
      (s.env .inlineAll = none → s.env .privateApi = none → s'.env .implementation = s.env .implementation) ∧
      ∀ m, m ≠ .guardStatic → m ≠ .guardImpl → m ≠ .implementation → s'.env m = s.env m := by
  obtain ⟨s1, e1, o1, g1, i1, j1, x1⟩ : ∃ s1, guarded (s.defd .staticLinkingOnly && !s.defd .guardStatic) staticSection s
      = some s1 ∧ (s1.out = s.out ++ (if s.defd .staticLinkingOnly && !s.defd .guardStatic then staticEvents s else [])) ∧
      (s1.env .guardStatic = if s.defd .staticLinkingOnly && !s.defd .guardStatic then some .empty else s.env .guardStatic) ∧
      (Flag s .implementation → Flag s1 .implementation) ∧ (s.env .inlineAll = none → s.env .privateApi = none →
        s1.env .implementation = s.env .implementation) ∧
      ∀ m, m ≠ .guardStatic → m ≠ .implementation → s1.env m = s.env m := by
    cases hst : s.defd .staticLinkingOnly && !s.defd .guardStatic
    · exact ⟨s, by simp [guarded], by simp, by simp, id, fun _ _ => rfl, fun _ _ _ => rfl⟩
    · have hgs : s.env .guardStatic = none := by
        have := (Bool.and_eq_true_iff.1 hst).2
        simpa [Pre.defd] using this
      obtain ⟨s1, h1, h2, h3, h4, h5⟩ := static_spec s hgs hi
      refine ⟨s1, by simpa [guarded] using h1, ?_, by simpa using h3, ?_, ?_, h5⟩
      · rw [h2, (events_congr (fun f => h5 _ (by simp) (by simp)) (fun f => h5 _ (by simp) (by simp)) (h5 _ (by simp) (by simp))
          (h5 _ (by simp) (by simp))).2.1]
        simp
      · intro hfl
        unfold Flag; rw [h4]
        split
        · exact Or.inr rfl
        · exact hfl
      · intro a b
        rw [h4]; simp [Pre.defd, a, b]
  have hc : ((s1.defd .inlineAll || s1.defd .privateApi || s1.defd .implementation) && !s1.defd .guardImpl) =
      ((s.defd .inlineAll || s.defd .privateApi || s.defd .implementation) && !s.defd .guardImpl) := by
    simp only [Pre.defd, x1 .inlineAll (by simp) (by simp), x1 .privateApi (by simp) (by simp), x1 .guardImpl (by simp) (by simp)]
    cases ha : s.env .inlineAll
    · cases hb : s.env .privateApi
      · rw [j1 ha hb]
      · simp
    · simp
  have he := events_congr (fun f => x1 (.fn f) (by simp) (by simp)) (fun f => x1 (.ty f) (by simp) (by simp))
    (x1 .namespace_ (by simp) (by simp)) (x1 .publicApi (by simp) (by simp))
  have ht : tail s = guarded ((s.defd .inlineAll || s.defd .privateApi || s.defd .implementation) && !s.defd .guardImpl) implSection s1 := by
    rw [← hc]; unfold tail; rw [e1]; rfl
  rw [ht]
  cases hcc : ((s.defd .inlineAll || s.defd .privateApi || s.defd .implementation) && !s.defd .guardImpl)
  · exact ⟨s1, by simp [guarded], by simp [o1], g1, by simpa using x1 .guardImpl (by simp) (by simp), i1, j1, fun m a b c => x1 m a c⟩
  · have hgs : s1.env .guardImpl = none := by
      have := (Bool.and_eq_true_iff.1 (hc.trans hcc)).2
      simpa [Pre.defd] using this
    obtain ⟨s2, h1, h2, h3, h4⟩ := impl_spec s1 hgs
    have he2 := events_congr (fun f => h4 (.fn f) (by simp)) (fun f => h4 (.ty f) (by simp)) (h4 .namespace_ (by simp))
      (h4 .publicApi (by simp))
    refine ⟨s2, by simpa [guarded] using h1, ?_, ?_, by simpa using h3, ?_, ?_, ?_⟩
    · rw [h2, he2.2.2, he.2.2, o1]; simp
    · rw [h4 _ (by simp), g1]
    · intro hfl; unfold Flag; rw [h4 _ (by simp)]; exact i1 hfl
    · intro a b; rw [h4 _ (by simp), j1 a b]
    · intro m a b c; rw [h4 m b, x1 m a c]

/-! ## Phases -/

/-- Nothing has been included. -/
structure Fresh (s : Pre) : Prop where
  main : s.env .guardMain = none
  inl : s.env .guardInline = none
  static : s.env .guardStatic = none
  impl : s.env .guardImpl = none
  api : s.env .publicApi = none
  fn : ∀ f, s.env (.fn f) = none
  ty : ∀ t, s.env (.ty t) = none
  out : s.out = []

/-- The header has been included, but not for inlining. -/
structure Plain (s : Pre) : Prop where
  main : s.env .guardMain = some .one
  inl : s.env .guardInline = none
  static : Flag s .guardStatic
  impl : Flag s .guardImpl
  api : s.env .publicApi = some .empty
  fn : ∀ f, f ∉ undefFns → s.env (.fn f) = none ∨ s.env (.fn f) = some (.name2 f)
  ty : ∀ t, s.env (.ty t) = none

/-- The header has been included for inlining. -/
structure Inl (s : Pre) : Prop where
  main : s.env .guardMain = some .one
  inl : s.env .guardInline = some .empty
  static : s.env .guardStatic = some .empty
  impl : s.env .guardImpl = some .empty
  api : s.env .publicApi = some .private_

theorem xxhash_h_inl {s : Pre} (h : Inl s) : xxhash_h s = some s := by
  unfold xxhash_h
  simp only [guarded, Pre.defd, h.main, h.inl, h.static, h.impl, Option.isSome_some, Bool.not_true, Bool.and_false, Bool.false_eq_true,
    if_false, Option.bind_eq_bind, Option.bind_some]

/-- The name of a type for inlining. -/
def inlTy (t : Ty) : String := if t ∈ iprefTys then "XXH_NAMESPACE" ++ t.name else t.name

/-- The declarations for inlining. -/
def inlMain : List Event := (mainTys.map fun t => .type (inlTy t)) ++ mainFns.map fun f => .declare ("XXH_INLINE_" ++ f.name) true

/-- The declarations for inlining. -/
def inlStatic : List Event :=
  (staticTys.map fun t => .type (inlTy t)) ++ staticFns.map fun f => .declare ("XXH_INLINE_" ++ f.name) true

/-- The definitions for inlining. -/
def inlImpl : List Event := .internals :: implFns.map fun f => .define ("XXH_INLINE_" ++ f.name) true

theorem xxhash_h_enter {s : Pre} (h : Fresh s ∨ Plain s) (hi : Flag s .implementation)
    (hw : (s.defd .inlineAll || s.defd .privateApi) = true) :
    ∃ s', xxhash_h s = some s' ∧ Inl s' ∧ s'.out = s.out ++ inlMain ++ inlStatic ++ (if s.env .guardImpl = none then inlImpl else []) ∧
      s'.env .namespace_ = some (.ident "XXH_INLINE_") ∧ (∀ f, s'.env (.fn f) = some (.name2 f)) ∧
      (∀ t, s'.env (.ty t) = if t ∈ iprefTys then some (.ipref t) else none) ∧
      Flag s' .implementation ∧ ∀ m ∈ [Macro.inlineAll, .privateApi, .disableReplace, .guardDispatch], s'.env m = s.env m := by
  have hgi : s.env .guardInline = none := by rcases h with h | h <;> exact h.inl
  have hty : ∀ t, s.env (.ty t) = none := by rcases h with h | h <;> exact h.ty
  have hfn : ∀ f, f ∉ undefFns → s.env (.fn f) = none ∨ s.env (.fn f) = some (.name2 f) := by
    rcases h with h | h
    · exact fun f _ => Or.inl (h.fn f)
    · exact h.fn
  have him : Flag s .guardImpl := by
    rcases h with h | h
    · exact Or.inl h.impl
    · exact h.impl
  obtain ⟨s1, e1, o1, g1, st1, ap1, ns1, ma1, gs1, uf1, uo1, ti1, to1, x1⟩ := inline_spec s hgi hty
  have hw1 : (s1.defd .inlineAll || s1.defd .privateApi) = true := by
    rw [← hw]; simp only [Pre.defd, x1 .inlineAll (by simp), x1 .privateApi (by simp)]
  obtain ⟨s2, e2, o2, ma2, ap2, f2, x2⟩ := main_spec s1 ma1
    (by
      intro a b
      rw [Pre.defd, Pre.defd, a, b] at hw1
      cases hw1)
    (by
      intro f
      by_cases hf : f ∈ undefFns
      · exact Or.inl (uf1 f hf)
      · rw [uo1 f hf]; exact hfn f hf)
  have f2' : ∀ f, s2.env (.fn f) = some (.name2 f) := by
    intro f; rw [f2]; simp [Pre.defd, ns1]
  have ap2' : s2.env .publicApi = some .private_ := by rw [ap2, hw1]; simpa using ap1
  have ns2 : s2.env .namespace_ = some (.ident "XXH_INLINE_") := by rw [x2 _ (by simp) (by simp) (by simp), ns1]
  have st2 : s2.env .staticLinkingOnly = some .empty := by rw [x2 _ (by simp) (by simp) (by simp), st1]
  have gs2 : s2.env .guardStatic = none := by rw [x2 _ (by simp) (by simp) (by simp), gs1]
  have gi2 : s2.env .guardImpl = s.env .guardImpl := by rw [x2 _ (by simp) (by simp) (by simp), x1 _ (by simp)]
  have im2 : s2.env .implementation = s.env .implementation := by rw [x2 _ (by simp) (by simp) (by simp), x1 _ (by simp)]
  have ty2 : ∀ t, s2.env (.ty t) = if t ∈ iprefTys then some (.ipref t) else none := by
    intro t
    rw [x2 _ (by simp) (by simp) (by simp)]
    by_cases ht : t ∈ iprefTys
    · rw [ti1 t ht, if_pos ht]
    · rw [to1 t ht, if_neg ht]
  have hw2 : (s2.defd .inlineAll || s2.defd .privateApi) = true := by
    rw [← hw1]
    simp only [Pre.defd, x2 .inlineAll (by simp) (by simp) (by simp), x2 .privateApi (by simp) (by simp) (by simp)]
  obtain ⟨s3, e3, o3, gs3, gi3, im3, _, x3⟩ := tail_spec s2 (fun _ => by unfold Flag; rw [im2]; exact hi)
  have r2 : ∀ f, s2.resolve f = "XXH_INLINE_" ++ f.name := by
    intro f; simp only [Pre.resolve, f2', Pre.prefix, ns2]
  have t2 : ∀ t, s2.resolveTy t = inlTy t := by
    intro t
    by_cases ht : t ∈ iprefTys <;> simp only [Pre.resolveTy, ty2, inlTy, ht, if_true, if_false]
  have p2 : s2.priv = true := by simp only [Pre.priv, ap2']; rfl
  refine ⟨s3, ?_, ⟨?_, ?_, ?_, ?_, ?_⟩, ?_, ?_, ?_, ?_, im3 (by unfold Flag; rw [im2]; exact hi), ?_⟩
  · unfold xxhash_h
    rw [guarded, if_pos (by rw [hw, Pre.defd, hgi]; rfl), e1]
    simp only [Option.bind_eq_bind, Option.bind_some]
    rw [guarded, if_pos (by rw [Pre.defd, ma1]; rfl), e2]
    simp only [Option.bind_some]
    exact e3
  · rw [x3 _ (by simp) (by simp) (by simp), ma2]
  · rw [x3 _ (by simp) (by simp) (by simp), x2 _ (by simp) (by simp) (by simp), g1]
  · rw [gs3, if_pos (by rw [Pre.defd, Pre.defd, st2, gs2]; rfl)]
  · rw [gi3, hw2, Bool.true_or, Bool.true_and, gi2]
    rcases him with h0 | h0 <;> simp [Pre.defd, gi2, h0]
  · rw [x3 _ (by simp) (by simp) (by simp), ap2']
  · rw [o3, o2, o1, if_pos (by rw [Pre.defd, Pre.defd, st2, gs2]; rfl), hw2, Bool.true_or, Bool.true_and]
    have : (if (!s2.defd .guardImpl) = true then implEvents s2 else []) = if s.env .guardImpl = none then inlImpl else [] := by
      rcases him with h0 | h0 <;> simp [Pre.defd, gi2, h0, implEvents, inlImpl, r2, p2]
    rw [this]
    simp only [mainEvents, staticEvents, inlMain, inlStatic, r2, t2, p2]
  · rw [x3 _ (by simp) (by simp) (by simp), ns2]
  · intro f; rw [x3 _ (by simp) (by simp) (by simp), f2']
  · intro f; rw [x3 _ (by simp) (by simp) (by simp), ty2]
  · intro m hm
    simp only [List.mem_cons, List.not_mem_nil, or_false] at hm
    rcases hm with rfl | rfl | rfl | rfl <;>
      rw [x3 _ (by simp) (by simp) (by simp), x2 _ (by simp) (by simp) (by simp), x1 _ (by simp)]

/-- Inclusion without inlining, the first time. -/
theorem xxhash_h_first {s : Pre} (h : Fresh s) (ha : s.env .inlineAll = none)
    (hb : s.env .privateApi = none) :
    ∃ s', xxhash_h s = some s' ∧ Plain s' ∧
      (s'.out = mainEvents s' ++ (if s.defd .staticLinkingOnly then staticEvents s' else []) ++
        if s.defd .implementation then implEvents s' else []) ∧
      (s'.env .guardStatic = if s.defd .staticLinkingOnly then some .empty else none) ∧
      (s'.env .guardImpl = if s.defd .implementation then some .empty else none) ∧
      (∀ f, s'.env (.fn f) = if s.defd .namespace_ then some (.name2 f) else none) ∧
      ∀ m ∈ [Macro.inlineAll, .privateApi, .staticLinkingOnly, .implementation, .namespace_, .disableReplace, .guardDispatch],
        s'.env m = s.env m := by
  obtain ⟨s2, e2, o2, ma2, ap2, f2, x2⟩ := main_spec s h.main (fun _ _ => h.api) (fun f => Or.inl (h.fn f))
  have x2' : ∀ m, m ≠ .guardMain → m ≠ .publicApi → (∀ f, m ≠ .fn f) → s2.defd m = s.defd m := by
    intro m a b c; rw [Pre.defd, x2 m a b c]; rfl
  have ap2' : s2.env .publicApi = some .empty := by
    rw [ap2, Pre.defd, Pre.defd, ha, hb]; rfl
  have f2' : ∀ f, s2.env (.fn f) = if s.defd .namespace_ then some (.name2 f) else none := by
    intro f; rw [f2, h.fn]
  have gs2 : s2.env .guardStatic = none := by rw [x2 _ (by simp) (by simp) (by simp), h.static]
  have gi2 : s2.env .guardImpl = none := by rw [x2 _ (by simp) (by simp) (by simp), h.impl]
  obtain ⟨s3, e3, o3, gs3, gi3, im3, j3, x3⟩ := tail_spec s2 (by
    intro hc
    rw [x2' _ (by simp) (by simp) (by simp), x2' _ (by simp) (by simp) (by simp), Pre.defd, Pre.defd, ha, hb] at hc
    cases hc)
  have hev := events_congr (fun f => x3 (.fn f) (by simp) (by simp) (by simp)) (fun f => x3 (.ty f) (by simp) (by simp) (by simp))
    (x3 .namespace_ (by simp) (by simp) (by simp)) (x3 .publicApi (by simp) (by simp) (by simp))
  have hd : (s2.defd .guardStatic = false) ∧ s2.defd .guardImpl = false ∧ s2.defd .inlineAll = false ∧
      s2.defd .privateApi = false := by
    refine ⟨by rw [Pre.defd, gs2]; rfl, by rw [Pre.defd, gi2]; rfl, ?_, ?_⟩
    · rw [x2' _ (by simp) (by simp) (by simp), Pre.defd, ha]; rfl
    · rw [x2' _ (by simp) (by simp) (by simp), Pre.defd, hb]; rfl
  rw [hd.1, hd.2.1, hd.2.2.1, hd.2.2.2, x2' .staticLinkingOnly (by simp) (by simp) (by simp),
    x2' .implementation (by simp) (by simp) (by simp)] at o3
  rw [hd.1, x2' .staticLinkingOnly (by simp) (by simp) (by simp)] at gs3
  rw [hd.2.1, hd.2.2.1, hd.2.2.2, x2' .implementation (by simp) (by simp) (by simp)] at gi3
  simp only [Bool.not_false, Bool.and_true, Bool.false_or] at o3 gs3 gi3
  rw [gs2] at gs3
  rw [gi2] at gi3
  refine ⟨s3, ?_, ⟨?_, ?_, ?_, ?_, ?_, ?_, ?_⟩, ?_, gs3, gi3, ?_, ?_⟩
  · unfold xxhash_h
    rw [guarded, if_neg (by rw [Pre.defd, Pre.defd, ha, hb]; simp)]
    simp only [Option.bind_eq_bind, Option.bind_some]
    rw [guarded, if_pos (by rw [Pre.defd, h.main]; rfl), e2]
    simp only [Option.bind_some]
    exact e3
  · rw [x3 _ (by simp) (by simp) (by simp), ma2]
  · rw [x3 _ (by simp) (by simp) (by simp), x2 _ (by simp) (by simp) (by simp), h.inl]
  · unfold Flag; rw [gs3]; split <;> simp
  · unfold Flag; rw [gi3]; split <;> simp
  · rw [x3 _ (by simp) (by simp) (by simp), ap2']
  · intro f _
    rw [x3 _ (by simp) (by simp) (by simp), f2']; split <;> simp
  · intro t
    rw [x3 _ (by simp) (by simp) (by simp), x2 _ (by simp) (by simp) (by simp), h.ty]
  · rw [o3, o2, h.out, hev.1, hev.2.1, hev.2.2]; simp
  · intro f; rw [x3 _ (by simp) (by simp) (by simp), f2']
  · intro m hm
    simp only [List.mem_cons, List.not_mem_nil, or_false] at hm
    rcases hm with rfl | rfl | rfl | rfl | rfl | rfl | rfl
    case inr.inr.inr.inl =>
      rw [j3 (by rw [x2 _ (by simp) (by simp) (by simp), ha]) (by rw [x2 _ (by simp) (by simp) (by simp), hb]),
        x2 _ (by simp) (by simp) (by simp)]
    all_goals rw [x3 _ (by simp) (by simp) (by simp), x2 _ (by simp) (by simp) (by simp)]

/-- Inclusion without inlining, again. -/
theorem xxhash_h_again {s : Pre} (h : Plain s) (ha : s.env .inlineAll = none)
    (hb : s.env .privateApi = none) :
    ∃ s', xxhash_h s = some s' ∧ Plain s' ∧
      (s'.out = s.out ++ (if s.defd .staticLinkingOnly && !s.defd .guardStatic then staticEvents s else []) ++
        if s.defd .implementation && !s.defd .guardImpl then implEvents s else []) ∧
      (s'.env .guardStatic = if s.defd .staticLinkingOnly && !s.defd .guardStatic then some .empty else s.env .guardStatic) ∧
      (s'.env .guardImpl = if s.defd .implementation && !s.defd .guardImpl then some .empty else s.env .guardImpl) ∧
      ∀ m, m ≠ .guardStatic → m ≠ .guardImpl → s'.env m = s.env m := by
  obtain ⟨s3, e3, o3, gs3, gi3, im3, j3, x3⟩ := tail_spec s (by
    intro hc
    rw [Pre.defd, Pre.defd, ha, hb] at hc
    cases hc)
  have hd : s.defd .inlineAll = false ∧ s.defd .privateApi = false :=
    ⟨by rw [Pre.defd, ha]; rfl, by rw [Pre.defd, hb]; rfl⟩
  rw [hd.1, hd.2, Bool.false_or, Bool.false_or] at o3 gi3
  have x3' : ∀ m, m ≠ .guardStatic → m ≠ .guardImpl → s3.env m = s.env m := by
    intro m a b
    by_cases hm : m = .implementation
    · rw [hm, j3 ha hb]
    · exact x3 m a b hm
  refine ⟨s3, ?_, ⟨?_, ?_, ?_, ?_, ?_, ?_, ?_⟩, o3, gs3, gi3, x3'⟩
  · unfold xxhash_h
    rw [guarded, if_neg (by rw [hd.1, hd.2]; simp)]
    simp only [Option.bind_eq_bind, Option.bind_some]
    rw [guarded, if_neg (by rw [Pre.defd, h.main]; simp)]
    simp only [Option.bind_some]
    exact e3
  · rw [x3' _ (by simp) (by simp), h.main]
  · rw [x3' _ (by simp) (by simp), h.inl]
  · unfold Flag; rw [gs3]; split
    · exact Or.inr rfl
    · exact h.static
  · unfold Flag; rw [gi3]; split
    · exact Or.inr rfl
    · exact h.impl
  · rw [x3' _ (by simp) (by simp), h.api]
  · intro f hf
    rw [x3' _ (by simp) (by simp)]; exact h.fn f hf
  · intro f
    rw [x3' _ (by simp) (by simp)]; exact h.ty f

end XXH.Proof.IncludeP
