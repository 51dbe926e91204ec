import Verif.Proof.Include

/-! Lemmas for `Verif/Props/Include.lean`: invariants of the translation unit. -/
namespace XXH.Include
open XXH.Model.Include

/-- The type or enumerator. -/
def typeOf : Event → Option String | .type n => some n | _ => none

/-- The function defined. -/
def definedBy : Event → Option String | .define n _ => some n | _ => none

/-- The function defined for other units. -/
def exportedBy : Event → Option String | .define n false => some n | _ => none

/-- The function declared. -/
def declaredBy : Event → Option String | .declare n _ => some n | _ => none

/-- The types and enumerators a unit has seen. -/
def types (es : List Event) : List String := es.filterMap typeOf

/-- The functions of the interface a unit has seen the definition of. -/
def definitions (es : List Event) : List String := es.filterMap definedBy

/-- The functions a unit gives to the linker. -/
def externals (es : List Event) : List String := es.filterMap exportedBy

/-- The functions a unit has seen a declaration of. -/
def declarations (es : List Event) : List String := es.filterMap declaredBy

/-- The number of times the rest of the implementation was seen. -/
def internals (es : List Event) : Nat := es.count .internals

/-- A unit that does not inline the library: it sets macros other than `XXH_INLINE_ALL`, `XXH_PRIVATE_API` and `XXH_NAMESPACE`,
and includes xxhash.h. -/
def Ordinary : Step → Prop
  | .set o _ => o ≠ .inlineAll ∧ o ≠ .privateApi
  | .unset _ => True
  | .xxhash => True
  | _ => False

/-- `XXH_IMPLEMENTATION` is not defined as `1`, or nothing is inlined. -/
def Valid (l : List Step) : Prop :=
  (∀ t ∈ l, t ≠ .set .implementation true) ∨ ∀ t ∈ l, ∀ b, t ≠ .set .inlineAll b ∧ t ≠ .set .privateApi b

/-- `#define XXH_NAMESPACE`, if any. -/
def namespaced : Option String → List Step
  | none => []
  | some p => [.setNamespace p]

theorem types_append (a b : List Event) : types (a ++ b) = types a ++ types b := List.filterMap_append
theorem definitions_append (a b : List Event) : definitions (a ++ b) = definitions a ++ definitions b := List.filterMap_append
theorem externals_append (a b : List Event) : externals (a ++ b) = externals a ++ externals b := List.filterMap_append
theorem declarations_append (a b : List Event) : declarations (a ++ b) = declarations a ++ declarations b := List.filterMap_append
theorem types_nil : types [] = [] := rfl
theorem definitions_nil : definitions [] = [] := rfl
theorem externals_nil : externals [] = [] := rfl
theorem declarations_nil : declarations [] = [] := rfl
theorem internals_nil : internals [] = 0 := rfl
theorem internals_append (a b : List Event) : internals (a ++ b) = internals a + internals b := List.count_append

end XXH.Include

namespace XXH.Proof.IncludeP
open XXH.Model.Include XXH.Include

theorem filterMap_map_none {α β γ : Type} (g : α → β) (f : β → Option γ) (h : ∀ a, f (g a) = none) (l : List α) :
    (l.map g).filterMap f = [] := by
  rw [List.filterMap_map]
  exact List.filterMap_eq_nil_iff.2 (fun a _ => h a)

theorem filterMap_map_some {α β γ : Type} (g : α → β) (f : β → Option γ) (k : α → γ) (h : ∀ a, f (g a) = some (k a)) (l : List α) :
    (l.map g).filterMap f = l.map k := by
  rw [List.filterMap_map]
  induction l with
  | nil => rfl
  | cons a l ih => simp [h, ih]

theorem count_map_zero {α : Type} (g : α → Event) (e : Event) (h : ∀ a, g a ≠ e) (l : List α) : (l.map g).count e = 0 := by
  rw [List.count_eq_zero]
  intro hm
  obtain ⟨a, _, ha⟩ := List.mem_map.1 hm
  exact h a ha

/-! ## What a block of events consists of -/

/-- Declarations: types with names `k`, functions with names `n`. -/
def block (ts : List Ty) (fs : List Fn) (k : Ty → String) (n : Fn → String) (b : Bool) : List Event :=
  (ts.map fun t => .type (k t)) ++ fs.map fun f => .declare (n f) b

/-- The implementation. -/
def bodies (n : Fn → String) (b : Bool) : List Event := .internals :: implFns.map fun f => .define (n f) b

section
variable (ts : List Ty) (fs : List Fn) (k : Ty → String) (n : Fn → String) (b : Bool)

theorem types_block : types (block ts fs k n b) = ts.map k := by
  rw [types, block, List.filterMap_append, filterMap_map_some (fun t => Event.type (k t)) typeOf k (fun _ => rfl), filterMap_map_none _ _ (fun _ => rfl),
    List.append_nil]

theorem definitions_block : definitions (block ts fs k n b) = [] := by
  rw [definitions, block, List.filterMap_append, filterMap_map_none _ _ (fun _ => rfl), filterMap_map_none _ _ (fun _ => rfl),
    List.append_nil]

theorem externals_block : externals (block ts fs k n b) = [] := by
  rw [externals, block, List.filterMap_append, filterMap_map_none _ _ (fun _ => rfl), filterMap_map_none _ _ (fun _ => rfl),
    List.append_nil]

theorem declarations_block : declarations (block ts fs k n b) = fs.map n := by
  rw [declarations, block, List.filterMap_append, filterMap_map_none _ _ (fun _ => rfl),
    filterMap_map_some (fun f => Event.declare (n f) b) declaredBy n (fun _ => rfl), List.nil_append]

theorem internals_block : internals (block ts fs k n b) = 0 := by
  rw [internals, block, List.count_append, count_map_zero _ _ (by simp), count_map_zero _ _ (by simp)]

theorem types_bodies : types (bodies n b) = [] := by
  rw [types, bodies, List.filterMap_cons_none rfl, filterMap_map_none _ _ (fun _ => rfl)]

theorem definitions_bodies : definitions (bodies n b) = implFns.map n := by
  rw [definitions, bodies, List.filterMap_cons_none rfl,
    filterMap_map_some (fun f => Event.define (n f) b) definedBy n (fun _ => rfl)]

theorem externals_bodies_true : externals (bodies n true) = [] := by
  rw [externals, bodies, List.filterMap_cons_none rfl, filterMap_map_none _ _ (fun _ => rfl)]

theorem externals_bodies_false : externals (bodies n false) = implFns.map n := by
  rw [externals, bodies, List.filterMap_cons_none rfl,
    filterMap_map_some (fun f => Event.define (n f) false) exportedBy n (fun _ => rfl)]

theorem declarations_bodies : declarations (bodies n b) = [] := by
  rw [declarations, bodies, List.filterMap_cons_none rfl, filterMap_map_none _ _ (fun _ => rfl)]

theorem internals_bodies : internals (bodies n b) = 1 := by
  rw [internals, bodies, List.count_cons_self, count_map_zero _ _ (by simp)]

end

theorem inlMain_block : inlMain = block mainTys mainFns inlTy (fun f => "XXH_INLINE_" ++ f.name) true := rfl
theorem inlStatic_block : inlStatic = block staticTys staticFns inlTy (fun f => "XXH_INLINE_" ++ f.name) true := rfl
theorem inlImpl_bodies : inlImpl = bodies (fun f => "XXH_INLINE_" ++ f.name) true := rfl

theorem plain_ty {s : Pre} (h : Plain s) (t : Ty) : s.resolveTy t = t.name := by simp only [Pre.resolveTy, h.ty]
theorem plain_priv {s : Pre} (h : Plain s) : s.priv = false := by simp only [Pre.priv, h.api]; rfl

theorem main_block {s : Pre} (h : Plain s) : mainEvents s = block mainTys mainFns Ty.name s.resolve false := by
  rw [mainEvents, plain_priv h]
  simp only [plain_ty h]
  rfl
theorem static_block {s : Pre} (h : Plain s) : staticEvents s = block staticTys staticFns Ty.name s.resolve false := by
  rw [staticEvents, plain_priv h]
  simp only [plain_ty h]
  rfl
theorem impl_bodies {s : Pre} (h : Plain s) : implEvents s = bodies s.resolve false := by
  rw [implEvents, plain_priv h]
  rfl

/-! ## Invariants -/

/-- Macros no phase depends on. -/
def isOpt : Macro → Bool
  | .inlineAll | .privateApi | .staticLinkingOnly | .implementation | .namespace_ | .disableReplace | .guardDispatch => true
  | _ => false

theorem Fresh.congr {s s' : Pre} (h : Fresh s) (ho : s'.out = s.out) (he : ∀ m, isOpt m = false → s'.env m = s.env m) : Fresh s' :=
  ⟨by rw [he _ rfl, h.main], by rw [he _ rfl, h.inl], by rw [he _ rfl, h.static], by rw [he _ rfl, h.impl],
    by rw [he _ rfl, h.api], fun f => by rw [he _ rfl, h.fn], fun f => by rw [he _ rfl, h.ty], by rw [ho, h.out]⟩

theorem Flag.congr {s s' : Pre} {m : Macro} (h : Flag s m) (he : s'.env m = s.env m) : Flag s' m := by
  unfold Flag; rw [he]; exact h

theorem Plain.congr {s s' : Pre} (h : Plain s) (he : ∀ m, isOpt m = false → s'.env m = s.env m) : Plain s' :=
  ⟨by rw [he _ rfl, h.main], by rw [he _ rfl, h.inl], h.static.congr (he _ rfl), h.impl.congr (he _ rfl),
    by rw [he _ rfl, h.api], fun f => by rw [he _ rfl]; exact h.fn f, fun f => by rw [he _ rfl, h.ty]⟩

theorem Inl.congr {s s' : Pre} (h : Inl s) (he : ∀ m, isOpt m = false → s'.env m = s.env m) : Inl s' :=
  ⟨by rw [he _ rfl, h.main], by rw [he _ rfl, h.inl], by rw [he _ rfl, h.static], by rw [he _ rfl, h.impl],
    by rw [he _ rfl, h.api]⟩

/-- Type names before inlining. -/
def plainNames (static : Bool) : List String := mainTys.map Ty.name ++ if static then staticTys.map Ty.name else []

/-- Type names for inlining. -/
def inlNames : List String := mainTys.map inlTy ++ staticTys.map inlTy

/-- The header has been included, in one way or the other. -/
def Good' (s : Pre) : Prop :=
  (Plain s ∧ types s.out = plainNames (s.defd .guardStatic) ∧ internals s.out = if s.env .guardImpl = none then 0 else 1) ∨
  (Inl s ∧ (types s.out = inlNames ∨ ∃ b, types s.out = plainNames b ++ inlNames) ∧ internals s.out = 1)

/-- The state is that of a unit. -/
def Good (s : Pre) : Prop := Fresh s ∨ Good' s

/-- The names are uniformly renamed. -/
def Uniform (s : Pre) : Prop := (∀ f, s.env (.fn f) = none) ∨ ∀ f, s.env (.fn f) = some (.name2 f)

/-- The functions defined are distinct. -/
def Once (s : Pre) : Prop := (s.env .guardImpl = none → definitions s.out = []) ∧ (definitions s.out).Nodup

theorem Uniform.resolve {s : Pre} (h : Uniform s) : ∃ p, ∀ f, s.resolve f = p ++ f.name := by
  rcases h with h | h
  · exact ⟨"", fun f => by simp only [Pre.resolve, h, String.empty_append]⟩
  · exact ⟨s.prefix, fun f => by simp only [Pre.resolve, h]⟩

theorem nodup_implFns : implFns.Nodup := by decide +kernel

theorem Uniform.nodup {s : Pre} (h : Uniform s) : (implFns.map s.resolve).Nodup := by
  obtain ⟨p, hp⟩ := h.resolve
  rw [show s.resolve = fun f => p ++ f.name from funext hp]
  exact nodup_prefixed p nodup_implFns

/-- The result of including xxhash.h. -/
theorem xxhash_good {s : Pre} (h : Good s)
    (hw : Flag s .implementation ∨ (s.env .inlineAll = none ∧ s.env .privateApi = none)) :
    ∃ s', xxhash_h s = some s' ∧ Good' s' ∧ (Flag s .implementation → Flag s' .implementation) ∧
      (Uniform s → Once s → Uniform s' ∧ Once s') ∧
      ∀ m ∈ [Macro.inlineAll, .privateApi, .disableReplace, .guardDispatch], s'.env m = s.env m := by
  rcases h with h | h | h
  · -- nothing included
    by_cases hi : (s.defd .inlineAll || s.defd .privateApi) = true
    · have hfl : Flag s .implementation := by
        rcases hw with h | ⟨h1, h2⟩
        · exact h
        · rw [Pre.defd, Pre.defd, h1, h2] at hi; cases hi
      obtain ⟨s', e, hI, ho, hn, hf, ht, hl, hx⟩ := xxhash_h_enter (Or.inl h) hfl hi
      rw [h.out, h.impl, if_pos rfl, List.nil_append] at ho
      refine ⟨s', e, Or.inr ⟨hI, Or.inl ?_, ?_⟩, fun _ => hl, fun _ _ => ⟨Or.inr hf, ?_, ?_⟩, hx⟩
      · rw [ho, inlMain_block, inlStatic_block, inlImpl_bodies]
        simp only [types_append, types_block, types_bodies, inlNames, List.append_nil]
      · rw [ho, inlMain_block, inlStatic_block, inlImpl_bodies]
        simp only [internals_append, internals_block, internals_bodies]
      · intro hc; rw [hI.impl] at hc; cases hc
      · rw [ho, inlMain_block, inlStatic_block, inlImpl_bodies]
        simp only [definitions_append, definitions_block, definitions_bodies, List.nil_append]
        exact nodup_prefixed _ nodup_implFns
    · have ha : s.env .inlineAll = none ∧ s.env .privateApi = none := by
        simpa [Pre.defd] using hi
      obtain ⟨s', e, hP, ho, hgs, hgi, hf, hx⟩ := xxhash_h_first h ha.1 ha.2
      rw [main_block hP, static_block hP, impl_bodies hP] at ho
      have hU : Uniform s' := by
        cases hns : s.defd .namespace_
        · exact Or.inl (fun f => by rw [hf, hns]; rfl)
        · exact Or.inr (fun f => by rw [hf, hns]; rfl)
      refine ⟨s', e, Or.inl ⟨hP, ?_, ?_⟩, fun hfl => hfl.congr (hx _ (by simp)), fun _ _ => ⟨hU, ?_, ?_⟩,
        fun m hm => hx m (by simp only [List.mem_cons, List.not_mem_nil, or_false] at hm ⊢; rcases hm with h | h | h | h <;> simp [h])⟩
      · rw [ho, show s'.defd .guardStatic = (s'.env .guardStatic).isSome from rfl, hgs]
        cases s.defd .staticLinkingOnly <;> cases s.defd .implementation <;>
          simp [types_append, types_block, types_bodies, plainNames]
      · rw [ho, hgi]
        cases s.defd .staticLinkingOnly <;> cases s.defd .implementation <;>
          simp [internals_append, internals_block, internals_bodies]
      · rw [ho, hgi]
        cases s.defd .staticLinkingOnly <;> cases s.defd .implementation <;>
          simp [definitions_append, definitions_block]
      · rw [ho]
        cases s.defd .staticLinkingOnly <;> cases s.defd .implementation <;>
          simp [definitions_append, definitions_block, definitions_bodies, hU.nodup]
  · -- included before
    obtain ⟨hp, hty, hin⟩ := h
    by_cases hi : (s.defd .inlineAll || s.defd .privateApi) = true
    · have hfl : Flag s .implementation := by
        rcases hw with h | ⟨h1, h2⟩
        · exact h
        · rw [Pre.defd, Pre.defd, h1, h2] at hi; cases hi
      obtain ⟨s', e, hI, ho, hn, hf, ht, hl, hx⟩ := xxhash_h_enter (Or.inr hp) hfl hi
      rw [inlMain_block, inlStatic_block, inlImpl_bodies] at ho
      refine ⟨s', e, Or.inr ⟨hI, Or.inr ⟨s.defd .guardStatic, ?_⟩, ?_⟩, fun _ => hl, fun _ hd => ⟨Or.inr hf, ?_, ?_⟩, hx⟩
      · rw [ho]
        by_cases hg : s.env .guardImpl = none
        · rw [if_pos hg]
          simp only [types_append, types_block, types_bodies, inlNames, List.append_nil, hty, List.append_assoc]
        · rw [if_neg hg]
          simp only [types_append, types_block, inlNames, List.append_nil, hty, List.append_assoc]
      · rw [ho]
        by_cases hg : s.env .guardImpl = none
        · rw [if_pos hg] at hin ⊢
          simp only [internals_append, internals_block, internals_bodies, hin]
        · rw [if_neg hg] at hin ⊢
          simp only [internals_append, internals_block, hin, List.append_nil]
      · intro hc; rw [hI.impl] at hc; cases hc
      · rw [ho]
        by_cases hg : s.env .guardImpl = none
        · rw [if_pos hg]
          simp only [definitions_append, definitions_block, definitions_bodies, List.append_nil, hd.1 hg, List.nil_append]
          exact nodup_prefixed _ nodup_implFns
        · rw [if_neg hg]
          simp only [definitions_append, definitions_block, List.append_nil]
          exact hd.2
    · have ha : s.env .inlineAll = none ∧ s.env .privateApi = none := by
        simpa [Pre.defd] using hi
      obtain ⟨s', e, hP, ho, hgs, hgi, hx⟩ := xxhash_h_again hp ha.1 ha.2
      rw [static_block hp, impl_bodies hp] at ho
      refine ⟨s', e, Or.inl ⟨hP, ?_, ?_⟩, fun hfl => hfl.congr (hx _ (by simp) (by simp)), fun hU hd => ⟨?_, ?_, ?_⟩, ?_⟩
      · rw [ho, show s'.defd .guardStatic = (s'.env .guardStatic).isSome from rfl, hgs, types_append, types_append, hty]
        cases hs0 : s.defd .guardStatic
        · have : s.env .guardStatic = none := by simpa [Pre.defd] using hs0
          cases s.defd .staticLinkingOnly <;> cases (s.defd .implementation && !s.defd .guardImpl) <;>
            simp [types_block, types_bodies, plainNames, types_nil, this]
        · have : (s.env .guardStatic).isSome = true := hs0
          cases (s.defd .implementation && !s.defd .guardImpl) <;>
            simp [types_bodies, plainNames, types_nil, this]
      · rw [ho, hgi, internals_append, internals_append, hin]
        have hs2 : s.defd .guardImpl = (s.env .guardImpl).isSome := rfl
        rcases hp.impl with h0 | h0 <;> cases hs1 : s.defd .implementation <;>
          cases (s.defd .staticLinkingOnly && !s.defd .guardStatic) <;>
          simp [internals_block, internals_bodies, h0, hs2, internals_nil]
      · rcases hU with h | h
        · exact Or.inl (fun f => by rw [hx _ (by simp) (by simp), h])
        · exact Or.inr (fun f => by rw [hx _ (by simp) (by simp), h])
      · intro hc
        have h0 : s.env .guardImpl = none ∧ s.defd .implementation = false := by
          rw [hgi] at hc
          cases hs1 : s.defd .implementation
          · simpa [hs1] using hc
          · have hs2 : s.defd .guardImpl = (s.env .guardImpl).isSome := rfl
            rcases hp.impl with h0 | h0 <;> simp [hs1, hs2, h0] at hc
        rw [ho, definitions_append, definitions_append, hd.1 h0.1, h0.2]
        cases (s.defd .staticLinkingOnly && !s.defd .guardStatic) <;> simp [definitions_block, definitions_nil]
      · rw [ho, definitions_append, definitions_append]
        have hbl : definitions (if (s.defd .staticLinkingOnly && !s.defd .guardStatic) = true then
            block staticTys staticFns Ty.name s.resolve false else []) = [] := by
          split
          · exact definitions_block _ _ _ _ _
          · rfl
        rw [hbl, List.append_nil]
        by_cases hc : (s.defd .implementation && !s.defd .guardImpl) = true
        · have h0 : s.env .guardImpl = none := by
            have := (Bool.and_eq_true_iff.1 hc).2
            simpa [Pre.defd] using this
          rw [if_pos hc, hd.1 h0, definitions_bodies, List.nil_append]
          exact hU.nodup
        · rw [if_neg hc]
          simpa [definitions] using hd.2
      · intro m hm
        simp only [List.mem_cons, List.not_mem_nil, or_false] at hm
        rcases hm with rfl | rfl | rfl | rfl <;> exact hx _ (by simp) (by simp)
  · -- inlined before
    exact ⟨s, xxhash_h_inl h.1, Or.inr h, id, fun a b => ⟨a, b⟩, fun _ _ => rfl⟩

/-! ## Steps -/

/-- A step that includes nothing. -/
def Setting : Step → Prop
  | .set .. | .unset _ | .setNamespace _ | .unsetNamespace => True
  | .xxhash | .dispatch => False

theorem define_undef (m : Macro) (b : Body) (s : Pre) :
    ∃ s', define m b (undef m s) = some s' ∧ s'.out = s.out ∧ s'.env m = some b ∧ ∀ x, x ≠ m → s'.env x = s.env x := by
  obtain ⟨s', h1, h2, h3, h4⟩ := define_none m b (undef m s) (undef_env m s)
  exact ⟨s', h1, h2, h3, fun x hx => by rw [h4 x hx, undef_other _ _ _ hx]⟩

/-- The macro a step is about. -/
def about : Step → Macro
  | .set o _ => o.macro
  | .unset o => o.macro
  | _ => .namespace_

theorem isOpt_about (t : Step) : isOpt (about t) = true := by
  cases t with
  | set o _ => cases o <;> rfl
  | unset o => cases o <;> rfl
  | _ => rfl

/-- The value it gives it. -/
def gives : Step → Option Body
  | .set _ b => some (if b then .one else .empty)
  | .setNamespace p => some (.ident p)
  | _ => none

theorem step_setting {t : Step} (h : Setting t) (s : Pre) :
    ∃ s', step s t = some s' ∧ s'.out = s.out ∧ s'.env (about t) = gives t ∧ ∀ x, x ≠ about t → s'.env x = s.env x := by
  cases t with
  | set o b => exact define_undef _ _ s
  | unset o => exact ⟨_, rfl, rfl, undef_env _ _, fun x hx => undef_other _ _ _ hx⟩
  | setNamespace p => exact define_undef .namespace_ (.ident p) s
  | unsetNamespace => exact ⟨_, rfl, rfl, undef_env _ _, fun x hx => undef_other _ _ _ hx⟩
  | xxhash => exact h.elim
  | dispatch => exact h.elim

theorem setting_opt {t : Step} {s s' : Pre} (hx : ∀ x, x ≠ about t → s'.env x = s.env x) (m : Macro) (hm : isOpt m = false) :
    s'.env m = s.env m := hx m (fun h => by rw [h, isOpt_about] at hm; cases hm)

theorem Good'.congr {s s' : Pre} (h : Good' s) (ho : s'.out = s.out) (he : ∀ m, isOpt m = false → s'.env m = s.env m) :
    Good' s' := by
  rcases h with ⟨h1, h2, h3⟩ | ⟨h1, h2, h3⟩
  · refine Or.inl ⟨h1.congr he, ?_, ?_⟩
    · rw [ho, h2, Pre.defd, Pre.defd, he _ rfl]
    · rw [ho, h3, he _ rfl]
  · exact Or.inr ⟨h1.congr he, by rw [ho]; exact h2, by rw [ho]; exact h3⟩

theorem Good.congr {s s' : Pre} (h : Good s) (ho : s'.out = s.out) (he : ∀ m, isOpt m = false → s'.env m = s.env m) : Good s' := by
  rcases h with h | h
  · exact Or.inl (h.congr ho he)
  · exact Or.inr (h.congr ho he)

theorem Once.congr {s s' : Pre} (h : Once s) (ho : s'.out = s.out) (he : ∀ m, isOpt m = false → s'.env m = s.env m) : Once s' :=
  ⟨fun hg => by rw [ho]; exact h.1 (by rw [← he _ rfl]; exact hg), by rw [ho]; exact h.2⟩

theorem Uniform.congr {s s' : Pre} (h : Uniform s) (he : ∀ f, s'.env (.fn f) = s.env (.fn f)) : Uniform s' := by
  rcases h with h | h
  · exact Or.inl (fun f => by rw [he, h])
  · exact Or.inr (fun f => by rw [he, h])

theorem replaced_undef : ∀ r ∈ replacements, r.1 ∈ undefFns := by decide +kernel

/-- The declarations of xxh_x86dispatch.h. -/
def dispatchEvents (b : Bool) : List Event := dispatchFns.map fun f => .declare (f.name ++ "_dispatch") b

theorem types_dispatch (b : Bool) : types (dispatchEvents b) = [] := filterMap_map_none _ _ (fun _ => rfl) _
theorem definitions_dispatch (b : Bool) : definitions (dispatchEvents b) = [] := filterMap_map_none _ _ (fun _ => rfl) _
theorem externals_dispatch (b : Bool) : externals (dispatchEvents b) = [] := filterMap_map_none _ _ (fun _ => rfl) _
theorem internals_dispatch (b : Bool) : internals (dispatchEvents b) = 0 := count_map_zero _ _ (by simp) _

/-- The rest of xxh_x86dispatch.h. -/
theorem dispatch_rest (s : Pre) :
    ∃ s', guarded (!s.defd .disableReplace)
        (replacements.foldlM fun s r => define (.fn r.1) (.dispatch r.2) (undef (.fn r.1) s)) s = some s' ∧ s'.out = s.out ∧
      (∀ x, (∀ f, Macro.fn f ≠ x) → s'.env x = s.env x) ∧
      (∀ f, (s.defd .disableReplace = true ∨ ∀ r ∈ replacements, r.1 ≠ f) → s'.env (.fn f) = s.env (.fn f)) ∧
      (∀ f, s.defd .disableReplace = false → (∃ r ∈ replacements, r.1 = f) →
        ∃ r ∈ replacements, r.1 = f ∧ s'.env (.fn f) = some (.dispatch r.2)) := by
  unfold guarded
  cases hd : s.defd .disableReplace
  · obtain ⟨s', h1, h2, h3, h4, h5⟩ := foldlM_replace replacements s
    exact ⟨s', by simpa using h1, h2, h5, fun f hf => h3 f (by simpa using hf), fun f _ => h4 f⟩
  · exact ⟨s, by simp, rfl, fun _ _ => rfl, fun _ _ => rfl, by simp⟩

theorem dispatch_unfold {s s1 s2 : Pre} (hg : s.env .guardDispatch = none) (h1 : define .guardDispatch .empty s = some s1)
    (h2 : xxhash_h s1 = some s2) :
    dispatch_h s = guarded (!(emit (dispatchEvents s2.priv) s2).defd .disableReplace)
      (replacements.foldlM fun s r => define (.fn r.1) (.dispatch r.2) (undef (.fn r.1) s)) (emit (dispatchEvents s2.priv) s2) := by
  unfold dispatch_h
  rw [if_neg (by rw [Pre.defd, hg]; simp), h1]
  simp only [Option.bind_eq_bind, Option.bind_some]
  rw [h2]
  rfl

theorem Good'.emit {s : Pre} (h : Good' s) (b : Bool) : Good' (emit (dispatchEvents b) s) := by
  rcases h with ⟨h1, h2, h3⟩ | ⟨h1, h2, h3⟩
  · refine Or.inl ⟨h1.congr (fun _ _ => rfl), ?_, ?_⟩
    · show types (s.out ++ dispatchEvents b) = _
      rw [types_append, types_dispatch, List.append_nil, h2]; rfl
    · show internals (s.out ++ dispatchEvents b) = _
      rw [internals_append, internals_dispatch, Nat.add_zero, h3]; rfl
  · refine Or.inr ⟨h1.congr (fun _ _ => rfl), ?_, ?_⟩
    · show types (s.out ++ dispatchEvents b) = _ ∨ ∃ b', types (s.out ++ dispatchEvents b) = _
      rw [types_append, types_dispatch, List.append_nil]; exact h2
    · show internals (s.out ++ dispatchEvents b) = _
      rw [internals_append, internals_dispatch, Nat.add_zero, h3]

theorem Good'.replace {s s' : Pre} (h : Good' s) (ho : s'.out = s.out) (hx : ∀ x, (∀ f, Macro.fn f ≠ x) → s'.env x = s.env x)
    (hf : ∀ f, (∀ r ∈ replacements, r.1 ≠ f) → s'.env (.fn f) = s.env (.fn f)) : Good' s' := by
  rcases h with ⟨h1, h2, h3⟩ | ⟨h1, h2, h3⟩
  · refine Or.inl ⟨⟨?_, ?_, ?_, ?_, ?_, ?_, ?_⟩, ?_, ?_⟩
    · rw [hx _ (by simp), h1.main]
    · rw [hx _ (by simp), h1.inl]
    · exact h1.static.congr (hx _ (by simp))
    · exact h1.impl.congr (hx _ (by simp))
    · rw [hx _ (by simp), h1.api]
    · intro f hu
      rw [hf f (fun r hr e => hu (e ▸ replaced_undef r hr))]
      exact h1.fn f hu
    · intro t; rw [hx _ (by simp), h1.ty]
    · rw [ho, h2, Pre.defd, Pre.defd, hx _ (by simp)]
    · rw [ho, h3, hx _ (by simp)]
  · refine Or.inr ⟨⟨?_, ?_, ?_, ?_, ?_⟩, by rw [ho]; exact h2, by rw [ho]; exact h3⟩
    · rw [hx _ (by simp), h1.main]
    · rw [hx _ (by simp), h1.inl]
    · rw [hx _ (by simp), h1.static]
    · rw [hx _ (by simp), h1.impl]
    · rw [hx _ (by simp), h1.api]

/-- Steps that do not define `XXH_IMPLEMENTATION` as `1`. -/
def NotOne (t : Step) : Prop := t ≠ .set .implementation true

/-- Steps that do not ask for inlining. -/
def NotInline (t : Step) : Prop := ∀ b, t ≠ .set .inlineAll b ∧ t ≠ .set .privateApi b

/-- The hypothesis on `XXH_IMPLEMENTATION`. -/
def Weak (one : Bool) (s : Pre) : Prop :=
  if one then s.env .inlineAll = none ∧ s.env .privateApi = none else Flag s .implementation

/-- The steps that keep it. -/
def Keeps (one : Bool) (t : Step) : Prop := if one then NotInline t else NotOne t

theorem Weak.or {one : Bool} {s : Pre} (h : Weak one s) :
    Flag s .implementation ∨ (s.env .inlineAll = none ∧ s.env .privateApi = none) := by
  cases one
  · exact Or.inl h
  · exact Or.inr h

theorem Weak.setting {one : Bool} {s s' : Pre} {t : Step} (hw : Weak one s) (ht : Setting t) (hk : Keeps one t)
    (ha : s'.env (about t) = gives t) (hx : ∀ x, x ≠ about t → s'.env x = s.env x) : Weak one s' := by
  cases one
  · show Flag s' .implementation
    by_cases h : about t = .implementation
    · unfold Flag
      rw [← h, ha]
      cases t with
      | set o b =>
        cases o <;> try (cases h)
        cases b
        · exact Or.inr rfl
        · exact absurd rfl hk
      | setNamespace p => cases h
      | _ => exact Or.inl rfl
    · exact Flag.congr hw (hx _ (Ne.symm h))
  · have key : ∀ o : Opt, (o = .inlineAll ∨ o = .privateApi) → s.env o.macro = none → s'.env o.macro = none := by
      intro o ho h0
      by_cases h : about t = o.macro
      · rw [← h, ha]
        cases t with
        | set o' b =>
          have : o' = o := by
            cases o <;> cases o' <;> first | rfl | (cases h)
          subst this
          rcases ho with rfl | rfl
          · exact absurd rfl (hk b).1
          · exact absurd rfl (hk b).2
        | setNamespace p => cases o <;> cases h
        | _ => rfl
      · rw [hx _ (Ne.symm h), h0]
    exact ⟨key .inlineAll (Or.inl rfl) hw.1, key .privateApi (Or.inr rfl) hw.2⟩

theorem Weak.xxhash {one : Bool} {s s' : Pre} (hw : Weak one s) (hl : Flag s .implementation → Flag s' .implementation)
    (hx : ∀ m ∈ [Macro.inlineAll, .privateApi, .disableReplace, .guardDispatch], s'.env m = s.env m) : Weak one s' := by
  cases one
  · exact hl hw
  · exact ⟨by rw [hx _ (by simp)]; exact hw.1, by rw [hx _ (by simp)]; exact hw.2⟩

theorem Weak.congr {one : Bool} {s s' : Pre} (hw : Weak one s) (h1 : s'.env .inlineAll = s.env .inlineAll)
    (h2 : s'.env .privateApi = s.env .privateApi) (h3 : s'.env .implementation = s.env .implementation) : Weak one s' := by
  cases one
  · exact Flag.congr hw h3
  · exact ⟨by rw [h1]; exact hw.1, by rw [h2]; exact hw.2⟩

/-- One step keeps the invariants. -/
theorem step_good {one : Bool} {s : Pre} {t : Step} (h : Good s) (hw : Weak one s) (hk : Keeps one t) :
    ∃ s', step s t = some s' ∧ Good s' ∧ Weak one s' ∧
      (t ≠ .dispatch → Uniform s → Once s → Uniform s' ∧ Once s') := by
  by_cases hs : Setting t
  · obtain ⟨s', e, ho, ha, hx⟩ := step_setting hs s
    have he := fun m hm => setting_opt hx m hm
    exact ⟨s', e, h.congr ho he, hw.setting hs hk ha hx, fun _ hu hd => ⟨hu.congr (fun f => he _ rfl), hd.congr ho he⟩⟩
  · cases t with
    | xxhash =>
      obtain ⟨s', e, hG, hl, hu, hx⟩ := xxhash_good h hw.or
      exact ⟨s', e, Or.inr hG, hw.xxhash hl hx, fun _ => hu⟩
    | dispatch =>
      show ∃ s', dispatch_h s = some s' ∧ _
      by_cases hg : s.env .guardDispatch = none
      · obtain ⟨s1, e1, o1, d1, x1⟩ := define_none .guardDispatch .empty s hg
        have hG1 : Good s1 := h.congr o1 (fun m hm => x1 m (fun h => by rw [h] at hm; cases hm))
        have hw1 : Weak one s1 := hw.congr (x1 _ (by simp)) (x1 _ (by simp)) (x1 _ (by simp))
        obtain ⟨s2, e2, hG2, hl2, hu2, hx2⟩ := xxhash_good hG1 hw1.or
        have hw2 := hw1.xxhash hl2 hx2
        obtain ⟨s3, e3, o3, x3, f3, -⟩ := dispatch_rest (emit (dispatchEvents s2.priv) s2)
        refine ⟨s3, by rw [dispatch_unfold hg e1 e2, e3], Or.inr ?_, ?_, fun h => absurd rfl h⟩
        · exact Good'.replace (hG2.emit _) o3 x3 (fun f hf => f3 f (Or.inr hf))
        · exact Weak.congr (s := s2) hw2 (x3 _ (by simp)) (x3 _ (by simp)) (x3 _ (by simp))
      · refine ⟨s, ?_, h, hw, fun h => absurd rfl h⟩
        unfold dispatch_h
        rw [if_pos (by rw [Pre.defd]; exact Option.isSome_iff_ne_none.2 hg)]
    | _ => exact absurd trivial hs

theorem steps_good {one : Bool} : ∀ (l : List Step) (s : Pre), Good s → Weak one s → (∀ t ∈ l, Keeps one t) →
    ∃ s', l.foldlM step s = some s' ∧ Good s' ∧ Weak one s' ∧
      ((∀ t ∈ l, t ≠ .dispatch) → Uniform s → Once s → Uniform s' ∧ Once s')
  | [], s, h, hw, _ => ⟨s, rfl, h, hw, fun _ a b => ⟨a, b⟩⟩
  | t :: l, s, h, hw, hk => by
    obtain ⟨s1, e1, h1, w1, u1⟩ := step_good h hw (hk t (by simp))
    obtain ⟨s2, e2, h2, w2, u2⟩ := steps_good l s1 h1 w1 (fun x hx => hk x (by simp [hx]))
    refine ⟨s2, by rw [List.foldlM_cons, e1]; exact e2, h2, w2, fun hd a b => ?_⟩
    obtain ⟨a1, b1⟩ := u1 (hd t (by simp)) a b
    exact u2 (fun x hx => hd x (by simp [hx])) a1 b1

theorem fresh_start : Fresh start := ⟨rfl, rfl, rfl, rfl, rfl, fun _ => rfl, fun _ => rfl, rfl⟩

theorem weak_start (one : Bool) : Weak one start := by
  cases one
  · exact Or.inl rfl
  · exact ⟨rfl, rfl⟩

theorem run_good {one : Bool} (l : List Step) (hk : ∀ t ∈ l, Keeps one t) :
    ∃ s, run l = some s ∧ Good s ∧ Weak one s ∧ ((∀ t ∈ l, t ≠ .dispatch) → Uniform s ∧ Once s) := by
  obtain ⟨s, e, h, w, u⟩ := steps_good l start (Or.inl fresh_start) (weak_start one) hk
  exact ⟨s, e, h, w, fun hd => u hd (Or.inl fun _ => rfl) ⟨fun _ => rfl, List.nodup_nil⟩⟩

/-! ## Units that do not inline -/

/-- The name of a function. -/
def symbol (ns : Option String) (f : Fn) : String := ns.getD "" ++ f.name

/-- What was included after the stable part. -/
def Shape (ns : Option String) (s : Pre) : Prop :=
  ∃ x, s.out = block mainTys mainFns Ty.name (symbol ns) false ++ x ∧
    ((s.env .guardStatic = none ∧ s.env .guardImpl = none ∧ x = []) ∨
     (s.env .guardStatic = some .empty ∧ s.env .guardImpl = none ∧ x = block staticTys staticFns Ty.name (symbol ns) false) ∨
     (s.env .guardStatic = none ∧ s.env .guardImpl = some .empty ∧ x = bodies (symbol ns) false) ∨
     (s.env .guardStatic = some .empty ∧ s.env .guardImpl = some .empty ∧
       (x = block staticTys staticFns Ty.name (symbol ns) false ++ bodies (symbol ns) false ∨
        x = bodies (symbol ns) false ++ block staticTys staticFns Ty.name (symbol ns) false)))

/-- The invariant of a unit that does not inline. -/
structure NS (ns : Option String) (s : Pre) : Prop where
  space : s.env .namespace_ = ns.map .ident
  inl : s.env .inlineAll = none
  prv : s.env .privateApi = none
  phase : Fresh s ∨ (Plain s ∧ (∀ f, s.env (.fn f) = if ns.isSome then some (.name2 f) else none) ∧ Shape ns s)

theorem resolve_symbol {ns : Option String} {s : Pre} (h : s.env .namespace_ = ns.map .ident)
    (hf : ∀ f, s.env (.fn f) = if ns.isSome then some (.name2 f) else none) : s.resolve = symbol ns := by
  funext f
  cases ns with
  | none =>
    rw [Pre.resolve, hf]
    simp [symbol]
  | some p =>
    rw [Pre.resolve, hf]
    simp [symbol, Pre.prefix, h]

theorem Shape.congr {ns : Option String} {s s' : Pre} (h : Shape ns s) (ho : s'.out = s.out)
    (he : ∀ m, isOpt m = false → s'.env m = s.env m) : Shape ns s' := by
  obtain ⟨x, h1, h2⟩ := h
  refine ⟨x, by rw [ho, h1], ?_⟩
  rw [he _ rfl, he _ rfl]
  exact h2

theorem ns_xxhash {ns : Option String} {s : Pre} (h : NS ns s) :
    ∃ s', xxhash_h s = some s' ∧ NS ns s' ∧ s'.env .guardMain = some .one ∧
      (s.env .guardImpl = some .empty → s'.env .guardImpl = some .empty) ∧
      (s.env .guardStatic = some .empty → s'.env .guardStatic = some .empty) ∧
      (s.defd .implementation = true → s'.env .guardImpl = some .empty) ∧
      (s.defd .staticLinkingOnly = true → s'.env .guardStatic = some .empty) ∧
      (∀ m, isOpt m = true → s'.env m = s.env m) := by
  rcases h.phase with hF | ⟨hP, hf, x, ho, hsh⟩
  · obtain ⟨s', e, hP, ho, hgs, hgi, hf, hx⟩ := xxhash_h_first hF h.inl h.prv
    have hx' : ∀ m, isOpt m = true → s'.env m = s.env m := by
      intro m hm
      apply hx
      cases m <;> simp [isOpt] at hm ⊢
    have hsp : s'.env .namespace_ = ns.map .ident := by rw [hx' _ rfl, h.space]
    have hf' : ∀ f, s'.env (.fn f) = if ns.isSome then some (.name2 f) else none := by
      intro f
      rw [hf, Pre.defd, h.space]
      cases ns <;> rfl
    rw [main_block hP, static_block hP, impl_bodies hP, resolve_symbol hsp hf'] at ho
    refine ⟨s', e, ⟨hsp, by rw [hx' _ rfl, h.inl], by rw [hx' _ rfl, h.prv], Or.inr ⟨hP, hf', _, by rw [ho, List.append_assoc], ?_⟩⟩,
      hP.main, ?_, ?_, ?_, ?_, hx'⟩
    · rw [hgs, hgi]
      cases s.defd .staticLinkingOnly <;> cases s.defd .implementation <;> simp
    · intro hc; rw [hF.impl] at hc; cases hc
    · intro hc; rw [hF.static] at hc; cases hc
    · intro hc; rw [hgi, hc]; rfl
    · intro hc; rw [hgs, hc]; rfl
  · obtain ⟨s', e, hP', ho', hgs, hgi, hx⟩ := xxhash_h_again hP h.inl h.prv
    have hr := resolve_symbol h.space hf
    rw [static_block hP, impl_bodies hP, hr, ho] at ho'
    have hd1 : s.defd .guardStatic = (s.env .guardStatic).isSome := rfl
    have hd2 : s.defd .guardImpl = (s.env .guardImpl).isSome := rfl
    refine ⟨s', e, ⟨by rw [hx _ (by simp) (by simp), h.space], by rw [hx _ (by simp) (by simp), h.inl],
      by rw [hx _ (by simp) (by simp), h.prv], Or.inr ⟨hP', fun f => by rw [hx _ (by simp) (by simp), hf], _,
        by rw [ho', List.append_assoc, List.append_assoc], ?_⟩⟩, hP'.main, ?_, ?_, ?_, ?_, ?_⟩
    · rw [hgs, hgi, hd1, hd2]
      rcases hsh with ⟨a, b, rfl⟩ | ⟨a, b, rfl⟩ | ⟨a, b, rfl⟩ | ⟨a, b, c⟩
      · cases s.defd .staticLinkingOnly <;> cases s.defd .implementation <;> simp [a, b]
      · cases s.defd .staticLinkingOnly <;> cases s.defd .implementation <;> simp [a, b]
      · cases s.defd .staticLinkingOnly <;> cases s.defd .implementation <;> simp [a, b]
      · simpa [a, b] using c
    · intro hc
      rw [hgi, hd2, hc]; simp
    · intro hc
      rw [hgs, hd1, hc]; simp
    · intro hc
      rw [hgi, hd2, hc]
      rcases hP.impl with h0 | h0 <;> simp [h0]
    · intro hc
      rw [hgs, hd1, hc]
      rcases hP.static with h0 | h0 <;> simp [h0]
    · intro m hm
      exact hx m (fun h => by rw [h] at hm; cases hm) (fun h => by rw [h] at hm; cases hm)

theorem ns_setting {ns : Option String} {s s' : Pre} {t : Step} (h : NS ns s) (ho : Ordinary t) (hs : Setting t)
    (hout : s'.out = s.out) (ha : s'.env (about t) = gives t) (hx : ∀ x, x ≠ about t → s'.env x = s.env x) : NS ns s' := by
  have he := fun m hm => setting_opt hx m hm
  have hn : about t ≠ .namespace_ := by
    cases t with
    | set o b => cases o <;> simp [about, Opt.macro]
    | unset o => cases o <;> simp [about, Opt.macro]
    | setNamespace p => exact ho.elim
    | unsetNamespace => exact ho.elim
    | xxhash => exact hs.elim
    | dispatch => exact hs.elim
  have hw : Weak true s' := Weak.setting (one := true) (s := s) ⟨h.inl, h.prv⟩ hs (by
    intro b
    constructor <;> (rintro rfl; simp [Ordinary] at ho)) ha hx
  refine ⟨by rw [hx _ (Ne.symm hn), h.space], hw.1, hw.2, ?_⟩
  rcases h.phase with hF | ⟨hP, hf, hsh⟩
  · exact Or.inl (hF.congr hout he)
  · exact Or.inr ⟨hP.congr he, fun f => by rw [he _ rfl, hf], hsh.congr hout he⟩

/-- What stays. -/
def Stays (s s' : Pre) : Prop :=
  (s.env .guardMain = some .one → s'.env .guardMain = some .one) ∧
  (s.env .guardImpl = some .empty → s'.env .guardImpl = some .empty) ∧
  (s.env .guardStatic = some .empty → s'.env .guardStatic = some .empty) ∧ s'.env .guardDispatch = s.env .guardDispatch

theorem about_ne_guard (t : Step) : about t ≠ .guardDispatch := by
  cases t with
  | set o b => cases o <;> simp [about, Opt.macro]
  | unset o => cases o <;> simp [about, Opt.macro]
  | _ => simp [about]

theorem ns_step {ns : Option String} {s : Pre} {t : Step} (h : NS ns s) (ho : Ordinary t) :
    ∃ s', step s t = some s' ∧ NS ns s' ∧ Stays s s' ∧
      ((∀ b, t ≠ .set .disableReplace b) → s.env .disableReplace = none → s'.env .disableReplace = none) := by
  by_cases hs : Setting t
  · obtain ⟨s', e, hout, ha, hx⟩ := step_setting hs s
    refine ⟨s', e, ns_setting h ho hs hout ha hx, ⟨fun hm => by rw [setting_opt hx _ rfl, hm],
      fun hm => by rw [setting_opt hx _ rfl, hm], fun hm => by rw [setting_opt hx _ rfl, hm], hx _ (Ne.symm (about_ne_guard t))⟩, ?_⟩
    intro hb h0
    by_cases hd : about t = .disableReplace
    · rw [← hd, ha]
      cases t with
      | set o b => cases o <;> first | exact absurd rfl (hb b) | cases hd
      | setNamespace p => cases hd
      | _ => rfl
    · rw [hx _ (Ne.symm hd), h0]
  · cases t with
    | xxhash =>
      obtain ⟨s', e, h', hm, hi, hst, -, -, hx⟩ := ns_xxhash h
      exact ⟨s', e, h', ⟨fun _ => hm, hi, hst, hx _ rfl⟩, fun _ h0 => by rw [hx _ rfl, h0]⟩
    | dispatch => exact ho.elim
    | _ => exact absurd trivial hs

theorem ns_steps {ns : Option String} : ∀ (l : List Step) (s : Pre), NS ns s → (∀ t ∈ l, Ordinary t) →
    ∃ s', l.foldlM step s = some s' ∧ NS ns s' ∧ Stays s s' ∧
      ((∀ t ∈ l, ∀ b, t ≠ .set .disableReplace b) → s.env .disableReplace = none → s'.env .disableReplace = none)
  | [], s, h, _ => ⟨s, rfl, h, ⟨id, id, id, rfl⟩, fun _ h => h⟩
  | t :: l, s, h, hl => by
    obtain ⟨s1, e1, h1, ⟨m1, i1, t1, g1⟩, d1⟩ := ns_step h (hl t (by simp))
    obtain ⟨s2, e2, h2, ⟨m2, i2, t2, g2⟩, d2⟩ := ns_steps l s1 h1 (fun x hx => hl x (by simp [hx]))
    exact ⟨s2, by rw [List.foldlM_cons, e1]; exact e2, h2, ⟨fun a => m2 (m1 a), fun a => i2 (i1 a), fun a => t2 (t1 a), by rw [g2, g1]⟩,
      fun hb h0 => d2 (fun x hx => hb x (by simp [hx])) (d1 (hb t (by simp)) h0)⟩

theorem ns_start (ns : Option String) :
    ∃ s, run (namespaced ns) = some s ∧ NS ns s ∧ s.env .guardDispatch = none ∧ s.env .disableReplace = none := by
  cases ns with
  | none => exact ⟨start, rfl, ⟨rfl, rfl, rfl, Or.inl fresh_start⟩, rfl, rfl⟩
  | some p =>
    obtain ⟨s, e, ho, ha, hx⟩ := step_setting (t := .setNamespace p) trivial start
    refine ⟨s, by rw [run, namespaced, List.foldlM_cons, e]; rfl, ⟨ha, by rw [hx _ (by simp [about])]; rfl,
      by rw [hx _ (by simp [about])]; rfl, Or.inl (fresh_start.congr ho (fun m hm => setting_opt hx m hm))⟩,
      by rw [hx _ (by simp [about])]; rfl, by rw [hx _ (by simp [about])]; rfl⟩

theorem fresh_namespaced (ns : Option String) : ∃ s, run (namespaced ns) = some s ∧ NS ns s ∧ Fresh s := by
  cases ns with
  | none => exact ⟨start, rfl, ⟨rfl, rfl, rfl, Or.inl fresh_start⟩, fresh_start⟩
  | some p =>
    obtain ⟨s, e, ho, ha, hx⟩ := step_setting (t := .setNamespace p) trivial start
    have hF := fresh_start.congr ho (fun m hm => setting_opt hx m hm)
    exact ⟨s, by rw [run, namespaced, List.foldlM_cons, e]; rfl, ⟨ha, by rw [hx _ (by simp [about])]; rfl,
      by rw [hx _ (by simp [about])]; rfl, Or.inl hF⟩, hF⟩

theorem run_append (a b : List Step) : run (a ++ b) = (run a).bind fun s => b.foldlM step s := by
  rw [run, List.foldlM_append]; rfl

/-- Before the first inclusion, and after. -/
theorem ns_before (ns : Option String) (a : List Step) (ha : ∀ t ∈ a, Ordinary t) :
    ∃ s, run (namespaced ns ++ a) = some s ∧ NS ns s ∧ s.env .guardDispatch = none ∧
      ((∀ t ∈ a, ∀ b, t ≠ .set .disableReplace b) → s.env .disableReplace = none) := by
  obtain ⟨s0, e0, h0, g0, d0⟩ := ns_start ns
  obtain ⟨s1, e1, h1, k1, d1⟩ := ns_steps a s0 h0 ha
  exact ⟨s1, by rw [run_append, e0]; exact e1, h1, k1.2.2.2.trans g0, fun hb => d1 hb d0⟩

theorem ns_run (ns : Option String) (a c : List Step) (ha : ∀ t ∈ a, Ordinary t) (hc : ∀ t ∈ c, Ordinary t) :
    ∃ s, run (namespaced ns ++ a ++ .xxhash :: c) = some s ∧ NS ns s ∧ s.env .guardMain = some .one := by
  obtain ⟨s1, e1, h1, -⟩ := ns_before ns a ha
  obtain ⟨s2, e2, h2, m2, -⟩ := ns_xxhash h1
  obtain ⟨s3, e3, h3, m3, -⟩ := ns_steps c s2 h2 hc
  refine ⟨s3, ?_, h3, m3.1 m2⟩
  rw [run_append, e1]
  show (Step.xxhash :: c).foldlM step s1 = _
  rw [List.foldlM_cons, show step s1 .xxhash = some s2 from e2]
  exact e3

/-- With a macro set just before the inclusion. -/
theorem ns_run_set (ns : Option String) (a c : List Step) (o : Opt) (b : Bool) (ho : Ordinary (.set o b)) (ha : ∀ t ∈ a, Ordinary t)
    (hc : ∀ t ∈ c, Ordinary t) :
    ∃ s, run (namespaced ns ++ a ++ .set o b :: .xxhash :: c) = some s ∧ NS ns s ∧ s.env .guardMain = some .one ∧
      (o = .implementation → s.env .guardImpl = some .empty) ∧ (o = .staticLinkingOnly → s.env .guardStatic = some .empty) := by
  obtain ⟨s1, e1, h1, -⟩ := ns_before ns a ha
  obtain ⟨s2, e2, o2, a2, x2⟩ := step_setting (t := .set o b) trivial s1
  have h2 : NS ns s2 := ns_setting (t := .set o b) h1 ho trivial o2 a2 x2
  obtain ⟨s3, e3, h3, m3, -, -, i3, t3, -⟩ := ns_xxhash h2
  obtain ⟨s4, e4, h4, k4, -⟩ := ns_steps c s3 h3 hc
  refine ⟨s4, ?_, h4, k4.1 m3, ?_, ?_⟩
  · rw [run_append, e1]
    show (Step.set o b :: Step.xxhash :: c).foldlM step s1 = _
    rw [List.foldlM_cons, e2]
    show (Step.xxhash :: c).foldlM step s2 = _
    rw [List.foldlM_cons, show step s2 .xxhash = some s3 from e3]
    exact e4
  · rintro rfl
    exact k4.2.1 (i3 (by rw [Pre.defd, show s2.env .implementation = _ from a2]; rfl))
  · rintro rfl
    exact k4.2.2.1 (t3 (by rw [Pre.defd, show s2.env .staticLinkingOnly = _ from a2]; rfl))

theorem NS.included {ns : Option String} {s : Pre} (h : NS ns s) (hm : s.env .guardMain = some .one) :
    Plain s ∧ s.resolve = symbol ns ∧ Shape ns s := by
  rcases h.phase with hF | ⟨hP, hf, hsh⟩
  · rw [hF.main] at hm; cases hm
  · exact ⟨hP, resolve_symbol h.space hf, hsh⟩

/-! ## Units that inline -/

/-- Once inlined, only the meaning of `XXH_NAMESPACE` can change. -/
theorem inl_steps : ∀ (l : List Step) (s : Pre), Inl s → (∀ t ∈ l, t ≠ .dispatch ∧ t ≠ .unsetNamespace ∧ ∀ p, t ≠ .setNamespace p) →
    ∃ s', l.foldlM step s = some s' ∧ Inl s' ∧ s'.out = s.out ∧ s'.env .namespace_ = s.env .namespace_ ∧
      ∀ m, isOpt m = false → s'.env m = s.env m
  | [], s, h, _ => ⟨s, rfl, h, rfl, rfl, fun _ _ => rfl⟩
  | t :: l, s, h, hl => by
    obtain ⟨s1, e1, h1, o1, n1, x1⟩ : ∃ s1, step s t = some s1 ∧ Inl s1 ∧ s1.out = s.out ∧ s1.env .namespace_ = s.env .namespace_ ∧
        ∀ m, isOpt m = false → s1.env m = s.env m := by
      by_cases hs : Setting t
      · obtain ⟨s', e, hout, ha, hx⟩ := step_setting hs s
        have he := fun m hm => setting_opt hx m hm
        refine ⟨s', e, h.congr he, hout, hx _ ?_, he⟩
        have hk := hl t (by simp)
        cases t with
        | set o b => cases o <;> simp [about, Opt.macro]
        | unset o => cases o <;> simp [about, Opt.macro]
        | setNamespace p => exact absurd rfl (hk.2.2 p)
        | unsetNamespace => exact absurd rfl hk.2.1
        | xxhash => exact hs.elim
        | dispatch => exact hs.elim
      · cases t with
        | xxhash => exact ⟨s, xxhash_h_inl h, h, rfl, rfl, fun _ _ => rfl⟩
        | dispatch => exact absurd rfl (hl .dispatch (by simp)).1
        | _ => exact absurd trivial hs
    obtain ⟨s2, e2, h2, o2, n2, x2⟩ := inl_steps l s1 h1 (fun x hx => hl x (by simp [hx]))
    exact ⟨s2, by rw [List.foldlM_cons, e1]; exact e2, h2, by rw [o2, o1], by rw [n2, n1], fun m hm => by rw [x2 m hm, x1 m hm]⟩

/-- Steps without inlining and without the implementation. -/
def Quiet (t : Step) : Prop := ∀ b, t ≠ .set .inlineAll b ∧ t ≠ .set .privateApi b ∧ t ≠ .set .implementation b

/-- Nothing has been defined. -/
structure NoImpl (s : Pre) : Prop where
  impl : s.env .guardImpl = none
  im : s.env .implementation = none
  inl : s.env .inlineAll = none
  prv : s.env .privateApi = none
  out : definitions s.out = [] ∧ externals s.out = []

theorem noImpl_xxhash {s s' : Pre} (hG : Good s) (h : NoImpl s) (e : xxhash_h s = some s') : NoImpl s' := by
  have hd : s.defd .implementation = false := by rw [Pre.defd, h.im]; rfl
  rcases hG with hF | ⟨hP, -, -⟩ | ⟨hI, -, -⟩
  · obtain ⟨s1, e1, hP, ho, hgs, hgi, hf, hx⟩ := xxhash_h_first hF h.inl h.prv
    obtain rfl : s1 = s' := by rw [e1] at e; exact Option.some.inj e
    rw [hd] at hgi
    refine ⟨by simpa using hgi, by rw [hx _ (by simp), h.im], by rw [hx _ (by simp), h.inl], by rw [hx _ (by simp), h.prv], ?_⟩
    rw [ho, hd, main_block hP, static_block hP]
    cases s.defd .staticLinkingOnly <;> simp [definitions_append, externals_append, definitions_block, externals_block]
  · obtain ⟨s1, e1, hP', ho, hgs, hgi, hx⟩ := xxhash_h_again hP h.inl h.prv
    obtain rfl : s1 = s' := by rw [e1] at e; exact Option.some.inj e
    rw [hd] at hgi
    refine ⟨by rw [hgi]; simpa using h.impl, by rw [hx _ (by simp) (by simp), h.im], by rw [hx _ (by simp) (by simp), h.inl],
      by rw [hx _ (by simp) (by simp), h.prv], ?_⟩
    rw [ho, hd, static_block hP]
    cases (s.defd .staticLinkingOnly && !s.defd .guardStatic) <;>
      simp [definitions_append, externals_append, definitions_block, externals_block, h.out]
  · exact absurd h.impl (by rw [hI.impl]; simp)

theorem noImpl_step {s s' : Pre} {t : Step} (hG : Good s) (h : NoImpl s) (hq : Quiet t) (e : step s t = some s') : NoImpl s' := by
  by_cases hs : Setting t
  · obtain ⟨s1, e1, hout, ha, hx⟩ := step_setting hs s
    obtain rfl : s1 = s' := by rw [e1] at e; exact Option.some.inj e
    have key : ∀ o : Opt, (o = .inlineAll ∨ o = .privateApi ∨ o = .implementation) → s.env o.macro = none → s1.env o.macro = none := by
      intro o ho h0
      by_cases h : about t = o.macro
      · rw [← h, ha]
        cases t with
        | set o' b =>
          have : o' = o := by
            cases o <;> cases o' <;> first | rfl | (cases h)
          subst this
          rcases ho with rfl | rfl | rfl
          · exact absurd rfl (hq b).1
          · exact absurd rfl (hq b).2.1
          · exact absurd rfl (hq b).2.2
        | setNamespace p => cases o <;> cases h
        | _ => rfl
      · rw [hx _ (Ne.symm h), h0]
    exact ⟨by rw [setting_opt hx _ rfl, h.impl], key .implementation (by simp) h.im, key .inlineAll (by simp) h.inl,
      key .privateApi (by simp) h.prv, by rw [hout]; exact h.out⟩
  · cases t with
    | xxhash => exact noImpl_xxhash hG h e
    | dispatch =>
      change dispatch_h s = some s' at e
      by_cases hg : s.env .guardDispatch = none
      · obtain ⟨s1, e1, o1, d1, x1⟩ := define_none .guardDispatch .empty s hg
        have hG1 : Good s1 := hG.congr o1 (fun m hm => x1 m (fun h => by rw [h] at hm; cases hm))
        have h1 : NoImpl s1 := ⟨by rw [x1 _ (by simp), h.impl], by rw [x1 _ (by simp), h.im], by rw [x1 _ (by simp), h.inl],
          by rw [x1 _ (by simp), h.prv], by rw [o1]; exact h.out⟩
        obtain ⟨s2, e2, -⟩ := xxhash_good hG1 (Or.inr ⟨h1.inl, h1.prv⟩)
        have h2 := noImpl_xxhash hG1 h1 e2
        obtain ⟨s3, e3, o3, x3, -⟩ := dispatch_rest (emit (dispatchEvents s2.priv) s2)
        rw [dispatch_unfold hg e1 e2, e3] at e
        obtain rfl : s3 = s' := Option.some.inj e
        refine ⟨(x3 _ (by simp)).trans h2.impl, (x3 _ (by simp)).trans h2.im, (x3 _ (by simp)).trans h2.inl,
          (x3 _ (by simp)).trans h2.prv, ?_⟩
        rw [o3]
        show definitions (s2.out ++ _) = [] ∧ externals (s2.out ++ _) = []
        rw [definitions_append, externals_append, definitions_dispatch, externals_dispatch, h2.out.1, h2.out.2]
        exact ⟨rfl, rfl⟩
      · unfold dispatch_h at e
        rw [if_pos (by rw [Pre.defd]; exact Option.isSome_iff_ne_none.2 hg)] at e
        obtain rfl : s = s' := Option.some.inj e
        exact h
    | _ => exact absurd trivial hs

theorem noImpl_steps : ∀ (l : List Step) (s : Pre), Good s → NoImpl s → (∀ t ∈ l, Quiet t) →
    ∃ s', l.foldlM step s = some s' ∧ Good s' ∧ NoImpl s'
  | [], s, h, hn, _ => ⟨s, rfl, h, hn⟩
  | t :: l, s, h, hn, hl => by
    have hq := hl t (by simp)
    obtain ⟨s1, e1, h1, -, -⟩ := step_good (one := false) (t := t) h (Or.inl hn.im) (hq true).2.2
    obtain ⟨s2, e2, h2, n2⟩ := noImpl_steps l s1 h1 (noImpl_step h hn hq e1) (fun x hx => hl x (by simp [hx]))
    exact ⟨s2, by rw [List.foldlM_cons, e1]; exact e2, h2, n2⟩

theorem noImpl_run (l : List Step) (hl : ∀ t ∈ l, Quiet t) : ∃ s, run l = some s ∧ Good s ∧ NoImpl s :=
  noImpl_steps l start (Or.inl fresh_start) ⟨rfl, rfl, rfl, rfl, rfl, rfl⟩ hl

/-- Asking for inlining after something else. -/
theorem enter_run {l : List Step} {s : Pre} (e : run l = some s) (hG : Good s) (hni : ¬ Inl s) (hfl : Flag s .implementation) {o : Opt}
    (ho : o = .inlineAll ∨ o = .privateApi) (b : Bool) (c : List Step)
    (hc : ∀ t ∈ c, t ≠ .dispatch ∧ t ≠ .unsetNamespace ∧ ∀ p, t ≠ .setNamespace p) :
    ∃ s', run (l ++ .set o b :: .xxhash :: c) = some s' ∧ (∀ f, s'.resolve f = "XXH_INLINE_" ++ f.name) ∧
      (∀ t, s'.resolveTy t = inlTy t) ∧
      s'.out = s.out ++ inlMain ++ inlStatic ++ (if s.env .guardImpl = none then inlImpl else []) := by
  obtain ⟨s1, e1, o1, a1, x1⟩ := step_setting (t := .set o b) trivial s
  have he := fun m hm => setting_opt x1 m hm
  have hph : Fresh s1 ∨ Plain s1 := by
    rcases hG with h | ⟨h, -, -⟩ | ⟨h, -, -⟩
    · exact Or.inl (h.congr o1 he)
    · exact Or.inr (h.congr he)
    · exact absurd h hni
  have hfl1 : Flag s1 .implementation := Flag.congr hfl (x1 _ (by rcases ho with rfl | rfl <;> simp [about, Opt.macro]))
  have hw : (s1.defd .inlineAll || s1.defd .privateApi) = true := by
    have : s1.defd o.macro = true := by rw [Pre.defd, show s1.env o.macro = _ from a1]; rfl
    rcases ho with rfl | rfl
    · rw [show s1.defd .inlineAll = true from this]; rfl
    · rw [show s1.defd .privateApi = true from this, Bool.or_true]
  obtain ⟨s2, e2, hI, ho2, hn, hf, ht, -, -⟩ := xxhash_h_enter hph hfl1 hw
  obtain ⟨s3, e3, hI3, ho3, hn3, hx3⟩ := inl_steps c s2 hI hc
  refine ⟨s3, ?_, ?_, ?_, ?_⟩
  · rw [run_append, e]
    show (Step.set o b :: Step.xxhash :: c).foldlM step s = _
    rw [List.foldlM_cons, e1]
    show (Step.xxhash :: c).foldlM step s1 = _
    rw [List.foldlM_cons, show step s1 .xxhash = some s2 from e2]
    exact e3
  · intro f
    rw [Pre.resolve, hx3 _ rfl, hf, Pre.prefix, hn3, hn]
  · intro t
    rw [Pre.resolveTy, hx3 _ rfl, ht, inlTy]
    by_cases h : t ∈ iprefTys <;> simp [h]
  · rw [ho3, ho2, o1, he _ rfl]

end XXH.Proof.IncludeP
