import Verif.Model.Threads
/-!
Threads that keep to their parts of the memory do not notice each other.
-/
namespace XXH.Threads
open Model.Threads

variable {Loc : Type} {Val : Loc → Type} [DecidableEq Loc]

/-- Run alone in `m`, the thread reads only what is in `R` or `W` and writes only what is in `W`. -/
def Within {α : Type} (R W : Loc → Prop) : Tree Val α → Mem Val → Prop
  | .ret _, _ => True
  | .ub, _ => True
  | .read l k, m => (R l ∨ W l) ∧ Within R W (k (m l)) m
  | .write l v k, m => W l ∧ Within R W k (Function.update m l v)

/-- The number of accesses of a thread that runs alone. -/
def length {α : Type} : Tree Val α → Mem Val → Nat
  | .ret _, _ => 0
  | .ub, _ => 0
  | .read l k, m => length (k (m l)) m + 1
  | .write l v k, m => length k (Function.update m l v) + 1

/-- The location a thread accesses next. -/
inductive Accesses {α : Type} : Tree Val α → Loc → Prop where
  | read {l k} : Accesses (.read l k) l
  | write {l v k} : Accesses (.write l v k) l

/-- The location a thread writes next. -/
inductive Writes {α : Type} : Tree Val α → Loc → Prop where
  | write {l v k} : Writes (.write l v k) l

/-- What one thread writes no other touches. -/
def Apart {ι : Type} (R W : ι → Loc → Prop) : Prop := ∀ t u, t ≠ u → ∀ l, W t l → ¬ (R u l ∨ W u l)

end XXH.Threads

namespace XXH.Proof.ThreadsP
open Model.Threads XXH.Threads

variable {Loc : Type} {Val : Loc → Type} [DecidableEq Loc] {α β : Type}

/-- Memories that agree where the thread looks. -/
def Same (P : Loc → Prop) (m m' : Mem Val) : Prop := ∀ l, P l → m l = m' l

theorem Same.update {P : Loc → Prop} {m m' : Mem Val} (h : Same P m m') (l : Loc) (v : Val l) :
    Same P (Function.update m l v) (Function.update m' l v) := by
  intro x hx
  by_cases e : x = l
  · subst e; simp
  · simp [e, h x hx]

theorem within_same {R W : Loc → Prop} : ∀ (t : Tree Val α) {m m' : Mem Val}, Same (fun l => R l ∨ W l) m m' → Within R W t m →
    Within R W t m'
  | .ret _, _, _, _, _ => trivial
  | .ub, _, _, _, _ => trivial
  | .read l k, m, m', h, hw => by
    refine ⟨hw.1, ?_⟩
    rw [← h l hw.1]
    exact within_same _ h hw.2
  | .write l v k, m, m', h, hw => ⟨hw.1, within_same _ (h.update l v) hw.2⟩

theorem solo_same {R W : Loc → Prop} : ∀ (t : Tree Val α) {m m' : Mem Val}, Same (fun l => R l ∨ W l) m m' → Within R W t m →
    (t.solo m).1 = (t.solo m').1 ∧ length t m = length t m' ∧ Same (fun l => R l ∨ W l) (t.solo m).2 (t.solo m').2
  | .ret _, _, _, h, _ => ⟨rfl, rfl, h⟩
  | .ub, _, _, h, _ => ⟨rfl, rfl, h⟩
  | .read l k, m, m', h, hw => by
    have := solo_same (k (m l)) h hw.2
    simp only [Tree.solo, length]
    rw [← h l hw.1]
    exact ⟨this.1, by rw [this.2.1], this.2.2⟩
  | .write l v k, m, m', h, hw => by
    have := solo_same k (h.update l v) hw.2
    exact ⟨this.1, by simp only [length]; rw [this.2.1], this.2.2⟩

/-- What an access of its own does to a thread. -/
theorem next_spec {R W : Loc → Prop} : ∀ (t : Tree Val α) (m : Mem Val), Within R W t m →
    (t.next m).1.solo (t.next m).2 = t.solo m ∧ Within R W (t.next m).1 (t.next m).2 ∧
      length (t.next m).1 (t.next m).2 = length t m - 1 ∧ ∀ l, ¬ W l → (t.next m).2 l = m l
  | .ret _, _, h => ⟨rfl, h, rfl, fun _ _ => rfl⟩
  | .ub, _, h => ⟨rfl, h, rfl, fun _ _ => rfl⟩
  | .read _ _, _, h => ⟨rfl, h.2, rfl, fun _ _ => rfl⟩
  | .write l v k, m, h => ⟨rfl, h.2, rfl, fun x hx => by
      show Function.update m l v x = m x
      rw [Function.update_of_ne]
      rintro rfl
      exact hx h.1⟩

/-- The state of an execution: every thread is where it would be alone. -/
structure Inv {ι : Type} (R W : ι → Loc → Prop) (c₀ c : Config ι Val α) : Prop where
  within : ∀ t, Within (R t) (W t) (c.todo t) c.mem
  result : ∀ t, ((c.todo t).solo c.mem).1 = ((c₀.todo t).solo c₀.mem).1
  memory : ∀ t, Same (fun l => R t l ∨ W t l) ((c.todo t).solo c.mem).2 ((c₀.todo t).solo c₀.mem).2
  rest : ∀ l, (∀ t, ¬ W t l) → c.mem l = c₀.mem l

variable {ι : Type} [DecidableEq ι]

theorem step_other {R W : ι → Loc → Prop} (ha : Apart R W) {c : Config ι Val α} (hw : ∀ t, Within (R t) (W t) (c.todo t) c.mem) {t u : ι}
    (h : t ≠ u) : Same (fun l => R u l ∨ W u l) c.mem (c.step t).mem := by
  intro l hl
  exact ((next_spec (c.todo t) c.mem (hw t)).2.2.2 l (fun hW => ha t u h l hW hl)).symm

theorem step_todo (c : Config ι Val α) (t u : ι) : (c.step t).todo u = if u = t then ((c.todo t).next c.mem).1 else c.todo u := by
  by_cases h : u = t
  · subst h; simp [Config.step]
  · simp [Config.step, h]

theorem Inv.step {R W : ι → Loc → Prop} (ha : Apart R W) {c₀ c : Config ι Val α} (h : Inv R W c₀ c) (t : ι) : Inv R W c₀ (c.step t) ∧
    ∀ u, length ((c.step t).todo u) (c.step t).mem = if u = t then length (c.todo u) c.mem - 1 else length (c.todo u) c.mem := by
  have hn := next_spec (c.todo t) c.mem (h.within t)
  refine ⟨⟨fun u => ?_, fun u => ?_, fun u => ?_, fun l hl => ?_⟩, fun u => ?_⟩
  · rw [step_todo]
    split
    · next e => subst e; exact hn.2.1
    · next e => exact within_same _ (step_other ha h.within (Ne.symm e)) (h.within u)
  · rw [step_todo]
    split
    · next e =>
      subst e
      show (Tree.solo _ (Tree.next _ _).2).1 = _
      rw [hn.1]; exact h.result u
    · next e => rw [← (solo_same _ (step_other ha h.within (Ne.symm e)) (h.within u)).1]; exact h.result u
  · rw [step_todo]
    split
    · next e =>
      subst e
      show Same _ (Tree.solo _ (Tree.next _ _).2).2 _
      rw [hn.1]; exact h.memory u
    · next e =>
      intro l hl
      rw [← (solo_same _ (step_other ha h.within (Ne.symm e)) (h.within u)).2.2 l hl]
      exact h.memory u l hl
  · exact (hn.2.2.2 l (hl t)).trans (h.rest l hl)
  · rw [step_todo]
    by_cases e : u = t
    · subst e
      rw [if_pos rfl, if_pos rfl]; exact hn.2.2.1
    · rw [if_neg e, if_neg e]
      exact (solo_same _ (step_other ha h.within (Ne.symm e)) (h.within u)).2.1.symm

theorem Inv.exec {R W : ι → Loc → Prop} (ha : Apart R W) : ∀ (sched : List ι) {c₀ c : Config ι Val α}, Inv R W c₀ c →
    Inv R W c₀ (c.exec sched) ∧ ∀ u, length ((c.exec sched).todo u) (c.exec sched).mem = length (c.todo u) c.mem - sched.count u
  | [], _, _, h => ⟨h, fun _ => rfl⟩
  | t :: ts, c₀, c, h => by
    obtain ⟨h1, hl1⟩ := h.step ha t
    obtain ⟨h2, hl2⟩ := Inv.exec ha ts h1
    refine ⟨h2, fun u => ?_⟩
    show length (((c.step t).exec ts).todo u) ((c.step t).exec ts).mem = _
    rw [hl2, hl1, List.count_cons]
    by_cases e : u = t
    · subst e; simp; omega
    · have : ¬ (t == u) = true := by simpa using Ne.symm e
      rw [if_neg e, if_neg this]; rfl

theorem Inv.refl {R W : ι → Loc → Prop} {c : Config ι Val α} (h : ∀ t, Within (R t) (W t) (c.todo t) c.mem) : Inv R W c c :=
  ⟨h, fun _ => rfl, fun _ _ _ => rfl, fun _ _ => rfl⟩

theorem length_zero : ∀ {t : Tree Val α} {m : Mem Val}, length t m = 0 → (∃ x, t = .ret x) ∨ t = .ub
  | .ret x, _, _ => Or.inl ⟨x, rfl⟩
  | .ub, _, _ => Or.inr rfl
  | .read _ _, _, h => by simp [length] at h
  | .write _ _ _, _, h => by simp [length] at h

/-! ### Composition -/

theorem solo_bind : ∀ (t : Tree Val α) (f : α → Tree Val β) (m : Mem Val),
    (t.bind f).solo m = match t.solo m with
      | (some x, m') => (f x).solo m'
      | (none, m') => (none, m')
  | .ret _, _, _ => rfl
  | .ub, _, _ => rfl
  | .read l k, f, m => solo_bind (k (m l)) f m
  | .write l v k, f, m => solo_bind k f _

theorem within_bind {R W : Loc → Prop} : ∀ (t : Tree Val α) (f : α → Tree Val β) (m : Mem Val), Within R W t m →
    (∀ x m', t.solo m = (some x, m') → Within R W (f x) m') → Within R W (t.bind f) m
  | .ret x, _, m, _, h => h x m rfl
  | .ub, _, _, _, _ => trivial
  | .read l k, f, m, hw, h => ⟨hw.1, within_bind (k (m l)) f m hw.2 h⟩
  | .write l v k, f, m, hw, h => ⟨hw.1, within_bind k f _ hw.2 h⟩

theorem within_mono {R W R' W' : Loc → Prop} (hR : ∀ l, R l → R' l ∨ W' l) (hW : ∀ l, W l → W' l) :
    ∀ (t : Tree Val α) (m : Mem Val), Within R W t m → Within R' W' t m
  | .ret _, _, _ => trivial
  | .ub, _, _ => trivial
  | .read l k, m, h => ⟨h.1.elim (hR l) (fun h => Or.inr (hW l h)), within_mono hR hW _ m h.2⟩
  | .write l v k, m, h => ⟨hW l h.1, within_mono hR hW _ _ h.2⟩

end XXH.Proof.ThreadsP
