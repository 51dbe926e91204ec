import Verif.Props.Common
/-!
Call histories over any number of hash states: what a user may call, what the calls must return
(`Runs`), and the execution of the same calls on the model (`runModel`).
-/
namespace XXH
open Model

/-- One API call. States are numbered; `R` is the argument of a reset, `K` selects a digest. -/
inductive Op (R K : Type) where
  | reset (i : Nat) (a : R)
  | update (i : Nat) (p : Ptr) (len : Nat)
  | digest (i : Nat) (k : K)
  | copy (dst src : Nat)

/-- What a call returns. -/
inductive Event (O : Type) where
  | code (e : Err)
  | hash (o : O)
  | void

/-- `f` changed at `i`. -/
def setAt {α : Type} (f : Nat → α) (i : Nat) (a : α) : Nat → α := fun j => if j = i then a else f j

/-- What the documentation says about a reset: it succeeds, it fails without any effect, or it fails
and the state has to be reset again. -/
inductive Outcome where
  | ok | refused | lost
  deriving DecidableEq

/-- The abstract contents of the states: not reset yet, or reset with `a` and then fed `msg`.
`Runs A ops evs`: from contents `A` the history `ops` is one the documentation allows, and the
documentation promises the results `evs`.
* `out a o`: a reset with argument `a` is allowed and its outcome is `o`;
* `lenOk n`: messages of `n` bytes are supported;
* `H a k msg`: the hash of `msg`. -/
inductive Runs {R K O : Type} (cfg : Cfg) (out : R → Outcome → Prop) (lenOk : Nat → Prop)
    (H : R → K → List Byte → O) :
    (Nat → Option (R × List Byte)) → List (Op R K) → List (Event O) → Prop where
  | nil {A} : Runs cfg out lenOk H A [] []
  | reset {A i a ops evs} : out a .ok →
      Runs cfg out lenOk H (setAt A i (some (a, []))) ops evs →
      Runs cfg out lenOk H A (.reset i a :: ops) (.code .ok :: evs)
  | refused {A i a ops evs} : out a .refused →
      Runs cfg out lenOk H A ops evs →
      Runs cfg out lenOk H A (.reset i a :: ops) (.code .error :: evs)
  | lost {A i a ops evs} : out a .lost →
      Runs cfg out lenOk H (setAt A i none) ops evs →
      Runs cfg out lenOk H A (.reset i a :: ops) (.code .error :: evs)
  | update {A i a msg p len ops evs} : A i = some (a, msg) → Readable cfg p len →
      lenOk (msg.length + len) →
      Runs cfg out lenOk H (setAt A i (some (a, msg ++ contents p))) ops evs →
      Runs cfg out lenOk H A (.update i p len :: ops) (.code .ok :: evs)
  | digest {A i a msg k ops evs} : A i = some (a, msg) →
      Runs cfg out lenOk H A ops evs →
      Runs cfg out lenOk H A (.digest i k :: ops) (.hash (H a k msg) :: evs)
  | copy {A d s ops evs} :
      Runs cfg out lenOk H (setAt A d (A s)) ops evs →
      Runs cfg out lenOk H A (.copy d s :: ops) (.void :: evs)

/-- The API functions of one algorithm family, on the model. -/
structure Api (S R K O : Type) where
  reset : S → R → Option (S × Err)
  update : S → Ptr → Nat → Option (S × Err)
  digest : S → K → Option O
  copy : S → S → S

/-- Execute a history on the model, from the memory contents `heap`. -/
def runModel {S R K O : Type} (api : Api S R K O) :
    (Nat → S) → List (Op R K) → Option (List (Event O))
  | _, [] => some []
  | heap, .reset i a :: ops => do
    let (s, e) ← api.reset (heap i) a
    let evs ← runModel api (setAt heap i s) ops
    return .code e :: evs
  | heap, .update i p len :: ops => do
    let (s, e) ← api.update (heap i) p len
    let evs ← runModel api (setAt heap i s) ops
    return .code e :: evs
  | heap, .digest i k :: ops => do
    let o ← api.digest (heap i) k
    let evs ← runModel api heap ops
    return .hash o :: evs
  | heap, .copy d s :: ops => do
    let evs ← runModel api (setAt heap d (api.copy (heap d) (heap s))) ops
    return .void :: evs

/-- Simulation: if every single call preserves a representation relation, every history behaves as
promised. `Fresh s`: what is known about a state that was not reset yet. -/
theorem runs_simulation {S R K O : Type} {cfg : Cfg} {out : R → Outcome → Prop} {lenOk : Nat → Prop}
    {H : R → K → List Byte → O} (api : Api S R K O) (Fresh : S → Prop)
    (Rep : R → List Byte → S → Prop)
    (hRF : ∀ a msg s, Rep a msg s → Fresh s)
    (hreset : ∀ s a, Fresh s → out a .ok → ∃ s', api.reset s a = some (s', .ok) ∧ Rep a [] s')
    (hrefused : ∀ s a, Fresh s → out a .refused → api.reset s a = some (s, .error))
    (hlost : ∀ s a, Fresh s → out a .lost → ∃ s', api.reset s a = some (s', .error) ∧ Fresh s')
    (hupdate : ∀ s a msg p len, Rep a msg s → Readable cfg p len → lenOk (msg.length + len) →
      ∃ s', api.update s p len = some (s', .ok) ∧ Rep a (msg ++ contents p) s')
    (hdigest : ∀ s a msg k, Rep a msg s → api.digest s k = some (H a k msg))
    (hcopyF : ∀ d s, Fresh d → Fresh s → Fresh (api.copy d s))
    (hcopy : ∀ d s a msg, Fresh d → Rep a msg s → Rep a msg (api.copy d s))
    {A : Nat → Option (R × List Byte)} {ops : List (Op R K)} {evs : List (Event O)}
    (hruns : Runs cfg out lenOk H A ops evs) :
    ∀ heap : Nat → S, (∀ i, Fresh (heap i)) → (∀ i a msg, A i = some (a, msg) → Rep a msg (heap i)) →
      runModel api heap ops = some evs := by
  induction hruns with
  | nil => intro heap _ _; rfl
  | @reset A i a ops evs hok _ ih =>
    intro heap hf hA
    obtain ⟨s', h1, h2⟩ := hreset (heap i) a (hf i) hok
    simp only [runModel, h1, Option.bind_eq_bind, Option.bind_some]
    rw [ih]
    · rfl
    · intro j; unfold setAt; split
      · exact hRF _ _ _ h2
      · exact hf j
    · intro j a' m'; unfold setAt; split
      · intro h; simp only [Option.some.injEq, Prod.mk.injEq] at h
        obtain ⟨rfl, rfl⟩ := h; exact h2
      · exact hA j a' m'
  | @refused A i a ops evs ho _ ih =>
    intro heap hf hA
    simp only [runModel, hrefused (heap i) a (hf i) ho, Option.bind_eq_bind, Option.bind_some]
    have e : setAt heap i (heap i) = heap := by
      funext j; unfold setAt; split
      · rename_i h; rw [h]
      · rfl
    rw [e, ih heap hf hA]; rfl
  | @lost A i a ops evs ho _ ih =>
    intro heap hf hA
    obtain ⟨s', h1, h2⟩ := hlost (heap i) a (hf i) ho
    simp only [runModel, h1, Option.bind_eq_bind, Option.bind_some]
    rw [ih]
    · rfl
    · intro j; unfold setAt; split
      · exact h2
      · exact hf j
    · intro j a' m'; unfold setAt; split
      · intro h; cases h
      · exact hA j a' m'
  | @update A i a msg p len ops evs hAi hp hl _ ih =>
    intro heap hf hA
    obtain ⟨s', h1, h2⟩ := hupdate (heap i) a msg p len (hA _ _ _ hAi) hp hl
    simp only [runModel, h1, Option.bind_eq_bind, Option.bind_some]
    rw [ih]
    · rfl
    · intro j; unfold setAt; split
      · exact hRF _ _ _ h2
      · exact hf j
    · intro j a' m'; unfold setAt; split
      · intro h; simp only [Option.some.injEq, Prod.mk.injEq] at h
        obtain ⟨rfl, rfl⟩ := h; exact h2
      · exact hA j a' m'
  | @digest A i a msg k ops evs hAi _ ih =>
    intro heap hf hA
    simp only [runModel, hdigest _ _ _ k (hA _ _ _ hAi), Option.bind_eq_bind, Option.bind_some]
    rw [ih heap hf hA]; rfl
  | @copy A d s ops evs _ ih =>
    intro heap hf hA
    simp only [runModel, Option.bind_eq_bind]
    rw [ih]
    · rfl
    · intro j; unfold setAt; split
      · exact hcopyF _ _ (hf d) (hf s)
      · exact hf j
    · intro j a' m'; unfold setAt; split
      · intro h; exact hcopy _ _ _ _ (hf d) (hA s a' m' h)
      · exact hA j a' m'

/-- `Allowed A ops`: the calls `ops` are made as the documentation requires, `A i` telling whether
state `i` is ready for update and digest. Nothing is said about lengths or results. -/
inductive Allowed {R K : Type} (cfg : Cfg) (out : R → Outcome → Prop) : (Nat → Bool) → List (Op R K) → Prop where
  | nil {A} : Allowed cfg out A []
  | reset {A i a ops} : out a .ok → Allowed cfg out (setAt A i true) ops → Allowed cfg out A (.reset i a :: ops)
  | refused {A i a ops} : out a .refused → Allowed cfg out A ops → Allowed cfg out A (.reset i a :: ops)
  | lost {A i a ops} : out a .lost → Allowed cfg out (setAt A i false) ops →
      Allowed cfg out A (.reset i a :: ops)
  | update {A i p len ops} : A i = true → Readable cfg p len → Allowed cfg out A ops →
      Allowed cfg out A (.update i p len :: ops)
  | digest {A i k ops} : A i = true → Allowed cfg out A ops → Allowed cfg out A (.digest i k :: ops)
  | copy {A d s ops} : Allowed cfg out (setAt A d (A s)) ops → Allowed cfg out A (.copy d s :: ops)

/-- If no single call on a state satisfying the invariants is undefined, no allowed history is. -/
theorem allowed_simulation {S R K O : Type} {cfg : Cfg} {out : R → Outcome → Prop} (api : Api S R K O)
    (Fresh Ready : S → Prop) (hRF : ∀ s, Ready s → Fresh s)
    (hreset : ∀ s a, Fresh s → out a .ok → ∃ s' e, api.reset s a = some (s', e) ∧ Ready s')
    (hrefused : ∀ s a, Fresh s → out a .refused → ∃ e, api.reset s a = some (s, e))
    (hlost : ∀ s a, Fresh s → out a .lost → ∃ s' e, api.reset s a = some (s', e) ∧ Fresh s')
    (hupdate : ∀ s p len, Ready s → Readable cfg p len →
      ∃ s' e, api.update s p len = some (s', e) ∧ Ready s')
    (hdigest : ∀ s k, Ready s → ∃ o, api.digest s k = some o)
    (hcopyF : ∀ d s, Fresh d → Fresh s → Fresh (api.copy d s))
    (hcopy : ∀ d s, Fresh d → Ready s → Ready (api.copy d s))
    {A : Nat → Bool} {ops : List (Op R K)} (hall : Allowed cfg out A ops) :
    ∀ heap : Nat → S, (∀ i, Fresh (heap i)) → (∀ i, A i = true → Ready (heap i)) →
      ∃ evs, runModel api heap ops = some evs := by
  have hset : ∀ {heap : Nat → S} {P : S → Prop} {B : Nat → Prop} (i : Nat) (s' : S),
      (∀ j, B j → P (heap j)) → (B i → P s') → ∀ j, B j → P (setAt heap i s' j) := by
    intro heap P B i s' h1 h2 j hj
    unfold setAt
    split
    · rename_i h; exact h2 (h ▸ hj)
    · exact h1 j hj
  induction hall with
  | nil => intro heap _ _; exact ⟨[], rfl⟩
  | @reset A i a ops hok _ ih =>
    intro heap hf hA
    obtain ⟨s', e, h1, h2⟩ := hreset (heap i) a (hf i) hok
    obtain ⟨evs, h3⟩ := ih (setAt heap i s')
      (fun j => hset (B := fun _ => True) i s' (fun j _ => hf j) (fun _ => hRF _ h2) j trivial)
      (by
        intro j hj
        unfold setAt at hj ⊢
        split
        · exact h2
        · rename_i h; rw [if_neg h] at hj; exact hA j hj)
    exact ⟨_, by simp only [runModel, h1, Option.bind_eq_bind, Option.bind_some, h3]; rfl⟩
  | @refused A i a ops ho _ ih =>
    intro heap hf hA
    obtain ⟨e, h1⟩ := hrefused (heap i) a (hf i) ho
    have e' : setAt heap i (heap i) = heap := by
      funext j; unfold setAt; split
      · rename_i h; rw [h]
      · rfl
    obtain ⟨evs, h3⟩ := ih heap hf hA
    exact ⟨_, by simp only [runModel, h1, Option.bind_eq_bind, Option.bind_some, e', h3]; rfl⟩
  | @lost A i a ops ho _ ih =>
    intro heap hf hA
    obtain ⟨s', e, h1, h2⟩ := hlost (heap i) a (hf i) ho
    obtain ⟨evs, h3⟩ := ih (setAt heap i s')
      (fun j => hset (B := fun _ => True) i s' (fun j _ => hf j) (fun _ => h2) j trivial)
      (by
        intro j hj
        unfold setAt at hj ⊢
        split
        · rename_i h; rw [if_pos h] at hj; cases hj
        · rename_i h; rw [if_neg h] at hj; exact hA j hj)
    exact ⟨_, by simp only [runModel, h1, Option.bind_eq_bind, Option.bind_some, h3]; rfl⟩
  | @update A i p len ops hAi hp _ ih =>
    intro heap hf hA
    obtain ⟨s', e, h1, h2⟩ := hupdate (heap i) p len (hA i hAi) hp
    obtain ⟨evs, h3⟩ := ih (setAt heap i s')
      (fun j => hset (B := fun _ => True) i s' (fun j _ => hf j) (fun _ => hRF _ h2) j trivial)
      (hset (B := fun j => A j = true) i s' hA (fun _ => h2))
    exact ⟨_, by simp only [runModel, h1, Option.bind_eq_bind, Option.bind_some, h3]; rfl⟩
  | @digest A i k ops hAi _ ih =>
    intro heap hf hA
    obtain ⟨o, h1⟩ := hdigest (heap i) k (hA i hAi)
    obtain ⟨evs, h3⟩ := ih heap hf hA
    exact ⟨_, by simp only [runModel, h1, Option.bind_eq_bind, Option.bind_some, h3]; rfl⟩
  | @copy A d s ops _ ih =>
    intro heap hf hA
    obtain ⟨evs, h3⟩ := ih (setAt heap d (api.copy (heap d) (heap s)))
      (fun j => hset (B := fun _ => True) d _ (fun j _ => hf j) (fun _ => hcopyF _ _ (hf d) (hf s)) j trivial)
      (by
        intro j hj
        unfold setAt at hj ⊢
        split
        · rename_i h; rw [if_pos h] at hj; exact hcopy _ _ (hf d) (hA s hj)
        · rename_i h; rw [if_neg h] at hj; exact hA j hj)
    exact ⟨_, by simp only [runModel, Option.bind_eq_bind, h3]; rfl⟩

/-- Feed chunks one after the other. -/
def feed {S : Type} (update : S → Ptr → Nat → Option (S × Err)) (s : S) :
    List (Ptr × Nat) → Option S
  | [] => some s
  | c :: cs => do
    let (s, _) ← update s c.1 c.2
    feed update s cs

/-- The message made of the chunks. -/
def message (chunks : List (Ptr × Nat)) : List Byte := chunks.flatMap fun c => contents c.1

theorem feed_repr {S : Type} {cfg : Cfg} {update : S → Ptr → Nat → Option (S × Err)}
    {Rep : List Byte → S → Prop} {lenOk : Nat → Prop}
    (hmono : ∀ m n, m ≤ n → lenOk n → lenOk m)
    (hupdate : ∀ s msg p len, Rep msg s → Readable cfg p len → lenOk (msg.length + len) →
      ∃ s', update s p len = some (s', .ok) ∧ Rep (msg ++ contents p) s') :
    ∀ (chunks : List (Ptr × Nat)) (s : S) (msg : List Byte), Rep msg s →
      (∀ c ∈ chunks, Readable cfg c.1 c.2) → lenOk (msg.length + (message chunks).length) →
      ∃ s', feed update s chunks = some s' ∧ Rep (msg ++ message chunks) s'
  | [], s, msg, hr, _, _ => ⟨s, rfl, by simpa [message] using hr⟩
  | c :: cs, s, msg, hr, hcs, hl => by
    have hlen := (hcs c (by simp)).length
    have hm : message (c :: cs) = contents c.1 ++ message cs := rfl
    rw [hm, List.length_append] at hl
    obtain ⟨s1, h1, hr1⟩ := hupdate s msg c.1 c.2 hr (hcs c (by simp))
      (hmono _ _ (by unfold contents; omega) hl)
    obtain ⟨s2, h2, hr2⟩ := feed_repr hmono hupdate cs s1 (msg ++ contents c.1) hr1
      (fun d hd => hcs d (by simp [hd])) (by rw [List.length_append, Nat.add_assoc]; exact hl)
    refine ⟨s2, ?_, ?_⟩
    · simp only [feed, h1, Option.bind_eq_bind, Option.bind_some]; exact h2
    · rw [hm, ← List.append_assoc]; exact hr2

end XXH
