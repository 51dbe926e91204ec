import Verif.Proof.Threads
import Verif.Props.XXH32
import Verif.Props.XXH64
import Verif.Props.XXH3
import Verif.Props.XXH3Stream
/-!
**C63.** Threads: what is promised to a program with one thread holds for every thread of a program in which no thread writes what
another uses, whatever the order of the accesses to the memory. Reading the same input, and taking digests of the same state, is
no conflict.
-/
namespace XXH.Props
open Model Examples XXH.Threads Proof.ThreadsP
open Model.Threads (Tree Config)

/-! ### Threads in general -/

/-- What several threads can be promised: their answers do not depend on the order of the accesses, nothing is undefined, no two
accesses that are possible next are a data race, and each thread ends after as many accesses of its own as it makes alone, without
waiting for others. -/
structure Independent {Loc ι α : Type} {Val : Loc → Type} [DecidableEq Loc] [DecidableEq ι] (c : Config ι Val α) (answer : ι → α) :
    Prop where
  answers : ∀ order t x, (c.exec order).todo t = .ret x → x = answer t
  defined : ∀ order t, (c.exec order).todo t ≠ .ub
  raceFree : ∀ order t u l, t ≠ u → Writes ((c.exec order).todo t) l → ¬ Accesses ((c.exec order).todo u) l
  ends : ∀ order t, length (c.todo t) c.mem ≤ order.count t → (c.exec order).todo t = .ret (answer t)

/-- **C63.** Threads of any kind, each of which, alone, gives an answer and keeps to its part of the memory: they are independent. -/
theorem C63_independent {Loc ι α : Type} {Val : Loc → Type} [DecidableEq Loc] [DecidableEq ι] (c : Config ι Val α) (answer : ι → α)
    {R W : ι → Loc → Prop} (ha : Apart R W) (hw : ∀ t, Within (R t) (W t) (c.todo t) c.mem)
    (hs : ∀ t, ((c.todo t).solo c.mem).1 = some (answer t)) : Independent c answer := by
  have hI := fun order => Inv.exec ha order (Inv.refl hw)
  have hsolo : ∀ order t, (((c.exec order).todo t).solo (c.exec order).mem).1 = some (answer t) := fun order t => by
    rw [(hI order).1.result t, hs t]
  have hans : ∀ order t x, (c.exec order).todo t = .ret x → x = answer t := fun order t x h => by
    have := hsolo order t
    rw [h] at this
    exact Option.some.inj this
  have hdef : ∀ order t, (c.exec order).todo t ≠ .ub := fun order t h => by
    have := hsolo order t
    rw [h] at this
    cases this
  refine ⟨hans, hdef, ?_, fun order t hn => ?_⟩
  · intro order t u l htu h1 h2
    have w1 := (hI order).1.within t
    have w2 := (hI order).1.within u
    have : W t l := by
      generalize (c.exec order).todo t = x at h1 w1
      cases h1
      exact w1.1
    refine ha t u htu l this ?_
    generalize (c.exec order).todo u = x at h2 w2
    cases h2
    · exact w2.1
    · exact Or.inr w2.1
  · have h0 := (hI order).2 t
    rw [Nat.sub_eq_zero_of_le hn] at h0
    rcases length_zero h0 with ⟨x, hx⟩ | h
    · rw [hx, hans order t x hx]
    · exact absurd h (hdef order t)

/-- **C63.** The memory, too: a thread that has ended finds in its part what it would find if it were alone, and nothing changes that
no thread writes. -/
theorem C63_memory {Loc ι α : Type} {Val : Loc → Type} [DecidableEq Loc] [DecidableEq ι] (c : Config ι Val α)
    {R W : ι → Loc → Prop} (ha : Apart R W) (hw : ∀ t, Within (R t) (W t) (c.todo t) c.mem) (order : List ι) :
    (∀ t x, (c.exec order).todo t = .ret x → ∀ l, R t l ∨ W t l → (c.exec order).mem l = ((c.todo t).solo c.mem).2 l) ∧
    ∀ l, (∀ t, ¬ W t l) → (c.exec order).mem l = c.mem l := by
  have hI := (Inv.exec ha order (Inv.refl hw)).1
  refine ⟨fun t x hx l hl => ?_, hI.rest⟩
  have := hI.memory t l hl
  rw [hx] at this
  exact this

/-! ### Threads that use the library -/

/-- Memory: the bytes of the program, and states. A state is one location here; a call may read and write it many times. -/
inductive Loc where
  | byte (a : Nat)
  | state (i : Nat)
deriving DecidableEq

/-- What is there. -/
@[reducible] def Val (S : Type) : Loc → Type
  | .byte _ => Byte
  | .state _ => S

/-- A step of a thread: a call, with an address for the input, or a write to its own memory. -/
inductive Item (R K : Type) where
  | reset (i : Nat) (a : R)
  | update (i : Nat) (p : Option Nat) (len : Nat)
  | digest (i : Nat) (k : K)
  | copy (dst src : Nat)
  | poke (a : Nat) (b : Byte)

variable {S R K O : Type}

/-- The memory as the library sees it through a pointer. -/
def ptrAt (m : Threads.Mem (Val S)) (p : Option Nat) (len : Nat) : Ptr :=
  p.map fun a => ⟨a, (List.range len).map fun j => m (.byte (a + j))⟩

/-- What a call does when nothing else happens. -/
def act (api : Api S R K O) (m : Threads.Mem (Val S)) : Item R K → Option (Event O × Threads.Mem (Val S))
  | .reset i a => do
    let (s, e) ← api.reset (m (.state i)) a
    return (.code e, Function.update m (.state i) s)
  | .update i p len => do
    let (s, e) ← api.update (m (.state i)) (ptrAt m p len) len
    return (.code e, Function.update m (.state i) s)
  | .digest i k => do return (.hash (← api.digest (m (.state i)) k), m)
  | .copy d s => some (.void, Function.update m (.state d) (api.copy (m (.state d)) (m (.state s))))
  | .poke a b => some (.void, Function.update m (.byte a) b)

/-- What it reads: the input; digests and copies read a state that they do not change (xxhash.h: `const XXH32_state_t*` and so on). -/
def callReads : Item R K → Loc → Prop
  | .reset _ _, _ => False
  | .update _ p len, l => ∃ a j, p = some a ∧ j < len ∧ l = .byte (a + j)
  | .digest i _, l => l = .state i
  | .copy _ s, l => l = .state s
  | .poke _ _, _ => False

/-- What it writes (and may read as well). -/
def callWrites : Item R K → Loc → Prop
  | .reset i _, l => l = .state i
  | .update i _ _, l => l = .state i
  | .digest _ _, _ => False
  | .copy d _, l => l = .state d
  | .poke a _, l => l = .byte a

/-- Machine code for the calls: any sequences of accesses which, with nothing else going on, have the effect of the calls and touch
only what they may touch. -/
def Implements (api : Api S R K O) (code : Item R K → Tree (Val S) (Event O)) : Prop :=
  ∀ c m ev m', act api m c = some (ev, m') → (code c).solo m = (some ev, m') ∧ Within (callReads c) (callWrites c) (code c) m

/-- A thread. -/
def program (code : Item R K → Tree (Val S) (Event O)) : List (Item R K) → Tree (Val S) (List (Event O))
  | [] => .ret []
  | c :: cs => (code c).bind fun ev => (program code cs).bind fun evs => .ret (ev :: evs)

/-- The calls of a thread in the terms of C10 and C11, with what is behind the pointers at that time if the thread is alone. -/
def history (m : Threads.Mem (Val S)) : List (Item R K) → List (Op R K)
  | [] => []
  | .reset i a :: cs => .reset i a :: history m cs
  | .update i p len :: cs => .update i (ptrAt m p len) len :: history m cs
  | .digest i k :: cs => .digest i k :: history m cs
  | .copy d s :: cs => .copy d s :: history m cs
  | .poke a b :: cs => history (Function.update m (.byte a) b) cs

/-- The answers to the calls, and `void` for the writes of the thread. -/
def answersOf : List (Item R K) → List (Event O) → List (Event O)
  | .poke _ _ :: cs, evs => .void :: answersOf cs evs
  | _ :: cs, e :: evs => e :: answersOf cs evs
  | _, _ => []

/-- The thread keeps to its part of the memory. -/
def Keeps (R' W' : Loc → Prop) (items : List (Item R K)) : Prop :=
  ∀ c ∈ items, (∀ l, callReads c l → R' l ∨ W' l) ∧ ∀ l, callWrites c l → W' l

/-- The states in the memory. -/
def statesOf (m : Threads.Mem (Val S)) : Nat → S := fun i => m (.state i)

theorem statesOf_state (m : Threads.Mem (Val S)) (i : Nat) (s : S) :
    statesOf (Function.update m (.state i) s) = setAt (statesOf m) i s := by
  funext j
  unfold statesOf setAt
  by_cases h : j = i
  · subst h; simp
  · rw [if_neg h, Function.update_of_ne (by simpa using h)]

theorem statesOf_byte (m : Threads.Mem (Val S)) (a : Nat) (b : Byte) : statesOf (Function.update m (.byte a) b) = statesOf m := by
  funext j
  unfold statesOf
  rw [Function.update_of_ne (by simp)]

theorem ptrAt_state (m : Threads.Mem (Val S)) (i : Nat) (s : S) (p : Option Nat) (len : Nat) :
    ptrAt (Function.update m (.state i) s) p len = ptrAt m p len := by
  unfold ptrAt
  cases p with
  | none => rfl
  | some a =>
    simp only [Option.map_some, Option.some.injEq, Buf.mk.injEq, true_and]
    exact List.map_congr_left fun j _ => Function.update_of_ne (by simp) _ _

theorem history_congr : ∀ (items : List (Item R K)) {m m' : Threads.Mem (Val S)}, (∀ a, m (.byte a) = m' (.byte a)) →
    history m items = history m' items
  | [], _, _, _ => rfl
  | .reset _ _ :: cs, _, _, h => by simp only [history]; rw [history_congr cs h]
  | .update _ p len :: cs, m, m', h => by
    have : ptrAt m p len = ptrAt m' p len := by
      unfold ptrAt
      cases p with
      | none => rfl
      | some a => simp only [h]
    simp only [history]; rw [history_congr cs h, this]
  | .digest _ _ :: cs, _, _, h => by simp only [history]; rw [history_congr cs h]
  | .copy _ _ :: cs, _, _, h => by simp only [history]; rw [history_congr cs h]
  | .poke a b :: cs, m, m', h => by
    simp only [history]
    refine history_congr cs fun x => ?_
    by_cases e : x = a
    · subst e; simp
    · rw [Function.update_of_ne (by simpa using e), Function.update_of_ne (by simpa using e), h]

theorem program_step {api : Api S R K O} {code : Item R K → Tree (Val S) (Event O)} (hc : Implements api code) {R' W' : Loc → Prop}
    {c : Item R K} {cs : List (Item R K)} {m m' : Threads.Mem (Val S)} {ev : Event O} {evs : List (Event O)} (hk : Keeps R' W' (c :: cs))
    (ha : act api m c = some (ev, m')) (ih : ((program code cs).solo m').1 = some evs ∧ Within R' W' (program code cs) m') :
    ((program code (c :: cs)).solo m).1 = some (ev :: evs) ∧ Within R' W' (program code (c :: cs)) m := by
  obtain ⟨h1, h2⟩ := hc c m ev m' ha
  constructor
  · rw [program, solo_bind, h1]
    simp only []
    rw [solo_bind]
    cases h : (program code cs).solo m' with
    | mk x y =>
      rw [h] at ih
      obtain rfl : x = some evs := ih.1
      rfl
  · refine within_bind _ _ _ (within_mono (hk c (by simp)).1 (hk c (by simp)).2 _ _ h2) fun x m'' hx => ?_
    rw [h1] at hx
    cases hx
    exact within_bind _ _ _ ih.2 fun _ _ _ => trivial

theorem program_alone {api : Api S R K O} {code : Item R K → Tree (Val S) (Event O)} (hc : Implements api code) {R' W' : Loc → Prop} :
    ∀ (items : List (Item R K)) (m : Threads.Mem (Val S)) (evs : List (Event O)), Keeps R' W' items →
      runModel api (statesOf m) (history m items) = some evs →
      ((program code items).solo m).1 = some (answersOf items evs) ∧ Within R' W' (program code items) m := by
  intro items
  induction items with
  | nil =>
    intro m evs _ _
    exact ⟨by cases evs <;> rfl, trivial⟩
  | cons c cs ih =>
    intro m evs hk hr
    have hk' : Keeps R' W' cs := fun x hx => hk x (List.mem_cons_of_mem _ hx)
    have hhist : ∀ (i : Nat) (s : S), history (Function.update m (.state i) s) cs = history (R := R) (K := K) m cs := fun i s =>
      history_congr cs fun a => Function.update_of_ne (by simp) _ _
    cases c with
    | reset i a =>
      simp only [history, runModel, Option.bind_eq_bind, Option.bind_eq_some_iff, Option.pure_def, Option.some.injEq] at hr
      obtain ⟨⟨s, e⟩, h1, evs', h2, rfl⟩ := hr
      refine program_step hc hk (ev := .code e) (m' := Function.update m (.state i) s) ?_ (ih _ evs' hk' ?_)
      · simp only [act]
        rw [show api.reset (m (.state i)) a = some (s, e) from h1]; rfl
      · rw [statesOf_state, hhist]; exact h2
    | update i p len =>
      simp only [history, runModel, Option.bind_eq_bind, Option.bind_eq_some_iff, Option.pure_def, Option.some.injEq] at hr
      obtain ⟨⟨s, e⟩, h1, evs', h2, rfl⟩ := hr
      refine program_step hc hk (ev := .code e) (m' := Function.update m (.state i) s) ?_ (ih _ evs' hk' ?_)
      · simp only [act]
        rw [show api.update (m (.state i)) (ptrAt m p len) len = some (s, e) from h1]; rfl
      · rw [statesOf_state, hhist]; exact h2
    | digest i k =>
      simp only [history, runModel, Option.bind_eq_bind, Option.bind_eq_some_iff, Option.pure_def, Option.some.injEq] at hr
      obtain ⟨o, h1, evs', h2, rfl⟩ := hr
      refine program_step hc hk (ev := .hash o) (m' := m) ?_ (ih _ evs' hk' h2)
      simp only [act]
      rw [show api.digest (m (.state i)) k = some o from h1]; rfl
    | copy d s =>
      simp only [history, runModel, Option.bind_eq_bind, Option.bind_eq_some_iff, Option.pure_def, Option.some.injEq] at hr
      obtain ⟨evs', h2, rfl⟩ := hr
      refine program_step hc hk (ev := .void) (m' := Function.update m (.state d) (api.copy (m (.state d)) (m (.state s)))) rfl
        (ih _ evs' hk' ?_)
      rw [statesOf_state, hhist]; exact h2
    | poke a b =>
      refine program_step hc hk (ev := .void) (m' := Function.update m (.byte a) b) rfl (ih _ evs hk' ?_)
      rw [statesOf_byte]; exact hr

/-- **C63.** Threads that call the library, for any of the three families: if what a thread does, alone, has defined answers, then it gets
these answers among the others. -/
theorem C63_calls {ι : Type} [DecidableEq ι] (api : Api S R K O) (code : ι → Item R K → Tree (Val S) (Event O))
    (hc : ∀ t, Implements api (code t)) {R' W' : ι → Loc → Prop} (ha : Apart R' W') (items : ι → List (Item R K))
    (hk : ∀ t, Keeps (R' t) (W' t) (items t)) (m : Threads.Mem (Val S)) (evs : ι → List (Event O))
    (hr : ∀ t, runModel api (statesOf m) (history m (items t)) = some (evs t)) :
    Independent ⟨fun t => program (code t) (items t), m⟩ fun t => answersOf (items t) (evs t) :=
  C63_independent _ _ ha (fun t => (program_alone (hc t) (items t) m (evs t) (hk t) (hr t)).2)
    fun t => (program_alone (hc t) (items t) m (evs t) (hk t) (hr t)).1

/-- **C63** (XXH32). -/
theorem C63_XXH32 {ι : Type} [DecidableEq ι] {cfg : Cfg} (hv : cfg.Valid) (code : ι → Item W32 Unit → Tree (Val Model.XXH32.State) (Event W32))
    (hc : ∀ t, Implements (api32 cfg) (code t)) {R' W' : ι → Loc → Prop} (ha : Apart R' W') (items : ι → List (Item W32 Unit))
    (hk : ∀ t, Keeps (R' t) (W' t) (items t)) (m : Threads.Mem (Val Model.XXH32.State)) (evs : ι → List (Event W32))
    (hr : ∀ t, Runs cfg (fun _ o => o = .ok) (fun _ => True) (fun seed _ msg => Spec.XXH32.hash msg seed) (fun _ => none)
      (history m (items t)) (evs t)) :
    Independent ⟨fun t => program (code t) (items t), m⟩ fun t => answersOf (items t) (evs t) :=
  C63_calls _ code hc ha items hk m evs fun t => C11_XXH32_histories hv (hr t) _

/-- **C63** (XXH64). -/
theorem C63_XXH64 {ι : Type} [DecidableEq ι] {cfg : Cfg} (hv : cfg.Valid) (code : ι → Item W64 Unit → Tree (Val Model.XXH64.State) (Event W64))
    (hc : ∀ t, Implements (api64 cfg) (code t)) {R' W' : ι → Loc → Prop} (ha : Apart R' W') (items : ι → List (Item W64 Unit))
    (hk : ∀ t, Keeps (R' t) (W' t) (items t)) (m : Threads.Mem (Val Model.XXH64.State)) (evs : ι → List (Event W64))
    (hr : ∀ t, Runs cfg (fun _ o => o = .ok) (fun n => n < 2^64) (fun seed _ msg => Spec.XXH64.hash msg seed) (fun _ => none)
      (history m (items t)) (evs t)) :
    Independent ⟨fun t => program (code t) (items t), m⟩ fun t => answersOf (items t) (evs t) :=
  C63_calls _ code hc ha items hk m evs fun t => C11_XXH64_histories hv (hr t) _

/-- **C63** (XXH3), with states that `XXH3_createState` or `XXH3_INITSTATE` gave. Secrets of the caller are values here: nobody writes
them while they are in use. -/
theorem C63_XXH3 {ι : Type} [DecidableEq ι] {cfg : Cfg} (hv : cfg.Valid)
    (code : ι → Item ResetArg Width → Tree (Val Model.XXH3.State) (Event (W64 ⊕ H128)))
    (hc : ∀ t, Implements (api3 cfg) (code t)) {R' W' : ι → Loc → Prop} (ha : Apart R' W') (items : ι → List (Item ResetArg Width))
    (hk : ∀ t, Keeps (R' t) (W' t) (items t)) (m : Threads.Mem (Val Model.XXH3.State))
    (hm : ∀ i, (statesOf m i).Typed ∧ (statesOf m i).extSecret = none ∧ (statesOf m i).seed = 0) (evs : ι → List (Event (W64 ⊕ H128)))
    (hr : ∀ t, Runs cfg (resetOutcome cfg) (fun n => n < 2^64) specOf (fun _ => none) (history m (items t)) (evs t)) :
    Independent ⟨fun t => program (code t) (items t), m⟩ fun t => answersOf (items t) (evs t) :=
  C63_calls _ code hc ha items hk m evs fun t => C10_XXH3_histories hv (hr t) _ hm

/-- **C63.** One-shot functions write nothing: any number of threads may hash the same memory at the same time, each with its own
function. -/
theorem C63_oneshot {ι : Type} [DecidableEq ι] (f : ι → Ptr → Nat → Option O) (p : ι → Option Nat) (len : ι → Nat)
    (code : ι → Tree (Val S) O) (m : Threads.Mem (Val S)) (h : ι → O) (hf : ∀ t, f t (ptrAt m (p t) (len t)) (len t) = some (h t))
    (hc : ∀ t o, f t (ptrAt m (p t) (len t)) (len t) = some o → ((code t).solo m).1 = some o ∧
      Within (fun l => ∃ a j, p t = some a ∧ j < len t ∧ l = .byte (a + j)) (fun _ => False) (code t) m) :
    Independent ⟨code, m⟩ h :=
  C63_independent _ _ (R := fun t l => ∃ a j, p t = some a ∧ j < len t ∧ l = .byte (a + j)) (W := fun _ _ => False) (fun _ _ _ _ h => h.elim)
    (fun t => (hc t _ (hf t)).2) fun t => (hc t _ (hf t)).1

/-! ### Code for the calls exists -/

/-- Read bytes one by one. -/
def readBytes {α : Type} : Nat → Nat → (List Byte → Tree (Val S) α) → Tree (Val S) α
  | _, 0, k => k []
  | a, n + 1, k => .read (.byte a) fun b => readBytes (a + 1) n fun bs => k (b :: bs)

/-- Read the input. -/
def readInput {α : Type} (p : Option Nat) (len : Nat) (k : Ptr → Tree (Val S) α) : Tree (Val S) α :=
  match p with
  | none => k none
  | some a => readBytes a len fun bs => k (some ⟨a, bs⟩)

/-- Read everything, compute, and write the state. -/
def direct (api : Api S R K O) : Item R K → Tree (Val S) (Event O)
  | .reset i a => .read (.state i) fun s =>
    match api.reset s a with
    | none => .ub
    | some (s', e) => .write (.state i) s' (.ret (.code e))
  | .update i p len => .read (.state i) fun s => readInput p len fun q =>
    match api.update s q len with
    | none => .ub
    | some (s', e) => .write (.state i) s' (.ret (.code e))
  | .digest i k => .read (.state i) fun s =>
    match api.digest s k with
    | none => .ub
    | some o => .ret (.hash o)
  | .copy d s => .read (.state d) fun x => .read (.state s) fun y => .write (.state d) (api.copy x y) (.ret .void)
  | .poke a b => .write (.byte a) b (.ret .void)

theorem bytes_succ (m : Threads.Mem (Val S)) (n a : Nat) : ((List.range (n + 1)).map fun j => (m (.byte (a + j)) : Byte)) =
    m (.byte a) :: (List.range n).map fun j => (m (.byte (a + 1 + j)) : Byte) := by
  let g : Nat → Byte := fun x => m (.byte x)
  show ((List.range (n + 1)).map fun j => g (a + j)) = g a :: (List.range n).map fun j => g (a + 1 + j)
  rw [List.range_succ_eq_map, List.map_cons, List.map_map]
  refine congrArg₂ _ rfl (List.map_congr_left fun j _ => ?_)
  exact congrArg g (by simp only [Nat.succ_eq_add_one]; omega)

theorem readBytes_solo {α : Type} (m : Threads.Mem (Val S)) : ∀ (n a : Nat) (k : List Byte → Tree (Val S) α),
    (readBytes a n k).solo m = (k ((List.range n).map fun j => m (.byte (a + j)))).solo m
  | 0, _, _ => rfl
  | n + 1, a, k => by
    show (readBytes (a + 1) n fun bs => k (m (.byte a) :: bs)).solo m = _
    rw [readBytes_solo m n (a + 1), bytes_succ]

theorem readBytes_within {α : Type} (m : Threads.Mem (Val S)) {R' W' : Loc → Prop} : ∀ (n a : Nat) (k : List Byte → Tree (Val S) α),
    (∀ j < n, R' (.byte (a + j))) → Within R' W' (k ((List.range n).map fun j => m (.byte (a + j)))) m → Within R' W' (readBytes a n k) m
  | 0, _, _, _, h => h
  | n + 1, a, k, hR, h => by
    refine ⟨Or.inl (hR 0 (by omega)), readBytes_within m n (a + 1) _ (fun j hj => ?_) ?_⟩
    · have := hR (j + 1) (by omega)
      rwa [show a + 1 + j = a + (j + 1) by omega]
    · rwa [bytes_succ] at h

theorem readInput_solo {α : Type} (m : Threads.Mem (Val S)) (p : Option Nat) (len : Nat) (k : Ptr → Tree (Val S) α) :
    (readInput p len k).solo m = (k (ptrAt m p len)).solo m := by
  cases p with
  | none => rfl
  | some a => exact readBytes_solo m len a _

theorem readInput_within {α : Type} (m : Threads.Mem (Val S)) {R' W' : Loc → Prop} (p : Option Nat) (len : Nat) (k : Ptr → Tree (Val S) α)
    (hR : ∀ l, (∃ a j, p = some a ∧ j < len ∧ l = .byte (a + j)) → R' l) (h : Within R' W' (k (ptrAt m p len)) m) :
    Within R' W' (readInput p len k) m := by
  cases p with
  | none => exact h
  | some a => exact readBytes_within m len a _ (fun j hj => hR _ ⟨a, j, rfl, hj, rfl⟩) h

/-- **C63.** There is code for the calls, whatever they compute. -/
theorem C63_direct (api : Api S R K O) : Implements api (direct api) := by
  intro c m ev m' h
  cases c with
  | reset i a =>
    simp only [act, Option.bind_eq_bind, Option.bind_eq_some_iff, Option.pure_def, Option.some.injEq] at h
    obtain ⟨⟨s, e⟩, h1, h2⟩ := h
    cases h2
    simp only [direct, Tree.solo, Within]
    rw [show api.reset (m (.state i)) a = some (s, e) from h1]
    exact ⟨rfl, Or.inr rfl, rfl, trivial⟩
  | update i p len =>
    simp only [act, Option.bind_eq_bind, Option.bind_eq_some_iff, Option.pure_def, Option.some.injEq] at h
    obtain ⟨⟨s, e⟩, h1, h2⟩ := h
    cases h2
    simp only [direct, Tree.solo, Within, readInput_solo]
    have h1' : api.update (m (.state i)) (ptrAt m p len) len = some (s, e) := h1
    refine ⟨by rw [h1']; rfl, Or.inr rfl, readInput_within m p len _ (fun _ h => h) ?_⟩
    rw [h1']
    exact ⟨rfl, trivial⟩
  | digest i k =>
    simp only [act, Option.bind_eq_bind, Option.bind_eq_some_iff, Option.pure_def, Option.some.injEq] at h
    obtain ⟨o, h1, h2⟩ := h
    cases h2
    simp only [direct, Tree.solo, Within]
    rw [show api.digest (m (.state i)) k = some o from h1]
    exact ⟨rfl, Or.inl rfl, trivial⟩
  | copy d s =>
    cases h
    exact ⟨rfl, Or.inr rfl, Or.inl rfl, rfl, trivial⟩
  | poke a b =>
    cases h
    exact ⟨rfl, rfl, trivial⟩

/-! ### Cases -/

/-- Memory in which address `a` holds the lowest byte of `a`, with states that were never reset. -/
def memT : Threads.Mem (Val Model.XXH32.State)
  | .byte a => BitVec.ofNat 8 a
  | .state _ => ⟨5, 1, ⟨1, 2, 3, 4⟩, List.replicate 16 9, 3⟩

/-- Two threads. They hash the same ten bytes from address 100 on; the first one with its state 0, together with three bytes that it
writes at 200, the second one with its states 1 and 2. -/
def itemsT : Bool → List (Item W32 Unit)
  | false => [.reset 0 7, .update 0 (some 100) 10, .poke 200 0x61, .poke 201 0x62, .poke 202 0x63, .update 0 (some 200) 3, .digest 0 ()]
  | true => [.reset 1 8, .update 1 (some 100) 5, .copy 2 1, .update 1 (some 105) 5, .digest 1 (), .digest 2 ()]

/-- Their parts of the memory. -/
def readT : Bool → Loc → Prop := fun _ l => ∃ a, 100 ≤ a ∧ a < 110 ∧ l = .byte a
def writeT : Bool → Loc → Prop
  | false, l => l = .state 0 ∨ ∃ a, 200 ≤ a ∧ a < 203 ∧ l = .byte a
  | true, l => l = .state 1 ∨ l = .state 2

theorem apartT : Apart readT writeT := by
  intro t u htu l h h'
  cases t <;> cases u <;> try exact htu rfl
  · rcases h with rfl | ⟨a, h1, h2, rfl⟩ <;> rcases h' with ⟨b, h3, h4, h5⟩ | h5 | h5 <;> first | omega | (injection h5; omega) | cases h5
  · rcases h with rfl | rfl <;> rcases h' with ⟨b, h3, h4, h5⟩ | h5 | ⟨b, h3, h4, h5⟩ <;> cases h5

theorem keepsT : ∀ t, Keeps (readT t) (writeT t) (itemsT t) := by
  intro t
  cases t
  all_goals
    intro c hc
    simp only [itemsT, List.mem_cons, List.not_mem_nil, or_false] at hc
  · rcases hc with rfl | rfl | rfl | rfl | rfl | rfl | rfl
    · exact ⟨fun _ h => h.elim, fun _ h => Or.inl h⟩
    · exact ⟨fun l ⟨a, j, h1, h2, h3⟩ => by cases h1; exact Or.inl ⟨100 + j, by omega, by omega, h3⟩, fun _ h => Or.inl h⟩
    · exact ⟨fun _ h => h.elim, fun _ h => Or.inr ⟨200, by omega, by omega, h⟩⟩
    · exact ⟨fun _ h => h.elim, fun _ h => Or.inr ⟨201, by omega, by omega, h⟩⟩
    · exact ⟨fun _ h => h.elim, fun _ h => Or.inr ⟨202, by omega, by omega, h⟩⟩
    · exact ⟨fun l ⟨a, j, h1, h2, h3⟩ => by cases h1; exact Or.inr (Or.inr ⟨200 + j, by omega, by omega, h3⟩), fun _ h => Or.inl h⟩
    · exact ⟨fun _ h => Or.inr (Or.inl h), fun _ h => h.elim⟩
  · rcases hc with rfl | rfl | rfl | rfl | rfl | rfl
    · exact ⟨fun _ h => h.elim, fun _ h => Or.inl h⟩
    · exact ⟨fun l ⟨a, j, h1, h2, h3⟩ => by cases h1; exact Or.inl ⟨100 + j, by omega, by omega, h3⟩, fun _ h => Or.inl h⟩
    · exact ⟨fun _ h => Or.inr (Or.inl h), fun _ h => Or.inr h⟩
    · exact ⟨fun l ⟨a, j, h1, h2, h3⟩ => by cases h1; exact Or.inl ⟨105 + j, by omega, by omega, h3⟩, fun _ h => Or.inl h⟩
    · exact ⟨fun _ h => Or.inr (Or.inl h), fun _ h => h.elim⟩
    · exact ⟨fun _ h => Or.inr (Or.inr h), fun _ h => h.elim⟩

/-- The input. -/
def ten : List Byte := [100, 101, 102, 103, 104, 105, 106, 107, 108, 109]

/-- What each of them is promised. -/
def evsT : Bool → List (Event W32)
  | false => [.code .ok, .code .ok, .code .ok, .hash (Spec.XXH32.hash (ten ++ [0x61, 0x62, 0x63]) 7)]
  | true => [.code .ok, .code .ok, .void, .code .ok, .hash (Spec.XXH32.hash ten 8), .hash (Spec.XXH32.hash (ten.take 5) 8)]

theorem runsT : ∀ t, Runs x64 (fun _ o => o = .ok) (fun _ => True) (fun seed _ msg => Spec.XXH32.hash msg seed) (fun _ => none)
    (history memT (itemsT t)) (evsT t) := by
  have hr : ∀ (m : Threads.Mem (Val Model.XXH32.State)) (a n : Nat), n < 2^63 → Readable x64 (ptrAt m (some a) n) n := by
    intro m a n h
    have hl : (ptrAt m (some a) n).buf.bytes.length = n := by simp [ptrAt, Ptr.buf]
    refine ⟨hl, ?_⟩
    unfold Buf.Fits
    rw [hl]
    exact h
  intro t
  cases t
  · exact .reset rfl (.update rfl (hr _ _ _ (by decide)) trivial (.update rfl (hr _ _ _ (by decide)) trivial (.digest rfl .nil)))
  · exact .reset rfl (.update rfl (hr _ _ _ (by decide)) trivial (.copy (.update rfl (hr _ _ _ (by decide)) trivial
      (.digest rfl (.digest rfl .nil)))))

/-- In whatever order they run, both get the hashes. -/
example : Independent ⟨fun t => program (direct (api32 x64)) (itemsT t), memT⟩ fun t => answersOf (itemsT t) (evsT t) :=
  C63_XXH32 x64_valid _ (fun _ => C63_direct _) apartT itemsT keepsT memT evsT runsT

/-- For instance turn by turn. -/
example : ((Config.exec ⟨fun t => program (direct (api32 x64)) (itemsT t), memT⟩
    ((List.range 80).map fun i => i % 2 == 0)).todo true) = .ret (answersOf (itemsT true) (evsT true)) :=
  (C63_XXH32 x64_valid _ (fun _ => C63_direct _) apartT itemsT keepsT memT evsT runsT).ends _ true (by decide +kernel)

/-- Two threads that use one state: both feed one byte, after which the first one takes the digest. -/
def sharedT : Bool → List (Item W32 Unit)
  | false => [.update 0 (some 100) 1, .digest 0 ()]
  | true => [.update 0 (some 101) 1]

/-- The last answer of a thread that has ended. -/
def lastHash (t : Tree (Val Model.XXH32.State) (List (Event W32))) : Option W32 :=
  match t with
  | .ret evs => evs.getLast?.bind fun
    | .hash o => some o
    | _ => none
  | _ => none

/-- Memory with a state that was reset with seed 0. -/
def memS : Threads.Mem (Val Model.XXH32.State)
  | .byte a => BitVec.ofNat 8 a
  | .state _ =>
    match Model.XXH32.reset (some ⟨5, 1, ⟨1, 2, 3, 4⟩, List.replicate 16 9, 3⟩) 0 with
    | some (s, _) => s
    | none => ⟨5, 1, ⟨1, 2, 3, 4⟩, List.replicate 16 9, 3⟩

/-- **C63.** Threads that use one state without taking turns can lose input: here both calls report success, and the digest the first
thread takes is not that of any order of the calls, its own byte is missing. (A lock around each call, or a state for each thread, is
needed.) -/
theorem C63_shared_state :
    lastHash ((Config.exec ⟨fun t => program (direct (api32 x64)) (sharedT t), memS⟩
      [true, false, false, false, true, true, false]).todo false) = some (Spec.XXH32.hash [101] 0) ∧
    Spec.XXH32.hash [101] 0 ∉ [Spec.XXH32.hash [100] 0, Spec.XXH32.hash [100, 101] 0, Spec.XXH32.hash [101, 100] 0] := by
  decide +kernel

/-- Eight threads take the hash of the same ten bytes at the same time. -/
example : Independent (ι := Fin 8) (Val := Val Model.XXH32.State)
    ⟨fun t => readInput (some 100) 10 fun q =>
      match Model.XXH3.XXH3_64bits_withSeed x64 q 10 (BitVec.ofNat 64 t.val) with
      | none => .ub
      | some h => .ret h, memT⟩ fun t => Spec.XXH3.XXH3_64_withSeed ten (BitVec.ofNat 64 t.val) :=
  C63_oneshot (S := Model.XXH32.State) (ι := Fin 8) (fun t q n => Model.XXH3.XXH3_64bits_withSeed x64 q n (BitVec.ofNat 64 t.val))
    (fun _ => some 100) (fun _ => 10) _ memT _
    (fun t => C03_XXH3_64bits_withSeed_eq_spec x64_valid (p := ptrAt memT (some 100) 10) ⟨rfl, by unfold Buf.Fits; decide⟩ _)
    (fun t o ho => by
      refine ⟨?_, readInput_within _ _ _ _ (fun _ h => h) ?_⟩
      · rw [readInput_solo, ho]; rfl
      · rw [ho]; trivial)

/-- As many threads as there are numbers, each with its own state and seed. -/
def readN : Nat → Loc → Prop := fun _ l => ∃ a, 100 ≤ a ∧ a < 110 ∧ l = .byte a
def writeN : Nat → Loc → Prop := fun t l => l = .state t

theorem apartN : Apart readN writeN := by
  rintro t u htu l rfl (⟨a, _, _, h⟩ | h)
  · cases h
  · exact htu (Loc.state.inj h)

theorem keepsN {R K : Type} (t : Nat) (a : R) (k : K) : Keeps (readN t) (writeN t) [.reset t a, .update t (some 100) 10, .digest t k] := by
  intro c hc
  simp only [List.mem_cons, List.not_mem_nil, or_false] at hc
  rcases hc with rfl | rfl | rfl
  · exact ⟨fun _ h => h.elim, fun _ h => h⟩
  · exact ⟨fun l ⟨a, j, h1, h2, h3⟩ => by cases h1; exact Or.inl ⟨100 + j, by omega, by omega, h3⟩, fun _ h => h⟩
  · exact ⟨fun _ h => Or.inr h, fun _ h => h.elim⟩

/-- The bytes as in `memT`, with any states. -/
def memOf {S : Type} (s : S) : Threads.Mem (Val S)
  | .byte a => BitVec.ofNat 8 a
  | .state _ => s

theorem ptr_ten {S : Type} (s : S) : ptrAt (memOf s) (some 100) 10 = some ⟨100, ten⟩ := rfl

theorem ten_readable : Readable x64 (some ⟨100, ten⟩) 10 := ⟨rfl, by unfold Buf.Fits; decide⟩

example (s : Model.XXH64.State) : Independent (ι := Nat)
    ⟨fun t => program (direct (api64 x64)) [.reset t (BitVec.ofNat 64 t), .update t (some 100) 10, .digest t ()], memOf s⟩
    fun t => [.code .ok, .code .ok, .hash (Spec.XXH64.hash ten (BitVec.ofNat 64 t))] :=
  C63_XXH64 x64_valid _ (fun _ => C63_direct _) apartN _ (fun t => keepsN t _ _) (memOf s)
    (fun t => [.code .ok, .code .ok, .hash (Spec.XXH64.hash ten (BitVec.ofNat 64 t))]) fun t =>
    .reset rfl (.update (a := BitVec.ofNat 64 t) (msg := []) (by simp [setAt]) (by rw [ptr_ten]; exact ten_readable) (by decide)
      (.digest (a := BitVec.ofNat 64 t) (msg := ten) (by rw [setAt, if_pos rfl, ptr_ten]; rfl) .nil))

example : Independent (ι := Nat)
    ⟨fun t => program (direct (api3 x64)) [.reset t (.seed (BitVec.ofNat 64 t)), .update t (some 100) 10, .digest t .bits128],
      memOf (Model.XXH3.INITSTATE junk)⟩
    fun t => [.code .ok, .code .ok, .hash (.inr (Spec.XXH3.XXH3_128_withSeed ten (BitVec.ofNat 64 t)))] :=
  C63_XXH3 x64_valid _ (fun _ => C63_direct _) apartN _ (fun t => keepsN t _ _) (memOf (Model.XXH3.INITSTATE junk))
    (fun _ => ⟨⟨junk_typed.1, junk_typed.2, junk_typed.3⟩, rfl, rfl⟩)
    (fun t => [.code .ok, .code .ok, .hash (.inr (Spec.XXH3.XXH3_128_withSeed ten (BitVec.ofNat 64 t)))]) fun t =>
    .reset trivial (.update (a := ResetArg.seed (BitVec.ofNat 64 t)) (msg := []) (by simp [setAt]) (by rw [ptr_ten]; exact ten_readable)
      (by decide) (.digest (a := ResetArg.seed (BitVec.ofNat 64 t)) (msg := ten) (by rw [setAt, if_pos rfl, ptr_ten]; rfl) .nil))

/-- Thread `true` counts up at location `true`, thread `false` at location `false`; both look at nothing else. -/
def counters : Config Bool (fun _ : Bool => Nat) Nat := ⟨fun t => .read t fun n => .write t (n + 1) (.ret n), fun t => if t then 5 else 7⟩

theorem counters_apart : Apart (fun (_ : Bool) (_ : Bool) => False) (fun (t l : Bool) => l = t) := by
  rintro t u htu l rfl (h | h)
  · exact h
  · exact htu h

theorem counters_within (t : Bool) : Within (fun _ => False) (fun l => l = t) (counters.todo t) counters.mem := ⟨.inr rfl, rfl, trivial⟩

example : Independent counters fun t => if t then 5 else 7 := C63_independent counters _ counters_apart counters_within fun _ => rfl

example (order : List Bool) (x : Nat) (h : (counters.exec order).todo true = .ret x) : (counters.exec order).mem true = 6 :=
  (C63_memory counters counters_apart counters_within order).1 true x h true (.inr rfl)

end XXH.Props
