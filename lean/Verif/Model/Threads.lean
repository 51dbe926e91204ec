import Mathlib.Logic.Function.Basic
/-!
Threads that share a memory and interleave access by access. What a thread does is a tree of accesses: it reads a location and goes
on depending on the value, or writes one. This is where the functions of the library are called from; between two accesses of a
call other threads may run. (The library has no data of its own that it writes, apart from the dispatch tables of C45: the only
variables at file scope of xxhash.h are `const`: `XXH3_kSecret`, `PRIME_MX1`, `PRIME_MX2`, xxhash.h:4284, 4299-4300.)

Simplification: executions are sequentially consistent. This is what C11 guarantees to programs without data races (5.1.2.4), and
that there are none is one of the theorems (C63).
-/
namespace XXH.Model.Threads

variable {Loc : Type} {Val : Loc → Type}

/-- The contents of the memory. -/
abbrev Mem (Val : Loc → Type) := ∀ l, Val l

/-- What remains to be done by a thread. -/
inductive Tree (Val : Loc → Type) (α : Type) where
  | ret (x : α)
  /-- undefined behaviour -/
  | ub
  | read (l : Loc) (k : Val l → Tree Val α)
  | write (l : Loc) (v : Val l) (k : Tree Val α)

/-- One after the other. -/
def Tree.bind {α β : Type} : Tree Val α → (α → Tree Val β) → Tree Val β
  | .ret x, f => f x
  | .ub, _ => .ub
  | .read l k, f => .read l fun v => (k v).bind f
  | .write l v k, f => .write l v (k.bind f)

variable [DecidableEq Loc]

/-- One access. -/
def Tree.next {α : Type} (m : Mem Val) : Tree Val α → Tree Val α × Mem Val
  | .ret x => (.ret x, m)
  | .ub => (.ub, m)
  | .read l k => (k (m l), m)
  | .write l v k => (k, Function.update m l v)

/-- The thread runs alone to its end: the result, `none` if undefined, and the memory. -/
def Tree.solo {α : Type} : Tree Val α → Mem Val → Option α × Mem Val
  | .ret x, m => (some x, m)
  | .ub, m => (none, m)
  | .read l k, m => (k (m l)).solo m
  | .write l v k, m => k.solo (Function.update m l v)

/-- Threads and the memory. -/
structure Config (ι : Type) (Val : Loc → Type) (α : Type) where
  todo : ι → Tree Val α
  mem : Mem Val

/-- Thread `t` makes one access. -/
def Config.step {ι α : Type} [DecidableEq ι] (c : Config ι Val α) (t : ι) : Config ι Val α :=
  let r := (c.todo t).next c.mem
  ⟨Function.update c.todo t r.1, r.2⟩

/-- An execution: the threads in the order in which they make accesses. -/
def Config.exec {ι α : Type} [DecidableEq ι] (c : Config ι Val α) (schedule : List ι) : Config ι Val α := schedule.foldl Config.step c

end XXH.Model.Threads
