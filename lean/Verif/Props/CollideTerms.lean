import Verif.Model.Collide
import Verif.Spec.XXH3
import Verif.Spec.XXH32
import Verif.Spec.XXH64
import Mathlib.Data.Nat.Choose.Basic
/-!
The words in which the properties of the collision tester (C49) are stated: what is asked of the machine, what a hash
is, what a collision is. Nothing here refers to how the tester finds them.
-/
namespace XXH.CollideTerms
open XXH.Model XXH.Model.Collide
open Bench (Run Fp)

/-! ### The machine -/

/-- What is asked of `double`: results are correct to 53 bits, those with 53 bits are exact. -/
structure FpOK (fp : Fp) : Prop where
  near : ∀ q : ℚ, 1 / 2^1000 ≤ |q| → |fp.rnd q - q| ≤ |q| / 2^53
  exact : ∀ n : ℕ, n ≤ 2^53 → ∀ k : ℕ, k ≤ 900 → fp.rnd (n * 2^k) = n * 2^k

/-- What is asked of the process. -/
structure EnvOK (e : Env) : Prop where
  cfg : e.cfg.Valid
  size : e.cfg.sizeBits = 64
  fp : FpOK e.fp
  sort64 : ∀ l, (e.sort64 l).Perm l ∧ (e.sort64 l).Pairwise (·.toNat ≤ ·.toNat)
  sort128 : ∀ l, (e.sort128 l).Perm l ∧ (e.sort128 l).Pairwise (XXH3.XXH128_cmp · · ≤ 0)

/-- The machine gives some value to shifts outside of 0..63. -/
def Shifts (e : Env) : Prop := ∀ n, (e.shiftOut n).isSome

/-- There is enough memory. -/
def Memory (e : Env) : Prop := ∀ k n, e.alloc k n = true

/-- `realloc` does not move what shrinks, whether to nothing or to something. -/
def Shrinks (e : Env) : Prop := ∀ n, e.inPlace n = true

/-- A run without undefined behaviour that comes to an end: `P` holds of its result, `X` when it exits with an error,
`A` when it aborts. -/
def EndsIn {α : Type} (P : α → Prop) (X A : Prop) : Run α → Prop
  | .done a => P a
  | .exit c => c = 1 ∧ X
  | .abort => A
  | .undefined => False
  | .unfinished => False

/-! ### Hashes and collisions -/

/-- The sum of the bytes. -/
def byteSum (msg : List Byte) : ℕ := (msg.map (·.toNat)).sum % 2^32

/-- The hashes by name: the number of their bits and their values as numbers. -/
def hashes : List (String × ℕ × (List Byte → ℕ)) := [
  ("xxh3", 64, fun msg => (Spec.XXH3.XXH3_64 msg).toNat),
  ("xxh64", 64, fun msg => (Spec.XXH64.hash msg 0).toNat),
  ("xxh128", 128, fun msg => (Spec.XXH3.XXH3_128 msg).high64.toNat * 2^64 + (Spec.XXH3.XXH3_128 msg).low64.toNat),
  ("xxh128l", 64, fun msg => (Spec.XXH3.XXH3_128 msg).low64.toNat),
  ("xxh128h", 64, fun msg => (Spec.XXH3.XXH3_128 msg).high64.toNat),
  ("xxh32", 32, fun msg => (Spec.XXH32.hash msg 0).toNat),
  ("badsum32", 32, byteSum)]

/-- How many of the values have been there before. -/
def collisions (l : List ℕ) : ℕ := l.length - l.dedup.length

/-- In how many bits two messages differ. -/
def differing (a b : List Byte) : ℕ :=
  ((List.range (8 * a.length)).filter fun i =>
    (a.getD (i / 8) 0).getLsbD (i % 8) != (b.getD (i / 8) 0).getLsbD (i % 8)).length

/-- How many messages of `size` bytes differ from a given one in 1 to 14 bits. -/
def reach (size : ℕ) : ℕ := ((List.range' 1 14).map fun k => (8 * size).choose k).sum

/-- The next `n` samples of the generation `SLAB5`. -/
def slabSamples (cfg : Cfg) (size : ℕ) : ℕ → Slab → Option (List (List Byte))
  | 0, _ => some []
  | n+1, f => do
    let f ← updateSlab cfg size f
    let l ← slabSamples cfg size n f
    return f.buffer :: l

/-- How many hashes are made when no number is given. -/
def standard (bits : ℕ) : ℕ := if bits = 32 then 24 * 2^16 else 24 * 2^30

/-! ### Requests -/

/-- A request for the collisions among `n` hashes, for the hash with these properties: a size that allows for as many
samples, and a filter that is not too small. -/
structure Request (o : Opts) (bits n : ℕ) : Prop where
  number : n = if o.totalH = 0 then standard bits else o.totalH.toNat
  most : n ≤ 2^35
  size : 2 ≤ o.sampleSize ∧ 8 * o.sampleSize < 2^31 - 1
  reach : n ≤ reach o.sampleSize
  threads : 0 ≤ o.threadlog ∧ o.threadlog < 31
  filter : o.filter = true → (o.bflog = 0 ∧ 64 ≤ n) ∨ (7 ≤ o.bflog ∧ o.bflog < 64)

/-- There are too many threads for this number of hashes or this size of the filter. -/
def TooManyThreads (o : Opts) (n : ℕ) : Prop :=
  o.threadlog ≠ 0 ∧ (o.threadlog = 30 ∨ n < 2^16 * 2^o.threadlog.toNat ∨
    o.filter = true ∧ (if o.bflog = 0 then (n.log2 : ℤ) + 1 else o.bflog) < o.threadlog + 10)

end XXH.CollideTerms
