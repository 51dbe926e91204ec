import Verif.Model.Bench
import Verif.Spec.XXH3
import Verif.Spec.XXH32
import Verif.Spec.XXH64
/-!
The words in which the properties of the benchmark (C48) are stated: what is asked of the machine, and what the reports
must say. Nothing here refers to how the benchmark computes them.
-/
namespace XXH.BenchTerms
open XXH.Model XXH.Model.Bench

/-! ### The machine -/

/-- What is asked of `double`: results are correct to 53 bits as long as they are not tiny, and rounding does not
go below 1. -/
structure FpOK (fp : Fp) : Prop where
  near : ∀ q : ℚ, q = 0 ∨ 1 / 2^1000 ≤ |q| → |fp.rnd q - q| ≤ |q| / 2^53
  one : ∀ q : ℚ, 1 ≤ q → 1 ≤ fp.rnd q

/-- What is asked of the process. -/
structure EnvOK (e : Env) : Prop where
  cfg : e.cfg.Valid
  size : 32 ≤ e.cfg.sizeBits
  typed : e.state3.Typed
  fp : FpOK e.fp
  perSec : 1 ≤ e.perSec ∧ e.perSec ≤ 2^40

/-- Seconds per hash: `t` ticks, `n` calls. -/
def secs (e : Env) (t n : ℕ) : ℚ := (t : ℚ) / (e.perSec * n)

/-- A round that counts: it took half a second, or the evaluation is a quick one. -/
def Counts (e : Env) (t : ℕ) : Prop := ¬ (t < e.perSec / 2 ∧ 0 < e.nbIterations)

instance (e : Env) (t : ℕ) : Decidable (Counts e t) := inferInstanceAs (Decidable (¬ _))

/-- The machine is not too fast for the loop: at most `D` calls per tick, with a clock that moves on every `G` ticks. -/
structure SlowEnough (e : Env) (i G D : ℕ) : Prop where
  calls : ∀ k (n : ℕ), (n : ℤ) ≤ (e.ticks i k n + G) * D
  limit : (e.perSec / 2 + G) * D ≤ MAXRATE
  resolution : 100 * (G * D) < 2^32

/-- Terse output needs fewer than `2^31` hashes per second. -/
def TerseOK (e : Env) (i : ℕ) : Prop := 1 ≤ e.logLevel ∨ ∀ k (n : ℕ), 1 ≤ n → (n : ℤ) * e.perSec ≤ 2^31 * e.ticks i k n

/-- What is asked of the clock and of the number of iterations. -/
structure ClockOK (e : Env) (i : ℕ) : Prop where
  forward : ∀ k n, 0 ≤ e.ticks i k n
  iterations : e.nbIterations < 2^31 - 1

/-! ### The tests -/

/-- The tests with their documented names: the low 32 bits of the hash of that name. -/
def table : List (String × (List Byte → W32 → W32)) := [
  ("XXH32", fun msg u => Spec.XXH32.hash msg u),
  ("XXH64", fun msg u => (Spec.XXH64.hash msg (u.setWidth 64)).setWidth 32),
  ("XXH3_64b", fun msg _ => (Spec.XXH3.XXH3_64 msg).setWidth 32),
  ("XXH3_64b w/seed", fun msg u => (Spec.XXH3.XXH3_64_withSeed msg (u.setWidth 64)).setWidth 32),
  ("XXH3_64b w/secret", fun msg _ => (Spec.XXH3.XXH3_64_withSecret msg (SelfTest.fillTestBuffer 136)).setWidth 32),
  ("XXH128", fun msg _ => (Spec.XXH3.XXH3_128 msg).low64.setWidth 32),
  ("XXH128 w/seed", fun msg u => (Spec.XXH3.XXH3_128_withSeed msg (u.setWidth 64)).low64.setWidth 32),
  ("XXH128 w/secret",
    fun msg _ => (Spec.XXH3.XXH3_128_withSecret msg (SelfTest.fillTestBuffer 136)).low64.setWidth 32),
  ("XXH32_stream", fun msg u => Spec.XXH32.hash msg u),
  ("XXH64_stream", fun msg u => (Spec.XXH64.hash msg (u.setWidth 64)).setWidth 32),
  ("XXH3_stream", fun msg _ => (Spec.XXH3.XXH3_64 msg).setWidth 32),
  ("XXH3_stream w/seed", fun msg u => (Spec.XXH3.XXH3_64_withSeed msg (u.setWidth 64)).setWidth 32),
  ("XXH128_stream", fun msg _ => (Spec.XXH3.XXH3_128 msg).low64.setWidth 32),
  ("XXH128_stream w/seed", fun msg u => (Spec.XXH3.XXH3_128_withSeed msg (u.setWidth 64)).low64.setWidth 32)]

/-- Entry `f` of the table. -/
def namedHash (f : ℕ) (msg : List Byte) (u : W32) : W32 := match table[f]? with
  | some t => t.2 msg u
  | none => 0

@[inherit_doc namedHash] def nameOf (f : ℕ) : String := match table[f]? with
  | some t => t.1
  | none => ""

/-- The name printed for test `i`: tests 1 and 2 are the aligned and the unaligned test of the first function, and so
on. -/
def testName (i : ℕ) : String := nameOf ((i - 1) / 2) ++ (if i % 2 = 1 then "" else " unaligned")

/-- The numbers of all tests. -/
def allTests : List ℕ := (List.range 28).map (· + 1)

/-! ### The reports -/

/-- The sum of the results of `n` calls. -/
def sumOf (g : W32 → W32) (n : ℕ) : W32 := ((List.range n).map fun u => g (BitVec.ofNat 32 u)).sum

/-- A run that ends, if at all, in a regular way and with the property `P` of its result. -/
def Sat {α : Type} (P : α → Prop) : Run α → Prop
  | .unfinished => True
  | .done a => P a
  | _ => False

/-- The number of rounds that must count. -/
def wanted (e : Env) : ℤ := e.nbIterations + (if e.nbIterations = 0 then 1 else 0)

/-- How many of the rounds count; the first one is round `k`. -/
def counting (e : Env) (i : ℕ) : ℕ → List (ℕ × W32) → ℕ
  | _, [] => 0
  | k, p :: ps => (if Counts e (e.ticks i k p.1).toNat then 1 else 0) + counting e i (k + 1) ps

/-- What a list of rounds, from round `k` on, says about the time per hash `q`; `q0` is the value before. -/
structure Measured (e : Env) (i k : ℕ) (rounds : List (ℕ × W32)) (q0 q : ℚ) : Prop where
  le : q ≤ q0
  fastest : ∀ j p, rounds[j]? = some p → Counts e (e.ticks i (k + j) p.1).toNat → 1 ≤ p.1 →
    q ≤ secs e (e.ticks i (k + j) p.1).toNat p.1 * (1 + 1/2^50)
  attained : q = q0 ∨ ∃ j p, rounds[j]? = some p ∧ Counts e (e.ticks i (k + j) p.1).toNat ∧ 1 ≤ p.1 ∧
    secs e (e.ticks i (k + j) p.1).toNat p.1 * (1 - 1/2^50) ≤ q ∧
    q ≤ secs e (e.ticks i (k + j) p.1).toNat p.1 * (1 + 1/2^50)

/-- What a report must say about test `i` of the function with the results `g`. -/
structure ReportOK (e : Env) (i : ℕ) (name : String) (g : W32 → W32) (r : TestReport) : Prop where
  testID : r.testID = i
  name : r.name = name
  perHash : ∃ q, r.perHash = .fin q ∧ 0 ≤ q ∧ Measured e i 0 r.rounds 100000000 q
  sums : ∀ p ∈ r.rounds, p.2 = sumOf g p.1
  rounds : counting e i 0 r.rounds = (wanted e).toNat

/-- The reports of the tests `is` that are selected, for the inputs `input i`. -/
def ReportsOK (e : Env) (input : ℕ → List Byte) (testIDs : List Bool) (is : List ℕ) (rs : List TestReport) : Prop :=
  rs.map (·.testID) = is.filter (testIDs.getD · false) ∧
  ∀ r ∈ rs, ReportOK e r.testID (testName r.testID) (namedHash ((r.testID - 1) / 2) (input r.testID)) r

end XXH.BenchTerms
