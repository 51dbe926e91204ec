import Verif.Model.TestBench
import Verif.Props.BenchTerms
import Verif.Spec.Cli
/-!
The words in which the properties of the benchmark program of the tests (C57) are stated.
-/
namespace XXH.TestBenchTerms
open XXH.Model XXH.Model.TestBench XXH.BenchTerms

/-- What is asked of the machine: a valid build, `size_t` of at least 32 bits, a `double` with 53 bits, and `malloc`
returns objects smaller than half the address space. -/
structure MachineOK (e : Env) : Prop where
  cfg : e.cfg.Valid
  size : 32 ≤ e.cfg.sizeBits
  fp : FpOK e.fp
  alloc : ∀ n, e.alloc n = true → n < 2 ^ (e.cfg.sizeBits - 1)

/-- What is asked of the clock: it does not go back, a run takes less than 36 years, and a loop at least an eighth of a
nanosecond. -/
def ClockOK (e : Env) : Prop := ∀ k n, n < 2 ^ 32 → n ≤ 8 * (e.elapsed k n).toNat ∧ (e.elapsed k n).toNat < 2 ^ 60

/-- The hash functions of the benchmark, from their specification: XXH3, XXH32, XXH64, XXH128, converted to `size_t`. -/
def hashOf (cfg : Cfg) (fn : Nat) (msg : List Byte) : Nat :=
  (match fn with
    | 0 => (Spec.XXH3.XXH3_64 msg).toNat
    | 1 => (Spec.XXH32.hash msg 0).toNat
    | 2 => (Spec.XXH64.hash msg 0).toNat
    | _ => (Spec.XXH3.XXH3_128 msg).low64.toNat) % 2 ^ cfg.sizeBits

/-- Calls one after the other: for throughput all start at the beginning of the buffer, for latency each starts where
the result of the one before says, modulo 1024. -/
def Chained (mode : Mode) : Nat → List Call → Nat → Prop
  | h, [], h' => h' = h
  | h, c :: cs, h' =>
    match mode with
    | .throughput => c.offset = 0 ∧ Chained mode h cs h'
    | .latency => c.offset = h % 1024 ∧ Chained mode c.result cs h'

/-- From `w` to `w'` inputs of exactly these sizes were hashed, in this order, each inside the buffer, each with the
right result. -/
def Hashed (e : Env) (fn : Nat) (mode : Mode) (buffer : List Byte) (sizes : List Nat) (w w' : World) : Prop :=
  w'.rnd = w.rnd ∧ ∃ cs : List Call, w'.calls = cs.reverse ++ w.calls ∧ cs.map Call.size = sizes ∧
    (∀ c ∈ cs, c.fn = fn ∧ c.offset + c.size ≤ buffer.length ∧
      c.result = hashOf e.cfg fn ((buffer.drop c.offset).take c.size)) ∧
    Chained mode w.hash cs w'.hash

/-- The inputs of runs with these numbers of loops over blocks of these sizes. -/
def inputsOf (sizes loops : List Nat) : List Nat := loops.flatMap fun n => (List.replicate n sizes).flatten

/-- The time, in nanoseconds, runs number `k`, `k + 1`, … took. -/
def timeOf (e : Env) : Nat → List Nat → Nat
  | _, [] => 0
  | k, n :: loops => (e.elapsed k n).toNat + timeOf e (k + 1) loops

/-- The sizes of the blocks: all `size`, or random from 1 to `size`, drawn from the state `s` of the generator. -/
def blockSizes (e : Env) (sizeMode : SizeMode) (size : Nat) (s : Nat) : List Nat :=
  (List.range (min 1000 (200000 / size + 1))).map fun i =>
    match sizeMode with
    | .fixedSize => size
    | .randomSize => (e.rand ((fun s => (e.rand s).2)^[i] s)).1 % size + 1

/-! ### Tables -/

/-- One after the other: `R a w b w'` holds of every `a` of the list, its result `b`, and the states before and after. -/
def Seq {α β : Type} (R : α → World → β → World → Prop) : List α → World → List β → World → Prop
  | [], w, bs, w' => bs = [] ∧ w' = w
  | a :: as, w, bs, w' => ∃ b bs' w1, bs = b :: bs' ∧ R a w b w1 ∧ Seq R as w1 bs' w'

/-- A table: its heading, whether it is the one for large inputs, how the inputs are chosen, and their sizes. -/
structure Table where
  heading : Line
  large : Bool
  mode : Mode
  sizeMode : SizeMode
  sizes : List Nat

/-- Milliseconds for a cell, and for a run: 1010 and 490 for large inputs, 490 and 170 for small ones. -/
def Table.total (T : Table) : Nat := if T.large then 1010 else 490
def Table.iter (T : Table) : Nat := if T.large then 490 else 170

/-- The bytes hashed: byte `i` is the highest of the 8 bytes of `k2 * k1^(i+1)` modulo `2^64`. -/
def bufferOf (len : Nat) : List Byte :=
  (List.range len).map fun i => BitVec.ofNat 8 (14029467366897019727 * 11400714785074694791 ^ (i + 1) % 2 ^ 64 / 2 ^ 56)

/-- A cell is right: runs of the hash function `fn` on inputs of this size were made, for the time required, and the
number shown is that of the last run, of at least half the time of a run: hashes per second, or, for large inputs,
millions of bytes per second. Random sizes are drawn after `srand(size)`. -/
def CellOK (e : Env) (T : Table) (fn size : Nat) (w : World) (c : ℚ) (w' : World) : Prop :=
  ∃ (loops : List Nat) (n s s' : Nat),
    (T.sizeMode = .randomSize → s = e.srand (BitVec.ofNat 32 size)) ∧
    Hashed e fn T.mode (bufferOf (size + 1024)) (inputsOf (blockSizes e T.sizeMode size s) (loops ++ [n])) { w with rnd := s' } w' ∧
    w'.runs = w.runs + loops.length + 1 ∧ 1 ≤ n ∧
    T.total * 1000000 ≤ timeOf e w.runs (loops ++ [n]) ∧
    T.iter * 500000 ≤ (e.elapsed (w'.runs - 1) n).toNat ∧
    let exact : ℚ := (min 1000 (200000 / size + 1) : ℕ) * n * 1000000000 / (e.elapsed (w'.runs - 1) n).toNat *
      (if T.large then (size : ℚ) / 1000000 else (1 : ℚ) : ℚ)
    |c - exact| ≤ exact / 2 ^ 48

/-- A row is the name of a hash function and one cell for each size. -/
def RowOK (e : Env) (T : Table) (fn : Nat) (w : World) (l : Line) (w' : World) : Prop :=
  ∃ cs, l = .row fn cs ∧ Seq (CellOK e T fn) T.sizes w cs w'

/-- A table is its heading and one row for each selected hash function. -/
def TableOK (e : Env) (o : Opts) (T : Table) (w : World) (ls : List Line) (w' : World) : Prop :=
  ∃ rs, ls = T.heading :: rs ∧ Seq (RowOK e T) (List.range' o.hashNb o.nb_h_test) w rs w'

/-- The tables the options ask for. -/
def tables (o : Opts) : List Table :=
  (if o.largeTest_log_min ≤ o.largeTest_log_max then
    [⟨.large o.largeTest_log_min o.largeTest_log_max, true, .throughput, .fixedSize,
      (List.range' o.largeTest_log_min (o.largeTest_log_max + 1 - o.largeTest_log_min)).map (2 ^ ·)⟩] else []) ++
  (if o.smallTest_size_min ≤ o.smallTest_size_max then
    let sizes := List.range' o.smallTest_size_min (o.smallTest_size_max + 1 - o.smallTest_size_min)
    [⟨.throughputSmall o.smallTest_size_min o.smallTest_size_max, false, .throughput, .fixedSize, sizes⟩,
     ⟨.throughputRandom, false, .throughput, .randomSize, sizes⟩,
     ⟨.latencySmall, false, .latency, .fixedSize, sizes⟩,
     ⟨.latencyRandom, false, .latency, .randomSize, sizes⟩] else [])

/-! ### The command line -/

/-- The number an argument gives: its leading decimal digits, times 2^10 or 2^20 if `K` or `M` follows; whatever comes
after is ignored. `none`: the program gives up on it. -/
def numberOf (s : List Byte) : Option Nat :=
  let digits := s.takeWhile fun c => (Spec.Cli.decVal c).isSome
  let v := Spec.Cli.decimal digits
  if 214748363 ≤ Spec.Cli.decimal digits.dropLast then none
  else if (s.drop digits.length).head? = some 0x4B then (if v < 2097151 then some (v * 2 ^ 10) else none)
  else if (s.drop digits.length).head? = some 0x4D then (if v < 2048 then some (v * 2 ^ 20) else none)
  else some v

/-- Without arguments: all four hash functions, large inputs of 2^9 to 2^27 bytes, small ones of 1 to 127. -/
def defaults : Opts := ⟨0, 4, 9, 27, 1, 127⟩

/-- The options with a number, and the names of the hash functions. -/
inductive Setting where
  | n (s : List Byte) (v : Nat)
  | minl (s : List Byte) (v : Nat)
  | maxl (s : List Byte) (v : Nat)
  | mins (s : List Byte) (v : Nat)
  | maxs (s : List Byte) (v : Nat)
  | hash (id : Nat)

/-- The number is the one the text stands for; the hash function exists. -/
def Setting.OK : Setting → Prop
  | n s v | minl s v | maxl s v | mins s v | maxs s v => numberOf s = some v
  | hash id => id < 4

/-- The argument that makes the setting. -/
def Setting.text : Setting → List Byte
  | n s _ => Spec.Cli.txt "--n=" ++ s
  | minl s _ => Spec.Cli.txt "--minl=" ++ s
  | maxl s _ => Spec.Cli.txt "--maxl=" ++ s
  | mins s _ => Spec.Cli.txt "--mins=" ++ s
  | maxs s _ => Spec.Cli.txt "--maxs=" ++ s
  | hash id => Spec.Cli.txt (["xxh3", "XXH32", "XXH64", "XXH128"].getD id "")

/-- What it sets. -/
def Setting.apply (o : Opts) : Setting → Opts
  | n _ v => { o with nb_h_test := v }
  | minl _ v => { o with largeTest_log_min := v }
  | maxl _ v => { o with largeTest_log_max := v }
  | mins _ v => { o with smallTest_size_min := v }
  | maxs _ v => { o with smallTest_size_max := v }
  | hash id => { o with hashNb := id, nb_h_test := 1 }

end XXH.TestBenchTerms
