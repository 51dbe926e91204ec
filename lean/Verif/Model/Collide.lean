import Verif.Model.Bench
/-!
The collision tester: main.c, hashes.h, sort.cc and allcodecs/dummy.c of tests/collisions.

Simplifications:
* what is written on the console is left out, except for the collisions of the high bits, which are part of the result;
* `double` is a rational with a rounding that is a parameter; overflow, infinities and NaN do not occur below;
* `std::sort` and `qsort` are parameters;
* the jobs given to the thread pool are run one after the other (each writes only its own result; see the model of the
  pool);
* the option `SLAB5` is modelled separately below; `FILTER_1_PROBE` does not compile (`Filter_reduce` is missing).

Asserts are active (main.c:49, 573): a failed one is `abort`.
-/
namespace XXH.Model.Collide
open Bench (Run Fp)
open XXH3 (XXH3_64bits XXH3_128bits)

/-- What the process provides. -/
structure Env where
  cfg : Cfg
  fp : Fp
  /-- `1 << n` for `n` outside of 0..63, which is undefined in C: `none`, or what the machine does -/
  shiftOut : Int → Option W64
  /-- address of the sample -/
  bufAddr : Nat
  /-- success of the allocations: of the sample (0), the filter (1), the reduced filter (2), the candidates (3) -/
  alloc : Nat → Nat → Bool
  /-- `realloc` to this many bytes returns the same address -/
  inPlace : Nat → Bool
  /-- `sort64`, sort.cc:38-41 -/
  sort64 : List W64 → List W64
  /-- `sort128`, sort.cc:45-59 -/
  sort128 : List H128 → List H128

/-- `(uint64_t)1 << n` -/
def Env.shl (e : Env) (n : Int) : Option W64 := if 0 ≤ n ∧ n < 64 then some ((1 : W64) <<< n.toNat) else e.shiftOut n

/-- `(size_t)1 << n` -/
def Env.shlSize (e : Env) (n : Int) : Option Nat :=
  if 0 ≤ n ∧ n < e.cfg.sizeBits then some (2^n.toNat) else (e.shiftOut n).map (e.cfg.size ·.toNat)

/-- `assert` -/
def check (c : Prop) [Decidable c] : Run Unit := if c then .done () else .abort

/-! ### Numbers -/

/-- `avalanche64`, main.c:109-117 (constants 105-107) -/
def avalanche64 (h64 : W64) : W64 :=
  let h64 := h64 ^^^ (h64 >>> 33)
  let h64 := h64 * 14029467366897019727
  let h64 := h64 ^^^ (h64 >>> 29)
  let h64 := h64 * 1609587929392839161
  h64 ^^^ (h64 >>> 32)

/-- `randomByte`, main.c:119-124 -/
def randomByte (n : W64) : Byte := ((avalanche64 (n + 1) * 11400714785074694791) >>> 56).setWidth 8

/-- Conversion of a `double` to `uint64_t`, undefined when out of range. -/
def toU64 (q : ℚ) : Option W64 := if -1 < q ∧ q < 2^64 then some (BitVec.ofNat 64 q.floor.toNat) else none

/-- `Cnm`, main.c:215-226 -/
def Cnm (fp : Fp) (n m : Nat) : Run ℚ := do
  check (0 < n)
  check (0 < m)
  check (m ≤ n)
  return (List.range m).foldl (fun acc i => fp.rnd (fp.rnd (acc * ((n - i : Nat) : ℚ)) / ((1 + i : Nat) : ℚ))) 1

/-- `SPARSE_LEVEL_MAX`, main.c:212 -/
def SPARSE_LEVEL_MAX : Nat := 15

/-- The loop of `enoughCombos`, main.c:234-238; more than `fuel` rounds are not possible. -/
def combosLoop (fp : Fp) (srcBits : Nat) (htotal : W64) : Nat → Nat → W64 → Run Bool
  | 0, _, _ => .unfinished
  | fuel+1, nbBitsSet, acc =>
    if acc < htotal then
      let nbBitsSet := nbBitsSet + 1
      if SPARSE_LEVEL_MAX ≤ nbBitsSet then .done false
      else do
        let c ← Cnm fp srcBits nbBitsSet
        let c ← Run.of (toU64 c)
        combosLoop fp srcBits htotal fuel nbBitsSet (acc + c)
    else .done true

/-- `enoughCombos`, main.c:228-240 -/
def enoughCombos (e : Env) (size : Nat) (htotal : W64) : Run Bool := do
  if size < 2 then return false
  else
    let srcBits := e.cfg.size (size * 8)
    check (srcBits < 2^31 - 1)
    combosLoop e.fp srcBits htotal SPARSE_LEVEL_MAX 0 0

/-! ### Samples: sparse generation -/

/-- `sampleFactory`, main.c:242-254. `bitIdx` has 15 entries. -/
structure Factory where
  buffer : List Byte
  bitIdx : List Nat
  level : Nat
  maxBitIdx : Nat

/-- `init_sampleFactory`, main.c:256-268 -/
def initFactory (e : Env) (size : Nat) (htotal prngSeed : W64) : Run Factory := do
  if ← enoughCombos e size htotal then
    return { buffer := (List.range size).map fun n => randomByte (prngSeed + BitVec.ofNat 64 n)
             bitIdx := List.replicate SPARSE_LEVEL_MAX 0
             level := 0
             maxBitIdx := e.cfg.size (size * 8) }
  else .exit 1

/-- `flipbit`, main.c:293-299 -/
def flipbit (buffer : List Byte) (bitID : Nat) : Option (List Byte) :=
  if bitID / 8 < buffer.length then some (buffer.modify (bitID / 8) (· ^^^ ((1 : Byte) <<< (bitID % 8)))) else none

/-- `updateBit`, main.c:301-318: the buffer, `bitIdx` and the result. `max-1` would wrap around for 0, which is excluded
here as undefined. -/
def updateBit (buffer : List Byte) (bitIdx : List Nat) : Nat → Nat → Option (List Byte × List Nat × Bool)
  | 0, _ => some (buffer, bitIdx, false)
  | level+1, max => do
    let idx ← bitIdx[level+1]?
    let buffer ← flipbit buffer idx
    assert (0 < max)
    if idx < max - 1 then
      let buffer ← flipbit buffer (idx + 1)
      return (buffer, bitIdx.set (level+1) (idx + 1), true)
    else
      let (buffer, bitIdx, ok) ← updateBit buffer bitIdx level (max - 1)
      if ok then
        let idx := (← bitIdx[level]?) + 1
        let buffer ← flipbit buffer idx
        return (buffer, bitIdx.set (level+1) idx, true)
      else return (buffer, bitIdx, false)

/-- The loop of `update_sampleFactory`, main.c:328-331; the first argument is `level + 1 - i`. -/
def setBits (buffer : List Byte) (bitIdx : List Nat) : Nat → Nat → Option (List Byte × List Nat)
  | 0, _ => some (buffer, bitIdx)
  | n+1, i => do
    let buffer ← flipbit buffer (i - 1)
    setBits buffer (bitIdx.set i (i - 1)) n (i + 1)

/-- `update_sampleFactory`, main.c:320-333 -/
def updateFactory (f : Factory) : Run Factory := do
  let (buffer, bitIdx, ok) ← Run.of (updateBit f.buffer f.bitIdx f.level f.maxBitIdx)
  if ok then return { f with buffer := buffer, bitIdx := bitIdx }
  else
    let level := f.level + 1
    check (level < SPARSE_LEVEL_MAX)
    let (buffer, bitIdx) ← Run.of (setBits buffer bitIdx level 1)
    return { f with buffer := buffer, bitIdx := bitIdx, level := level }

/-! ### Samples: slab5 generation -/

/-- The `sampleFactory` of `SLAB5`, main.c:141-147. -/
structure Slab where
  buffer : List Byte
  hnb : W64

/-- `SLAB_SIZE`, main.c:139 -/
def SLAB_SIZE : Nat := 5

/-- `init_sampleFactory` of `SLAB5`, main.c:149-161 -/
def initSlab (size : Nat) (htotal : W64) : Run Slab :=
  let minNbSlabs := ((htotal - 1) >>> 32) + 1
  let minSize := minNbSlabs * 5
  if size < minSize.toNat then .exit 1
  else .done { buffer := (List.range size).map fun n => randomByte (BitVec.ofNat 64 n), hnb := 0 }

/-- `update_sampleFactory` of `SLAB5`, main.c:185-198; `size` is the size of the buffer. A division by zero is
undefined. -/
def updateSlab (cfg : Cfg) (size : Nat) (f : Slab) : Option Slab := do
  let nbSlabs := size / SLAB_SIZE
  assert (nbSlabs ≠ 0)
  let SlabNb := f.hnb.toNat % nbSlabs
  let start := SlabNb * SLAB_SIZE + 1
  let val32 := native cfg 32 (← readBytes ⟨0, f.buffer⟩ start 4)
  let val32 := val32 + 374761393
  let buffer ← writeBytes f.buffer start (nativeBytes cfg 4 val32)
  return { buffer := buffer, hnb := f.hnb + 1 }

/-! ### The filter -/

/-- `create_Filter`, main.c:342-354 -/
def createFilter (e : Env) (bflog : Int) : Run (List Byte) := do
  check (bflog < 64 ∧ 1 < bflog)
  let bfsize ← Run.of (e.shlSize bflog)
  if e.alloc 1 bfsize then return List.replicate bfsize 0 else .exit 1

/-- `p[i]` -/
def byteAt (bf : List Byte) (i : Nat) : Option Byte := bf[i]?

/-- `p[i] |= v` -/
def orAt (bf : List Byte) (i : Nat) (v : Byte) : Option (List Byte) :=
  if i < bf.length then some (bf.modify i (· ||| v)) else none

/-- `Filter_insert`, main.c:423-455: the filter and the result. -/
def filterInsert (e : Env) (bf : List Byte) (bflog : Int) (hash : W64) : Option (List Byte × Nat) := do
  let hash := avalanche64 hash
  let slot1 := (hash &&& 255).toNat
  let hash := hash >>> 8
  let slot2 := (hash &&& 255).toNat
  let hash := hash >>> 8
  -- `& fclmask`
  let nbLines ← e.shlSize (bflog - 6)
  let cacheLineNb := hash.toNat % nbLines
  let pos1 := cacheLineNb * 64 + slot1 / 8
  let bit1 : Byte := (1 : Byte) <<< (slot1 % 8)
  let present1 := (← byteAt bf pos1) &&& bit1
  let pos2 := cacheLineNb * 64 + slot2 / 8
  let bit2 : Byte := (1 : Byte) <<< (slot2 % 8)
  let present2 := (← byteAt bf pos2) &&& bit2
  let maybePresent := (present1 >>> (slot1 % 8)) &&& (present2 >>> (slot2 % 8))
  let present1 := present1 &&& (0 - maybePresent)
  let present2 := present2 &&& (0 - maybePresent)
  let bf ← orAt bf (pos1 + 32) present1
  let bf ← orAt bf (pos2 + 32) present2
  let bf ← orAt bf pos1 bit1
  let bf ← orAt bf pos2 bit2
  return (bf, maybePresent.toNat)

/-- The loop of `Filter_reduce`, main.c:462-464, from line `lineNb` on. `memcpy` is undefined on overlapping
areas. -/
def reduceLoop (bf : List Byte) : Nat → Nat → Option (List Byte)
  | 0, _ => some bf
  | n+1, lineNb => do
    assert (lineNb * 32 + 32 ≤ lineNb * 64 + 32)
    let bf ← writeBytes bf (lineNb * 32) (← readBytes ⟨0, bf⟩ (lineNb * 64 + 32) 32)
    reduceLoop bf n (lineNb + 1)

/-- `Filter_reduce`, main.c:458-466 -/
def filterReduce (e : Env) (bf : List Byte) (bflog : Int) : Run (List Byte) := do
  check (6 < bflog ∧ bflog < 64)
  let nbLines ← Run.of (e.shlSize (bflog - 6))
  let bf ← Run.of (reduceLoop bf nbLines 0)
  let size := e.cfg.size (nbLines * 32)
  if e.alloc 2 size then return bf.take size else .exit 1

/-- `Filter_check`, main.c:476-496 -/
def filterCheck (e : Env) (bf : List Byte) (bflog : Int) (hash : W64) : Option Bool := do
  let hash := avalanche64 hash
  let slot1 := (hash &&& 255).toNat
  let hash := hash >>> 8
  let slot2 := (hash &&& 255).toNat
  let hash := hash >>> 8
  let nbLines ← e.shlSize (bflog - 6)
  let lineNb := hash.toNat % nbLines
  let present1 := ((← byteAt bf (lineNb * 32 + slot1 / 8)) >>> (slot1 % 8)) &&& 1
  let present2 := ((← byteAt bf (lineNb * 32 + slot2 / 8)) >>> (slot2 % 8)) &&& 1
  return (present1 &&& present2) ≠ 0

/-! ### Hash functions -/

/-- `UniHash`, hashes.h:38-41: `h64` is at the place of `h128.low64`. -/
structure Uni where
  h64 : W64
  /-- meaningful for 128-bit hashes only -/
  high64 : W64
deriving DecidableEq

/-- `h128` -/
def Uni.h128 (h : Uni) : H128 := { low64 := h.h64, high64 := h.high64 }

/-- `badsum32`, allcodecs/dummy.c:30-38, with seed 0 -/
def badsum32 (b : Buf) (len : Nat) : Option W32 :=
  (List.range len).foldlM (fun sum c => do return sum + (← read8 b c).setWidth 32) 0

/-- `hashfnTable`, hashes.h:117-125: names and bits. -/
def hashTable : List (String × Nat) :=
  [("xxh3", 64), ("xxh64", 64), ("xxh128", 128), ("xxh128l", 64), ("xxh128h", 64), ("xxh32", 32), ("badsum32", 32)]

/-- The bits of the hash. -/
def hashBits (hashID : Nat) : Nat := match hashTable[hashID]? with
  | some t => t.2
  | none => 0

/-- The wrappers of `hashfnTable`, hashes.h:43-101, 117-125. -/
def hashfn (cfg : Cfg) (hashID : Nat) (data : Ptr) (size : Nat) : Option Uni :=
  match hashID with
  | 0 => (XXH3_64bits cfg data size).map fun h => ⟨h, 0⟩
  | 1 => (XXH64.XXH64 cfg data size 0).map fun h => ⟨h, 0⟩
  | 2 => (XXH3_128bits cfg data size).map fun h => ⟨h.low64, h.high64⟩
  | 3 => (XXH3_128bits cfg data size).map fun h => ⟨h.low64, 0⟩
  | 4 => (XXH3_128bits cfg data size).map fun h => ⟨h.high64, 0⟩
  | 5 => (XXH32.XXH32 cfg data size 0).map fun h => ⟨h.setWidth 64, 0⟩
  | 6 => (badsum32 data.buf size).map fun h => ⟨h.setWidth 64, 0⟩
  | _ => none

/-! ### Estimates -/

/-- `power`, main.c:547-555 -/
def power (fp : Fp) (base : W64) (p : Nat) : ℚ :=
  (List.range p).foldl (fun value _ => fp.rnd (value * fp.rnd base.toNat)) 1

/-- `estimateNbCollisions`, main.c:557-560 -/
def estimateNbCollisions (fp : Fp) (nbH : W64) (nbBits : Nat) : ℚ :=
  fp.rnd (fp.rnd (fp.rnd nbH.toNat * fp.rnd (nbH - 1).toNat) / power fp 2 (nbBits + 1))

/-- `highestBitSet`, main.c:562-568 -/
def highestBitSet (v : W64) : Run Nat := do
  check (v ≠ 0)
  return v.toNat.log2

/-- The automatic size of the filter, main.c:689, 1058 -/
def autoLog (bflog : Int) (totalH : W64) : Run Int :=
  if bflog = 0 then do
    let b ← highestBitSet totalH
    return (b : Int) + 1
  else .done bflog

/-- The loop of `select_nbh`, main.c:585 -/
def selectLoop (fp : Fp) (nbBits : Nat) (target : ℚ) : Nat → W64 → Run W64
  | 0, _ => .unfinished
  | fuel+1, nbH => if estimateNbCollisions fp nbH nbBits < target then selectLoop fp nbBits target fuel (nbH * 2)
    else .done nbH

/-- `select_nbh`, main.c:579-587 -/
def select_nbh (fp : Fp) (nbBits : Nat) : Run W64 := do
  check (0 < nbBits)
  let nbBits := min nbBits 64
  selectLoop fp nbBits (((128 + 17 : Int) - nbBits * 2 : Int) : ℚ) 64 24

/-! ### The search -/

/-- `searchCollisions_parameters`, main.c:594-605 -/
structure Param where
  nbH : W64
  mask : W64
  maskSelector : W64
  sampleSize : Nat
  prngSeed : W64
  filterLog : Int
  hashID : Nat
  display : Bool

/-- What `search_collisions` finds: the collisions, and those of the high bits for some numbers of bits. -/
structure Report where
  collisions : Nat
  high : List (Nat × Nat)
deriving DecidableEq

/-- The loops over the samples, main.c:708-717 and 749-766: `body` gets the selected hashes. -/
def forSamples {σ : Type} (e : Env) (p : Param) (body : σ → Uni → Run σ) : Nat → Factory → σ → Run σ
  | 0, _, s => .done s
  | n+1, f, s => do
    let f ← updateFactory f
    let h ← Run.of (hashfn e.cfg p.hashID (some ⟨e.bufAddr, f.buffer⟩) p.sampleSize)
    if h.h64 &&& p.mask ≠ p.maskSelector then forSamples e p body n f s
    else
      let s ← body s h
      forSamples e p body n f s

/-- The filter loop, main.c:708-717, on the filter and `maxNbH`. -/
def fillFilter (e : Env) (p : Param) (bflog : Int) (totalH : W64) (f : Factory) (bf : List Byte) :
    Run (List Byte × W64) :=
  forSamples e p (fun (bf, maxNbH) h => do
    let (bf, r) ← Run.of (filterInsert e bf bflog h.h64)
    return (bf, maxNbH + 2 * BitVec.ofNat 64 r)) totalH.toNat f (bf, 0)

/-- `addHashCandidate` with the assertion before it, main.c:641-649, 759-760, 763-764. -/
def addCandidate (hashByteSize tableSize : Nat) (maxNbH : W64) (cands : List Uni) (h : Uni) : Run (List Uni) := do
  check (cands.length < maxNbH.toNat)
  if (cands.length + 1) * hashByteSize ≤ tableSize then return cands ++ [h] else .undefined

/-- The storing loop, main.c:748-766; `bf` is `NULL` without filter. -/
def store (e : Env) (p : Param) (bflog : Int) (totalH : W64) (f : Factory) (bf : Option (List Byte))
    (hashByteSize tableSize : Nat) (maxNbH : W64) : Run (List Uni) :=
  forSamples e p (fun cands h =>
    match bf with
    | none => addCandidate hashByteSize tableSize maxNbH cands h
    | some bf => do
      if ← Run.of (filterCheck e bf bflog h.h64) then addCandidate hashByteSize tableSize maxNbH cands h
      else return cands) totalH.toNat f []

/-- main.c:808-819: neighbours that are equal. -/
def countEqual {α : Type} (eq : α → α → Bool) : List α → Nat
  | a :: b :: l => (if eq b a then 1 else 0) + countEqual eq (b :: l)
  | _ => 0

/-- `isHighEqual`, main.c:623-638, for all neighbours: main.c:834-837. -/
def countHigh (htype : Nat) (table : List Uni) (rShift : Int) : Run Nat := do
  if table.length < 2 then return 0
  else
    if htype = 128 then check (64 ≤ rShift)
    let rShift := if htype = 128 then rShift - 64 else rShift
    check (0 ≤ rShift ∧ rShift < 64)
    let value (h : Uni) := if htype = 128 then h.high64 else h.h64
    return countEqual (fun a b => value a >>> rShift.toNat == value b >>> rShift.toNat) table

/-- main.c:827-845, for `nbHBits` from `hashBits - n` on. -/
def highLoop (e : Env) (hashBits : Nat) (table : List Uni) : Nat → Run (List (Nat × Nat))
  | 0 => .done []
  | n+1 => do
    let nbHBits := hashBits - (n + 1)
    let nbSlots ← Run.of (e.shl nbHBits)
    let nbCandidates := BitVec.ofNat 64 table.length
    let expected := estimateNbCollisions e.fp nbCandidates nbHBits
    if e.cfg.size (table.length * 100) < nbSlots.toNat ∧ 18 < expected then
      let c ← countHigh hashBits table (hashBits - nbHBits)
      let rest ← highLoop e hashBits table n
      return (nbHBits, c) :: rest
    else highLoop e hashBits table n

/-- Sorting, main.c:791-801. -/
def sortTable (e : Env) (htype : Nat) (cands : List Uni) : List Uni :=
  if htype = 128 then (e.sort128 (cands.map (·.h128))).map fun h => ⟨h.low64, h.high64⟩
  else (e.sort64 (cands.map (·.h64))).map fun h => ⟨h, 0⟩

/-- `isEqual`, main.c:609-621 -/
def isEqual (cfg : Cfg) (htype : Nat) (a b : Uni) : Bool :=
  if htype = 128 then XXH3.XXH128_isEqual cfg a.h128 b.h128 ≠ 0 else a.h64 = b.h64

/-- From main.c:738 to the end of `search_collisions`. -/
def storeAndCount (e : Env) (p : Param) (bflog : Int) (totalH maxNbH : W64) (bf : Option (List Byte)) : Run Report := do
  let htype := hashBits p.hashID
  let hashByteSize := if htype = 128 then 16 else 8
  let tableSize := e.cfg.size ((maxNbH + 1) * BitVec.ofNat 64 hashByteSize).toNat
  check (maxNbH.toNat < tableSize)
  if !e.alloc 3 tableSize then .exit 1
  else
    let f ← initFactory e p.sampleSize totalH p.prngSeed
    let cands ← store e p bflog totalH f bf hashByteSize tableSize maxNbH
    check (¬ cands.length < maxNbH.toNat ∨ e.inPlace (e.cfg.size (cands.length * hashByteSize)))
    let table := sortTable e htype cands
    let collisions := countEqual (isEqual e.cfg htype) table
    if bf.isNone ∧ p.display then
      let high ← highLoop e htype table (htype - 1)
      return { collisions := collisions, high := high }
    else return { collisions := collisions, high := [] }

/-- `search_collisions`, main.c:669-862. -/
def search (e : Env) (p : Param) : Run Report := do
  let htype := hashBits p.hashID
  if htype ∉ [32, 64, 128] then .exit 1
  else if !e.alloc 0 p.sampleSize then .exit 1
  else
    let f ← initFactory e p.sampleSize p.nbH p.prngSeed
    let totalH ← if p.nbH = 0 then select_nbh e.fp htype else .done p.nbH
    let bflog ← autoLog p.filterLog totalH
    -- `bfsize`, line 690
    let _ ← Run.of (e.shl bflog)
    if 0 ≤ p.filterLog then
      let bf ← createFilter e bflog
      let (bf, maxNbH) ← fillFilter e p bflog totalH f bf
      if maxNbH = 0 then return { collisions := 0, high := [] }
      else
        let bf ← filterReduce e bf bflog
        storeAndCount e p bflog totalH maxNbH (some bf)
    else storeAndCount e p bflog totalH totalH none

/-! ### `main` -/

/-- `readU64FromChar`, main.c:930-957: the number and the rest. -/
def readDigits : W64 → List Byte → Run (W64 × List Byte)
  | result, c :: s =>
    if 0x30 ≤ c.toNat ∧ c.toNat ≤ 0x39 then
      if result.toNat < 2^64 / 10 - 1 then readDigits (result * 10 + BitVec.ofNat 64 (c.toNat - 0x30)) s else .abort
    else .done (result, c :: s)
  | result, [] => .done (result, [])

/-- `assert(result < maxK); result <<= 10;` -/
def shiftK (result : W64) : Run W64 := if result.toNat < 2^54 - 1 then .done (result <<< 10) else .abort

/-- main.c:940-951: `K`, `M`, `G` -/
def shiftSuffix (c : Byte) (result : W64) : Run W64 := do
  let result ← shiftK result
  if c = 0x4D ∨ c = 0x47 then
    let result ← shiftK result
    if c = 0x47 then shiftK result else return result
  else return result

@[inherit_doc readDigits]
def readU64 (s : List Byte) : Run (W64 × List Byte) := do
  let (result, s) ← readDigits 0 s
  match s with
  | c :: s =>
    if c = 0x4B ∨ c = 0x4D ∨ c = 0x47 then
      let result ← shiftSuffix c result
      let s := if s.head? = some 0x69 then s.tail else s
      let s := if s.head? = some 0x42 then s.tail else s
      return (result, s)
    else return (result, c :: s)
  | [] => return (result, [])

/-- The options, main.c:1019-1025. -/
structure Opts where
  totalH : W64
  bflog : Int
  filter : Bool
  sampleSize : Nat
  hashID : Nat
  threadlog : Int
  prngSeed : W64

/-- main.c:1019-1025 -/
def Opts.default : Opts := ⟨0, 0, false, 256, 0, 0, 0⟩

/-- `(int)` of a 64-bit number, as compilers do it. -/
def toInt (w : W64) : Int := (w.setWidth 32).toInt

/-- The bytes of a string of ASCII characters. -/
def ascii (s : String) : List Byte := s.toList.map fun c => BitVec.ofNat 8 c.toNat

/-- One argument, main.c:1029-1051: `none` for `-h`. The rest of the argument behind a number is not looked at. -/
def parseArg (cfg : Cfg) (o : Opts) (arg : List Byte) : Run (Option Opts) := do
  let num (prefix' : String) : Run W64 := do return (← readU64 (arg.drop (ascii prefix').length)).1
  let has (s : String) : Bool := (ascii s).isPrefixOf arg
  if arg = ascii "-h" then return none
  else if has "-T" then return some { o with threadlog := toInt (← num "-T") }
  else if arg = ascii "--filter" then return some { o with filter := true }
  else if arg = ascii "--no-filter" then return some { o with filter := false }
  else if has "--seed" then return some { o with prngSeed := ← num "--seed" }
  else if has "--nbh=" then return some { o with totalH := ← num "--nbh=" }
  else if has "--filter=" then do
    let b := toInt (← num "--filter=")
    check (b < 64)
    return some { o with filter := true, bflog := b }
  else if has "--filterlog=" then do
    let b := toInt (← num "--filterlog=")
    check (b < 64)
    return some { o with filter := true, bflog := b }
  else if has "--size=" then return some { o with sampleSize := cfg.size (← num "--size=").toNat }
  else if has "--len=" then return some { o with sampleSize := cfg.size (← num "--len=").toNat }
  else if has "--threadlog=" then return some { o with threadlog := toInt (← num "--threadlog=") }
  else match hashTable.findIdx? (fun t => ascii t.1 = arg) with
    | some i => return some { o with hashID := i }
    | none => .exit 1

/-- The loop over the arguments. -/
def parseArgs (cfg : Cfg) : Opts → List (List Byte) → Run (Option Opts)
  | o, [] => .done (some o)
  | o, a :: as => do
    match ← parseArg cfg o a with
    | none => return none
    | some o => parseArgs cfg o as

/-- The jobs of main.c:1109-1120 and their sum, main.c:1124-1127, from job `tnb` on. -/
def jobs (e : Env) (o : Opts) (totalH : W64) (bflog : Int) (nbThreads : Nat) : Nat → Nat → W64 → Run W64
  | 0, _, sum => .done sum
  | n+1, tnb, sum => do
    let r ← search e
      { nbH := totalH, mask := BitVec.ofNat 64 nbThreads - 1, maskSelector := BitVec.ofNat 64 tnb
        sampleSize := o.sampleSize, prngSeed := o.prngSeed
        filterLog := if bflog ≠ 0 then bflog - o.threadlog else 0, hashID := o.hashID, display := false }
    jobs e o totalH bflog nbThreads n (tnb + 1) (sum + BitVec.ofNat 64 r.collisions)

/-- `main` after the arguments, main.c:1053-1149: the collisions found. `pool` is the success of the allocations of
main.c:1101-1106. -/
def run (e : Env) (pool : Bool) (o : Opts) : Run W64 := do
  let totalH ← if o.totalH = 0 then select_nbh e.fp (hashBits o.hashID) else .done o.totalH
  let bflog ← autoLog o.bflog totalH
  let bflog := if o.filter then bflog else -1
  -- `1 << threadlog`
  if ¬ (0 ≤ o.threadlog ∧ o.threadlog < 31) then .undefined
  else
    let nbThreads := 2^o.threadlog.toNat
    if nbThreads = 1 then do
      let r ← search e
        { nbH := totalH, mask := 0, maskSelector := 0, sampleSize := o.sampleSize, prngSeed := o.prngSeed
          filterLog := bflog, hashID := o.hashID, display := true }
      return BitVec.ofNat 64 r.collisions
    else if 30 ≤ o.threadlog then .exit 1
    else if totalH.toNat / 2^16 < nbThreads then .exit 1
    else if 0 < bflog ∧ bflog - 10 < o.threadlog then .exit 1
    else if !pool then .exit 1
    else jobs e o totalH bflog nbThreads nbThreads 0 0

/-- `main`, main.c:1013-1150: `none` after `-h`. -/
def main (e : Env) (pool : Bool) (args : List (List Byte)) : Run (Option W64) := do
  match ← parseArgs e.cfg Opts.default args with
  | none => return none
  | some o => return some (← run e pool o)

end XXH.Model.Collide
