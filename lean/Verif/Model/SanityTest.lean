import Verif.Model.SelfTest
/-!
The test program tests/sanity_test.c and the generator of its tables, tests/sanity_test_vectors_generator.c.

The functions of `Model/SelfTest` are used where the text of the two programs is the same as that of
cli/xsum_sanity_check.c. Simplifications:
* the tables written to `sanity_test_vectors.h` are values: that a compiler reads the numerals printed (lines 136-152 of
  the generator) as the numbers they stand for is taken for granted, and that the file can be written;
* messages are left out, except for the number of tests in the last one;
* `malloc` and `XXH*_createState` succeed (asserted); a fresh state has arbitrary contents;
* a failed `assert` is `exit 134` (128 + `SIGABRT`, what a shell reports).
-/
namespace XXH.Model.SanityTest
open Cli SelfTest

/-- The tables of `sanity_test_vectors.h`. -/
structure Tables where
  xxh32 : List TestData32
  xxh64 : List TestData64
  xxh3 : List TestData64
  xxh3Secret : List TestData64
  xxh128 : List TestData128
  xxh128Secret : List TestData128
  generateSecret : List TestDataSample

/-- `SANITY_BUFFER_SIZE`, tests/sanity_test.c:40, tests/sanity_test_vectors_generator.c:24 -/
def SANITY_BUFFER_SIZE : Nat := 4096 + 64 + 1

/-- A failed `assert`. -/
def abort {α : Type} : Res α := .exit 134

/-! ### The generator -/

/-- The first `len` bytes of the buffer of `createSanityBuffer(maxLen)`, tests/sanity_test_vectors_generator.c:161-187 -/
def bufferOf (e : TestEnv) (maxLen len : Nat) : Ptr := some ⟨e.buffer, (fillTestBuffer maxLen).take len⟩

/-- A 64-bit value stored in a variable of type `size_t`. -/
def toSize (cfg : Cfg) (x : W64) : W64 := BitVec.ofNat 64 (x.toNat % 2 ^ cfg.sizeBits)

/-- A loop over a list that collects what its body delivers. -/
def forEach {S T : Type} (l : List S) (f : S → Res T) : Res (List T) :=
  match l with
  | [] => return []
  | x :: xs => do
    let y ← f x
    let ys ← forEach xs f
    return y :: ys

/-- `for(len = 0; len < maxLen; ++len) for(iSeed …)`, e.g. tests/sanity_test_vectors_generator.c:210-213: the pairs of
a length and a seed. -/
def pairs (maxLen : Nat) (seeds : List W64) : List (Nat × W64) :=
  (List.range maxLen).flatMap fun len => seeds.map fun seed => (len, seed)

/-- `v.len = len`: a `size_t` stored in 32 bits, e.g. tests/sanity_test_vectors_generator.c:65 -/
def len32 (len : Nat) : Nat := len % 2 ^ 32

/-- `generate_sanity_test_vectors_xxh32`, tests/sanity_test_vectors_generator.c:63-69, 202-224. The seed is stored in a
`size_t` (213) and passed as 32 bits. -/
def genXXH32 (e : TestEnv) (maxLen : Nat) : Res (List TestData32) :=
  forEach (pairs maxLen [0, PRIME32]) fun (len, s) => do
    let seed : W32 := (toSize e.cfg s).setWidth 32
    let r ← Res.of (Model.XXH32.XXH32 e.cfg (bufferOf e maxLen len) len seed)
    return ⟨len32 len, seed, r⟩

/-- `generate_sanity_test_vectors_xxh64`, tests/sanity_test_vectors_generator.c:71-77, 228-250. -/
def genXXH64 (e : TestEnv) (maxLen : Nat) : Res (List TestData64) :=
  forEach (pairs maxLen [0, PRIME32]) fun (len, s) => do
    let seed := toSize e.cfg s
    let r ← Res.of (Model.XXH64.XXH64 e.cfg (bufferOf e maxLen len) len seed)
    return ⟨len32 len, seed, r⟩

/-- `generate_sanity_test_vectors_xxh3`, tests/sanity_test_vectors_generator.c:79-85, 254-276; the seed is stored in a
`size_t` (265). -/
def genXXH3 (e : TestEnv) (maxLen : Nat) : Res (List TestData64) :=
  forEach (pairs maxLen [0, PRIME64]) fun (len, s) => do
    let seed := toSize e.cfg s
    let r ← Res.of (Model.XXH3.XXH3_64bits_withSeed e.cfg (bufferOf e maxLen len) len seed)
    return ⟨len32 len, seed, r⟩

/-- `sanityBuffer + 7`, of which `XXH3_SECRET_SIZE_MIN + 11` bytes are used, e.g.
tests/sanity_test_vectors_generator.c:287-288, tests/sanity_test.c:672-673 -/
def secretOf (e : TestEnv) (maxLen : Nat) : Ptr := some ⟨e.buffer + 7, ((fillTestBuffer maxLen).drop 7).take (136 + 11)⟩

/-- `generate_sanity_test_vectors_xxh3_withSecret`, tests/sanity_test_vectors_generator.c:87-93, 280-302 -/
def genXXH3Secret (e : TestEnv) (maxLen : Nat) : Res (List TestData64) := do
  if ¬ maxLen ≥ 7 + (136 + 11) then abort
  forEach (List.range maxLen) fun len => do
    let r ← Res.of (Model.XXH3.XXH3_64bits_withSecret e.cfg (bufferOf e maxLen len) len (secretOf e maxLen) (136 + 11))
    return ⟨len32 len, 0, r⟩

/-- `generate_sanity_test_vectors_xxh128`, tests/sanity_test_vectors_generator.c:95-101, 306-327; here the seed is stored
in 64 bits (317). -/
def genXXH128 (e : TestEnv) (maxLen : Nat) : Res (List TestData128) :=
  forEach (pairs maxLen [0, PRIME32, PRIME64]) fun (len, seed) => do
    let r ← Res.of (Model.XXH3.XXH3_128bits_withSeed e.cfg (bufferOf e maxLen len) len seed)
    return ⟨len32 len, seed, r⟩

/-- `generate_sanity_test_vectors_xxh128_withSecret`, tests/sanity_test_vectors_generator.c:103-109, 331-353 -/
def genXXH128Secret (e : TestEnv) (maxLen : Nat) : Res (List TestData128) := do
  if ¬ maxLen ≥ 7 + (136 + 11) then abort
  forEach (List.range maxLen) fun len => do
    let r ← Res.of (Model.XXH3.XXH3_128bits_withSecret e.cfg (bufferOf e maxLen len) len (secretOf e maxLen) (136 + 11))
    return ⟨len32 len, 0, r⟩

/-- `seedLens` and `secretLens`, tests/sanity_test_vectors_generator.c:364-375, in the order of the loops (378-379) -/
def lensOfSecrets : List (Nat × Nat) :=
  [0, 1, 136 - 1, 192 + 500].flatMap fun seedLen => [192, 240, 277, SECRET_SIZE_MAX].map fun secretLen =>
    (seedLen, secretLen)

/-- `generate_sanity_test_vectors_xxh3_generateSecret`, tests/sanity_test_vectors_generator.c:111-132, 357-402. The buffer
is zeroed before every call. -/
def genSecrets (e : TestEnv) (maxLen : Nat) : Res (List TestDataSample) :=
  forEach lensOfSecrets fun (seedLen, secretLen) => do
    if ¬ seedLen ≤ maxLen then abort
    if ¬ secretLen ≤ SECRET_SIZE_MAX then abort
    let (_, secretBuffer) ← Res.of (Model.XXH3.generateSecret e.cfg
      (some ⟨e.secretBuffer, List.replicate SECRET_SIZE_MAX 0⟩) secretLen (bufferOf e maxLen seedLen) seedLen)
    return ⟨len32 seedLen, len32 secretLen, sampleIndex.map fun i => secretBuffer.getD i 0⟩

/-- `generate_sanity_test_vectors` and `main`, tests/sanity_test_vectors_generator.c:406-464 -/
def generate (e : TestEnv) : Res Tables := do
  let maxLen := SANITY_BUFFER_SIZE
  let a ← genXXH32 e maxLen
  let b ← genXXH64 e maxLen
  let c ← genXXH3 e maxLen
  let d ← genXXH3Secret e maxLen
  let f ← genXXH128 e maxLen
  let g ← genXXH128Secret e maxLen
  let h ← genSecrets e maxLen
  return ⟨a, b, c, d, f, g, h⟩

/-! ### The test -/

/-- The data of a test: the first `len` bytes of the buffer, `NULL` if `len` is 0 (e.g. tests/sanity_test.c:189-193). -/
def dataOf (e : TestEnv) (len : Nat) : Ptr :=
  if len = 0 then none else bufferOf e SANITY_BUFFER_SIZE len

/-- `testXXH32`, tests/sanity_test.c:177-213 -/
def testXXH32 (e : TestEnv) (t : TestData32) : Res Unit := do
  let data := dataOf e t.len
  let state := e.state32
  let r ← Res.of (Model.XXH32.XXH32 e.cfg data t.len t.seed)
  checkResult r t.Nresult
  let (state, _) ← Res.of (Model.XXH32.reset (some state) t.seed)
  let (state, _) ← Res.of (Model.XXH32.update e.cfg state data t.len)
  let r ← Res.of (Model.XXH32.digest e.cfg state)
  checkResult r t.Nresult
  let (state, _) ← Res.of (Model.XXH32.reset (some state) t.seed)
  let state ← Res.of (byByte (Model.XXH32.update e.cfg) data t.len 0 state)
  let r ← Res.of (Model.XXH32.digest e.cfg state)
  checkResult r t.Nresult

/-- `testXXH64`, tests/sanity_test.c:218-254 -/
def testXXH64 (e : TestEnv) (t : TestData64) : Res Unit := do
  let data := dataOf e t.len
  let state := e.state64
  let r ← Res.of (Model.XXH64.XXH64 e.cfg data t.len t.seed)
  checkResult r t.Nresult
  let (state, _) ← Res.of (Model.XXH64.reset (some state) t.seed)
  let (state, _) ← Res.of (Model.XXH64.update e.cfg state data t.len)
  let r ← Res.of (Model.XXH64.digest e.cfg state)
  checkResult r t.Nresult
  let (state, _) ← Res.of (Model.XXH64.reset (some state) t.seed)
  let state ← Res.of (byByte (Model.XXH64.update e.cfg) data t.len 0 state)
  let r ← Res.of (Model.XXH64.digest e.cfg state)
  checkResult r t.Nresult

/-- `SANITY_TEST_computeRandSeed`, tests/sanity_test.c:273-281 -/
def computeRandSeed : Nat → W64
  | 0 => PRIME32
  | step + 1 => (rand (computeRandSeed step)).2

/-- More rounds than `SANITY_TEST_XXH3_randomUpdate` (tests/sanity_test.c:298-314) can need, see `C55_random_ends`. -/
def roundsFor (len : Nat) : Nat := len * 2 ^ 62

/-- Reset, random ingestion, compare; e.g. tests/sanity_test.c:372-375. `randomUpdate` is the loop, the same as in
cli/xsum_sanity_check.c but for the place of the generator's state. -/
def random64 (cfg : Cfg) (reset : Option (Option Model.XXH3.State × Err)) (data : Ptr) (len rounds : Nat)
    (rnd : W64) (Nresult : W64) : Res (Model.XXH3.State × W64) := do
  let (state, _) ← Res.of reset
  let state ← Res.of state
  let (state, rnd) ← Res.of (randomUpdate cfg data len rounds 0 rnd state)
  let r ← Res.of (Model.XXH3.bits64_digest cfg state)
  checkResult r Nresult
  return (state, rnd)

@[inherit_doc random64]
def random128 (cfg : Cfg) (reset : Option (Option Model.XXH3.State × Err)) (data : Ptr) (len rounds : Nat)
    (rnd : W64) (Nresult : H128) : Res (Model.XXH3.State × W64) := do
  let (state, _) ← Res.of reset
  let state ← Res.of state
  let (state, rnd) ← Res.of (randomUpdate cfg data len rounds 0 rnd state)
  let r ← Res.of (Model.XXH3.bits128_digest cfg state)
  checkResult r Nresult
  return (state, rnd)

/-- `testXXH3`, tests/sanity_test.c:319-408 -/
def testXXH3 (e : TestEnv) (secret : Ptr) (secretSize : Nat) (rnd : W64) (t : TestData64) : Res W64 := do
  let len := t.len
  let seed := t.seed
  let data := dataOf e len
  let r ← Res.of (Model.XXH3.XXH3_64bits_withSeed e.cfg data len seed)
  checkResult r t.Nresult
  if seed = 0 then
    let r ← Res.of (Model.XXH3.XXH3_64bits e.cfg data len)
    checkResult r t.Nresult
  let secretFromSeed ← Res.of (Model.XXH3.generateSecret_fromSeed e.cfg (secretAt e e.secretJunk) seed)
  let r ← Res.of (Model.XXH3.XXH3_64bits_withSecretandSeed e.cfg data len (secretAt e secretFromSeed) 192 seed)
  checkResult r t.Nresult
  if len ≤ 240 then
    let r ← Res.of (Model.XXH3.XXH3_64bits_withSecretandSeed e.cfg data len secret secretSize seed)
    checkResult r t.Nresult
  let state := Model.XXH3.INITSTATE e.state3
  let state ← stream64 e.cfg (Model.XXH3.reset_withSeed e.cfg (some state) seed) (single e.cfg data len) t.Nresult
  let (state, rnd) ← random64 e.cfg (Model.XXH3.reset_withSeed e.cfg (some state) seed) data len
    (roundsFor len) rnd t.Nresult
  let state ← stream64 e.cfg (Model.XXH3.reset_withSeed e.cfg (some state) seed) (bytewise e.cfg data len) t.Nresult
  let secretFromSeed ← Res.of (Model.XXH3.generateSecret_fromSeed e.cfg (secretAt e e.secretJunk) seed)
  let state ← stream64 e.cfg (Model.XXH3.reset_withSecretandSeed (some state) (secretAt e secretFromSeed) 192 seed)
    (single e.cfg data len) t.Nresult
  if len ≤ 240 then
    let _ ← stream64 e.cfg (Model.XXH3.reset_withSecretandSeed (some state) secret secretSize seed)
      (single e.cfg data len) t.Nresult
  return rnd

/-- `testXXH3_withSecret`, tests/sanity_test.c:413-473 -/
def testXXH3_withSecret (e : TestEnv) (secret : Ptr) (secretSize : Nat) (rnd : W64) (t : TestData64) : Res W64 := do
  let len := t.len
  let data := dataOf e len
  let r ← Res.of (Model.XXH3.XXH3_64bits_withSecret e.cfg data len secret secretSize)
  checkResult r t.Nresult
  if len > 240 then
    let r ← Res.of (Model.XXH3.XXH3_64bits_withSecretandSeed e.cfg data len secret secretSize 0)
    checkResult r t.Nresult
  let state := Model.XXH3.INITSTATE e.state3
  let state ← stream64 e.cfg (Model.XXH3.reset_withSecret (some state) secret secretSize) (single e.cfg data len)
    t.Nresult
  let (state, rnd) ← random64 e.cfg (Model.XXH3.reset_withSecret (some state) secret secretSize) data len
    (roundsFor len) rnd t.Nresult
  let state ← stream64 e.cfg (Model.XXH3.reset_withSecret (some state) secret secretSize) (bytewise e.cfg data len)
    t.Nresult
  if len > 240 then
    let _ ← stream64 e.cfg (Model.XXH3.reset_withSecretandSeed (some state) secret secretSize 0) (single e.cfg data len)
      t.Nresult
  return rnd

/-- `testXXH128`, tests/sanity_test.c:478-574 -/
def testXXH128 (e : TestEnv) (secret : Ptr) (secretSize : Nat) (rnd : W64) (t : TestData128) : Res W64 := do
  let len := t.len
  let seed := t.seed
  let data := dataOf e len
  let r ← Res.of (Model.XXH3.XXH3_128bits_withSeed e.cfg data len seed)
  checkResult r t.Nresult
  let r ← Res.of (Model.XXH3.XXH128 e.cfg data len seed)
  checkResult r t.Nresult
  if seed = 0 then
    let r ← Res.of (Model.XXH3.XXH3_128bits e.cfg data len)
    checkResult r t.Nresult
  let secretFromSeed ← Res.of (Model.XXH3.generateSecret_fromSeed e.cfg (secretAt e e.secretJunk) seed)
  let r ← Res.of (Model.XXH3.XXH3_128bits_withSecretandSeed e.cfg data len (secretAt e secretFromSeed) 192 seed)
  checkResult r t.Nresult
  if len ≤ 240 then
    let r ← Res.of (Model.XXH3.XXH3_128bits_withSecretandSeed e.cfg data len secret secretSize seed)
    checkResult r t.Nresult
  let state := Model.XXH3.INITSTATE e.state3
  let state ← stream128 e.cfg (Model.XXH3.reset_withSeed e.cfg (some state) seed) (single e.cfg data len) t.Nresult
  let (state, rnd) ← random128 e.cfg (Model.XXH3.reset_withSeed e.cfg (some state) seed) data len
    (roundsFor len) rnd t.Nresult
  let state ← stream128 e.cfg (Model.XXH3.reset_withSeed e.cfg (some state) seed) (bytewise e.cfg data len) t.Nresult
  let secretFromSeed ← Res.of (Model.XXH3.generateSecret_fromSeed e.cfg (secretAt e e.secretJunk) seed)
  let state ← stream128 e.cfg (Model.XXH3.reset_withSecretandSeed (some state) (secretAt e secretFromSeed) 192 seed)
    (single e.cfg data len) t.Nresult
  if len ≤ 240 then
    let _ ← stream128 e.cfg (Model.XXH3.reset_withSecretandSeed (some state) secret secretSize seed)
      (single e.cfg data len) t.Nresult
  return rnd

/-- `testXXH128_withSecret`, tests/sanity_test.c:579-639 -/
def testXXH128_withSecret (e : TestEnv) (secret : Ptr) (secretSize : Nat) (rnd : W64) (t : TestData128) : Res W64 := do
  let len := t.len
  let data := dataOf e len
  let r ← Res.of (Model.XXH3.XXH3_128bits_withSecret e.cfg data len secret secretSize)
  checkResult r t.Nresult
  if len > 240 then
    let r ← Res.of (Model.XXH3.XXH3_128bits_withSecretandSeed e.cfg data len secret secretSize 0)
    checkResult r t.Nresult
  let state := Model.XXH3.INITSTATE e.state3
  let state ← stream128 e.cfg (Model.XXH3.reset_withSecret (some state) secret secretSize) (single e.cfg data len)
    t.Nresult
  let (state, rnd) ← random128 e.cfg (Model.XXH3.reset_withSecret (some state) secret secretSize) data len
    (roundsFor len) rnd t.Nresult
  let state ← stream128 e.cfg (Model.XXH3.reset_withSecret (some state) secret secretSize) (bytewise e.cfg data len)
    t.Nresult
  if len > 240 then
    let _ ← stream128 e.cfg (Model.XXH3.reset_withSecretandSeed (some state) secret secretSize 0) (single e.cfg data len)
      t.Nresult
  return rnd

/-- `testSecretGenerator`, tests/sanity_test.c:644-663, and the assertion before its call (788). -/
def testSecretGenerator (e : TestEnv) (t : TestDataSample) : Res Unit := do
  if ¬ t.seedLen ≤ SANITY_BUFFER_SIZE then abort
  if ¬ t.secretLen ≤ SECRET_SIZE_MAX then abort
  let (_, secretBuffer) ← Res.of (Model.XXH3.generateSecret e.cfg
    (some ⟨e.secretBuffer, List.replicate SECRET_SIZE_MAX 0⟩) t.secretLen
    (bufferOf e SANITY_BUFFER_SIZE t.seedLen) t.seedLen)
  let samples := sampleIndex.map fun i => secretBuffer.getD i 0
  if samples ≠ t.byte then .exit 1

/-- `main`, tests/sanity_test.c:667-803. The result is `testCount`, the number in the last message. -/
def sanityTest (e : TestEnv) (v : Tables) : Res Nat := do
  let secret := secretOf e SANITY_BUFFER_SIZE
  let secretSize := 136 + 11
  if ¬ SANITY_BUFFER_SIZE ≥ 7 + secretSize then abort
  let testCount := 0
  v.xxh32.forM (testXXH32 e)
  let testCount := testCount + v.xxh32.length
  v.xxh64.forM (testXXH64 e)
  let testCount := testCount + v.xxh64.length
  let _ ← testAll (testXXH3 e secret secretSize) (computeRandSeed 0) v.xxh3
  let testCount := testCount + v.xxh3.length
  let _ ← testAll (testXXH3_withSecret e secret secretSize) (computeRandSeed 22730) v.xxh3Secret
  -- lines 731 and 741
  let testCount := testCount + (v.xxh3Secret.length + v.xxh3Secret.length)
  let _ ← testAll (testXXH128 e secret secretSize) (computeRandSeed 34068) v.xxh128
  let testCount := testCount + v.xxh128.length
  let _ ← testAll (testXXH128_withSecret e secret secretSize) (computeRandSeed 68019) v.xxh128Secret
  let testCount := testCount + v.xxh128Secret.length
  v.generateSecret.forM (testSecretGenerator e)
  let testCount := testCount + v.generateSecret.length
  return testCount

end XXH.Model.SanityTest
