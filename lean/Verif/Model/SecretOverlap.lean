import Verif.Model.XXH3
/-!
`XXH3_generateSecret` (xxhash.h:7013-7055) and `copyState` when what they write and what they read are parts of one object, and so may overlap. (In
`Model/XXH3` they are two objects.)
-/
namespace XXH.Model.SecretOverlap
open XXH3 (SECRET_SIZE_MIN SECRET_DEFAULT_SIZE XXH128 XXH128_canonicalFromHash XXH128_hashFromCanonical segmentLoop combine16 kSecret)

/-- `memcpy(obj + dst, obj + src, n)`: undefined outside of the object, and if the `n` bytes overlap (C11 7.24.2.1). -/
def memcpy (obj : List Byte) (dst src n : Nat) : Option (List Byte) := do
  assert (dst + n ≤ src || src + n ≤ dst)
  writeBytes obj dst (← readBytes ⟨0, obj⟩ src n)

/-- `XXH32_copyState`, `XXH64_copyState`, `XXH3_copyState`, xxhash.h:3128-3131, 3574-3577, 6159-6163 (the other functions that are
given two pointers and write through one): the states are `size` bytes of one object, at `dst` and at `src`. -/
def copyState (obj : List Byte) (dst src size : Nat) : Option (List Byte) := memcpy obj dst src size

/-- The fill loop, xxhash.h:7035-7040: the buffer is at `s`, the custom seed at `q`. -/
def fillLoop (s secretSize q customSeedSize : Nat) : Nat → Nat → List Byte → Option (List Byte)
  | 0, _, _ => none
  | fuel+1, pos, obj =>
    if pos < secretSize then do
      let toCopy := min (secretSize - pos) customSeedSize
      let obj ← memcpy obj (s + pos) q toCopy
      fillLoop s secretSize q customSeedSize fuel (pos + toCopy) obj
    else some obj

/-- `XXH3_generateSecret`, xxhash.h:7013-7055, in production mode, with `secretBuffer` at `s` and `customSeed` at `q` of the object
`obj` at the address `addr`: the new contents of the object. A custom seed of no bytes is replaced by `XXH3_kSecret`, which is an
object of its own. After the fill loop and the hash of the seed (xxhash.h:7044) only the buffer is read and written; here the loop
over its segments works on a copy of its bytes, which is then stored. -/
def generateSecret (cfg : Cfg) (addr : Nat) (obj : List Byte) (s secretSize q customSeedSize : Nat) : Option (Err × List Byte) := do
  if secretSize < SECRET_SIZE_MIN then return (.error, obj)
  if customSeedSize = 0 then
    let (e, bytes) ← XXH3.generateSecret cfg (some ⟨addr + s, ← readBytes ⟨addr, obj⟩ s secretSize⟩) secretSize
      (some (kSecret cfg)) 0
    return (e, ← writeBytes obj s bytes)
  let obj ← fillLoop s secretSize q customSeedSize (secretSize + 1) 0 obj
  let h ← XXH128 cfg (some ⟨addr + q, ← readBytes ⟨addr, obj⟩ q customSeedSize⟩) customSeedSize 0
  let scrambler := XXH128_canonicalFromHash cfg h
  let bytes ← segmentLoop cfg (addr + s) scrambler (secretSize / 16) (← readBytes ⟨addr, obj⟩ s secretSize)
  let last ← XXH128_hashFromCanonical cfg ⟨cfg.tmpAddr, scrambler⟩
  let bytes ← combine16 cfg (addr + s) bytes (secretSize - 16) last
  return (.ok, ← writeBytes obj s bytes)

end XXH.Model.SecretOverlap
