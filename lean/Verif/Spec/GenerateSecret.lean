import Verif.Spec.XXH3
/-!
The secret generator as a function. `doc/xxhash_spec.md` does not specify it; this is a reading of the
header's description (xxhash.h:1825-1883) and code (7013-7055), byte by byte.
-/
namespace XXH.Spec.XXH3

/-- The 16 bytes a hash contributes to a secret: both halves in little-endian order. -/
def h128LE (h : H128) : List Byte := leBytes 8 h.low64 ++ leBytes 8 h.high64

/-- What `XXH3_generateSecret` documents in words (xxhash.h:1825-1860) and does (7033-7052): repeat
the custom seed; on every 16-byte segment `n` lay the XXH128 hash, seeded with `n`, of the canonical
XXH128 hash of the custom seed; on the last 16 bytes lay that hash itself. -/
def generated (size : Nat) (sd : List Byte) : List Byte :=
  let h := XXH3_128_withSeed sd 0
  let scrambler := beBytes 8 h.high64 ++ beBytes 8 h.low64
  let seg (n : Nat) := h128LE (XXH3_128_withSeed scrambler (BitVec.ofNat 64 n))
  (List.range size).map fun k =>
    sd.getD (k % sd.length) 0 ^^^
    (if k < 16 * (size / 16) then (seg (k / 16)).getD (k % 16) 0 else 0) ^^^
    (if size - 16 ≤ k then (h128LE h).getD (k - (size - 16)) 0 else 0)

/-- An empty custom seed stands for the default secret (xxhash.h:7024-7027). -/
def generateSecret (size : Nat) (customSeed : List Byte) : List Byte :=
  generated size (if customSeed = [] then defaultSecret else customSeed)

end XXH.Spec.XXH3
