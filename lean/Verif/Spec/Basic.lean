import Verif.Types
/-!
Vocabulary of `doc/xxhash_spec.md`: byte slices, little-endian words, halves, byte swap.
Nothing here depends on the model of the C code.
-/
namespace XXH.Spec

/-- Natural number denoted by a byte string in little-endian order. -/
def leNat : List Byte → Nat
  | [] => 0
  | b :: bs => b.toNat + 256 * leNat bs

/-- Natural number denoted by a byte string in big-endian order. -/
def beNat (bs : List Byte) : Nat := bs.foldl (fun n b => 256 * n + b.toNat) 0

/-- `xs[a:b]` -/
def slice (xs : List Byte) (a b : Nat) : List Byte := (xs.drop a).take (b - a)

/-- Little-endian 32-bit value of a byte string. -/
def u32 (bs : List Byte) : W32 := BitVec.ofNat 32 (leNat bs)

/-- Little-endian 64-bit value of a byte string. -/
def u64 (bs : List Byte) : W64 := BitVec.ofNat 64 (leNat bs)

/-- `u32 words[] = xs; words[i]` -/
def word32 (xs : List Byte) (i : Nat) : W32 := u32 (slice xs (4*i) (4*i+4))

/-- `u64 words[] = xs; words[i]` -/
def word64 (xs : List Byte) (i : Nat) : W64 := u64 (slice xs (8*i) (8*i+8))

/-- The `n` least significant bytes of `x`, least significant first. -/
def leBytes (n : Nat) {w : Nat} (x : BitVec w) : List Byte :=
  (List.range n).map fun i => BitVec.ofNat 8 (x.toNat / 256 ^ i)

/-- The `n` least significant bytes of `x`, most significant first. -/
def beBytes (n : Nat) {w : Nat} (x : BitVec w) : List Byte := (leBytes n x).reverse

/-- Byte swap of a 32-bit value. -/
def bswap32 (x : W32) : W32 := u32 (beBytes 4 x)
/-- Byte swap of a 64-bit value. -/
def bswap64 (x : W64) : W64 := u64 (beBytes 8 x)

/-- `lowerHalf` of a 64-bit value, widened back to 64 bits. -/
def lower32 (x : W64) : W64 := BitVec.ofNat 64 (x.toNat % 2^32)
/-- `higherHalf` of a 64-bit value, widened back to 64 bits. -/
def higher32 (x : W64) : W64 := BitVec.ofNat 64 (x.toNat / 2^32)

/-- `lowerHalf((u128)a * (u128)b)` -/
def mulLow (a b : W64) : W64 := BitVec.ofNat 64 (a.toNat * b.toNat)
/-- `higherHalf((u128)a * (u128)b)` -/
def mulHigh (a b : W64) : W64 := BitVec.ofNat 64 (a.toNat * b.toNat / 2^64)

end XXH.Spec
