import Verif.Types
/-!
The second published description of XXH32 and XXH64: the Cryptol module `doc/xxhash.cry`, transcribed.

A Cryptol sequence `[n][8]` is a list of bytes, `[4][32]` a list of four words. In Cryptol `#` appends, `join`
concatenates words with the first one most significant, `split` cuts a sequence into equal parts, `<<<` rotates, and
`*` binds tighter than `+`, which binds tighter than `^`.
-/
namespace XXH.Cryptol

/-- `join bytes`, as a word of `w` bits. -/
def join (w : Nat) (bytes : List Byte) : BitVec w := bytes.foldl (fun acc b => (acc <<< 8) ||| b.setWidth w) 0

/-- `toLE`, doc/xxhash.cry:38-42 -/
def toLE (w : Nat) (bytes : List Byte) : BitVec w := join w bytes.reverse

/-- `split xs : [parts][each][8]` -/
def split (each : Nat) : (parts : Nat) → List Byte → List (List Byte)
  | 0, _ => []
  | n + 1, xs => xs.take each :: split each n (xs.drop each)

/-! ### XXH32 -/

/-- doc/xxhash.cry:45-49 -/
def PRIME32_1 : W32 := 0x9E3779B1
@[inherit_doc PRIME32_1] def PRIME32_2 : W32 := 0x85EBCA77
@[inherit_doc PRIME32_1] def PRIME32_3 : W32 := 0xC2B2AE3D
@[inherit_doc PRIME32_1] def PRIME32_4 : W32 := 0x27D4EB2F
@[inherit_doc PRIME32_1] def PRIME32_5 : W32 := 0x165667B1

/-- doc/xxhash.cry:65-70 -/
def XXH32_init (seed : W32) : List W32 :=
  [seed + PRIME32_1 + PRIME32_2, seed + PRIME32_2, seed + 0, seed - PRIME32_1]

/-- doc/xxhash.cry:75-76 -/
def XXH32_round (accN laneN : W32) : W32 := (accN + laneN * PRIME32_2).rotateLeft 13 * PRIME32_1

/-- doc/xxhash.cry:82-84 -/
def XXH32_rounds (accs : List W32) (stripe : List Byte) : List W32 :=
  List.zipWith (fun accN laneN => XXH32_round accN (toLE 32 laneN)) accs (split 4 4 stripe)

/-- doc/xxhash.cry:90-92 -/
def XXH32_converge : List W32 → W32
  | [acc1, acc2, acc3, acc4] => acc1.rotateLeft 1 + acc2.rotateLeft 7 + acc3.rotateLeft 12 + acc4.rotateLeft 18
  | _ => 0

/-- doc/xxhash.cry:97-98 -/
def XXH32_digest4 (acc : W32) (lane : List Byte) : W32 :=
  (acc + toLE 32 lane * PRIME32_3).rotateLeft 17 * PRIME32_4

/-- doc/xxhash.cry:103-104 -/
def XXH32_digest1 (acc : W32) (lane : Byte) : W32 := (acc + lane.setWidth 32 * PRIME32_5).rotateLeft 11 * PRIME32_1

/-- doc/xxhash.cry:111-117 -/
def XXH32_avalanche (acc0 : W32) : W32 :=
  let acc1 := acc0 ^^^ (acc0 >>> 15)
  let acc2 := acc1 * PRIME32_2
  let acc3 := acc2 ^^^ (acc2 >>> 13)
  let acc4 := acc3 * PRIME32_3
  acc4 ^^^ (acc4 >>> 16)

/-- doc/xxhash.cry:7-15; the pattern `(stripes16 # stripes4 # stripes1) = input` cuts the input at the lengths given by
the types of the three parts. -/
def XXH32 (input : List Byte) (seed : W32) : W32 :=
  let L := input.length
  let stripes16 := input.take (L / 16 * 16)
  let stripes4 := (input.drop (L / 16 * 16)).take (L % 16 / 4 * 4)
  let stripes1 := (input.drop (L / 16 * 16)).drop (L % 16 / 4 * 4)
  let accR := (split 16 (L / 16) stripes16).foldl XXH32_rounds (XXH32_init seed)
  let accL := BitVec.ofNat 32 (L % 2 ^ 32) + if L < 16 then seed + PRIME32_5 else XXH32_converge accR
  let acc4 := (split 4 (L % 16 / 4) stripes4).foldl XXH32_digest4 accL
  let acc1 := stripes1.foldl XXH32_digest1 acc4
  XXH32_avalanche acc1

/-! ### XXH64 -/

/-- doc/xxhash.cry:122-126 -/
def PRIME64_1 : W64 := 0x9E3779B185EBCA87
@[inherit_doc PRIME64_1] def PRIME64_2 : W64 := 0xC2B2AE3D27D4EB4F
@[inherit_doc PRIME64_1] def PRIME64_3 : W64 := 0x165667B19E3779F9
@[inherit_doc PRIME64_1] def PRIME64_4 : W64 := 0x85EBCA77C2B2AE63
@[inherit_doc PRIME64_1] def PRIME64_5 : W64 := 0x27D4EB2F165667C5

/-- doc/xxhash.cry:142-147 -/
def XXH64_init (seed : W64) : List W64 :=
  [seed + PRIME64_1 + PRIME64_2, seed + PRIME64_2, seed + 0, seed - PRIME64_1]

/-- doc/xxhash.cry:152-153 -/
def XXH64_round (accN laneN : W64) : W64 := (accN + laneN * PRIME64_2).rotateLeft 31 * PRIME64_1

/-- doc/xxhash.cry:159-161 -/
def XXH64_rounds (accs : List W64) (stripe : List Byte) : List W64 :=
  List.zipWith (fun accN laneN => XXH64_round accN (toLE 64 laneN)) accs (split 8 4 stripe)

/-- doc/xxhash.cry:166-167 -/
def mergeAccumulator (acc accN : W64) : W64 := (acc ^^^ XXH64_round 0 accN) * PRIME64_1 + PRIME64_4

/-- doc/xxhash.cry:173-175 -/
def XXH64_converge : List W64 → W64
  | [acc1, acc2, acc3, acc4] =>
    [acc1, acc2, acc3, acc4].foldl mergeAccumulator
      (acc1.rotateLeft 1 + acc2.rotateLeft 7 + acc3.rotateLeft 12 + acc4.rotateLeft 18)
  | _ => 0

/-- doc/xxhash.cry:180-181 -/
def XXH64_digest8 (acc : W64) (lane : List Byte) : W64 :=
  (acc ^^^ XXH64_round 0 (toLE 64 lane)).rotateLeft 27 * PRIME64_1 + PRIME64_4

/-- doc/xxhash.cry:186-187; `0 # toLE lane` is zero extension. -/
def XXH64_digest4 (acc : W64) (lane : List Byte) : W64 :=
  (acc ^^^ (toLE 32 lane).setWidth 64 * PRIME64_1).rotateLeft 23 * PRIME64_2 + PRIME64_3

/-- doc/xxhash.cry:192-193 -/
def XXH64_digest1 (acc : W64) (lane : Byte) : W64 := (acc ^^^ lane.setWidth 64 * PRIME64_5).rotateLeft 11 * PRIME64_1

/-- doc/xxhash.cry:200-206 -/
def XXH64_avalanche (acc0 : W64) : W64 :=
  let acc1 := acc0 ^^^ (acc0 >>> 33)
  let acc2 := acc1 * PRIME64_2
  let acc3 := acc2 ^^^ (acc2 >>> 29)
  let acc4 := acc3 * PRIME64_3
  acc4 ^^^ (acc4 >>> 32)

/-- doc/xxhash.cry:21-30 -/
def XXH64 (input : List Byte) (seed : W64) : W64 :=
  let L := input.length
  let stripes32 := input.take (L / 32 * 32)
  let rest := input.drop (L / 32 * 32)
  let stripes8 := rest.take (L % 32 / 8 * 8)
  let rest := rest.drop (L % 32 / 8 * 8)
  let stripes4 := rest.take (L % 8 / 4 * 4)
  let stripes1 := rest.drop (L % 8 / 4 * 4)
  let accR := (split 32 (L / 32) stripes32).foldl XXH64_rounds (XXH64_init seed)
  let accL := BitVec.ofNat 64 (L % 2 ^ 64) + if L < 32 then seed + PRIME64_5 else XXH64_converge accR
  let acc8 := (split 8 (L % 32 / 8) stripes8).foldl XXH64_digest8 accL
  let acc4 := (split 4 (L % 8 / 4) stripes4).foldl XXH64_digest4 acc8
  let acc1 := stripes1.foldl XXH64_digest1 acc4
  XXH64_avalanche acc1

#guard XXH32 [0x61, 0x62, 0x63] 0 = 0x32D153FF
#guard XXH64 [0x61, 0x62, 0x63] 0 = 0x44BC2CF5AD770999

end XXH.Cryptol
