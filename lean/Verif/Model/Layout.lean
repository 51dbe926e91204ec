import Verif.Model.XXH3Stream
import Verif.Model.XXH32
import Verif.Model.Alloc
/-!
The state objects as bytes: how a compiler lays out the structs (xxhash.h:1655-1780), and the functions that treat a
state as raw memory (`memset`, `memcpy`, xxhash.h:3128-3143, 3574-3589, 6159-6190).

The rule for structs is that of every common ABI: members in order, each at the next multiple of its alignment, and the
size of the struct a multiple of the largest alignment.
-/
namespace XXH.Model.Layout

/-- Sizes and alignments of the types used; `unsigned char` has size and alignment 1, `XXH32_hash_t` 4 bytes and
`XXH64_hash_t` 8 bytes. -/
structure Abi where
  /-- `sizeof(size_t)` -/
  sizeT : Nat
  /-- `sizeof(void*)` -/
  ptr : Nat
  align32 : Nat
  align64 : Nat
  alignT : Nat
  alignPtr : Nat
  /-- `XXH_ALIGN` is supported, xxhash.h:1690-1701 -/
  xxhAlign : Bool

/-- The ABIs considered: `size_t` of 16 to 64 bits, pointers of 16 to 128 bits, alignments that divide the sizes. -/
structure Abi.Valid (abi : Abi) : Prop where
  sizeT : abi.sizeT ∈ [2, 4, 8]
  ptr : abi.ptr ∈ [2, 4, 8, 16]
  align32 : abi.align32 ∈ [1, 2, 4]
  align64 : abi.align64 ∈ [1, 2, 4, 8]
  alignT : abi.alignT ∈ [1, 2, 4, 8] ∧ abi.alignT ≤ abi.sizeT
  alignPtr : abi.alignPtr ∈ [1, 2, 4, 8, 16] ∧ abi.alignPtr ≤ abi.ptr

/-- The type of a member. -/
structure Member where
  size : Nat
  align : Nat

/-- The next multiple of `a`. -/
def roundUp (n a : Nat) : Nat := (n + (a - 1)) / a * a

/-- Offsets of the members, the first one not before `off`. -/
def offsets (off : Nat) : List Member → List Nat
  | [] => []
  | m :: ms => roundUp off m.align :: offsets (roundUp off m.align + m.size) ms

/-- The end of the last member. -/
def stop (off : Nat) : List Member → Nat
  | [] => off
  | m :: ms => stop (roundUp off m.align + m.size) ms

/-- The alignment of the struct. -/
def alignof (ms : List Member) : Nat := ms.foldr (fun m a => max m.align a) 1

/-- `sizeof` the struct. -/
def sizeof (ms : List Member) : Nat := roundUp (stop 0 ms) (alignof ms)

/-- `XXH32_hash_t` -/
def Abi.u32 (abi : Abi) : Member := ⟨4, abi.align32⟩
/-- `XXH64_hash_t` -/
def Abi.u64 (abi : Abi) : Member := ⟨8, abi.align64⟩
/-- `size_t` -/
def Abi.size (abi : Abi) : Member := ⟨abi.sizeT, abi.alignT⟩
/-- An array. -/
def Member.array (m : Member) (n : Nat) : Member := ⟨n * m.size, m.align⟩
/-- `XXH_ALIGN_MEMBER(64, ...)`, xxhash.h:1703-1710. -/
def Abi.align64Member (abi : Abi) (m : Member) : Member := if abi.xxhAlign then { m with align := 64 } else m

/-- `XXH32_state_s`, xxhash.h:1655-1662. -/
def members32 (abi : Abi) : List Member :=
  [abi.u32, abi.u32, abi.u32.array 4, abi.u32.array 4, abi.u32, abi.u32]

/-- `XXH64_state_s`, xxhash.h:1679-1686. -/
def members64 (abi : Abi) : List Member :=
  [abi.u64, abi.u64.array 4, abi.u64.array 4, abi.u32, abi.u32, abi.u64]

/-- `XXH3_state_s`, xxhash.h:1753-1780. -/
def members3 (abi : Abi) : List Member :=
  [abi.align64Member (abi.u64.array 8), abi.align64Member (Member.array ⟨1, 1⟩ 192), abi.align64Member (Member.array ⟨1, 1⟩ 256),
    abi.u32, abi.u32, abi.size, abi.u64, abi.size, abi.size, abi.u64, abi.u64, ⟨abi.ptr, abi.alignPtr⟩]

/-- `XXH128_hash_t`, xxhash.h:1365-1368. -/
def members128 (abi : Abi) : List Member := [abi.u64, abi.u64]

/-- The canonical types, arrays of bytes: xxhash.h:754-756, 1028, 1588 (the sizes are those of the hash types). -/
def membersCanonical (abi : Abi) : List (List Member) :=
  [[Member.array ⟨1, 1⟩ 4], [Member.array ⟨1, 1⟩ abi.u64.size], [Member.array ⟨1, 1⟩ (sizeof (members128 abi))]]

/-- The members of `XXH3_state_s`, in order. -/
inductive F3 where
  | acc | customSecret | buffer | bufferedSize | useSeed | nbStripesSoFar | totalLen | nbStripesPerBlock | secretLimit
  | seed | reserved64 | extSecret
deriving DecidableEq

/-- Position in the list of members. -/
def F3.index : F3 → Nat
  | acc => 0
  | customSecret => 1
  | buffer => 2
  | bufferedSize => 3
  | useSeed => 4
  | nbStripesSoFar => 5
  | totalLen => 6
  | nbStripesPerBlock => 7
  | secretLimit => 8
  | seed => 9
  | reserved64 => 10
  | extSecret => 11

/-- `offsetof(XXH3_state_t, f)` -/
def offsetof (abi : Abi) (f : F3) : Nat := (offsets 0 (members3 abi)).getD f.index 0

/-- `sizeof` a member. -/
def sizeofMember (abi : Abi) (f : F3) : Nat := ((members3 abi).map Member.size).getD f.index 0

/-- The layout `Model/Alloc` asks for. -/
def allocLayout (abi : Abi) : Alloc.Layout :=
  ⟨sizeof (members3 abi), offsetof abi .seed, offsetof abi .extSecret, abi.ptr⟩

/-! ### Objects -/

/-- The `n` bytes from `off` on. -/
def slice (obj : List Byte) (off n : Nat) : List Byte := (obj.drop off).take n

/-- The bytes of an unsigned integer of `n` bytes. -/
def bytesOf (cfg : Cfg) (n v : Nat) : List Byte := nativeBytes cfg n (BitVec.ofNat (8 * n) v)

/-- The unsigned integer of `n` bytes at `off`. -/
def load (cfg : Cfg) (obj : List Byte) (off n : Nat) : Nat := (native cfg (8 * n) (slice obj off n)).toNat

/-- Assignments in order: offset and bytes of each. -/
def store (obj : List Byte) : List (Nat × List Byte) → Option (List Byte)
  | [] => some obj
  | (off, bs) :: st => do store (← writeBytes obj off bs) st

/-- What the fields of an `XXH3_state_t` are, read from its bytes; `deref` gives the object behind an address. -/
def fields3 (cfg : Cfg) (abi : Abi) (deref : Nat → Ptr) (addr : Nat) (obj : List Byte) : XXH3.State where
  addr := addr
  acc := Vector.ofFn fun i => BitVec.ofNat 64 (load cfg obj (offsetof abi .acc + 8 * i.val) 8)
  customSecret := slice obj (offsetof abi .customSecret) 192
  buffer := slice obj (offsetof abi .buffer) 256
  bufferedSize := BitVec.ofNat 32 (load cfg obj (offsetof abi .bufferedSize) 4)
  useSeed := load cfg obj (offsetof abi .useSeed) 4 != 0
  nbStripesSoFar := load cfg obj (offsetof abi .nbStripesSoFar) abi.sizeT
  totalLen := BitVec.ofNat 64 (load cfg obj (offsetof abi .totalLen) 8)
  nbStripesPerBlock := load cfg obj (offsetof abi .nbStripesPerBlock) abi.sizeT
  secretLimit := load cfg obj (offsetof abi .secretLimit) abi.sizeT
  seed := BitVec.ofNat 64 (load cfg obj (offsetof abi .seed) 8)
  extSecret := deref (load cfg obj (offsetof abi .extSecret) abi.ptr)

/-- `XXH3_reset_internal`, xxhash.h:6165-6190, with the address of the secret; the value of `nbStripesPerBlock` is
computed from the value just stored in `secretLimit`. -/
def reset_internal (cfg : Cfg) (abi : Abi) (obj : List Byte) (seed : W64) (secret secretSize : Nat) : Option (List Byte) := do
  let initStart := offsetof abi .bufferedSize
  let initLength := offsetof abi .nbStripesPerBlock - initStart
  assert (initStart < offsetof abi .nbStripesPerBlock)
  let obj ← store obj
    [(initStart, List.replicate initLength 0),
      (offsetof abi .acc, bytesOf cfg 8 XXH32.PRIME32_3.toNat),
      (offsetof abi .acc + 8, bytesOf cfg 8 XXH64.PRIME64_1.toNat),
      (offsetof abi .acc + 16, bytesOf cfg 8 XXH64.PRIME64_2.toNat),
      (offsetof abi .acc + 24, bytesOf cfg 8 XXH64.PRIME64_3.toNat),
      (offsetof abi .acc + 32, bytesOf cfg 8 XXH64.PRIME64_4.toNat),
      (offsetof abi .acc + 40, bytesOf cfg 8 XXH32.PRIME32_2.toNat),
      (offsetof abi .acc + 48, bytesOf cfg 8 XXH64.PRIME64_5.toNat),
      (offsetof abi .acc + 56, bytesOf cfg 8 XXH32.PRIME32_1.toNat),
      (offsetof abi .seed, bytesOf cfg 8 seed.toNat),
      (offsetof abi .useSeed, bytesOf cfg 4 (if seed ≠ 0 then 1 else 0)),
      (offsetof abi .extSecret, bytesOf cfg abi.ptr secret)]
  assert (XXH3.SECRET_SIZE_MIN ≤ secretSize)
  store obj
    [(offsetof abi .secretLimit, bytesOf cfg abi.sizeT (secretSize - 64)),
      (offsetof abi .nbStripesPerBlock, bytesOf cfg abi.sizeT ((secretSize - 64) / 8))]

/-- `XXH3_64bits_reset_withSeed`, xxhash.h:6213-6222, of a state at `addr`; a null pointer is 0. -/
def reset_withSeed (cfg : Cfg) (abi : Abi) (addr : Nat) (obj : List Byte) (seed : W64) : Option (List Byte) :=
  if seed = 0 then reset_internal cfg abi obj 0 cfg.kSecretAddr 192 else do
    let obj ←
      if seed.toNat ≠ load cfg obj (offsetof abi .seed) 8 ∨ load cfg obj (offsetof abi .extSecret) abi.ptr ≠ 0 then do
        let custom ← XXH3.initCustomSecret cfg (addr + offsetof abi .customSecret) (slice obj (offsetof abi .customSecret) 192) seed
        store obj [(offsetof abi .customSecret, custom)]
      else some obj
    reset_internal cfg abi obj seed 0 192

/-- `XXH3_64bits_reset_withSecretandSeed`, xxhash.h:6225-6234, when it does not report an error. -/
def reset_withSecretandSeed (cfg : Cfg) (abi : Abi) (obj : List Byte) (secret secretSize : Nat) (seed : W64) :
    Option (List Byte) := do
  let obj ← reset_internal cfg abi obj seed secret secretSize
  store obj [(offsetof abi .useSeed, bytesOf cfg 4 1)]

/-- `XXH3_INITSTATE`, xxhash.h:1795-1800. -/
def initState (cfg : Cfg) (abi : Abi) (obj : List Byte) : Option (List Byte) :=
  store obj [(offsetof abi .seed, bytesOf cfg 8 0), (offsetof abi .extSecret, bytesOf cfg abi.ptr 0)]

/-- The fields of an `XXH32_state_t`. -/
def fields32 (cfg : Cfg) (abi : Abi) (obj : List Byte) : XXH32.State where
  total_len_32 := BitVec.ofNat 32 (load cfg obj ((offsets 0 (members32 abi)).getD 0 0) 4)
  large_len := BitVec.ofNat 32 (load cfg obj ((offsets 0 (members32 abi)).getD 1 0) 4)
  v := ⟨BitVec.ofNat 32 (load cfg obj ((offsets 0 (members32 abi)).getD 2 0) 4),
    BitVec.ofNat 32 (load cfg obj ((offsets 0 (members32 abi)).getD 2 0 + 4) 4),
    BitVec.ofNat 32 (load cfg obj ((offsets 0 (members32 abi)).getD 2 0 + 8) 4),
    BitVec.ofNat 32 (load cfg obj ((offsets 0 (members32 abi)).getD 2 0 + 12) 4)⟩
  mem32 := slice obj ((offsets 0 (members32 abi)).getD 3 0) 16
  memsize := load cfg obj ((offsets 0 (members32 abi)).getD 4 0) 4

/-- `XXH32_reset`, xxhash.h:3134-3143. -/
def reset32 (cfg : Cfg) (abi : Abi) (obj : List Byte) (seed : W32) : Option (List Byte) :=
  let v := (offsets 0 (members32 abi)).getD 2 0
  store obj
    [(0, List.replicate (sizeof (members32 abi)) 0),
      (v, bytesOf cfg 4 (seed + XXH32.PRIME32_1 + XXH32.PRIME32_2).toNat),
      (v + 4, bytesOf cfg 4 (seed + XXH32.PRIME32_2).toNat),
      (v + 8, bytesOf cfg 4 (seed + 0).toNat),
      (v + 12, bytesOf cfg 4 (seed - XXH32.PRIME32_1).toNat)]

/-- The fields of an `XXH64_state_t`. -/
def fields64 (cfg : Cfg) (abi : Abi) (obj : List Byte) : XXH64.State where
  total_len := BitVec.ofNat 64 (load cfg obj ((offsets 0 (members64 abi)).getD 0 0) 8)
  v := ⟨BitVec.ofNat 64 (load cfg obj ((offsets 0 (members64 abi)).getD 1 0) 8),
    BitVec.ofNat 64 (load cfg obj ((offsets 0 (members64 abi)).getD 1 0 + 8) 8),
    BitVec.ofNat 64 (load cfg obj ((offsets 0 (members64 abi)).getD 1 0 + 16) 8),
    BitVec.ofNat 64 (load cfg obj ((offsets 0 (members64 abi)).getD 1 0 + 24) 8)⟩
  mem64 := slice obj ((offsets 0 (members64 abi)).getD 2 0) 32
  memsize := load cfg obj ((offsets 0 (members64 abi)).getD 3 0) 4

/-- `XXH64_reset`, xxhash.h:3580-3589. -/
def reset64 (cfg : Cfg) (abi : Abi) (obj : List Byte) (seed : W64) : Option (List Byte) :=
  let v := (offsets 0 (members64 abi)).getD 1 0
  store obj
    [(0, List.replicate (sizeof (members64 abi)) 0),
      (v, bytesOf cfg 8 (seed + XXH64.PRIME64_1 + XXH64.PRIME64_2).toNat),
      (v + 8, bytesOf cfg 8 (seed + XXH64.PRIME64_2).toNat),
      (v + 16, bytesOf cfg 8 (seed + 0).toNat),
      (v + 24, bytesOf cfg 8 (seed - XXH64.PRIME64_1).toNat)]

/-- The three functions `copyState`, xxhash.h:3128-3131, 3574-3577, 6159-6163: `memcpy` of `sizeof(*dst)` bytes. -/
def copyObj (size : Nat) (dst src : List Byte) : Option (List Byte) := do
  writeBytes dst 0 (← readBytes ⟨0, src⟩ 0 size)

end XXH.Model.Layout
