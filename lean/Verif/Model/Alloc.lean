import Verif.Model.Mem
/-!
Model of state allocation: `XXH_alignedMalloc`, `XXH_alignedFree` and the create/free functions
(xxhash.h:2339-2377, 3116-3125, 3562-3571, 6056-6157).

The C library's allocator is a parameter: a call of `malloc` is answered by `some base` or `none` (NULL), whatever
the allocator likes, as long as the answer is one the C standard allows (`Answer`).
-/
namespace XXH.Model.Alloc

/-- A live block of the C heap. -/
structure Block where
  base : Nat
  size : Nat

/-- The C heap: live blocks and the contents of memory. -/
structure Heap where
  blocks : List Block
  mem : Nat → Byte

/-- Address `a` lies in the block. -/
def Block.Has (b : Block) (a : Nat) : Prop := b.base ≤ a ∧ a < b.base + b.size

instance (b : Block) (a : Nat) : Decidable (b.Has a) := by unfold Block.Has; infer_instance

/-- An answer to `malloc(n)` that the C standard allows: `NULL`, or the address of a block which does not
overlap a live one and does not wrap around the address space. -/
def Answer (cfg : Cfg) (h : Heap) (n : Nat) : Option Nat → Prop
  | none => True
  | some base => base ≠ 0 ∧ base + n < 2 ^ cfg.sizeBits ∧
      ∀ b ∈ h.blocks, ∀ a, b.Has a → ¬ (Block.mk base n).Has a

/-- `malloc(n)` answered by `r`: the new heap and the returned address (0 for `NULL`). The new block contains
arbitrary bytes `junk`. -/
def malloc (h : Heap) (n : Nat) (r : Option Nat) (junk : Nat → Byte) : Heap × Nat :=
  match r with
  | none => (h, 0)
  | some base =>
    (⟨⟨base, n⟩ :: h.blocks, fun a => if (Block.mk base n).Has a then junk a else h.mem a⟩, base)

/-- `free(p)`: undefined unless `p` is `NULL` or the address of a live block. -/
def free (h : Heap) (p : Nat) : Option Heap :=
  if p = 0 then some h
  else if h.blocks.any (fun b => b.base == p) then
    some { h with blocks := h.blocks.filter fun b => b.base != p }
  else none

/-- Read the byte at address `a`: undefined outside the live blocks. -/
def load (h : Heap) (a : Nat) : Option Byte :=
  if h.blocks.any (fun b => decide (b.Has a)) then some (h.mem a) else none

/-- Write the byte at address `a`: undefined outside the live blocks. -/
def store (h : Heap) (a : Nat) (x : Byte) : Option Heap :=
  if h.blocks.any (fun b => decide (b.Has a)) then
    some { h with mem := fun a' => if a' = a then x else h.mem a' }
  else none

/-- Write consecutive bytes. -/
def storeBytes (h : Heap) (a : Nat) : List Byte → Option Heap
  | [] => some h
  | x :: xs => do storeBytes (← store h a x) (a + 1) xs

/-- `XXH_alignedMalloc`, xxhash.h:6079-6104. -/
def alignedMalloc (cfg : Cfg) (h : Heap) (s align : Nat) (r : Option Nat) (junk : Nat → Byte) :
    Option (Heap × Nat) := do
  assert (align ≤ 128 ∧ 8 ≤ align)
  assert (align &&& (align - 1) == 0)
  assert (s ≠ 0 ∧ s < cfg.size (s + align))
  let (h, base) := malloc h (cfg.size (s + align)) r junk
  if base ≠ 0 then do
    let offset := align - (base &&& (align - 1))
    let ptr := base + offset
    assert (ptr % align == 0)
    let h ← store h (ptr - 1) (BitVec.ofNat 8 offset)
    return (h, ptr)
  else return (h, 0)

/-- `XXH_alignedFree`, xxhash.h:6109-6120. -/
def alignedFree (h : Heap) (p : Nat) : Option Heap :=
  if p ≠ 0 then do
    let offset ← load h (p - 1)
    free h (p - offset.toNat)
  else some h

/-- The layout of `XXH3_state_t` (xxhash.h:1753-1780), which depends on the platform: its size, and the offsets and
sizes of the fields `seed` and `extSecret`. -/
structure Layout where
  size : Nat
  seedOff : Nat
  extOff : Nat
  ptrSize : Nat

/-- The fields lie inside the struct and do not overlap; `sizeof` leaves room for the alignment in `size_t`. -/
structure Layout.Valid (L : Layout) (cfg : Cfg) : Prop where
  seed : L.seedOff + 8 ≤ L.extOff
  ext : L.extOff + L.ptrSize ≤ L.size
  pos : L.size ≠ 0
  fits : L.size + 64 < 2 ^ cfg.sizeBits

/-- `XXH3_createState`, xxhash.h:6132-6138, with `XXH3_INITSTATE` (1795-1800). A null pointer is stored as zero
bytes. -/
def XXH3_createState (cfg : Cfg) (L : Layout) (h : Heap) (r : Option Nat) (junk : Nat → Byte) :
    Option (Heap × Nat) := do
  let (h, state) ← alignedMalloc cfg h L.size 64 r junk
  if state = 0 then return (h, 0)
  else do
    let h ← storeBytes h (state + L.seedOff) (List.replicate 8 0)
    let h ← storeBytes h (state + L.extOff) (List.replicate L.ptrSize 0)
    return (h, state)

/-- `XXH3_freeState`, xxhash.h:6152-6156. -/
def XXH3_freeState (h : Heap) (p : Nat) : Option (Heap × Err) := do
  let h ← alignedFree h p
  return (h, .ok)

/-- `XXH32_createState` and `XXH64_createState`, xxhash.h:3116-3119, 3562-3565 (`size` is `sizeof` the state). -/
def XXH_createState (h : Heap) (size : Nat) (r : Option Nat) (junk : Nat → Byte) : Heap × Nat :=
  malloc h size r junk

/-- `XXH32_freeState` and `XXH64_freeState`, xxhash.h:3121-3125, 3567-3571. -/
def XXH_freeState (h : Heap) (p : Nat) : Option (Heap × Err) := do
  let h ← free h p
  return (h, .ok)

end XXH.Model.Alloc
