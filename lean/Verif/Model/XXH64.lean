import Verif.Model.Mem
/-!
Model of the XXH64 part of xxhash.h (lines 3381-3678).
-/
namespace XXH.Model.XXH64

/-- xxhash.h:3381-3385 -/
def PRIME64_1 : W64 := 0x9E3779B185EBCA87#64
def PRIME64_2 : W64 := 0xC2B2AE3D27D4EB4F#64
def PRIME64_3 : W64 := 0x165667B19E3779F9#64
def PRIME64_4 : W64 := 0x85EBCA77C2B2AE63#64
def PRIME64_5 : W64 := 0x27D4EB2F165667C5#64

/-- `XXH64_round`, xxhash.h:3396-3419. -/
def round (acc input : W64) : W64 :=
  let acc := acc + input * PRIME64_2
  let acc := rotl64 acc 31
  acc * PRIME64_1

/-- `XXH64_mergeRound`, xxhash.h:3421-3427. -/
def mergeRound (acc val : W64) : W64 :=
  let val := round 0 val
  let acc := acc ^^^ val
  acc * PRIME64_1 + PRIME64_4

/-- `XXH64_avalanche`, xxhash.h:3430-3438. -/
def avalanche (hash : W64) : W64 :=
  let hash := hash ^^^ (hash >>> 33)
  let hash := hash * PRIME64_2
  let hash := hash ^^^ (hash >>> 29)
  let hash := hash * PRIME64_3
  hash ^^^ (hash >>> 32)

/-- `while (len >= 8) { ... }`, xxhash.h:3462-3468, on `(hash, ptr)` and `len`. -/
def loop8 (cfg : Cfg) (b : Buf) (align : Align) : Nat → W64 × Nat → Nat → Option ((W64 × Nat) × Nat)
  | 0, _, _ => none
  | fuel+1, (hash, ptr), len =>
    if 8 ≤ len then do
      let k1 := round 0 (← readLE64_align cfg b ptr align)
      let ptr := ptr + 8
      let hash := hash ^^^ k1
      let hash := rotl64 hash 27 * PRIME64_1 + PRIME64_4
      loop8 cfg b align fuel (hash, ptr) (len - 8)
    else some ((hash, ptr), len)

/-- `while (len > 0) { ... }`, xxhash.h:3475-3479. -/
def loop1 (b : Buf) : Nat → W64 × Nat → Nat → Option (W64 × Nat)
  | 0, _, _ => none
  | fuel+1, (hash, ptr), len =>
    if 0 < len then do
      let c ← read8 b ptr
      let hash := hash ^^^ (c.setWidth 64 * PRIME64_5)
      let hash := rotl64 hash 11 * PRIME64_1
      loop1 b fuel (hash, ptr + 1) (len - 1)
    else some (hash, ptr)

/-- `XXH64_finalize`, xxhash.h:3458-3482. -/
def finalize (cfg : Cfg) (hash : W64) (isNull : Bool) (b : Buf) (off len : Nat) (align : Align) :
    Option W64 := do
  assert (!isNull || len == 0)   -- if (ptr==NULL) XXH_ASSERT(len == 0)
  let len := len &&& 31
  let ((hash, ptr), len) ← loop8 cfg b align (len + 1) (hash, off) len
  let ((hash, ptr), len) ←
    if 4 ≤ len then do
      let w ← readLE32_align cfg b ptr align
      let hash := hash ^^^ (w.setWidth 64 * PRIME64_1)
      let ptr := ptr + 4
      let hash := rotl64 hash 23 * PRIME64_2 + PRIME64_3
      pure ((hash, ptr), len - 4)
    else pure ((hash, ptr), len)
  let s ← loop1 b (len + 1) (hash, ptr) len
  return avalanche s.1

/-- The initial lanes, xxhash.h:3511-3514 and 3584-3587. -/
def initV (seed : W64) : V4 64 where
  v1 := seed + PRIME64_1 + PRIME64_2
  v2 := seed + PRIME64_2
  v3 := seed + 0
  v4 := seed - PRIME64_1

/-- The body of the stripe loop, xxhash.h:3517-3520. -/
def stripe (cfg : Cfg) (b : Buf) (align : Align) (v : V4 64) (input : Nat) : Option (V4 64) := do
  let v1 := round v.v1 (← readLE64_align cfg b input align)
  let v2 := round v.v2 (← readLE64_align cfg b (input+8) align)
  let v3 := round v.v3 (← readLE64_align cfg b (input+16) align)
  let v4 := round v.v4 (← readLE64_align cfg b (input+24) align)
  return ⟨v1, v2, v3, v4⟩

/-- `do { ... } while (input<limit);`, xxhash.h:3516-3521. -/
def stripeLoop (cfg : Cfg) (b : Buf) (align : Align) (limit : Nat) :
    Nat → V4 64 → Nat → Option (V4 64 × Nat)
  | 0, _, _ => none
  | fuel+1, v, input => do
    let v ← stripe cfg b align v input
    let input := input + 32
    if input < limit then stripeLoop cfg b align limit fuel v input else some (v, input)

/-- The lane merge, xxhash.h:3523-3527 and 3649-3653. -/
def mergeV (v : V4 64) : W64 :=
  let h64 := rotl64 v.v1 1 + rotl64 v.v2 7 + rotl64 v.v3 12 + rotl64 v.v4 18
  let h64 := mergeRound h64 v.v1
  let h64 := mergeRound h64 v.v2
  let h64 := mergeRound h64 v.v3
  mergeRound h64 v.v4

/-- `XXH64_endian_align`, xxhash.h:3502-3536. -/
def endian_align (cfg : Cfg) (input : Ptr) (len : Nat) (seed : W64) (align : Align) :
    Option W64 := do
  assert (!input.isNone || len == 0)   -- if (input==NULL) XXH_ASSERT(len == 0)
  let b := input.buf
  let (h64, off) ←
    if 32 ≤ len then do
      let bEnd := len
      let limit := bEnd - 31
      let (v, off) ← stripeLoop cfg b align limit len (initV seed) 0
      pure (mergeV v, off)
    else pure (seed + PRIME64_5, 0)
  let h64 := h64 + BitVec.ofNat 64 len
  finalize cfg h64 input.isNone b off len align

/-- `XXH64_state_s`, xxhash.h:1679-1686. `mem64[4]` is kept as its 32 bytes; `memsize` (a
`XXH32_hash_t`) as a number; the reserved fields are dropped. -/
structure State where
  total_len : W64
  v : V4 64
  mem64 : List Byte
  memsize : Nat

/-- The buffer as an object: member of a properly aligned struct. -/
def State.buf (s : State) : Buf := ⟨0, s.mem64⟩

/-- `XXH64_reset`, xxhash.h:3580-3589. -/
def reset (statePtr : Option State) (seed : W64) : Option (State × Err) := do
  assert statePtr.isSome
  return ({ total_len := 0, v := initV seed, mem64 := List.replicate 32 0, memsize := 0 }, .ok)

/-- `do { ... } while (p<=limit);`, xxhash.h:3623-3628. -/
def updateLoop (cfg : Cfg) (b : Buf) (limit : Nat) : Nat → V4 64 → Nat → Option (V4 64 × Nat)
  | 0, _, _ => none
  | fuel+1, v, p => do
    let v ← stripe cfg b .unaligned v p
    let p := p + 32
    if p ≤ limit then updateLoop cfg b limit fuel v p else some (v, p)

/-- `if (state->memsize) { ... }`, xxhash.h:3609-3618; returns the new state and `p`. -/
def updateFill (cfg : Cfg) (state : State) (b : Buf) : Option (State × Nat) :=
  if state.memsize ≠ 0 then do
    let mem ← writeBytes state.mem64 state.memsize (← readBytes b 0 (32 - state.memsize))
    let v ← stripe cfg ⟨0, mem⟩ .unaligned state.v 0
    return ({ state with mem64 := mem, v := v, memsize := 0 }, 32 - state.memsize)
  else return (state, 0)

/-- The bulk loop, xxhash.h:3620-3630. -/
def updateBulk (cfg : Cfg) (state : State) (b : Buf) (p bEnd : Nat) : Option (State × Nat) :=
  if p + 32 ≤ bEnd then do
    let limit := bEnd - 32
    let (v, p) ← updateLoop cfg b limit bEnd state.v p
    return ({ state with v := v }, p)
  else return (state, p)

/-- `if (p < bEnd) { ... }`, xxhash.h:3632-3635. -/
def updateRest (state : State) (b : Buf) (p bEnd : Nat) : Option State :=
  if p < bEnd then do
    let mem ← writeBytes state.mem64 0 (← readBytes b p (bEnd - p))
    return { state with mem64 := mem, memsize := bEnd - p }
  else return state

/-- `XXH64_update`, xxhash.h:3592-3640 (forming `p+32` past the object is not treated as an error
here). -/
def update (cfg : Cfg) (state : State) (input : Ptr) (len : Nat) : Option (State × Err) := do
  match input with
  | none =>
    assert (len == 0)
    return (state, .ok)
  | some b =>
    let bEnd := len
    let state := { state with total_len := state.total_len + BitVec.ofNat 64 len }
    if cfg.size (state.memsize + len) < 32 then
      let mem ← writeBytes state.mem64 state.memsize (← readBytes b 0 len)
      return ({ state with mem64 := mem, memsize := state.memsize + len }, .ok)
    let (state, p) ← updateFill cfg state b
    let (state, p) ← updateBulk cfg state b p bEnd
    let state ← updateRest state b p bEnd
    return (state, .ok)

/-- `XXH64_digest`, xxhash.h:3644-3661. -/
def digest (cfg : Cfg) (state : State) : Option W64 := do
  let h64 := if 32 ≤ state.total_len.toNat then mergeV state.v else state.v.v3 + PRIME64_5
  let h64 := h64 + state.total_len
  finalize cfg h64 false state.buf 0 (cfg.size state.total_len.toNat) .aligned

/-- `XXH64`, xxhash.h:3540-3557. -/
def XXH64 (cfg : Cfg) (input : Ptr) (len : Nat) (seed : W64) : Option W64 :=
  if cfg.stream ∧ 2 ≤ cfg.sizeOpt then do
    -- a local `XXH64_state_t` with indeterminate contents
    let uninit : State := ⟨0, ⟨0, 0, 0, 0⟩, List.replicate 32 0, 0⟩
    let (state, _) ← reset (some uninit) seed
    let (state, _) ← update cfg state input len
    digest cfg state
  else if cfg.alignCheck ∧ input.buf.addr &&& 7 = 0 then
    endian_align cfg input len seed .aligned
  else
    endian_align cfg input len seed .unaligned

/-- `XXH64_copyState`, xxhash.h:3574-3577. -/
def copyState (_dst src : State) : State := src

/-- `XXH64_canonicalFromHash`, xxhash.h:3667-3672: the eight bytes written to `dst`. -/
def canonicalFromHash (cfg : Cfg) (hash : W64) : List Byte :=
  let hash := if cfg.littleEndian then swap64 hash else hash
  nativeBytes cfg 8 hash

/-- `XXH64_hashFromCanonical`, xxhash.h:3675-3678. -/
def hashFromCanonical (cfg : Cfg) (src : Buf) : Option W64 := readBE64 cfg src 0

end XXH.Model.XXH64
