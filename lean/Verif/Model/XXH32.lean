import Verif.Model.Mem
/-!
Model of the XXH32 part of xxhash.h (lines 2861-3234).
-/
namespace XXH.Model.XXH32

/-- xxhash.h:2861-2865 -/
def PRIME32_1 : W32 := 0x9E3779B1#32
def PRIME32_2 : W32 := 0x85EBCA77#32
def PRIME32_3 : W32 := 0xC2B2AE3D#32
def PRIME32_4 : W32 := 0x27D4EB2F#32
def PRIME32_5 : W32 := 0x165667B1#32

/-- `XXH32_round`, xxhash.h:2886-2930 (the compiler fence has no effect on values). -/
def round (acc input : W32) : W32 :=
  let acc := acc + input * PRIME32_2
  let acc := rotl32 acc 13
  acc * PRIME32_1

/-- `XXH32_avalanche`, xxhash.h:2943-2951. -/
def avalanche (hash : W32) : W32 :=
  let hash := hash ^^^ (hash >>> 15)
  let hash := hash * PRIME32_2
  let hash := hash ^^^ (hash >>> 13)
  let hash := hash * PRIME32_3
  hash ^^^ (hash >>> 16)

/-- `XXH_PROCESS1`, xxhash.h:2973-2976: updates `(hash, ptr)`. -/
def process1 (b : Buf) (s : W32 × Nat) : Option (W32 × Nat) := do
  let c ← read8 b s.2
  let hash := s.1 + c.setWidth 32 * PRIME32_5
  return (rotl32 hash 11 * PRIME32_1, s.2 + 1)

/-- `XXH_PROCESS4`, xxhash.h:2978-2982. -/
def process4 (cfg : Cfg) (b : Buf) (align : Align) (s : W32 × Nat) : Option (W32 × Nat) := do
  let w ← readLE32_align cfg b s.2 align
  let hash := s.1 + w * PRIME32_3
  return (rotl32 hash 17 * PRIME32_4, s.2 + 4)

/-- `while (len >= 4) { XXH_PROCESS4; len -= 4; }`, xxhash.h:2989-2992. -/
def loop4 (cfg : Cfg) (b : Buf) (align : Align) : Nat → W32 × Nat → Nat → Option ((W32 × Nat) × Nat)
  | 0, _, _ => none
  | fuel+1, s, len =>
    if 4 ≤ len then do loop4 cfg b align fuel (← process4 cfg b align s) (len - 4)
    else some (s, len)

/-- `while (len > 0) { XXH_PROCESS1; --len; }`, xxhash.h:2993-2996. -/
def loop1 (b : Buf) : Nat → W32 × Nat → Nat → Option (W32 × Nat)
  | 0, _, _ => none
  | fuel+1, s, len =>
    if 0 < len then do loop1 b fuel (← process1 b s) (len - 1)
    else some s

/-- `XXH32_finalize`, xxhash.h:2970-3041; `ptr` is `b` at offset `off`, `isNull` tells `ptr==NULL`.
The cases of the `switch` are written out with their fallthrough. -/
def finalize (cfg : Cfg) (hash : W32) (isNull : Bool) (b : Buf) (off len : Nat) (align : Align) :
    Option W32 := do
  assert (!isNull || len == 0)   -- if (ptr==NULL) XXH_ASSERT(len == 0)
  let P4 := process4 cfg b align
  let P1 := process1 b
  if !cfg.endJmp then
    let len := len &&& 15
    let (s, len) ← loop4 cfg b align (len + 1) (hash, off) len
    let s ← loop1 b (len + 1) s len
    return avalanche s.1
  else
    let s := (hash, off)
    match len &&& 15 with
    | 12 => do let s ← P4 s; let s ← P4 s; let s ← P4 s; return avalanche s.1
    | 8  => do let s ← P4 s; let s ← P4 s; return avalanche s.1
    | 4  => do let s ← P4 s; return avalanche s.1
    | 13 => do let s ← P4 s; let s ← P4 s; let s ← P4 s; let s ← P1 s; return avalanche s.1
    | 9  => do let s ← P4 s; let s ← P4 s; let s ← P1 s; return avalanche s.1
    | 5  => do let s ← P4 s; let s ← P1 s; return avalanche s.1
    | 14 => do
      let s ← P4 s; let s ← P4 s; let s ← P4 s; let s ← P1 s; let s ← P1 s
      return avalanche s.1
    | 10 => do let s ← P4 s; let s ← P4 s; let s ← P1 s; let s ← P1 s; return avalanche s.1
    | 6  => do let s ← P4 s; let s ← P1 s; let s ← P1 s; return avalanche s.1
    | 15 => do
      let s ← P4 s; let s ← P4 s; let s ← P4 s; let s ← P1 s; let s ← P1 s; let s ← P1 s
      return avalanche s.1
    | 11 => do
      let s ← P4 s; let s ← P4 s; let s ← P1 s; let s ← P1 s; let s ← P1 s
      return avalanche s.1
    | 7  => do let s ← P4 s; let s ← P1 s; let s ← P1 s; let s ← P1 s; return avalanche s.1
    | 3  => do let s ← P1 s; let s ← P1 s; let s ← P1 s; return avalanche s.1
    | 2  => do let s ← P1 s; let s ← P1 s; return avalanche s.1
    | 1  => do let s ← P1 s; return avalanche s.1
    | 0  => return avalanche s.1
    | _  => none   -- `XXH_ASSERT(0)`, line 3038

/-- The initial lanes, xxhash.h:3069-3072 and 3138-3141. -/
def initV (seed : W32) : V4 32 where
  v1 := seed + PRIME32_1 + PRIME32_2
  v2 := seed + PRIME32_2
  v3 := seed + 0
  v4 := seed - PRIME32_1

/-- The body of the stripe loop, xxhash.h:3075-3078. -/
def stripe (cfg : Cfg) (b : Buf) (align : Align) (v : V4 32) (input : Nat) : Option (V4 32) := do
  let v1 := round v.v1 (← readLE32_align cfg b input align)
  let v2 := round v.v2 (← readLE32_align cfg b (input+4) align)
  let v3 := round v.v3 (← readLE32_align cfg b (input+8) align)
  let v4 := round v.v4 (← readLE32_align cfg b (input+12) align)
  return ⟨v1, v2, v3, v4⟩

/-- `do { ... } while (input < limit);`, xxhash.h:3074-3079. -/
def stripeLoop (cfg : Cfg) (b : Buf) (align : Align) (limit : Nat) :
    Nat → V4 32 → Nat → Option (V4 32 × Nat)
  | 0, _, _ => none
  | fuel+1, v, input => do
    let v ← stripe cfg b align v input
    let input := input + 16
    if input < limit then stripeLoop cfg b align limit fuel v input else some (v, input)

/-- The lane merge, xxhash.h:3081-3082 and 3207-3210. -/
def mergeV (v : V4 32) : W32 :=
  rotl32 v.v1 1 + rotl32 v.v2 7 + rotl32 v.v3 12 + rotl32 v.v4 18

/-- `XXH32_endian_align`, xxhash.h:3059-3090. -/
def endian_align (cfg : Cfg) (input : Ptr) (len : Nat) (seed : W32) (align : Align) :
    Option W32 := do
  assert (!input.isNone || len == 0)   -- if (input==NULL) XXH_ASSERT(len == 0)
  let b := input.buf
  let (h32, off) ←
    if 16 ≤ len then do
      let bEnd := len
      let limit := bEnd - 15
      let (v, off) ← stripeLoop cfg b align limit len (initV seed) 0
      pure (mergeV v, off)
    else pure (seed + PRIME32_5, 0)
  let h32 := h32 + BitVec.ofNat 32 len
  finalize cfg h32 input.isNone b off (len &&& 15) align

/-- `XXH32_state_s`, xxhash.h:1655-1662. `mem32[4]` is kept as its 16 bytes; `memsize` (a
`XXH32_hash_t`) as a number; `reserved` is dropped. -/
structure State where
  total_len_32 : W32
  large_len : W32
  v : V4 32
  mem32 : List Byte
  memsize : Nat

/-- The buffer as an object: member of a properly aligned struct. -/
def State.buf (s : State) : Buf := ⟨0, s.mem32⟩

/-- `XXH32_reset`, xxhash.h:3134-3143: `memset` to 0, then the lanes. The previous contents of the
state do not matter; `none` models a NULL state pointer. -/
def reset (statePtr : Option State) (seed : W32) : Option (State × Err) := do
  assert statePtr.isSome
  return ({ total_len_32 := 0, large_len := 0, v := initV seed,
            mem32 := List.replicate 16 0, memsize := 0 }, .ok)

/-- `do { ... } while (p<=limit);`, xxhash.h:3182-3187. -/
def updateLoop (cfg : Cfg) (b : Buf) (limit : Nat) : Nat → V4 32 → Nat → Option (V4 32 × Nat)
  | 0, _, _ => none
  | fuel+1, v, p => do
    let v ← stripe cfg b .unaligned v p
    let p := p + 16
    if p ≤ limit then updateLoop cfg b limit fuel v p else some (v, p)

/-- `if (state->memsize) { ... }`, xxhash.h:3167-3177; returns the new state and `p`. -/
def updateFill (cfg : Cfg) (state : State) (b : Buf) : Option (State × Nat) :=
  if state.memsize ≠ 0 then do
    let mem ← writeBytes state.mem32 state.memsize (← readBytes b 0 (16 - state.memsize))
    let v ← stripe cfg ⟨0, mem⟩ .unaligned state.v 0
    return ({ state with mem32 := mem, v := v, memsize := 0 }, 16 - state.memsize)
  else return (state, 0)

/-- The bulk loop, xxhash.h:3179-3189. -/
def updateBulk (cfg : Cfg) (state : State) (b : Buf) (p bEnd : Nat) : Option (State × Nat) :=
  if p + 16 ≤ bEnd then do
    let limit := bEnd - 16
    let (v, p) ← updateLoop cfg b limit bEnd state.v p
    return ({ state with v := v }, p)
  else return (state, p)

/-- `if (p < bEnd) { ... }`, xxhash.h:3191-3194. -/
def updateRest (state : State) (b : Buf) (p bEnd : Nat) : Option State :=
  if p < bEnd then do
    let mem ← writeBytes state.mem32 0 (← readBytes b p (bEnd - p))
    return { state with mem32 := mem, memsize := bEnd - p }
  else return state

/-- `XXH32_update`, xxhash.h:3147-3198. `p <= bEnd-16` is written `p + 16 ≤ bEnd` (offsets are
natural numbers; forming `bEnd-16` before the object is not treated as an error here). -/
def update (cfg : Cfg) (state : State) (input : Ptr) (len : Nat) : Option (State × Err) := do
  match input with
  | none =>
    assert (len == 0)
    return (state, .ok)
  | some b =>
    let bEnd := len
    let state := { state with total_len_32 := state.total_len_32 + BitVec.ofNat 32 len }
    let state := { state with
      large_len := state.large_len |||
        (if 16 ≤ len ∨ 16 ≤ state.total_len_32.toNat then 1 else 0) }
    if cfg.size (state.memsize + len) < 16 then
      let mem ← writeBytes state.mem32 state.memsize (← readBytes b 0 len)
      return ({ state with mem32 := mem, memsize := state.memsize + len }, .ok)
    let (state, p) ← updateFill cfg state b
    let (state, p) ← updateBulk cfg state b p bEnd
    let state ← updateRest state b p bEnd
    return (state, .ok)

/-- `XXH32_digest`, xxhash.h:3202-3218. -/
def digest (cfg : Cfg) (state : State) : Option W32 := do
  let h32 := if state.large_len ≠ 0 then mergeV state.v else state.v.v3 + PRIME32_5
  let h32 := h32 + state.total_len_32
  finalize cfg h32 false state.buf 0 state.memsize .aligned

/-- `XXH32`, xxhash.h:3093-3109. -/
def XXH32 (cfg : Cfg) (input : Ptr) (len : Nat) (seed : W32) : Option W32 :=
  if cfg.stream ∧ 2 ≤ cfg.sizeOpt then do
    -- a local `XXH32_state_t` with indeterminate contents
    let uninit : State := ⟨0, 0, ⟨0, 0, 0, 0⟩, List.replicate 16 0, 0⟩
    let (state, _) ← reset (some uninit) seed
    let (state, _) ← update cfg state input len
    digest cfg state
  else if cfg.alignCheck ∧ input.buf.addr &&& 3 = 0 then
    endian_align cfg input len seed .aligned
  else
    endian_align cfg input len seed .unaligned

/-- `XXH32_copyState`, xxhash.h:3128-3131. -/
def copyState (_dst src : State) : State := src

/-- `XXH32_canonicalFromHash`, xxhash.h:3224-3229: the four bytes written to `dst`. -/
def canonicalFromHash (cfg : Cfg) (hash : W32) : List Byte :=
  let hash := if cfg.littleEndian then swap32 hash else hash
  nativeBytes cfg 4 hash

/-- `XXH32_hashFromCanonical`, xxhash.h:3231-3234. -/
def hashFromCanonical (cfg : Cfg) (src : Buf) : Option W32 := readBE32 cfg src 0

end XXH.Model.XXH32
