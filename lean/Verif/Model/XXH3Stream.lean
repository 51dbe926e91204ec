import Verif.Model.XXH3
/-!
Model of XXH3 streaming (xxhash.h:1753-1800, 6132-6438, 6885-6944).
-/
namespace XXH.Model.XXH3
open XXH64 (PRIME64_1 PRIME64_2)
open Simd

/-- `XXH3_INTERNALBUFFER_SIZE`, xxhash.h:1719. -/
def INTERNALBUFFER_SIZE : Nat := 256

/-- `XXH3_state_s`, xxhash.h:1753-1780, at address `addr` (acc at offset 0, customSecret at 64, buffer
at 256). `extSecret` is the object pointed to; its contents must not change between the reset and the
last digest, so they are part of the value. The field `reserved64` is dropped. -/
structure State where
  addr : Nat
  acc : Acc
  customSecret : List Byte
  buffer : List Byte
  bufferedSize : W32
  useSeed : Bool
  nbStripesSoFar : Nat
  totalLen : W64
  nbStripesPerBlock : Nat
  secretLimit : Nat
  seed : W64
  extSecret : Ptr

/-- What the type `XXH3_state_t` guarantees: 64-byte alignment (xxhash.h:1740-1754) and array sizes. -/
structure State.Typed (s : State) : Prop where
  align : s.addr % 64 = 0
  custom : s.customSecret.length = SECRET_DEFAULT_SIZE
  buffer : s.buffer.length = INTERNALBUFFER_SIZE

/-- `XXH3_INITSTATE`, xxhash.h:1795-1800. -/
def INITSTATE (s : State) : State := { s with seed := 0, extSecret := none }

/-- `XXH3_reset_internal`, xxhash.h:6165-6190; `none` for a `NULL` state or a too small secret. The
argument `state = none` is `NULL`. -/
def reset_internal (state : Option State) (seed : W64) (secret : Ptr) (secretSize : Nat) :
    Option State := do
  let s ← state
  assert (SECRET_SIZE_MIN ≤ secretSize)
  return { s with
    bufferedSize := 0, nbStripesSoFar := 0, totalLen := 0
    acc := INIT_ACC, seed := seed, useSeed := decide (seed ≠ 0), extSecret := secret
    secretLimit := secretSize - 64, nbStripesPerBlock := (secretSize - 64) / 8 }

/-- `XXH3_64bits_reset`, xxhash.h:6193-6199. All resets return the new contents of `*statePtr` (none
if `NULL`) and the error code. -/
def reset (cfg : Cfg) (state : Option State) : Option (Option State × Err) :=
  if state.isNone then some (none, .error) else do
    let s ← reset_internal state 0 (some (kSecret cfg)) SECRET_DEFAULT_SIZE
    return (some s, .ok)

/-- `XXH3_64bits_reset_withSecret`, xxhash.h:6202-6210. -/
def reset_withSecret (state : Option State) (secret : Ptr) (secretSize : Nat) :
    Option (Option State × Err) :=
  if state.isNone then some (none, .error) else do
    let s ← reset_internal state 0 secret secretSize
    if secret.isNone then return (some s, .error)
    if secretSize < SECRET_SIZE_MIN then return (some s, .error)
    return (some s, .ok)

/-- `XXH3_64bits_reset_withSeed`, xxhash.h:6213-6222. -/
def reset_withSeed (cfg : Cfg) (state : Option State) (seed : W64) : Option (Option State × Err) :=
  match state with
  | none => some (none, .error)
  | some s =>
    if seed = 0 then reset cfg (some s) else do
      let custom ←
        if seed ≠ s.seed ∨ s.extSecret.isSome then initCustomSecret cfg (s.addr + 64) s.customSecret seed
        else some s.customSecret
      let s ← reset_internal (some { s with customSecret := custom }) seed none SECRET_DEFAULT_SIZE
      return (some s, .ok)

/-- `XXH3_64bits_reset_withSecretandSeed`, xxhash.h:6225-6234. -/
def reset_withSecretandSeed (state : Option State) (secret : Ptr) (secretSize : Nat) (seed64 : W64) :
    Option (Option State × Err) :=
  if state.isNone then some (none, .error)
  else if secret.isNone then some (state, .error)
  else if secretSize < SECRET_SIZE_MIN then some (state, .error)
  else do
    let s ← reset_internal state seed64 secret secretSize
    return (some { s with useSeed := true }, .ok)

/-- The `do ... while (nbStripes >= nbStripesPerBlock)` of `XXH3_consumeStripes`, xxhash.h:6265-6274,
on `(acc, input, nbStripes)`; the first iteration has its own stripe count and secret offset. -/
def consumeBlocks (accAddr : Nat) (input : Buf) (secret : Buf) (nbStripesPerBlock secretLimit : Nat)
    (f_acc : FAccumulate) (f_scramble : Scramble) :
    Nat → Acc × Nat × Nat → Nat → Nat → Option (Acc × Nat × Nat)
  | 0, _, _, _ => none
  | fuel+1, (acc, ioff, nbStripes), nbStripesThisIter, initialSecret => do
    let acc ← f_acc accAddr acc input ioff secret initialSecret nbStripesThisIter
    let acc ← f_scramble accAddr acc secret secretLimit
    let ioff := ioff + nbStripesThisIter * 64
    let nbStripes := nbStripes - nbStripesThisIter
    if nbStripesPerBlock ≤ nbStripes then
      consumeBlocks accAddr input secret nbStripesPerBlock secretLimit f_acc f_scramble fuel
        (acc, ioff, nbStripes) nbStripesPerBlock 0
    else return (acc, ioff, nbStripes)

/-- `XXH3_consumeStripes`, xxhash.h:6253-6287: the new accumulators, `*nbStripesSoFarPtr` and the
offset of the returned pointer. The first assertion is not in the code; without it the size_t
difference below it would wrap around. -/
def consumeStripes (accAddr : Nat) (acc : Acc) (nbStripesSoFar nbStripesPerBlock : Nat) (input : Buf)
    (ioff nbStripes : Nat) (secret : Buf) (secretLimit : Nat) (f_acc : FAccumulate)
    (f_scramble : Scramble) : Option (Acc × Nat × Nat) := do
  assert (nbStripesSoFar ≤ nbStripesPerBlock)
  let initialSecret := nbStripesSoFar * 8
  let ((acc, ioff, nbStripes), nbStripesSoFar, initialSecret) ←
    if nbStripesPerBlock - nbStripesSoFar ≤ nbStripes then do
      let r ← consumeBlocks accAddr input secret nbStripesPerBlock secretLimit f_acc f_scramble
        (nbStripes + 1) (acc, ioff, nbStripes) (nbStripesPerBlock - nbStripesSoFar) initialSecret
      pure (r, 0, 0)
    else pure ((acc, ioff, nbStripes), nbStripesSoFar, initialSecret)
  if 0 < nbStripes then do
    let acc ← f_acc accAddr acc input ioff secret initialSecret nbStripes
    return (acc, nbStripesSoFar + nbStripes, ioff + nbStripes * 64)
  else return (acc, nbStripesSoFar, ioff)

/-- `(state->extSecret == NULL) ? state->customSecret : state->extSecret` -/
def State.secret (s : State) : Buf :=
  match s.extSecret with
  | none => ⟨s.addr + 64, s.customSecret⟩
  | some b => b

/-- The array `buffer` as an object. -/
def State.bufferObj (s : State) : Buf := ⟨s.addr + 256, s.buffer⟩

/-- Where `XXH3_update` keeps the accumulators: on the stack or in the state, xxhash.h:6311-6320. -/
def accAddrOf (cfg : Cfg) (s : State) : Nat := if cfg.streamUseStack then cfg.accAddr else s.addr

/-- `if (state->bufferedSize) { ... }`, xxhash.h:6339-6350; also returns `input`. -/
def updateFill (cfg : Cfg) (s : State) (input : Buf) (f_acc : FAccumulate) (f_scramble : Scramble) :
    Option (State × Nat) :=
  if s.bufferedSize ≠ 0 then do
    let loadSize := INTERNALBUFFER_SIZE - s.bufferedSize.toNat
    let buffer ← writeBytes s.buffer s.bufferedSize.toNat (← readBytes input 0 loadSize)
    let s := { s with buffer := buffer }
    let (acc, soFar, _) ← consumeStripes (accAddrOf cfg s) s.acc s.nbStripesSoFar s.nbStripesPerBlock
      s.bufferObj 0 (INTERNALBUFFER_SIZE / 64) s.secret s.secretLimit f_acc f_scramble
    return ({ s with acc := acc, nbStripesSoFar := soFar, bufferedSize := 0 }, loadSize)
  else return (s, 0)

/-- `if (bEnd - input > XXH3_INTERNALBUFFER_SIZE) { ... }`, xxhash.h:6352-6361. -/
def updateBulk (cfg : Cfg) (s : State) (input : Buf) (ioff bEnd : Nat) (f_acc : FAccumulate)
    (f_scramble : Scramble) : Option (State × Nat) :=
  if INTERNALBUFFER_SIZE < bEnd - ioff then do
    let nbStripes := (bEnd - 1 - ioff) / 64
    let (acc, soFar, ioff) ← consumeStripes (accAddrOf cfg s) s.acc s.nbStripesSoFar
      s.nbStripesPerBlock input ioff nbStripes s.secret s.secretLimit f_acc f_scramble
    let buffer ← writeBytes s.buffer (INTERNALBUFFER_SIZE - 64) (← readBytes input (ioff - 64) 64)
    return ({ s with acc := acc, nbStripesSoFar := soFar, buffer := buffer }, ioff)
  else return (s, ioff)

/-- "Some remaining input (always) : buffer it", xxhash.h:6362-6367. -/
def updateRest (s : State) (input : Buf) (ioff bEnd : Nat) : Option State := do
  assert (ioff < bEnd)
  assert (bEnd - ioff ≤ INTERNALBUFFER_SIZE)
  assert (s.bufferedSize == 0)
  let buffer ← writeBytes s.buffer 0 (← readBytes input ioff (bEnd - ioff))
  return { s with buffer := buffer, bufferedSize := BitVec.ofNat 32 (bEnd - ioff) }

/-- `XXH3_update`, xxhash.h:6297-6374. -/
def update (cfg : Cfg) (s : State) (input : Ptr) (len : Nat) (f_acc : FAccumulate)
    (f_scramble : Scramble) : Option (State × Err) := do
  match input with
  | none =>
    assert (len == 0)
    return (s, .ok)
  | some b =>
    let bEnd := len
    let s := { s with totalLen := s.totalLen + BitVec.ofNat 64 len }
    assert (s.bufferedSize.toNat ≤ INTERNALBUFFER_SIZE)
    if len ≤ INTERNALBUFFER_SIZE - s.bufferedSize.toNat then
      let buffer ← writeBytes s.buffer s.bufferedSize.toNat (← readBytes b 0 len)
      return ({ s with buffer := buffer, bufferedSize := s.bufferedSize + BitVec.ofNat 32 len }, .ok)
    let (s, ioff) ← updateFill cfg s b f_acc f_scramble
    assert (ioff < bEnd)
    let (s, ioff) ← updateBulk cfg s b ioff bEnd f_acc f_scramble
    let s ← updateRest s b ioff bEnd
    return (s, .ok)

/-- `XXH3_64bits_update`, xxhash.h:6377-6382, and `XXH3_128bits_update`, 6914-6918. -/
def bits64_update (cfg : Cfg) (s : State) (input : Ptr) (len : Nat) : Option (State × Err) :=
  update cfg s input len (accumulate cfg) (scrambleAcc cfg)

/-- The branch `bufferedSize < XXH_STRIPE_LEN` of `XXH3_digest_long`, xxhash.h:6407-6413: the bytes of
`lastStripe`. -/
def catchup (s : State) : Option (List Byte) := do
  let catchupSize := 64 - s.bufferedSize.toNat
  assert (0 < s.bufferedSize.toNat)
  let last ← writeBytes (List.replicate 64 0xA5) 0
    (← readBytes s.bufferObj (INTERNALBUFFER_SIZE - catchupSize) catchupSize)
  writeBytes last catchupSize (← readBytes s.bufferObj 0 s.bufferedSize.toNat)

/-- `XXH3_digest_long`, xxhash.h:6385-6420. -/
def digest_long (cfg : Cfg) (s : State) (secret : Buf) : Option Acc :=
  if 64 ≤ s.bufferedSize.toNat then do
    let nbStripes := (s.bufferedSize.toNat - 1) / 64
    let (acc, _, _) ← consumeStripes cfg.accAddr s.acc s.nbStripesSoFar s.nbStripesPerBlock s.bufferObj 0
      nbStripes secret s.secretLimit (accumulate cfg) (scrambleAcc cfg)
    accumulate_512 cfg cfg.accAddr acc s.bufferObj (s.bufferedSize.toNat - 64) secret (s.secretLimit - 7)
  else do
    let last ← catchup s
    accumulate_512 cfg cfg.accAddr s.acc ⟨cfg.tmpAddr, last⟩ 0 secret (s.secretLimit - 7)

/-- `XXH3_64bits_digest`, xxhash.h:6423-6438. -/
def bits64_digest (cfg : Cfg) (s : State) : Option W64 :=
  let secret := s.secret
  if MIDSIZE_MAX < s.totalLen.toNat then do
    let acc ← digest_long cfg s secret
    mergeAccs cfg acc secret 11 (s.totalLen * PRIME64_1)
  else if s.useSeed then
    XXH3_64bits_withSeed cfg (some s.bufferObj) (cfg.size s.totalLen.toNat) s.seed
  else
    XXH3_64bits_withSecret cfg (some s.bufferObj) (cfg.size s.totalLen.toNat) (some secret)
      (s.secretLimit + 64)

/-- `XXH3_128bits_digest`, xxhash.h:6921-6944. -/
def bits128_digest (cfg : Cfg) (s : State) : Option H128 :=
  let secret := s.secret
  if MIDSIZE_MAX < s.totalLen.toNat then do
    let acc ← digest_long cfg s secret
    assert (64 + 11 ≤ s.secretLimit + 64)
    let low ← mergeAccs cfg acc secret 11 (s.totalLen * PRIME64_1)
    let high ← mergeAccs cfg acc secret (s.secretLimit + 64 - 64 - 11) (~~~ (s.totalLen * PRIME64_2))
    return { low64 := low, high64 := high }
  else if s.useSeed then
    XXH3_128bits_withSeed cfg (some s.bufferObj) (cfg.size s.totalLen.toNat) s.seed
  else
    XXH3_128bits_withSecret cfg (some s.bufferObj) (cfg.size s.totalLen.toNat) (some secret)
      (s.secretLimit + 64)

/-- `XXH3_copyState`, xxhash.h:6159-6163: `memcpy` of the struct; the destination stays where it is. -/
def copyState (dst src : State) : State := { src with addr := dst.addr }

end XXH.Model.XXH3
