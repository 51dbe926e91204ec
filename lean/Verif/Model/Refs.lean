import Verif.Model.XXH3Stream
/-!
XXH3 streaming as a program sees it: the state keeps a pointer to the secret (`extSecret`, xxhash.h:1776), not a copy of it,
and inputs are read where they are at the time of the call. Between two calls the program may do anything to its
own memory.

Simplification: state objects are apart from the rest of the memory, nobody but the library writes to them.
-/
namespace XXH.Model.Refs
open Model.XXH3 (State)

/-- A pointer that is not `NULL`: an object of the program and an offset in it. -/
structure Addr where
  obj : Nat
  off : Nat
deriving DecidableEq

/-- The memory of the program: the objects that are alive, with their addresses and contents. -/
abbrev Memory := Nat → Option Buf

/-- The `len` bytes behind a pointer; `none` if some of them are outside a live object. -/
def view (mem : Memory) (p : Addr) (len : Nat) : Option Buf := do
  let b ← mem p.obj
  assert (p.off + len ≤ b.bytes.length)
  return ⟨b.addr + p.off, (b.bytes.drop p.off).take len⟩

/-- The same for a pointer that may be `NULL`. -/
def viewPtr (mem : Memory) (p : Option Addr) (len : Nat) : Option Ptr :=
  match p with
  | none => some none
  | some p => do return some (← view mem p len)

/-- The value of the field `extSecret`, xxhash.h:1776: `NULL`, `XXH3_kSecret` or the caller's pointer. -/
inductive ExtSecret where
  | null
  | builtin
  | caller (p : Addr)
deriving DecidableEq

/-- `XXH3_state_s`, xxhash.h:1753-1780: the field `extSecret` of `fields` is not used, `ext` stands for it. -/
structure RState where
  fields : State
  ext : ExtSecret

/-- The state with the secret as it is in memory now. The library reads `secretLimit + 64` bytes of it at most; if they
are gone, any read through the pointer is undefined. -/
def load (cfg : Cfg) (mem : Memory) (r : RState) : State :=
  { r.fields with
    extSecret := match r.ext with
      | .null => none
      | .builtin => some (XXH3.kSecret cfg)
      | .caller p => some ((view mem p (r.fields.secretLimit + 64)).getD ⟨0, []⟩) }

/-- The four reset functions with their arguments. -/
inductive Reset where
  | default
  | seed (seed : W64)
  | secret (p : Option Addr) (size : Nat)
  | secretAndSeed (p : Option Addr) (size : Nat) (seed : W64)

/-- `extSecret` after a reset that does not leave the state as it is: xxhash.h:6197, 6206, 6218-6221, 6231, set at 6186. -/
def Reset.ext : Reset → ExtSecret
  | .default => .builtin
  | .seed sd => if sd = 0 then .builtin else .null
  | .secret p _ => p.elim .null .caller
  | .secretAndSeed p _ _ => p.elim .null .caller

/-- Stands for a pointer through which nothing is read. -/
def opaquePtr (p : Option Addr) : Ptr := p.map fun _ => ⟨0, []⟩

/-- The reset functions, xxhash.h:6193-6234. None of them reads the secret. `reset_withSecretandSeed` leaves the state
as it is when it reports an error. -/
def reset (cfg : Cfg) (mem : Memory) (r : RState) (a : Reset) : Option (RState × Err) := do
  let s := load cfg mem r
  let (s', e) ← match a with
    | .default => XXH3.reset cfg (some s)
    | .seed sd => XXH3.reset_withSeed cfg (some s) sd
    | .secret p size => XXH3.reset_withSecret (some s) (opaquePtr p) size
    | .secretAndSeed p size sd => XXH3.reset_withSecretandSeed (some s) (opaquePtr p) size sd
  let s' ← s'
  return match a, e with
    | .secretAndSeed .., .error => (r, e)
    | _, _ => (⟨s', a.ext⟩, e)

/-- `XXH3_64bits_update` and `XXH3_128bits_update`, xxhash.h:6377-6382, 6914-6918. -/
def update (cfg : Cfg) (mem : Memory) (r : RState) (p : Option Addr) (len : Nat) : Option (RState × Err) := do
  let q ← viewPtr mem p len
  let (s, e) ← XXH3.bits64_update cfg (load cfg mem r) q len
  return (⟨s, r.ext⟩, e)

/-- Which digest. -/
inductive Width where
  | bits64 | bits128
deriving DecidableEq

/-- `XXH3_64bits_digest`, xxhash.h:6423-6438, and `XXH3_128bits_digest`, 6921-6944. -/
def digest (cfg : Cfg) (mem : Memory) (r : RState) : Width → Option (W64 ⊕ H128)
  | .bits64 => do return .inl (← XXH3.bits64_digest cfg (load cfg mem r))
  | .bits128 => do return .inr (← XXH3.bits128_digest cfg (load cfg mem r))

/-- `XXH3_copyState`, xxhash.h:6159-6163: the pointer is copied, not the secret. -/
def copyState (dst src : RState) : RState := ⟨XXH3.copyState dst.fields src.fields, src.ext⟩

/-- A step of the program: a call of the library, or any change of the program's own memory. -/
inductive Cmd where
  | reset (i : Nat) (a : Reset)
  | update (i : Nat) (p : Option Addr) (len : Nat)
  | digest (i : Nat) (k : Width)
  | copy (dst src : Nat)
  | memory (mem : Memory)

/-- What a step returns. -/
inductive Answer where
  | code (e : Err)
  | hash (o : W64 ⊕ H128)
  | void
deriving DecidableEq

/-- The states with number `i` changed. -/
def put (heap : Nat → RState) (i : Nat) (r : RState) : Nat → RState := fun j => if j = i then r else heap j

/-- Execute a program; `none` if something undefined happens. -/
def run (cfg : Cfg) : Memory → (Nat → RState) → List Cmd → Option (List Answer)
  | _, _, [] => some []
  | mem, heap, .reset i a :: cmds => do
    let (r, e) ← reset cfg mem (heap i) a
    return .code e :: (← run cfg mem (put heap i r) cmds)
  | mem, heap, .update i p len :: cmds => do
    let (r, e) ← update cfg mem (heap i) p len
    return .code e :: (← run cfg mem (put heap i r) cmds)
  | mem, heap, .digest i k :: cmds => do
    let o ← digest cfg mem (heap i) k
    return .hash o :: (← run cfg mem heap cmds)
  | mem, heap, .copy d s :: cmds => do
    return .void :: (← run cfg mem (put heap d (copyState (heap d) (heap s))) cmds)
  | _, heap, .memory mem :: cmds => do
    return .void :: (← run cfg mem heap cmds)

end XXH.Model.Refs
