import Verif.Model.Dispatch
/-!
The x86 dispatcher (/repo/xxh_x86dispatch.c) called from many threads.

With `XXH_DISPATCH_MAYBE_NULL` (no constructor functions) several threads may find the tables empty, run
`XXH_setDispatch` at the same time and read the tables while others write them. In terms of C11 this is a data race. The
model is the machine: x86 memory with store buffers (x86-TSO), in which loads and stores of aligned pointers are
indivisible. The compiler may write the fields of the tables in any order and more than once.

Each processor may answer CPUID differently (`cpus`).
-/
namespace XXH.Model.Dispatch
open XXH3

/-- The fields of `XXH_g_dispatch` and `XXH_g_dispatch128`, xxh_x86dispatch.c:617-622, 665-670. -/
inductive Slot
  | default64 | seed64 | secret64 | update64 | default128 | seed128 | secret128 | update128
deriving DecidableEq

/-- All eight fields. -/
def Slot.all : List Slot :=
  [.default64, .seed64, .secret64, .update64, .default128, .seed128, .secret128, .update128]

/-- The value of a field: `none` is `NULL`, `some v` the function of this name compiled for `v`. -/
abbrev FPtr := Option Vec

/-- Any field of `XXH_kDispatch[v]`, `XXH_kDispatch128[v]`, xxh_x86dispatch.c:633-650, 680-697. -/
def entry (b : Build) (v : Vec) : FPtr := if b.has v then some v else none

/-- A call of one of the eight dispatched functions. -/
inductive Call
  | bits64 (input : Ptr) (len : Nat)
  | bits64_seed (input : Ptr) (len : Nat) (seed : W64)
  | bits64_secret (input : Ptr) (len : Nat) (secret : Ptr) (secretLen : Nat)
  | update64 (s : State) (input : Ptr) (len : Nat)
  | bits128 (input : Ptr) (len : Nat)
  | bits128_seed (input : Ptr) (len : Nat) (seed : W64)
  | bits128_secret (input : Ptr) (len : Nat) (secret : Ptr) (secretLen : Nat)
  | update128 (s : State) (input : Ptr) (len : Nat)

/-- The field the call uses. -/
def Call.slot : Call → Slot
  | .bits64 .. => .default64
  | .bits64_seed .. => .seed64
  | .bits64_secret .. => .secret64
  | .update64 .. => .update64
  | .bits128 .. => .default128
  | .bits128_seed .. => .seed128
  | .bits128_secret .. => .secret128
  | .update128 .. => .update128

/-- The call comes to the selection function: `XXH3_64bits_internal` and `XXH3_128bits_internal` call their last argument
for inputs longer than `XXH3_MIDSIZE_MAX` only (xxhash.h:6014-6019, 6824-6829). -/
def Call.usesTable : Call → Bool
  | .bits64 _ len | .bits64_seed _ len _ | .bits64_secret _ len _ _ => MIDSIZE_MAX < len
  | .bits128 _ len | .bits128_seed _ len _ | .bits128_secret _ len _ _ => MIDSIZE_MAX < len
  | .update64 .. | .update128 .. => true

/-- What a call returns. -/
inductive Result
  | h64 (h : W64)
  | h128 (h : H128)
  | state (s : State) (e : Err)

/-- The call after the test for `NULL`, with the value of its field; xxh_x86dispatch.c:738-842. -/
def Call.run (cfg : Cfg) (f : FPtr) : Call → Option Result
  | .bits64 p len => do
    return .h64 (← bits64_internal cfg p len 0 (some (kSecret cfg)) SECRET_DEFAULT_SIZE
      (some fun input len _ _ _ => do XXHL64_default cfg (← f) input len))
  | .bits64_seed p len seed => do
    return .h64 (← bits64_internal cfg p len seed (some (kSecret cfg)) SECRET_DEFAULT_SIZE
      (some fun input len seed64 _ _ => do XXHL64_seed cfg (← f) input len seed64))
  | .bits64_secret p len secret secretLen => do
    return .h64 (← bits64_internal cfg p len 0 secret secretLen
      (some fun input len _ secret secretLen => do XXHL64_secret cfg (← f) input len secret secretLen))
  | .update64 s p len => do
    let (s, e) ← update_vec cfg (← f) s p len
    return .state s e
  | .bits128 p len => do
    return .h128 (← bits128_internal cfg p len 0 (some (kSecret cfg)) SECRET_DEFAULT_SIZE
      (some fun input len _ _ _ => do XXHL128_default cfg (← f) input len))
  | .bits128_seed p len seed => do
    return .h128 (← bits128_internal cfg p len seed (some (kSecret cfg)) SECRET_DEFAULT_SIZE
      (some fun input len seed64 _ _ => do XXHL128_seed cfg (← f) input len seed64))
  | .bits128_secret p len secret secretLen => do
    return .h128 (← bits128_internal cfg p len 0 secret secretLen
      (some fun input len _ secret secretLen => do XXHL128_secret cfg (← f) input len secret secretLen))
  | .update128 s p len => do
    let (s, e) ← update_vec cfg (← f) s p len
    return .state s e

/-- Where a thread is. -/
inductive PC
  | idle
  /-- about to load the field for the test `== NULL` -/
  | test (c : Call)
  /-- in `XXH_setDispatch` (709-725) after `XXH_featureTest`: fields still to be stored, and the selected row -/
  | set (c : Call) (todo : List Slot) (v : Vec)
  /-- about to load the field for the call -/
  | call (c : Call)
  /-- undefined behaviour, for instance a call of `NULL` -/
  | crashed

/-- A thread: where it is, and the stores it has made that are not in memory yet, oldest first. -/
structure Thread where
  pc : PC
  buffer : List (Slot × FPtr)

/-- A finished call. -/
structure Done where
  thread : Nat
  call : Call
  result : Result

/-- The machine: memory (the eight fields), threads, and the calls that have returned. -/
structure Machine where
  mem : Slot → FPtr
  threads : Nat → Thread
  done : List Done

/-- What a thread loads: its own newest store to the field if there is one in its buffer, or the memory. -/
def Machine.load (m : Machine) (i : Nat) (k : Slot) : FPtr :=
  match (m.threads i).buffer.reverse.find? (fun e => e.1 = k) with
  | some e => e.2
  | none => m.mem k

/-- Thread `i` continues as `t`. -/
def Machine.goto (m : Machine) (i : Nat) (t : Thread) : Machine :=
  { m with threads := fun j => if j = i then t else m.threads j }

/-- One step of the machine. `ok` tells which calls threads may make. -/
inductive Step (b : Build) (cfg : Cfg) (cpus : Nat → Cpu) (ok : Call → Prop) : Machine → Machine → Prop
  /-- a short input: the tables are not used -/
  | direct {m : Machine} {i : Nat} {c : Call} {r : Result} : (m.threads i).pc = .idle → ok c → c.usesTable = false →
      c.run cfg none = some r → Step b cfg cpus ok m { m with done := ⟨i, c, r⟩ :: m.done }
  /-- … and that goes wrong -/
  | directCrash {m : Machine} {i : Nat} {c : Call} : (m.threads i).pc = .idle → ok c → c.usesTable = false →
      c.run cfg none = none → Step b cfg cpus ok m (m.goto i ⟨.crashed, (m.threads i).buffer⟩)
  /-- `if (XXH_DISPATCH_MAYBE_NULL && …)` -/
  | start {m : Machine} {i : Nat} {c : Call} : (m.threads i).pc = .idle → ok c → c.usesTable = true →
      Step b cfg cpus ok m (m.goto i ⟨if b.maybeNull then .test c else .call c, (m.threads i).buffer⟩)
  /-- the field is not `NULL` -/
  | found {m : Machine} {i : Nat} {c : Call} : (m.threads i).pc = .test c → (m.load i c.slot).isSome = true →
      Step b cfg cpus ok m (m.goto i ⟨.call c, (m.threads i).buffer⟩)
  /-- it is: `XXH_setDispatch`, which stores to every field at least once, in any order -/
  | empty {m : Machine} {i : Nat} {c : Call} {todo : List Slot} {v : Vec} : (m.threads i).pc = .test c →
      (m.load i c.slot).isSome = false → (∀ k, k ∈ todo) → featureTest b (cpus i) = some v →
      Step b cfg cpus ok m (m.goto i ⟨.set c todo v, (m.threads i).buffer⟩)
  /-- … and the feature test goes wrong -/
  | emptyCrash {m : Machine} {i : Nat} {c : Call} : (m.threads i).pc = .test c →
      (m.load i c.slot).isSome = false → featureTest b (cpus i) = none →
      Step b cfg cpus ok m (m.goto i ⟨.crashed, (m.threads i).buffer⟩)
  /-- one store of `XXH_setDispatch` -/
  | store {m : Machine} {i : Nat} {c : Call} {k : Slot} {todo : List Slot} {v : Vec} :
      (m.threads i).pc = .set c (k :: todo) v →
      Step b cfg cpus ok m (m.goto i ⟨.set c todo v, (m.threads i).buffer ++ [(k, entry b v)]⟩)
  /-- `XXH_setDispatch` returns -/
  | stored {m : Machine} {i : Nat} {c : Call} {v : Vec} : (m.threads i).pc = .set c [] v →
      Step b cfg cpus ok m (m.goto i ⟨.call c, (m.threads i).buffer⟩)
  /-- the call through the field -/
  | call {m : Machine} {i : Nat} {c : Call} {r : Result} : (m.threads i).pc = .call c →
      c.run cfg (m.load i c.slot) = some r →
      Step b cfg cpus ok m { m.goto i ⟨.idle, (m.threads i).buffer⟩ with done := ⟨i, c, r⟩ :: m.done }
  /-- … and that goes wrong -/
  | callCrash {m : Machine} {i : Nat} {c : Call} : (m.threads i).pc = .call c →
      c.run cfg (m.load i c.slot) = none →
      Step b cfg cpus ok m (m.goto i ⟨.crashed, (m.threads i).buffer⟩)
  /-- the oldest store in a buffer reaches memory -/
  | flush {m : Machine} {i : Nat} {k : Slot} {f : FPtr} {rest : List (Slot × FPtr)} :
      (m.threads i).buffer = (k, f) :: rest →
      Step b cfg cpus ok m
        { m.goto i ⟨(m.threads i).pc, rest⟩ with mem := fun k' => if k' = k then f else m.mem k' }

/-- The machine when threads can first be created: the constructor function, if there is one, has run (on processor 0),
xxh_x86dispatch.c:655, 703, 709. -/
inductive Start (b : Build) (cpus : Nat → Cpu) : Machine → Prop
  | lazy : b.maybeNull = true → Start b cpus ⟨fun _ => none, fun _ => ⟨.idle, []⟩, []⟩
  | constructed {v : Vec} : b.maybeNull = false → featureTest b (cpus 0) = some v →
      Start b cpus ⟨fun _ => entry b v, fun _ => ⟨.idle, []⟩, []⟩

/-- The states the machine can come to. -/
inductive Run (b : Build) (cfg : Cfg) (cpus : Nat → Cpu) (ok : Call → Prop) : Machine → Prop
  | start {m : Machine} : Start b cpus m → Run b cfg cpus ok m
  | step {m m' : Machine} : Run b cfg cpus ok m → Step b cfg cpus ok m m' → Run b cfg cpus ok m'

end XXH.Model.Dispatch
