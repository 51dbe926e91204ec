/-!
What the preprocessor makes of `#include "xxhash.h"`, once or several times in a translation unit, under the macros
`XXH_INLINE_ALL`, `XXH_PRIVATE_API`, `XXH_STATIC_LINKING_ONLY`, `XXH_IMPLEMENTATION` and `XXH_NAMESPACE`
(xxhash.h:326-517, 1623-1628, 2037-2073, 7083), and of `#include "xxh_x86dispatch.h"`: which names are declared and defined,
and what a name of the interface stands for.

Simplifications: all parts of the library are enabled (`XXH_NO_XXH3` and the like are treated apart, at the end); macros not named here are left out (they
are defined in the same way each time); the functions of the implementation that are not part of the interface are one item.
-/
namespace XXH.Model.Include

/-- The functions of the interface, in the order of xxhash.h:462-514. -/
inductive Fn where
  | XXH_versionNumber | XXH32 | XXH32_createState | XXH32_freeState | XXH32_reset | XXH32_update | XXH32_digest
  | XXH32_copyState | XXH32_canonicalFromHash | XXH32_hashFromCanonical | XXH64 | XXH64_createState | XXH64_freeState
  | XXH64_reset | XXH64_update | XXH64_digest | XXH64_copyState | XXH64_canonicalFromHash | XXH64_hashFromCanonical
  | XXH3_64bits | XXH3_64bits_withSecret | XXH3_64bits_withSeed | XXH3_64bits_withSecretandSeed | XXH3_createState
  | XXH3_freeState | XXH3_copyState | XXH3_64bits_reset | XXH3_64bits_reset_withSeed | XXH3_64bits_reset_withSecret
  | XXH3_64bits_reset_withSecretandSeed | XXH3_64bits_update | XXH3_64bits_digest | XXH3_generateSecret
  | XXH3_generateSecret_fromSeed | XXH128 | XXH3_128bits | XXH3_128bits_withSeed | XXH3_128bits_withSecret
  | XXH3_128bits_withSecretandSeed | XXH3_128bits_reset | XXH3_128bits_reset_withSeed | XXH3_128bits_reset_withSecret
  | XXH3_128bits_reset_withSecretandSeed | XXH3_128bits_update | XXH3_128bits_digest | XXH128_isEqual | XXH128_cmp
  | XXH128_canonicalFromHash | XXH128_hashFromCanonical
deriving DecidableEq

/-- The types and enumerators of the interface: xxhash.h:572-575, 587, 653, 754-756, 866, 927, 1028, 1226, 1365-1368, 1588,
1655, 1679, 1753. -/
inductive Ty where
  | XXH_OK | XXH_ERROR | XXH_errorcode | XXH32_hash_t | XXH32_state_t | XXH32_canonical_t | XXH64_hash_t
  | XXH64_state_t | XXH64_canonical_t | XXH3_state_t | XXH128_hash_t | XXH128_canonical_t | XXH32_state_s
  | XXH64_state_s | XXH3_state_s
deriving DecidableEq

/-- The identifier. -/
def Fn.name : Fn → String
  | .XXH_versionNumber => "XXH_versionNumber"
  | .XXH32 => "XXH32"
  | .XXH32_createState => "XXH32_createState"
  | .XXH32_freeState => "XXH32_freeState"
  | .XXH32_reset => "XXH32_reset"
  | .XXH32_update => "XXH32_update"
  | .XXH32_digest => "XXH32_digest"
  | .XXH32_copyState => "XXH32_copyState"
  | .XXH32_canonicalFromHash => "XXH32_canonicalFromHash"
  | .XXH32_hashFromCanonical => "XXH32_hashFromCanonical"
  | .XXH64 => "XXH64"
  | .XXH64_createState => "XXH64_createState"
  | .XXH64_freeState => "XXH64_freeState"
  | .XXH64_reset => "XXH64_reset"
  | .XXH64_update => "XXH64_update"
  | .XXH64_digest => "XXH64_digest"
  | .XXH64_copyState => "XXH64_copyState"
  | .XXH64_canonicalFromHash => "XXH64_canonicalFromHash"
  | .XXH64_hashFromCanonical => "XXH64_hashFromCanonical"
  | .XXH3_64bits => "XXH3_64bits"
  | .XXH3_64bits_withSecret => "XXH3_64bits_withSecret"
  | .XXH3_64bits_withSeed => "XXH3_64bits_withSeed"
  | .XXH3_64bits_withSecretandSeed => "XXH3_64bits_withSecretandSeed"
  | .XXH3_createState => "XXH3_createState"
  | .XXH3_freeState => "XXH3_freeState"
  | .XXH3_copyState => "XXH3_copyState"
  | .XXH3_64bits_reset => "XXH3_64bits_reset"
  | .XXH3_64bits_reset_withSeed => "XXH3_64bits_reset_withSeed"
  | .XXH3_64bits_reset_withSecret => "XXH3_64bits_reset_withSecret"
  | .XXH3_64bits_reset_withSecretandSeed => "XXH3_64bits_reset_withSecretandSeed"
  | .XXH3_64bits_update => "XXH3_64bits_update"
  | .XXH3_64bits_digest => "XXH3_64bits_digest"
  | .XXH3_generateSecret => "XXH3_generateSecret"
  | .XXH3_generateSecret_fromSeed => "XXH3_generateSecret_fromSeed"
  | .XXH128 => "XXH128"
  | .XXH3_128bits => "XXH3_128bits"
  | .XXH3_128bits_withSeed => "XXH3_128bits_withSeed"
  | .XXH3_128bits_withSecret => "XXH3_128bits_withSecret"
  | .XXH3_128bits_withSecretandSeed => "XXH3_128bits_withSecretandSeed"
  | .XXH3_128bits_reset => "XXH3_128bits_reset"
  | .XXH3_128bits_reset_withSeed => "XXH3_128bits_reset_withSeed"
  | .XXH3_128bits_reset_withSecret => "XXH3_128bits_reset_withSecret"
  | .XXH3_128bits_reset_withSecretandSeed => "XXH3_128bits_reset_withSecretandSeed"
  | .XXH3_128bits_update => "XXH3_128bits_update"
  | .XXH3_128bits_digest => "XXH3_128bits_digest"
  | .XXH128_isEqual => "XXH128_isEqual"
  | .XXH128_cmp => "XXH128_cmp"
  | .XXH128_canonicalFromHash => "XXH128_canonicalFromHash"
  | .XXH128_hashFromCanonical => "XXH128_hashFromCanonical"

/-- The identifier. -/
def Ty.name : Ty → String
  | .XXH_OK => "XXH_OK"
  | .XXH_ERROR => "XXH_ERROR"
  | .XXH_errorcode => "XXH_errorcode"
  | .XXH32_hash_t => "XXH32_hash_t"
  | .XXH32_state_t => "XXH32_state_t"
  | .XXH32_canonical_t => "XXH32_canonical_t"
  | .XXH64_hash_t => "XXH64_hash_t"
  | .XXH64_state_t => "XXH64_state_t"
  | .XXH64_canonical_t => "XXH64_canonical_t"
  | .XXH3_state_t => "XXH3_state_t"
  | .XXH128_hash_t => "XXH128_hash_t"
  | .XXH128_canonical_t => "XXH128_canonical_t"
  | .XXH32_state_s => "XXH32_state_s"
  | .XXH64_state_s => "XXH64_state_s"
  | .XXH3_state_s => "XXH3_state_s"

/-- Names defined with `XXH_NAME2`, xxhash.h:462-514. -/
def nsFns : List Fn :=
  [.XXH_versionNumber, .XXH32, .XXH32_createState, .XXH32_freeState, .XXH32_reset, .XXH32_update, .XXH32_digest,
    .XXH32_copyState, .XXH32_canonicalFromHash, .XXH32_hashFromCanonical, .XXH64, .XXH64_createState,
    .XXH64_freeState, .XXH64_reset, .XXH64_update, .XXH64_digest, .XXH64_copyState, .XXH64_canonicalFromHash,
    .XXH64_hashFromCanonical, .XXH3_64bits, .XXH3_64bits_withSecret, .XXH3_64bits_withSeed,
    .XXH3_64bits_withSecretandSeed, .XXH3_createState, .XXH3_freeState, .XXH3_copyState, .XXH3_64bits_reset,
    .XXH3_64bits_reset_withSeed, .XXH3_64bits_reset_withSecret, .XXH3_64bits_reset_withSecretandSeed,
    .XXH3_64bits_update, .XXH3_64bits_digest, .XXH3_generateSecret, .XXH3_generateSecret_fromSeed, .XXH128,
    .XXH3_128bits, .XXH3_128bits_withSeed, .XXH3_128bits_withSecret, .XXH3_128bits_withSecretandSeed,
    .XXH3_128bits_reset, .XXH3_128bits_reset_withSeed, .XXH3_128bits_reset_withSecret,
    .XXH3_128bits_reset_withSecretandSeed, .XXH3_128bits_update, .XXH3_128bits_digest, .XXH128_isEqual, .XXH128_cmp,
    .XXH128_canonicalFromHash, .XXH128_hashFromCanonical]

/-- Names with an `#undef`, xxhash.h:359-408. -/
def undefFns : List Fn :=
  [.XXH_versionNumber, .XXH32, .XXH32_createState, .XXH32_freeState, .XXH32_reset, .XXH32_update, .XXH32_digest,
    .XXH32_copyState, .XXH32_canonicalFromHash, .XXH32_hashFromCanonical, .XXH64, .XXH64_createState,
    .XXH64_freeState, .XXH64_reset, .XXH64_update, .XXH64_digest, .XXH64_copyState, .XXH64_canonicalFromHash,
    .XXH64_hashFromCanonical, .XXH3_64bits, .XXH3_64bits_withSecret, .XXH3_64bits_withSeed,
    .XXH3_64bits_withSecretandSeed, .XXH3_createState, .XXH3_freeState, .XXH3_copyState, .XXH3_64bits_reset,
    .XXH3_64bits_reset_withSeed, .XXH3_64bits_reset_withSecret, .XXH3_64bits_update, .XXH3_64bits_digest,
    .XXH3_generateSecret, .XXH128, .XXH3_128bits, .XXH3_128bits_withSeed, .XXH3_128bits_withSecret,
    .XXH3_128bits_reset, .XXH3_128bits_reset_withSeed, .XXH3_128bits_reset_withSecret,
    .XXH3_128bits_reset_withSecretandSeed, .XXH3_128bits_update, .XXH3_128bits_digest, .XXH128_isEqual, .XXH128_cmp,
    .XXH128_canonicalFromHash, .XXH128_hashFromCanonical]

/-- Functions declared in the stable part, xxhash.h:562-1614. -/
def mainFns : List Fn :=
  [.XXH_versionNumber, .XXH32, .XXH32_createState, .XXH32_freeState, .XXH32_copyState, .XXH32_reset, .XXH32_update,
    .XXH32_digest, .XXH32_canonicalFromHash, .XXH32_hashFromCanonical, .XXH64, .XXH64_createState, .XXH64_freeState,
    .XXH64_copyState, .XXH64_reset, .XXH64_update, .XXH64_digest, .XXH64_canonicalFromHash, .XXH64_hashFromCanonical,
    .XXH3_64bits, .XXH3_64bits_withSeed, .XXH3_64bits_withSecret, .XXH3_createState, .XXH3_freeState,
    .XXH3_copyState, .XXH3_64bits_reset, .XXH3_64bits_reset_withSeed, .XXH3_64bits_reset_withSecret,
    .XXH3_64bits_update, .XXH3_64bits_digest, .XXH3_128bits, .XXH3_128bits_withSeed, .XXH3_128bits_withSecret,
    .XXH3_128bits_reset, .XXH3_128bits_reset_withSeed, .XXH3_128bits_reset_withSecret, .XXH3_128bits_update,
    .XXH3_128bits_digest, .XXH128_isEqual, .XXH128_cmp, .XXH128_canonicalFromHash, .XXH128_hashFromCanonical]

/-- Functions declared in the advanced part, xxhash.h:1819-2028. -/
def staticFns : List Fn :=
  [.XXH128, .XXH3_generateSecret, .XXH3_generateSecret_fromSeed, .XXH3_64bits_withSecretandSeed,
    .XXH3_128bits_withSecretandSeed, .XXH3_64bits_reset_withSecretandSeed, .XXH3_128bits_reset_withSecretandSeed]

/-- Functions defined by the implementation, xxhash.h:2846-7058. -/
def implFns : List Fn :=
  [.XXH_versionNumber, .XXH32, .XXH32_createState, .XXH32_freeState, .XXH32_copyState, .XXH32_reset, .XXH32_update,
    .XXH32_digest, .XXH32_canonicalFromHash, .XXH32_hashFromCanonical, .XXH64, .XXH64_createState, .XXH64_freeState,
    .XXH64_copyState, .XXH64_reset, .XXH64_update, .XXH64_digest, .XXH64_canonicalFromHash, .XXH64_hashFromCanonical,
    .XXH3_64bits, .XXH3_64bits_withSecret, .XXH3_64bits_withSeed, .XXH3_64bits_withSecretandSeed, .XXH3_createState,
    .XXH3_freeState, .XXH3_copyState, .XXH3_64bits_reset, .XXH3_64bits_reset_withSecret, .XXH3_64bits_reset_withSeed,
    .XXH3_64bits_reset_withSecretandSeed, .XXH3_64bits_update, .XXH3_64bits_digest, .XXH3_128bits,
    .XXH3_128bits_withSecret, .XXH3_128bits_withSeed, .XXH3_128bits_withSecretandSeed, .XXH128, .XXH3_128bits_reset,
    .XXH3_128bits_reset_withSecret, .XXH3_128bits_reset_withSeed, .XXH3_128bits_reset_withSecretandSeed,
    .XXH3_128bits_update, .XXH3_128bits_digest, .XXH128_isEqual, .XXH128_cmp, .XXH128_canonicalFromHash,
    .XXH128_hashFromCanonical, .XXH3_generateSecret, .XXH3_generateSecret_fromSeed]

/-- Types of the stable part, xxhash.h:572-1588. -/
def mainTys : List Ty :=
  [.XXH_OK, .XXH_ERROR, .XXH_errorcode, .XXH32_hash_t, .XXH32_state_t, .XXH32_canonical_t, .XXH64_hash_t,
    .XXH64_state_t, .XXH64_canonical_t, .XXH3_state_t, .XXH128_hash_t, .XXH128_canonical_t]

/-- Types completed in the advanced part, xxhash.h:1655, 1679, 1753. -/
def staticTys : List Ty := [.XXH32_state_s, .XXH64_state_s, .XXH3_state_s]

/-- Names defined with `XXH_IPREF`, xxhash.h:422-434. -/
def iprefTys : List Ty :=
  [.XXH_OK, .XXH_ERROR, .XXH_errorcode, .XXH32_canonical_t, .XXH64_canonical_t, .XXH128_canonical_t, .XXH32_state_s,
    .XXH32_state_t, .XXH64_state_s, .XXH64_state_t, .XXH3_state_s, .XXH3_state_t, .XXH128_hash_t]

/-- Functions declared by xxh_x86dispatch.h:44-52, without their suffix `_dispatch`. -/
def dispatchFns : List Fn :=
  [.XXH3_64bits, .XXH3_64bits_withSeed, .XXH3_64bits_withSecret, .XXH3_64bits_update, .XXH3_128bits,
    .XXH3_128bits_withSeed, .XXH3_128bits_withSecret, .XXH3_128bits_update]

/-- The replacements of xxh_x86dispatch.h:63-82: the name, and what it stands for, without `_dispatch`. -/
def replacements : List (Fn × Fn) :=
  [(.XXH3_64bits, .XXH3_64bits), (.XXH3_64bits_withSeed, .XXH3_64bits_withSeed),
    (.XXH3_64bits_withSecret, .XXH3_64bits_withSecret), (.XXH3_64bits_update, .XXH3_64bits_update),
    (.XXH128, .XXH3_128bits_withSeed), (.XXH3_128bits, .XXH3_128bits),
    (.XXH3_128bits_withSeed, .XXH3_128bits_withSeed), (.XXH3_128bits_withSecret, .XXH3_128bits_withSecret),
    (.XXH3_128bits_update, .XXH3_128bits_update)]

/-- The macros that matter. -/
inductive Macro where
  | inlineAll | privateApi | staticLinkingOnly | implementation | namespace_ | disableReplace
  /-- `XXH_INLINE_ALL_31684351384` -/
  | guardInline
  /-- `XXHASH_H_5627135585666179` -/
  | guardMain
  /-- `XXHASH_H_STATIC_13879238742` -/
  | guardStatic
  /-- `XXH_IMPLEM_13a8737387` -/
  | guardImpl
  /-- `XXH_X86DISPATCH_H_13563687684` -/
  | guardDispatch
  | publicApi
  | fn (f : Fn)
  | ty (t : Ty)
deriving DecidableEq

/-- Replacement lists. -/
inductive Body where
  | empty
  /-- `1`, also what `-D` on the command line gives -/
  | one
  /-- an identifier, or nothing -/
  | ident (s : String)
  /-- `static` and similar, xxhash.h:334-344 -/
  | private_
  /-- `XXH_NAME2(XXH_NAMESPACE, f)` -/
  | name2 (f : Fn)
  /-- `XXH_IPREF(t)` -/
  | ipref (t : Ty)
  /-- `f` with the suffix `_dispatch` -/
  | dispatch (f : Fn)
deriving DecidableEq

/-- What the compiler proper sees. `priv` is `static`. -/
inductive Event where
  | declare (sym : String) (priv : Bool)
  | define (sym : String) (priv : Bool)
  /-- a type or an enumerator; `XXH32_hash_t` and `XXH64_hash_t` are names for other types, which may be repeated in C11 -/
  | type (sym : String)
  /-- the functions, types and tables of the implementation that are not in the interface -/
  | internals
deriving DecidableEq

/-- The state of the preprocessor, and its output so far. -/
structure Pre where
  env : Macro → Option Body
  out : List Event

/-- The beginning of a translation unit. -/
def start : Pre := ⟨fun _ => none, []⟩

/-- `#define`: a macro may be defined again only with the same replacement list (C11 6.10.3). -/
def define (m : Macro) (b : Body) (s : Pre) : Option Pre :=
  match s.env m with
  | none => some { s with env := fun x => if x = m then some b else s.env x }
  | some b' => if b' = b then some s else none

/-- `#undef` -/
def undef (m : Macro) (s : Pre) : Pre := { s with env := fun x => if x = m then none else s.env x }

/-- Declarations. -/
def emit (es : List Event) (s : Pre) : Pre := { s with out := s.out ++ es }

/-- Is it defined? -/
def Pre.defd (s : Pre) (m : Macro) : Bool := (s.env m).isSome

/-- The value of `XXH_NAMESPACE` when it is pasted to a name: nothing is replaced if it is not a macro. -/
def Pre.prefix (s : Pre) : String :=
  match s.env .namespace_ with
  | some (.ident p) => p
  | some .empty => ""
  | some .one => "1"
  | _ => "XXH_NAMESPACE"

/-- What a function name of the interface stands for. A name is not replaced again in its own replacement. -/
def Pre.resolve (s : Pre) (f : Fn) : String :=
  match s.env (.fn f) with
  | some (.name2 g) => s.prefix ++ g.name
  | some (.dispatch g) => g.name ++ "_dispatch"
  | _ => f.name

/-- What a type name stands for. The argument of `XXH_IPREF` and `XXH_NAMESPACE` are operands of `##`, so they are not replaced
(xxhash.h:421). -/
def Pre.resolveTy (s : Pre) (t : Ty) : String :=
  match s.env (.ty t) with
  | some (.ipref u) => "XXH_NAMESPACE" ++ u.name
  | _ => t.name

/-- `XXH_PUBLIC_API` is `static`. -/
def Pre.priv (s : Pre) : Bool := s.env .publicApi == some .private_

/-- `#if c`, `f`, `#endif` -/
def guarded (c : Bool) (f : Pre → Option Pre) (s : Pre) : Option Pre := if c then f s else some s

/-- The section for `XXH_INLINE_ALL`, xxhash.h:329-437. -/
def inlineSection (s : Pre) : Option Pre := do
  let s ← define .guardInline .empty s
  let s := undef .staticLinkingOnly s
  let s ← define .staticLinkingOnly .empty s
  let s := undef .publicApi s
  let s ← define .publicApi .private_ s
  let s := undefFns.foldl (fun s f => undef (.fn f) s) s
  let s := undef .namespace_ s
  let s ← define .namespace_ (.ident "XXH_INLINE_") s
  let s ← iprefTys.foldlM (fun s t => define (.ty t) (.ipref t) s) s
  let s := undef .guardMain s
  return undef .guardStatic s

/-- The stable part, xxhash.h:444-1622. -/
def mainSection (s : Pre) : Option Pre := do
  let s ← define .guardMain .one s
  let s ← guarded (!(s.defd .inlineAll || s.defd .privateApi)) (define .publicApi .empty) s
  let s ← guarded (s.defd .namespace_) (nsFns.foldlM fun s f => define (.fn f) (.name2 f) s) s
  return emit ((mainTys.map fun t => .type (s.resolveTy t)) ++ mainFns.map fun f => .declare (s.resolve f) s.priv) s

/-- The advanced part, xxhash.h:1628-2040. -/
def staticSection (s : Pre) : Option Pre := do
  let s ← define .guardStatic .empty s
  let s := emit ((staticTys.map fun t => .type (s.resolveTy t)) ++ staticFns.map fun f => .declare (s.resolve f) s.priv) s
  guarded (s.defd .inlineAll || s.defd .privateApi) (define .implementation .empty) s

/-- The implementation, xxhash.h:2073-7082. -/
def implSection (s : Pre) : Option Pre := do
  let s ← define .guardImpl .empty s
  return emit (.internals :: implFns.map fun f => .define (s.resolve f) s.priv) s

/-- `#include "xxhash.h"`, xxhash.h:326-327, 443, 1627, 2071-2072. -/
def xxhash_h (s : Pre) : Option Pre := do
  let s ← guarded ((s.defd .inlineAll || s.defd .privateApi) && !s.defd .guardInline) inlineSection s
  let s ← guarded (!s.defd .guardMain) mainSection s
  let s ← guarded (s.defd .staticLinkingOnly && !s.defd .guardStatic) staticSection s
  guarded ((s.defd .inlineAll || s.defd .privateApi || s.defd .implementation) && !s.defd .guardImpl) implSection s

/-- `#include "xxh_x86dispatch.h"`, xxh_x86dispatch.h:35-86. -/
def dispatch_h (s : Pre) : Option Pre :=
  if s.defd .guardDispatch then some s else do
    let s ← define .guardDispatch .empty s
    let s ← xxhash_h s
    let s := emit (dispatchFns.map fun f => .declare (f.name ++ "_dispatch") s.priv) s
    guarded (!s.defd .disableReplace) (replacements.foldlM fun s r => define (.fn r.1) (.dispatch r.2) (undef (.fn r.1) s)) s

/-- The macros the user sets. -/
inductive Opt where
  | inlineAll | privateApi | staticLinkingOnly | implementation | disableReplace
deriving DecidableEq

/-- The macro. -/
def Opt.macro : Opt → Macro
  | inlineAll => .inlineAll
  | privateApi => .privateApi
  | staticLinkingOnly => .staticLinkingOnly
  | implementation => .implementation
  | disableReplace => .disableReplace

/-- What a unit does. -/
inductive Step where
  /-- `#undef` and `#define`, with the value `1` or without -/
  | set (o : Opt) (one : Bool)
  /-- `#undef` -/
  | unset (o : Opt)
  /-- `#undef XXH_NAMESPACE` and `#define XXH_NAMESPACE p` -/
  | setNamespace (p : String)
  | unsetNamespace
  | xxhash
  | dispatch

/-- One step; `none` is a redefinition the standard does not allow. -/
def step (s : Pre) : Step → Option Pre
  | .set o one => define o.macro (if one then .one else .empty) (undef o.macro s)
  | .unset o => some (undef o.macro s)
  | .setNamespace p => define .namespace_ (.ident p) (undef .namespace_ s)
  | .unsetNamespace => some (undef .namespace_ s)
  | .xxhash => xxhash_h s
  | .dispatch => dispatch_h s

/-- A translation unit. -/
def run (steps : List Step) : Option Pre := steps.foldlM step start

/-- xxhash.c:39-42, with what is defined before (`pre`). -/
def xxhash_c (pre : List Step) : List Step :=
  pre ++ [.set .staticLinkingOnly false, .set .implementation false, .xxhash]

/-- xxh_x86dispatch.c:229-231 and 741-837: the library is inlined, and the eight functions are defined without `XXH_PUBLIC_API`;
`pre` is what was defined before. -/
def xxh_x86dispatch_c (pre : List Step) : Option Pre :=
  (run (pre ++ [.set .inlineAll false, .xxhash])).map (emit (dispatchFns.map fun f => .define (f.name ++ "_dispatch") false))

/-! ### Parts left out -/

/-- `XXH_NO_STREAM`, `XXH_NO_LONG_LONG`, `XXH_NO_XXH3`. -/
structure Cut where
  noStream : Bool
  noLongLong : Bool
  noXXH3 : Bool
deriving DecidableEq

/-- The line of xxhash.h where the function is declared. -/
def declLine : Fn → Nat
  | .XXH_versionNumber => 562
  | .XXH32 => 643
  | .XXH32_createState => 665
  | .XXH32_freeState => 678
  | .XXH32_reset => 705
  | .XXH32_update => 728
  | .XXH32_digest => 746
  | .XXH32_copyState => 687
  | .XXH32_canonicalFromHash => 769
  | .XXH32_hashFromCanonical => 783
  | .XXH64 => 917
  | .XXH64_createState => 939
  | .XXH64_freeState => 952
  | .XXH64_reset => 980
  | .XXH64_update => 1003
  | .XXH64_digest => 1021
  | .XXH64_copyState => 962
  | .XXH64_canonicalFromHash => 1041
  | .XXH64_hashFromCanonical => 1055
  | .XXH3_64bits => 1139
  | .XXH3_64bits_withSecret => 1208
  | .XXH3_64bits_withSeed => 1165
  | .XXH3_64bits_withSecretandSeed => 1965
  | .XXH3_createState => 1227
  | .XXH3_freeState => 1228
  | .XXH3_copyState => 1238
  | .XXH3_64bits_reset => 1259
  | .XXH3_64bits_reset_withSeed => 1281
  | .XXH3_64bits_reset_withSecret => 1307
  | .XXH3_64bits_reset_withSecretandSeed => 2003
  | .XXH3_64bits_update => 1330
  | .XXH3_64bits_digest => 1348
  | .XXH3_generateSecret => 1883
  | .XXH3_generateSecret_fromSeed => 1923
  | .XXH128 => 1819
  | .XXH3_128bits => 1388
  | .XXH3_128bits_withSeed => 1408
  | .XXH3_128bits_withSecret => 1436
  | .XXH3_128bits_withSecretandSeed => 1984
  | .XXH3_128bits_reset => 1470
  | .XXH3_128bits_reset_withSeed => 1491
  | .XXH3_128bits_reset_withSecret => 1514
  | .XXH3_128bits_reset_withSecretandSeed => 2029
  | .XXH3_128bits_update => 1537
  | .XXH3_128bits_digest => 1554
  | .XXH128_isEqual => 1570
  | .XXH128_cmp => 1584
  | .XXH128_canonicalFromHash => 1601
  | .XXH128_hashFromCanonical => 1614

/-- The line of xxhash.h where its definition begins (the line with the name). -/
def implLine : Fn → Nat
  | .XXH_versionNumber => 2846
  | .XXH32 => 3093
  | .XXH32_createState => 3116
  | .XXH32_freeState => 3121
  | .XXH32_reset => 3134
  | .XXH32_update => 3148
  | .XXH32_digest => 3202
  | .XXH32_copyState => 3128
  | .XXH32_canonicalFromHash => 3224
  | .XXH32_hashFromCanonical => 3231
  | .XXH64 => 3540
  | .XXH64_createState => 3562
  | .XXH64_freeState => 3567
  | .XXH64_reset => 3580
  | .XXH64_update => 3593
  | .XXH64_digest => 3644
  | .XXH64_copyState => 3574
  | .XXH64_canonicalFromHash => 3667
  | .XXH64_hashFromCanonical => 3675
  | .XXH3_64bits => 6026
  | .XXH3_64bits_withSecret => 6033
  | .XXH3_64bits_withSeed => 6040
  | .XXH3_64bits_withSecretandSeed => 6046
  | .XXH3_createState => 6132
  | .XXH3_freeState => 6152
  | .XXH3_copyState => 6160
  | .XXH3_64bits_reset => 6194
  | .XXH3_64bits_reset_withSeed => 6214
  | .XXH3_64bits_reset_withSecret => 6203
  | .XXH3_64bits_reset_withSecretandSeed => 6226
  | .XXH3_64bits_update => 6378
  | .XXH3_64bits_digest => 6423
  | .XXH3_generateSecret => 7014
  | .XXH3_generateSecret_fromSeed => 7059
  | .XXH128 => 6872
  | .XXH3_128bits => 6836
  | .XXH3_128bits_withSeed => 6854
  | .XXH3_128bits_withSecret => 6845
  | .XXH3_128bits_withSecretandSeed => 6863
  | .XXH3_128bits_reset => 6887
  | .XXH3_128bits_reset_withSeed => 6901
  | .XXH3_128bits_reset_withSecret => 6894
  | .XXH3_128bits_reset_withSecretandSeed => 6908
  | .XXH3_128bits_update => 6915
  | .XXH3_128bits_digest => 6921
  | .XXH128_isEqual => 6952
  | .XXH128_cmp => 6963
  | .XXH128_canonicalFromHash => 6977
  | .XXH128_hashFromCanonical => 6990

/-- The ranges of lines of xxhash.h between `#ifndef XXH_NO_STREAM` and its `#endif`. -/
def streamLines : List (Nat × Nat) :=
  [(645, 747), (920, 1022), (1212, 1349), (1439, 1555), (1988, 2033), (3114, 3219), (3560, 3662), (6055, 6439), (6879, 6945)]

/-- The ranges of lines of xxhash.h between `#ifndef XXH_NO_LONG_LONG` and its `#endif`. -/
def longLongLines : List (Nat × Nat) :=
  [(856, 1618), (1665, 2036), (3237, 7078)]

/-- The ranges of lines of xxhash.h between `#ifndef XXH_NO_XXH3` and its `#endif`. -/
def xxh3Lines : List (Nat × Nat) :=
  [(1057, 1617), (1688, 2035), (3680, 7076)]

/-- Does the line remain? -/
def Cut.keeps (c : Cut) (line : Nat) : Bool :=
  let within := fun (rs : List (Nat × Nat)) => rs.any fun r => r.1 < line && line < r.2
  !(c.noStream && within streamLines) && !(c.noLongLong && within longLongLines) && !(c.noXXH3 && within xxh3Lines)

end XXH.Model.Include
