import Verif.Model.Mem
/-!
Vocabulary of the property statements.
-/
namespace XXH
open Model

/-- The caller passes `len` together with an object of exactly `len` bytes (nothing outside it may
be touched), or `NULL` together with 0. -/
structure Readable (cfg : Cfg) (p : Ptr) (len : Nat) : Prop where
  length : p.buf.bytes.length = len
  fits : p.buf.Fits cfg

/-- The bytes a call sees through a pointer. -/
abbrev contents (p : Ptr) : List Byte := p.buf.bytes

end XXH
