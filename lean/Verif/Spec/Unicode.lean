import Verif.Types
/-!
UTF-8 and UTF-16, from the Unicode Standard (section 3.9: D76, D91 and Table 3-5, D92 and Table 3-6).
-/
namespace XXH.Spec.Unicode

/-- A UTF-16 code unit. -/
abbrev U16 := BitVec 16

/-- A Unicode scalar value (D76): a code point other than a surrogate. -/
def Scalar (c : Nat) : Prop := c < 0xD800 ∨ 0xE000 ≤ c ∧ c < 0x110000

instance (c : Nat) : Decidable (Scalar c) := by unfold Scalar; infer_instance

/-- The UTF-8 form of a scalar value (Table 3-6). -/
def utf8 (c : Nat) : List Byte :=
  (if c < 0x80 then [c]
   else if c < 0x800 then [0xC0 + c / 2 ^ 6, 0x80 + c % 2 ^ 6]
   else if c < 0x10000 then [0xE0 + c / 2 ^ 12, 0x80 + c / 2 ^ 6 % 2 ^ 6, 0x80 + c % 2 ^ 6]
   else [0xF0 + c / 2 ^ 18, 0x80 + c / 2 ^ 12 % 2 ^ 6, 0x80 + c / 2 ^ 6 % 2 ^ 6, 0x80 + c % 2 ^ 6]).map (BitVec.ofNat 8)

/-- The UTF-16 form of a scalar value (Table 3-5). -/
def utf16 (c : Nat) : List U16 :=
  (if c < 0x10000 then [c] else [0xD800 + (c - 0x10000) / 2 ^ 10, 0xDC00 + (c - 0x10000) % 2 ^ 10]).map (BitVec.ofNat 16)

/-- A text: scalar values other than NUL. -/
def Text (cs : List Nat) : Prop := ∀ c ∈ cs, Scalar c ∧ c ≠ 0

/-- The UTF-8 form of a text. -/
def text8 (cs : List Nat) : List Byte := cs.flatMap utf8

/-- The UTF-16 form of a text. -/
def text16 (cs : List Nat) : List U16 := cs.flatMap utf16

/-- Well-formed UTF-8 without NUL. -/
def Valid8 (s : List Byte) : Prop := ∃ cs, Text cs ∧ s = text8 cs

/-- Well-formed UTF-16 without NUL. -/
def Valid16 (s : List U16) : Prop := ∃ cs, Text cs ∧ s = text16 cs

end XXH.Spec.Unicode
