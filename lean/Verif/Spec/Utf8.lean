import Verif.Model.Basic

/-! UTF-8 by RFC 3629. -/

namespace MdSpec
open MdRecover

/-- A Unicode scalar value: a code point that is not a surrogate. -/
def IsScalar (c : Nat) : Prop := c < 0xd800 ∨ (0xe000 ≤ c ∧ c < 0x110000)

/-- The bytes of a scalar value (RFC 3629, section 3). -/
def utf8Of (c : Nat) : Bytes :=
  if c < 0x80 then [UInt8.ofNat c]
  else if c < 0x800 then [UInt8.ofNat (0xc0 + c / 64), UInt8.ofNat (0x80 + c % 64)]
  else if c < 0x10000 then
    [UInt8.ofNat (0xe0 + c / 4096), UInt8.ofNat (0x80 + c / 64 % 64), UInt8.ofNat (0x80 + c % 64)]
  else [UInt8.ofNat (0xf0 + c / 262144), UInt8.ofNat (0x80 + c / 4096 % 64),
    UInt8.ofNat (0x80 + c / 64 % 64), UInt8.ofNat (0x80 + c % 64)]

/-- The bytes encode the scalar values `cs`. -/
def Utf8Of (cs : List Nat) (b : Bytes) : Prop := (∀ c ∈ cs, IsScalar c) ∧ b = cs.flatMap utf8Of

/-- Well-formed UTF-8. -/
def IsUtf8 (b : Bytes) : Prop := ∃ cs, Utf8Of cs b

/-- A well-formed sequence begins the bytes. -/
def StartsWithChar (b : Bytes) : Prop := ∃ c, IsScalar c ∧ utf8Of c <+: b

/-- The lexicographic order of byte strings. -/
def BytesLt (a b : Bytes) : Prop :=
  (∃ x t, b = a ++ x :: t) ∨
    ∃ p x y s t, a = p ++ x :: s ∧ b = p ++ y :: t ∧ x.toNat < y.toNat

end MdSpec
