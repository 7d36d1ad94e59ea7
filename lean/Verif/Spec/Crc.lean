import Mathlib.Algebra.Polynomial.Div
import Mathlib.Algebra.Field.ZMod
import Mathlib.Algebra.Polynomial.FieldDivision
import Verif.Model.Basic

/-
CRC32C by polynomial division over the field with two elements, independent of the model's
registers and tables.  Bits are taken in transmission order: within a byte the least
significant bit comes first, as for every reflected CRC.
-/

namespace MdSpec

open Polynomial MdRecover

/-- The bits of a byte string in transmission order. -/
def bitsOf (bytes : Bytes) : List Bool :=
  bytes.flatMap fun b => (List.range 8).map fun i => b.toBitVec.getLsbD i

/-- The bits of a 32-bit checksum in transmission order. -/
def regBits (c : BitVec 32) : List Bool := (List.range 32).map fun i => c.getLsbD i

/-- A bit as an element of the field with two elements. -/
def bitZ (b : Bool) : ZMod 2 := if b then 1 else 0

/-- A list of bits as a polynomial, the first bit being the highest coefficient. -/
noncomputable def bitsPoly : List Bool → (ZMod 2)[X]
  | [] => 0
  | b :: rest => C (bitZ b) * X ^ rest.length + bitsPoly rest

/-- The CRC32C (Castagnoli) generator polynomial,
x^32+x^28+x^27+x^26+x^25+x^23+x^22+x^20+x^19+x^18+x^14+x^13+x^11+x^10+x^9+x^8+x^6+1. -/
noncomputable def castagnoli : (ZMod 2)[X] :=
  X ^ 32 + X ^ 28 + X ^ 27 + X ^ 26 + X ^ 25 + X ^ 23 + X ^ 22 + X ^ 20 + X ^ 19 + X ^ 18
    + X ^ 14 + X ^ 13 + X ^ 11 + X ^ 10 + X ^ 9 + X ^ 8 + X ^ 6 + 1

/-- `c` is the remainder of the message, preceded by the initial value and followed by 32
zero bits, on division by the generator. -/
def IsCrc32c (initial : BitVec 32) (bytes : Bytes) (c : BitVec 32) : Prop :=
  bitsPoly (regBits c)
    = (bitsPoly (regBits initial) * X ^ (8 * bytes.length)
        + bitsPoly (bitsOf bytes) * X ^ 32) %ₘ castagnoli

/-- The bit-serial definition: one message bit enters, the register is shifted, and the
generator is subtracted when a one leaves it. -/
def crcBitSerial (initial : BitVec 32) (bits : List Bool) : BitVec 32 :=
  bits.foldl (fun c b =>
    if (c.getLsbD 0 != b) then (c >>> 1) ^^^ 0x82F63B78#32 else c >>> 1) initial

/-- Two byte strings of the same length differ only inside the `32` consecutive bits that
start at bit `k`. -/
def DifferInBurst (k : Nat) (a b : Bytes) : Prop :=
  a.length = b.length ∧
  ∀ i, i < k ∨ k + 32 ≤ i → (bitsOf a)[i]? = (bitsOf b)[i]?

end MdSpec
