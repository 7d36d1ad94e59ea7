import Verif.Model.Basic

/-! The `binary_layout!` macro (crate binary-layout): a structure is a list of fields with their widths, in
source order; a field starts where the previous one ends. -/

namespace MdRecover

/-- Byte order of a layout (`LittleEndian`/`BigEndian` argument of `binary_layout!`). -/
inductive Endian where
  | little
  | big
  deriving DecidableEq, Repr

/-- Value of an integer field (binary-layout: `from_le_bytes`/`from_be_bytes`). -/
def Endian.nat : Endian → Bytes → Nat
  | .little, b => leNat b
  | .big, b => beNat b

/-- A layout given to `binary_layout!`: fields and widths in bytes.  An open-ended last field (`[u8]`) has
width 0 here and is read with `Layout.tail`. -/
abbrev Layout (F : Type) := List (F × Nat)

namespace Layout
variable {F : Type} [DecidableEq F]

/-- `layout::field::OFFSET` (binary-layout): sum of the widths of the fields before. -/
def offset : Layout F → F → Nat
  | [], _ => 0
  | (g, w) :: l, f => if g = f then 0 else w + offset l f

/-- `layout::field::SIZE` (binary-layout). -/
def width : Layout F → F → Nat
  | [], _ => 0
  | (g, w) :: l, f => if g = f then w else width l f

/-- `layout::SIZE` (binary-layout). -/
def size : Layout F → Nat
  | [] => 0
  | (_, w) :: l => w + size l

/-- `view.field()` for byte-array and nested fields (binary-layout).  The real accessor panics when the
storage is too short; the theorems of C38/C40 show that every field lies inside the storage used. -/
def bytes (l : Layout F) (b : Bytes) (f : F) : Bytes := slice b (l.offset f) (l.width f)

/-- `view.field().read()` for integer fields (binary-layout). -/
def nat (l : Layout F) (e : Endian) (b : Bytes) (f : F) : Nat := e.nat (l.bytes b f)

/-- `view.field()` for the open-ended last field (binary-layout). -/
def tail (l : Layout F) (b : Bytes) (f : F) : Bytes := b.drop (l.offset f)

end Layout
end MdRecover
