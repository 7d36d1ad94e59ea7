import Verif.Spec.Ext4Fs
import Verif.Spec.Ext4Inode

/-! What the bytes of an inode say about opening the file. -/

namespace MdSpec
open MdRecover
variable [Build]

/-- The bytes of inode `n` in its slot. -/
def inodeBytes (c : Bytes) (n : Nat) : Bytes := (c.drop (inodeSlot c n)).take (le (sbOf c) 0x58 2)

/-- The inode exists: its number is in range, its slot is inside the volume and it holds the part it
declares. -/
structure InodeReadable (c : Bytes) (n : Nat) : Prop where
  pos : 1 ≤ n
  le : n ≤ MdSpec.le (sbOf c) 0 4
  group : (n - 1) / MdSpec.le (sbOf c) 0x28 4 < groupsOf (sbOf c)
  inside : inodeSlot c n + MdSpec.le (sbOf c) 0x58 2 ≤ c.length
  extra : extraOf (inodeBytes c n) ≤ 32
  length : 128 + extraOf (inodeBytes c n) ≤ (inodeBytes c n).length

/-- The file type: the upper four bits of `i_mode`, at 0. -/
def typeNumber (c : Bytes) (n : Nat) : Nat := le (inodePart (inodeBytes c n)) 0 2 / 2 ^ 12

/-- Bit `i` of `i_flags`, at 0x20. -/
def flagBit (c : Bytes) (n i : Nat) : Prop :=
  le (inodePart (inodeBytes c n)) 0x20 4 / 2 ^ i % 2 = 1

instance (c : Bytes) (n i : Nat) : Decidable (flagBit c n i) := by unfold flagBit; infer_instance

/-- `EXT4_EXTENTS_FL` is bit 19; `EXT4_INLINE_DATA_FL` is bit 28. -/
def hasExtents (c : Bytes) (n : Nat) : Prop := flagBit c n 19 ∧ ¬ flagBit c n 28

instance (c : Bytes) (n : Nat) : Decidable (hasExtents c n) := by unfold hasExtents; infer_instance

/-- The size: `i_size_lo` at 0x4, `i_size_high` at 0x6c. -/
def sizeOf (c : Bytes) (n : Nat) : Nat :=
  le (inodePart (inodeBytes c n)) 0x4 4 + le (inodePart (inodeBytes c n)) 0x6c 4 * 2 ^ 32

/-- The root node of the extent tree: `i_block`, at 0x28. -/
def rootNode (c : Bytes) (n : Nat) : Bytes := ((inodeBytes c n).drop 0x28).take 60

end MdSpec
