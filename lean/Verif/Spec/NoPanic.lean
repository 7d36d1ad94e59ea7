import Verif.Spec.Ext4Open
import Verif.Spec.Patchy

/-! Volumes whose structures hold what they declare. -/

namespace MdSpec
open MdRecover

/-- There is an inode `n` to be read: the superblock is accepted, the number is in range and the slot is inside the
volume (or inodes have no bytes at all). -/
structure InodeSlot (c : Bytes) (n : Nat) : Prop where
  long : 2048 ≤ c.length
  readable : Ext4Readable (sbOf c)
  pos : 1 ≤ n
  le : n ≤ MdSpec.le (sbOf c) 0 4
  group : (n - 1) / MdSpec.le (sbOf c) 0x28 4 < groupsOf (sbOf c)
  inside : MdSpec.le (sbOf c) 0x58 2 = 0 ∨ inodeSlot c n + MdSpec.le (sbOf c) 0x58 2 ≤ c.length

/-- Inode `n` declares no more than it holds, and not more than the 32 extra bytes that the format has names for. -/
def InodeFits (c : Bytes) (n : Nat) : Prop :=
  extraOf (inodeBytes c n) ≤ 32 ∧ 128 + extraOf (inodeBytes c n) ≤ (inodeBytes c n).length

/-- A file or a directory with extents. -/
def HasTree (c : Bytes) (n : Nat) : Prop := (typeNumber c n = 8 ∨ typeNumber c n = 4) ∧ hasExtents c n

/-- Nothing on the volume declares more than there is: opening meets no number too large (`OpenMayPanic`), inodes and
the nodes of extent trees hold what they declare, and files have less than 2^32 blocks.  Nothing else is asked of the
volume: it may be of any size, with any checksums, cycles, trees that lead outside, directories of any content. -/
structure HoldsWhatItDeclares (c : Bytes) : Prop where
  opening : ¬ OpenMayPanic c
  inodes : ∀ n, InodeSlot c n → InodeFits c n
  nodes : ∀ n, InodeSlot c n → HasTree c n →
    ∀ node, TreeNode c (blockSizeOf (sbOf c)) (rootNode c n) node → NodeFits node
  sizes : ∀ n, InodeSlot c n → HasTree c n → sizeOf c n ≤ (U32 - 1) * blockSizeOf (sbOf c)

end MdSpec
