import Verif.Spec.Ext4Superblock
import Verif.Model.Ext4Fs

/-! What opening an ext4 volume should do, in terms of the bytes of the volume.  Field names are
those of the kernel's documentation of the disk format. -/

namespace MdSpec
open MdRecover
variable [Build]

/-- The superblock of a volume: the 1024 bytes at offset 1024. -/
def sbOf (c : Bytes) : Bytes := (c.drop 1024).take 1024

/-- Block size: 1024 shifted by `s_log_block_size`. -/
def blockSizeOf (sb : Bytes) : Nat := 1024 * 2 ^ le sb 0x18 4

/-- Number of blocks: `s_blocks_count_lo`, `s_blocks_count_hi`. -/
def blocksOf (sb : Bytes) : Nat := le sb 0x4 4 + le sb 0x150 4 * 2 ^ 32

/-- Number of block groups: blocks divided by `s_blocks_per_group`, rounded up. -/
def groupsOf (sb : Bytes) : Nat := (blocksOf sb + le sb 0x20 4 - 1) / le sb 0x20 4

/-- Where the group descriptors begin: the block after `s_first_data_block`. -/
def groupTableOf (sb : Bytes) : Nat := (le sb 0x14 4 + 1) * blockSizeOf sb

/-- The superblocks that opening accepts: valid; `s_blocks_per_group`, `s_inodes_per_group` and
`s_desc_size` not zero; `s_creator_os` Linux; `s_feature_incompat` has the extents bit and no bit
without a name in the format (5, 11, and 17 to 31 have none here). -/
structure Ext4Readable (sb : Bytes) : Prop where
  ok : Ext4SbOk sb
  blocksPerGroup : le sb 0x20 4 ≠ 0
  inodesPerGroup : le sb 0x28 4 ≠ 0
  descSize : le sb 0xfe 2 ≠ 0
  creator : le sb 0x48 4 = 0
  extents : le sb 0x60 4 / 2 ^ 6 % 2 = 1
  known : ∀ i, le sb 0x60 4 / 2 ^ i % 2 = 1 → i ≠ 5 ∧ i ≠ 11 ∧ i < 17

/-- A volume that can be opened: its superblock is readable, and the group descriptors lie inside
it. -/
structure Ext4Openable (c : Bytes) : Prop where
  long : 2048 ≤ c.length
  readable : Ext4Readable (sbOf c)
  fits : groupTableOf (sbOf c) + groupsOf (sbOf c) * le (sbOf c) 0xfe 2 ≤ c.length

/-- Bytes of descriptor `i`. -/
def descriptorOf (c : Bytes) (i : Nat) : Bytes :=
  (c.drop (groupTableOf (sbOf c) + i * le (sbOf c) 0xfe 2)).take (le (sbOf c) 0xfe 2)

/-- Result of a successful open of a volume with content `c`. -/
structure Opened {D : Type} (Is : D → Bytes → Prop) (c : Bytes) (fs : Ext4Fs D) : Prop where
  device : Is fs.device c
  long : 2048 ≤ c.length
  readable : Ext4Readable (sbOf c)
  fits : groupsOf (sbOf c) = 0 ∨
    groupTableOf (sbOf c) + groupsOf (sbOf c) * le (sbOf c) 0xfe 2 ≤ c.length
  superblock : fs.superblock.bytes = sbOf c
  groups : fs.groups = (List.range (groupsOf (sbOf c))).map fun i =>
    BlockGroup.new (descriptorOf c i)

/-- Contents on which opening a volume that can be read panics: a valid superblock with
`s_blocks_per_group` zero, or an acceptable superblock with a descriptor table beyond 2^64 or, the
table being inside the volume, a descriptor vector (60 bytes each) of 2^63 bytes or more. -/
def OpenPanics (c : Bytes) : Prop :=
  2048 ≤ c.length ∧ Ext4SbOk (sbOf c) ∧
    (le (sbOf c) 0x20 4 = 0 ∨
      (Ext4Readable (sbOf c) ∧
        (U64 ≤ groupTableOf (sbOf c) ∨
          (groupTableOf (sbOf c) ≤ c.length ∧ 2 ^ 63 ≤ groupsOf (sbOf c) * 60))))

/-- Contents on which opening may panic: the same, wherever the table is. -/
def OpenMayPanic (c : Bytes) : Prop :=
  2048 ≤ c.length ∧ Ext4SbOk (sbOf c) ∧
    (le (sbOf c) 0x20 4 = 0 ∨
      (Ext4Readable (sbOf c) ∧
        (U64 ≤ groupTableOf (sbOf c) ∨ 2 ^ 63 ≤ groupsOf (sbOf c) * 60)))

/-- The offset of the descriptor table, a product that the code does not check, is below 2^64; or else overflow is
checked by the build. -/
def TableChecked (c : Bytes) : Prop := Build.overflowChecks = true ∨ groupTableOf (sbOf c) < U64

/-- First block of the inode table of group `i`: `bg_inode_table_lo`, `bg_inode_table_hi`. -/
def inodeTableOf (c : Bytes) (i : Nat) : Nat :=
  le (descriptorOf c i) 0x8 4 + le (descriptorOf c i) 0x28 4 * 2 ^ 32

/-- Where inode `n` is: in the table of its group.  `s_inodes_per_group` is at 0x28 and
`s_inode_size` at 0x58. -/
def inodeSlot (c : Bytes) (n : Nat) : Nat :=
  inodeTableOf c ((n - 1) / le (sbOf c) 0x28 4) * blockSizeOf (sbOf c) +
    (n - 1) % le (sbOf c) 0x28 4 * le (sbOf c) 0x58 2

end MdSpec
