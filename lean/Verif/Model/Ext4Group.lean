import Verif.Model.Layout
import Verif.Model.Wide

/- Block group descriptors.  Models /repo/src/ext4/block_group/descriptor.rs. -/

namespace MdRecover
variable [Build]

/-- Fields of the descriptor layout (src/ext4/block_group/descriptor.rs 6-29). -/
inductive GroupField where
  | blockBitmapBlockLow | inodeBitmapBlockLow | inodeTableBlockLow | freeBlockCountLow
  | freeInodeCountLow | usedDirectoriesCountLow | flags | excludeBitmapBlockLow
  | blockBitmapChecksumLow | inodeBitmapChecksumLow | unusedInodeCountLow | checksum
  | blockBitmapBlockHigh | inodeBitmapBlockHigh | inodeTableBlockHigh | freeBlockCountHigh
  | freeInodeCountHigh | usedDirectoriesCountHigh | unusedInodeCountHigh
  | excludeBitmapBlockHigh | blockBitmapChecksumHigh | inodeBitmapChecksumHigh
  deriving DecidableEq, Repr

/-- The descriptor layout (src/ext4/block_group/descriptor.rs 6-29). -/
def groupLayout : Layout GroupField :=
  [(.blockBitmapBlockLow, 4), (.inodeBitmapBlockLow, 4), (.inodeTableBlockLow, 4),
   (.freeBlockCountLow, 2), (.freeInodeCountLow, 2), (.usedDirectoriesCountLow, 2), (.flags, 2),
   (.excludeBitmapBlockLow, 4), (.blockBitmapChecksumLow, 2), (.inodeBitmapChecksumLow, 2),
   (.unusedInodeCountLow, 2), (.checksum, 2), (.blockBitmapBlockHigh, 4),
   (.inodeBitmapBlockHigh, 4), (.inodeTableBlockHigh, 4), (.freeBlockCountHigh, 2),
   (.freeInodeCountHigh, 2), (.usedDirectoriesCountHigh, 2), (.unusedInodeCountHigh, 2),
   (.excludeBitmapBlockHigh, 4), (.blockBitmapChecksumHigh, 2), (.inodeBitmapChecksumHigh, 2)]

/-- `BlockGroupDescriptor` (src/ext4/block_group/descriptor.rs 31). -/
structure BlockGroup where
  storage : Bytes
  deriving DecidableEq, Repr

namespace BlockGroup

/-- `BlockGroupDescriptor::new` (src/ext4/block_group/descriptor.rs 34-39): the beginning of a
zeroed array is overwritten with the beginning of the buffer. -/
def new (buffer : Bytes) : BlockGroup :=
  let sourceLength := min buffer.length groupLayout.size
  ⟨overwrite (zeros groupLayout.size) (buffer.take sourceLength)⟩

/-- `self.view().<field>().read()` (src/ext4/block_group/descriptor.rs 118-120). -/
def get (g : BlockGroup) (f : GroupField) : Nat := groupLayout.nat .little g.storage f

/-- `block_bitmap_block` (src/ext4/block_group/descriptor.rs 41-46). -/
def blockBitmapBlock (g : BlockGroup) : Nat :=
  fromLowHigh 32 (g.get .blockBitmapBlockLow) (g.get .blockBitmapBlockHigh)
/-- `inode_bitmap_block` (src/ext4/block_group/descriptor.rs 48-53). -/
def inodeBitmapBlock (g : BlockGroup) : Nat :=
  fromLowHigh 32 (g.get .inodeBitmapBlockLow) (g.get .inodeBitmapBlockHigh)
/-- `inode_table_block` (src/ext4/block_group/descriptor.rs 55-60). -/
def inodeTableBlock (g : BlockGroup) : Nat :=
  fromLowHigh 32 (g.get .inodeTableBlockLow) (g.get .inodeTableBlockHigh)
/-- `free_block_count` (src/ext4/block_group/descriptor.rs 62-67). -/
def freeBlockCount (g : BlockGroup) : Nat :=
  fromLowHigh 16 (g.get .freeBlockCountLow) (g.get .freeBlockCountHigh)
/-- `free_inode_count` (src/ext4/block_group/descriptor.rs 69-74). -/
def freeInodeCount (g : BlockGroup) : Nat :=
  fromLowHigh 16 (g.get .freeInodeCountLow) (g.get .freeInodeCountHigh)
/-- `used_directories_count` (src/ext4/block_group/descriptor.rs 75-80). -/
def usedDirectoriesCount (g : BlockGroup) : Nat :=
  fromLowHigh 16 (g.get .usedDirectoriesCountLow) (g.get .usedDirectoriesCountHigh)
/-- `flags` (src/ext4/block_group/descriptor.rs 82-84). -/
def flags (g : BlockGroup) : Nat := g.get .flags
/-- `exclude_bitmap_block` (src/ext4/block_group/descriptor.rs 86-91). -/
def excludeBitmapBlock (g : BlockGroup) : Nat :=
  fromLowHigh 32 (g.get .excludeBitmapBlockLow) (g.get .excludeBitmapBlockHigh)
/-- `block_bitmap_checksum` (src/ext4/block_group/descriptor.rs 93-98). -/
def blockBitmapChecksum (g : BlockGroup) : Nat :=
  fromLowHigh 16 (g.get .blockBitmapChecksumLow) (g.get .blockBitmapChecksumHigh)
/-- `inode_bitmap_checksum` (src/ext4/block_group/descriptor.rs 100-105). -/
def inodeBitmapChecksum (g : BlockGroup) : Nat :=
  fromLowHigh 16 (g.get .inodeBitmapChecksumLow) (g.get .inodeBitmapChecksumHigh)
/-- `unused_inode_count` (src/ext4/block_group/descriptor.rs 107-112). -/
def unusedInodeCount (g : BlockGroup) : Nat :=
  fromLowHigh 16 (g.get .unusedInodeCountLow) (g.get .unusedInodeCountHigh)
/-- `checksum` (src/ext4/block_group/descriptor.rs 114-116). -/
def checksum (g : BlockGroup) : Nat := g.get .checksum

end BlockGroup
end MdRecover
