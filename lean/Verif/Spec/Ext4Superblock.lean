import Verif.Spec.Crc

/-! The ext4 superblock as the kernel documents it (Documentation/filesystems/ext4/super.rst):
offsets and widths of the fields, and what makes a superblock acceptable. -/

namespace MdSpec
open MdRecover
variable [Build]

/-- The little-endian integer of `w` bytes at offset `off`. -/
def le (b : Bytes) (off w : Nat) : Nat := leNat ((b.drop off).take w)

/-- Conditions on the 1024 bytes of a superblock: `s_magic` (0x38), `s_log_block_size` (0x18),
`s_log_cluster_size` (0x1c), `s_feature_ro_compat` (0x64; bit 9 is BIGALLOC), `s_clusters_per_group`
(0x24), `s_blocks_per_group` (0x20), `s_errors` (0x3c), `s_log_groups_per_flex` (0x174),
`s_checksum_type` (0x175; 1 is CRC32C) and `s_checksum` (0x3fc), which covers all bytes before it. -/
structure Ext4SbOk (b : Bytes) : Prop where
  magic : le b 0x38 2 = 0xef53
  block : le b 0x18 4 < 53
  cluster : le b 0x1c 4 < 53
  plain : ¬ le b 0x64 4 / 2 ^ 9 % 2 = 1 →
    le b 0x1c 4 = le b 0x18 4 ∧ le b 0x24 4 = le b 0x20 4
  errors : le b 0x3c 2 = 1 ∨ le b 0x3c 2 = 2 ∨ le b 0x3c 2 = 3
  flex : le b 0x174 1 < 63
  checksum : le b 0x175 1 = 0 ∨
    (le b 0x175 1 = 1 ∧
      IsCrc32c (BitVec.allOnes 32) (b.take 0x3fc) (BitVec.ofNat 32 (le b 0x3fc 4)))

end MdSpec
