import Verif.Model.Ext4Inode
import Verif.Model.Ext4Extent

/- Writing of coded values: the `try_write` of the enumerations (`IntoPrimitive` of num_enum: the number
of a known variant, the number held by the catch-all variant).  The `try_read` direction is next to each
enumeration. -/

namespace MdRecover

/-- `try_write` of `ErrorPolicy` (src/ext4/superblock/error_policy.rs 5-15, 25-27). -/
def ErrorPolicy.toNat : ErrorPolicy → Nat
  | .continue_ => 1
  | .remountReadOnly => 2
  | .panic => 3
  | .unknown v => v

/-- `try_write` of `CreatorOs` (src/ext4/superblock/creator_os.rs 5-17, 27-29). -/
def CreatorOs.toNat : CreatorOs → Nat
  | .linux => 0
  | .hurd => 1
  | .masix => 2
  | .freeBsd => 3
  | .lites => 4
  | .unknown v => v

/-- `try_write` of `HashVersion` (src/ext4/superblock/hash_version.rs 5-18, 28-30). -/
def HashVersion.toNat : HashVersion → Nat
  | .legacy => 0
  | .halfMd4 => 1
  | .tea => 2
  | .legacyUnsigned => 3
  | .halfMd4Unsigned => 4
  | .teaUnsigned => 5
  | .unknown v => v

/-- `try_write` of `EncryptionAlgorithm` (src/ext4/superblock/encryption_algorithm.rs 5-16, 26-28). -/
def EncryptionAlgorithm.toNat : EncryptionAlgorithm → Nat
  | .invalid => 0
  | .aes256Xts => 1
  | .aes256Gcm => 2
  | .aes256Cbc => 3
  | .unknown v => v

/-- `ChecksumType` (src/ext4/superblock/checksum_type.rs 9-14). -/
inductive ChecksumType where
  | none | crc32c | unknown (v : Nat)
  deriving DecidableEq, Repr

/-- `try_read` of `ChecksumType` (src/ext4/superblock/checksum_type.rs 5-14, 20-22). -/
def ChecksumType.ofNat : Nat → ChecksumType
  | 0 => .none
  | 1 => .crc32c
  | v => .unknown v

/-- `try_write` of `ChecksumType` (src/ext4/superblock/checksum_type.rs 5-14, 24-26). -/
def ChecksumType.toNat : ChecksumType → Nat
  | .none => 0
  | .crc32c => 1
  | .unknown v => v

/-- `try_write` of `Ext4DirectoryInlineFileType` (src/ext4/directory/file_type.rs 6-20, 30-32). -/
def DirFileType.toNat : DirFileType → Nat
  | .regularFile => 1
  | .directory => 2
  | .characterDevice => 3
  | .blockDevice => 4
  | .fifo => 5
  | .socket => 6
  | .symbolicLink => 7
  | .unknown v => v

/-- `ExtentLeaf::extent_at` (src/ext4/extent/tree.rs 121-130). -/
def ExtentNode.extentAt (n : ExtentNode) (pos : Nat) : Res (Option Extent) :=
  if pos < n.entryCount then do
    let b ← n.entryAt pos
    pure (some ⟨b⟩)
  else pure none

/-- `ExtentBranch::subtree_index_at` (src/ext4/extent/tree.rs 81-90). -/
def ExtentNode.subtreeIndexAt (n : ExtentNode) (pos : Nat) : Res (Option ExtentIndex) :=
  if pos < n.entryCount then do
    let b ← n.entryAt pos
    pure (some ⟨b⟩)
  else pure none

/-- `ExtentLeafIter` (src/ext4/extent/tree.rs 145-149). -/
structure ExtentLeafIter where
  leaf : ExtentNode
  pos : Nat

/-- `ExtentLeafIter::next` (src/ext4/extent/tree.rs 154-165). -/
def ExtentLeafIter.next (i : ExtentLeafIter) : Res (Option Extent × ExtentLeafIter) :=
  if i.pos < i.leaf.entryCount then do
    let b ← i.leaf.entryAt i.pos
    pure (some ⟨b⟩, { i with pos := i.pos + 1 })
  else pure (none, i)

end MdRecover
