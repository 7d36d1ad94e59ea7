import Verif.Model.Layout
import Verif.Model.IO
import Verif.Model.Wide
import Verif.Model.Crc
import Verif.Model.SuperblockV1
import Verif.Model.Ext4String

/-
The ext4 superblock.  Models /repo/src/ext4/superblock/.
The storage is a byte string of any length; the binary_layout accessors of the original panic
when a field lies outside it, the model reads as many bytes as exist.  Every superblock made by
`Superblock::read` has 1024 bytes, where all fields are inside (theorem C56_fields_inside).
-/

namespace MdRecover
variable [Build]

/-- Fields of the superblock layout (src/ext4/superblock/superblock.rs 18-121). -/
inductive Ext4SbField where
  | inodesCount | blocksCountLow | reservedBlocksCountLow | freeBlocksCountLow |
   freeInodesCount | firstDataBlock | logBlockSize | logClusterSize | blocksPerGroup |
   clustersPerGroup | inodesPerGroup | mountTimeLow | writeTimeLow | mountCount |
   maxMountCount | magic | state | errorPolicy | minorRevisionLevel | lastCheckTimeLow |
   checkInterval | creatorOs | revisionLevel | defaultReservedUserId | defaultReservedGroupId |
   firstInode | inodeSize | blockGroupNumber | compatibleFeatures | incompatibleFeatures |
   readOnlyCompatibleFeatures | uuid | volumeName | lastMountedPath | algorithmUsageBitmap |
   preallocateBlocks | preallocateDirectoryBlocks | reservedGdtBlocks | journalUuid |
   journalInodeNumber | journalDeviceNumber | lastOrphan | hashSeed | defaultHashVersion |
   journalBackupType | groupDescriptorSize | defaultMountOptions | firstMetaBlockGroup |
   creationTimeLow | journalBlocks | blocksCountHigh | reservedBlocksCountHigh |
   freeBlocksCountHigh | minimumExtraInodeSize | wantedExtraInodeSize | flags | raidStride |
   multiMountPreventionInterval | multiMountPreventionBlock | raidStripeWidth |
   logGroupsPerFlex | checksumType | reserved0 | kbytesWritten | snapshotInodeNumber |
   snapshotId | snapshotReservedBlocksCount | snapshotListInodeNumber | errorCount |
   firstErrorTimeLow | firstErrorInode | firstErrorBlock | firstErrorFunctionName |
   firstErrorLine | lastErrorTimeLow | lastErrorInode | lastErrorLine | lastErrorBlock |
   lastErrorFunctionName | mountOptions | userQuotaInodeNumber | groupQuotaInodeNumber |
   overheadBlocks | superblockBackupBlockGroup0 | superblockBackupBlockGroup1 |
   encryptionAlgorithms | encryptionPasswordSalt | lostAndFoundInodeNumber |
   projectQuotaInodeNumber | checksumSeed | writeTimeHigh | mountTimeHigh | creationTimeHigh |
   lastCheckTimeHigh | firstErrorTimeHigh | lastErrorTimeHigh | reserved1 |
   filenameCharacterEncoding | filenameCharacterEncodingFlags | orphanFileInodeNumber |
   reserved2 | checksum
  deriving DecidableEq, Repr

/-- The superblock layout (src/ext4/superblock/superblock.rs 18-121). -/
def ext4SbLayout : Layout Ext4SbField :=
  [(.inodesCount, 4), (.blocksCountLow, 4), (.reservedBlocksCountLow, 4),
   (.freeBlocksCountLow, 4), (.freeInodesCount, 4), (.firstDataBlock, 4), (.logBlockSize, 4),
   (.logClusterSize, 4), (.blocksPerGroup, 4), (.clustersPerGroup, 4), (.inodesPerGroup, 4),
   (.mountTimeLow, 4), (.writeTimeLow, 4), (.mountCount, 2), (.maxMountCount, 2), (.magic, 2),
   (.state, 2), (.errorPolicy, 2), (.minorRevisionLevel, 2), (.lastCheckTimeLow, 4),
   (.checkInterval, 4), (.creatorOs, 4), (.revisionLevel, 4), (.defaultReservedUserId, 2),
   (.defaultReservedGroupId, 2), (.firstInode, 4), (.inodeSize, 2), (.blockGroupNumber, 2),
   (.compatibleFeatures, 4), (.incompatibleFeatures, 4), (.readOnlyCompatibleFeatures, 4),
   (.uuid, 16), (.volumeName, 16), (.lastMountedPath, 64), (.algorithmUsageBitmap, 4),
   (.preallocateBlocks, 1), (.preallocateDirectoryBlocks, 1), (.reservedGdtBlocks, 2),
   (.journalUuid, 16), (.journalInodeNumber, 4), (.journalDeviceNumber, 4), (.lastOrphan, 4),
   (.hashSeed, 16), (.defaultHashVersion, 1), (.journalBackupType, 1),
   (.groupDescriptorSize, 2), (.defaultMountOptions, 4), (.firstMetaBlockGroup, 4),
   (.creationTimeLow, 4), (.journalBlocks, 68), (.blocksCountHigh, 4),
   (.reservedBlocksCountHigh, 4), (.freeBlocksCountHigh, 4), (.minimumExtraInodeSize, 2),
   (.wantedExtraInodeSize, 2), (.flags, 4), (.raidStride, 2),
   (.multiMountPreventionInterval, 2), (.multiMountPreventionBlock, 8), (.raidStripeWidth, 4),
   (.logGroupsPerFlex, 1), (.checksumType, 1), (.reserved0, 2), (.kbytesWritten, 8),
   (.snapshotInodeNumber, 4), (.snapshotId, 4), (.snapshotReservedBlocksCount, 8),
   (.snapshotListInodeNumber, 4), (.errorCount, 4), (.firstErrorTimeLow, 4),
   (.firstErrorInode, 4), (.firstErrorBlock, 8), (.firstErrorFunctionName, 32),
   (.firstErrorLine, 4), (.lastErrorTimeLow, 4), (.lastErrorInode, 4), (.lastErrorLine, 4),
   (.lastErrorBlock, 8), (.lastErrorFunctionName, 32), (.mountOptions, 64),
   (.userQuotaInodeNumber, 4), (.groupQuotaInodeNumber, 4), (.overheadBlocks, 4),
   (.superblockBackupBlockGroup0, 4), (.superblockBackupBlockGroup1, 4),
   (.encryptionAlgorithms, 4), (.encryptionPasswordSalt, 16), (.lostAndFoundInodeNumber, 4),
   (.projectQuotaInodeNumber, 4), (.checksumSeed, 4), (.writeTimeHigh, 1), (.mountTimeHigh, 1),
   (.creationTimeHigh, 1), (.lastCheckTimeHigh, 1), (.firstErrorTimeHigh, 1),
   (.lastErrorTimeHigh, 1), (.reserved1, 2), (.filenameCharacterEncoding, 2),
   (.filenameCharacterEncodingFlags, 2), (.orphanFileInodeNumber, 4), (.reserved2, 376),
   (.checksum, 4)]

/-- `ErrorPolicy` (src/ext4/superblock/error_policy.rs 9-15). -/
inductive ErrorPolicy where
  | continue_ | remountReadOnly | panic | unknown (v : Nat)
  deriving DecidableEq, Repr

/-- `FromPrimitive` for `ErrorPolicy` (src/ext4/superblock/error_policy.rs 5-15, 21-23). -/
def ErrorPolicy.ofNat : Nat → ErrorPolicy
  | 1 => .continue_
  | 2 => .remountReadOnly
  | 3 => .panic
  | v => .unknown v

/-- `CreatorOs` (src/ext4/superblock/creator_os.rs 9-17). -/
inductive CreatorOs where
  | linux | hurd | masix | freeBsd | lites | unknown (v : Nat)
  deriving DecidableEq, Repr

/-- `FromPrimitive` for `CreatorOs` (src/ext4/superblock/creator_os.rs 5-17, 23-25). -/
def CreatorOs.ofNat : Nat → CreatorOs
  | 0 => .linux
  | 1 => .hurd
  | 2 => .masix
  | 3 => .freeBsd
  | 4 => .lites
  | v => .unknown v

/-- `HashVersion` (src/ext4/superblock/hash_version.rs 9-18). -/
inductive HashVersion where
  | legacy | halfMd4 | tea | legacyUnsigned | halfMd4Unsigned | teaUnsigned | unknown (v : Nat)
  deriving DecidableEq, Repr

/-- `FromPrimitive` for `HashVersion` (src/ext4/superblock/hash_version.rs 5-18, 24-26). -/
def HashVersion.ofNat : Nat → HashVersion
  | 0 => .legacy
  | 1 => .halfMd4
  | 2 => .tea
  | 3 => .legacyUnsigned
  | 4 => .halfMd4Unsigned
  | 5 => .teaUnsigned
  | v => .unknown v

/-- `EncryptionAlgorithm` (src/ext4/superblock/encryption_algorithm.rs 9-16). -/
inductive EncryptionAlgorithm where
  | invalid | aes256Xts | aes256Gcm | aes256Cbc | unknown (v : Nat)
  deriving DecidableEq, Repr

/-- `FromPrimitive` for `EncryptionAlgorithm`
(src/ext4/superblock/encryption_algorithm.rs 5-16, 22-24). -/
def EncryptionAlgorithm.ofNat : Nat → EncryptionAlgorithm
  | 0 => .invalid
  | 1 => .aes256Xts
  | 2 => .aes256Gcm
  | 3 => .aes256Cbc
  | v => .unknown v

/-- `Checksum` (src/ext4/superblock/checksum.rs 2-6). -/
inductive SbChecksum where
  | none | crc32c (v : Nat) | unknown (type v : Nat)
  deriving DecidableEq, Repr

/-- `u64::unbounded_shl` of 1 (Rust core): zero for shifts of 64 and more. -/
def oneShl64 (n : Nat) : Nat := if n < 64 then 1 <<< n else 0

/-- `Superblock<S>` (src/ext4/superblock/superblock.rs 123). -/
structure Ext4Superblock where
  bytes : Bytes
  deriving DecidableEq

namespace Ext4Superblock

/-- `self.view().<field>().read()` (src/ext4/superblock/superblock.rs 18, 644-646). -/
def get (s : Ext4Superblock) (f : Ext4SbField) : Nat := ext4SbLayout.nat .little s.bytes f

/-- `self.view().<field>().into_slice()` (src/ext4/superblock/superblock.rs 18, 644-646). -/
def raw (s : Ext4Superblock) (f : Ext4SbField) : Bytes := ext4SbLayout.bytes s.bytes f

/-- `inodes_count` (src/ext4/superblock/superblock.rs 178-180). -/
def inodesCount (s : Ext4Superblock) : Nat := s.get .inodesCount
/-- `free_inodes_count` (src/ext4/superblock/superblock.rs 206-208). -/
def freeInodesCount (s : Ext4Superblock) : Nat := s.get .freeInodesCount
/-- `blocks_per_group` (src/ext4/superblock/superblock.rs 222-224). -/
def blocksPerGroup (s : Ext4Superblock) : Nat := s.get .blocksPerGroup
/-- `clusters_per_group` (src/ext4/superblock/superblock.rs 226-228). -/
def clustersPerGroup (s : Ext4Superblock) : Nat := s.get .clustersPerGroup
/-- `inodes_per_group` (src/ext4/superblock/superblock.rs 230-232). -/
def inodesPerGroup (s : Ext4Superblock) : Nat := s.get .inodesPerGroup
/-- `mount_count` (src/ext4/superblock/superblock.rs 250-252). -/
def mountCount (s : Ext4Superblock) : Nat := s.get .mountCount
/-- `max_mount_count` (src/ext4/superblock/superblock.rs 254-256). -/
def maxMountCount (s : Ext4Superblock) : Nat := s.get .maxMountCount
/-- `magic` (src/ext4/superblock/superblock.rs 258-260). -/
def magic (s : Ext4Superblock) : Nat := s.get .magic
/-- `state` (src/ext4/superblock/superblock.rs 262-264; all bits are
kept, src/ext4/superblock/state.rs 16-18). -/
def state (s : Ext4Superblock) : Nat := s.get .state
/-- `error_policy` (src/ext4/superblock/superblock.rs 266-268). -/
def errorPolicy (s : Ext4Superblock) : ErrorPolicy := ErrorPolicy.ofNat (s.get .errorPolicy)
/-- `minor_revision_level` (src/ext4/superblock/superblock.rs 270-272). -/
def minorRevisionLevel (s : Ext4Superblock) : Nat := s.get .minorRevisionLevel
/-- `creator_os` (src/ext4/superblock/superblock.rs 291-293). -/
def creatorOs (s : Ext4Superblock) : CreatorOs := CreatorOs.ofNat (s.get .creatorOs)
/-- `revision_level` (src/ext4/superblock/superblock.rs 295-297). -/
def revisionLevel (s : Ext4Superblock) : Nat := s.get .revisionLevel
/-- `default_reserved_user_id` (src/ext4/superblock/superblock.rs 299-301). -/
def defaultReservedUserId (s : Ext4Superblock) : Nat := s.get .defaultReservedUserId
/-- `default_reserved_group_id` (src/ext4/superblock/superblock.rs 303-305). -/
def defaultReservedGroupId (s : Ext4Superblock) : Nat := s.get .defaultReservedGroupId
/-- `first_inode` (src/ext4/superblock/superblock.rs 307-309). -/
def firstInode (s : Ext4Superblock) : Nat := s.get .firstInode
/-- `inode_size` (src/ext4/superblock/superblock.rs 311-313). -/
def inodeSize (s : Ext4Superblock) : Nat := s.get .inodeSize
/-- `block_group_number` (src/ext4/superblock/superblock.rs 315-317). -/
def blockGroupNumber (s : Ext4Superblock) : Nat := s.get .blockGroupNumber
/-- `compatible_features` (src/ext4/superblock/superblock.rs 319-321; all bits are
kept, src/ext4/superblock/compatible_features.rs 26-28). -/
def compatibleFeatures (s : Ext4Superblock) : Nat := s.get .compatibleFeatures
/-- `incompatible_features` (src/ext4/superblock/superblock.rs 323-325; all bits are
kept, src/ext4/superblock/incompatible_features.rs 35-37). -/
def incompatibleFeatures (s : Ext4Superblock) : Nat := s.get .incompatibleFeatures
/-- `read_only_compatible_features` (src/ext4/superblock/superblock.rs 327-329; all bits are
kept, src/ext4/superblock/read_only_compatible_features.rs 66-68). -/
def readOnlyCompatibleFeatures (s : Ext4Superblock) : Nat := s.get .readOnlyCompatibleFeatures
/-- `algorithm_usage_bitmap` (src/ext4/superblock/superblock.rs 356-358). -/
def algorithmUsageBitmap (s : Ext4Superblock) : Nat := s.get .algorithmUsageBitmap
/-- `preallocate_blocks` (src/ext4/superblock/superblock.rs 360-362). -/
def preallocateBlocks (s : Ext4Superblock) : Nat := s.get .preallocateBlocks
/-- `preallocate_directory_blocks` (src/ext4/superblock/superblock.rs 364-366). -/
def preallocateDirectoryBlocks (s : Ext4Superblock) : Nat := s.get .preallocateDirectoryBlocks
/-- `reserved_gdt_blocks` (src/ext4/superblock/superblock.rs 368-370). -/
def reservedGdtBlocks (s : Ext4Superblock) : Nat := s.get .reservedGdtBlocks
/-- `journal_inode_number` (src/ext4/superblock/superblock.rs 376-378). -/
def journalInodeNumber (s : Ext4Superblock) : Nat := s.get .journalInodeNumber
/-- `journal_device_number` (src/ext4/superblock/superblock.rs 380-382). -/
def journalDeviceNumber (s : Ext4Superblock) : Nat := s.get .journalDeviceNumber
/-- `last_orphan` (src/ext4/superblock/superblock.rs 384-386). -/
def lastOrphan (s : Ext4Superblock) : Nat := s.get .lastOrphan
/-- `default_hash_version` (src/ext4/superblock/superblock.rs 396-398). -/
def defaultHashVersion (s : Ext4Superblock) : HashVersion := HashVersion.ofNat (s.get .defaultHashVersion)
/-- `journal_backup_type` (src/ext4/superblock/superblock.rs 400-402). -/
def journalBackupType (s : Ext4Superblock) : Nat := s.get .journalBackupType
/-- `group_descriptor_size` (src/ext4/superblock/superblock.rs 404-406). -/
def groupDescriptorSize (s : Ext4Superblock) : Nat := s.get .groupDescriptorSize
/-- `default_mount_options` (src/ext4/superblock/superblock.rs 408-410; all bits are
kept, src/ext4/superblock/mount_options.rs 26-28). -/
def defaultMountOptions (s : Ext4Superblock) : Nat := s.get .defaultMountOptions
/-- `first_meta_block_group` (src/ext4/superblock/superblock.rs 412-414). -/
def firstMetaBlockGroup (s : Ext4Superblock) : Nat := s.get .firstMetaBlockGroup
/-- `minimum_extra_inode_size` (src/ext4/superblock/superblock.rs 437-439). -/
def minimumExtraInodeSize (s : Ext4Superblock) : Nat := s.get .minimumExtraInodeSize
/-- `wanted_extra_inode_size` (src/ext4/superblock/superblock.rs 441-443). -/
def wantedExtraInodeSize (s : Ext4Superblock) : Nat := s.get .wantedExtraInodeSize
/-- `flags` (src/ext4/superblock/superblock.rs 445-447; all bits are
kept, src/ext4/superblock/flags.rs 22-24). -/
def flags (s : Ext4Superblock) : Nat := s.get .flags
/-- `raid_stride` (src/ext4/superblock/superblock.rs 449-451). -/
def raidStride (s : Ext4Superblock) : Nat := s.get .raidStride
/-- `multi_mount_prevention_interval` (src/ext4/superblock/superblock.rs 453-455). -/
def multiMountPreventionInterval (s : Ext4Superblock) : Nat := s.get .multiMountPreventionInterval
/-- `multi_mount_prevention_block` (src/ext4/superblock/superblock.rs 457-459). -/
def multiMountPreventionBlock (s : Ext4Superblock) : Nat := s.get .multiMountPreventionBlock
/-- `raid_stripe_width` (src/ext4/superblock/superblock.rs 461-463). -/
def raidStripeWidth (s : Ext4Superblock) : Nat := s.get .raidStripeWidth
/-- `kbytes_written` (src/ext4/superblock/superblock.rs 469-471). -/
def kbytesWritten (s : Ext4Superblock) : Nat := s.get .kbytesWritten
/-- `snapshot_inode_number` (src/ext4/superblock/superblock.rs 473-475). -/
def snapshotInodeNumber (s : Ext4Superblock) : Nat := s.get .snapshotInodeNumber
/-- `snapshot_id` (src/ext4/superblock/superblock.rs 477-479). -/
def snapshotId (s : Ext4Superblock) : Nat := s.get .snapshotId
/-- `snapshot_reserved_blocks_count` (src/ext4/superblock/superblock.rs 481-483). -/
def snapshotReservedBlocksCount (s : Ext4Superblock) : Nat := s.get .snapshotReservedBlocksCount
/-- `snapshot_list_inode_number` (src/ext4/superblock/superblock.rs 485-487). -/
def snapshotListInodeNumber (s : Ext4Superblock) : Nat := s.get .snapshotListInodeNumber
/-- `error_count` (src/ext4/superblock/superblock.rs 489-491). -/
def errorCount (s : Ext4Superblock) : Nat := s.get .errorCount
/-- `first_error_inode` (src/ext4/superblock/superblock.rs 506-508). -/
def firstErrorInode (s : Ext4Superblock) : Nat := s.get .firstErrorInode
/-- `first_error_block` (src/ext4/superblock/superblock.rs 510-512). -/
def firstErrorBlock (s : Ext4Superblock) : Nat := s.get .firstErrorBlock
/-- `first_error_line` (src/ext4/superblock/superblock.rs 525-527). -/
def firstErrorLine (s : Ext4Superblock) : Nat := s.get .firstErrorLine
/-- `last_error_inode` (src/ext4/superblock/superblock.rs 542-544). -/
def lastErrorInode (s : Ext4Superblock) : Nat := s.get .lastErrorInode
/-- `last_error_line` (src/ext4/superblock/superblock.rs 546-548). -/
def lastErrorLine (s : Ext4Superblock) : Nat := s.get .lastErrorLine
/-- `last_error_block` (src/ext4/superblock/superblock.rs 550-552). -/
def lastErrorBlock (s : Ext4Superblock) : Nat := s.get .lastErrorBlock
/-- `user_quota_inode_number` (src/ext4/superblock/superblock.rs 569-571). -/
def userQuotaInodeNumber (s : Ext4Superblock) : Nat := s.get .userQuotaInodeNumber
/-- `group_quota_inode_number` (src/ext4/superblock/superblock.rs 573-575). -/
def groupQuotaInodeNumber (s : Ext4Superblock) : Nat := s.get .groupQuotaInodeNumber
/-- `overhead_blocks` (src/ext4/superblock/superblock.rs 577-579). -/
def overheadBlocks (s : Ext4Superblock) : Nat := s.get .overheadBlocks
/-- `lost_and_found_inode_number` (src/ext4/superblock/superblock.rs 608-610). -/
def lostAndFoundInodeNumber (s : Ext4Superblock) : Nat := s.get .lostAndFoundInodeNumber
/-- `project_quota_inode_number` (src/ext4/superblock/superblock.rs 612-614). -/
def projectQuotaInodeNumber (s : Ext4Superblock) : Nat := s.get .projectQuotaInodeNumber
/-- `filename_character_encoding` (src/ext4/superblock/superblock.rs 632-634). -/
def filenameCharacterEncoding (s : Ext4Superblock) : Nat := s.get .filenameCharacterEncoding
/-- `filename_character_encoding_flags` (src/ext4/superblock/superblock.rs 636-638). -/
def filenameCharacterEncodingFlags (s : Ext4Superblock) : Nat := s.get .filenameCharacterEncodingFlags
/-- `orphan_file_inode_number` (src/ext4/superblock/superblock.rs 640-642). -/
def orphanFileInodeNumber (s : Ext4Superblock) : Nat := s.get .orphanFileInodeNumber

/-- `blocks_count` (src/ext4/superblock/superblock.rs 182-188). -/
def blocksCount (s : Ext4Superblock) : Nat :=
  fromLowHigh 32 (s.get .blocksCountLow) (s.get .blocksCountHigh)
/-- `reserved_blocks_count` (src/ext4/superblock/superblock.rs 190-196). -/
def reservedBlocksCount (s : Ext4Superblock) : Nat :=
  fromLowHigh 32 (s.get .reservedBlocksCountLow) (s.get .reservedBlocksCountHigh)
/-- `free_blocks_count` (src/ext4/superblock/superblock.rs 198-204). -/
def freeBlocksCount (s : Ext4Superblock) : Nat :=
  fromLowHigh 32 (s.get .freeBlocksCountLow) (s.get .freeBlocksCountHigh)
/-- `first_data_block` (src/ext4/superblock/superblock.rs 210-212). -/
def firstDataBlock (s : Ext4Superblock) : Nat := s.get .firstDataBlock
/-- `block_size_bytes` (src/ext4/superblock/superblock.rs 214-216): the sum is a `u32`. -/
def blockSizeBytes (s : Ext4Superblock) : Res Nat := do
  let shift ← add32 10 (s.get .logBlockSize)
  pure (oneShl64 shift)
/-- `cluster_size_blocks` (src/ext4/superblock/superblock.rs 218-220). -/
def clusterSizeBlocks (s : Ext4Superblock) : Res Nat := do
  let shift ← add32 10 (s.get .logClusterSize)
  pure (oneShl64 shift)
/-- A time, or `None` if it is the epoch (src/ext4/superblock/superblock.rs 238-242, 422-426,
499-503, 535-539). -/
def nonEpoch (t : Res Nat) : Res (Option Nat) := do
  let t ← t
  pure (if t = 0 then none else some t)
/-- `mount_time` (src/ext4/superblock/superblock.rs 234-243). -/
def mountTime (s : Ext4Superblock) : Res (Option Nat) :=
  nonEpoch (systemTimeFromLowHigh (s.get .mountTimeLow) (s.get .mountTimeHigh))
/-- `write_time` (src/ext4/superblock/superblock.rs 245-248). -/
def writeTime (s : Ext4Superblock) : Res Nat :=
  systemTimeFromLowHigh (s.get .writeTimeLow) (s.get .writeTimeHigh)
/-- `last_check_time` (src/ext4/superblock/superblock.rs 274-280). -/
def lastCheckTime (s : Ext4Superblock) : Res Nat :=
  systemTimeFromLowHigh (s.get .lastCheckTimeLow) (s.get .lastCheckTimeHigh)
/-- `check_interval` (src/ext4/superblock/superblock.rs 282-289), in seconds. -/
def checkInterval (s : Ext4Superblock) : Option Nat :=
  if s.get .checkInterval = 0 then none else some (s.get .checkInterval)
/-- `uuid` (src/ext4/superblock/superblock.rs 331-333). -/
def uuid (s : Ext4Superblock) : Bytes := s.raw .uuid
/-- `volume_name` (src/ext4/superblock/superblock.rs 335-343). -/
def volumeName (s : Ext4Superblock) : Option Ext4String :=
  (Ext4String.fromNullTerminated (s.raw .volumeName)).nonEmpty
/-- `last_mounted_path` (src/ext4/superblock/superblock.rs 345-354). -/
def lastMountedPath (s : Ext4Superblock) : Option Ext4String :=
  (Ext4String.fromNullTerminated (s.raw .lastMountedPath)).nonEmpty
/-- `journal_uuid` (src/ext4/superblock/superblock.rs 372-374). -/
def journalUuid (s : Ext4Superblock) : Bytes := s.raw .journalUuid
/-- `hash_seed` (src/ext4/superblock/superblock.rs 388-394). -/
def hashSeed (s : Ext4Superblock) : Bytes := s.raw .hashSeed
/-- `creation_time` (src/ext4/superblock/superblock.rs 416-427). -/
def creationTime (s : Ext4Superblock) : Res (Option Nat) :=
  nonEpoch (systemTimeFromLowHigh (s.get .creationTimeLow) (s.get .creationTimeHigh))
/-- `journal_blocks` (src/ext4/superblock/superblock.rs 429-435). -/
def journalBlocks (s : Ext4Superblock) : Bytes := s.raw .journalBlocks
/-- `groups_per_flex` (src/ext4/superblock/superblock.rs 465-467). -/
def groupsPerFlex (s : Ext4Superblock) : Nat := oneShl64 (s.get .logGroupsPerFlex)
/-- `first_error_time` (src/ext4/superblock/superblock.rs 493-504). -/
def firstErrorTime (s : Ext4Superblock) : Res (Option Nat) :=
  nonEpoch (systemTimeFromLowHigh (s.get .firstErrorTimeLow) (s.get .firstErrorTimeHigh))
/-- `first_error_function_name` (src/ext4/superblock/superblock.rs 514-523). -/
def firstErrorFunctionName (s : Ext4Superblock) : Option Ext4String :=
  (Ext4String.fromNullTerminated (s.raw .firstErrorFunctionName)).nonEmpty
/-- `last_error_time` (src/ext4/superblock/superblock.rs 529-540). -/
def lastErrorTime (s : Ext4Superblock) : Res (Option Nat) :=
  nonEpoch (systemTimeFromLowHigh (s.get .lastErrorTimeLow) (s.get .lastErrorTimeHigh))
/-- `last_error_function_name` (src/ext4/superblock/superblock.rs 554-563). -/
def lastErrorFunctionName (s : Ext4Superblock) : Option Ext4String :=
  (Ext4String.fromNullTerminated (s.raw .lastErrorFunctionName)).nonEmpty
/-- `mount_options` (src/ext4/superblock/superblock.rs 565-567). -/
def mountOptions (s : Ext4Superblock) : Ext4String :=
  Ext4String.fromNullTerminated (s.raw .mountOptions)
/-- `superblock_backup_block_groups` (src/ext4/superblock/superblock.rs 581-587). -/
def superblockBackupBlockGroups (s : Ext4Superblock) : Nat × Nat :=
  (s.get .superblockBackupBlockGroup0, s.get .superblockBackupBlockGroup1)
/-- `encryption_algorithms` (src/ext4/superblock/superblock.rs 589-598). -/
def encryptionAlgorithms (s : Ext4Superblock) : List EncryptionAlgorithm :=
  ((s.raw .encryptionAlgorithms).map fun b => EncryptionAlgorithm.ofNat b.toNat).filter
    (· != .invalid)
/-- `encryption_password_salt` (src/ext4/superblock/superblock.rs 600-606). -/
def encryptionPasswordSalt (s : Ext4Superblock) : Bytes := s.raw .encryptionPasswordSalt
/-- `checksum_seed` (src/ext4/superblock/superblock.rs 616-630; `METADATA_CHECKSUM_SEED` = 0x2000,
src/ext4/superblock/incompatible_features.rs 20; `METADATA_CHECKSUMS` = 0x400,
src/ext4/superblock/read_only_compatible_features.rs 42). -/
def checksumSeed (s : Ext4Superblock) : Nat :=
  if hasBit s.incompatibleFeatures 13 then s.get .checksumSeed
  else if hasBit s.readOnlyCompatibleFeatures 10 then (ext4Crc32c crcInitial (s.raw .uuid)).toNat
  else 0
/-- `checksum` (src/ext4/superblock/superblock.rs 648-655; `ChecksumType`,
src/ext4/superblock/checksum_type.rs 9-14). -/
def checksum (s : Ext4Superblock) : SbChecksum :=
  match s.get .checksumType with
  | 0 => .none
  | 1 => .crc32c (s.get .checksum)
  | t => .unknown t (s.get .checksum)
/-- `expected_checksum` (src/ext4/superblock/superblock.rs 657-662). -/
def expectedChecksum (s : Ext4Superblock) : Nat :=
  (ext4Crc32c crcInitial (slice s.bytes 0 (ext4SbLayout.offset .checksum))).toNat
/-- `read_only_compatible_features().contains(BIGALLOC)`
(src/ext4/superblock/superblock.rs 151-152; `BIGALLOC` = 0x200,
src/ext4/superblock/read_only_compatible_features.rs 39). -/
def bigalloc (s : Ext4Superblock) : Bool := hasBit s.readOnlyCompatibleFeatures 9
/-- `valid_magic` (src/ext4/superblock/superblock.rs 140-142). -/
def validMagic (s : Ext4Superblock) : Bool := s.magic = 0xef53
/-- `valid_block_size` (src/ext4/superblock/superblock.rs 144-146). -/
def validBlockSize (s : Ext4Superblock) : Bool := s.get .logBlockSize < 53
/-- `valid_cluster_size` (src/ext4/superblock/superblock.rs 148-154). -/
def validClusterSize (s : Ext4Superblock) : Res Bool :=
  if s.get .logClusterSize < 53 then
    if s.bigalloc then pure true
    else do
      let cluster ← s.clusterSizeBlocks
      let block ← s.blockSizeBytes
      pure (cluster == block)
  else pure false
/-- `valid_clusters_per_group` (src/ext4/superblock/superblock.rs 156-160). -/
def validClustersPerGroup (s : Ext4Superblock) : Bool :=
  s.bigalloc || s.clustersPerGroup == s.blocksPerGroup
/-- `valid_error_policy` (src/ext4/superblock/superblock.rs 162-164). -/
def validErrorPolicy (s : Ext4Superblock) : Bool :=
  match s.errorPolicy with
  | .unknown _ => false
  | _ => true
/-- `valid_groups_per_flex` (src/ext4/superblock/superblock.rs 166-168). -/
def validGroupsPerFlex (s : Ext4Superblock) : Bool := s.get .logGroupsPerFlex < 63
/-- `valid_checksum` (src/ext4/superblock/superblock.rs 170-176). -/
def validChecksum (s : Ext4Superblock) : Bool :=
  match s.checksum with
  | .none => true
  | .crc32c c => c == s.expectedChecksum
  | .unknown _ _ => false
/-- `valid` (src/ext4/superblock/superblock.rs 130-138): `&&` stops at the first `false`. -/
def valid (s : Ext4Superblock) : Res Bool :=
  if s.validMagic && s.validBlockSize then do
    let c ← s.validClusterSize
    pure (c && s.validClustersPerGroup && s.validErrorPolicy && s.validGroupsPerFlex
      && s.validChecksum)
  else pure false

/-- `Superblock::read` (src/ext4/superblock/superblock.rs 666-675). -/
def read {S : Type} (reader : Bytes → SM S (Nat × Bytes)) : SM S Ext4Superblock := do
  let buf ← readExact reader (zeros ext4SbLayout.size)
  let v ← SM.lift (Ext4Superblock.mk buf).valid
  if v then pure ⟨buf⟩ else SM.fail .invalidData

end Ext4Superblock
end MdRecover
