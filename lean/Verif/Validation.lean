import Verif.Fixture.Ext4
import Verif.Fixture.Directory
import Verif.Fixture.RepoData
import Verif.Model.Ext4Fs
import Verif.Model.Ext4Extent
import Verif.Model.Ext4Directory
import Verif.Model.SuperblockV0
import Verif.Model.SuperblockV1
import Verif.Model.InMemory
import Verif.Model.Reader

/-! Tests of the transcription, not proofs of properties: the unit tests of /repo, run on the model.  Each
example names the test it repeats. -/

namespace MdRecover
open Fixture RepoData

/-! ## src/ext4/superblock/test.rs -/

/-- The tests of ext4-1. -/
example :
    let s : Ext4Superblock := ⟨ext4Sb1⟩
    s.bytes.length = 1024 ∧ s.validMagic = true ∧ s.validClusterSize = .ok true ∧
    s.validClustersPerGroup = true ∧ s.validErrorPolicy = true ∧ s.validGroupsPerFlex = true ∧
    s.inodesCount = 64 ∧ s.blocksCount = 128 ∧ s.firstDataBlock = 0 ∧ s.blockSizeBytes = .ok 4096 ∧
    s.clusterSizeBlocks = .ok 4096 ∧ s.mountTime = .ok none ∧ s.writeTime = .ok 1731941452 ∧
    s.magic = 0xef53 ∧ s.state = 1 ∧ s.errorPolicy = .continue_ ∧ s.lastCheckTime = .ok 1731941452 ∧
    s.checkInterval = none ∧ s.creatorOs = .linux ∧ s.revisionLevel = 1 ∧
    s.defaultReservedUserId = 0 ∧ s.defaultReservedGroupId = 0 ∧ s.firstInode = 11 ∧
    s.inodeSize = 256 ∧ s.blockGroupNumber = 0 ∧ s.compatibleFeatures = 8 + 0x10 + 0x20 ∧
    s.incompatibleFeatures = 2 + 0x40 + 0x80 + 0x200 ∧
    s.readOnlyCompatibleFeatures = 1 + 2 + 8 + 0x20 + 0x40 + 0x400 ∧ s.volumeName = none ∧
    s.lastMountedPath = none ∧ s.journalUuid = zeros 16 ∧ s.journalInodeNumber = 0 ∧
    s.journalDeviceNumber = 0 ∧ s.creationTime = .ok (some 1731941452) ∧ s.flags = 1 ∧
    s.firstErrorTime = .ok none ∧ s.encryptionAlgorithms = [] := by decide +kernel

set_option maxRecDepth 100000 in
/-- `valid_checksum`, `checksum` and `expected_checksum`. -/
example :
    let s : Ext4Superblock := ⟨ext4Sb1⟩
    s.validChecksum = true ∧ s.checksum = .crc32c 0x42350b17 ∧ s.expectedChecksum = 0x42350b17 ∧
    s.valid = .ok true := by decide +kernel

/-- The tests of ext2. -/
example :
    let s : Ext4Superblock := ⟨ext4Ext2⟩
    s.validMagic = true ∧ s.validClusterSize = .ok true ∧ s.validClustersPerGroup = true ∧
    s.validChecksum = true ∧ s.inodesCount = 64 ∧ s.blocksCount = 128 ∧ s.firstDataBlock = 0 ∧
    s.magic = 0xef53 ∧ s.state = 1 ∧ s.incompatibleFeatures = 2 ∧ s.readOnlyCompatibleFeatures = 3 ∧
    s.checksum = .none := by decide +kernel

/-- The tests of ext4-2. -/
example :
    let s : Ext4Superblock := ⟨sb2⟩
    s.mountTime = .ok (some 1732062563) ∧ s.writeTime = .ok 1732062580 ∧
    s.compatibleFeatures = 4 + 8 + 0x10 + 0x20 ∧ s.journalUuid = zeros 16 ∧ s.journalInodeNumber = 8 ∧
    s.creationTime = .ok (some 1732062470) := by decide +kernel

/-- The tests of ext4-3. -/
example :
    let s : Ext4Superblock := ⟨sb3⟩
    s.checkInterval = some 259200 ∧ s.defaultReservedUserId = 1000 ∧ s.defaultReservedGroupId = 1000 ∧
    s.uuid = [0x96, 0x88, 0x27, 0xba, 0xcc, 0x32, 0x40, 0x67, 0xba, 0x37, 0x23, 0xfb, 0x86, 0xf9, 0xae,
      0xfd] ∧
    s.volumeName = some ⟨[0x65, 0x78, 0x74, 0x34, 0x2d, 0x33]⟩ := by decide +kernel

/-- The tests of random. -/
example :
    let s : Ext4Superblock := ⟨sbRandom⟩
    s.validMagic = false ∧ s.validClusterSize = .ok false ∧ s.validClustersPerGroup = false ∧
    s.validErrorPolicy = false ∧ s.validGroupsPerFlex = false ∧ s.validChecksum = false ∧
    s.blockSizeBytes = .ok 0 ∧ s.clusterSizeBlocks = .ok 0 := by decide +kernel

/-! ## src/ext4/block_group/test.rs -/

/-- `parse`. -/
example :
    let g := BlockGroup.new descriptor
    g.blockBitmapBlock = 0xe ∧ g.inodeBitmapBlock = 0x1e ∧ g.inodeTableBlock = 0x2e ∧
    g.freeBlockCount = 22954 ∧ g.freeInodeCount = 25589 ∧ g.usedDirectoriesCount = 2 ∧ g.flags = 4 ∧
    g.excludeBitmapBlock = 0 ∧ g.blockBitmapChecksum = 0x30609723 ∧
    g.inodeBitmapChecksum = 0x957502e9 ∧ g.unusedInodeCount = 0x63f5 ∧ g.checksum = 0x67e2 := by
  decide +kernel

/-! ## src/ext4/inode/test.rs -/

/-- A value is returned, and it satisfies `p`. -/
def Res.holds {α : Type} (r : Res α) (p : α → Bool) : Bool :=
  match r with
  | .ok a => p a
  | _ => false

/-- The inode of the tests. -/
def testInode : Res Inode := Inode.new ⟨inodeSb⟩ 2 inodeRoot

/-- The values asserted about the root inode.  1762868061 is 2025-11-11 13:34:21 UTC. -/
def isRootInode (i : Inode) : Bool := decide (
    i.fileMode = .fromFileTypeAndPermissions .directory 0o755 ∧ i.ownerUserId = 0 ∧
    i.fileSizeBytes = 4096 ∧ i.accessTime = 1762868061000000000 ∧ i.changeTime = 1762868061000000000 ∧
    i.modifiedTime = 1762868061000000000 ∧ i.deleteTime = 0 ∧ i.groupId = 0 ∧ i.linksCount = 3 ∧
    i.blockCount = 8 ∧ i.flags = 0x80000 ∧ i.version = 0 ∧
    i.blocksBuffer = [0x0a, 0xf3, 1, 0, 4, 0, 0, 0, 0, 0, 0, 0, 0, 0, 0, 0, 1, 0, 0, 0, 0x0f] ++ zeros 39 ∧
    i.generation = 0 ∧ i.fileAcl = 0 ∧ i.checksum = 0xDA6E700E ∧
    i.creationTime = 1762868061000000000 ∧ i.projectId = 0)

/-- `root`. -/
example : testInode.holds isRootInode = true := by decide +kernel

/-! ## src/ext4/inode/time.rs and file_mode.rs -/

/-- `test` of time.rs. -/
example :
    decodeExtraTime 0x80000000 0 = -2147483648000000000 ∧
    decodeExtraTime 0x80000000 (999999999 <<< 2) = -2147483648000000000 + 999999999 ∧
    decodeExtraTime 0xffffffff 0 = -1000000000 ∧
    decodeExtraTime 0xffffffff (999999999 <<< 2) = -1 ∧ decodeExtraTime 0 0 = 0 ∧
    decodeExtraTime 0x80000000 1 = 2147483648000000000 ∧
    decodeExtraTime 0xffffffff (999999999 <<< 2 ||| 1) = 4294967295999999999 ∧
    decodeExtraTime 0 1 = 4294967296000000000 ∧ decodeExtraTime 0x80000000 2 = 6442450944000000000 ∧
    decodeExtraTime 0 2 = 8589934592000000000 ∧ decodeExtraTime 0x80000000 3 = 10737418240000000000 ∧
    decodeExtraTime 0 3 = 12884901888000000000 := by decide +kernel

/-- `from_file_type_and_permissions`. -/
example : FileMode.fromFileTypeAndPermissions .directory 0o700 = ⟨0x41c0⟩ ∧
    FileMode.fromFileTypeAndPermissions .socket 0xffff = ⟨0xcfff⟩ := by decide +kernel

/-! ## src/ext4/extent/tree.rs -/

/-- `extent_and_index_are_the_same_size`. -/
example : extentLayout.size = indexLayout.size := by decide +kernel

/-- `root_fields` and `root_iter` (the superblock and the inode are those of the inode test). -/
example : testInode.holds (fun i => match ExtentTree.fromInode i with
    | some (.leaf n) => decide (n.valid = true ∧ n.maxEntries = 4 ∧ n.generation = 0 ∧ n.entryCount = 1) &&
      (n.entryAt 0).holds fun e => decide ((Extent.mk e).initialized = true ∧
        (Extent.mk e).firstFileBlockNumber = 0 ∧ (Extent.mk e).length = 1 ∧
        (Extent.mk e).firstFsBlockNumber = 15)
    | _ => false) = true := by decide +kernel

/-! ## src/ext4/directory/dir_entry.rs and block.rs -/

/-- `dir_entry`. -/
example : (DirEntry.fromBuf dirEntry).1.map (fun d => (d.name, d.fileType, d.inode)) =
      some (⟨[0x2e]⟩, .directory, 2) ∧ (DirEntry.fromBuf dirEntry).2 = [] := by
  rw [dirEntry]
  decide +kernel

/-- `dir_entries_with_padding`. -/
example :
    let r := DirEntry.fromBuf dirEntries
    let r' := DirEntry.fromBuf r.2
    r.1.map (fun d => (d.name, d.fileType, d.inode)) = some (⟨[0x2e]⟩, .directory, 2) ∧
    r'.1.map (fun d => (d.name, d.fileType, d.inode)) = some (⟨[0x2e, 0x2e]⟩, .directory, 2) ∧
    r'.2 = zeros 96 ∧ DirEntry.fromBuf r'.2 = (none, zeros 96) := by
  rw [dirEntries]
  decide +kernel

/-- The entries of a directory block, as inode, type and name, at most `n`. -/
def entriesUpTo : Nat → DirBlock → List (Nat × DirFileType × Bytes)
  | 0, _ => []
  | n + 1, b => match b.readNextEntry with
    | .ok (some e, b') => (e.inode, e.fileType, e.name.bytes) :: entriesUpTo n b'
    | _ => []

set_option maxRecDepth 100000 in
/-- `read_empty_root_dir`: after three entries there are no more. -/
example : ∃ b, DirBlock.fromBlock rootDirBlock (some 1485601019) = .ok (some b) ∧
    entriesUpTo 4 b = [(2, .directory, [0x2e]), (2, .directory, [0x2e, 0x2e]),
      (11, .directory, [0x6c, 0x6f, 0x73, 0x74, 0x2b, 0x66, 0x6f, 0x75, 0x6e, 0x64])] := by
  refine ⟨⟨rootDirBlock, 0, 4084⟩, ?_, ?_⟩
  · rw [rootDirBlock]
    decide +kernel
  · rw [rootDirBlock]
    decide +kernel

/-! ## src/ext4/crc.rs -/

/-- `test`. -/
example : ext4Crc32c crcInitial [0x12, 0x34] = ext4Crc32c (ext4Crc32c crcInitial [0x12]) [0x34] := by
  decide +kernel

/-! ## src/md/superblock/version_1/tests.rs -/

/-- `view_of_superblock_version_1`. -/
example :
    let g := v1Layout.nat .little md1
    let r := v1ReshapeLayout.nat .little (v1Layout.bytes md1 .reshapeStatus)
    g .magic = 0xa92b4efc ∧ g .majorVersion = 1 ∧ g .features = 0 ∧
    v1Layout.bytes md1 .arrayUuid = [0xc5, 0x98, 0x7f, 0x03, 0x80, 0xf5, 0xe1, 0xbf, 0x7a, 0x42, 0x17,
      0xa1, 0x15, 0x09, 0x17, 0x33] ∧
    v1Layout.bytes md1 .arrayName = [0x6d, 0x65, 0x64, 0x69, 0x65, 0x76, 0x61, 0x6c, 0x20, 0x73, 0x74,
      0x6f, 0x72, 0x6d] ++ zeros 18 ∧
    g .ctime = 0x1149dcd1f9bd2423 ∧ g .level = 5 ∧ g .layout = 0xa64a04b3 ∧
    g .sectorsPerDevice = 0xa8fff95a3beda8d6 ∧ g .chunkSize = 65536 ∧ g .raidDeviceCount = 4 ∧
    v1Layout.bytes md1 .bitmapOffsetOrPplInfo = [0x7b, 0x1d, 0x5a, 0x5a] ∧ r .newLevel = 6 ∧
    r .reshapePosition = 0xe30dc65274cef739 ∧ r .deltaDevices = 1 ∧ r .newLayout = 0x979a6999 ∧
    r .newChunkSize = 65536 ∧ r .newOffset = 0 ∧ g .dataOffset = 0xfae3d184a79c8efd ∧
    g .dataSize = 0x588ab17ce9f1a413 ∧ g .superOffset = 0xf544698b366331f0 ∧
    g .recoveryOffsetOrJournalTail = 0x943efeb94d6afd2d ∧ g .deviceRoleIndex = 0xc2b6dd5b ∧
    g .countCorrectedRead = 0x944a80e7 ∧
    v1Layout.bytes md1 .deviceUuid = [0x31, 0x79, 0x2c, 0x4c, 0xcc, 0xbe, 0x9d, 0x9f, 0x21, 0x04, 0xc6,
      0xa8, 0x0f, 0x65, 0xb0, 0x46] ∧
    g .deviceFlags = 0 ∧ g .badBlockLogShift = 0xa1 ∧ g .badBlockLogSize = 0xcca0 ∧
    g .badBlockLogOffset = 0xad79cc21 ∧ g .utime = 0x5ce35f80ed788341 ∧
    g .eventCount = 0x71954b9d8fff836a ∧ g .resyncOffset = 0xc191af9aef59e8b5 ∧
    g .superblockChecksum = 0x55dc4d55 ∧ g .maxDevices = 4 ∧
    slice md1 (v1Layout.offset .devRoles) 8 = [1, 0, 2, 0, 3, 0, 4, 0] := by decide +kernel

/-! ## src/md/superblock/version_0/little_endian/tests.rs and big_endian/tests.rs -/

/-- What both files of tests say of their data. -/
def v0TestsPass (e : Endian) (b : Bytes) : Prop :=
  let g := v0Layout.nat e b
  let r := v0ReshapeLayout.nat e (v0Layout.bytes b .reshapeStatus)
  let d := fun k => v0DescriptorLayout.nat e (slice (v0Layout.bytes b .devices) (128 * k) 128)
  v0Layout.size = 4096 ∧ g .magic = 0xa92b4efc ∧ g .majorVersion = 0 ∧ g .minorVersion = 90 ∧
  g .patchVersion = 1 ∧ g .gvalidWords = 0 ∧ g .arrayUuid0 = 0x12345678 ∧ g .ctime = 0x59cd9a68 ∧
  g .level = 5 ∧ g .sectorsPerDevice = 0x4654579d ∧ g .totalDeviceCount = 4 ∧ g .raidDeviceCount = 4 ∧
  g .mdMinor = 7 ∧ g .notPersistent = 0 ∧ g .arrayUuid1 = 0xcc253946 ∧ g .arrayUuid2 = 0x1649afcc ∧
  g .utime = 0x40ea6820 ∧ g .state = 0 ∧ g .activeDeviceCount = 4 ∧ g .workingDeviceCount = 4 ∧
  g .failedDeviceCount = 0 ∧ g .spareDeviceCount = 0 ∧ g .superblockChecksum = 0x4742e3fa ∧
  g .eventCount = 0x05ada75c5431f9cf ∧ g .checkpointEventCount = 0x7d613e63f79eea5b ∧
  g .recoveryCheckpoint = 0x46e39b46 ∧ r .reshapePosition = 0 ∧ r .newLevel = 0 ∧ r .deltaDevices = 0 ∧
  r .newLayout = 0 ∧ r .newChunkSize = 0 ∧ g .layout = 0xc49704fc ∧ g .chunkSize = 65536 ∧
  g .rootPv = 0xbdbdd227 ∧ g .rootBlock = 0xa7feefba ∧ v0DescriptorLayout.size = 128 ∧
  d 0 .index = 1 ∧ d 0 .major = 0xe9b52f41 ∧ d 0 .minor = 0x08783284 ∧
  (Role.mk (d 0 .role)).deviceNumber = some 1 ∧ d 0 .state = 0 ∧ d 1 .index = 2 ∧
  d 1 .major = 0x9632a95b ∧ d 1 .minor = 0x4df28944 ∧ (Role.mk (d 1 .role)).deviceNumber = some 2 ∧
  d 1 .state = 0

/-- The tests of little_endian/tests.rs. -/
example : v0TestsPass .little md0Little := by
  unfold v0TestsPass
  decide +kernel

/-- The tests of big_endian/tests.rs. -/
example : v0TestsPass .big md0Big := by
  unfold v0TestsPass
  decide +kernel

/-! ## src/block_device/reader.rs -/

/-- `reader()`. -/
def testReader : Unit × Reader InMemory :=
  ((), Reader.new (InMemory.new ((List.range 256).map UInt8.ofNat) 32))

/-- `read_exact` of `n` bytes. -/
def readN (n : Nat) : SM (Unit × Reader InMemory) Bytes := readExact (Reader.read InMemory.dev) (zeros n)

/-- `n` consecutive bytes from `a`. -/
def upFrom (a n : Nat) : Bytes := (List.range n).map fun i => UInt8.ofNat (a + i)

/-- The tests of reader.rs, in order. -/
example :
    (readN 16 testReader).2 = .ok (upFrom 0 16) ∧
    ((do let a ← readN 4; let b ← readN 4; let c ← readN 4; pure (a, b, c) :
      SM (Unit × Reader InMemory) (Bytes × Bytes × Bytes)) testReader).2 =
        .ok (upFrom 0 4, upFrom 4 4, upFrom 8 4) ∧
    (readN 48 testReader).2 = .ok (upFrom 0 48) ∧
    ((do let a ← readN 24; let b ← readN 24; pure (a, b) :
      SM (Unit × Reader InMemory) (Bytes × Bytes)) testReader).2 = .ok (upFrom 0 24, upFrom 24 24) ∧
    ((do let _ ← Reader.seek InMemory.dev (.start 8); readN 4 :
      SM (Unit × Reader InMemory) Bytes) testReader).2 = .ok (upFrom 8 4) ∧
    ((do let _ ← Reader.seek InMemory.dev (.start 12); readN 8 :
      SM (Unit × Reader InMemory) Bytes) testReader).2 = .ok (upFrom 12 8) ∧
    ((do let a ← readN 8; let _ ← Reader.seek InMemory.dev (.current 6); let b ← readN 8; pure (a, b) :
      SM (Unit × Reader InMemory) (Bytes × Bytes)) testReader).2 = .ok (upFrom 0 8, upFrom 14 8) ∧
    ((do let _ ← Reader.seek InMemory.dev (.fromEnd (-4)); readN 4 :
      SM (Unit × Reader InMemory) Bytes) testReader).2 = .ok (upFrom 252 4) := by decide +kernel

end MdRecover
