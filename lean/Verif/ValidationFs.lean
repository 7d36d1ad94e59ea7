import Verif.Fixture.Mkfs
import Verif.Model.Ext4Directory
import Verif.Model.InMemory
import Verif.Validation

/-! Tests of the transcription, not proofs of properties: the tests of src/ext4/fs.rs and
src/ext4/directory/directory.rs, run on the model.  The device is cut off behind the last block that the tests
read. -/

namespace MdRecover
open Fixture RepoData

/-- `Ext4Fs::open` on an in-memory device. -/
def openMemory (content : Bytes) : Res (Ext4Fs InMemory) :=
  (Ext4Fs.open InMemory.streamDev (InMemory.new content 512) ()).2

set_option maxRecDepth 100000 in
/-- `open_zero_32mb`. -/
example : (match openMemory (zeros 4096) with | .err .invalidData => true | _ => false) = true := by
  decide +kernel

set_option maxRecDepth 100000 in
/-- `open_random_2mb_zero_30mb`. -/
example : (match openMemory (zeros 1024 ++ randomVolume) with
    | .err .invalidData => true
    | _ => false) = true := by
  rw [randomVolume]
  decide +kernel

set_option maxRecDepth 100000 in
/-- `open_100mb_empty`. -/
example : (openMemory mkfsVolume).holds (fun fs =>
    let s := fs.superblock
    decide (s.valid = .ok true ∧ s.inodesCount = 25600 ∧ s.blocksCount = 25600 ∧
      s.reservedBlocksCount = 1280 ∧ s.freeBlocksCount = 22954 ∧ s.freeInodesCount = 25589 ∧
      s.firstDataBlock = 0 ∧ s.blockSizeBytes = .ok 4096 ∧ s.clusterSizeBlocks = .ok 4096 ∧
      s.blocksPerGroup = 32768 ∧ s.clustersPerGroup = 32768 ∧ s.inodesPerGroup = 25600 ∧
      s.creatorOs = .linux ∧ s.revisionLevel = 1 ∧ s.firstInode = 11 ∧ s.inodeSize = 256 ∧
      s.blockGroupNumber = 0 ∧ s.compatibleFeatures = 4 + 8 + 0x10 + 0x20 ∧
      s.incompatibleFeatures = 2 + 0x40 + 0x80 + 0x200 ∧
      s.readOnlyCompatibleFeatures = 1 + 2 + 8 + 0x20 + 0x40 + 0x400) &&
    match fs.groups with
    | [g] => decide (g.blockBitmapBlock = 0xe ∧ g.inodeBitmapBlock = 0x1e ∧ g.inodeTableBlock = 0x2e ∧
        g.freeBlockCount = 22954 ∧ g.freeInodeCount = 25589 ∧ g.usedDirectoriesCount = 2 ∧ g.flags = 4 ∧
        g.excludeBitmapBlock = 0 ∧ g.blockBitmapChecksum = 0x30609723 ∧
        g.inodeBitmapChecksum = 0x957502e9 ∧ g.unusedInodeCount = 0x63f5 ∧ g.checksum = 0x67e2)
    | _ => false) = true := by
  rw [mkfsVolume]
  decide +kernel

set_option maxRecDepth 100000 in
/-- `read_root_inode`. -/
example : (openMemory mkfsVolume).holds (fun fs =>
    (Ext4Fs.readRootInode InMemory.streamDev ((), fs)).2.holds isRootInode) = true := by
  rw [mkfsVolume]
  decide +kernel

/-- The first two reads of the directory at inode 2, into a buffer of 4096 bytes. -/
def rootBlocks (content : Bytes) : Res (Option (Nat × Bytes) × Option (Nat × Bytes)) := do
  let fs ← openMemory content
  match (Ext4Fs.openFile InMemory.streamDev 2 ((), fs)).2 with
  | .ok (.directory d) =>
    let r := Ext4File.readNextBlock InMemory.streamDev 10 (zeros 4096) ((), d.internal)
    let r' := Ext4File.readNextBlock InMemory.streamDev 10 (zeros 4096) r.1
    match r.2, r'.2 with
    | .ok a, .ok b => .ok (a, b)
    | _, _ => .panic
  | _ => .panic

set_option maxRecDepth 100000 in
/-- `root_directory_read_raw_blocks` (the block is that of src/ext4/directory/test_data). -/
example : rootBlocks mkfsVolume = .ok (some (4096, rootDirBlock), some (0, zeros 4096)) := by
  rw [mkfsVolume, rootDirBlock]
  decide +kernel

/-- The entries of the directory at inode 2. -/
def rootEntries (content : Bytes) : Res (List (Option (Option (Nat × DirFileType × Bytes)))) := do
  let fs ← openMemory content
  match (Ext4Fs.openFile InMemory.streamDev 2 ((), fs)).2 with
  | .ok (.directory d) =>
    let step := Ext4Directory.readNextEntry InMemory.streamDev 10
    let r1 := step ((), d)
    let r2 := step r1.1
    let r3 := step r2.1
    let r4 := step r3.1
    match r1.2, r2.2, r3.2, r4.2 with
    | .ok a, .ok b, .ok c, .ok d =>
      .ok ([a, b, c, d].map fun x => x.map fun y => y.map fun e => (e.inode, e.fileType, e.name.bytes))
    | _, _, _, _ => .panic
  | _ => .panic

set_option maxRecDepth 100000 in
/-- The entries of the root directory of the volume, of which the last test above reads the block. -/
example : (rootEntries mkfsVolume).holds (fun l => decide (l = [some (some (2, .directory, [0x2e])),
    some (some (2, .directory, [0x2e, 0x2e])),
    some (some (11, .directory, [0x6c, 0x6f, 0x73, 0x74, 0x2b, 0x66, 0x6f, 0x75, 0x6e, 0x64])),
    some none])) = true := by
  rw [mkfsVolume]
  decide +kernel

end MdRecover
