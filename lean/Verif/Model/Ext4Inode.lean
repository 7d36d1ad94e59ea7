import Verif.Model.Ext4Superblock

/- Inodes.  Models /repo/src/ext4/inode/ and the conversions of
/repo/src/ext4/directory/file_type.rs. -/

namespace MdRecover
variable [Build]

/-- `FileType` (src/ext4/inode/file_type.rs 9-19). -/
inductive FileType where
  | socket | symbolicLink | regularFile | blockDevice | directory | characterDevice | fifo
  | unknown (v : Nat)
  deriving DecidableEq, Repr

/-- `FromPrimitive` for `FileType` (src/ext4/inode/file_type.rs 5-19). -/
def FileType.ofNat : Nat → FileType
  | 12 => .socket
  | 10 => .symbolicLink
  | 8 => .regularFile
  | 6 => .blockDevice
  | 4 => .directory
  | 2 => .characterDevice
  | 1 => .fifo
  | v => .unknown v

/-- `IntoPrimitive` for `FileType` (src/ext4/inode/file_type.rs 5-19); a catch-all variant gives
the number it holds. -/
def FileType.toNat : FileType → Nat
  | .socket => 12
  | .symbolicLink => 10
  | .regularFile => 8
  | .blockDevice => 6
  | .directory => 4
  | .characterDevice => 2
  | .fifo => 1
  | .unknown v => v

/-- `Ext4DirectoryInlineFileType` (src/ext4/directory/file_type.rs 10-20). -/
inductive DirFileType where
  | regularFile | directory | characterDevice | blockDevice | fifo | socket | symbolicLink
  | unknown (v : Nat)
  deriving DecidableEq, Repr

/-- `FromPrimitive` for `Ext4DirectoryInlineFileType` (src/ext4/directory/file_type.rs 6-20). -/
def DirFileType.ofNat : Nat → DirFileType
  | 1 => .regularFile
  | 2 => .directory
  | 3 => .characterDevice
  | 4 => .blockDevice
  | 5 => .fifo
  | 6 => .socket
  | 7 => .symbolicLink
  | v => .unknown v

/-- `From<FileType> for Ext4DirectoryInlineFileType` (src/ext4/directory/file_type.rs 35-48). -/
def DirFileType.ofFileType : FileType → DirFileType
  | .socket => .socket
  | .symbolicLink => .symbolicLink
  | .regularFile => .regularFile
  | .blockDevice => .blockDevice
  | .directory => .directory
  | .characterDevice => .characterDevice
  | .fifo => .fifo
  | .unknown v => .unknown v

/-- `From<Ext4DirectoryInlineFileType> for FileType` (src/ext4/directory/file_type.rs 50-63). -/
def FileType.ofDirFileType : DirFileType → FileType
  | .regularFile => .regularFile
  | .directory => .directory
  | .characterDevice => .characterDevice
  | .blockDevice => .blockDevice
  | .fifo => .fifo
  | .socket => .socket
  | .symbolicLink => .symbolicLink
  | .unknown v => .unknown v

/-- `FileMode` (src/ext4/inode/file_mode.rs 7): a `u16`. -/
structure FileMode where
  bits : Nat
  deriving DecidableEq, Repr

namespace FileMode

/-- `from_file_type_and_permissions` (src/ext4/inode/file_mode.rs 10-15).  Permissions are a
`u16`; `Permissions::all()` is 0x0fff (src/ext4/inode/permissions.rs 3-16).  The shift drops bits
above the sixteenth. -/
def fromFileTypeAndPermissions (t : FileType) (permissions : Nat) : FileMode :=
  ⟨((t.toNat <<< 12) % U16) ||| (permissions &&& 0x0fff)⟩

/-- `file_type` (src/ext4/inode/file_mode.rs 17-19); the cast to `u8` loses nothing. -/
def fileType (m : FileMode) : FileType := .ofNat ((m.bits >>> 12) % 256)

/-- `permissions` (src/ext4/inode/file_mode.rs 21-23): `from_bits_truncate` keeps the known
bits. -/
def permissions (m : FileMode) : Nat := m.bits &&& 0x0fff

end FileMode

/-- The number a `u32` represents when cast to `i32` (`base as i32`,
src/ext4/inode/time.rs 4). -/
def asI32 (v : Nat) : Int := if v < 2 ^ 31 then v else (v : Int) - 2 ^ 32

/-- `decode_extra_time` (src/ext4/inode/time.rs 3-7), as nanoseconds since the Unix epoch
(`DateTime<Utc>`).  The values are far inside the range of `DateTime`. -/
def decodeExtraTime (base extra : Nat) : Int :=
  let seconds := asI32 base + (((extra &&& 3) <<< 32 : Nat) : Int)
  let nanos := extra >>> 2
  seconds * 1000000000 + nanos

/-- Fields of the inode layout (src/ext4/inode/inode.rs 16-44), with those of the nested layouts
(src/ext4/inode/linux_1.rs 3-5, src/ext4/inode/linux_2.rs 3-10) in place. -/
inductive InodeField where
  | fileMode | userIdLow | sizeLow | accessTime | changeTime | modifiedTime | deleteTime
  | groupIdLow | linksCount | blockCountLow | flags | version | blocks | generation | fileAclLow
  | sizeHigh | obsoleteFragmentAddress | blockCountHigh | fileAclHigh | userIdHigh | groupIdHigh
  | checksumLow | reserved | extraIsize | checksumHigh | changeTimeExtra | modifiedTimeExtra
  | accessTimeExtra | creationTime | creationTimeExtra | versionHigh | projectId
  deriving DecidableEq, Repr

/-- The inode layout (src/ext4/inode/inode.rs 14-44, src/ext4/inode/linux_1.rs 3-5,
src/ext4/inode/linux_2.rs 3-10). -/
def inodeLayout : Layout InodeField :=
  [(.fileMode, 2), (.userIdLow, 2), (.sizeLow, 4), (.accessTime, 4), (.changeTime, 4),
   (.modifiedTime, 4), (.deleteTime, 4), (.groupIdLow, 2), (.linksCount, 2), (.blockCountLow, 4),
   (.flags, 4), (.version, 4), (.blocks, 60), (.generation, 4), (.fileAclLow, 4), (.sizeHigh, 4),
   (.obsoleteFragmentAddress, 4), (.blockCountHigh, 2), (.fileAclHigh, 2), (.userIdHigh, 2),
   (.groupIdHigh, 2), (.checksumLow, 2), (.reserved, 2), (.extraIsize, 2), (.checksumHigh, 2),
   (.changeTimeExtra, 4), (.modifiedTimeExtra, 4), (.accessTimeExtra, 4), (.creationTime, 4),
   (.creationTimeExtra, 4), (.versionHigh, 4), (.projectId, 4)]

/-- `Inode` (src/ext4/inode/inode.rs 46-49). -/
structure Inode where
  storage : Bytes
  metadataChecksumSeed : Option Nat
  deriving DecidableEq, Repr

namespace Inode

/-- `source_length` (src/ext4/inode/inode.rs 58-66). -/
def sourceLength (buffer : Bytes) : Nat :=
  let off := inodeLayout.offset .extraIsize
  let extra :=
    if buffer.length > off + inodeLayout.width .extraIsize then
      inodeLayout.nat .little buffer .extraIsize
    else 0
  off + min extra inodeLayout.size

/-- The storage (src/ext4/inode/inode.rs 68-70): slicing the array or the buffer beyond its end
panics. -/
def makeStorage (buffer : Bytes) : Res Bytes :=
  let n := sourceLength buffer
  if inodeLayout.size < n then .panic
  else if buffer.length < n then .panic
  else .ok (overwrite (zeros inodeLayout.size) (buffer.take n))

/-- The checksum seed (src/ext4/inode/inode.rs 73-86).  The slice of the buffer is inside it,
because the storage was made before. -/
def makeSeed (sb : Ext4Superblock) (number : Nat) (buffer : Bytes) : Option Nat :=
  if hasBit sb.readOnlyCompatibleFeatures 10 then
    some (ext4Crc32c (ext4Crc32c (BitVec.ofNat 32 sb.checksumSeed) (leBytes 4 number))
      (slice buffer (inodeLayout.offset .generation) (inodeLayout.width .generation))).toNat
  else none

/-- `Inode::new` (src/ext4/inode/inode.rs 52-92). -/
def new (sb : Ext4Superblock) (number : Nat) (buffer : Bytes) : Res Inode := do
  let storage ← makeStorage buffer
  pure { storage, metadataChecksumSeed := makeSeed sb number buffer }

/-- `self.view().<field>().read()` (src/ext4/inode/inode.rs 211-213). -/
def get (i : Inode) (f : InodeField) : Nat := inodeLayout.nat .little i.storage f

/-- `file_mode` (src/ext4/inode/inode.rs 94-96). -/
def fileMode (i : Inode) : FileMode := ⟨i.get .fileMode⟩
/-- `file_type` (src/ext4/inode/inode.rs 98-100). -/
def fileType (i : Inode) : FileType := i.fileMode.fileType
/-- `permissions` (src/ext4/inode/inode.rs 102-104). -/
def permissions (i : Inode) : Nat := i.fileMode.permissions
/-- `owner_user_id` (src/ext4/inode/inode.rs 106-111). -/
def ownerUserId (i : Inode) : Nat := fromLowHigh 16 (i.get .userIdLow) (i.get .userIdHigh)
/-- `file_size_bytes` (src/ext4/inode/inode.rs 113-118). -/
def fileSizeBytes (i : Inode) : Nat := fromLowHigh 32 (i.get .sizeLow) (i.get .sizeHigh)
/-- `access_time` (src/ext4/inode/inode.rs 120-125). -/
def accessTime (i : Inode) : Int := decodeExtraTime (i.get .accessTime) (i.get .accessTimeExtra)
/-- `change_time` (src/ext4/inode/inode.rs 127-132). -/
def changeTime (i : Inode) : Int := decodeExtraTime (i.get .changeTime) (i.get .changeTimeExtra)
/-- `modified_time` (src/ext4/inode/inode.rs 134-139). -/
def modifiedTime (i : Inode) : Int :=
  decodeExtraTime (i.get .modifiedTime) (i.get .modifiedTimeExtra)
/-- `delete_time` (src/ext4/inode/inode.rs 141-143), in nanoseconds. -/
def deleteTime (i : Inode) : Int := (i.get .deleteTime : Int) * 1000000000
/-- `group_id` (src/ext4/inode/inode.rs 145-150). -/
def groupId (i : Inode) : Nat := fromLowHigh 16 (i.get .groupIdLow) (i.get .groupIdHigh)
/-- `links_count` (src/ext4/inode/inode.rs 152-154). -/
def linksCount (i : Inode) : Nat := i.get .linksCount
/-- `block_count` (src/ext4/inode/inode.rs 156-161). -/
def blockCount (i : Inode) : Nat := fromLowHigh 32 (i.get .blockCountLow) (i.get .blockCountHigh)
/-- `flags` (src/ext4/inode/inode.rs 163-165; all bits are kept, src/ext4/inode/flags.rs
41-43). -/
def flags (i : Inode) : Nat := i.get .flags
/-- `version` (src/ext4/inode/inode.rs 167-172). -/
def version (i : Inode) : Nat := fromLowHigh 32 (i.get .version) (i.get .versionHigh)
/-- `blocks_buffer` (src/ext4/inode/inode.rs 174-176). -/
def blocksBuffer (i : Inode) : Bytes := inodeLayout.bytes i.storage .blocks
/-- `generation` (src/ext4/inode/inode.rs 178-180). -/
def generation (i : Inode) : Nat := i.get .generation
/-- `file_acl` (src/ext4/inode/inode.rs 182-187). -/
def fileAcl (i : Inode) : Nat := fromLowHigh 32 (i.get .fileAclLow) (i.get .fileAclHigh)
/-- `checksum` (src/ext4/inode/inode.rs 189-194). -/
def checksum (i : Inode) : Nat := fromLowHigh 16 (i.get .checksumLow) (i.get .checksumHigh)
/-- `creation_time` (src/ext4/inode/inode.rs 196-201). -/
def creationTime (i : Inode) : Int :=
  decodeExtraTime (i.get .creationTime) (i.get .creationTimeExtra)
/-- `project_id` (src/ext4/inode/inode.rs 203-205). -/
def projectId (i : Inode) : Nat := i.get .projectId

end Inode
end MdRecover
