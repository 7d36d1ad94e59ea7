import Verif.Model.IO
import Verif.Model.Superblock

namespace MdRecover

/-- Fields of the version-1 layout (src/md/superblock/version_1/superblock.rs 17-50). -/
inductive V1Field where
  | magic | majorVersion | features | pad0 | arrayUuid | arrayName | ctime | level | layout
  | sectorsPerDevice | chunkSize | raidDeviceCount | bitmapOffsetOrPplInfo | reshapeStatus
  | dataOffset | dataSize | superOffset | recoveryOffsetOrJournalTail | deviceRoleIndex
  | countCorrectedRead | deviceUuid | deviceFlags | badBlockLogShift | badBlockLogSize
  | badBlockLogOffset | utime | eventCount | resyncOffset | superblockChecksum | maxDevices | pad3
  | devRoles
  deriving DecidableEq, Repr

/-- Fields of the nested reshape status (src/md/superblock/version_1/reshape_status.rs 12-19). -/
inductive V1Reshape where
  | newLevel | reshapePosition | deltaDevices | newLayout | newChunkSize | newOffset
  deriving DecidableEq, Repr

/-- Layout of the nested reshape status (src/md/superblock/version_1/reshape_status.rs 12-19). -/
def v1ReshapeLayout : Layout V1Reshape :=
  [(.newLevel, 4), (.reshapePosition, 8), (.deltaDevices, 4), (.newLayout, 4), (.newChunkSize, 4),
   (.newOffset, 4)]

/-- The version-1 layout (src/md/superblock/version_1/superblock.rs 17-50). -/
def v1Layout : Layout V1Field :=
  [(.magic, 4), (.majorVersion, 4), (.features, 4), (.pad0, 4), (.arrayUuid, 16), (.arrayName, 32),
   (.ctime, 8), (.level, 4), (.layout, 4), (.sectorsPerDevice, 8), (.chunkSize, 4),
   (.raidDeviceCount, 4), (.bitmapOffsetOrPplInfo, 4), (.reshapeStatus, v1ReshapeLayout.size),
   (.dataOffset, 8), (.dataSize, 8), (.superOffset, 8), (.recoveryOffsetOrJournalTail, 8),
   (.deviceRoleIndex, 4), (.countCorrectedRead, 4), (.deviceUuid, 16), (.deviceFlags, 1),
   (.badBlockLogShift, 1), (.badBlockLogSize, 2), (.badBlockLogOffset, 4), (.utime, 8),
   (.eventCount, 8), (.resyncOffset, 8), (.superblockChecksum, 4), (.maxDevices, 4), (.pad3, 32),
   (.devRoles, 0)]

/-- `SuperblockVersion1<S>` (src/md/superblock/version_1/superblock.rs 52-55). -/
structure SuperblockV1 where
  buffer : Bytes
  minor : Nat

/-- `bitflags` `contains` for a single bit: bit `i` of the flags is set. -/
def hasBit (flags i : Nat) : Bool := flags.testBit i

namespace SuperblockV1

/-- `self.buffer.<field>().read()` (src/md/superblock/version_1/superblock.rs 17, LittleEndian). -/
def get (s : SuperblockV1) (f : V1Field) : Nat := v1Layout.nat .little s.buffer f

/-- `valid_magic` (src/md/superblock/version_1/superblock.rs 80-82). -/
def validMagic (s : SuperblockV1) : Bool := s.get .magic = 0xa92b4efc
/-- `major_version` (src/md/superblock/version_1/superblock.rs 156-158). -/
def majorVersion (s : SuperblockV1) : Nat := s.get .majorVersion
/-- `valid_major_version` (src/md/superblock/version_1/superblock.rs 84-86). -/
def validMajorVersion (s : SuperblockV1) : Bool := s.majorVersion = 1
/-- `valid` (src/md/superblock/version_1/superblock.rs 152-154). -/
def valid (s : SuperblockV1) : Bool := s.validMagic && s.validMajorVersion
/-- `features` (src/md/superblock/version_1/superblock.rs 88-90; all bits retained,
src/md/superblock/version_1/features.rs 26-28). -/
def features (s : SuperblockV1) : Nat := s.get .features
/-- `bitmap_offset` (src/md/superblock/version_1/superblock.rs 108-116; `BITMAP_OFFSET` = 1). -/
def bitmapOffset (s : SuperblockV1) : Option Nat :=
  if hasBit s.features 0 then some (leNat (v1Layout.bytes s.buffer .bitmapOffsetOrPplInfo)) else none
/-- `ppl_info` (src/md/superblock/version_1/superblock.rs 118-124; `PPL` = 1024): offset (a 16-bit signed
value, src/md/superblock/version_1/ppl_info.rs 6-9) and size. -/
def pplInfo (s : SuperblockV1) : Option (Int × Nat) :=
  if hasBit s.features 10 then
    let b := v1Layout.bytes s.buffer .bitmapOffsetOrPplInfo
    let off := leNat (slice b 0 2)
    some (if off < 32768 then (off : Int) else (off : Int) - 65536, leNat (slice b 2 2))
  else none
/-- `recovery_offset` (src/md/superblock/version_1/superblock.rs 126-132; `RECOVERY_OFFSET` = 2). -/
def recoveryOffset (s : SuperblockV1) : Option Nat :=
  if hasBit s.features 1 then some (s.get .recoveryOffsetOrJournalTail) else none
/-- `journal_tail` (src/md/superblock/version_1/superblock.rs 134-140; `JOURNAL` = 512). -/
def journalTail (s : SuperblockV1) : Option Nat :=
  if hasBit s.features 9 then some (s.get .recoveryOffsetOrJournalTail) else none
/-- `algorithm` (src/md/superblock/version_1/superblock.rs 172-174, `level`/`layout` 142-148). -/
def algorithm (s : SuperblockV1) : MdAlgorithm :=
  MdAlgorithm.fromLevelAndLayout (s.get .level) (s.get .layout)
/-- `From<ReshapeStatusVersion1> for ReshapeStatus`
(src/md/superblock/version_1/reshape_status.rs 21-34). -/
def reshape (s : SuperblockV1) : ReshapeStatus :=
  let b := v1Layout.bytes s.buffer .reshapeStatus
  let g := v1ReshapeLayout.nat .little b
  { newAlgorithm := MdAlgorithm.fromLevelAndLayout (g .newLevel) (g .newLayout)
    reshapePosition := g .reshapePosition
    deltaDevices := g .deltaDevices
    newChunkSize := g .newChunkSize
    newOffset := g .newOffset }
/-- `reshape_status` (src/md/superblock/version_1/superblock.rs 188-194; `RESHAPE_ACTIVE` = 4). -/
def reshapeStatus (s : SuperblockV1) : Option ReshapeStatus :=
  if hasBit s.features 2 then some s.reshape else none
/-- `read_u16_into::<LittleEndian>` (crate byteorder) for `count` values from a byte slice; not enough bytes
is an error. -/
def readU16Into (count : Nat) (b : Bytes) : Option (List Nat) :=
  if b.length < 2 * count then none
  else some ((List.range count).map fun i => leNat (slice b (2 * i) 2))
/-- `device_roles` (src/md/superblock/version_1/superblock.rs 208-219): a failing `read_u16_into` panics.
`MdDeviceRole::from_u16` is src/md/superblock/role.rs 14-16. -/
def deviceRoles (s : SuperblockV1) : Res (List Role) :=
  let count := min (s.get .maxDevices) ((v1Layout.tail s.buffer .devRoles).length / 2)
  match readU16Into count (v1Layout.tail s.buffer .devRoles) with
  | none => .panic
  | some l => .ok (l.map Role.mk)

/-- `impl Superblock for SuperblockVersion1` (src/md/superblock/version_1/superblock.rs 151-220) as the record
of its method values; where `device_roles` would panic the table is empty (C39 proves that it never does). -/
def toSuperblock (s : SuperblockV1) : Superblock where
  majorVersion := s.majorVersion
  minorVersion := s.minor
  arrayUuid := ArrayUuid.fromU8x16 (v1Layout.bytes s.buffer .arrayUuid)
  arrayName := some (v1Layout.bytes s.buffer .arrayName)
  algorithm := s.algorithm
  sectorsPerDevice := s.get .sectorsPerDevice
  chunkSize := s.get .chunkSize
  raidDeviceCount := s.get .raidDeviceCount
  reshapeStatus := s.reshapeStatus
  dataOffset := s.get .dataOffset
  deviceRoleIndex := s.get .deviceRoleIndex
  eventCount := s.get .eventCount
  deviceRoles := s.deviceRoles.toOption.getD []

/-- `SuperblockVersion1::read` (src/md/superblock/version_1/superblock.rs 60-69; `MAX_SIZE` line 58). -/
def read {S : Type} (reader : Bytes → SM S (Nat × Bytes)) (minor : Nat) : SM S SuperblockV1 := do
  let buf ← readExact reader (zeros 4096)
  if (SuperblockV1.mk buf minor).valid then pure { buffer := buf, minor := minor }
  else SM.fail .invalidData

end SuperblockV1
end MdRecover
