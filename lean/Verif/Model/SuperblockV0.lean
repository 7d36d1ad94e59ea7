import Verif.Model.IO
import Verif.Model.Superblock

namespace MdRecover

/-- Fields of the version-0 layouts (src/md/superblock/version_0/little_endian/superblock.rs 8-45 and
src/md/superblock/version_0/big_endian/superblock.rs 8-45, which differ only in byte order). -/
inductive V0Field where
  | magic | majorVersion | minorVersion | patchVersion | gvalidWords | arrayUuid0 | ctime | level
  | sectorsPerDevice | totalDeviceCount | raidDeviceCount | mdMinor | notPersistent | arrayUuid1
  | arrayUuid2 | arrayUuid3 | reserved0 | utime | state | activeDeviceCount | workingDeviceCount
  | failedDeviceCount | spareDeviceCount | superblockChecksum | eventCount | checkpointEventCount
  | recoveryCheckpoint | reshapeStatus | reserved1 | layout | chunkSize | rootPv | rootBlock
  | reserved2 | devices | thisDevice
  deriving DecidableEq, Repr

/-- Fields of the nested reshape status (src/md/superblock/version_0/little_endian/reshape_status.rs 12-18
and the big-endian copy). -/
inductive V0Reshape where
  | reshapePosition | newLevel | deltaDevices | newLayout | newChunkSize
  deriving DecidableEq, Repr

/-- Fields of a device descriptor (src/md/superblock/version_0/little_endian/device_descriptor.rs 9-16 and the
big-endian copy). -/
inductive V0Descriptor where
  | index | major | minor | role | state | reserved
  deriving DecidableEq, Repr

/-- Layout of the reshape status (src/md/superblock/version_0/little_endian/reshape_status.rs 12-18). -/
def v0ReshapeLayout : Layout V0Reshape :=
  [(.reshapePosition, 8), (.newLevel, 4), (.deltaDevices, 4), (.newLayout, 4), (.newChunkSize, 4)]

/-- Layout of a device descriptor (src/md/superblock/version_0/little_endian/device_descriptor.rs 9-16). -/
def v0DescriptorLayout : Layout V0Descriptor :=
  [(.index, 4), (.major, 4), (.minor, 4), (.role, 4), (.state, 4), (.reserved, 108)]

/-- The version-0 layout (src/md/superblock/version_0/little_endian/superblock.rs 8-45);
`MAX_DEVICES` is 27 (src/md/superblock/version_0/superblock.rs 56). -/
def v0Layout : Layout V0Field :=
  [(.magic, 4), (.majorVersion, 4), (.minorVersion, 4), (.patchVersion, 4), (.gvalidWords, 4),
   (.arrayUuid0, 4), (.ctime, 4), (.level, 4), (.sectorsPerDevice, 4), (.totalDeviceCount, 4),
   (.raidDeviceCount, 4), (.mdMinor, 4), (.notPersistent, 4), (.arrayUuid1, 4), (.arrayUuid2, 4),
   (.arrayUuid3, 4), (.reserved0, 64), (.utime, 4), (.state, 4), (.activeDeviceCount, 4),
   (.workingDeviceCount, 4), (.failedDeviceCount, 4), (.spareDeviceCount, 4),
   (.superblockChecksum, 4), (.eventCount, 8), (.checkpointEventCount, 8), (.recoveryCheckpoint, 4),
   (.reshapeStatus, v0ReshapeLayout.size), (.reserved1, 56), (.layout, 4), (.chunkSize, 4),
   (.rootPv, 4), (.rootBlock, 4), (.reserved2, 240), (.devices, v0DescriptorLayout.size * 27),
   (.thisDevice, v0DescriptorLayout.size)]

/-- `DeviceDescriptor` (src/md/superblock/version_0/device_descriptor.rs 3-9). -/
structure DeviceDescriptor where
  index : Nat
  major : Nat
  minor : Nat
  role : Role
  state : Nat
  deriving DecidableEq, Repr

/-- `DeviceDescriptor::is_valid` (src/md/superblock/version_0/device_descriptor.rs 12-14). -/
def DeviceDescriptor.isValid (d : DeviceDescriptor) : Bool := d.role.isValid

/-- Conversion of a descriptor view (src/md/superblock/version_0/little_endian/device_descriptor.rs, `From`,
and the big-endian copy). -/
def DeviceDescriptor.ofView (e : Endian) (b : Bytes) : DeviceDescriptor :=
  let g := v0DescriptorLayout.nat e b
  { index := g .index, major := g .major, minor := g .minor, role := ⟨g .role⟩, state := g .state }

/-- `SuperblockVersion0` (src/md/superblock/version_0/superblock.rs 13-47).  Simplified: the fields that
no method ever returns are omitted. -/
structure SuperblockV0 where
  magic : Nat
  majorVersion : Nat
  minorVersion : Nat
  arrayUuid0 : Nat
  arrayUuid1 : Nat
  arrayUuid2 : Nat
  arrayUuid3 : Nat
  level : Nat
  layout : Nat
  sectorsPerDevice : Nat
  totalDeviceCount : Nat
  raidDeviceCount : Nat
  chunkSize : Nat
  eventCount : Nat
  reshapeStatus : ReshapeStatus
  devices : List DeviceDescriptor
  thisDevice : DeviceDescriptor

namespace SuperblockV0

/-- `From<ReshapeStatusVersion0> for ReshapeStatus`
(src/md/superblock/version_0/little_endian/reshape_status.rs 20-33 and the big-endian copy). -/
def reshapeOfView (e : Endian) (b : Bytes) : ReshapeStatus :=
  let g := v0ReshapeLayout.nat e b
  { newAlgorithm := MdAlgorithm.fromLevelAndLayout (g .newLevel) (g .newLayout)
    reshapePosition := g .reshapePosition
    deltaDevices := g .deltaDevices
    newChunkSize := g .newChunkSize
    newOffset := 0 }

/-- `From<View> for SuperblockVersion0` (src/md/superblock/version_0/little_endian/superblock.rs 49-97 and
src/md/superblock/version_0/big_endian/superblock.rs 49-97).  Simplified: the fields that no method ever
returns (patch version, times, counters, state, checksum, ...) are not copied. -/
def ofView (e : Endian) (b : Bytes) : SuperblockV0 :=
  let g := v0Layout.nat e b
  let devs := v0Layout.bytes b .devices
  { magic := g .magic
    majorVersion := g .majorVersion
    minorVersion := g .minorVersion
    arrayUuid0 := g .arrayUuid0
    arrayUuid1 := g .arrayUuid1
    arrayUuid2 := g .arrayUuid2
    arrayUuid3 := g .arrayUuid3
    level := g .level
    layout := g .layout
    sectorsPerDevice := g .sectorsPerDevice
    totalDeviceCount := g .totalDeviceCount
    raidDeviceCount := g .raidDeviceCount
    chunkSize := g .chunkSize
    eventCount := g .eventCount
    reshapeStatus := reshapeOfView e (v0Layout.bytes b .reshapeStatus)
    devices := (List.range 27).map fun i =>
      DeviceDescriptor.ofView e (slice devs (i * v0DescriptorLayout.size) v0DescriptorLayout.size)
    thisDevice := DeviceDescriptor.ofView e (v0Layout.bytes b .thisDevice) }

/-- `valid_magic` (src/md/superblock/version_0/superblock.rs 78-80). -/
def validMagic (s : SuperblockV0) : Bool := s.magic = 0xa92b4efc
/-- `valid_major_version` (src/md/superblock/version_0/superblock.rs 82-84). -/
def validMajorVersion (s : SuperblockV0) : Bool := s.majorVersion = 0
/-- `valid_device_descriptors` (src/md/superblock/version_0/superblock.rs 86-91). -/
def validDeviceDescriptors (s : SuperblockV0) : Bool :=
  (s.devices.take s.totalDeviceCount).all DeviceDescriptor.isValid
/-- `valid` (src/md/superblock/version_0/superblock.rs 95-97). -/
def valid (s : SuperblockV0) : Bool :=
  s.validMagic && s.validMajorVersion && s.validDeviceDescriptors

/-- `impl Superblock for SuperblockVersion0` (src/md/superblock/version_0/superblock.rs 94-163). -/
def toSuperblock (s : SuperblockV0) : Superblock where
  majorVersion := s.majorVersion
  minorVersion := s.minorVersion
  arrayUuid :=
    if s.minorVersion < 90 then ArrayUuid.fromU32 s.arrayUuid0
    else ArrayUuid.fromU32x4 s.arrayUuid0 s.arrayUuid1 s.arrayUuid2 s.arrayUuid3
  arrayName := none
  algorithm := MdAlgorithm.fromLevelAndLayout s.level s.layout
  sectorsPerDevice := s.sectorsPerDevice
  chunkSize := s.chunkSize
  raidDeviceCount := s.raidDeviceCount
  reshapeStatus := some s.reshapeStatus
  dataOffset := 0
  deviceRoleIndex := s.thisDevice.index
  eventCount := s.eventCount
  deviceRoles := (s.devices.take s.totalDeviceCount).map (·.role)

/-- The choice of byte order in `read` (src/md/superblock/version_0/superblock.rs 65-70). -/
def decode (b : Bytes) : SuperblockV0 :=
  if v0Layout.nat .little b .magic = 0xa92b4efc then ofView .little b else ofView .big b

/-- `SuperblockVersion0::read` (src/md/superblock/version_0/superblock.rs 62-76; `SIZE_ON_DISK` 50-54). -/
def read {S : Type} (reader : Bytes → SM S (Nat × Bytes)) : SM S SuperblockV0 := do
  let buf ← readExact reader (zeros v0Layout.size)
  if (decode buf).valid then pure (decode buf) else SM.fail .invalidData

end SuperblockV0
end MdRecover
