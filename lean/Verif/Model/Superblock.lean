import Verif.Model.Format
import Verif.Model.Layout

namespace MdRecover

/-- `MdDeviceRole` (src/md/superblock/role.rs 5-6). -/
structure Role where
  val : Nat
  deriving DecidableEq, Repr

namespace Role

/-- `MAX_POSITION` (src/md/superblock/role.rs 9). -/
def maxPosition : Nat := 0xfeff
/-- `SPARE` (src/md/superblock/role.rs 10). -/
def spare : Nat := 0xffff
/-- `FAULTY` (src/md/superblock/role.rs 11). -/
def faulty : Nat := 0xfffe
/-- `JOURNAL` (src/md/superblock/role.rs 12). -/
def journal : Nat := 0xfffd

/-- `is_valid` (src/md/superblock/role.rs 18-20): not in the half-open range. -/
def isValid (r : Role) : Bool := !(decide (maxPosition ≤ r.val) && decide (r.val < journal))
/-- `device_number` (src/md/superblock/role.rs 22-28). -/
def deviceNumber (r : Role) : Option Nat := if r.val ≤ maxPosition then some r.val else none
/-- `is_spare` (src/md/superblock/role.rs 30-32). -/
def isSpare (r : Role) : Bool := r.val = spare
/-- `is_faulty` (src/md/superblock/role.rs 34-36). -/
def isFaulty (r : Role) : Bool := r.val = faulty
/-- `is_journal` (src/md/superblock/role.rs 38-40). -/
def isJournal (r : Role) : Bool := r.val = journal
/-- `is_invalid` (src/md/superblock/role.rs 42-44). -/
def isInvalid (r : Role) : Bool := decide (maxPosition < r.val) && decide (r.val < journal)

end Role

/-- `ArrayUuid` (src/md/superblock/array_uuid.rs 6-10). -/
inductive ArrayUuid where
  | short (b : Bytes)
  | long (b : Bytes)
  deriving DecidableEq, Repr

namespace ArrayUuid

/-- `ArrayUuid::from_u32` (src/md/superblock/array_uuid.rs 13-17). -/
def fromU32 (v : Nat) : ArrayUuid := short (leBytes 4 v)
/-- `ArrayUuid::from_u32_4` (src/md/superblock/array_uuid.rs 19-23). -/
def fromU32x4 (v0 v1 v2 v3 : Nat) : ArrayUuid :=
  long (leBytes 4 v0 ++ leBytes 4 v1 ++ leBytes 4 v2 ++ leBytes 4 v3)
/-- `ArrayUuid::from_u8_16` (src/md/superblock/array_uuid.rs 25-27). -/
def fromU8x16 (b : Bytes) : ArrayUuid := long b

end ArrayUuid

/-- `ReshapeStatus` (src/md/superblock/reshape_status.rs 5-11). -/
structure ReshapeStatus where
  newAlgorithm : MdAlgorithm
  reshapePosition : Nat
  deltaDevices : Nat
  newChunkSize : Nat
  newOffset : Nat
  deriving DecidableEq, Repr

/-- `dyn Superblock` (src/md/superblock/superblock.rs 8-23): the values of the methods of the trait, all of
which are pure functions of the superblock (`valid` is not used after reading). -/
structure Superblock where
  majorVersion : Nat
  minorVersion : Nat
  arrayUuid : ArrayUuid
  arrayName : Option Bytes
  algorithm : MdAlgorithm
  sectorsPerDevice : Nat
  chunkSize : Nat
  raidDeviceCount : Nat
  reshapeStatus : Option ReshapeStatus
  dataOffset : Nat
  deviceRoleIndex : Nat
  eventCount : Nat
  deviceRoles : List Role
  deriving DecidableEq, Repr

/-- `MdDeviceSuperblock` (src/md/device/superblock.rs 3-7). -/
inductive DeviceSuperblock where
  | superblock (s : Superblock)
  | tooSmall
  | missing
  deriving DecidableEq, Repr

/-- `MdDeviceSuperblock::as_option` (src/md/device/superblock.rs 10-15). -/
def DeviceSuperblock.asOption : DeviceSuperblock → Option Superblock
  | superblock s => some s
  | _ => none

namespace MdFormat

/-- `MdFormat::from_superblock` (src/md/format.rs 14-21). -/
def fromSuperblock (d : DeviceSuperblock) : Option MdFormat :=
  d.asOption.map fun s =>
    { algorithm := s.algorithm, deviceCount := s.raidDeviceCount,
      sectorsPerDevice := s.sectorsPerDevice, chunkSize := s.chunkSize }

/-- The inner closures of `from_superblock_reshape_status` (src/md/format.rs 25-34), with
`DeviceCount::checked_add` (src/md/units/device_count.rs 11-15). -/
def ofReshape (s : Superblock) (st : ReshapeStatus) : Option MdFormat :=
  (checkedAdd32 s.raidDeviceCount st.deltaDevices).map fun n =>
    { algorithm := st.newAlgorithm, deviceCount := n,
      sectorsPerDevice := s.sectorsPerDevice, chunkSize := st.newChunkSize }

/-- `MdFormat::from_superblock_reshape_status` (src/md/format.rs 23-36). -/
def fromSuperblockReshapeStatus (d : DeviceSuperblock) : Option MdFormat :=
  d.asOption.bind fun s => s.reshapeStatus.bind (ofReshape s)

end MdFormat
end MdRecover
