import Verif.Spec.Main

/-! When a diagnosis has nothing to complain about, and when it should. -/

namespace MdSpec
open MdRecover

/-- The diagnosis has no complaint. -/
structure Clean (d : Diagnosis) : Prop where
  deviceTooSmall : d.deviceTooSmall = none
  missingSuperblock : d.missingSuperblock = none
  arrayUuid : d.arrayUuid = none
  arrayName : d.arrayName = none
  algorithm : d.algorithm = none
  size : d.size = none
  chunkSize : d.chunkSize = none
  deviceCount : d.deviceCount = none
  reshape : d.reshape = none
  eventCount : d.eventCount = none
  deviceRoles : d.deviceRoles = none
  deviceRoleIndex : d.deviceRoleIndex = none

/-- Two superblocks describe the same array in the same state.  A version-0 superblock has no name. -/
structure SameArray (s t : Superblock) : Prop where
  arrayUuid : s.arrayUuid = t.arrayUuid
  arrayName : ∀ a b, s.arrayName = some a → t.arrayName = some b → a = b
  algorithm : s.algorithm = t.algorithm
  size : s.sectorsPerDevice = t.sectorsPerDevice
  chunkSize : s.chunkSize = t.chunkSize
  deviceCount : s.raidDeviceCount = t.raidDeviceCount
  reshape : s.reshapeStatus = t.reshapeStatus
  eventCount : s.eventCount = t.eventCount
  deviceRoles : s.deviceRoles = t.deviceRoles

/-- Nothing is wrong with the devices at the paths as far as superblocks tell: each device has one
(`found j` on that at the `j`-th path), they describe the same array in the same state, and no two are of the
same device of the array. -/
structure NothingWrong (fs : Bytes → Except Nat OsFile) (paths : List Bytes) (found : Nat → Superblock) :
    Prop where
  has : ∀ j path f, paths[j]? = some path → fs path = .ok f →
    Expected (wholeBlocks f) (.superblock (found j))
  same : ∀ i j, i < paths.length → j < paths.length → SameArray (found i) (found j)
  distinct : ∀ i j, i < paths.length → j < paths.length →
    (found i).deviceRoleIndex = (found j).deviceRoleIndex → i = j

end MdSpec
