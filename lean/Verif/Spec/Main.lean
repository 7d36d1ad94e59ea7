import Verif.Model.Main
import Verif.Spec.Probe
import Verif.Spec.Device
import Verif.Spec.Diagnosis

/-! What the program should print for a list of paths, given what is at each path. -/

namespace MdSpec
open MdRecover

/-- Machine bounds of what is at a path: a block device has a physical block size that is a non-zero `u32`
and a size that is a `u64`. -/
def Sane (f : OsFile) : Prop := ∀ bs, f.physical = some bs → 0 < bs ∧ bs < U32 ∧ f.content.length < U64

/-- The bytes of a block device in whole physical blocks. -/
def wholeBlocks (f : OsFile) : Bytes :=
  match f.physical with
  | some bs => f.content.take (f.content.length / bs * bs)
  | none => []

/-- A block device as a disk. -/
def asDisk (f : OsFile) : Disk :=
  ⟨f.physical.getD 1, f.content.length / f.physical.getD 1, wholeBlocks f⟩

/-- Why a path cannot be used, if so: it cannot be opened, or it is not a block device (`ENOTTY`, 25). -/
def unusable (fs : Bytes → Except Nat OsFile) (path : Bytes) : Option ErrKind :=
  match fs path with
  | .error code => some (.os code)
  | .ok f => if f.physical.isSome then none else some (.os 25)

/-- The line printed for a path that cannot be used. -/
def complaint (fs : Bytes → Except Nat OsFile) (path : Bytes) : Option (Bytes × ErrKind) :=
  (unusable fs path).map fun e => (path, e)

/-- The diagnosis says of these devices what it should. -/
structure Reports {D : Type} (devices : List (MdDevice D)) (d : Diagnosis) : Prop where
  deviceTooSmall : Listing (fun m => m.superblock = .tooSmall) devices d.deviceTooSmall
  missingSuperblock : Listing (fun m => m.superblock = .missing) devices d.missingSuperblock
  arrayUuid : Disagreement (fun s => some s.arrayUuid) devices d.arrayUuid
  arrayName : Disagreement (fun s => s.arrayName) devices d.arrayName
  algorithm : Disagreement (fun s => some s.algorithm) devices d.algorithm
  size : Disagreement (fun s => some s.sectorsPerDevice) devices d.size
  chunkSize : Disagreement (fun s => some s.chunkSize) devices d.chunkSize
  deviceCount : Disagreement (fun s => some s.raidDeviceCount) devices d.deviceCount
  reshape : Disagreement (fun s => some s.reshapeStatus) devices d.reshape
  eventCount : Disagreement (fun s => some s.eventCount) devices d.eventCount
  deviceRoles : Disagreement (fun s => some s.deviceRoles) devices d.deviceRoles
  deviceRoleIndex : Duplicates (fun s => some s.deviceRoleIndex) devices d.deviceRoleIndex

/-- The devices are those at the paths, in order: the `j`-th has id `first + j`, refers to the `j`-th path,
and what was found on it is one of the possibilities for it. -/
def Members (possible : OsFile → DeviceSuperblock → Prop) (fs : Bytes → Except Nat OsFile) (first : Nat)
    (paths : List Bytes) (devices : List (MdDevice NativeDev)) : Prop :=
  devices.length = paths.length ∧ ∀ j path, paths[j]? = some path →
    ∃ (m : MdDevice NativeDev) (f : OsFile), devices[j]? = some m ∧ fs path = .ok f ∧ f.physical.isSome ∧
      m.id = ⟨first + j, some path⟩ ∧ possible f m.superblock

/-- What may be found on a device whose reads may fail: what is expected, or, after a failed read, another
superblock that is on the device, or none. -/
def FoundDespiteErrors (content : Bytes) (sb : DeviceSuperblock) : Prop :=
  Expected content sb ∨ (12288 ≤ content.length ∧ (sb = .missing ∨ Genuine content sb))

end MdSpec
