import Verif.Spec.Array
import Verif.Spec.ArrayRead

/-! Some of the disks of an array. -/

namespace MdSpec
open MdRecover

/-- The devices `others` are disks of a RAID6 array of `n` devices with `size` sectors per device in chunks of `c`
sectors, not being reshaped; there may be fewer than `n`.  By what their superblocks say together, each of them is one
of the members, and it contains what that member should: the disk `good d`.  None of them is a spare. -/
structure SomeMembers {D : Type} (Is : D → Disk → Prop) (alg : Raid6Algorithm) (n c size : Nat) (good : Nat → Disk)
    (others : List (MdDevice D)) : Prop where
  superblocks : AllHave others fun s => s.algorithm = .raid6 alg ∧ s.raidDeviceCount = n ∧
    s.sectorsPerDevice = size ∧ s.chunkSize = c ∧ s.reshapeStatus = none
  member : ∀ x ∈ others, ∃ d, d < n ∧ Claims others x d ∧ Is x.device (good d)

end MdSpec
