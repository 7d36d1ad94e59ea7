import Verif.Spec.Array
import Verif.Spec.AnyMembers

/-! The disks of which the data of an array can come. -/

namespace MdSpec
open MdRecover

/-- All superblocks agree on RAID level 6 with the layout number `L`, `n` devices, chunks of `c` sectors and `size`
sectors per device; or they agree that this is what the array is being changed to. -/
def Agreed {D : Type} (devices : List (MdDevice D)) (L n c size : Nat) : Prop :=
  ∃ alg, Raid6Algorithm.fromLayout L = some alg ∧
    ((AllHave devices fun s => s.algorithm = .raid6 alg ∧ s.raidDeviceCount = n ∧ s.sectorsPerDevice = size ∧
        s.chunkSize = c) ∨
      AllHave devices fun s => ∃ st, s.reshapeStatus = some st ∧ st.newAlgorithm = .raid6 alg ∧
        s.raidDeviceCount + st.deltaDevices = n ∧ s.sectorsPerDevice = size ∧ st.newChunkSize = c)

end MdSpec
