import Verif.Model.Raid5
import Verif.Model.Raid6

namespace MdRecover

/-- `MdAlgorithm` (src/md/algorithm.rs 6-11). -/
inductive MdAlgorithm where
  | unsupported (level layout : Nat)
  | raid5 (a : Raid5Algorithm)
  | raid6 (a : Raid6Algorithm)
  deriving DecidableEq, Repr

namespace MdAlgorithm

/-- `MdAlgorithm::from_level_and_layout` (src/md/algorithm.rs 14-21). -/
def fromLevelAndLayout (level layout : Nat) : MdAlgorithm :=
  (match level with
    | 5 => (Raid5Algorithm.fromLayout layout).map raid5
    | 6 => (Raid6Algorithm.fromLayout layout).map raid6
    | _ => none).getD (unsupported level layout)

/-- `MdAlgorithm::parity_device_count` (src/md/algorithm.rs 23-29). -/
def parityDeviceCount : MdAlgorithm → Option Nat
  | unsupported _ _ => none
  | raid5 _ => some 1
  | raid6 _ => some 2

/-- `MdAlgorithm::read_sector` (src/md/algorithm.rs 31-50). -/
def readSector {σ : Type} (alg : MdAlgorithm) (sector sectorsPerChunk raidDeviceCount : Nat)
    (f : Raid6Algorithm.ReadSectorFn σ) (s : σ) : σ × Res Bytes :=
  match alg with
  | raid6 a => a.readSector sector sectorsPerChunk raidDeviceCount f s
  | _ => (s, .err .unsupported)

end MdAlgorithm
end MdRecover
