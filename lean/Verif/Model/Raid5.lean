import Verif.Model.Units

namespace MdRecover

/-- `Raid5Algorithm` (src/md/raid5/algorithm.rs 3-17). -/
inductive Raid5Algorithm where
  | leftAsymmetric
  | rightAsymmetric
  | leftSymmetric
  | rightSymmetric
  | parity0
  | parityN
  deriving DecidableEq, Repr

namespace Raid5Algorithm

/-- `Raid5Algorithm::from_layout` (src/md/raid5/algorithm.rs 20-30). -/
def fromLayout : Nat → Option Raid5Algorithm
  | 0 => some leftAsymmetric
  | 1 => some rightAsymmetric
  | 2 => some leftSymmetric
  | 3 => some rightSymmetric
  | 4 => some parity0
  | 5 => some parityN
  | _ => none

/-- Parity device, the expression at src/md/raid5/algorithm.rs 44-54. -/
def parity64 (alg : Raid5Algorithm) (raidDeviceCount dataDeviceCount stripe : Nat) : Option Nat :=
  match alg with
  | leftAsymmetric | leftSymmetric => do
      checkedSub dataDeviceCount (← checkedRem stripe raidDeviceCount)
  | rightAsymmetric | rightSymmetric => checkedRem stripe raidDeviceCount
  | parity0 => some 0
  | parityN => some dataDeviceCount

/-- Data device, the expression at src/md/raid5/algorithm.rs 60-77. -/
def data64 (alg : Raid5Algorithm) (raidDeviceCount dataDevice parity : Nat) : Option Nat :=
  match alg with
  | leftAsymmetric | rightAsymmetric =>
      checkedAdd64 dataDevice (if dataDevice ≥ parity then 1 else 0)
  | leftSymmetric | rightSymmetric => do
      checkedRem (← checkedAdd64 (← checkedAdd64 parity 1) dataDevice) raidDeviceCount
  | parity0 => checkedAdd64 dataDevice 1
  | parityN => some dataDevice

/-- `Raid5Algorithm::compute_sector` (src/md/raid5/algorithm.rs 32-89).
Result: (sector in device, parity device, data device). -/
def computeSector (alg : Raid5Algorithm) (sector sectorsPerChunk raidDeviceCount : Nat) :
    Option (Nat × Nat × Nat) := do
  let (chunk, sectorInChunk) ← inChunk sector sectorsPerChunk
  let dataDeviceCount ← checkedSub raidDeviceCount 1
  let (dataDevice, stripe) ← dataDeviceAndStripe chunk dataDeviceCount
  let parity ← toU32 (← parity64 alg raidDeviceCount dataDeviceCount stripe)
  let data ← toU32 (← data64 alg raidDeviceCount dataDevice parity)
  -- lines 82-86
  let sectorInDevice ← checkedAdd64 (← checkedMul64 stripe sectorsPerChunk) sectorInChunk
  some (sectorInDevice, parity, data)

end Raid5Algorithm
end MdRecover
