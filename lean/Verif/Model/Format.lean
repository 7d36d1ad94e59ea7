import Verif.Model.Algorithm

namespace MdRecover

/-- `MdFormat` (src/md/format.rs 5-11).  Sizes and chunk size in sectors. -/
structure MdFormat where
  algorithm : MdAlgorithm
  deviceCount : Nat
  sectorsPerDevice : Nat
  chunkSize : Nat
  deriving DecidableEq, Repr

namespace MdFormat

/-- `MdFormat::parity_device_count` (src/md/format.rs 38-40). -/
def parityDeviceCount (f : MdFormat) : Option Nat := f.algorithm.parityDeviceCount

/-- `MdFormat::data_device_count` (src/md/format.rs 42-46). -/
def dataDeviceCount (f : MdFormat) : Option Nat := do
  checkedSub f.deviceCount (← f.parityDeviceCount)

/-- `MdFormat::data_sector_count` (src/md/format.rs 48-52). -/
def dataSectorCount (f : MdFormat) : Option Nat := do
  checkedMul64 f.sectorsPerDevice (← f.dataDeviceCount)

end MdFormat
end MdRecover
