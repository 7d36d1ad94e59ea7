import Verif.Model.Basic

namespace MdRecover

/-- `SectorNumber::in_chunk` (src/md/units/sector_number.rs 14-25): chunk number and sector in chunk. -/
def inChunk (sector sectorsPerChunk : Nat) : Option (Nat × Nat) := do
  let c ← checkedDiv sector sectorsPerChunk
  let r ← checkedRem sector sectorsPerChunk
  some (c, r)

/-- `ChunkNumber::as_data_device_and_stripe_number` (src/md/units/chunk_number.rs 9-22). -/
def dataDeviceAndStripe (chunk dataDeviceCount : Nat) : Option (Nat × Nat) := do
  let r ← checkedRem chunk dataDeviceCount
  let d ← toU32 r
  let s ← checkedDiv chunk dataDeviceCount
  some (d, s)

end MdRecover
