import Verif.Model.Report

/-! The texts of quantities, and of device ids.  Models the `Display` implementations that `derive_more` makes
from the `display` attributes of the unit types, and that of `MdDeviceId`. -/

namespace MdRecover

/-- The unit types (src/block_device/block_number.rs 6-8, block_count.rs 5-22, block_size.rs 3-21,
src/md/units/sector_number.rs 9-11, sector_count.rs 7-11, chunk_number.rs 4-6, stripe_number.rs 3-5,
device_number.rs 5-7, device_count.rs 5-9, metadata_event_count.rs 5-9, checkpoint_event_count.rs 5-9,
src/ext4/units/fs_block_number.rs 6-8, file_block_number.rs 8-10, block_count.rs 4-21, inode_number.rs 7-9,
inode_count.rs 5-23). -/
inductive UnitType where
  | blockNumber
  | blockCount
  | blockSize
  | sectorNumber
  | sectorCount
  | chunkNumber
  | stripeNumber
  | deviceNumber
  | deviceCount
  | metadataEventCount
  | checkpointEventCount
  | fsBlockNumber
  | fileBlockNumber
  | fsBlockCount
  | inodeNumber
  | inodeCount
  deriving DecidableEq

/-- `Display` of the unit types (the `display` attributes at the lines given at `UnitType`). -/
def UnitType.display : UnitType → Nat → Bytes
  | .blockNumber, n => ascii "block #" ++ Debug.decimal n
  | .blockCount, n => Debug.decimal n ++ ascii " blocks"
  | .blockSize, n => Debug.decimal n ++ ascii " bytes"
  | .sectorNumber, n => ascii "sector #" ++ Debug.decimal n
  | .sectorCount, n => Debug.decimal n ++ ascii " sectors"
  | .chunkNumber, n => ascii "chunk #" ++ Debug.decimal n
  | .stripeNumber, n => ascii "stripe #" ++ Debug.decimal n
  | .deviceNumber, n => ascii "md device #" ++ Debug.decimal n
  | .deviceCount, n => Debug.decimal n ++ ascii " devices"
  | .metadataEventCount, n => Debug.decimal n ++ ascii " metadata events"
  | .checkpointEventCount, n => Debug.decimal n ++ ascii " superblock events"
  | .fsBlockNumber, n => ascii "filesystem block #" ++ Debug.decimal n
  | .fileBlockNumber, n => ascii "file block #" ++ Debug.decimal n
  | .fsBlockCount, n => Debug.decimal n ++ ascii " blocks"
  | .inodeNumber, n => ascii "inode #" ++ Debug.decimal n
  | .inodeCount, n => Debug.decimal n ++ ascii " inodes"

/-- `Display for MdDeviceId` (src/md/device/id.rs 44-51).  `quote` stands for `maybe_quote` of the crate
`os_display`. -/
def MdDeviceId.display (quote : Bytes → Bytes) (i : MdDeviceId) : Bytes :=
  match i.userReference with
  | none => ascii "[anonymous]"
  | some r => quote r

end MdRecover
