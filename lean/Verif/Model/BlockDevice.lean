import Verif.Model.IO

namespace MdRecover

/-- The `BlockDevice` trait (src/block_device/block_device.rs 4-12) for a type `D` of devices in a world
`W` (operating system, disks).  Methods may change the world and may fail at any call; `readBlock` also
has `&mut self`.  `readBlock` takes the buffer and gives the returned count and the buffer afterwards. -/
structure BlockDev (W D : Type) where
  blockSize : D → SM W Nat
  blockCount : D → SM W Nat
  readBlock : Nat → Bytes → SM (W × D) (Nat × Bytes)
  tryClone : D → SM W D

/-- `BlockCount::size_bytes` (src/block_device/block_count.rs 24-28). -/
def sizeBytes (blockCount blockSize : Nat) : Option Nat := checkedMul64 blockCount blockSize

/-- `BlockNumber::byte_pos` (src/block_device/block_number.rs 10-14). -/
def bytePos (blockNumber blockSize : Nat) : Option Nat := checkedMul64 blockNumber blockSize

/-- `std::io::SeekFrom`: `start` a u64, the others an i64. -/
inductive SeekFrom where
  | start (pos : Nat)
  | fromEnd (offset : Int)
  | current (offset : Int)
  deriving DecidableEq, Repr

end MdRecover
