import Verif.Model.InMemory
import Verif.Model.FileDevice
import Verif.Model.Reader

namespace MdRecover

/-- A type with `BlockDevice + Read + Seek` (the bound used in src/md/device/device.rs 11-14 and
src/ext4/fs.rs). -/
structure StreamDev (W D : Type) extends BlockDev W D where
  read : Bytes → SM (W × D) (Nat × Bytes)
  seek : SeekFrom → SM (W × D) Nat

/-- `InMemoryBlockDevice` with its `Read` and `Seek` (src/block_device/in_memory.rs 54-78). -/
def InMemory.streamDev : StreamDev Unit InMemory where
  toBlockDev := InMemory.dev
  read buf := SM.zoom Prod.snd (fun s d => (s.1, d)) (InMemory.read buf)
  seek pos := SM.zoom Prod.snd (fun s d => (s.1, d)) (InMemory.seek pos)

/-- `NativeBlockDevice`/`FileBlockDevice` with `Read` and `Seek` passed to the file
(src/block_device/native.rs 50-60, src/block_device/file.rs 55-65). -/
def FileDev.streamDev : StreamDev Kernel FileDev where
  toBlockDev := FileDev.dev
  read := FileDev.readRaw
  seek := FileDev.seekRaw

/-- `BlockDeviceReader` is itself a `BlockDevice + Read + Seek` (src/block_device/reader.rs 25-98). -/
def Reader.streamDev {W D : Type} (dev : BlockDev W D) : StreamDev W (Reader D) where
  blockSize := Reader.blockSize dev
  blockCount := Reader.blockCount dev
  readBlock := Reader.readBlock dev
  tryClone := Reader.tryClone dev
  read := Reader.read dev
  seek := Reader.seek dev

end MdRecover
