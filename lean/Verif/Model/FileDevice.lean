import Verif.Model.BlockDevice

/-! File-backed devices.  The kernel side (Rust `std::fs::File`, Linux) is modelled as: each open file
description has one offset, shared by all handles cloned from it (`try_clone` is `dup`); `read` may return
fewer bytes than asked for, or fail, as a schedule in the world dictates.  File contents do not change
(md-recover opens files read-only and nobody else writes). -/

namespace MdRecover

/-- What the kernel does at the next `read`: deliver at most `n + 1` bytes, or fail. -/
inductive ReadEvent where
  | upTo (n : Nat)
  | fail (code : Nat)

/-- The kernel: offset of each open file description, the future behaviour of `read` calls (when the
schedule is used up, reads deliver all that is asked for), and how far beyond the end of its file each
open file description may be positioned: not at all on a block device (`blkdev_llseek`), up to the
largest file size of the filesystem, below 2^63, for other files. -/
structure Kernel where
  offset : Nat → Nat
  schedule : List ReadEvent
  beyond : Nat → Nat

/-- A `File` handle wrapped by `FileBlockDevice` (src/block_device/file.rs 9-13, with `InternalFile`,
src/block_device/internal.rs 7-8): the open file description it refers to, the bytes of the file, and the
block size.  For `NativeBlockDevice` (src/block_device/native.rs) the block size comes from an ioctl and
is a constant of the device. -/
structure FileDev where
  ofd : Nat
  content : Bytes
  blockSize : Nat

namespace FileDev

/-- `File::seek(SeekFrom)` (Linux lseek): sets the shared offset; targets that are negative or too far
beyond the end are EINVAL. -/
def seekRaw (pos : SeekFrom) : SM (Kernel × FileDev) Nat := fun s =>
  let target : Int := match pos with
    | .start p => p
    | .fromEnd off => s.2.content.length + off
    | .current off => s.1.offset s.2.ofd + off
  if target < 0 ∨ (s.2.content.length + s.1.beyond s.2.ofd : Nat) < target then (s, .err .invalidInput)
  else (({ s.1 with offset := fun i => if i = s.2.ofd then target.toNat else s.1.offset i }, s.2),
    .ok target.toNat)

/-- Delivery of `k` bytes by a `read` at the shared offset. -/
def deliver (k : Nat) (buf : Bytes) : SM (Kernel × FileDev) (Nat × Bytes) := fun s =>
  let off := s.1.offset s.2.ofd
  let data := slice s.2.content off (min k buf.length)
  (({ s.1 with offset := fun i => if i = s.2.ofd then off + data.length else s.1.offset i }, s.2),
    .ok (data.length, overwrite buf data))

/-- `File::read` (Linux read). -/
def readRaw (buf : Bytes) : SM (Kernel × FileDev) (Nat × Bytes) := fun s =>
  match s.1.schedule with
  | [] => deliver buf.length buf s
  | .upTo n :: rest => deliver (n + 1) buf ({ s.1 with schedule := rest }, s.2)
  | .fail c :: rest => (({ s.1 with schedule := rest }, s.2), .err (.os c))

/-- `InternalFile::read_block` (src/block_device/internal.rs 11-29). -/
def readBlock (blockNumber : Nat) (buf : Bytes) : SM (Kernel × FileDev) (Nat × Bytes) := do
  let (_, d) ← SM.get
  if buf.length < d.blockSize then SM.fail .invalidInput
  else do
    let p ← SM.lift (Res.ofOption .invalidData (bytePos blockNumber d.blockSize))
    let _ ← seekRaw (.start p)
    let block ← readExact readRaw (buf.take d.blockSize)
    pure (d.blockSize, overwrite buf block)

/-- `impl BlockDevice for FileBlockDevice` (src/block_device/file.rs 28-53): the count is the size from
the metadata divided by the block size (zero panics); `try_clone` gives a handle on the same open file
description (src/block_device/internal.rs 31-33). -/
def dev : BlockDev Kernel FileDev where
  blockSize d := SM.lift (.ok d.blockSize)
  blockCount d := SM.lift (divP d.content.length d.blockSize)
  readBlock := readBlock
  tryClone d := SM.lift (.ok d)

end FileDev
end MdRecover
