import Verif.Model.StreamDevice

/-! Native block devices.  Models /repo/src/block_device/native.rs and /repo/src/ioctl/blk.rs on top of the
kernel model of `Model/FileDevice`.  The two ioctls may fail at any call, as a schedule in the world
dictates; on a file that is not a block device they fail always. -/

namespace MdRecover

/-- The kernel: files as in `Kernel` (the open files of src/block_device/internal.rs 7-8), and the future
behaviour of ioctls: `some code` fails, `none` answers (when the list is used up, all answer). -/
structure NativeKernel where
  files : Kernel
  ioctls : List (Option Nat)

/-- `NativeBlockDevice` (src/block_device/native.rs 9-12): a handle on an open file description, the content
of the file, and its physical block size if it is a block device. -/
structure NativeDev where
  ofd : Nat
  content : Bytes
  physical : Option Nat

namespace NativeDev

/-- What an ioctl of src/ioctl/blk.rs 5-6 answers: `ENOTTY` (25) unless the file is a block device. -/
def reply : Option Nat → Res Nat
  | some v => .ok v
  | none => .err (.os 25)

/-- `Ioctl::ioctl` (crate iocuddle, called at src/block_device/native.rs 28 and 34). -/
def ioctl (answer : Option Nat) : SM NativeKernel Nat := fun s =>
  match s.ioctls with
  | [] => (s, reply answer)
  | none :: rest => ({ s with ioctls := rest }, reply answer)
  | some code :: rest => ({ s with ioctls := rest }, .err (.os code))

/-- `block_size` (src/block_device/native.rs 27-31): `BLKPBSZGET` (src/ioctl/blk.rs 6). -/
def blockSize (d : NativeDev) : SM NativeKernel Nat := ioctl d.physical

/-- `block_count` (src/block_device/native.rs 33-37): `BLKGETSIZE64` (src/ioctl/blk.rs 5) divided by the
block size; division by zero panics. -/
def blockCount (d : NativeDev) : SM NativeKernel Nat := do
  let size ← ioctl (d.physical.map fun _ => d.content.length)
  let bs ← blockSize d
  SM.lift (divP size bs)

/-- A call on the `InternalFile` (src/block_device/native.rs 11), given the block size passed to it. -/
def onFile {α : Type} (bs : Nat) (m : SM (Kernel × FileDev) α) : SM (NativeKernel × NativeDev) α :=
  SM.zoom (fun s => (s.1.files, ⟨s.2.ofd, s.2.content, bs⟩))
    (fun s t => ({ s.1 with files := t.1 }, s.2)) m

/-- `read_block` (src/block_device/native.rs 39-41). -/
def readBlock (blockNumber : Nat) (buf : Bytes) : SM (NativeKernel × NativeDev) (Nat × Bytes) := do
  let s ← SM.get
  let bs ← SM.zoom Prod.fst (fun s w => (w, s.2)) (blockSize s.2)
  onFile bs (FileDev.readBlock blockNumber buf)

/-- `NativeBlockDevice` with its traits (src/block_device/native.rs 26-60); `try_clone` gives a handle on the
same open file description (43-47); `Read` and `Seek` go to the file and use no block size (50-60). -/
def streamDev : StreamDev NativeKernel NativeDev where
  blockSize := blockSize
  blockCount := blockCount
  readBlock := readBlock
  tryClone d := SM.lift (.ok d)
  read buf := onFile 0 (FileDev.readRaw buf)
  seek pos := onFile 0 (FileDev.seekRaw pos)

end NativeDev
end MdRecover
