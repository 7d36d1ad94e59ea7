import Verif.Model.StreamDevice
import Verif.Model.Array
import Verif.Model.Ext4Superblock
import Verif.Model.Ext4Group
import Verif.Model.Ext4Inode

/- The filesystem object.  Models /repo/src/ext4/fs.rs.  `usize` is 64 bits. -/

namespace MdRecover
variable [Build]

/-- `Ext4Fs<D>` (src/ext4/fs.rs 14-21).  The `Rc`s are shared, never changed values. -/
structure Ext4Fs (D : Type) where
  device : D
  superblock : Ext4Superblock
  groups : List BlockGroup

namespace Ext4Fs
variable {W D : Type}

/-- The known bits of `IncompatibleFeatures`
(src/ext4/superblock/incompatible_features.rs 7-27). -/
def knownIncompatible : List Nat := [0, 1, 2, 3, 4, 6, 7, 8, 9, 10, 12, 13, 14, 15, 16]

/-- `contains_unknown_bits` (crate bitflags, called at src/ext4/fs.rs 44) on a `u32`. -/
def containsUnknownBits (v : Nat) : Bool :=
  (List.range 32).any fun i => v.testBit i && !knownIncompatible.contains i

/-- The test at src/ext4/fs.rs 37-45. -/
def unsupported (sb : Ext4Superblock) : Bool :=
  sb.blocksPerGroup == 0 || sb.groupDescriptorSize == 0 || sb.inodesPerGroup == 0
    || sb.creatorOs != .linux || !hasBit sb.incompatibleFeatures 6
    || containsUnknownBits sb.incompatibleFeatures

/-- `u64::div_ceil` (Rust core): division by zero panics. -/
def divCeilP (a b : Nat) : Res Nat := if b = 0 then .panic else .ok ((a + b - 1) / b)

/-- `Vec::with_capacity(n)` for elements of `size` bytes: panics if the size in bytes exceeds
`isize::MAX` (Rust std).  Running out of memory is not modelled. -/
def withCapacity (n size : Nat) : Res Unit := if n * size < 2 ^ 63 then .ok () else .panic

/-- The loop at src/ext4/fs.rs 54-58. -/
def readGroups (dev : StreamDev W D) (size : Nat) : Nat → SM (W × D) (List BlockGroup)
  | 0 => pure []
  | n + 1 => do
    let buf ← readExact dev.read (zeros size)
    let rest ← readGroups dev size n
    pure (BlockGroup.new buf :: rest)

/-- The body of `open` (src/ext4/fs.rs 28-58), with the device as state. -/
def openBody (dev : StreamDev W D) : SM (W × D) (Ext4Superblock × List BlockGroup) := do
  let _ ← dev.seek (.start 1024)
  let sb ← Ext4Superblock.read dev.read
  let groupCount ← SM.lift (divCeilP sb.blocksCount sb.blocksPerGroup)
  if unsupported sb then SM.fail .unsupported
  else do
    let bs ← SM.lift sb.blockSizeBytes
    let start ← SM.lift (mul64 (sb.firstDataBlock + 1) bs)
    let _ ← dev.seek (.start start)
    SM.lift (withCapacity groupCount groupLayout.size)
    let groups ← readGroups dev sb.groupDescriptorSize groupCount
    pure (sb, groups)

/-- `Ext4Fs::open` (src/ext4/fs.rs 27-65): takes the device; an error drops it. -/
def «open» (dev : StreamDev W D) (d : D) : SM W (Ext4Fs D) :=
  SM.withLocal d do
    let (sb, groups) ← openBody dev
    let (_, d') ← SM.get
    pure { device := d', superblock := sb, groups }

/-- A method call on the `device` field (src/ext4/fs.rs 105, 107, 119, 124). -/
def onDevice {α : Type} (m : SM (W × D) α) : SM (W × Ext4Fs D) α :=
  SM.zoom (fun s => (s.1, s.2.device)) (fun s t => (t.1, { s.2 with device := t.2 })) m

/-- `block_size` (src/ext4/fs.rs 67-69). -/
def blockSize (fs : Ext4Fs D) : Res Nat := fs.superblock.blockSizeBytes

/-- The byte offset of an inode (src/ext4/fs.rs 84-103).  A zero `inodes_per_group` panics. -/
def inodeOffset (fs : Ext4Fs D) (number : Nat) : Res Nat :=
  if number = 0 ∨ fs.superblock.inodesCount < number then .err .invalidInput
  else do
    let group ← divP (number - 1) fs.superblock.inodesPerGroup
    let index := (number - 1) % fs.superblock.inodesPerGroup
    let g ← Res.ofOption .invalidInput fs.groups[group]?
    let inside ← longMul 32 index fs.superblock.inodeSize
    let bs ← fs.superblock.blockSizeBytes
    let base ← Res.ofOption .invalidData (checkedMul64 g.inodeTableBlock bs)
    Res.ofOption .invalidData (checkedAdd64 base inside)

/-- `read_inode` (src/ext4/fs.rs 83-109). -/
def readInode (dev : StreamDev W D) (number : Nat) : SM (W × Ext4Fs D) Inode := do
  let (_, fs) ← SM.get
  let off ← SM.lift (inodeOffset fs number)
  let _ ← onDevice (dev.seek (.start off))
  let buffer ← onDevice (readExact dev.read (zeros fs.superblock.inodeSize))
  SM.lift (Inode.new fs.superblock number buffer)

/-- `read_root_inode` (src/ext4/fs.rs 71-73). -/
def readRootInode (dev : StreamDev W D) : SM (W × Ext4Fs D) Inode := readInode dev 2

/-- `try_clone` (src/ext4/fs.rs 75-81). -/
def tryClone (dev : StreamDev W D) (fs : Ext4Fs D) : SM W (Ext4Fs D) := do
  let d ← dev.tryClone fs.device
  pure { fs with device := d }

/-- `read_block` (src/ext4/fs.rs 111-127): fills the whole buffer, also if it is longer than a
block.  What the buffer holds after an error is not modelled. -/
def readBlock (dev : StreamDev W D) (block : Nat) (buf : Bytes) : SM (W × Ext4Fs D) Bytes := do
  let (_, fs) ← SM.get
  let bs ← SM.lift fs.blockSize
  if buf.length < bs then SM.fail .invalidInput
  else do
    let p ← SM.lift (Res.ofOption .invalidInput (checkedMul64 block bs))
    let _ ← onDevice (dev.seek (.start p))
    onDevice (readExact dev.read buf)

end Ext4Fs
end MdRecover
