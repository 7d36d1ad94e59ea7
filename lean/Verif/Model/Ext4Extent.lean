import Verif.Model.Ext4Inode

/- Extent trees.  Models /repo/src/ext4/extent/. -/

namespace MdRecover
variable [Build]

/-- Fields of an extent (src/ext4/extent/extent.rs 5-10). -/
inductive ExtentField where
  | firstFileBlockNumber | length | firstFsBlockNumberHigh | firstFsBlockNumberLow
  deriving DecidableEq, Repr

/-- The extent layout (src/ext4/extent/extent.rs 5-10). -/
def extentLayout : Layout ExtentField :=
  [(.firstFileBlockNumber, 4), (.length, 2), (.firstFsBlockNumberHigh, 2),
   (.firstFsBlockNumberLow, 4)]

/-- `Extent` (src/ext4/extent/extent.rs 12). -/
structure Extent where
  storage : Bytes
  deriving DecidableEq, Repr

namespace Extent

/-- Reading a field (src/ext4/extent/extent.rs 19-36). -/
def get (e : Extent) (f : ExtentField) : Nat := extentLayout.nat .little e.storage f
/-- `first_file_block_number` (src/ext4/extent/extent.rs 19-21). -/
def firstFileBlockNumber (e : Extent) : Nat := e.get .firstFileBlockNumber
/-- `initialized` (src/ext4/extent/extent.rs 23-25). -/
def initialized (e : Extent) : Bool := e.get .length &&& 0x8000 != 0x8000
/-- `length` (src/ext4/extent/extent.rs 27-29). -/
def length (e : Extent) : Nat := e.get .length &&& 0x7fff
/-- `first_fs_block_number` (src/ext4/extent/extent.rs 31-36). -/
def firstFsBlockNumber (e : Extent) : Nat :=
  fromLowHigh 32 (e.get .firstFsBlockNumberLow) (e.get .firstFsBlockNumberHigh)

end Extent

/-- Fields of an index entry (src/ext4/extent/index.rs 5-10). -/
inductive IndexField where
  | block | leafLow | leafHigh | unused
  deriving DecidableEq, Repr

/-- The index layout (src/ext4/extent/index.rs 5-10). -/
def indexLayout : Layout IndexField :=
  [(.block, 4), (.leafLow, 4), (.leafHigh, 2), (.unused, 2)]

/-- `ExtentIndex` (src/ext4/extent/index.rs 12). -/
structure ExtentIndex where
  storage : Bytes
  deriving DecidableEq, Repr

namespace ExtentIndex

/-- Reading a field (src/ext4/extent/index.rs 19-28). -/
def get (e : ExtentIndex) (f : IndexField) : Nat := indexLayout.nat .little e.storage f
/-- `block` (src/ext4/extent/index.rs 19-21). -/
def block (e : ExtentIndex) : Nat := e.get .block
/-- `leaf` (src/ext4/extent/index.rs 23-28). -/
def leaf (e : ExtentIndex) : Nat := fromLowHigh 32 (e.get .leafLow) (e.get .leafHigh)

end ExtentIndex

/-- Fields of the node header (src/ext4/extent/header.rs 6-12). -/
inductive HeaderField where
  | magic | entries | max | depth | generation
  deriving DecidableEq, Repr

/-- The node header (src/ext4/extent/header.rs 6-12). -/
def headerLayout : Layout HeaderField :=
  [(.magic, 2), (.entries, 2), (.max, 2), (.depth, 2), (.generation, 4)]

/-- `ExtentTreeInternal` (src/ext4/extent/tree.rs 175-179). -/
structure ExtentNode where
  storage : Bytes
  checksumSeed : Option Nat
  deriving DecidableEq, Repr

namespace ExtentNode

/-- `from_inode` (src/ext4/extent/tree.rs 181-188). -/
def fromInode (i : Inode) : ExtentNode := ⟨i.blocksBuffer, none⟩
/-- `from_block` (src/ext4/extent/tree.rs 193-198). -/
def fromBlock (i : Inode) (block : Bytes) : ExtentNode := ⟨block, i.metadataChecksumSeed⟩

/-- Reading a header field (src/ext4/extent/tree.rs 236-250).  The storage is as long as the header:
60 bytes from an inode, or a block of at least 1024 bytes. -/
def header (n : ExtentNode) (f : HeaderField) : Nat := headerLayout.nat .little n.storage f
/-- `entry_count` (src/ext4/extent/tree.rs 236-238). -/
def entryCount (n : ExtentNode) : Nat := n.header .entries
/-- `max_entries` (src/ext4/extent/tree.rs 240-242). -/
def maxEntries (n : ExtentNode) : Nat := n.header .max
/-- `depth` (src/ext4/extent/tree.rs 244-246). -/
def depth (n : ExtentNode) : Nat := n.header .depth
/-- `generation` (src/ext4/extent/tree.rs 248-250). -/
def generation (n : ExtentNode) : Nat := n.header .generation

/-- `entries_size` (src/ext4/extent/tree.rs 267-269). -/
def entriesSize (n : ExtentNode) : Nat := n.entryCount * indexLayout.size

/-- `view().entries_and_tail()` (src/ext4/extent/tree.rs 170-173): what follows the header. -/
def entriesAndTail (n : ExtentNode) : Bytes := n.storage.drop headerLayout.size

/-- `entries_storage` (src/ext4/extent/tree.rs 252-254): slicing beyond the end panics. -/
def entriesStorage (n : ExtentNode) : Res Bytes :=
  if n.entriesAndTail.length < n.entriesSize then .panic
  else .ok (n.entriesAndTail.take n.entriesSize)

/-- The storage of entry `pos`, which is less than the entry count (src/ext4/extent/tree.rs
81-90 and 121-130; extents and index entries are of the same size). -/
def entryAt (n : ExtentNode) (pos : Nat) : Res Bytes := do
  let s ← n.entriesStorage
  pure (slice s (pos * indexLayout.size) indexLayout.size)

/-- `valid` (src/ext4/extent/tree.rs 200-234); the tail is a `u32` (src/ext4/extent/tail.rs
3-5). -/
def valid (n : ExtentNode) : Bool :=
  if n.storage.length < headerLayout.size then false
  else if n.header .magic != 0xf30a then false
  else
    let tailSize := match n.checksumSeed with
      | some _ => 4
      | none => 0
    if n.entriesAndTail.length < n.entriesSize + tailSize then false
    else match n.checksumSeed with
      | none => true
      | some seed =>
        leNat (slice n.entriesAndTail n.entriesSize 4)
          == (ext4Crc32c (BitVec.ofNat 32 seed)
              (n.storage.take (headerLayout.size + n.entriesSize))).toNat

end ExtentNode

/-- `ExtentTree` with `ExtentBranch` and `ExtentLeaf` (src/ext4/extent/tree.rs 12-16, 66, 106). -/
inductive ExtentTree where
  | branch (n : ExtentNode)
  | leaf (n : ExtentNode)
  deriving DecidableEq, Repr

namespace ExtentTree

/-- `from_internal` (src/ext4/extent/tree.rs 35-41). -/
def fromInternal (n : ExtentNode) : ExtentTree := if n.depth = 0 then .leaf n else .branch n

/-- `from_inode` (src/ext4/extent/tree.rs 19-27): bit 19 is `HAS_EXTENTS`, bit 28
`HAS_INLINE_DATA` (src/ext4/inode/flags.rs 26, 30). -/
def fromInode (i : Inode) : Option ExtentTree :=
  if hasBit i.flags 19 && !hasBit i.flags 28 then some (fromInternal (.fromInode i)) else none

/-- `from_block` (src/ext4/extent/tree.rs 31-33). -/
def fromBlock (i : Inode) (block : Bytes) : ExtentTree := fromInternal (.fromBlock i block)

/-- The node (src/ext4/extent/tree.rs 66, 106). -/
def node : ExtentTree → ExtentNode
  | .branch n => n
  | .leaf n => n

/-- `valid` (src/ext4/extent/tree.rs 43-48). -/
def valid (t : ExtentTree) : Bool := t.node.valid

/-- `entry_count` (src/ext4/extent/tree.rs 50-55). -/
def entryCount (t : ExtentTree) : Nat := t.node.entryCount

end ExtentTree
end MdRecover
