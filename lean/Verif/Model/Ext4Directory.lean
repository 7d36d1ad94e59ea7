import Verif.Model.Ext4File
import Verif.Model.Ext4String

/- Directories.  Models /repo/src/ext4/directory/ and the choice between directories and regular files
in /repo/src/ext4/file.rs and /repo/src/ext4/fs.rs. -/

namespace MdRecover
variable [Build]

/-- Fields of a directory entry (src/ext4/directory/dir_entry.rs 7-13). -/
inductive DirEntryField where
  | inode | recordLength | nameLength | fileType | name
  deriving DecidableEq, Repr

/-- The layout of a directory entry (src/ext4/directory/dir_entry.rs 7-13); `name` is open-ended. -/
def dirEntryLayout : Layout DirEntryField :=
  [(.inode, 4), (.recordLength, 2), (.nameLength, 1), (.fileType, 1), (.name, 0)]

/-- `DirEntry` (src/ext4/directory/dir_entry.rs 15). -/
structure DirEntry where
  storage : Bytes
  deriving DecidableEq, Repr

namespace DirEntry

/-- `from_buf` (src/ext4/directory/dir_entry.rs 18-29): the entry and the rest of the buffer. -/
def fromBuf (buf : Bytes) : Option DirEntry × Bytes :=
  if dirEntryLayout.offset .name ≤ buf.length then
    let recordLength := dirEntryLayout.nat .little buf .recordLength
    let nameLength := dirEntryLayout.nat .little buf .nameLength
    if recordLength ≤ buf.length ∧ dirEntryLayout.offset .name + nameLength ≤ recordLength then
      (some ⟨buf.take recordLength⟩, buf.drop recordLength)
    else (none, buf)
  else (none, buf)

/-- `name` (src/ext4/directory/dir_entry.rs 33-35). -/
def name (e : DirEntry) : Ext4String := .fromNullTerminated (dirEntryLayout.tail e.storage .name)
/-- `file_type` (src/ext4/directory/dir_entry.rs 37-39). -/
def fileType (e : DirEntry) : DirFileType := .ofNat (dirEntryLayout.nat .little e.storage .fileType)
/-- `inode` (src/ext4/directory/dir_entry.rs 41-43). -/
def inode (e : DirEntry) : Nat := dirEntryLayout.nat .little e.storage .inode

end DirEntry

/-- Fields of the checksum tail (src/ext4/directory/dir_entry_tail.rs 3-9). -/
inductive DirTailField where
  | reservedZero1 | recordLength | reservedZero2 | reservedFileType | checksum
  deriving DecidableEq, Repr

/-- The checksum tail (src/ext4/directory/dir_entry_tail.rs 3-9). -/
def dirTailLayout : Layout DirTailField :=
  [(.reservedZero1, 4), (.recordLength, 2), (.reservedZero2, 1), (.reservedFileType, 1),
   (.checksum, 4)]

/-- `Ext4DirectoryBlock` (src/ext4/directory/block.rs 5-9). -/
structure DirBlock where
  storage : Bytes
  pos : Nat
  len : Nat
  deriving DecidableEq, Repr

namespace DirBlock

/-- The check of the tail (src/ext4/directory/block.rs 21-34). -/
def tailOk (block : Bytes) (off seed : Nat) : Bool :=
  let tail := block.drop off
  if dirTailLayout.nat .little tail .reservedZero1 ≠ 0
      ∨ dirTailLayout.nat .little tail .recordLength ≠ dirTailLayout.size
      ∨ dirTailLayout.nat .little tail .reservedZero2 ≠ 0
      ∨ dirTailLayout.nat .little tail .reservedFileType ≠ 0xde then false
  else dirTailLayout.nat .little tail .checksum
    == (ext4Crc32c (BitVec.ofNat 32 seed) (block.take off)).toNat

/-- `from_block_and_checksum_seed` (src/ext4/directory/block.rs 12-46); for blocks shorter
than the tail the subtraction of line 19 panics, or (without overflow checks) the slice of line 21 does. -/
def fromBlock (block : Bytes) : Option Nat → Res (Option DirBlock)
  | none => .ok (some ⟨block, 0, block.length⟩)
  | some seed => do
    let off ← subP block.length dirTailLayout.size
    pure (if tailOk block off seed then some ⟨block, 0, off⟩ else none)

/-- `read_next_entry` (src/ext4/directory/block.rs 48-54): the entry and the block with its new
position, which is where the rest begins.  The slice of line 49 panics outside the storage. -/
def readNextEntry (b : DirBlock) : Res (Option DirEntry × DirBlock) :=
  if b.len < b.pos ∨ b.storage.length < b.len then .panic
  else
    let r := DirEntry.fromBuf (slice b.storage b.pos (b.len - b.pos))
    .ok (r.1, { b with pos := b.len - r.2.length })

end DirBlock

/-- `CurrentBlock` (src/ext4/directory/directory.rs 18-22). -/
inductive CurrentBlock where
  | start
  | block (b : DirBlock)
  | «end»
  deriving DecidableEq, Repr

/-- `Ext4Directory` (src/ext4/directory/directory.rs 10-16). -/
structure Ext4Directory (D : Type) where
  internal : Ext4File D
  current : CurrentBlock

namespace Ext4Directory
variable {W D : Type}

/-- `open` (src/ext4/directory/directory.rs 28-37): bit 12 is `HASH_INDEXED_DIRECTORY`
(src/ext4/inode/flags.rs 19). -/
def «open» (fs : Ext4Fs D) (inode : Inode) : Res (Ext4Directory D) :=
  if hasBit inode.flags 12 then .err .unsupported
  else do
    let internal ← Ext4File.open fs inode
    pure { internal, current := .start }

/-- A call on the `internal` field (src/ext4/directory/directory.rs 63). -/
def onFile {α : Type} (m : SM (W × Ext4File D) α) : SM (W × Ext4Directory D) α :=
  SM.zoom (fun s => (s.1, s.2.internal)) (fun s t => (t.1, { s.2 with internal := t.2 })) m

/-- Assignment to `current_block` (src/ext4/directory/directory.rs 41, 51); also the new position of
a block. -/
def setCurrent (b : CurrentBlock) : SM (W × Ext4Directory D) Unit :=
  SM.modify fun s => (s.1, { s.2 with current := b })

/-- What becomes of the bytes read (src/ext4/directory/directory.rs 64-77, 41-44, 51-54). -/
def toBlock (blockSize : Nat) (seed : Option Nat) (bytesRead : Nat) (storage : Bytes) :
    Res CurrentBlock :=
  if bytesRead = 0 then .ok .end
  else if bytesRead = blockSize then do
    let b ← DirBlock.fromBlock storage seed
    let b ← Res.ofOption .invalidData b
    pure (.block b)
  else .err .invalidData

/-- `self.current_block = match self.read_next_block()? …` (src/ext4/directory/directory.rs 41-44,
51-54, 61-78).  `fuel` bounds the loop of the file; `none` if it goes on. -/
def advance (dev : StreamDev W D) (fuel : Nat) : SM (W × Ext4Directory D) (Option Unit) := do
  let s ← SM.get
  let bs ← SM.lift s.2.internal.blockSize
  let r ← onFile (Ext4File.readNextBlock dev fuel (zeros bs))
  match r with
  | none => pure none
  | some (n, storage) => do
    let b ← SM.lift (toBlock bs s.2.internal.inode.metadataChecksumSeed n storage)
    setCurrent b
    pure (some ())

/-- The loop (src/ext4/directory/directory.rs 47-58), at most `n` rounds, each with `fuel` for the
file; `none` if it goes on. -/
def loop (dev : StreamDev W D) (fuel : Nat) :
    Nat → SM (W × Ext4Directory D) (Option (Option DirEntry))
  | 0 => pure none
  | n + 1 => do
    let s ← SM.get
    match s.2.current with
    | .block b => do
      let r ← SM.lift b.readNextEntry
      setCurrent (.block r.2)
      match r.1 with
      | some e => pure (some (some e))
      | none => do
        let a ← advance dev fuel
        match a with
        | none => pure none
        | some () => loop dev fuel n
    | .start => pure (some none)
    | .end => pure (some none)

/-- `read_next_entry` (src/ext4/directory/directory.rs 39-59). -/
def readNextEntry (dev : StreamDev W D) (fuel : Nat) :
    SM (W × Ext4Directory D) (Option (Option DirEntry)) := do
  let s ← SM.get
  match s.2.current with
  | .start => do
    let a ← advance dev fuel
    match a with
    | none => pure none
    | some () => loop dev fuel fuel
  | .block _ => loop dev fuel fuel
  | .end => loop dev fuel fuel

end Ext4Directory

/-- `Ext4File` (src/ext4/file.rs 11-18). -/
inductive OpenedFile (D : Type) where
  | directory (d : Ext4Directory D)
  | regularFile (f : Ext4File D)
  | unsupported (t : FileType)

namespace OpenedFile
variable {W D : Type}

/-- `Ext4File::open` (src/ext4/file.rs 24-30). -/
def «open» (fs : Ext4Fs D) (inode : Inode) : Res (OpenedFile D) :=
  match inode.fileType with
  | .regularFile => do
    let f ← Ext4File.open fs inode
    pure (.regularFile f)
  | .directory => do
    let d ← Ext4Directory.open fs inode
    pure (.directory d)
  | t => pure (.unsupported t)

end OpenedFile

namespace Ext4Fs
variable {W D : Type}

/-- `open_file` (src/ext4/fs.rs 129-131): the arguments are evaluated in order, the clone first. -/
def openFile (dev : StreamDev W D) (number : Nat) : SM (W × Ext4Fs D) (OpenedFile D) := do
  let s ← SM.get
  let fs ← SM.zoom (fun s => s.1) (fun s w => (w, s.2)) (tryClone dev s.2)
  let inode ← readInode dev number
  SM.lift (OpenedFile.open fs inode)

end Ext4Fs
end MdRecover
