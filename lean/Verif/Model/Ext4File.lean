import Verif.Model.Ext4Fs
import Verif.Model.Ext4Extent

/- Reading files.  Models /repo/src/ext4/file.rs and /repo/src/ext4/regular_file.rs. -/

namespace MdRecover
variable [Build]

/-- `ReadStackEntry` (src/ext4/file.rs 44-53). -/
inductive StackEntry where
  | tree (t : ExtentTree) (pos : Nat)
  | extent (e : Extent) (pos : Nat)
  deriving DecidableEq, Repr

/-- `Ext4FileInternal` (src/ext4/file.rs 33-42); `Ext4RegularFile` is a wrapper around it
(src/ext4/regular_file.rs 8-10).  The top of the stack is the head of the list. -/
structure Ext4File (D : Type) where
  fs : Ext4Fs D
  inode : Inode
  stack : List StackEntry
  blockPos : Nat
  bytePos : Nat

namespace Ext4File
variable {W D : Type}

/-- `Ext4FileInternal::open` (src/ext4/file.rs 59-71) and `Ext4RegularFile::open`
(src/ext4/regular_file.rs 16-18). -/
def «open» (fs : Ext4Fs D) (inode : Inode) : Res (Ext4File D) := do
  let t ← Res.ofOption .unsupported (ExtentTree.fromInode inode)
  pure { fs, inode, stack := [.tree t 0], blockPos := 0, bytePos := 0 }

/-- `block_size` (src/ext4/file.rs 73-75). -/
def blockSize (f : Ext4File D) : Res Nat := f.fs.blockSize

/-- `file_size_bytes` (src/ext4/file.rs 77-79, src/ext4/regular_file.rs 20-22). -/
def fileSizeBytes (f : Ext4File D) : Nat := f.inode.fileSizeBytes

/-- A call on the `fs` field (src/ext4/file.rs 104, 136). -/
def onFs {α : Type} (m : SM (W × Ext4Fs D) α) : SM (W × Ext4File D) α :=
  SM.zoom (fun s => (s.1, s.2.fs)) (fun s t => (t.1, { s.2 with fs := t.2 })) m

/-- Popping and pushing (src/ext4/file.rs 87, 106-113, 120-127, 141-144): the new stack. -/
def setStack (st : List StackEntry) : SM (W × Ext4File D) Unit :=
  SM.modify fun s => (s.1, { s.2 with stack := st })

/-- A branch with an entry at `pos` (src/ext4/file.rs 98-114); `rest` is the stack below it. -/
def stepBranch (dev : StreamDev W D) (n : ExtentNode) (pos : Nat) (rest : List StackEntry) :
    SM (W × Ext4File D) (Option (Nat × Bytes)) := do
  let s ← SM.get
  let f := s.2
  let e ← SM.lift (n.entryAt pos)
  let index : ExtentIndex := ⟨e⟩
  if index.block ≠ f.blockPos then SM.fail .invalidData
  else do
    let bs ← SM.lift f.blockSize
    let block ← onFs (Ext4Fs.readBlock dev index.leaf (zeros bs))
    setStack (.tree (.fromBlock f.inode block) 0 :: .tree (.branch n) (pos + 1) :: rest)
    pure none

/-- A leaf with an entry at `pos` (src/ext4/file.rs 115-128). -/
def stepLeaf (n : ExtentNode) (pos : Nat) (rest : List StackEntry) :
    SM (W × Ext4File D) (Option (Nat × Bytes)) := do
  let s ← SM.get
  let f := s.2
  let e ← SM.lift (n.entryAt pos)
  let extent : Extent := ⟨e⟩
  if extent.firstFileBlockNumber ≠ f.blockPos then SM.fail .invalidData
  else do
    setStack (.extent extent 0 :: .tree (.leaf n) (pos + 1) :: rest)
    pure none

/-- A tree on top of the stack (src/ext4/file.rs 95-130). -/
def stepTree (dev : StreamDev W D) (t : ExtentTree) (pos : Nat) (rest : List StackEntry) :
    SM (W × Ext4File D) (Option (Nat × Bytes)) :=
  if pos < t.entryCount then
    match t with
    | .branch n => stepBranch dev n pos rest
    | .leaf n => stepLeaf n pos rest
  else pure none

/-- An extent on top of the stack (src/ext4/file.rs 131-152).  The sum of block number and `pos`
fits (48 and 15 bits); the additions to `byte_pos` and to `pos` cannot overflow; `block_pos` is a
`u32` whose addition may overflow. -/
def stepExtent (dev : StreamDev W D) (e : Extent) (pos : Nat) (rest : List StackEntry)
    (buf : Bytes) : SM (W × Ext4File D) (Option (Nat × Bytes)) := do
  let s ← SM.get
  let f := s.2
  if pos < e.length then
    if f.bytePos ≥ f.fileSizeBytes then SM.fail .invalidData
    else do
      let buf' ← onFs (Ext4Fs.readBlock dev (e.firstFsBlockNumber + pos) buf)
      let bs ← SM.lift f.blockSize
      let bytesRead := min (f.fileSizeBytes - f.bytePos) bs
      setStack (.extent e (pos + 1) :: rest)
      SM.modify fun s => (s.1, { s.2 with bytePos := s.2.bytePos + bytesRead })
      let p ← SM.lift (add32 f.blockPos 1)
      SM.modify fun s => (s.1, { s.2 with blockPos := p })
      pure (some (bytesRead, buf'))
  else pure none

/-- One round of the loop (src/ext4/file.rs 86-155): `none` if the loop goes on.  An entry that was
popped stays popped if the round ends in an error. -/
def step (dev : StreamDev W D) (buf : Bytes) : SM (W × Ext4File D) (Option (Nat × Bytes)) := do
  let s ← SM.get
  let f := s.2
  match f.stack with
  | [] => if f.bytePos = f.fileSizeBytes then pure (some (0, buf)) else SM.fail .unexpectedEof
  | .tree t pos :: rest => do
    setStack rest
    stepTree dev t pos rest
  | .extent e pos :: rest => do
    setStack rest
    stepExtent dev e pos rest buf

/-- The loop (src/ext4/file.rs 86-156), at most `fuel` rounds: `none` if it goes on after them.  The
Rust loop has no bound; the theorems quantify over `fuel`. -/
def loop (dev : StreamDev W D) (buf : Bytes) : Nat → SM (W × Ext4File D) (Option (Nat × Bytes))
  | 0 => pure none
  | fuel + 1 => do
    let r ← step dev buf
    match r with
    | some a => pure (some a)
    | none => loop dev buf fuel

/-- `read_next_block` (src/ext4/file.rs 81-157, src/ext4/regular_file.rs 24-26): the number of bytes
and the buffer.  What the buffer holds after an error is not modelled. -/
def readNextBlock (dev : StreamDev W D) (fuel : Nat) (buf : Bytes) :
    SM (W × Ext4File D) (Option (Nat × Bytes)) := do
  let s ← SM.get
  let f := s.2
  let bs ← SM.lift f.blockSize
  if buf.length < bs then SM.fail .invalidInput else loop dev buf fuel

end Ext4File

end MdRecover
