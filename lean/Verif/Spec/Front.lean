import Verif.Spec.Salvage

/-! The part of a file in front of what cannot be read: a program that reads a file until it ends or a call fails,
with calls of the API only, and what has to be readable. -/

namespace MdSpec
open MdRecover

/-- The nodes of the extent tree of inode `n` that are in blocks of their own are readable. -/
def NodesIntact (bad : Nat → Prop) (c : Bytes) (n : Nat) : Prop :=
  ∀ node i, TreeNode c (blockSizeOf (sbOf c)) (rootNode c n) node → NodeFits node → i < nodeEntries node →
    nodeDepth node ≠ 0 →
    Intact bad c (indexChild (nodeEntry node i) * blockSizeOf (sbOf c)) (blockSizeOf (sbOf c))

/-- The first `m` blocks of the file at inode `n` (all, if there are not as many) are readable. -/
def FrontIntact (bad : Nat → Prop) (c : Bytes) (n m : Nat) : Prop :=
  ∀ xs, Contiguous c (blockSizeOf (sbOf c)) (rootNode c n) 0 0 xs → ∀ x ∈ xs.take m,
    Intact bad c (x * blockSizeOf (sbOf c)) (blockSizeOf (sbOf c))

/-- What is needed to come to the file at the end of the path: the structures of the filesystem, the directories on
the way, and the inode of the file with the nodes of its extent tree. -/
structure WayIntact (bad : Nat → Prop) (c : Bytes) (names : List Bytes) (n : Nat) : Prop where
  fs : FsIntact bad c
  directories : ∀ front name rest k, names = front ++ name :: rest → Leads c CleanName 2 front k → InodeIntact bad c k
  inode : Intact bad c (inodeSlot c n) (le (sbOf c) 0x58 2)
  nodes : NodesIntact bad c n

section
variable [Build] {W D : Type}

/-- Read blocks until a read returns zero or fails: what was read, and whether it is all. -/
def readFront (dev : StreamDev W D) (rounds blockSize : Nat) : Nat → SM (W × Ext4File D) (Bytes × Bool)
  | 0 => pure ([], false)
  | k + 1 => do
    match ← attempt (Ext4File.readNextBlock dev rounds (zeros blockSize)) with
    | none => pure ([], false)
    | some (n, b) =>
      if n = 0 then pure ([], true)
      else do
        let r ← readFront dev rounds blockSize k
        pure (b.take n ++ r.1, r.2)

/-- Follow the path from inode `n`, as `follow`, and read the file. -/
def followFront (dev : StreamDev W D) (rounds : Nat) : List Bytes → Nat → SM (W × Ext4Fs D) (Option (Bytes × Bool))
  | [], n => do
    match ← Ext4Fs.openFile dev n with
    | .regularFile f => do
      let bs ← SM.lift f.blockSize
      let r ← onHandle f (readFront dev rounds bs rounds)
      pure (some r)
    | _ => pure none
  | name :: names, n => do
    match ← Ext4Fs.openFile dev n with
    | .directory d => do
      match ← onHandle d (lookUp dev rounds name rounds) with
      | some (some m) => followFront dev rounds names m
      | _ => pure none
    | _ => pure none

/-- Open the filesystem on a device, follow the path from the root, and read the file. -/
def readFrontPath (dev : StreamDev W D) (rounds : Nat) (d : D) (names : List Bytes) :
    SM W (Option (Bytes × Bool)) := do
  let fs ← Ext4Fs.open dev d
  SM.withLocal fs (followFront dev rounds names 2)

end
end MdSpec
