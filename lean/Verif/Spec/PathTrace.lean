import Verif.Spec.Trace
import Verif.Spec.Ext4Path

/-! What a device may be asked for by a program that follows a path. -/

namespace MdSpec
open MdRecover

/-- The requests of opening the filesystem: the superblock, and then the group descriptors one after the other, unless
it stopped before (`false`). -/
inductive OpeningAsks (c : Bytes) : Bool → List Asked → Prop where
  | superblock (log : List Asked) : Asks 1 1024 [1024] log → OpeningAsks c false log
  | groups (whole : Bool) (log reads : List Asked) : Asks 1 1024 [1024] log →
      (∀ a ∈ reads, ∃ k n, a = .read k n ∧ k ≤ le (sbOf c) 0xfe 2) →
      bytesReturned reads ≤ groupsOf (sbOf c) * le (sbOf c) 0xfe 2 →
      OpeningAsks c whole (log ++ .seek (.start (groupTableOf (sbOf c))) :: reads)

/-- The requests of reading inode `n`: one seek to it, and reads that together return no more than an inode. -/
def InodeAsks (c : Bytes) (n : Nat) (log : List Asked) : Prop :=
  ∃ reads, log = .seek (.start (inodeSlot c n)) :: reads ∧
    (∀ a ∈ reads, ∃ k m, a = .read k m ∧ k ≤ le (sbOf c) 0x58 2) ∧ bytesReturned reads ≤ le (sbOf c) 0x58 2

/-- The requests of reading the blocks `ys` of inode `n`, whose blocks with those of its tree are `order`. -/
def BlocksAsk (c : Bytes) (n : Nat) (order ys : List Nat) (log : List Asked) : Prop :=
  ReadOrder c (blockSizeOf (sbOf c)) (rootNode c n) 0 order ∧ ys.Sublist order ∧
    Asks (blockSizeOf (sbOf c)) (blockSizeOf (sbOf c)) ys log

/-- Block `x` of directory `n` holds the record `e`. -/
def HoldsRecord (c : Bytes) (n x : Nat) (e : Bytes) : Prop :=
  ∃ seed es, InodeSeed c n seed ∧ Tiles ((blockOf c (blockSizeOf (sbOf c)) x).take
    (recordsEnd seed (blockOf c (blockSizeOf (sbOf c)) x))) es ∧ e ∈ es

/-- The requests of following a path from inode `n`: of each inode on the way the inode itself and then its blocks,
in their order, until the name is found; of the last one all its blocks.  `false`: it stopped on the way. -/
inductive Walk (c : Bytes) : Nat → List Bytes → Bool → List Asked → Prop where
  /-- stopped before anything was asked for -/
  | before (n : Nat) (names : List Bytes) : Walk c n names false []
  /-- stopped at the inode -/
  | inode (n : Nat) (names : List Bytes) (log : List Asked) : InodeAsks c n log → Walk c n names false log
  /-- stopped at a block of the inode, or in it -/
  | blocks (n : Nat) (names : List Bytes) (log rest : List Asked) (order ys : List Nat) : InodeAsks c n log →
      BlocksAsk c n order ys rest → Walk c n names false (log ++ rest)
  /-- the inode is not what it would have to be: not a directory, if there are more names, and not a regular file at
  the end -/
  | other (n : Nat) (names : List Bytes) (log : List Asked) : InodeAsks c n log →
      (names ≠ [] → typeNumber c n ≠ 4) → (names = [] → typeNumber c n ≠ 8) → Walk c n names true log
  /-- the whole directory was read: no record has the name -/
  | missing (n : Nat) (name : Bytes) (names : List Bytes) (log rest : List Asked) (order : List Nat)
      (records : List Bytes) : InodeAsks c n log → BlocksAsk c n order order rest → DirectoryAt c n records →
      (∀ x ∈ records, ¬ Names name x) → Walk c n (name :: names) true (log ++ rest)
  /-- the whole file was read -/
  | file (n : Nat) (log rest : List Asked) (order : List Nat) : typeNumber c n = 8 → InodeAsks c n log →
      BlocksAsk c n order order rest → Walk c n [] true (log ++ rest)
  /-- a record with the name was found: the directory was read from its beginning up to the block that holds the
  record -/
  | into (n : Nat) (name : Bytes) (names : List Bytes) (log blocks rest : List Asked) (order front : List Nat) (x : Nat)
      (before after : List Bytes) (e : Bytes) (whole : Bool) : InodeAsks c n log →
      BlocksAsk c n order (front ++ [x]) blocks → front ++ [x] <+: order → HoldsRecord c n x e →
      DirectoryAt c n (before ++ e :: after) → Names name e → (∀ x ∈ before, ¬ Names name x) →
      Walk c (recordInode e) names whole rest → Walk c n (name :: names) whole (log ++ blocks ++ rest)

end MdSpec
