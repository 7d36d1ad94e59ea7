import Verif.Spec.PathFound
import Verif.Spec.Ext4Tree

/-! What must be on a volume, whatever else is on it, for a program that reads whole trees to have returned a tree:
the blocks and the records it went by. -/

namespace MdSpec
open MdRecover

/-- A record in use that does not show "." or "..". -/
def isShown (e : Bytes) : Bool := recordInode e != 0 && !isDots (shownName e)

/-- At inode `n` is a regular file; the content is that of blocks that its extents map, up to its size. -/
def FileFound (c : Bytes) (n : Nat) (b : Bytes) : Prop :=
  InodeReadable c n ∧ typeNumber c n = 8 ∧ hasExtents c n ∧ ∃ xs, MappedBlocks c n xs ∧
    sizeOf c n ≤ xs.length * blockSizeOf (sbOf c) ∧
    xs.length * blockSizeOf (sbOf c) < sizeOf c n + blockSizeOf (sbOf c) ∧
    b = (xs.flatMap (blockOf c (blockSizeOf (sbOf c)))).take (sizeOf c n)

/-- At inode `n` is this tree, of at most this depth: a file; or a directory, the entries being the records in use
of all its blocks, with the names they show; or something else. -/
def TreeFound (c : Bytes) : Nat → Nat → Tree → Prop
  | 0, _, _ => False
  | _ + 1, n, .file b => FileFound c n b
  | k + 1, n, .dir es => ∃ xs records, DirectoryStart c n xs records ∧
      sizeOf c n = xs.length * blockSizeOf (sbOf c) ∧
      List.Forall₂ (fun e x => shownName e = x.1 ∧ TreeFound c k (recordInode e) x.2) (records.filter isShown) es
  | _ + 1, n, .other => InodeReadable c n ∧ typeNumber c n ≠ 8 ∧ typeNumber c n ≠ 4

end MdSpec
