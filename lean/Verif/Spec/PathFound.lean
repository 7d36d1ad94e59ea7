import Verif.Spec.Ext4Path

/-! What must be on a volume, whatever else is on it, for a program that follows a path to have found what it
found: the blocks and the records it went by. -/

namespace MdSpec
open MdRecover

/-- Extents of inode `n` map its blocks 0, 1, … to the blocks `xs` of the volume, which lie inside it. -/
def MappedBlocks (c : Bytes) (n : Nat) (xs : List Nat) : Prop :=
  ∀ k x, xs[k]? = some x → ExtentMap c (blockSizeOf (sbOf c)) (rootNode c n) k x ∧
    BlockInside c (blockSizeOf (sbOf c)) x

/-- A name in a record ends before the first zero byte, for a reader that does not look at its length.  For a
`CleanName` it is the name (`C112_clean`). -/
def shownName (e : Bytes) : Bytes := (e.drop 8).takeWhile (· != 0)

/-- A record in use that shows this name. -/
def Shows (name e : Bytes) : Prop := recordInode e ≠ 0 ∧ shownName e = name

/-- Inode `n` is a directory that can be listed; its first blocks are `xs`, all of them sound, with the records
`records`. -/
structure DirectoryStart (c : Bytes) (n : Nat) (xs : List Nat) (records : List Bytes) : Prop where
  readable : InodeReadable c n
  type : typeNumber c n = 4
  notHashed : ¬ flagBit c n 12
  extents : hasExtents c n
  blocks : MappedBlocks c n xs
  inside : xs.length * blockSizeOf (sbOf c) ≤ sizeOf c n
  records : ∃ ess seed, InodeSeed c n seed ∧
    List.Forall₂ (fun x es => BlockSound seed (blockOf c (blockSizeOf (sbOf c)) x) ∧
      Tiles ((blockOf c (blockSizeOf (sbOf c)) x).take
        (recordsEnd seed (blockOf c (blockSizeOf (sbOf c)) x))) es) xs ess ∧
    records = ess.flatten

/-- From inode `n`, the path `names` leads to inode `m`: each name is that of a record of the directory reached,
and of no earlier one. -/
inductive Reaches (c : Bytes) : Nat → List Bytes → Nat → Prop where
  | here (n : Nat) : Reaches c n [] n
  | into (n m : Nat) (name : Bytes) (names : List Bytes) (xs : List Nat) (before after : List Bytes)
      (e : Bytes) : DirectoryStart c n xs (before ++ e :: after) → Shows name e →
      (∀ x ∈ before, ¬ Shows name x) → Reaches c (recordInode e) names m → Reaches c n (name :: names) m

/-- What is on the volume if a program that follows a path from the root, inode 2, ends like this. -/
inductive Backed (c : Bytes) (names : List Bytes) : Found → Prop where
  /-- at the end of the path is a regular file; the content is that of its blocks, up to its size -/
  | content (m : Nat) (xs : List Nat) : Reaches c 2 names m → InodeReadable c m → typeNumber c m = 8 →
      hasExtents c m → MappedBlocks c m xs → sizeOf c m ≤ xs.length * blockSizeOf (sbOf c) →
      xs.length * blockSizeOf (sbOf c) < sizeOf c m + blockSizeOf (sbOf c) →
      Backed c names (.content ((xs.flatMap (blockOf c (blockSizeOf (sbOf c)))).take (sizeOf c m)))
  /-- a directory on the way has no record with the name; the records are those of all its blocks -/
  | missing (front rest : List Bytes) (name : Bytes) (n : Nat) (xs : List Nat) (records : List Bytes) :
      names = front ++ name :: rest → Reaches c 2 front n → DirectoryStart c n xs records →
      sizeOf c n = xs.length * blockSizeOf (sbOf c) → (∀ x ∈ records, ¬ Shows name x) →
      Backed c names .missing
  /-- something on the way is not a directory -/
  | notADirectory (front rest : List Bytes) (name : Bytes) (n : Nat) :
      names = front ++ name :: rest → Reaches c 2 front n → InodeReadable c n → typeNumber c n ≠ 4 →
      Backed c names .otherType
  /-- what is at the end is not a regular file -/
  | notAFile (m : Nat) : Reaches c 2 names m → InodeReadable c m → typeNumber c m ≠ 8 →
      Backed c names .otherType

/-- All files of the volume have less than 2^32 blocks, or overflow is checked by the build. -/
def AllCounted [Build] (c : Bytes) : Prop := ∀ n, InodeReadable c n → BlocksCounted c (sizeOf c n)

end MdSpec
