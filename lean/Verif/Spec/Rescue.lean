import Verif.Spec.FrontList

/-! A program that saves as much as it can: it goes on after errors, and keeps what it read of a file or a directory
before a call failed. -/

namespace MdSpec
open MdRecover

/-- What is saved; the `Bool` says whether it is all of the file, or all entries of the directory. -/
inductive Rescued where
  | file (content : Bytes) (all : Bool)
  | dir (entries : List (Bytes × Rescued)) (all : Bool)
  | other
  | lost

/-- What was saved at the end of a path. -/
def rescuedAt : Rescued → List Bytes → Option Rescued
  | x, [] => some x
  | .dir es _, name :: names =>
    match es.find? (·.1 == name) with
    | none => none
    | some e => rescuedAt e.2 names
  | _, _ :: _ => none

/-- What was saved at the end of a path to inode `n`, a regular file or a directory, is what is there, from the
beginning up to the first block that cannot be read, and it is marked as all only if it is. -/
def RescuedFront (bad : Nat → Prop) (c : Bytes) (n : Nat) : Rescued → Prop
  | .file q all => ∃ content, FileAt c n content ∧ q <+: content ∧ (all = true → q = content) ∧
      (∀ m, FrontIntact bad c n m → content.take (m * blockSizeOf (sbOf c)) <+: q) ∧
      ((∀ m, FrontIntact bad c n m) → all = true)
  | .dir ys all => ∃ records q, DirectoryAt c n records ∧ ys.map (·.1) = (q.filter isShown).map shownName ∧
      q <+: records ∧ (all = true → q = records) ∧
      (∀ m es, FrontIntact bad c n m → FrontRecords c n m es → es <+: q) ∧
      ((∀ m, FrontIntact bad c n m) → all = true)
  | _ => False

/-- Whatever else is on the volume, what was saved is there: of a file the content of blocks that its extents map;
of a directory, records of its first blocks, and behind them what was saved of their inodes. -/
def RescuedFound (c : Bytes) : Nat → Nat → Rescued → Prop
  | _, _, .lost => True
  | 0, _, _ => False
  | _ + 1, n, .file b all => InodeReadable c n ∧ typeNumber c n = 8 ∧ hasExtents c n ∧ ∃ xs, MappedBlocks c n xs ∧
      b = (xs.flatMap (blockOf c (blockSizeOf (sbOf c)))).take (sizeOf c n) ∧ (all = true → FileFound c n b)
  | k + 1, n, .dir es all => ∃ xs records q, DirectoryStart c n xs records ∧ q <+: records ∧
      (all = true → q = records ∧ sizeOf c n = xs.length * blockSizeOf (sbOf c)) ∧
      List.Forall₂ (fun e x => shownName e = x.1 ∧ RescuedFound c k (recordInode e) x.2) (q.filter isShown) es
  | _ + 1, n, .other => InodeReadable c n ∧ typeNumber c n ≠ 8 ∧ typeNumber c n ≠ 4

/-! ## The program -/

/-- The entries in use, without "." and "..". -/
def kept (es : List DirEntry) : List (Bytes × Nat) :=
  (es.filter fun e => e.inode != 0 && !isDots e.name.bytes).map fun e => (e.name.bytes, e.inode)

section
variable [Build] {W D : Type}

/-- Read as much as can be read at an inode and below, to a depth. -/
def rescue (dev : StreamDev W D) (rounds : Nat) : Nat → Nat → SM (W × Ext4Fs D) Rescued
  | 0, _ => pure .lost
  | k + 1, n => do
    match ← attempt (do let x ← Ext4Fs.openFile dev n; pure (some x)) with
    | none => pure .lost
    | some (.regularFile f) => do
      let bs ← SM.lift f.blockSize
      let r ← onHandle f (readFront dev rounds bs rounds)
      pure (.file r.1 r.2)
    | some (.directory d) => do
      let es ← onHandle d (listFront dev rounds rounds)
      let r ← saveAll (rescue dev rounds k) (kept es.1)
      pure (.dir r es.2)
    | some (.unsupported _) => pure .other

/-- Open the filesystem on a device, and save as much as can be read from the root on. -/
def rescueTree (dev : StreamDev W D) (rounds depth : Nat) (d : D) : SM W Rescued := do
  let fs ← Ext4Fs.open dev d
  SM.withLocal fs (rescue dev rounds depth 2)

end
end MdSpec
