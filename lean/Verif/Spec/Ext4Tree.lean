import Verif.Spec.Mkfs

/-! Whole trees of files: as the bytes of a volume describe them, as a table of files describes them, and a
program that reads them with calls of the API only. -/

namespace MdSpec
open MdRecover

/-- A file with its content; a directory with its entries in order; or something else (a link, a device). -/
inductive Tree where
  | file (content : Bytes)
  | dir (entries : List (Bytes × Tree))
  | other

/-- "." or "..". -/
def isDots (name : Bytes) : Bool := name == [46] || name == [46, 46]

/-- A record in use, not for "." or "..". -/
def isListed (e : Bytes) : Bool := recordInode e != 0 && !isDots (recordName e)

/-- The bytes of the volume describe this tree, of at most this depth, at inode `n`; all names are clean. -/
def TreeAt (c : Bytes) : Nat → Nat → Tree → Prop
  | 0, _, _ => False
  | _ + 1, n, .file b => FileAt c n b
  | k + 1, n, .dir es => ∃ records, DirectoryAt c n records ∧
      (∀ e ∈ records, recordInode e ≠ 0 → CleanName e) ∧
      List.Forall₂ (fun e x => recordName e = x.1 ∧ TreeAt c k (recordInode e) x.2) (records.filter isListed) es
  | _ + 1, n, .other => InodeReadable c n ∧ typeNumber c n ≠ 8 ∧ typeNumber c n ≠ 4

/-- The tree at place `n` of a table of files, if it is of at most this depth. -/
def treeOf (t : List Node) : Nat → Nat → Option Tree
  | 0, _ => none
  | k + 1, n =>
    match t[n]? with
    | some (.file b) => some (.file b)
    | some (.dir es) =>
      ((es.filter fun e => !isDots e.1).mapM fun e => (treeOf t k e.2).map fun x => (e.1, x)).map .dir
    | none => none

/-! ## Trees in tables -/

mutual
/-- The number of files and directories. -/
def Tree.count : Tree → Nat
  | .file _ => 1
  | .dir es => countAll es + 1
  | .other => 1
def countAll : List (Bytes × Tree) → Nat
  | [] => 0
  | (_, x) :: es => x.count + countAll es
end

mutual
def Tree.depth : Tree → Nat
  | .file _ => 1
  | .dir es => depthAll es + 1
  | .other => 1
def depthAll : List (Bytes × Tree) → Nat
  | [] => 0
  | (_, x) :: es => max x.depth (depthAll es)
end

/-- The entries of a directory whose subtrees follow each other from place `n` on. -/
def placesFrom : Nat → List (Bytes × Tree) → List (Bytes × Nat)
  | _, [] => []
  | n, (name, x) :: es => (name, n) :: placesFrom (n + x.count) es

mutual
/-- The tree as a part of a table that begins at place `n`: each directory is followed by its subtrees. -/
def Tree.rows (n : Nat) : Tree → List Node
  | .file b => [.file b]
  | .dir es => .dir (placesFrom (n + 1) es) :: rowsAll (n + 1) es
  | .other => [.file []]
def rowsAll (n : Nat) : List (Bytes × Tree) → List Node
  | [] => []
  | (_, x) :: es => x.rows n ++ rowsAll (n + x.count) es
end

mutual
/-- Only files and directories, and no "." and ".." among the names. -/
def Tree.Plain : Tree → Prop
  | .file _ => True
  | .dir es => PlainAll es
  | .other => False
def PlainAll : List (Bytes × Tree) → Prop
  | [] => True
  | (name, x) :: es => isDots name = false ∧ x.Plain ∧ PlainAll es
end

/-! ## The program -/

section
variable [Build] {W D : Type}

/-- Read entries to the end: names and inodes of those in use, without "." and "..".  `none`: not finished. -/
def listAll (dev : StreamDev W D) (rounds : Nat) : Nat → SM (W × Ext4Directory D) (Option (List (Bytes × Nat)))
  | 0 => pure none
  | k + 1 => do
    match ← Ext4Directory.readNextEntry dev rounds with
    | none => pure none
    | some none => pure (some [])
    | some (some e) => do
      let rest ← listAll dev rounds k
      pure (if e.inode ≠ 0 ∧ isDots e.name.bytes = false then rest.map ((e.name.bytes, e.inode) :: ·) else rest)

/-- Go to each of the inodes. -/
def walkAll {S : Type} (go : Nat → SM S (Option Tree)) :
    List (Bytes × Nat) → SM S (Option (List (Bytes × Tree)))
  | [] => pure (some [])
  | e :: es => do
    match ← go e.2 with
    | none => pure none
    | some x => do
      let rest ← walkAll go es
      pure (rest.map ((e.1, x) :: ·))

/-- Read all there is at an inode and below, to a depth.  `none`: deeper, or not finished. -/
def walk (dev : StreamDev W D) (rounds : Nat) : Nat → Nat → SM (W × Ext4Fs D) (Option Tree)
  | 0, _ => pure none
  | k + 1, n => do
    match ← Ext4Fs.openFile dev n with
    | .regularFile f => do
      let bs ← SM.lift f.blockSize
      let r ← onHandle f (readBlocks dev rounds bs rounds)
      pure (r.map .file)
    | .directory d => do
      match ← onHandle d (listAll dev rounds rounds) with
      | none => pure none
      | some es => do
        let r ← walkAll (walk dev rounds k) es
        pure (r.map .dir)
    | _ => pure (some .other)

/-- Open the filesystem on a device, and read all there is from the root on. -/
def readTree (dev : StreamDev W D) (rounds depth : Nat) (d : D) : SM W (Option Tree) := do
  let fs ← Ext4Fs.open dev d
  SM.withLocal fs (walk dev rounds depth 2)

end
end MdSpec
