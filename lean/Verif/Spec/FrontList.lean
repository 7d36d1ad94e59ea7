import Verif.Spec.Front
import Verif.Spec.Mkfs

/-! Directories in front of what cannot be read: the entries of their first blocks. -/

namespace MdSpec
open MdRecover

/-- The records in the first `m` blocks of the directory at inode `n`. -/
def FrontRecords (c : Bytes) (n m : Nat) (es : List Bytes) : Prop :=
  ∃ xs ess seed, Contiguous c (blockSizeOf (sbOf c)) (rootNode c n) 0 0 xs ∧ InodeSeed c n seed ∧
    List.Forall₂ (fun x es => Tiles ((blockOf c (blockSizeOf (sbOf c)) x).take
      (recordsEnd seed (blockOf c (blockSizeOf (sbOf c)) x))) es) xs ess ∧ es = (ess.take m).flatten

/-- The inode of the directory, the nodes of its extent tree, and its blocks up to one with a record of this name are
readable. -/
structure EntryIntact (bad : Nat → Prop) (c : Bytes) (n : Nat) (name : Bytes) : Prop where
  inode : Intact bad c (inodeSlot c n) (le (sbOf c) 0x58 2)
  nodes : NodesIntact bad c n
  entry : ∃ m es e, FrontIntact bad c n m ∧ FrontRecords c n m es ∧ e ∈ es ∧ Names name e

/-- What is needed to come to the end of the path: the structures of the filesystem, the entries on the way, and the
inode at the end with the nodes of its extent tree. -/
structure EntriesIntact (bad : Nat → Prop) (c : Bytes) (names : List Bytes) (n : Nat) : Prop where
  fs : FsIntact bad c
  directories : ∀ front name rest k, names = front ++ name :: rest → Leads c CleanName 2 front k →
    EntryIntact bad c k name
  inode : Intact bad c (inodeSlot c n) (le (sbOf c) 0x58 2)
  nodes : NodesIntact bad c n

/-- On a volume written from the table `t`, the path `names` leads from place `i` to place `n`, and of each directory
on the way the blocks up to the one with the entry are readable. -/
def Mkfs.WayClear (bad : Nat → Prop) (k : Mkfs.Form) (t : List Node) : Nat → List Bytes → Nat → Prop
  | i, [], n => i = n
  | i, name :: names, n => ∃ before e after, t[i]? = some (.dir (before ++ e :: after)) ∧ e.1 = name ∧
      (∀ x ∈ before, x.1 ≠ name) ∧
      (∀ x, Mkfs.start k t i * Mkfs.bs k ≤ x → x < (Mkfs.start k t i + (before.length + 1)) * Mkfs.bs k → ¬ bad x) ∧
      Mkfs.WayClear bad k t e.2 names n

section
variable [Build] {W D : Type}

/-- Read entries until there are no more or a read fails: what was read, and whether it is all. -/
def listFront (dev : StreamDev W D) (rounds : Nat) : Nat → SM (W × Ext4Directory D) (List DirEntry × Bool)
  | 0 => pure ([], false)
  | k + 1 => do
    match ← attempt (Ext4Directory.readNextEntry dev rounds) with
    | none => pure ([], false)
    | some none => pure ([], true)
    | some (some e) => do
      let r ← listFront dev rounds k
      pure (e :: r.1, r.2)

/-- Follow the path from inode `n`, as `follow`, and list the directory. -/
def followList (dev : StreamDev W D) (rounds : Nat) :
    List Bytes → Nat → SM (W × Ext4Fs D) (Option (List DirEntry × Bool))
  | [], n => do
    match ← Ext4Fs.openFile dev n with
    | .directory d => do
      let r ← onHandle d (listFront dev rounds rounds)
      pure (some r)
    | _ => pure none
  | name :: names, n => do
    match ← Ext4Fs.openFile dev n with
    | .directory d => do
      match ← onHandle d (lookUp dev rounds name rounds) with
      | some (some m) => followList dev rounds names m
      | _ => pure none
    | _ => pure none

/-- Open the filesystem on a device, follow the path from the root, and list the directory. -/
def listFrontPath (dev : StreamDev W D) (rounds : Nat) (d : D) (names : List Bytes) :
    SM W (Option (List DirEntry × Bool)) := do
  let fs ← Ext4Fs.open dev d
  SM.withLocal fs (followList dev rounds names 2)

end
end MdSpec
