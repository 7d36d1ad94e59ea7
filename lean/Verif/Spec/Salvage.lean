import Verif.Spec.TreeFound
import Verif.Spec.NoPanic

/-! A program that saves what it can: it goes on after errors, and marks what it could not read. -/

namespace MdSpec
open MdRecover

/-- As `Tree`, where something may be lost. -/
inductive Saved where
  | file (content : Bytes)
  | dir (entries : List (Bytes × Saved))
  | other
  | lost

/-- What was saved at the end of a path; `none` if it is lost, or a directory on the way is. -/
def savedAt : Saved → List Bytes → Option Found
  | .lost, _ => none
  | .file b, [] => some (.content b)
  | .dir _, [] => some .otherType
  | .other, [] => some .otherType
  | .file _, _ :: _ => some .otherType
  | .other, _ :: _ => some .otherType
  | .dir es, name :: names =>
    match es.find? (·.1 == name) with
    | none => some .missing
    | some e => savedAt e.2 names

/-- As `TreeFound`: what was saved is on the volume.  Nothing is said of what is lost. -/
def SavedFound (c : Bytes) : Nat → Nat → Saved → Prop
  | _, _, .lost => True
  | 0, _, _ => False
  | _ + 1, n, .file b => FileFound c n b
  | k + 1, n, .dir es => ∃ xs records, DirectoryStart c n xs records ∧
      sizeOf c n = xs.length * blockSizeOf (sbOf c) ∧
      List.Forall₂ (fun e x => shownName e = x.1 ∧ SavedFound c k (recordInode e) x.2) (records.filter isShown) es
  | _ + 1, n, .other => InodeReadable c n ∧ typeNumber c n ≠ 8 ∧ typeNumber c n ≠ 4

/-! ## On a written volume -/

/-- The places of a table that a path leads to, beginning at place `n`. -/
def placesOn (t : List Node) : Nat → List Bytes → List Nat
  | n, [] => [n]
  | n, name :: names => n ::
    match t[n]? with
    | some (.dir es) =>
      match es.find? (fun e => e.1 == name) with
      | some e => placesOn t e.2 names
      | none => []
    | _ => []

/-- What is in front of the files and directories can be read. -/
def Mkfs.HeadIntact (bad : Nat → Prop) (k : Mkfs.Form) (t : List Node) : Prop :=
  ∀ x, x < (firstData k + 2 + tableBlocks k t) * bs k → ¬ bad x

/-- The blocks of the files and directories on the path can be read. -/
def Mkfs.BodiesIntact (bad : Nat → Prop) (k : Mkfs.Form) (t : List Node) (names : List Bytes) : Prop :=
  ∀ i ∈ placesOn t 0 names, ∀ nd, t[i]? = some nd →
    ∀ x, start k t i * bs k ≤ x → x < (start k t i + blocks k nd) * bs k → ¬ bad x

/-! ## The program -/

/-- `none` for an error. -/
def attempt {S α : Type} (m : SM S (Option α)) : SM S (Option α) := fun s =>
  match m s with
  | (s', .err _) => (s', .ok none)
  | x => x

/-- Go to each of the inodes. -/
def saveAll {S α : Type} (go : Nat → SM S α) : List (Bytes × Nat) → SM S (List (Bytes × α))
  | [] => pure []
  | e :: es => do
    let x ← go e.2
    let rest ← saveAll go es
    pure ((e.1, x) :: rest)

section
variable [Build] {W D : Type}

/-- Read what can be read at an inode and below, to a depth. -/
def save (dev : StreamDev W D) (rounds : Nat) : Nat → Nat → SM (W × Ext4Fs D) Saved
  | 0, _ => pure .lost
  | k + 1, n => do
    match ← attempt (do let x ← Ext4Fs.openFile dev n; pure (some x)) with
    | none => pure .lost
    | some (.regularFile f) => do
      match ← attempt (do let bs ← SM.lift f.blockSize; onHandle f (readBlocks dev rounds bs rounds)) with
      | none => pure .lost
      | some b => pure (.file b)
    | some (.directory d) => do
      match ← attempt (onHandle d (listAll dev rounds rounds)) with
      | none => pure .lost
      | some es => do
        let r ← saveAll (save dev rounds k) es
        pure (.dir r)
    | some (.unsupported _) => pure .other

/-- Open the filesystem on a device, and save what can be read from the root on. -/
def saveTree (dev : StreamDev W D) (rounds depth : Nat) (d : D) : SM W Saved := do
  let fs ← Ext4Fs.open dev d
  SM.withLocal fs (save dev rounds depth 2)

end
end MdSpec
