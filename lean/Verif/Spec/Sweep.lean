import Verif.Spec.DirDamage
import Verif.Spec.Rescue

/-! A program that reads on past errors in directories, and what it is to find on a volume with damaged directories. -/

namespace MdSpec
open MdRecover

/-- What was found; the number is that of the errors while the directory was read. -/
inductive Swept where
  | file (content : Bytes)
  | dir (entries : List (Bytes × Swept)) (errors : Nat)
  | other
  | lost

/-- What was found at the end of a path. -/
def sweptAt : Swept → List Bytes → Option Swept
  | x, [] => some x
  | .dir es _, name :: names =>
    match es.find? (·.1 == name) with
    | none => none
    | some e => sweptAt e.2 names
  | _, _ :: _ => none

/-- What is at place `n` of a table and below, to a depth, without the entries in blocks that cannot be used; these
are counted. -/
def sweptOf (t : List Node) (bad : Nat → Nat → Bool) : Nat → Nat → Swept
  | 0, _ => .lost
  | k + 1, n =>
    match t[n]? with
    | some (.file b) => .file b
    | some (.dir es) =>
      .dir ((es.zipIdx.filter fun e => !bad n e.2 && !isDots e.1.1).map fun e => (e.1.1, sweptOf t bad k e.1.2))
        (es.zipIdx.countP fun e => bad n e.2)
    | none => .lost

/-- A path leads from place `n` of a table to place `m`, by entries that are not in blocks that cannot be used. -/
def ReachesBy (t : List Node) (bad : Nat → Nat → Bool) : Nat → List Bytes → Nat → Prop
  | n, [], m => n = m
  | n, name :: names, m => ∃ es j i, t[n]? = some (.dir es) ∧ es[j]? = some (name, i) ∧ bad n j = false ∧
      isDots name = false ∧ ReachesBy t bad i names m

/-- No directory has two entries with the same name. -/
def DistinctNames (t : List Node) : Prop := ∀ es, .dir es ∈ t → (es.map (·.1)).Nodup

/-! ## The program -/

/-- `none` for an error. -/
def caught {S α : Type} (m : SM S α) : SM S (Option α) := fun s =>
  match m s with
  | (s', .err _) => (s', .ok none)
  | (s', .ok a) => (s', .ok (some a))
  | (s', .panic) => (s', .panic)

section
variable [Build] {W D : Type}

/-- Read entries until there are no more, errors or not: the entries, and the number of errors. -/
def listPast (dev : StreamDev W D) (rounds : Nat) : Nat → SM (W × Ext4Directory D) (List DirEntry × Nat)
  | 0 => pure ([], 0)
  | k + 1 => do
    match ← caught (Ext4Directory.readNextEntry dev rounds) with
    | none => do
      let r ← listPast dev rounds k
      pure (r.1, r.2 + 1)
    | some none => pure ([], 0)
    | some (some none) => pure ([], 0)
    | some (some (some e)) => do
      let r ← listPast dev rounds k
      pure (e :: r.1, r.2)

/-- Read what can be read at an inode and below, to a depth. -/
def sweep (dev : StreamDev W D) (rounds : Nat) : Nat → Nat → SM (W × Ext4Fs D) Swept
  | 0, _ => pure .lost
  | k + 1, n => do
    match ← caught (Ext4Fs.openFile dev n) with
    | none => pure .lost
    | some (.regularFile f) => do
      let bs ← SM.lift f.blockSize
      match ← caught (onHandle f (readBlocks dev rounds bs rounds)) with
      | some (some b) => pure (.file b)
      | _ => pure .lost
    | some (.directory d) => do
      let es ← onHandle d (listPast dev rounds rounds)
      let r ← saveAll (sweep dev rounds k) (kept es.1)
      pure (.dir r es.2)
    | some (.unsupported _) => pure .other

/-- Open the filesystem on a device, and read what can be read from the root on. -/
def sweepTree (dev : StreamDev W D) (rounds depth : Nat) (d : D) : SM W Swept := do
  let fs ← Ext4Fs.open dev d
  SM.withLocal fs (sweep dev rounds depth 2)

end
end MdSpec
