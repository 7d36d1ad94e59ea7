import Verif.Spec.Ext4Damage
import Verif.Spec.Mkfs

/-! A volume with checksums whose directories have been damaged, and what is to be found on it. -/

namespace MdSpec
open MdRecover Mkfs

/-- Block `x` is the block number `j` of the directory at place `i` of the table. -/
def DirectoryBlock (k : Form) (t : List Node) (i j x : Nat) : Prop :=
  ∃ es, t[i]? = some (.dir es) ∧ j < es.length ∧ x = start k t i + j

/-- The volume `b` is `a`, written from the table, except that in each block of a directory up to four consecutive
bytes may have changed.  Any number of blocks may be damaged this way. -/
structure DirectoriesDamaged (k : Form) (t : List Node) (a b : Bytes) : Prop where
  length : b.length = a.length
  blocks : ∀ x, blockOf b (bs k) x = blockOf a (bs k) x ∨
    ((∃ i j, DirectoryBlock k t i j x) ∧ DamagedIn 0 (bs k) (blockOf a (bs k) x) (blockOf b (bs k) x))

/-- The block number `j` of the directory at place `i` is damaged. -/
def damagedBlock (k : Form) (t : List Node) (a b : Bytes) (i j : Nat) : Bool :=
  blockOf b (bs k) (start k t i + j) != blockOf a (bs k) (start k t i + j)

/-- What is at the end of a path that begins at place `n` of the table, if some blocks of directories cannot be
used: the entries of a directory, which has one in each block, are looked at in order, up to the one with the name or
to a block that cannot be used. -/
def atPathDamaged (t : List Node) (bad : Nat → Nat → Bool) : Nat → List Bytes → Res Found
  | n, [] => .ok (atPath t n [])
  | n, name :: names =>
    match t[n]? with
    | some (.dir es) =>
      match es.zipIdx.find? (fun e => bad n e.2 || e.1.1 == name) with
      | some e => if bad n e.2 then .err .invalidData else atPathDamaged t bad e.1.2 names
      | none => .ok .missing
    | _ => .ok .otherType

end MdSpec
