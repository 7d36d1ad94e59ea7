import Verif.Spec.SweepPatchy

/-! What of a directory has to be readable for the program that reads on past errors to find a file. -/

namespace MdSpec
open MdRecover

/-- A path leads from place `n` of a table to place `m`, by entries that are not in damaged blocks.  The blocks of
what is at its end can be read, and of each directory on the way, which has one entry in each block, those up to the
block with the entry that the path follows. -/
def Mkfs.ReachesFront (bad : Nat → Prop) (k : Mkfs.Form) (t : List Node) (damaged : Nat → Nat → Bool) :
    Nat → List Bytes → Nat → Prop
  | n, [], m => n = m ∧ BodyIntact bad k t n
  | n, name :: names, m => ∃ es j i, t[n]? = some (.dir es) ∧ es[j]? = some (name, i) ∧
      (∀ x, Mkfs.start k t n * Mkfs.bs k ≤ x → x < (Mkfs.start k t n + j + 1) * Mkfs.bs k → ¬ bad x) ∧
      damaged n j = false ∧ isDots name = false ∧ ReachesFront bad k t damaged i names m

end MdSpec
