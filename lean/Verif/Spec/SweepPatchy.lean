import Verif.Spec.SweepFailing
import Verif.Spec.Salvage

/-! What has to be readable for the program that reads on past errors to find a file. -/

namespace MdSpec
open MdRecover

/-- The blocks of what is at place `n` of a table are readable. -/
def Mkfs.BodyIntact (bad : Nat → Prop) (k : Mkfs.Form) (t : List Node) (n : Nat) : Prop :=
  ∀ nd, t[n]? = some nd → ∀ x, Mkfs.start k t n * Mkfs.bs k ≤ x →
    x < (Mkfs.start k t n + Mkfs.blocks k nd) * Mkfs.bs k → ¬ bad x

/-- A path leads from place `n` of a table to place `m`, by entries that are not in damaged blocks, and the blocks of
everything on the way can be read. -/
def Mkfs.ReachesReadable (bad : Nat → Prop) (k : Mkfs.Form) (t : List Node) (damaged : Nat → Nat → Bool) :
    Nat → List Bytes → Nat → Prop
  | n, [], m => n = m ∧ BodyIntact bad k t n
  | n, name :: names, m => BodyIntact bad k t n ∧ ∃ es j i, t[n]? = some (.dir es) ∧ es[j]? = some (name, i) ∧
      damaged n j = false ∧ isDots name = false ∧ ReachesReadable bad k t damaged i names m

end MdSpec
