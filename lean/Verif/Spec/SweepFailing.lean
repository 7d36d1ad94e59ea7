import Verif.Spec.Sweep

/-! What the program that reads on past errors may find if the device fails now and then as well. -/

namespace MdSpec
open MdRecover

/-- What was found is at place `n` of the table and below: a file with exactly its content; of a directory the first
ones of the entries that are not in blocks that cannot be used, and behind them what is there.  Anything may be
lost. -/
def SweptWithin (t : List Node) (bad : Nat → Nat → Bool) : Nat → Nat → Swept → Prop
  | _, _, .lost => True
  | 0, _, _ => False
  | _ + 1, n, .file b => t[n]? = some (.file b)
  | k + 1, n, .dir ys _ => ∃ es q, t[n]? = some (.dir es) ∧
      q <+: (es.zipIdx.filter fun e => !bad n e.2 && !isDots e.1.1) ∧
      List.Forall₂ (fun e y => e.1.1 = y.1 ∧ SweptWithin t bad k e.1.2 y.2) q ys
  | _ + 1, _, .other => False

end MdSpec
